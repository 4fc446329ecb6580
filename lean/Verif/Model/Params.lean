import Verif.Model.Hex
/-
Terminal parameters: internal/protocol/model/device_params.go
-/
namespace JT808

/-- The dynamic types a `ParamValue any` can hold (device_params.go:77-81): what the decoders produce
(`byte`, `word`, `dword`, `str`) and what encoding/json produces (`num` for JSON numbers, `str`, `other` for
null, booleans, arrays and objects).  Simplification: JSON numbers are natural numbers. -/
inductive PV where
  | byte (v : UInt8)
  | word (v : UInt16)
  | dword (v : UInt32)
  | str (s : Str)
  | num (n : Nat)
  | other
  deriving DecidableEq, Repr

/-- any2uint8, device_params.go:122-127.  A float64 out of range is implementation-defined in Go; the model
takes the low bits, as compiled code on amd64 does.  A wrong dynamic type makes the type assertion panic. -/
def any2uint8 : PV → Res UInt8
  | .num n => .ok (UInt8.ofNat n)
  | .byte v => .ok v
  | _ => .panic

/-- any2uint16, device_params.go:133-138. -/
def any2uint16 : PV → Res UInt16
  | .num n => .ok (UInt16.ofNat n)
  | .word v => .ok v
  | _ => .panic

/-- any2uint32, device_params.go:144-149. -/
def any2uint32 : PV → Res UInt32
  | .num n => .ok (UInt32.ofNat n)
  | .dword v => .ok v
  | _ => .panic

/-- `a.(string)`, device_params.go:163, 165, 167. -/
def anyStr : PV → Res Str
  | .str s => .ok s
  | _ => .panic

/-- The six codecs of device_params.go:155-168 (`bytes` is BCD). -/
inductive PKind where
  | byte | word | dword | bytes | string | gbk
  deriving DecidableEq, Repr

/-- decodeByte .. decodeGBK, device_params.go:156-166.  Only the variable-length kinds look at the length. -/
def PKind.decode (env : Env) (k : PKind) (len : Nat) : Rd PV :=
  match k with
  | .byte => do let v ← readByte; pure (.byte v)
  | .word => do let v ← readWord; pure (.word v)
  | .dword => do let v ← readDWord; pure (.dword v)
  | .bytes => do let s ← readBCD len; pure (.str s)
  | .string => do let s ← readString len; pure (.str s)
  | .gbk => do let s ← readGBK env len; pure (.str s)

/-- encodeByte .. encodeGBK, device_params.go:157-167. -/
def PKind.encode (env : Env) (k : PKind) (v : PV) : Res (List UInt8) :=
  match k with
  | .byte => do let x ← any2uint8 v; pure (writeByte [] x)
  | .word => do let x ← any2uint16 v; pure (writeWord [] x)
  | .dword => do let x ← any2uint32 v; pure (writeDWord [] x)
  | .bytes => do let s ← anyStr v; pure (writeBCD [] s)
  | .string => do let s ← anyStr v; pure (writeString [] s)
  | .gbk => do let s ← anyStr v; pure (writeGBK env [] s)

/-- argTable, device_params.go:170-396, as a list. -/
def argList : List (UInt32 × PKind) :=
  [ (0x0001, .dword), (0x0002, .dword), (0x0003, .dword), (0x0004, .dword), (0x0005, .dword), (0x0006, .dword),
    (0x0007, .dword),
    (0x0010, .gbk), (0x0011, .gbk), (0x0012, .gbk), (0x0013, .gbk), (0x0014, .gbk), (0x0015, .gbk), (0x0016, .gbk),
    (0x0017, .gbk),
    (0x0018, .dword), (0x0019, .dword), (0x001A, .gbk), (0x001B, .dword), (0x001C, .dword), (0x001D, .gbk),
    (0x0020, .dword), (0x0021, .dword), (0x0022, .dword), (0x0023, .gbk), (0x0024, .gbk), (0x0025, .gbk),
    (0x0026, .gbk), (0x0027, .dword), (0x0028, .dword), (0x0029, .dword), (0x002C, .dword), (0x002D, .dword),
    (0x002E, .dword), (0x002F, .dword), (0x0030, .dword), (0x0031, .word), (0x0032, .bytes),
    (0x0040, .gbk), (0x0041, .gbk), (0x0042, .gbk), (0x0043, .gbk), (0x0044, .gbk),
    (0x0045, .dword), (0x0046, .dword), (0x0047, .dword), (0x0048, .gbk), (0x0049, .gbk),
    (0x0050, .dword), (0x0051, .dword), (0x0052, .dword), (0x0053, .dword), (0x0054, .dword), (0x0055, .dword),
    (0x0056, .dword), (0x0057, .dword), (0x0058, .dword), (0x0059, .dword), (0x005A, .dword),
    (0x005B, .word), (0x005C, .word), (0x005D, .word), (0x005E, .word), (0x0064, .dword), (0x0065, .dword),
    (0x0070, .dword), (0x0071, .dword), (0x0072, .dword), (0x0073, .dword), (0x0074, .dword), (0x0080, .dword),
    (0x0081, .word), (0x0082, .word), (0x0083, .gbk), (0x0084, .byte), (0x0090, .byte), (0x0091, .byte),
    (0x0092, .byte), (0x0093, .dword), (0x0094, .byte), (0x0095, .dword), (0x0100, .dword), (0x0101, .word),
    (0x0102, .dword), (0x0103, .word), (0x0110, .string),
    (0x0075, .bytes), (0x0076, .bytes), (0x0077, .bytes), (0x0079, .bytes), (0x007A, .bytes), (0x007B, .bytes),
    (0x007C, .bytes) ]

/-- `argTable[id]`, device_params.go:86 and 96. -/
def argTable (id : UInt32) : Option PKind := argList.lookup id

/-- ParamData, device_params.go:77-81. -/
structure ParamData where
  id : UInt32
  len : UInt8
  value : PV
  deriving DecidableEq, Repr

/-- `fn.decode(...)`, device_params.go:90: for an unsupported id `fn` is a nil pointer and this panics (the
"skip it" warning of lines 87-89 does not return). -/
def ParamData.decodeValue (env : Env) (id : UInt32) (len : UInt8) : Rd PV :=
  match argTable id with
  | some k => k.decode env len.toNat
  | none => Rd.panic

/-- (*ParamData).Decode, device_params.go:83-92. -/
def ParamData.decode (env : Env) : Rd ParamData := do
  let id ← readDWord
  let len ← readByte
  let v ← ParamData.decodeValue env id len
  pure ⟨id, len, v⟩

/-- (*ParamData).Encode, device_params.go:94-104; the length byte is `uint8(len(value))`. -/
def ParamData.encode (env : Env) (p : ParamData) : Res (List UInt8) :=
  match argTable p.id with
  | some k =>
    match k.encode env p.value with
    | .ok value => .ok (writeBytes (writeByte (writeDWord [] p.id) (UInt8.ofNat value.length)) value)
    | .err e => .err e
    | .panic => .panic
  | none => .err .paramIDNotSupported

/-- DeviceParams, device_params.go:19-23.  Simplification: `Params` holds no nil pointers. -/
structure DeviceParams where
  phone : Str
  cnt : UInt8
  params : List ParamData
  deriving DecidableEq, Repr

/-- The loop of (*DeviceParams).Decode, device_params.go:29-37. -/
def ParamData.decodeN (env : Env) : Nat → Rd (List ParamData)
  | 0 => pure []
  | n + 1 => do
    let p ← ParamData.decode env
    let ps ← ParamData.decodeN env n
    pure (p :: ps)

/-- (*DeviceParams).Decode, device_params.go:25-39. -/
def DeviceParams.decode (env : Env) (phone : Str) (cnt : UInt8) : Rd DeviceParams := do
  let ps ← ParamData.decodeN env cnt.toNat
  pure ⟨phone, cnt, ps⟩

/-- The loop of (*DeviceParams).Encode, device_params.go:43-51: items that return an error are skipped. -/
def ParamData.encodeAll (env : Env) : List ParamData → Res (List UInt8)
  | [] => .ok []
  | p :: ps =>
    match p.encode env with
    | .ok bs =>
      match ParamData.encodeAll env ps with
      | .ok rest => .ok (bs ++ rest)
      | .err e => .err e
      | .panic => .panic
    | .err _ => ParamData.encodeAll env ps
    | .panic => .panic

/-- (*DeviceParams).Encode, device_params.go:41-53: the count byte is the `ParamCnt` field. -/
def DeviceParams.encode (env : Env) (p : DeviceParams) : Res (List UInt8) :=
  match ParamData.encodeAll env p.params with
  | .ok bs => .ok (writeByte [] p.cnt ++ bs)
  | .err e => .err e
  | .panic => .panic

/-- `paramMap[k] = v` on the map of device_params.go:56, as a list of the values with distinct ids. -/
def pmapSet (m : List ParamData) (p : ParamData) : List ParamData := p :: m.filter (·.id ≠ p.id)

/-- `_, ok := paramMap[id]` -/
def pmapHas (m : List ParamData) (id : UInt32) : Bool := m.any (·.id = id)

/-- Insertion by ascending id. -/
def insertById (p : ParamData) : List ParamData → List ParamData
  | [] => [p]
  | q :: qs => if p.id < q.id then p :: q :: qs else q :: insertById p qs

/-- `sort.Slice(mergeParams, by ParamID)`, device_params.go:70-72.  The ids in the map are distinct, so every
sorting algorithm gives this result. -/
def sortById : List ParamData → List ParamData
  | [] => []
  | p :: ps => insertById p (sortById ps)

/-- (*DeviceParams).Update, device_params.go:55-75.  `ord` is the order in which Go happens to range over the
map (line 67). -/
def DeviceParams.update (ord : List ParamData → List ParamData) (p newP : DeviceParams) : DeviceParams :=
  let m := p.params.foldl pmapSet []
  let m := newP.params.foldl (fun m q => if pmapHas m q.id then pmapSet m q else m) m
  let merged := sortById (ord m)
  { p with params := merged, cnt := UInt8.ofNat merged.length }

end JT808
