import Verif.Model.Params
/-
How gin's ShouldBind fills model.DeviceParams from the body of a parameter-setting request, internal/api/api.go:73-76.
-/
namespace JT808

/-- A JSON value.  `num` is a number written with digits only, `frac` any other number, of which only the whole part is
kept (device_params.go:122-149 drops the rest); a negative one modulo 2^64, as the low bits of a two's complement.
Simplification: numbers are exact, where float64 keeps 53 bits of them. -/
inductive Json where
  | null
  | bool (b : Bool)
  | num (n : Nat)
  | frac (whole : Nat)
  | str (s : Str)
  | arr (l : List Json)
  | obj (l : List (Str × Json))

/-- The body as gin sees it, api.go:74: with the content type application/json the first JSON value in it, or none that
is complete; with another content type the body is taken as a form, which has none of the names of the fields.
Simplification: no XML, YAML or form with the names ParamCnt, Params, DevicePhone. -/
inductive Body where
  | json (j : Json)
  | broken
  | form

/-- A letter in lower case. -/
def lowerByte (c : UInt8) : UInt8 := if 0x41 ≤ c ∧ c ≤ 0x5a then c + 0x20 else c

/-- A key in lower case. -/
def lowerKey (k : Str) : Str := k.map lowerByte

/-- A key as encoding/json compares it: without regard to case, where the long s (U+017F) is an s and the Kelvin sign
(U+212A) a k.  foldFunc and equalFoldRight of the library, used by api.go:74. -/
def foldKey : Str → Str
  | [] => []
  | 0xc5 :: 0xbf :: k => 0x73 :: foldKey k
  | 0xe2 :: 0x84 :: 0xaa :: k => 0x6b :: foldKey k
  | c :: k => lowerByte c :: foldKey k

/-- `"paramcnt"`, the key of device_params.go:21 in lower case; and those of lines 22, 78, 79, 80. -/
def keyParamCnt : Str := [0x70, 0x61, 0x72, 0x61, 0x6d, 0x63, 0x6e, 0x74]
def keyParams : Str := [0x70, 0x61, 0x72, 0x61, 0x6d, 0x73]
def keyParamId : Str := [0x70, 0x61, 0x72, 0x61, 0x6d, 0x69, 0x64]
def keyParamLen : Str := [0x70, 0x61, 0x72, 0x61, 0x6d, 0x6c, 0x65, 0x6e]
def keyParamValue : Str := [0x70, 0x61, 0x72, 0x61, 0x6d, 0x76, 0x61, 0x6c, 0x75, 0x65]

/-- encoding/json into a field of type uint8 (device_params.go:21, 79): the field and whether there was an error. -/
def Json.toUInt8 (old : UInt8) : Json → UInt8 × Bool
  | .null => (old, false)
  | .num n => if n < 256 then (UInt8.ofNat n, false) else (old, true)
  | _ => (old, true)

/-- Into a field of type uint32 (device_params.go:78). -/
def Json.toUInt32 (old : UInt32) : Json → UInt32 × Bool
  | .null => (old, false)
  | .num n => if n < 4294967296 then (UInt32.ofNat n, false) else (old, true)
  | _ => (old, true)

/-- Into a field of type `any` (device_params.go:80). -/
def Json.toAny : Json → PV
  | .num n => .num n
  | .frac n => .num n
  | .str s => .str s
  | _ => .other

/-- One key of a parameter, device_params.go:77-81; other keys are ignored. -/
def ParamData.bindKey (p : ParamData) (k : Str) (v : Json) : ParamData × Bool :=
  if foldKey k = keyParamId then ({ p with id := (v.toUInt32 p.id).1 }, (v.toUInt32 p.id).2)
  else if foldKey k = keyParamLen then ({ p with len := (v.toUInt8 p.len).1 }, (v.toUInt8 p.len).2)
  else if foldKey k = keyParamValue then ({ p with value := v.toAny }, false)
  else (p, false)

/-- The keys of a parameter, in order; decoding goes on after an error. -/
def ParamData.bindKeys (p : ParamData) : List (Str × Json) → ParamData × Bool
  | [] => (p, false)
  | e :: es =>
    let (p1, b1) := p.bindKey e.1 e.2
    let (p2, b2) := p1.bindKeys es
    (p2, b1 || b2)

/-- One element of the list of pointers, device_params.go:22: null is the nil pointer, anything but an object an error
that leaves a zero ParamData. -/
def Json.toParam (old : Option ParamData) : Json → Option ParamData × Bool
  | .null => (none, false)
  | .obj kvs => let (p, b) := (old.getD ⟨0, 0, .other⟩).bindKeys kvs; (some p, b)
  | _ => (some (old.getD ⟨0, 0, .other⟩), true)

/-- The elements of an array, decoded over what an earlier occurrence of the key has left there. -/
def bindItems : List (Option ParamData) → List Json → List (Option ParamData) × Bool
  | _, [] => ([], false)
  | old, j :: js =>
    let (p, b) := j.toParam (old.head?.getD none)
    let (ps, b') := bindItems old.tail js
    (p :: ps, b || b')

/-- The list, device_params.go:22. -/
def Json.toParams (old : List (Option ParamData)) : Json → List (Option ParamData) × Bool
  | .null => ([], false)
  | .arr js => bindItems old js
  | _ => (old, true)

/-- What has been bound: `ParamCnt` and `Params`, device_params.go:21-22. -/
structure Bound where
  cnt : UInt8
  params : List (Option ParamData)

/-- One key of the request. -/
def Bound.bindKey (d : Bound) (k : Str) (v : Json) : Bound × Bool :=
  if foldKey k = keyParamCnt then ({ d with cnt := (v.toUInt8 d.cnt).1 }, (v.toUInt8 d.cnt).2)
  else if foldKey k = keyParams then ({ d with params := (v.toParams d.params).1 }, (v.toParams d.params).2)
  else (d, false)

/-- The keys of the request, in order. -/
def Bound.bindKeys (d : Bound) : List (Str × Json) → Bound × Bool
  | [] => (d, false)
  | e :: es =>
    let (d1, b1) := d.bindKey e.1 e.2
    let (d2, b2) := d1.bindKeys es
    (d2, b1 || b2)

/-- `c.ShouldBind(&params)`, api.go:73-74: what is in `params` afterwards and whether an error was returned. -/
def Body.bind : Body → Bound × Bool
  | .json .null => (⟨0, []⟩, false)
  | .json (.obj kvs) => Bound.bindKeys ⟨0, []⟩ kvs
  | .json _ => (⟨0, []⟩, true)
  | .broken => (⟨0, []⟩, true)
  | .form => (⟨0, []⟩, false)

/-- What is encoded.  A nil pointer makes ParamData.Encode panic (device_params.go:95); in its place stands a number
parameter without a number, which does the same at the same moment. -/
def Bound.toParams (d : Bound) : DeviceParams := ⟨[], d.cnt, d.params.map fun p => p.getD ⟨0x0001, 0, .other⟩⟩

/-- The request as an event of the server: `.httpSet phone b.bound b.bad werr`. -/
def Body.bound (b : Body) : DeviceParams := b.bind.1.toParams
def Body.bad (b : Body) : Bool := b.bind.2

end JT808
