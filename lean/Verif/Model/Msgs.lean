import Verif.Model.Codec
import Verif.Model.Time
import Verif.Model.Params
/-
Message bodies: internal/protocol/model/msg_*.go, device_media.go.
The header is kept apart from the body fields; `packet.Body` is read from index 0.
-/
namespace JT808

/-- Decode a sub-slice `pkt[idx:]` from its own index 0 (the outer index is not used afterwards). -/
def Rd.onRest {α : Type} (r : Rd α) : Rd α := fun s i =>
  match s.from' i with
  | .ok s' =>
    match r s' 0 with
    | .ok (a, j) => .ok (a, i + j)
    | .err e => .err e
    | .panic => .panic
  | .err e => .err e
  | .panic => .panic

/-- `strings.TrimRight(s, "\x00")` -/
def trimNul (s : Str) : Str := (s.reverse.dropWhile (· == 0)).reverse

/-- Pad with NUL bytes up to `n`, or cut to `n`: msg_0100.go:79-110. -/
def padCut (n : Nat) (s : Str) : Str := s.take n ++ List.replicate (n - s.length) 0

/-- Pad with NUL bytes up to `n`, never cut: msg_0102.go:44-56. -/
def padOnly (n : Nat) (s : Str) : Str := s ++ List.replicate (n - s.length) 0

/-- Decimal digits, `%d`. -/
def decimal (n : Nat) : Str := (Nat.toDigits 10 n).map fun c => UInt8.ofNat c.toNat

/-- `%0wd` -/
def decimalPad (w n : Nat) : Str := List.replicate (w - (decimal n).length) 0x30 ++ decimal n

/-- Msg0001 and Msg8001 fields, msg_0001.go:8-13, msg_8001.go:17-22. -/
structure GeneralAck where
  ansSerial : UInt16
  ansID : UInt16
  result : UInt8
  deriving DecidableEq, Repr

/-- (*Msg0001).Decode, msg_0001.go:15-23; (*Msg8001).Decode, msg_8001.go:24-32. -/
def GeneralAck.decode : Rd GeneralAck := do
  let s ← readWord
  let m ← readWord
  let r ← readByte
  pure ⟨s, m, r⟩

/-- (*Msg0001).Encode, msg_0001.go:25-28; (*Msg8001).Encode, msg_8001.go:34-37. -/
def GeneralAck.encode (m : GeneralAck) : List UInt8 :=
  writeByte (writeWord (writeWord [] m.ansSerial) m.ansID) m.result

/-- Msg0100, msg_0100.go:12-27. -/
structure Register where
  province : UInt16
  city : UInt16
  manufacturer : Str
  mode : Str
  deviceID : Str
  color : UInt8
  plate : Str
  locationDesc : Str
  deriving DecidableEq, Repr

/-- Field widths chosen by (*Msg0100).Decode, msg_0100.go:35-50.  `idx` is 4 at line 41.  The reassignment of
`ver` on line 46 changes only the local pointer. -/
def Register.widths (h : Header) : Rd (Nat × Nat × Nat) :=
  match h.attr.verDesc with
  | .v2019 => pure (11, 30, 30)
  | .v2013 => if (h.attr.bodyLength.toNat : Int) - 4 > 33 then pure (5, 20, 7) else pure (5, 8, 7)
  | .v2011 => Rd.fail .decodeMsg

/-- (*Msg0100).Decode, msg_0100.go:29-61. -/
def Register.decode (env : Env) (h : Header) : Rd Register := do
  let province ← readWord
  let city ← readWord
  let w ← Register.widths h
  let manu ← readString w.1
  let mode ← readString w.2.1
  let id ← readString w.2.2
  let color ← readByte
  let idx ← Rd.getIdx
  let plate ← readGBK env ((h.attr.bodyLength.toNat : Int) - idx)
  pure { province := province, city := city, manufacturer := trimNul manu, mode := trimNul mode
         deviceID := trimNul id, color := color, plate := plate
         locationDesc := env.region (decimalPad 2 province.toNat ++ decimalPad 4 city.toNat) }

/-- Widths chosen by (*Msg0100).Encode, msg_0100.go:67-77. -/
def Register.encWidths : Ver → Nat × Nat × Nat
  | .v2019 => (11, 30, 30)
  | .v2013 => (5, 20, 7)
  | .v2011 => (5, 8, 7)

/-- (*Msg0100).Encode up to the header, msg_0100.go:63-113. -/
def Register.encode (env : Env) (v : Ver) (m : Register) : List UInt8 :=
  let pkt := writeWord (writeWord [] m.province) m.city
  let w := Register.encWidths v
  let pkt := pkt ++ padCut w.1 m.manufacturer
  let pkt := pkt ++ padCut w.2.1 m.mode
  let pkt := pkt ++ padCut w.2.2 m.deviceID
  writeGBK env (writeByte pkt m.color) m.plate

/-- Msg0102, msg_0102.go:10-16. -/
structure AuthMsg where
  codeLen : UInt8
  code : Str
  imei : Str
  software : Str
  deriving DecidableEq, Repr

/-- (*Msg0102).Decode, msg_0102.go:18-31 (`idx` is 0 at line 23). -/
def AuthMsg.decode (h : Header) : Rd AuthMsg :=
  match h.attr.verDesc with
  | .v2013 => do
    let code ← readString h.attr.bodyLength.toNat
    pure ⟨0, code, [], []⟩
  | .v2019 => do
    let n ← readByte
    let code ← readString n.toNat
    let imei ← readString 15
    let sw ← readString 20
    pure ⟨n, code, imei, trimNul sw⟩
  | .v2011 => pure ⟨0, [], [], []⟩

/-- (*Msg0102).Encode up to the header, msg_0102.go:33-57. -/
def AuthMsg.encode (v : Ver) (m : AuthMsg) : List UInt8 :=
  match v with
  | .v2019 =>
    writeString (writeByte [] (UInt8.ofNat m.code.length)) m.code ++ padOnly 15 m.imei ++ padOnly 20 m.software
  | _ => m.code

/-- Msg0104, msg_0104.go:12-17; `params = none` is a nil `Parameters`. -/
structure ParamsMsg where
  ansSerial : UInt16
  cnt : UInt8
  params : Option DeviceParams
  deriving DecidableEq, Repr

/-- (*Msg0104).Decode, msg_0104.go:19-31.  (DeviceParams.Decode never returns an error.) -/
def ParamsMsg.decode (env : Env) (h : Header) : Rd ParamsMsg := do
  let s ← readWord
  let n ← readByte
  let ps ← Rd.onRest (DeviceParams.decode env h.phone n)
  pure ⟨s, n, some ps⟩

/-- (*Msg0104).Encode up to the header, msg_0104.go:33-41; a nil `Parameters` panics. -/
def ParamsMsg.encode (env : Env) (m : ParamsMsg) : Res (List UInt8) :=
  match m.params with
  | none => .panic
  | some p =>
    match p.encode env with
    | .ok bs => .ok (writeBytes (writeWord [] m.ansSerial) bs)
    | .err _ => .err .encodeMsg
    | .panic => .panic

/-- Msg0200, msg_0200.go:8-18. -/
structure LocMsg where
  alarm : UInt32
  status : UInt32
  lat : UInt32
  long : UInt32
  alt : UInt16
  speed : UInt16
  dir : UInt16
  time : Str
  deriving DecidableEq, Repr

/-- (*Msg0200).Decode, msg_0200.go:20-32. -/
def LocMsg.decode : Rd LocMsg := do
  let alarm ← readDWord
  let status ← readDWord
  let lat ← readDWord
  let long ← readDWord
  let alt ← readWord
  let speed ← readWord
  let dir ← readWord
  let time ← readBCD 6
  pure ⟨alarm, status, lat, long, alt, speed, dir, time⟩

/-- (*Msg0200).Encode up to the header, msg_0200.go:34-42. -/
def LocMsg.encode (m : LocMsg) : List UInt8 :=
  let pkt := writeDWord (writeDWord (writeDWord (writeDWord [] m.alarm) m.status) m.lat) m.long
  let pkt := writeWord (writeWord (writeWord pkt m.alt) m.speed) m.dir
  writeBCD pkt m.time

/-- DeviceMediaQuery, device_media.go:9-18 (times are non-nil after Decode). -/
structure MediaQuery where
  channel : UInt8
  start : Civil
  stop : Civil
  alarm : UInt32
  alarmExt : UInt32
  mediaType : UInt8
  streamType : UInt8
  storageType : UInt8
  deriving DecidableEq, Repr

/-- (*DeviceMediaQuery).Decode, device_media.go:20-29; (*Msg9205).Decode, msg_9205.go:9-14. -/
def MediaQuery.decode (now : Civil) : Rd MediaQuery := do
  let ch ← readByte
  let t1 ← readTime now
  let t2 ← readTime now
  let a ← readDWord
  let b ← readDWord
  let x ← readByte
  let y ← readByte
  let z ← readByte
  pure ⟨ch, t1, t2, a, b, x, y, z⟩

/-- (*DeviceMediaQuery).Encode, device_media.go:31-41; (*Msg9205).Encode, msg_9205.go:16-17. -/
def MediaQuery.encode (q : MediaQuery) : List UInt8 :=
  let pkt := writeTime (writeTime (writeByte [] q.channel) q.start) q.stop
  let pkt := writeDWord (writeDWord pkt q.alarm) q.alarmExt
  writeByte (writeByte (writeByte pkt q.mediaType) q.streamType) q.storageType

/-- Msg1205 with its embedded DeviceMedia, msg_1205.go:10-15, device_media.go:43-46. -/
structure MediaList where
  ansSerial : UInt16
  count : UInt32
  query : MediaQuery
  size : UInt32
  deriving DecidableEq, Repr

/-- (*DeviceMedia).Decode, device_media.go:48-52. -/
def mediaDecode (now : Civil) : Rd (MediaQuery × UInt32) := do
  let q ← MediaQuery.decode now
  let n ← readDWord
  pure (q, n)

/-- (*Msg1205).Decode, msg_1205.go:17-24. -/
def MediaList.decode (now : Civil) : Rd MediaList := do
  let s ← readWord
  let c ← readDWord
  let m ← Rd.onRest (mediaDecode now)
  pure ⟨s, c, m.1, m.2⟩

/-- (*Msg1205).Encode up to the header, msg_1205.go:26-29, device_media.go:54-58. -/
def MediaList.encode (m : MediaList) : List UInt8 :=
  writeBytes (writeDWord (writeWord [] m.ansSerial) m.count) (writeDWord m.query.encode m.size)

/-- Msg8100, msg_8100.go:18-23. -/
structure RegisterAck where
  ansSerial : UInt16
  result : UInt8
  code : Str
  deriving DecidableEq, Repr

/-- (*Msg8100).Decode, msg_8100.go:25-32. -/
def RegisterAck.decode (h : Header) : Rd RegisterAck := do
  let s ← readWord
  let r ← readByte
  let idx ← Rd.getIdx
  let code ← readString ((h.attr.bodyLength.toNat : Int) - idx)
  pure ⟨s, r, code⟩

/-- (*Msg8100).Encode up to the header, msg_8100.go:34-37. -/
def RegisterAck.encode (m : RegisterAck) : List UInt8 :=
  writeString (writeByte (writeWord [] m.ansSerial) m.result) m.code

/-- (*Msg8004).Decode, msg_8004.go:15-20. -/
def serverTimeDecode (now : Civil) : Rd Civil := readTime now

/-- (*Msg8004).Encode up to the header, msg_8004.go:22-23. -/
def serverTimeEncode (t : Civil) : List UInt8 := writeTime [] t

/-- Msg8103, msg_8103.go:10-14. -/
structure SetParams where
  cnt : UInt8
  params : DeviceParams
  deriving DecidableEq, Repr

/-- (*Msg8103).Decode, msg_8103.go:17-28. -/
def SetParams.decode (env : Env) (h : Header) : Rd SetParams := do
  let n ← readByte
  let ps ← Rd.onRest (DeviceParams.decode env h.phone n)
  pure ⟨n, ps⟩

/-- (*Msg8103).Encode up to the header, msg_8103.go:31-38 (`Parameters` is never nil on the paths modelled:
api.go:77-84). -/
def SetParams.encode (env : Env) (m : SetParams) : Res (List UInt8) :=
  match m.params.encode env with
  | .ok bs => .ok (writeBytes [] bs)
  | .err _ => .err .encodeMsg
  | .panic => .panic

/-- Decoded messages of the types in the processor's table. -/
inductive Msg where
  | m0001 (m : GeneralAck)
  | m0002
  | m0003
  | m0100 (m : Register)
  | m0102 (m : AuthMsg)
  | m0104 (m : ParamsMsg)
  | m0200 (m : LocMsg)
  | m1205 (m : MediaList)
  | m8001 (m : GeneralAck)
  | m8100 (m : RegisterAck)
  | m8103 (m : SetParams)
  | m8104
  | m9205 (m : MediaQuery)
  deriving DecidableEq, Repr

/-- The message types of the processor's table. -/
inductive MType where
  | t0001 | t0002 | t0003 | t0100 | t0102 | t0104 | t0200 | t1205 | t8001 | t8100 | t8103 | t8104 | t9205
  deriving DecidableEq, Repr

/-- initProcessOption, msg_processor.go:42-121: the keys of the table. -/
def msgTable : List (UInt16 × MType) :=
  [ (0x0001, .t0001), (0x0002, .t0002), (0x0003, .t0003), (0x0100, .t0100), (0x0102, .t0102), (0x0104, .t0104),
    (0x0200, .t0200), (0x1205, .t1205), (0x8001, .t8001), (0x8100, .t8100), (0x8103, .t8103), (0x8104, .t8104),
    (0x9205, .t9205) ]

/-- `mp.options[msgID]`, msg_processor.go:143 and 152. -/
def MType.ofID (id : UInt16) : Option MType := msgTable.lookup id

/-- `in.Decode(pkt)`, msg_processor.go:157-163, for the type that `genData` (msg_processor.go:42-121) allocates.
0x0002, 0x0003 and 0x8104 decode no body bytes (msg_0002.go:9-12, msg_0003.go:9-12, msg_8104.go:8-11). -/
def MType.decode (env : Env) (now : Civil) (h : Header) : MType → Rd Msg
  | .t0001 => do let m ← GeneralAck.decode; pure (.m0001 m)
  | .t0002 => pure .m0002
  | .t0003 => pure .m0003
  | .t0100 => do let m ← Register.decode env h; pure (.m0100 m)
  | .t0102 => do let m ← AuthMsg.decode h; pure (.m0102 m)
  | .t0104 => do let m ← ParamsMsg.decode env h; pure (.m0104 m)
  | .t0200 => do let m ← LocMsg.decode; pure (.m0200 m)
  | .t1205 => do let m ← MediaList.decode now; pure (.m1205 m)
  | .t8001 => do let m ← GeneralAck.decode; pure (.m8001 m)
  | .t8100 => do let m ← RegisterAck.decode h; pure (.m8100 m)
  | .t8103 => do let m ← SetParams.decode env h; pure (.m8103 m)
  | .t8104 => pure .m8104
  | .t9205 => do let m ← MediaQuery.decode now; pure (.m9205 m)

end JT808
