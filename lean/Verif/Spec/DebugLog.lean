import Verif.Spec.Json
import Verif.Model.Server
/-
What a log in JSON lines says, and what it should say.
-/
namespace JT808.Spec

/-- A file of lines, each a JSON text ended by a line feed. -/
inductive FileSays : List UInt8 → List JVal → Prop
  | nil : FileSays [] []
  | line {s r : List UInt8} {v : JVal} {vs : List JVal} : JText s v → FileSays r vs → FileSays (s ++ 0x0a :: r) (v :: vs)

/-- A member of an object. -/
def field (k : String) : JVal → Option JVal
  | .obj kvs => kvs.lookup (chars k)
  | _ => none

/-- The characters of a text. -/
def asText : JVal → Option (List Nat)
  | .str t => some t
  | _ => none

/-- The value of a hexadecimal digit in small letters. -/
def hexVal (n : Nat) : Option Nat :=
  if 0x30 ≤ n ∧ n ≤ 0x39 then some (n - 0x30) else if 0x61 ≤ n ∧ n ≤ 0x66 then some (n - 0x61 + 10) else none

/-- Bytes written with two digits each. -/
def unhex : List Nat → Option (List UInt8)
  | [] => some []
  | [_] => none
  | a :: b :: t => do
    let x ← hexVal a
    let y ← hexVal b
    let r ← unhex t
    pure (UInt8.ofNat (16 * x + y) :: r)

/-- A line that says a frame was received: the connection and the bytes. -/
def receivedIn (v : JVal) : Option (List Nat × List UInt8) := do
  let m ← (field "m" v).bind asText
  if m = chars "Received frame." then
    let id ← (field "id" v).bind asText
    let p ← (field "frame_payload" v).bind asText
    let f ← unhex p
    pure (id, f)
  else none

/-- A line that says a frame was sent: the bytes. -/
def sentIn (v : JVal) : Option (List UInt8) := do
  let m ← (field "m" v).bind asText
  if m = chars "Sent frame." then
    let p ← (field "frame_payload" v).bind asText
    unhex p
  else none

/-- The same with the connections as one sees them. -/
inductive SeenFrom : List (Str × List UInt8) → List (List Nat × List UInt8) → Prop
  | nil : SeenFrom [] []
  | cons {a : Str} {t : List Nat} {f : List UInt8} {xs ys} : Seen a t → SeenFrom xs ys → SeenFrom ((a, f) :: xs) ((t, f) :: ys)

/-- The frames that arrive in a history on connections that are served, with the address of the connection. -/
def arrivals (env : Env) (s : Sys) : List Ev → List (Str × List UInt8)
  | [] => []
  | e :: es =>
    (match e with
     | .frame _ c bytes _ => if s.crashed = false ∧ c ∈ s.live ∧ bytes ≠ [] then [(c.addr, bytes)] else []
     | _ => []) ++ arrivals env (s.step env e).1 es

/-- The frames that leave in a history. -/
def departures (env : Env) (s : Sys) (evs : List Ev) : List (List UInt8) :=
  (s.run env evs).2.filterMap fun o => o.sent.map (·.2)

/-- How an encryption is shown. -/
def encryptionShown : EncDesc → JVal
  | .none => .num 0
  | .rsa => .num 1
  | .unknown => .neg 1

/-- How a version is shown. -/
def verShown : Ver → Nat
  | .v2011 => 0
  | .v2013 => 1
  | .v2019 => 2

/-- What is shown of a header. -/
def HeaderShown (h : Header) (v : JVal) : Prop :=
  ∃ phone, Seen h.phone phone ∧
    v = .obj [(chars "msgID", .num h.msgID.toNat),
      (chars "attr", .obj [(chars "bodyLength", .num h.attr.bodyLength.toNat), (chars "encryption", .num h.attr.encryption.toNat),
        (chars "packetFragmented", .num h.attr.packetFragmented.toNat), (chars "versionSign", .num h.attr.versionSign.toNat),
        (chars "extra", .num h.attr.extra.toNat), (chars "encryptionDesc", encryptionShown h.attr.encDesc),
        (chars "packetFragmentedDesc", .truth h.attr.fragDesc), (chars "versionDesc", .num (verShown h.attr.verDesc))]),
      (chars "protocolVersion", .num h.protoVer.toNat), (chars "phoneNumber", .str phone),
      (chars "serialNumber", .num h.serial.toNat),
      (chars "frag", match h.frag with
        | none => .null
        | some f => .obj [(chars "total", .num f.total.toNat), (chars "index", .num f.index.toNat)])]

/-- What is shown of the value of a parameter. -/
inductive ValueShown : PV → JVal → Prop
  | byte {v : UInt8} : ValueShown (.byte v) (.num v.toNat)
  | word {v : UInt16} : ValueShown (.word v) (.num v.toNat)
  | dword {v : UInt32} : ValueShown (.dword v) (.num v.toNat)
  | str {s : Str} {t : List Nat} : Seen s t → ValueShown (.str s) (.str t)
  | num {n : Nat} : ValueShown (.num n) (.num n)
  | other : ValueShown .other .null

/-- What is shown of a list of parameters, one entry each. -/
inductive ItemsShown : List ParamData → List JVal → Prop
  | nil : ItemsShown [] []
  | cons {p : ParamData} {ps : List ParamData} {x : JVal} {vs : List JVal} : ValueShown p.value x → ItemsShown ps vs →
      ItemsShown (p :: ps)
        (.obj [(chars "paramId", .num p.id.toNat), (chars "paramLen", .num p.len.toNat), (chars "paramValue", x)] :: vs)

/-- What is shown of parameters; an empty list may be shown as null. -/
def ParamsShown (p : DeviceParams) (v : JVal) : Prop :=
  ∃ items, ItemsShown p.params items ∧ ∃ w, (w = .arr items ∨ items = [] ∧ w = .null) ∧
    v = .obj [(chars "paramCnt", .num p.cnt.toNat), (chars "params", w)]

/-- What is shown of a query for media. -/
def queryShown (time : Civil → List Nat) (q : MediaQuery) : List (List Nat × JVal) :=
  [(chars "logicChannelId", .num q.channel.toNat), (chars "startTime", .str (time q.start)),
   (chars "endTime", .str (time q.stop)), (chars "alarmSign", .num q.alarm.toNat),
   (chars "alarmSignExt", .num q.alarmExt.toNat), (chars "mediaType", .num q.mediaType.toNat),
   (chars "streamType", .num q.streamType.toNat), (chars "storageType", .num q.storageType.toNat)]

/-- What is shown of a general answer. -/
def ackShown (m : GeneralAck) : List (List Nat × JVal) :=
  [(chars "answerSerialNumber", .num m.ansSerial.toNat), (chars "answerMessageId", .num m.ansID.toNat),
   (chars "result", .num m.result.toNat)]

/-- What is shown of the body of a message: everything that was in it. -/
inductive BodyShown (time : Civil → List Nat) : Msg → List (List Nat × JVal) → Prop
  | m0001 {m} : BodyShown time (.m0001 m) (ackShown m)
  | m8001 {m} : BodyShown time (.m8001 m) (ackShown m)
  | m0002 : BodyShown time .m0002 []
  | m0003 : BodyShown time .m0003 []
  | m8104 : BodyShown time .m8104 []
  | m0100 {m : Register} {manu mode id plate loc} : Seen m.manufacturer manu → Seen m.mode mode → Seen m.deviceID id →
      Seen m.plate plate → Seen m.locationDesc loc → BodyShown time (.m0100 m)
        [(chars "provinceId", .num m.province.toNat), (chars "cityId", .num m.city.toNat), (chars "manufacturerId", .str manu),
         (chars "deviceMode", .str mode), (chars "deviceId", .str id), (chars "plateColor", .num m.color.toNat),
         (chars "plateNumber", .str plate), (chars "locationDesc", .str loc)]
  | m0102 {m : AuthMsg} {code imei soft} : Seen m.code code → Seen m.imei imei → Seen m.software soft →
      BodyShown time (.m0102 m)
        [(chars "authCodeLen", .num m.codeLen.toNat), (chars "authCode", .str code), (chars "imei", .str imei),
         (chars "softwareVersion", .str soft)]
  | m0104 {m : ParamsMsg} {p v} : m.params = some p → ParamsShown p v → BodyShown time (.m0104 m)
        [(chars "answerSerialNumber", .num m.ansSerial.toNat), (chars "answerParamCnt", .num m.cnt.toNat),
         (chars "parameters", v)]
  | none0104 {m : ParamsMsg} : m.params = none → BodyShown time (.m0104 m)
        [(chars "answerSerialNumber", .num m.ansSerial.toNat), (chars "answerParamCnt", .num m.cnt.toNat),
         (chars "parameters", .null)]
  | m0200 {m : LocMsg} {t} : Seen m.time t → BodyShown time (.m0200 m)
        [(chars "alarmSign", .num m.alarm.toNat), (chars "statusSign", .num m.status.toNat), (chars "latitude", .num m.lat.toNat),
         (chars "longitude", .num m.long.toNat), (chars "altitude", .num m.alt.toNat), (chars "speed", .num m.speed.toNat),
         (chars "direction", .num m.dir.toNat), (chars "time", .str t)]
  | m1205 {m : MediaList} : BodyShown time (.m1205 m)
        ((chars "answerSerialNumber", .num m.ansSerial.toNat) :: (chars "mediaCount", .num m.count.toNat) ::
          (queryShown time m.query ++ [(chars "Size", .num m.size.toNat)]))
  | m8100 {m : RegisterAck} {code} : Seen m.code code → BodyShown time (.m8100 m)
        [(chars "answerSerialNumber", .num m.ansSerial.toNat), (chars "result", .num m.result.toNat), (chars "authCode", .str code)]
  | m8103 {m : SetParams} {v} : ParamsShown m.params v → BodyShown time (.m8103 m)
        [(chars "paramCnt", .num m.cnt.toNat), (chars "parameters", v)]
  | m9205 {m : MediaQuery} : BodyShown time (.m9205 m) (queryShown time m)

/-- What is shown of a message. -/
def MsgShown (time : Civil → List Nat) (h : Header) (m : Msg) (v : JVal) : Prop :=
  ∃ hv kvs, HeaderShown h hv ∧ BodyShown time m kvs ∧ v = .obj ((chars "header", hv) :: kvs)

/-- A hexadecimal digit in small letters. -/
def hexLetter (d : Nat) : Nat := if d < 10 then 0x30 + d else 0x61 + (d - 10)

/-- A number of a message: four digits after 0x. -/
def numberText (n : Nat) : List Nat := chars "0x" ++ [n / 4096, n / 256 % 16, n / 16 % 16, n % 16].map hexLetter

/-- A line about a message: which connection, the number of the message in hexadecimal, the message under the name `dir`, the place
in the program and the text of the line. -/
def LineAbout (dir place said : String) (id : Str) (num : UInt16) (msg v : JVal) : Prop :=
  ∃ t w, Seen id t ∧
    v = .obj [(chars "level", .str (chars "debug")), (chars "id", .str t),
      (chars "RawMsgID", .str (numberText num.toNat)),
      (chars dir, msg), (chars "c", .str (chars place)), (chars "time", .str w), (chars "m", .str (chars said))]

/-- No clock shows a year with five digits. -/
def Ev.fourDigitYear : Ev → Prop
  | .frame clk _ _ _ => clk.civil.year < 10000
  | _ => True

end JT808.Spec
