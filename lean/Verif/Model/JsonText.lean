import Verif.Model.Server
/-
The body of GET /device: c.JSON(http.StatusOK, cache.ListDevice()), internal/api/api.go:24-26. gin writes what json.Marshal
of the standard library returns, which is modelled here as far as a list of devices needs it.
-/
namespace JT808

/-- The tables `first` and `acceptRanges` of unicode/utf8: size of the encoding a byte begins and range of its second byte,
for bytes from 0x80. Library code used by api.go:25. -/
def runeInfo (b : UInt8) : Option (Nat × UInt8 × UInt8) :=
  if 0xc2 ≤ b ∧ b ≤ 0xdf then some (2, 0x80, 0xbf)
  else if b = 0xe0 then some (3, 0xa0, 0xbf)
  else if b = 0xed then some (3, 0x80, 0x9f)
  else if 0xe1 ≤ b ∧ b ≤ 0xef then some (3, 0x80, 0xbf)
  else if b = 0xf0 then some (4, 0x90, 0xbf)
  else if 0xf1 ≤ b ∧ b ≤ 0xf3 then some (4, 0x80, 0xbf)
  else if b = 0xf4 then some (4, 0x80, 0x8f)
  else none

/-- utf8.DecodeRuneInString for a string that begins with a byte from 0x80: the size of the encoding, or 0 where Go
returns RuneError and size 1. Library code used by api.go:25. -/
def runeSize : Str → Nat
  | [] => 0
  | b :: s =>
    match runeInfo b, s with
    | none, _ => 0
    | some _, [] => 0
    | some (n, lo, hi), b1 :: s =>
      if b1 < lo ∨ hi < b1 then 0
      else if n ≤ 2 then 2
      else match s with
        | [] => 0
        | b2 :: s =>
          if b2 < 0x80 ∨ 0xbf < b2 then 0
          else if n ≤ 3 then 3
          else match s with
            | [] => 0
            | b3 :: _ => if b3 < 0x80 ∨ 0xbf < b3 then 0 else 4

/-- The digits of encoding/json: "0123456789abcdef". -/
def jsonHex (n : UInt8) : UInt8 := if n < 10 then 0x30 + n else 0x61 + (n - 10)

/-- A byte below 0x80 within quotation marks, (*encodeState).string of encoding/json with escapeHTML, used by api.go:25.
Go releases from 1.22 on write \b and \f for two of the control characters. -/
def jsonByte (b : UInt8) : Str :=
  if b = 0x5c ∨ b = 0x22 then [0x5c, b]
  else if b = 0x0a then [0x5c, 0x6e]
  else if b = 0x0d then [0x5c, 0x72]
  else if b = 0x09 then [0x5c, 0x74]
  else if b < 0x20 ∨ b = 0x3c ∨ b = 0x3e ∨ b = 0x26 then [0x5c, 0x75, 0x30, 0x30, jsonHex (b / 16), jsonHex (b % 16)]
  else [b]

/-- The loop of (*encodeState).string; `k` bounds the number of rounds. Bytes that are no UTF-8 become the escape of U+FFFD, the line and
paragraph separators are escaped. -/
def jsonCharsN : Nat → Str → Str
  | 0, _ => []
  | _, [] => []
  | k + 1, b :: s =>
    if b < 0x80 then jsonByte b ++ jsonCharsN k s
    else
      match runeSize (b :: s) with
      | 0 => [0x5c, 0x75, 0x66, 0x66, 0x66, 0x64] ++ jsonCharsN k s
      | n + 1 =>
        let u := (b :: s).take (n + 1)
        (if u = [0xe2, 0x80, 0xa8] then [0x5c, 0x75, 0x32, 0x30, 0x32, 0x38]
         else if u = [0xe2, 0x80, 0xa9] then [0x5c, 0x75, 0x32, 0x30, 0x32, 0x39]
         else u) ++ jsonCharsN k ((b :: s).drop (n + 1))

/-- A Go string as JSON, used by api.go:25. -/
def jsonString (s : Str) : Str := 0x22 :: jsonCharsN s.length s ++ [0x22]

/-- A list of encoded things separated by commas. -/
def jsonSep : List Str → Str
  | [] => []
  | [x] => x
  | x :: xs => x ++ 0x2c :: jsonSep xs

/-- The bytes of a field name. -/
def jsonName (s : String) : Str := s.toList.map fun c => UInt8.ofNat c.toNat

/-- A struct: the tags of its fields and the encoded fields. -/
def jsonStruct (fs : List (String × Str)) : Str :=
  0x7b :: jsonSep (fs.map fun f => 0x22 :: jsonName f.1 ++ 0x22 :: 0x3a :: f.2) ++ [0x7d]

/-- DeviceStatus as a number, device.go:12-16. -/
def DStatus.num : DStatus → Nat
  | .offline => 0
  | .online => 1
  | .sleeping => 2

/-- VersionType as a number, header.go:121-125. -/
def Ver.num : Ver → Nat
  | .v2011 => 0
  | .v2013 => 1
  | .v2019 => 2

/-- A Device with its tags, device.go:19-40. Conn is left out by its tag. `showTime` is time.Time's MarshalJSON without the
quotation marks (it depends on the time zone of the server). The keepalive is a time.Duration, in nanoseconds. TransProto
is TCP for a device with a connection, session.go:38-43. -/
def Device.json (showTime : Nat → Str) (d : Device) : Str :=
  jsonStruct
    [("id", jsonString d.id), ("plate", jsonString d.plate), ("phone", jsonString d.phone),
     ("sessionId", jsonString d.sessionID), ("transProto", jsonString (jsonName (if d.conn.isSome then "TCP" else "UDP"))),
     ("keepalive", decimal (d.keepalive * 1000000)), ("lastComTime", 0x22 :: showTime d.last ++ [0x22]),
     ("status", decimal d.status.num), ("versionDesc", decimal d.ver.num), ("protocolVersion", decimal d.protoVer.toNat),
     ("authcode", jsonString d.authCode), ("imei", jsonString d.imei), ("softwareVersion", jsonString d.software)]

/-- The body of the answer, api.go:24-26. maps.Values returns an empty list, not nil, for an empty map. -/
def Store.listBody (showTime : Nat → Str) (st : Store) : Str :=
  0x5b :: jsonSep (st.apiList.1.map (Device.json showTime)) ++ [0x5d]

end JT808
