import Verif.Model.Hex
/-
internal/protocol/model/header.go, internal/protocol/model/msg.go
-/
namespace JT808

/-- VersionType, internal/protocol/model/header.go:119-125 (Go int8 with these three constants). -/
inductive Ver where
  | v2011 | v2013 | v2019
  deriving DecidableEq, Repr

/-- EncryptionType, internal/protocol/model/header.go:104-110. -/
inductive EncDesc where
  | unknown | none | rsa
  deriving DecidableEq, Repr

/-- MsgBodyAttr, internal/protocol/model/header.go:128-138. -/
structure Attr where
  bodyLength : UInt16
  encryption : UInt8
  packetFragmented : UInt8
  versionSign : UInt8
  extra : UInt8
  encDesc : EncDesc
  fragDesc : Bool
  verDesc : Ver
  deriving DecidableEq, Repr

/-- MsgFragmentation, internal/protocol/model/header.go:183-186. -/
structure Frag where
  total : UInt16
  index : UInt16
  deriving DecidableEq, Repr

/-- MsgHeader, internal/protocol/model/header.go:15-24.  The scratch field `Idx` is returned separately
by the decoder (packet_codec.go:76 resets it to 0 before anyone else sees the header). -/
structure Header where
  msgID : UInt16
  attr : Attr
  protoVer : UInt8
  phone : Str
  serial : UInt16
  frag : Option Frag
  deriving DecidableEq, Repr

/-- (*MsgBodyAttr).Decode, internal/protocol/model/header.go:140-170.  In Go `&` and `>>` have the same
precedence and associate to the left, so `bitNum & mask >> k` is `(bitNum & mask) >> k`. -/
def Attr.decode (w : UInt16) : Attr :=
  let enc := ((w &&& 0b0001110000000000) >>> 10).toUInt8
  let pf := ((w &&& 0b0010000000000000) >>> 13).toUInt8
  let vs := ((w &&& 0b0100000000000000) >>> 14).toUInt8
  { bodyLength := w &&& 0b0000001111111111
    encryption := enc
    packetFragmented := pf
    versionSign := vs
    extra := ((w &&& 0b1000000000000000) >>> 15).toUInt8
    encDesc := if enc = 0 then .none else if enc = 1 then .rsa else .unknown
    fragDesc := pf == 1
    verDesc := if vs = 1 then .v2019 else .v2013 }

/-- (*MsgBodyAttr).Encode, internal/protocol/model/header.go:172-180 (uint16 sums wrap). -/
def Attr.encode (a : Attr) : UInt16 :=
  a.bodyLength + (a.encryption.toUInt16 <<< 10) + (a.packetFragmented.toUInt16 <<< 13)
    + (a.versionSign.toUInt16 <<< 14) + (a.extra.toUInt16 <<< 15)

/-- (*MsgFragmentation).Decode, internal/protocol/model/header.go:188-192. -/
def Frag.decode : Rd Frag := do
  let t ← readWord
  let i ← readWord
  pure ⟨t, i⟩

/-- (*MsgFragmentation).Encode, internal/protocol/model/header.go:194-199. -/
def Frag.encode (f : Frag) : List UInt8 := writeWord (writeWord [] f.total) f.index

/-- The protocol version byte, internal/protocol/model/header.go:37-39: only in the 2019 layout, else the
zero value stays. -/
def Header.decodePV (v : Ver) : Rd UInt8 :=
  if v = .v2019 then readByte else pure 0

/-- The phone number, internal/protocol/model/header.go:42-48. -/
def Header.decodePhone : Ver → Rd Str
  | .v2019 => readBCD 10
  | .v2013 => readBCD 6
  | .v2011 => Rd.fail .decodeHeader

/-- The fragment item, internal/protocol/model/header.go:52-58. -/
def Header.decodeFrag (fragmented : Bool) : Rd (Option Frag) :=
  if fragmented then (do let f ← Frag.decode; pure (some f)) else pure none

/-- (*MsgHeader).Decode, internal/protocol/model/header.go:27-64.  The cursor left behind is `h.Idx`. -/
def Header.decode : Rd Header := do
  let msgID ← readWord
  let w ← readWord
  let attr := Attr.decode w
  let pv ← Header.decodePV attr.verDesc
  let phone ← Header.decodePhone attr.verDesc
  let serial ← readWord
  let frag ← Header.decodeFrag attr.fragDesc
  pure { msgID := msgID, attr := attr, protoVer := pv, phone := phone, serial := serial, frag := frag }

/-- (*MsgHeader).Encode, internal/protocol/model/header.go:67-80. -/
def Header.encode (h : Header) : List UInt8 :=
  let pkt := writeWord [] h.msgID
  let pkt := writeWord pkt h.attr.encode
  let pkt := if h.attr.verDesc = .v2019 then writeByte pkt h.protoVer else pkt
  let pkt := writeBCD pkt h.phone
  let pkt := writeWord pkt h.serial
  match h.frag with
  | some f => pkt ++ f.encode
  | none => pkt

/-- (*MsgHeader).IsFragmented, internal/protocol/model/header.go:90-92. -/
def Header.isFragmented (h : Header) : Bool := h.attr.packetFragmented == 1

/-- The header after `m.GetHeader().Attr.BodyLength = uint16(len(pkt))`, msg.go:28. -/
def Header.withBodyLength (h : Header) (n : Nat) : Header :=
  { h with attr := { h.attr with bodyLength := UInt16.ofNat n } }

/-- writeHeader, internal/protocol/model/msg.go:27-34. -/
def writeHeader (h : Header) (body : List UInt8) : List UInt8 :=
  (h.withBodyLength body.length).encode ++ body

/-- versionDecode, internal/protocol/model/header.go:201-206. -/
def versionDecode : Ver → UInt8
  | .v2019 => 1
  | _ => 0

/-- GenMsgHeader, internal/protocol/model/header.go:208-221, on the three device fields it reads.
`VersionDesc`, `EncryptionDesc` and `PacketFragmentedDesc` keep their zero values. -/
def genMsgHeader (phone : Str) (ver : Ver) (protoVer : UInt8) (msgID serial : UInt16) : Header :=
  { msgID := msgID
    attr := { bodyLength := 0, encryption := 0, packetFragmented := 0
              versionSign := versionDecode ver, extra := 0
              encDesc := .none, fragDesc := false, verDesc := .v2011 }
    protoVer := protoVer, phone := phone, serial := serial, frag := none }

end JT808
