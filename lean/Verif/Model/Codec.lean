import Verif.Model.Header
/-
internal/protocol/packet_codec.go, without the segment cache (see Verif/Model/Store.lean)
-/
namespace JT808

/-- The loop of unescape, internal/protocol/packet_codec.go:110-122, on `src[1 : n-1]`.  The tests
`i < n-2` say exactly that `src[i+1]` still lies in this range. -/
def unescapeBody : List UInt8 → List UInt8
  | [] => []
  | [a] => [a]
  | a :: b :: rest =>
    if a = 0x7d ∧ b = 0x02 then 0x7e :: unescapeBody rest
    else if a = 0x7d ∧ b = 0x01 then 0x7d :: unescapeBody rest
    else a :: unescapeBody (b :: rest)

/-- unescape, internal/protocol/packet_codec.go:108-124: the result was built by one-byte appends, so it has
`env.grow` zero bytes of spare capacity. -/
def unescape (env : Env) (src : List UInt8) : Slice :=
  let d := unescapeBody ((src.drop 1).dropLast)
  ⟨d, List.replicate (env.grow d.length) 0⟩

/-- The loop of escape, internal/protocol/packet_codec.go:137-145. -/
def escapeBody : List UInt8 → List UInt8
  | [] => []
  | v :: rest =>
    if v = 0x7e then 0x7d :: 0x02 :: escapeBody rest
    else if v = 0x7d then 0x7d :: 0x01 :: escapeBody rest
    else v :: escapeBody rest

/-- escape, internal/protocol/packet_codec.go:134-148. -/
def escape (src : List UInt8) : List UInt8 := 0x7e :: (escapeBody src ++ [0x7e])

/-- XOR loop of verify and genVerifier, internal/protocol/packet_codec.go:157-160 and 170-173. -/
def xorAll (bs : List UInt8) : UInt8 := bs.foldl (· ^^^ ·) 0

/-- verify, internal/protocol/packet_codec.go:151-166.  The result `pkt[:n-1]` keeps the checksum byte and
the spare capacity behind its length. -/
def verify (pkt : Slice) : Res Slice :=
  match pkt.data.getLast? with
  | none => .err .emptyPacket
  | some expected =>
    if expected = xorAll pkt.data.dropLast then .ok ⟨pkt.data.dropLast, expected :: pkt.slack⟩
    else .err .verifyFailed

/-- genVerifier, internal/protocol/packet_codec.go:169-176. -/
def genVerifier (pkt : List UInt8) : List UInt8 := pkt ++ [xorAll pkt]

/-- PacketData, internal/protocol/model/session.go:55-60. -/
structure Packet where
  header : Header
  body : Slice
  verifyCode : UInt8
  segCompleted : Bool
  deriving DecidableEq, Repr

/-- Decode up to line 67, internal/protocol/packet_codec.go:48-67: un-escape, verify, decode the header,
take the rest as body.  Line 51 reads the last byte of the raw frame. -/
def decodeFrame (env : Env) (payload : List UInt8) : Res Packet :=
  let pkt := unescape env payload
  match payload.getLast? with
  | none => .panic
  | some vc =>
    match verify pkt with
    | .err e => .err e
    | .panic => .panic
    | .ok pkt =>
      match Header.decode pkt 0 with
      | .err e => .err e
      | .panic => .panic
      | .ok (h, idx) =>
        match pkt.from' idx with
        | .err e => .err e
        | .panic => .panic
        | .ok body => .ok { header := h, body := body, verifyCode := vc, segCompleted := false }

/-- Encode after the message was serialised, internal/protocol/packet_codec.go:95-99. -/
def encodeFrame (pkt : List UInt8) : List UInt8 := escape (genVerifier pkt)

end JT808
