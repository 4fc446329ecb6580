import Verif.Go.Basic
/-
internal/codec/hex/hex.go
-/
namespace JT808

/-- One hex digit of encoding/hex (`fromHexChar`): 0-9, a-f, A-F. -/
def hexVal (c : UInt8) : Option UInt8 :=
  if 0x30 ≤ c ∧ c ≤ 0x39 then some (c - 0x30)
  else if 0x61 ≤ c ∧ c ≤ 0x66 then some (c - 0x61 + 10)
  else if 0x41 ≤ c ∧ c ≤ 0x46 then some (c - 0x41 + 10)
  else none

/-- Str2Byte, internal/codec/hex/hex.go:23-33.  `hex.DecodeString` decodes pairs until the first
invalid one; on error the bytes decoded so far are returned, and Str2Byte only logs the error.  An odd
last character is dropped. -/
def str2Byte : Str → List UInt8
  | a :: b :: rest =>
    match hexVal a, hexVal b with
    | some x, some y => (x * 16 + y) :: str2Byte rest
    | _, _ => []
  | _ => []

/-- One upper-case hex digit, as printed by `%02X`. -/
def hexDigit (n : UInt8) : UInt8 := if n < 10 then 0x30 + n else 0x41 + (n - 10)

/-- `fmt.Sprintf("%02X", b)` -/
def hex2 (b : UInt8) : Str := [hexDigit (b / 16), hexDigit (b % 16)]

/-- One lower-case hex digit (`hextable` of encoding/hex). -/
def hexDigitLow (n : UInt8) : UInt8 := if n < 10 then 0x30 + n else 0x61 + (n - 10)

/-- Byte2Str, internal/codec/hex/hex.go:35-37. -/
def byte2Str (bs : List UInt8) : Str := bs.flatMap fun b => [hexDigitLow (b / 16), hexDigitLow (b % 16)]

/-- `strings.LastIndex(s, c)` for a one-byte `c`; `none` is Go's -1. -/
def lastIndex (c : UInt8) (s : Str) : Option Nat :=
  match s.reverse.findIdx? (· == c) with
  | some k => some (s.length - 1 - k)
  | none => none

/-- bcd2NumberStr, internal/codec/hex/hex.go:51-61. -/
def bcd2NumberStr (bcd : List UInt8) : Str :=
  let number := bcd.flatMap hex2
  match lastIndex 0x46 number with
  | none => number
  | some pos => if pos = 8 then [0x30] else number.drop (pos + 1)

/-- numberStr2BCD, internal/codec/hex/hex.go:75-82: left-pad with 'f' to eight characters. -/
def numberStr2BCD (number : Str) : List UInt8 :=
  str2Byte (List.replicate (8 - number.length) 0x66 ++ number)

/-- ReadByte, internal/codec/hex/hex.go:85-89 (index expression: bounded by len). -/
def readByte : Rd UInt8 := fun s i =>
  match s.index i with
  | .ok b => .ok (b, i + 1)
  | .err e => .err e
  | .panic => .panic

/-- `binary.BigEndian.Uint16` -/
def be16 (a b : UInt8) : UInt16 := (a.toUInt16 <<< 8) ||| b.toUInt16

/-- `binary.BigEndian.Uint32` -/
def be32 (a b c d : UInt8) : UInt32 :=
  (a.toUInt32 <<< 24) ||| (b.toUInt32 <<< 16) ||| (c.toUInt32 <<< 8) ||| d.toUInt32

/-- ReadBytes, internal/codec/hex/hex.go:125-129 (slice expression: bounded by cap). -/
def readBytes (n : Int) : Rd (List UInt8) := fun s i =>
  match s.sub i n with
  | .ok bs => .ok (bs, i + n.toNat)
  | .err e => .err e
  | .panic => .panic

/-- ReadWord, internal/codec/hex/hex.go:97-101. -/
def readWord : Rd UInt16 := do
  match ← readBytes 2 with
  | [a, b] => pure (be16 a b)
  | _ => Rd.panic

/-- ReadDoubleWord, internal/codec/hex/hex.go:111-115. -/
def readDWord : Rd UInt32 := do
  match ← readBytes 4 with
  | [a, b, c, d] => pure (be32 a b c d)
  | _ => Rd.panic

/-- ReadString, internal/codec/hex/hex.go:137-139. -/
def readString (n : Int) : Rd Str := readBytes n

/-- ReadBCD, internal/codec/hex/hex.go:148-152. -/
def readBCD (n : Int) : Rd Str := do
  let bs ← readBytes n
  pure (bcd2NumberStr bs)

/-- ReadGBK, internal/codec/hex/hex.go:160-167. -/
def readGBK (env : Env) (n : Int) : Rd Str := do
  let bs ← readBytes n
  match env.gbkDec bs with
  | some s => pure s
  | none => pure []

/-- WriteByte, internal/codec/hex/hex.go:92-94. -/
def writeByte (pkt : List UInt8) (n : UInt8) : List UInt8 := pkt ++ [n]

/-- `binary.BigEndian.PutUint16` -/
def put16 (n : UInt16) : List UInt8 := [(n >>> 8).toUInt8, n.toUInt8]

/-- `binary.BigEndian.PutUint32` -/
def put32 (n : UInt32) : List UInt8 :=
  [(n >>> 24).toUInt8, (n >>> 16).toUInt8, (n >>> 8).toUInt8, n.toUInt8]

/-- WriteWord, internal/codec/hex/hex.go:104-108. -/
def writeWord (pkt : List UInt8) (n : UInt16) : List UInt8 := pkt ++ put16 n

/-- WriteDoubleWord, internal/codec/hex/hex.go:118-122. -/
def writeDWord (pkt : List UInt8) (n : UInt32) : List UInt8 := pkt ++ put32 n

/-- WriteBytes, internal/codec/hex/hex.go:132-134. -/
def writeBytes (pkt arr : List UInt8) : List UInt8 := pkt ++ arr

/-- WriteString, internal/codec/hex/hex.go:142-145. -/
def writeString (pkt : List UInt8) (s : Str) : List UInt8 := writeBytes pkt s

/-- WriteBCD, internal/codec/hex/hex.go:155-157. -/
def writeBCD (pkt : List UInt8) (s : Str) : List UInt8 := pkt ++ numberStr2BCD s

/-- WriteGBK, internal/codec/hex/hex.go:170-176: on a conversion error everything written so far is
dropped. -/
def writeGBK (env : Env) (pkt : List UInt8) (s : Str) : List UInt8 :=
  match env.gbkEnc s with
  | some g => pkt ++ g
  | none => []

end JT808
