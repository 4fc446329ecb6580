import Verif.Model.JsonText
/-
The conversion of texts, internal/codec/gbk/gbk.go.  It consists of calls of golang.org/x/text v0.9.0 (go.mod), whose source
is not at hand: encoding/simplifiedchinese/gbk.go is modelled from its published text.
-/
namespace JT808

/-- The tables of encoding/simplifiedchinese/tables.go, used by gbk.go:14 and :24: `decode` by index, `encode0` … `encode4` by
character; 0 where there is no entry or no table.  Their 23940 and 21791 entries are left open, theorems take any. -/
structure GbkTable where
  char : Nat → Nat
  code : Nat → Nat

/-- One round of gbkDecoder.Transform (without the GB18030 cases) on a text that begins with `b` and goes on with `s`: the
character and the number of bytes taken.  Library code used by gbk.go:14. -/
def gbkRune (T : GbkTable) (b : UInt8) (s : Str) : Nat × Nat :=
  if b < 0x80 then (b.toNat, 1)
  else if b = 0x80 then (0x20AC, 1)
  else if b < 0xff then
    match s with
    | [] => (0xFFFD, 1)
    | c :: _ =>
      if 0x40 ≤ c ∧ c < 0x7f then
        let r := T.char ((b.toNat - 0x81) * 190 + (c.toNat - 0x40))
        (if r = 0 then 0xFFFD else r, 2)
      else if 0x80 ≤ c ∧ c < 0xff then
        let r := T.char ((b.toNat - 0x81) * 190 + (c.toNat - 0x41))
        (if r = 0 then 0xFFFD else r, 2)
      else (0xFFFD, 1)
  else (0xFFFD, 1)

/-- utf8.EncodeRune and utf8.AppendRune: characters that are none become U+FFFD.  Library code used by gbk.go:14. -/
def encodeRune (r : Nat) : Str :=
  if r < 0x80 then [UInt8.ofNat r]
  else if r < 0x800 then [UInt8.ofNat (0xc0 + r / 64), UInt8.ofNat (0x80 + r % 64)]
  else if r > 0x10ffff ∨ 0xd800 ≤ r ∧ r ≤ 0xdfff then [0xef, 0xbf, 0xbd]
  else if r < 0x10000 then
    [UInt8.ofNat (0xe0 + r / 4096), UInt8.ofNat (0x80 + r / 64 % 64), UInt8.ofNat (0x80 + r % 64)]
  else
    [UInt8.ofNat (0xf0 + r / 262144), UInt8.ofNat (0x80 + r / 4096 % 64), UInt8.ofNat (0x80 + r / 64 % 64),
      UInt8.ofNat (0x80 + r % 64)]

/-- The loop of gbkDecoder.Transform; `k` bounds the number of rounds.  Library code used by gbk.go:14. -/
def gbkDecodeN (T : GbkTable) : Nat → Str → Str
  | 0, _ => []
  | _, [] => []
  | k + 1, b :: s => encodeRune (gbkRune T b s).1 ++ gbkDecodeN T k ((b :: s).drop (gbkRune T b s).2)

/-- GBK2UTF8, gbk.go:13-20.  io.ReadAll over transform.Reader is taken as one pass over the whole text: the reader begins a
new piece only between two characters. -/
def gbkToUtf8 (T : GbkTable) (s : Str) : Option Str := some (gbkDecodeN T s.length s)

/-- utf8.DecodeRune for a text that begins with a byte from 0x80: character and size, U+FFFD and 1 where no character is
encoded.  Library code used by gbk.go:24. -/
def decodeRune (s : Str) : Nat × Nat :=
  match runeSize s, s with
  | 2, a :: b :: _ => ((a.toNat % 32) * 64 + b.toNat % 64, 2)
  | 3, a :: b :: c :: _ => ((a.toNat % 16) * 4096 + (b.toNat % 64) * 64 + c.toNat % 64, 3)
  | 4, a :: b :: c :: d :: _ =>
    ((a.toNat % 8) * 262144 + (b.toNat % 64) * 4096 + (c.toNat % 64) * 64 + d.toNat % 64, 4)
  | _, _ => (0xFFFD, 1)

/-- One character from 0x80 in gbkEncoder.Transform; `none` is the error ErrASCIIReplacement.  Library code used by gbk.go:24. -/
def gbkCode (T : GbkTable) (r : Nat) : Option Str :=
  if r = 0x20AC then some [0x80]
  else if T.code r = 0 then none
  else some [UInt8.ofNat (T.code r / 256), UInt8.ofNat (T.code r % 256)]

/-- The loop of gbkEncoder.Transform; `k` bounds the number of rounds.  Library code used by gbk.go:24. -/
def gbkEncodeN (T : GbkTable) : Nat → Str → Option Str
  | 0, _ => some []
  | _, [] => some []
  | k + 1, b :: s =>
    if b < 0x80 then (gbkEncodeN T k s).map (b :: ·)
    else
      match gbkCode T (decodeRune (b :: s)).1 with
      | none => none
      | some g => (gbkEncodeN T k ((b :: s).drop (decodeRune (b :: s)).2)).map (g ++ ·)

/-- UTF82GBK, gbk.go:23-30.  One pass as in `gbkToUtf8`; on an error what was written so far is dropped (gbk.go:27). -/
def utf8ToGbk (T : GbkTable) (s : Str) : Option Str := gbkEncodeN T s.length s

/-- The rest of the environment with these converters: what `hex.ReadGBK` and `hex.WriteGBK` call
(internal/codec/hex/hex.go:160-176). -/
def gbkEnv (T : GbkTable) (env : Env) : Env := { env with gbkDec := gbkToUtf8 T, gbkEnc := utf8ToGbk T }

end JT808
