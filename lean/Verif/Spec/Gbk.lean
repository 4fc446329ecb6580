import Verif.Model.Gbk
import Verif.Spec.Json
/-
The text encoding of the protocol: GBK as Code Page 936 has it.
-/
namespace JT808.Spec

/-- A text in GBK and its characters: ASCII in one byte, the euro sign as 0x80, everything else in the two bytes of the
table. -/
inductive GbkText (T : GbkTable) : List UInt8 → List Nat → Prop
  | nil : GbkText T [] []
  | ascii {b : UInt8} {g : List UInt8} {t : List Nat} : b.toNat < 0x80 → GbkText T g t → GbkText T (b :: g) (b.toNat :: t)
  | euro {g : List UInt8} {t : List Nat} : GbkText T g t → GbkText T (0x80 :: g) (0x20AC :: t)
  | pair {a b : UInt8} {r : Nat} {g : List UInt8} {t : List Nat} : 0x80 ≤ r → r ≠ 0x20AC → T.code r = a.toNat * 256 + b.toNat →
      T.code r ≠ 0 → GbkText T g t → GbkText T (a :: b :: g) (r :: t)

/-- A character that GBK has. -/
def GbkKnows (T : GbkTable) (r : Nat) : Prop := r < 0x80 ∨ r = 0x20AC ∨ T.code r ≠ 0

/-- What is taken for granted of the tables: a code consists of a lead byte 0x81–0xFE and a second byte 0x40–0x7E or
0x80–0xFE, at the index of these two bytes the character is found again, U+FFFD has no code, and there are only
characters in the tables. -/
structure GbkTable.Sound (T : GbkTable) : Prop where
  lead : ∀ r, T.code r ≠ 0 → 0x8100 ≤ T.code r ∧ T.code r < 0xFF00
  second : ∀ r, T.code r ≠ 0 → 0x40 ≤ T.code r % 256 ∧ T.code r % 256 < 0x7F ∨ 0x80 ≤ T.code r % 256 ∧ T.code r % 256 < 0xFF
  back : ∀ r, T.code r ≠ 0 → T.char ((T.code r / 256 - 0x81) * 190 +
    (T.code r % 256 - if T.code r % 256 < 0x7F then 0x40 else 0x41)) = r
  none : T.code 0xFFFD = 0
  known : ∀ r, T.code r ≠ 0 → Scalar r ∧ 0x80 ≤ r
  char : ∀ i, Scalar (T.char i)

end JT808.Spec
