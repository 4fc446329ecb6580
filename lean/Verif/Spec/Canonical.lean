import Verif.Spec.Framing
/-
When bytes between delimiters are escaped as the standard says.
-/
namespace JT808.Spec

/-- No delimiter, and 0x7d only in front of 0x01 or 0x02. -/
inductive Escaped : List UInt8 → Prop
  | nil : Escaped []
  | plain {b : UInt8} {r : List UInt8} : b ≠ 0x7e → b ≠ 0x7d → Escaped r → Escaped (b :: r)
  | delim {r : List UInt8} : Escaped r → Escaped (0x7d :: 0x02 :: r)
  | esc {r : List UInt8} : Escaped r → Escaped (0x7d :: 0x01 :: r)

end JT808.Spec
