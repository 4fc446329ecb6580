import Verif.Go.Basic
/-
Authorisation codes: the 32-bit FNV-1a hash of the identity, in decimal.
-/
namespace JT808.Spec
open JT808

/-- FNV-1a on numbers: add each byte bitwise, multiply by the FNV prime, modulo 2^32. -/
def fnv1a (bs : List UInt8) : Nat := bs.foldl (fun acc b => (acc ^^^ b.toNat) * 16777619 % 2 ^ 32) 2166136261

/-- The number whose decimal digits are `s`. -/
def decimalValue (s : List UInt8) : Nat := s.foldl (fun v b => 10 * v + (b.toNat - 0x30)) 0

/-- Only decimal digits. -/
def AllDigits (s : List UInt8) : Prop := ∀ b ∈ s, 0x30 ≤ b.toNat ∧ b.toNat ≤ 0x39

/-- The text that is hashed: id, plate and phone, separated by underscores. -/
def identityText (id plate phone : List UInt8) : List UInt8 := id ++ [0x5f] ++ plate ++ [0x5f] ++ phone

end JT808.Spec
