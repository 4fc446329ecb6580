import Verif.Spec.Header
/-
Specification of the location status word (JT/T 808 table "status bits"), on natural numbers; no reference to
the model.
-/
namespace JT808.Spec

/-- The assigned bits of a status word: 0-5 and 8-22. -/
def assignedStatus (w : Nat) : Nat := bits w 0 6 + 2 ^ 8 * bits w 8 15

/-- Bits 2 (south latitude) and 3 (west longitude) exchanged, everything else as it was. -/
def swapHemispheres (w : Nat) : Nat :=
  bits w 0 2 + 2 ^ 2 * bits w 3 1 + 2 ^ 3 * bits w 2 1 + 2 ^ 4 * bits w 4 28

end JT808.Spec
