/-
Specification of protocol timestamps (BCD[6], YY-MM-DD-hh-mm-ss), independent of the model.
-/
namespace JT808.Spec

/-- Gregorian leap years. -/
def leap (y : Nat) : Prop := (4 ∣ y ∧ ¬ 100 ∣ y) ∨ 400 ∣ y

instance (y : Nat) : Decidable (leap y) := by unfold leap; infer_instance

/-- Days of month `m` (1..12) of year `y`. -/
def monthDays (y m : Nat) : Nat :=
  [0, 31, if leap y then 29 else 28, 31, 30, 31, 30, 31, 31, 30, 31, 30, 31].getD m 0

/-- A calendar date and time of day. -/
def validDateTime (y mo d h mi s : Nat) : Prop :=
  1 ≤ mo ∧ mo ≤ 12 ∧ 1 ≤ d ∧ d ≤ monthDays y mo ∧ h < 24 ∧ mi < 60 ∧ s < 60

instance (y mo d h mi s : Nat) : Decidable (validDateTime y mo d h mi s) := by
  unfold validDateTime; infer_instance

/-- Years a two-digit year can stand for. -/
def inWindow (y : Nat) : Prop := 1969 ≤ y ∧ y ≤ 2068

/-- One BCD byte. -/
def bcdByte (n : Nat) : UInt8 := UInt8.ofNat (n / 10 * 16 + n % 10)

/-- The six bytes of a timestamp. -/
def timeBytes (y mo d h mi s : Nat) : List UInt8 :=
  [bcdByte (y % 100), bcdByte mo, bcdByte d, bcdByte h, bcdByte mi, bcdByte s]

end JT808.Spec
