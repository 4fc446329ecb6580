import Verif.Proof.Float
import Verif.Props.Query
/-
C102: the position an operator is shown is the position that was reported.
-/
namespace JT808
open Spec

/-- A decimal number `a * 10^e`. -/
structure Spec.Decimal where
  a : Nat
  e : Int

/-- Its value is `num / den`. -/
def Spec.Decimal.num (d : Decimal) : Nat := d.a * 10 ^ d.e.toNat

def Spec.Decimal.den (d : Decimal) : Nat := 10 ^ (-d.e).toNat

/-- The binary64 number nearest to it (strconv.ParseFloat). -/
def Spec.Decimal.parse (d : Decimal) : F64 := f64div d.num d.den

/-- encoding/json writes a float64 with strconv.FormatFloat(x, 'f', -1, 64), which promises "the smallest number of digits
necessary such that ParseFloat will return" the number exactly. -/
def Spec.Prints (x : F64) (d : Decimal) : Prop :=
  x.Same d.parse ∧ ∀ d' : Decimal, x.Same d'.parse → ∀ k, d'.a < 10 ^ k → d.a < 10 ^ k

theorem ten_le (p : Nat) : 10 ^ p ≤ 2 ^ (4 * p) := by
  rw [Nat.pow_mul]; exact Nat.pow_le_pow_left (by omega) p

theorem normal_pow {n p : Nat} (hn : 0 < n) (hp : p ≤ 250) : Normal n (10 ^ p) ∧ (f64div n (10 ^ p)).k < 1074 := by
  have hb : 2 ^ 52 * 10 ^ p ≤ n * 2 ^ (52 + 4 * p) := by
    rw [Nat.pow_add]
    calc 2 ^ 52 * 10 ^ p ≤ 2 ^ 52 * 2 ^ (4 * p) := Nat.mul_le_mul_left _ (ten_le p)
      _ = 1 * (2 ^ 52 * 2 ^ (4 * p)) := (Nat.one_mul _).symm
      _ ≤ n * (2 ^ 52 * 2 ^ (4 * p)) := Nat.mul_le_mul_right _ hn
  have hk : (f64div n (10 ^ p)).k < 1074 := by
    have := f64exp_bound 1074 n (10 ^ p) _ hb
    show f64exp n (10 ^ p) 1074 < 1074
    omega
  refine ⟨?_, hk⟩
  rcases f64exp_spec 1074 n (10 ^ p) with h | h
  · exact h
  · exact absurd h (Nat.ne_of_lt hk)

theorem f64div_zero (d : Nat) (hd : 0 < d) : (f64div 0 d).m = 0 := by
  unfold f64div
  simp [hd]

theorem ten_pos (p : Nat) : 0 < 10 ^ p := Nat.pow_pos (by omega)

theorem f64div_pos {n p : Nat} (hn : 0 < n) (hp : p ≤ 250) : 0 < (f64div n (10 ^ p)).m :=
  Nat.lt_of_lt_of_le (by omega) ((normal_pow hn hp).1.m (ten_pos p))

/-- A number of at most fifteen digits, and a decimal of at most fifteen digits that is rounded like it, are equal. -/
theorem decimal_unique {n p : Nat} (hn : 0 < n) (hn' : n < 10 ^ 15) (hp : p ≤ 250) {d : Decimal} (hd : d.a < 10 ^ 15)
    (hs : (f64div n (10 ^ p)).Same d.parse) : d.num * 10 ^ p = n * d.den := by
  obtain ⟨h, hk⟩ := normal_pow hn hp
  have hden : 0 < d.den := ten_pos _
  have h' := h.of_same (ten_pos p) hden hk hs
  by_cases hj : (-d.e).toNat ≤ p
  · -- the grid of the first number
    have e1 : n * 10 ^ p = n * 10 ^ p := rfl
    have e2 : d.num * 10 ^ p = d.num * 10 ^ (p - (-d.e).toNat) * d.den := by
      unfold Decimal.den
      rw [Nat.mul_assoc, ← Nat.pow_add, Nat.sub_add_cancel hj]
    have := same_grid (ten_pos p) hden h h' hs e1 e2 (Or.inl (by omega))
    rw [e2, ← this]
  · -- the grid of the decimal
    have hnum : d.num = d.a := by
      unfold Decimal.num
      have : d.e.toNat = 0 := by omega
      rw [this]; simp
    have e1 : n * d.den = n * 10 ^ ((-d.e).toNat - p) * 10 ^ p := by
      unfold Decimal.den
      rw [Nat.mul_assoc, ← Nat.pow_add, Nat.sub_add_cancel (by omega)]
    have e2 : d.num * d.den = d.num * d.den := rfl
    have := same_grid (ten_pos p) hden h h' hs e1 e2 (Or.inr (by omega))
    rw [e1, this]

/-- C102.  A number with `p` digits after the point and at most fifteen digits in all is shown exactly as it is, after it
was rounded to binary64. -/
theorem C102_exact (n p : Nat) (hn : n < 10 ^ 15) (hp : p ≤ 250) (d : Decimal) (h : Prints (f64div n (10 ^ p)) d) :
    d.num * 10 ^ p = n * d.den := by
  by_cases h0 : n = 0
  · subst h0
    have hz : (f64div 0 (10 ^ p)).Same (Decimal.parse ⟨0, 0⟩) := by
      unfold F64.Same Decimal.parse
      rw [f64div_zero _ (ten_pos p), show Decimal.num ⟨0, 0⟩ = 0 from rfl,
        f64div_zero _ (show 0 < Decimal.den ⟨0, 0⟩ from ten_pos _)]
      simp
    have := h.2 ⟨0, 0⟩ hz 0 (by decide)
    have ha : d.a = 0 := by omega
    simp [Decimal.num, ha]
  · have hself : (f64div n (10 ^ p)).Same (Decimal.parse ⟨n, -(p : Int)⟩) := by
      unfold Decimal.parse
      have e1 : Decimal.num ⟨n, -(p : Int)⟩ = n := by
        show n * 10 ^ (-(p : Int)).toNat = n
        rw [show (-(p : Int)).toNat = 0 by omega]; simp
      have e2 : Decimal.den ⟨n, -(p : Int)⟩ = 10 ^ p := by
        show 10 ^ (- -(p : Int)).toNat = 10 ^ p
        rw [show (- -(p : Int)).toNat = p by omega]
      rw [e1, e2]; rfl
    exact decimal_unique (by omega) hn hp (h.2 _ hself 15 hn) h.1

/-- C102.  Such a number without a final zero is shown with all its digits and no others (so the theorem above speaks about
something). -/
theorem C102_digits (n p : Nat) (hn : n < 10 ^ 15) (hp : p ≤ 250) (h10 : n % 10 ≠ 0) :
    Prints (f64div n (10 ^ p)) ⟨n, -(p : Int)⟩ := by
  have e1 : Decimal.num ⟨n, -(p : Int)⟩ = n := by
    show n * 10 ^ (-(p : Int)).toNat = n
    rw [show (-(p : Int)).toNat = 0 by omega]; simp
  have e2 : Decimal.den ⟨n, -(p : Int)⟩ = 10 ^ p := by
    show 10 ^ (- -(p : Int)).toNat = 10 ^ p
    rw [show (- -(p : Int)).toNat = p by omega]
  refine ⟨by unfold Decimal.parse; rw [e1, e2]; rfl, fun d' hd' k hk => ?_⟩
  refine Nat.lt_of_not_le fun hge => ?_
  change 10 ^ k ≤ n at hge
  have hu := decimal_unique (by omega) hn hp (d := d') (by omega) hd'
  unfold Decimal.num Decimal.den at hu
  generalize (-d'.e).toNat = j at hu
  generalize d'.e.toNat = i at hu
  rw [Nat.mul_assoc, ← Nat.pow_add] at hu
  by_cases hij : i + p < j
  · -- then n would be smaller than the shorter decimal
    have e3 : n * 10 ^ j = n * 10 ^ (j - (i + p)) * 10 ^ (i + p) := by
      rw [Nat.mul_assoc, ← Nat.pow_add, Nat.sub_add_cancel (by omega)]
    rw [e3] at hu
    have := Nat.eq_of_mul_eq_mul_right (ten_pos _) hu
    have h1 : n * 1 ≤ n * 10 ^ (j - (i + p)) := Nat.mul_le_mul_left _ (ten_pos _)
    omega
  · have e3 : d'.a * 10 ^ (i + p) = d'.a * 10 ^ (i + p - j) * 10 ^ j := by
      rw [Nat.mul_assoc, ← Nat.pow_add, Nat.sub_add_cancel (by omega)]
    rw [e3] at hu
    have h3 := Nat.eq_of_mul_eq_mul_right (ten_pos _) hu
    cases ht : i + p - j with
    | zero => rw [ht] at h3; simp at h3; omega
    | succ t =>
      rw [ht, Nat.pow_succ, ← Nat.mul_assoc] at h3
      omega

/-- C102.  Different reported values are stored as different numbers. -/
theorem C102_distinct (n n' p : Nat) (hn : n < 10 ^ 15) (hp : p ≤ 250)
    (hs : (f64div n (10 ^ p)).Same (f64div n' (10 ^ p))) : n = n' := by
  have hpow : ∀ x, 0 < 2 ^ x := fun x => Nat.pow_pos (by omega)
  by_cases h0 : n = 0
  · subst h0
    by_cases h1 : n' = 0
    · exact h1.symm
    · have := f64div_pos (n := n') (p := p) (by omega) hp
      unfold F64.Same at hs
      rw [f64div_zero _ (ten_pos p), Nat.zero_mul] at hs
      have h3 := Nat.mul_pos this (hpow (f64div 0 (10 ^ p)).k)
      rw [← hs] at h3
      exact absurd h3 (Nat.lt_irrefl 0)
  · obtain ⟨h, hk⟩ := normal_pow (n := n) (p := p) (by omega) hp
    exact same_grid (ten_pos p) (ten_pos p) h (h.of_same (ten_pos p) (ten_pos p) hk hs) hs rfl rfl (Or.inl (by omega))

/-- C102.  What GET /device/:phone/geo shows as latitude, longitude and speed are the reported numbers, to the last digit:
whichever reports a phone has sent, the ones of the latest report divided by a million and by ten. -/
theorem C102_shown (env : Env) (evs : List Ev) (p : Str) (gs : List DeviceGeo) (ht : Track env p evs gs) (d : Device)
    (hd : (Sys.start.run env evs).1.st.look p = some d) (d' : Device) (shown : DeviceGeo)
    (hs : ((Sys.start.run env evs).1.st.apiGeo p).2.2 = some (d', shown)) :
    ∃ last, gs.getLast? = some last ∧
      (∀ lat, Prints shown.latitude lat → lat.num * 1000000 = last.lat.toNat * lat.den) ∧
      (∀ long, Prints shown.longitude long → long.num * 1000000 = last.long.toNat * long.den) ∧
      (∀ v, Prints shown.kmh v → v.num * 10 = last.speed.toNat * v.den) := by
  rw [C40_newest_partial env evs p gs ht d hd] at hs
  simp only at hs
  split at hs
  · cases hs
  · cases hl : gs.getLast? with
    | none => rw [hl] at hs; cases hs
    | some g =>
      rw [hl] at hs
      injection hs with hs
      injection hs with _ hs
      subst hs
      have b1 := g.lat.toNat_lt
      have b2 := g.long.toNat_lt
      have b3 := g.speed.toNat_lt
      refine ⟨g, rfl, fun x h => ?_, fun x h => ?_, fun x h => ?_⟩
      · exact C102_exact _ 6 (by omega) (by omega) x h
      · exact C102_exact _ 6 (by omega) (by omega) x h
      · exact C102_exact _ 1 (by omega) (by omega) x h

/-- C57.  A whole number in a parameter-setting request, however it is written (5, 5.0, 50e-1), is still that number after
encoding/json has made it a float64 and the encoder an integer; so the model may keep whole JSON numbers as natural
numbers.  (The bound is that of the model of rounding.) -/
theorem C57_json_number (n : Nat) (_ : n < 2 ^ 53) (d : Decimal) (h : d.num = n * d.den) : d.parse.trunc = n := by
  have hden : 0 < d.den := ten_pos _
  unfold Decimal.parse F64.trunc f64div
  simp only [h]
  generalize f64exp (n * d.den) d.den 1074 = k
  have e : n * d.den * 2 ^ k = n * 2 ^ k * d.den := Nat.mul_right_comm ..
  rw [e, Nat.mul_mod_left, Nat.mul_div_cancel _ hden, if_pos (by omega)]
  exact Nat.mul_div_cancel _ (Nat.pow_pos (by omega))

/-- 50e-1. -/
example : (Decimal.parse ⟨50, -1⟩).trunc = 5 := C57_json_number 5 (by decide) ⟨50, -1⟩ (by decide)

/-- A fraction is dropped. -/
example : (Decimal.parse ⟨57, -1⟩).trunc = 5 := by decide +kernel

/-- 31.000562 degrees is not a binary64 number, but shown with its eight digits. -/
example : Prints (f64div 31000562 1000000) ⟨31000562, -6⟩ ∧ 2 ^ 52 ≤ (f64div 31000562 1000000).m ∧
    (f64div 31000562 1000000).m * 1000000 ≠ 31000562 * 2 ^ (f64div 31000562 1000000).k := by
  refine ⟨C102_digits 31000562 6 (by decide) (by decide) (by decide), ?_, ?_⟩
  · exact (normal_pow (n := 31000562) (p := 6) (by decide) (by decide)).1.m (by decide)
  · decide +kernel

/-- Seventeen digits are too many: two numbers that are stored as one. -/
example : (f64div 45035996273704971 10).Same (f64div 45035996273704972 10) := by decide +kernel

/-- The hypotheses of C102_shown hold after one report. -/
example : ((Sys.start.run goEnv (reportEvs 1)).1.st.apiGeo (hdr2013 0).phone).2.2.isSome := by
  decide +kernel

end JT808
