import Verif.Model.Datagen
import Verif.Proof.Ring
/-
Helper lemmas about the numbers of the simulator.
-/
namespace JT808

/-! ## Rounding -/

/-- The binary64 number next to `n / d` is not below an integer that is not above `n / d`. -/
theorem f64div_ge {n d a : Nat} (hd : 0 < d) (h : a * d ≤ n) : a * 2 ^ (f64div n d).k ≤ (f64div n d).m := by
  unfold f64div
  simp only
  generalize f64exp n d 1074 = k
  have hq : a * 2 ^ k ≤ n * 2 ^ k / d := by
    rw [Nat.le_div_iff_mul_le hd, Nat.mul_right_comm]
    exact Nat.mul_le_mul_right _ h
  split
  · exact hq
  · split <;> omega

theorem f64div_le {n d a : Nat} (hd : 0 < d) (h : n ≤ a * d) : (f64div n d).m ≤ a * 2 ^ (f64div n d).k := by
  unfold f64div
  simp only
  generalize f64exp n d 1074 = k
  have h1 : n * 2 ^ k ≤ a * 2 ^ k * d := by
    rw [Nat.mul_right_comm]; exact Nat.mul_le_mul_right _ h
  have hdiv := Nat.div_add_mod (n * 2 ^ k) d
  have hq : n * 2 ^ k / d ≤ a * 2 ^ k := Nat.div_le_of_le_mul (by rw [Nat.mul_comm d]; exact h1)
  rcases Nat.lt_or_ge (n * 2 ^ k / d) (a * 2 ^ k) with h2 | h2
  · split
    · omega
    · split <;> omega
  · have he : n * 2 ^ k / d = a * 2 ^ k := Nat.le_antisymm hq h2
    have hr : n * 2 ^ k % d = 0 := by
      rw [he, Nat.mul_comm d] at hdiv
      omega
    rw [if_pos (by omega)]
    exact hq

/-- `a ≤ x`. -/
def S64.Ge (x : S64) (a : Int) : Prop := a * 2 ^ x.k ≤ x.num

/-- `x ≤ a`. -/
def S64.Le (x : S64) (a : Int) : Prop := x.num ≤ a * 2 ^ x.k

theorem f64round_ge {n : Int} {d : Nat} {a : Int} (hd : 0 < d) (h : a * d ≤ n) : (f64round n d).Ge a := by
  unfold f64round S64.Ge
  simp only
  by_cases hn : n < 0
  · rw [if_pos hn]
    have ha : a ≤ 0 := by
      rcases Int.lt_or_le 0 a with h1 | h1
      · have : (0 : Int) ≤ a * d := Int.mul_nonneg (by omega) (by omega)
        omega
      · exact h1
    obtain ⟨b, rfl⟩ : ∃ b : Nat, a = -(b : Int) := ⟨a.natAbs, by omega⟩
    have h1 : n.natAbs ≤ b * d := by
      have : ((b * d : Nat) : Int) = (b : Int) * d := by simp
      rw [Int.neg_mul] at h
      omega
    have h2 := f64div_le hd h1
    generalize f64div n.natAbs d = x at h2 ⊢
    have h3 : ((x.m : Nat) : Int) ≤ ((b * 2 ^ x.k : Nat) : Int) := by omega
    simp only [Int.natCast_mul, Int.natCast_pow, Int.cast_ofNat_Int] at h3
    rw [Int.neg_mul]
    omega
  · rw [if_neg hn]
    rcases Int.lt_or_le a 0 with ha | ha
    · have : a * 2 ^ (f64div n.natAbs d).k ≤ 0 := Int.mul_nonpos_of_nonpos_of_nonneg (by omega) (Int.pow_nonneg (by omega))
      omega
    · obtain ⟨b, rfl⟩ : ∃ b : Nat, a = (b : Int) := ⟨a.natAbs, by omega⟩
      have h1 : b * d ≤ n.natAbs := by
        have : ((b * d : Nat) : Int) = (b : Int) * d := by simp
        omega
      have h2 := f64div_ge hd h1
      generalize f64div n.natAbs d = x at h2 ⊢
      have h3 : ((b * 2 ^ x.k : Nat) : Int) ≤ ((x.m : Nat) : Int) := by omega
      simp only [Int.natCast_mul, Int.natCast_pow, Int.cast_ofNat_Int] at h3
      exact h3

theorem f64round_neg (n : Int) (d : Nat) (hn : n ≠ 0) : (f64round (-n) d).num = -(f64round n d).num ∧
    (f64round (-n) d).k = (f64round n d).k := by
  unfold f64round
  simp only [Int.natAbs_neg]
  refine ⟨?_, trivial⟩
  by_cases h : n < 0
  · rw [if_neg (by omega), if_pos h]; omega
  · rw [if_pos (by omega), if_neg h]

theorem f64round_le {n : Int} {d : Nat} {a : Int} (hd : 0 < d) (h : n ≤ a * d) : (f64round n d).Le a := by
  by_cases hn : n = 0
  · subst hn
    have h1 := f64div_le (n := 0) (a := 0) hd (by omega)
    unfold f64round S64.Le
    simp only [Int.natAbs_zero]
    rw [Nat.zero_mul] at h1
    rw [if_neg (by omega)]
    have ha : 0 ≤ a := by
      rcases Int.lt_or_le a 0 with h2 | h2
      · have : a * (d : Int) < 0 := Int.mul_neg_of_neg_of_pos h2 (by omega)
        omega
      · exact h2
    have : 0 ≤ a * 2 ^ (f64div 0 d).k := Int.mul_nonneg ha (Int.pow_nonneg (by omega))
    omega
  · have h1 := f64round_ge (n := -n) (a := -a) hd (by rw [Int.neg_mul]; omega)
    obtain ⟨e1, e2⟩ := f64round_neg n d hn
    unfold S64.Ge at h1
    rw [e1, e2, Int.neg_mul] at h1
    unfold S64.Le
    omega

theorem two_pow_pos' (k : Nat) : (0 : Int) < 2 ^ k := Int.pow_pos (by omega)

theorem S64.Ge.add {x y : S64} {a b : Int} (hx : x.Ge a) (hy : y.Ge b) : (x.add y).Ge (a + b) := by
  unfold S64.add
  apply f64round_ge (Nat.two_pow_pos _)
  unfold S64.Ge at hx hy
  have h1 := Int.mul_le_mul_of_nonneg_right hx (Int.le_of_lt (two_pow_pos' y.k))
  have h2 := Int.mul_le_mul_of_nonneg_right hy (Int.le_of_lt (two_pow_pos' x.k))
  have e : ((2 ^ (x.k + y.k) : Nat) : Int) = 2 ^ x.k * 2 ^ y.k := by rw [Nat.pow_add]; simp
  rw [e, Int.add_mul, ← Int.mul_assoc, Int.mul_comm (2 ^ x.k) (2 ^ y.k), ← Int.mul_assoc]
  omega

theorem S64.Le.add {x y : S64} {a b : Int} (hx : x.Le a) (hy : y.Le b) : (x.add y).Le (a + b) := by
  unfold S64.add
  apply f64round_le (Nat.two_pow_pos _)
  unfold S64.Le at hx hy
  have h1 := Int.mul_le_mul_of_nonneg_right hx (Int.le_of_lt (two_pow_pos' y.k))
  have h2 := Int.mul_le_mul_of_nonneg_right hy (Int.le_of_lt (two_pow_pos' x.k))
  have e : ((2 ^ (x.k + y.k) : Nat) : Int) = 2 ^ x.k * 2 ^ y.k := by rw [Nat.pow_add]; simp
  rw [e, Int.add_mul, ← Int.mul_assoc, Int.mul_comm (2 ^ x.k) (2 ^ y.k), ← Int.mul_assoc]
  omega

theorem S64.Ge.times {x : S64} {a : Int} (hx : x.Ge a) (y : Nat) : (x.times y).Ge (a * y) := by
  unfold S64.times
  apply f64round_ge (Nat.two_pow_pos _)
  unfold S64.Ge at hx
  have h1 := Int.mul_le_mul_of_nonneg_right hx (Int.natCast_nonneg y)
  have e : ((2 ^ x.k : Nat) : Int) = 2 ^ x.k := by simp
  rw [e, Int.mul_right_comm]
  exact h1

theorem S64.Le.times {x : S64} {a : Int} (hx : x.Le a) (y : Nat) : (x.times y).Le (a * y) := by
  unfold S64.times
  apply f64round_le (Nat.two_pow_pos _)
  unfold S64.Le at hx
  have h1 := Int.mul_le_mul_of_nonneg_right hx (Int.natCast_nonneg y)
  have e : ((2 ^ x.k : Nat) : Int) = 2 ^ x.k := by simp
  rw [e, Int.mul_right_comm]
  exact h1

/-- Converting a number between two integers in range. -/
theorem S64.toUInt_between {x : S64} {a b : Nat} {bits : Nat} (wild : Int → Nat → Nat) (ha : x.Ge a) (hb : x.Le b)
    (hr : b < 2 ^ bits) : a ≤ x.toUInt wild bits ∧ x.toUInt wild bits ≤ b := by
  unfold S64.Ge at ha
  unfold S64.Le at hb
  have hp := two_pow_pos' x.k
  have h0 : 0 ≤ x.num := by
    have : (0 : Int) ≤ a * 2 ^ x.k := Int.mul_nonneg (by omega) (by omega)
    omega
  have e : x.num.tdiv (2 ^ x.k) = x.num / 2 ^ x.k := Int.tdiv_eq_ediv_of_nonneg h0
  have h1 : (a : Int) ≤ x.num / 2 ^ x.k := (Int.le_ediv_iff_mul_le hp).2 ha
  have h2 : x.num / 2 ^ x.k ≤ (b : Int) := by
    have : x.num / 2 ^ x.k < (b : Int) + 1 := (Int.ediv_lt_iff_lt_mul hp).2 (by rw [Int.add_mul]; omega)
    omega
  unfold S64.toUInt
  simp only [e]
  have h3 : ((2 ^ bits : Nat) : Int) = 2 ^ bits := by simp
  rw [if_pos ⟨by omega, by omega⟩]
  omega

theorem S64.whole (i : Int) : (S64.mk i 0).Ge i ∧ (S64.mk i 0).Le i := by
  unfold S64.Ge S64.Le; simp

theorem randFloat_between (u : Fin (2 ^ 53)) : (randFloat u).Ge 0 ∧ (randFloat u).Le 1 := by
  have := u.isLt
  unfold randFloat S64.Ge S64.Le
  constructor
  · simp
  · simp only [Int.one_mul]; omega

theorem degreeOffset_between (u : Fin (2 ^ 53)) : (degreeOffset u).Ge (-1) ∧ (degreeOffset u).Le 1 := by
  obtain ⟨h1, h2⟩ := randFloat_between u
  exact ⟨(h1.times 2).add (S64.whole (-1)).1, (h2.times 2).add (S64.whole (-1)).2⟩

theorem speedOffset_between (u : Fin (2 ^ 53)) : (speedOffset u).Ge (-10) ∧ (speedOffset u).Le 10 := by
  obtain ⟨h1, h2⟩ := randFloat_between u
  exact ⟨(h1.times 20).add (S64.whole (-10)).1, (h2.times 20).add (S64.whole (-10)).2⟩

/-- A coordinate or speed that stays in range. -/
theorem shifted_between (wild : Int → Nat → Nat) {a r s bits : Nat} {o : S64} (h1 : o.Ge (-(r : Int))) (h2 : o.Le r)
    (ha : r ≤ a) (hb : (a + r) * s < 2 ^ bits) :
    (a - r) * s ≤ (((S64.mk a 0).add o).times s).toUInt wild bits ∧
    (((S64.mk a 0).add o).times s).toUInt wild bits ≤ (a + r) * s := by
  have g := ((S64.whole a).1.add h1).times s
  have l := ((S64.whole a).2.add h2).times s
  apply S64.toUInt_between wild _ _ hb
  · have e : (((a - r) * s : Nat) : Int) = ((a : Int) + -(r : Int)) * (s : Int) := by
      rw [Int.natCast_mul, Int.natCast_sub ha]; rfl
    rw [e]; exact g
  · have e : (((a + r) * s : Nat) : Int) = ((a : Int) + (r : Int)) * (s : Int) := by
      rw [Int.natCast_mul, Int.natCast_add]
    rw [e]; exact l

/-! ## Rings -/

theorem builds_snoc (rs : SimRings) (bs : List (Str × SimGeo)) (b : Str × SimGeo) :
    rs.builds (bs ++ [b]) = (rs.builds bs).build b.1 b.2 := by
  induction bs generalizing rs with
  | nil => rfl
  | cons x bs ih => exact ih _

end JT808
