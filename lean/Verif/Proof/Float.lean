import Verif.Model.Float
/-
Rounding to binary64: the error, and that decimals of up to fifteen digits are told apart.
-/
namespace JT808

theorem scale_le {a b x y : Nat} (z : Nat) (h : a * x ≤ b * y) : a * (x * z) ≤ b * (y * z) := by
  rw [← Nat.mul_assoc, ← Nat.mul_assoc]; exact Nat.mul_le_mul_right z h

theorem unscale_le {a b x y z : Nat} (hz : 0 < z) (h : a * (x * z) ≤ b * (y * z)) : a * x ≤ b * y := by
  rw [← Nat.mul_assoc, ← Nat.mul_assoc] at h; exact Nat.le_of_mul_le_mul_right h hz

theorem f64exp_le : ∀ (fuel n d : Nat), f64exp n d fuel ≤ fuel := by
  intro fuel
  induction fuel with
  | zero => intro n d; exact Nat.le_refl _
  | succ f ih => intro n d; unfold f64exp; split; · omega
                 · exact Nat.succ_le_succ (ih _ _)

/-- The exponent that was found is large enough, unless the search ended. -/
theorem f64exp_spec : ∀ (fuel n d : Nat), 2 ^ 52 * d ≤ n * 2 ^ f64exp n d fuel ∨ f64exp n d fuel = fuel := by
  intro fuel
  induction fuel with
  | zero => intro n d; right; rfl
  | succ f ih =>
    intro n d
    unfold f64exp
    split
    · left; simpa using ‹2 ^ 52 * d ≤ n›
    · rcases ih (2 * n) d with h | h
      · left
        have : n * 2 ^ (f64exp (2 * n) d f + 1) = 2 * n * 2 ^ f64exp (2 * n) d f := by
          rw [Nat.pow_succ, Nat.mul_comm 2 n, Nat.mul_assoc, Nat.mul_comm 2]
        rw [this]; exact h
      · right; rw [h]

/-- A larger exponent than needed is not taken. -/
theorem f64exp_bound : ∀ (fuel n d b : Nat), 2 ^ 52 * d ≤ n * 2 ^ b → f64exp n d fuel ≤ b := by
  intro fuel
  induction fuel with
  | zero => intro n d b _; exact Nat.zero_le _
  | succ f ih =>
    intro n d b h
    unfold f64exp
    split
    · exact Nat.zero_le _
    · rename_i hn
      cases b with
      | zero => simp at h; omega
      | succ b =>
        refine Nat.succ_le_succ (ih (2 * n) d b ?_)
        have : n * 2 ^ (b + 1) = 2 * n * 2 ^ b := by
          rw [Nat.pow_succ, Nat.mul_comm 2 n, Nat.mul_assoc, Nat.mul_comm 2]
        rw [← this]; exact h

/-- Rounding is off by at most one half in the last place. -/
theorem f64div_near (n d : Nat) (hd : 0 < d) :
    2 * ((f64div n d).m * d) ≤ 2 * (n * 2 ^ (f64div n d).k) + d ∧
    2 * (n * 2 ^ (f64div n d).k) ≤ 2 * ((f64div n d).m * d) + d := by
  unfold f64div
  simp only
  generalize n * 2 ^ f64exp n d 1074 = x
  have hx := Nat.div_add_mod x d
  have hr := Nat.mod_lt x hd
  rw [Nat.mul_comm] at hx
  generalize x / d = q at *
  generalize x % d = r at *
  have h1 : (q + 1) * d = q * d + d := Nat.succ_mul q d
  split
  · generalize q * d = y at *; omega
  · split
    · generalize q * d = y at *; omega
    · rw [h1]; generalize q * d = y at *; omega

/-- The quotient is in the range of the normal numbers. -/
def Normal (n d : Nat) : Prop := 2 ^ 52 * d ≤ n * 2 ^ (f64div n d).k

theorem Normal.error {n d : Nat} (hd : 0 < d) (h : Normal n d) :
    2 ^ 53 * ((f64div n d).m * d) ≤ (2 ^ 53 + 1) * (n * 2 ^ (f64div n d).k) ∧
    (2 ^ 53 - 1) * (n * 2 ^ (f64div n d).k) ≤ 2 ^ 53 * ((f64div n d).m * d) := by
  have h1 := f64div_near n d hd
  unfold Normal at h
  generalize (f64div n d).m * d = a at *
  generalize n * 2 ^ (f64div n d).k = b at *
  omega

theorem Normal.m {n d : Nat} (hd : 0 < d) (h : Normal n d) : 2 ^ 52 ≤ (f64div n d).m := by
  have h1 := (f64div_near n d hd).2
  unfold Normal at h
  have h2 : 2 * (2 ^ 52 * d) ≤ 2 * ((f64div n d).m * d) + d := by omega
  have h3 : (2 * 2 ^ 52) * d ≤ (2 * (f64div n d).m + 1) * d := by
    rw [Nat.add_mul, Nat.one_mul, Nat.mul_assoc, Nat.mul_assoc]; exact h2
  have := Nat.le_of_mul_le_mul_right h3 hd
  omega

/-- A quotient that is rounded to a number that is not subnormal is normal. -/
theorem Normal.of_same {n d n' d' : Nat} (hd : 0 < d) (hd' : 0 < d') (h : Normal n d) (hk : (f64div n d).k < 1074)
    (hs : (f64div n d).Same (f64div n' d')) : Normal n' d' := by
  unfold Normal
  rcases f64exp_spec 1074 n' d' with h1 | h1
  · exact h1
  · refine Nat.le_of_not_lt fun h2 => ?_
    have hk' : (f64div n' d').k = 1074 := h1
    have hm := h.m hd
    have h3 := (f64div_near n' d' hd').1
    have h4 : (f64div n' d').m ≤ 2 ^ 52 := by
      refine Nat.le_of_not_lt fun h5 => ?_
      have h6 : (2 ^ 52 + 1) * d' ≤ (f64div n' d').m * d' := Nat.mul_le_mul_right _ h5
      rw [Nat.add_mul, Nat.one_mul] at h6
      omega
    unfold F64.Same at hs
    rw [hk'] at hs
    have h7 : (2 : Nat) ^ (f64div n d).k < 2 ^ 1074 := Nat.pow_lt_pow_right (by omega) hk
    generalize (2 : Nat) ^ 1074 = A at *
    generalize (2 : Nat) ^ (f64div n d).k = B at *
    have h8 : 2 ^ 52 * A ≤ (f64div n d).m * A := Nat.mul_le_mul_right _ hm
    have h9 : (f64div n' d').m * B ≤ 2 ^ 52 * B := Nat.mul_le_mul_right _ h4
    omega

/-- Numbers on a common grid that are rounded to the same binary64 number are equal, if one of them has at most fifteen
digits on it. -/
theorem same_grid {n d n' d' u v g : Nat} (hd : 0 < d) (hd' : 0 < d') (h : Normal n d) (h' : Normal n' d')
    (hs : (f64div n d).Same (f64div n' d')) (hu : n * g = u * d) (hv : n' * g = v * d')
    (hsmall : u < 2 ^ 50 ∨ v < 2 ^ 50) : u = v := by
  obtain ⟨a1, a2⟩ := h.error hd
  obtain ⟨b1, b2⟩ := h'.error hd'
  unfold F64.Same at hs
  generalize (f64div n d).m = m at *
  generalize (f64div n' d').m = m' at *
  have hK : 0 < 2 ^ (f64div n d).k := Nat.pow_pos (by omega)
  have hK' : 0 < 2 ^ (f64div n' d').k := Nat.pow_pos (by omega)
  generalize 2 ^ (f64div n d).k = K at *
  generalize 2 ^ (f64div n' d').k = K' at *
  -- on the grid
  have grid : ∀ {n d u m K : Nat}, 0 < d → n * g = u * d →
      2 ^ 53 * (m * d) ≤ (2 ^ 53 + 1) * (n * K) → (2 ^ 53 - 1) * (n * K) ≤ 2 ^ 53 * (m * d) →
      2 ^ 53 * (m * g) ≤ (2 ^ 53 + 1) * (u * K) ∧ (2 ^ 53 - 1) * (u * K) ≤ 2 ^ 53 * (m * g) := by
    intro n d u m K hd hu c1 c2
    have e1 : n * K * g = u * K * d := by
      rw [Nat.mul_right_comm, hu, Nat.mul_right_comm]
    have e2 : m * d * g = m * g * d := Nat.mul_right_comm ..
    have s1 := scale_le g c1
    have s2 := scale_le g c2
    rw [e1, e2] at s1 s2
    exact ⟨unscale_le hd s1, unscale_le hd s2⟩
  obtain ⟨c1, c2⟩ := grid hd hu a1 a2
  obtain ⟨d1, d2⟩ := grid hd' hv b1 b2
  have hF : m * g * K' = m' * g * K := by
    rw [Nat.mul_right_comm, hs, Nat.mul_right_comm]
  have q1 : u * K * K' = u * (K * K') := Nat.mul_assoc ..
  have q2 : v * K' * K = v * (K * K') := by rw [Nat.mul_assoc, Nat.mul_comm K']
  have hL := Nat.mul_pos hK hK'
  have c1' := scale_le K' c1
  have c2' := scale_le K' c2
  have d1' := scale_le K d1
  have d2' := scale_le K d2
  rw [q1, hF] at c1' c2'
  rw [q2] at d1' d2'
  have k1 := unscale_le hL (Nat.le_trans c2' d1')
  have k2 := unscale_le hL (Nat.le_trans d2' c1')
  omega

end JT808
