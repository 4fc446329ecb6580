import Verif.Model.Ring
/-
Helper lemmas about the ring buffer.
-/
namespace JT808
variable {α : Type}

/-- The ring after `ws` was written and `k` reads were made. -/
structure RingInv (n : Nat) (ws : List (Option α)) (k : Nat) (r : Ring α) : Prop where
  size : r.size = n
  len : r.cont.length = n
  writer : r.writer = ws.length % n
  reader : r.reader = k % n
  slots : ∀ t, t < ws.length → ws.length ≤ t + n → r.cont[t % n]? = ws[t]?
  fresh : ∀ i, i < n → ws.length ≤ i → r.cont[i]? = some none

theorem RingInv.init (n : Nat) : RingInv n ([] : List (Option α)) 0 (Ring.new n) where
  size := rfl
  len := by simp [Ring.new]
  writer := by simp [Ring.new]
  reader := by simp [Ring.new]
  slots := fun t ht => by simp at ht
  fresh := fun i hi _ => by simp [Ring.new, hi]

theorem mod_ne_of_near {n t l : Nat} (h1 : t < l) (h2 : l + 1 ≤ t + n) : t % n ≠ l % n := by
  intro e
  have h3 : (l - t) % n = 0 := by
    have := Nat.sub_mod_eq_zero_of_mod_eq e.symm
    exact this
  rw [Nat.mod_eq_of_lt (by omega)] at h3
  omega

theorem RingInv.write {n : Nat} (hn : 0 < n) {ws : List (Option α)} {k : Nat} {r : Ring α}
    (h : RingInv n ws k r) (v : Option α) : ∃ r', r.write v = .ok r' ∧ RingInv n (ws ++ [v]) k r' := by
  have hw : r.writer < r.cont.length := by rw [h.len, h.writer]; exact Nat.mod_lt _ hn
  refine ⟨_, by rw [Ring.write, if_pos hw], ?_⟩
  refine ⟨h.size, by simp [h.len], ?_, h.reader, ?_, ?_⟩
  · simp only [h.size, h.writer, List.length_append, List.length_singleton]
    rw [Nat.mod_add_mod]
  · intro t ht hl
    simp only [List.length_append, List.length_singleton] at ht hl
    simp only
    by_cases e : t = ws.length
    · subst e
      rw [← h.writer, List.getElem?_set_self hw]
      simp
    · have : r.writer ≠ t % n := by
        rw [h.writer]; exact fun hh => mod_ne_of_near (show t < ws.length by omega) hl hh.symm
      rw [List.getElem?_set_ne this, h.slots t (by omega) (by omega), List.getElem?_append_left (by omega)]
  · intro i hi hl
    simp only [List.length_append, List.length_singleton] at hl
    simp only
    have : r.writer ≠ i := by
      rw [h.writer, Nat.mod_eq_of_lt (by omega)]; omega
    rw [List.getElem?_set_ne this]
    exact h.fresh i hi (by omega)

theorem RingInv.at_ok {n : Nat} {ws : List (Option α)} {k : Nat} {r : Ring α}
    (h : RingInv n ws k r) (i : Nat) (hi : i < n) : ∃ v, r.at i = .ok v ∧ r.cont[i]? = some v := by
  have : i < r.cont.length := by rw [h.len]; exact hi
  refine ⟨r.cont[i], ?_, by simp [this]⟩
  simp [Ring.at, this]

theorem Ring.at_of_get {r : Ring α} {i : Nat} {v : Option α} (h : r.cont[i]? = some v) : r.at i = .ok v := by
  simp [Ring.at, h]

theorem RingInv.read {n : Nat} (hn : 0 < n) {ws : List (Option α)} {k : Nat} {r : Ring α}
    (h : RingInv n ws k r) : ∃ v, r.read = .ok (v, r.seek1) ∧ r.cont[k % n]? = some v ∧ RingInv n ws (k + 1) r.seek1 := by
  obtain ⟨v, h1, h2⟩ := h.at_ok (k % n) (Nat.mod_lt _ hn)
  refine ⟨v, ?_, h2, ?_⟩
  · rw [Ring.read, h.reader, h1]
  · refine ⟨h.size, h.len, h.writer, ?_, h.slots, h.fresh⟩
    simp only [Ring.seek1, h.size, h.reader]
    rw [Nat.mod_add_mod]

end JT808
