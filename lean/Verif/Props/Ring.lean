import Verif.Proof.Ring
import Verif.Spec.Ring
/-
C47, C48: the ring buffer.
-/
namespace JT808
open Spec
variable {α : Type}

/-- Running operations on a ring; the outputs are those of the reads. -/
def runRing (r : Ring α) : List (RingOp α) → Res (Ring α × List (Option α))
  | [] => .ok (r, [])
  | .write v :: rest =>
    match r.write (some v) with
    | .ok r' => runRing r' rest
    | .err e => .err e
    | .panic => .panic
  | .read :: rest =>
    match r.read with
    | .ok (v, r') =>
      match runRing r' rest with
      | .ok (r'', vs) => .ok (r'', v :: vs)
      | .err e => .err e
      | .panic => .panic
    | .err e => .err e
    | .panic => .panic

theorem runRing_inv (n : Nat) (hn : 0 < n) (ops : List (RingOp α)) (ws : List (Option α)) (k : Nat) (r : Ring α)
    (h : RingInv n ws k r) :
    ∃ r' vs, runRing r ops = .ok (r', vs) ∧ vs.length = readsOf ops ∧
      RingInv n (ws ++ (writesOf ops).map some) (k + readsOf ops) r' := by
  induction ops generalizing ws k r with
  | nil => exact ⟨r, [], rfl, rfl, by simpa [writesOf, readsOf] using h⟩
  | cons op ops ih =>
    cases op with
    | write v =>
      obtain ⟨r1, e1, h1⟩ := h.write hn (some v)
      obtain ⟨r', vs, e2, e3, h2⟩ := ih _ _ _ h1
      refine ⟨r', vs, by simp [runRing, e1, e2], e3, ?_⟩
      simpa [writesOf, readsOf] using h2
    | read =>
      obtain ⟨v, e1, -, h1⟩ := h.read hn
      obtain ⟨r', vs, e2, e3, h2⟩ := ih _ _ _ h1
      refine ⟨r', v :: vs, by simp [runRing, e1, e2], by simp [e3, readsOf], ?_⟩
      have : k + readsOf (.read :: ops) = k + 1 + readsOf ops := by simp [readsOf]; omega
      rw [this]
      simpa [writesOf] using h2

/-- Nothing a user does to a ring of positive size panics. -/
theorem C47_never_panics (n : Nat) (hn : 0 < n) (ops : List (RingOp α)) :
    ∃ r vs, runRing (Ring.new n) ops = .ok (r, vs) ∧ vs.length = readsOf ops := by
  obtain ⟨r, vs, e, h, -⟩ := runRing_inv n hn ops [] 0 _ (RingInv.init n)
  exact ⟨r, vs, e, h⟩

/-- The slots hold exactly the last `n` writes: write number `t` is in slot `t mod n` as long as at most `n` values
were written from it on, and slots never written hold nil. -/
theorem C47_slots (n : Nat) (hn : 0 < n) (ops : List (RingOp α)) (r : Ring α) (vs : List (Option α))
    (h : runRing (Ring.new n) ops = .ok (r, vs)) :
    r.cont.length = n ∧
    (∀ t (ht : t < (writesOf ops).length), (writesOf ops).length ≤ t + n →
      r.cont[t % n]? = some (some ((writesOf ops)[t]))) ∧
    (∀ i, i < n → (writesOf ops).length ≤ i → r.cont[i]? = some none) := by
  obtain ⟨r', vs', e, -, hi⟩ := runRing_inv n hn ops [] 0 _ (RingInv.init n)
  rw [h] at e; injection e with e; injection e with e1 e2; subst e1 e2
  simp only [List.nil_append] at hi
  refine ⟨hi.len, ?_, ?_⟩
  · intro t ht hl
    rw [hi.slots t (by simpa using ht) (by simpa using hl)]
    simp [ht]
  · intro i h1 h2
    exact hi.fresh i h1 (by simpa using h2)

/-- Oldest is the value written `n` writes ago, nil if there were fewer writes. -/
theorem C47_oldest (n : Nat) (hn : 0 < n) (ops : List (RingOp α)) (r : Ring α) (vs : List (Option α))
    (h : runRing (Ring.new n) ops = .ok (r, vs)) :
    r.oldest = .ok (if n ≤ (writesOf ops).length then (writesOf ops)[(writesOf ops).length - n]? else none) := by
  obtain ⟨h1, h2, h3⟩ := C47_slots n hn ops r vs h
  obtain ⟨r', vs', e, -, hi⟩ := runRing_inv n hn ops [] 0 _ (RingInv.init n)
  rw [h] at e; injection e with e; injection e with e1 e2; subst e1 e2
  have hw := hi.writer
  simp only [List.nil_append, List.length_map] at hw
  unfold Ring.oldest
  rw [hw]
  by_cases hc : n ≤ (writesOf ops).length
  · rw [if_pos hc]
    have := h2 ((writesOf ops).length - n) (by omega) (by omega)
    rw [show ((writesOf ops).length - n) % n = (writesOf ops).length % n from
      (Nat.mod_eq_sub_mod hc).symm] at this
    rw [Ring.at_of_get this]
    simp [List.getElem?_eq_getElem (show (writesOf ops).length - n < (writesOf ops).length by omega)]
  · rw [if_neg hc, Nat.mod_eq_of_lt (by omega)]
    exact Ring.at_of_get (h3 _ (by omega) (Nat.le_refl _))

/-- Reads walk the slots cyclically: read number `k` returns slot `k mod n` and moves on. -/
theorem C47_reads_cyclic (n : Nat) (hn : 0 < n) (ops : List (RingOp α)) (r : Ring α) (vs : List (Option α))
    (h : runRing (Ring.new n) ops = .ok (r, vs)) :
    ∃ v r', r.read = .ok (v, r') ∧ r.cont[readsOf ops % n]? = some v ∧ r'.cont = r.cont := by
  obtain ⟨r', vs', e, -, hi⟩ := runRing_inv n hn ops [] 0 _ (RingInv.init n)
  rw [h] at e; injection e with e; injection e with e1 e2; subst e1 e2
  obtain ⟨v, h1, h2, -⟩ := hi.read hn
  rw [Nat.zero_add] at h2
  exact ⟨v, _, h1, h2, rfl⟩

/-- First in, first out: if more values were written than read, but at most `n` more, a read returns the first value
not yet read. -/
theorem C47_fifo (n : Nat) (ops : List (RingOp α)) (r : Ring α) (vs : List (Option α))
    (h : runRing (Ring.new n) ops = .ok (r, vs)) (h1 : readsOf ops < (writesOf ops).length)
    (h2 : (writesOf ops).length ≤ readsOf ops + n) :
    ∃ r', r.read = .ok (some ((writesOf ops)[readsOf ops]), r') := by
  have hn : 0 < n := by omega
  obtain ⟨-, hs, -⟩ := C47_slots n hn ops r vs h
  obtain ⟨v, r', e1, e2, -⟩ := C47_reads_cyclic n hn ops r vs h
  rw [hs _ h1 h2] at e2
  injection e2 with e2
  exact ⟨r', by rw [e1, e2]⟩

-- three writes into two slots, one read in between
example : runRing (Ring.new 2) [.write 'a', .read, .write 'b', .write 'c', .read] =
    .ok (⟨2, [some 'c', some 'b'], 0, 1⟩, [some 'a', some 'b']) := by decide

/-! ## C48 -/

/-- Latest returns the newest value unless the number of writes is a multiple of the size.  Missing for the full C48:
that case, where it is false (C48_latest_nil_at_wrap). -/
theorem C48_latest_partial (n : Nat) (hn : 0 < n) (ops : List (RingOp α)) (r : Ring α) (vs : List (Option α))
    (h : runRing (Ring.new n) ops = .ok (r, vs)) (hw : (writesOf ops).length % n ≠ 0) :
    r.latest = .ok (writesOf ops).getLast? := by
  obtain ⟨-, h2, -⟩ := C47_slots n hn ops r vs h
  obtain ⟨r', vs', e, -, hi⟩ := runRing_inv n hn ops [] 0 _ (RingInv.init n)
  rw [h] at e; injection e with e; injection e with e1 e2; subst e1 e2
  have hwr := hi.writer
  simp only [List.nil_append, List.length_map] at hwr
  have hpos : 0 < (writesOf ops).length := by
    rcases Nat.eq_zero_or_pos (writesOf ops).length with h0 | h0
    · rw [h0, Nat.zero_mod] at hw; exact absurd rfl hw
    · exact h0
  unfold Ring.latest
  rw [if_neg (by rw [hwr]; exact hw), hi.size, hwr]
  have hlt := Nat.mod_lt (writesOf ops).length hn
  rw [Nat.mod_eq_of_lt (show (writesOf ops).length % n - 1 < n by omega)]
  have hm : ((writesOf ops).length - 1) % n = (writesOf ops).length % n - 1 := by
    have h1 : (writesOf ops).length = n * ((writesOf ops).length / n) + (writesOf ops).length % n :=
      (Nat.div_add_mod _ _).symm
    have h2 : (writesOf ops).length - 1 = ((writesOf ops).length % n - 1) + n * ((writesOf ops).length / n) := by omega
    rw [h2, Nat.add_mul_mod_self_left, Nat.mod_eq_of_lt (by omega)]
  have := h2 ((writesOf ops).length - 1) (by omega) (by omega)
  rw [hm] at this
  rw [Ring.at_of_get this, List.getLast?_eq_getElem?]
  simp [List.getElem?_eq_getElem (show (writesOf ops).length - 1 < (writesOf ops).length by omega)]

/-- The opposite of C48: each time the number of writes is a multiple of the size, Latest returns nil although the
buffer is full. -/
theorem C48_latest_nil_at_wrap (n : Nat) (hn : 0 < n) (ops : List (RingOp α)) (r : Ring α) (vs : List (Option α))
    (h : runRing (Ring.new n) ops = .ok (r, vs)) (hw : (writesOf ops).length % n = 0) : r.latest = .ok none := by
  obtain ⟨r', vs', e, -, hi⟩ := runRing_inv n hn ops [] 0 _ (RingInv.init n)
  rw [h] at e; injection e with e; injection e with e1 e2; subst e1 e2
  have hwr := hi.writer
  simp only [List.nil_append, List.length_map] at hwr
  unfold Ring.latest
  rw [if_pos (by rw [hwr, hw])]

/-- Overwrite replaces the oldest element, not the newest: with at least two slots, the newest stays. -/
theorem C48_overwrite_hits_oldest (n : Nat) (hn : 2 ≤ n) (ops : List (RingOp α)) (r : Ring α) (vs : List (Option α))
    (h : runRing (Ring.new n) ops = .ok (r, vs)) (v : α) (hpos : 0 < (writesOf ops).length) :
    ∃ r', r.overwrite (some v) = .ok r' ∧ r'.oldest = .ok (some v) ∧
      r'.cont[((writesOf ops).length - 1) % n]? = some (writesOf ops).getLast? := by
  obtain ⟨-, h2, -⟩ := C47_slots n (by omega) ops r vs h
  obtain ⟨r', vs', e, -, hi⟩ := runRing_inv n (by omega) ops [] 0 _ (RingInv.init n)
  rw [h] at e; injection e with e; injection e with e1 e2; subst e1 e2
  have hwr := hi.writer
  simp only [List.nil_append, List.length_map] at hwr
  have hlt : r.writer < r.cont.length := by rw [hi.len, hwr]; exact Nat.mod_lt _ (by omega)
  refine ⟨_, by rw [Ring.overwrite, if_pos hlt], ?_, ?_⟩
  · exact Ring.at_of_get (List.getElem?_set_self hlt)
  · have hne : r.writer ≠ ((writesOf ops).length - 1) % n := by
      rw [hwr]; exact fun hh => mod_ne_of_near (show (writesOf ops).length - 1 < (writesOf ops).length by omega)
        (by omega) hh.symm
    simp only
    rw [List.getElem?_set_ne hne, h2 _ (by omega) (by omega), List.getLast?_eq_getElem?]
    simp [List.getElem?_eq_getElem (show (writesOf ops).length - 1 < (writesOf ops).length by omega)]

/-- A concrete wrap: two writes into two slots. -/
theorem C48_not_latest :
    ∃ r : Ring Char, runRing (Ring.new 2) [.write 'a', .write 'b'] = .ok (r, []) ∧ r.latest = .ok none ∧
      r.overwrite (some 'x') = .ok ⟨2, [some 'x', some 'b'], 0, 0⟩ := ⟨_, rfl, by decide, by decide⟩

example : ∃ r : Ring Char, runRing (Ring.new 2) [.write 'a', .write 'b', .write 'c'] = .ok (r, []) ∧
    r.latest = .ok (some 'c') := ⟨_, rfl, by decide⟩

end JT808
