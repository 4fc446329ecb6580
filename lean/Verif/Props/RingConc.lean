import Verif.Model.RingConc
/-
C83: concurrent location reports of one terminal.
-/
namespace JT808

variable {α : Type}

/-- The values handed to Write in a schedule, in the order of the calls. -/
def calledWith (evs : List (RingEv α)) : List α :=
  evs.filterMap fun
    | .call v => some v
    | .run _ => none

/-- What every interleaving preserves; `vs` are the values handed to Write so far. -/
structure RingSys.Ok (n : Nat) (vs : List α) (s : RingSys α) : Prop where
  size : s.ring.size = n
  len : s.ring.cont.length = n
  writer : s.ring.writer < n
  cells : ∀ v, some v ∈ s.ring.cont → v ∈ vs
  calls : ∀ pc ∈ s.calls, match pc with
    | .load v => v ∈ vs
    | .put v c => v ∈ vs ∧ c < n
    | .store c => c < n
    | .done => True
    | .panicked => False

theorem RingSys.Ok.step {n : Nat} {vs : List α} {s : RingSys α} (h : s.Ok n vs) (hn : 0 < n) (e : RingEv α) :
    (s.step e).Ok n (vs ++ calledWith [e]) := by
  cases e with
  | call v =>
    refine ⟨h.size, h.len, h.writer, fun w hw => ?_, fun pc hpc => ?_⟩
    · exact List.mem_append_left _ (h.cells w hw)
    · simp only [RingSys.step, List.mem_append, List.mem_singleton] at hpc
      rcases hpc with hpc | rfl
      · have := h.calls pc hpc
        cases pc <;> simp_all
      · simp [calledWith]
  | run i =>
    simp only [calledWith, List.filterMap_cons_none, List.filterMap_nil, List.append_nil]
    simp only [RingSys.step]
    cases hi : s.calls[i]? with
    | none => exact h
    | some pc =>
      have hpc := h.calls pc (List.mem_of_getElem? hi)
      cases pc with
      | load v =>
        refine ⟨h.size, h.len, h.writer, h.cells, fun q hq => ?_⟩
        rcases List.mem_or_eq_of_mem_set hq with hq | rfl
        · exact h.calls q hq
        · exact ⟨hpc, h.writer⟩
      | put v c =>
        have hc : c < s.ring.cont.length := by rw [h.len]; exact hpc.2
        simp only [RingPc.next, if_pos hc]
        refine ⟨h.size, by simpa using h.len, h.writer, fun w hw => ?_, fun q hq => ?_⟩
        · rcases List.mem_or_eq_of_mem_set hw with hw | hw
          · exact h.cells w hw
          · injection hw with hw; subst hw; exact hpc.1
        · rcases List.mem_or_eq_of_mem_set hq with hq | rfl
          · exact h.calls q hq
          · exact hpc.2
      | store c =>
        refine ⟨h.size, h.len, ?_, h.cells, fun q hq => ?_⟩
        · simp only [RingPc.next, h.size]; exact Nat.mod_lt _ hn
        · rcases List.mem_or_eq_of_mem_set hq with hq | rfl
          · exact h.calls q hq
          · trivial
      | done =>
        refine ⟨h.size, h.len, h.writer, h.cells, fun q hq => ?_⟩
        rcases List.mem_or_eq_of_mem_set hq with hq | rfl
        · exact h.calls q hq
        · trivial
      | panicked => exact hpc.elim

theorem RingSys.Ok.run {n : Nat} {vs : List α} {s : RingSys α} (h : s.Ok n vs) (hn : 0 < n) (evs : List (RingEv α)) :
    (s.run evs).Ok n (vs ++ calledWith evs) := by
  induction evs generalizing vs s with
  | nil => simpa [calledWith, RingSys.run] using h
  | cons e evs ih =>
    have := ih (h.step hn e)
    rw [List.append_assoc] at this
    have he : calledWith [e] ++ calledWith evs = calledWith (e :: evs) := by
      cases e <;> simp [calledWith]
    rw [he] at this
    exact this

theorem RingSys.start_ok (n : Nat) (hn : 0 < n) : (RingSys.start n : RingSys α).Ok n [] := by
  refine ⟨rfl, by simp [start, Ring.new], hn, fun v hv => ?_, fun pc hpc => by simp [start] at hpc⟩
  simp [start, Ring.new, List.mem_replicate] at hv

/-- C83, what remains true in every interleaving of any number of calls: no call is stopped by an index out of range,
every slot holds nil or one of the values that were written, and `Latest` returns nil or one of the values that were
written.  Missing: that it is the newest one and that every value is kept (`C83_lost`, `C83_latest_goes_back`). -/
theorem C83_safe_partial (n : Nat) (hn : 0 < n) (evs : List (RingEv α)) :
    RingPc.panicked ∉ ((RingSys.start n).run evs).calls ∧
    ((RingSys.start n).run evs).ring.cont.length = n ∧
    (∀ v, some v ∈ ((RingSys.start n).run evs).ring.cont → v ∈ calledWith evs) ∧
    ∃ o, ((RingSys.start n).run evs).ring.latest = .ok o ∧ ∀ v, o = some v → v ∈ calledWith evs := by
  have h := (RingSys.start_ok n hn).run hn evs
  rw [List.nil_append] at h
  refine ⟨fun hp => h.calls _ hp, h.len, h.cells, ?_⟩
  unfold Ring.latest Ring.at
  split
  · exact ⟨none, rfl, by simp⟩
  · have hw := h.writer
    have hl : (((RingSys.start n).run evs).ring.writer - 1) % ((RingSys.start n).run evs).ring.size <
        ((RingSys.start n).run evs).ring.cont.length := by
      rw [h.len, h.size]; exact Nat.mod_lt _ hn
    rw [List.getElem?_eq_getElem hl]
    refine ⟨_, rfl, fun v hv => h.cells v ?_⟩
    rw [← hv]; exact List.getElem_mem _

example : ((RingSys.start 2).run [.call 'a', .call 'b', .run 0, .run 1, .run 0, .run 0, .run 1, .run 1]).ring =
    ⟨2, [some 'b', none], 0, 1⟩ := by decide

/-! ### One call after the other -/

/-- The three steps of the call with number `i`. -/
def wholeCall (v : α) (i : Nat) : List (RingEv α) := [.call v, .run i, .run i, .run i]

theorem run_append_ring (s : RingSys α) (a b : List (RingEv α)) : s.run (a ++ b) = (s.run a).run b := by
  simp [RingSys.run, List.foldl_append]

theorem RingSys.wholeCall_eq (s : RingSys α) (v : α) (hw : s.ring.writer < s.ring.cont.length) :
    s.run (wholeCall v s.calls.length) =
      ⟨{ s.ring with cont := s.ring.cont.set s.ring.writer (some v), writer := (s.ring.writer + 1) % s.ring.size },
        s.calls ++ [.done]⟩ := by
  simp [wholeCall, RingSys.run, RingSys.step, RingPc.next, hw]

/-- C83, calls that do not overlap: from any state of the ring a call that runs without interruption does what Write
does (`Ring.write`, C47 and C48 say what that is worth). -/
theorem C83_alone (s : RingSys α) (v : α) (hw : s.ring.writer < s.ring.cont.length) :
    s.ring.write (some v) = .ok (s.run (wholeCall v s.calls.length)).ring := by
  rw [s.wholeCall_eq v hw]
  simp [Ring.write, hw]

/-- The schedule in which the calls for `vs` are made one after the other; the first gets number `i`. -/
def oneByOne : List α → Nat → List (RingEv α)
  | [], _ => []
  | v :: vs, i => wholeCall v i ++ oneByOne vs (i + 1)

theorem oneByOne_writer (vs : List α) (s : RingSys α) (hw : s.ring.writer < s.ring.cont.length)
    (hs : s.ring.size = s.ring.cont.length) :
    (s.run (oneByOne vs s.calls.length)).ring.size = s.ring.size ∧
    (s.run (oneByOne vs s.calls.length)).ring.cont.length = s.ring.cont.length ∧
    (s.run (oneByOne vs s.calls.length)).calls = s.calls ++ List.replicate vs.length .done := by
  induction vs generalizing s with
  | nil => simp [oneByOne, RingSys.run]
  | cons v vs ih =>
    simp only [oneByOne, run_append_ring, s.wholeCall_eq v hw]
    have hn : 0 < s.ring.size := by omega
    have := ih ⟨{ s.ring with cont := s.ring.cont.set s.ring.writer (some v), writer := (s.ring.writer + 1) % s.ring.size },
        s.calls ++ [.done]⟩ (by simpa [← hs] using Nat.mod_lt _ hn) (by simpa using hs)
    simp only [List.length_append, List.length_singleton, List.length_set] at this
    refine ⟨this.1, this.2.1, ?_⟩
    rw [this.2.2, List.append_assoc, List.length_cons, List.replicate_succ]
    rfl

/-! ### Calls that overlap -/

/-- C83 is false: in any state of the ring two reports that are handled at the same time can leave exactly what the
second alone would have left, so that the first is nowhere in the ring although both calls have returned. -/
theorem C83_lost (s : RingSys α) (a b : α) (hw : s.ring.writer < s.ring.cont.length) :
    ∃ evs, calledWith evs = [a, b] ∧ (s.run evs).calls = s.calls ++ [.done, .done] ∧
      s.ring.write (some b) = .ok (s.run evs).ring := by
  refine ⟨[.call a, .call b, .run s.calls.length, .run (s.calls.length + 1), .run s.calls.length,
    .run (s.calls.length + 1), .run s.calls.length, .run (s.calls.length + 1)], rfl, ?_, ?_⟩
  · simp [RingSys.run, RingSys.step, RingPc.next, hw, List.set_append_right]
  · simp [RingSys.run, RingSys.step, RingPc.next, hw, List.set_append_right, Ring.write]

example : ((RingSys.start 3).run [.call 'a', .call 'b', .run 0, .run 1, .run 0, .run 1, .run 0, .run 1]) =
    ⟨⟨3, [some 'b', none, none], 0, 1⟩, [.done, .done]⟩ := by decide

theorem calledWith_append (a b : List (RingEv α)) : calledWith (a ++ b) = calledWith a ++ calledWith b := by
  simp [calledWith]

theorem calledWith_oneByOne (vs : List α) (i : Nat) : calledWith (oneByOne vs i) = vs := by
  induction vs generalizing i with
  | nil => rfl
  | cons v vs ih => rw [oneByOne, calledWith_append, ih]; rfl

/-- C83 is false: a call that is interrupted after its first step moves the write position back.  Whatever reports `vs`
came later and were recorded in between, however many, afterwards `Latest` is the report `a` that came before all of
them. -/
theorem C83_latest_goes_back (s : RingSys α) (a : α) (vs : List α) (hs : s.ring.size = s.ring.cont.length)
    (hw : s.ring.writer + 1 < s.ring.cont.length) :
    ∃ evs, calledWith evs = a :: vs ∧
      (s.run evs).calls = s.calls ++ .done :: List.replicate vs.length .done ∧
      (s.run evs).ring.latest = .ok (some a) := by
  have hw' : s.ring.writer < s.ring.cont.length := by omega
  refine ⟨[.call a, .run s.calls.length] ++ oneByOne vs (s.calls.length + 1) ++ [.run s.calls.length, .run s.calls.length],
    by rw [calledWith_append, calledWith_append, calledWith_oneByOne]; simp [calledWith], ?_⟩
  have h1 : s.run [.call a, .run s.calls.length] = ⟨s.ring, s.calls ++ [.put a s.ring.writer]⟩ := by
    simp [RingSys.run, RingSys.step, RingPc.next]
  have h2 := oneByOne_writer vs (⟨s.ring, s.calls ++ [.put a s.ring.writer]⟩ : RingSys α) hw' hs
  rw [run_append_ring, run_append_ring, h1]
  simp only [List.length_append, List.length_singleton] at h2
  revert h2
  generalize (RingSys.run (⟨s.ring, s.calls ++ [.put a s.ring.writer]⟩ : RingSys α) (oneByOne vs (s.calls.length + 1))) = t
  obtain ⟨r, calls⟩ := t
  rintro ⟨h2, h3, h4⟩
  simp only at h2 h3 h4
  subst h4
  have hc : s.ring.writer < r.cont.length := by omega
  have hm : (s.ring.writer + 1) % r.size = s.ring.writer + 1 := Nat.mod_eq_of_lt (by omega)
  have hm' : s.ring.writer % r.size = s.ring.writer := Nat.mod_eq_of_lt (by omega)
  constructor
  · simp [RingSys.run, RingSys.step, RingPc.next, hc]
  · simp [RingSys.run, RingSys.step, RingPc.next, hc, Ring.latest, Ring.at, hm, hm']

example : ((RingSys.start 3).run ([.call 'a', .run 0] ++ oneByOne ['b', 'c'] 1 ++ [.run 0, .run 0])) =
    ⟨⟨3, [some 'a', some 'c', none], 0, 1⟩, [.done, .done, .done]⟩ := by decide

/-- The size the server uses. -/
example : (RingSys.start 100 : RingSys Char).ring.size = (RingSys.start 100 : RingSys Char).ring.cont.length ∧
    (RingSys.start 100 : RingSys Char).ring.writer + 1 < (RingSys.start 100 : RingSys Char).ring.cont.length := by
  decide

end JT808
