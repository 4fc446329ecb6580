import Verif.Proof.Progress
import Verif.Props.Workers
/-
C155: every message that arrives is answered, after a bounded number of steps of the goroutine of its connection.
-/
namespace JT808
open Spec

/-- C155: in every interleaving of the goroutines of the connections with one another and with keepalive checks, at any
times: after ten steps of its own for each of its messages the goroutine of a connection is done with all of them, each
answered with its number (if it is one that asks for an answer), in the order of arrival, once; unless one of them was of
a phone that was not registered when it was handled: then the messages before it are answered and serve ends. -/
theorem C155_answered (env : Env) (before : List CEv) (jobs : List (List Task)) (evs : List (Nat × Clock)) (j : Nat)
    (ts : List Task) (hj : jobs[j]? = some ts) (hm : ∀ t ∈ ts, ∃ c h m, t = .msg c h m)
    (henough : 10 * ts.length ≤ (timesOf j evs).length) :
    ∃ w, ((WSys.begin (CSys.start.run env before).st jobs).run env evs).ws[j]? = some w ∧ w.cur = none ∧ w.todo = [] ∧
      ((w.done.map (·.1) = ts ∧ ∀ d ∈ w.done, Replied d.1 d.2) ∨
        ∃ front t, w.done = front ++ [(t, .err .deviceNotFound)] ∧ front.map (·.1) ++ [t] <+: ts ∧
          ∀ d ∈ front, Replied d.1 d.2) := by
  have h0 : (WSys.begin (CSys.start.run env before).st jobs).ws[j]? = some ⟨ts, none, []⟩ := by
    simp only [WSys.begin, List.getElem?_map, hj, Option.map_some]
  obtain ⟨w, h1, h2⟩ := going_run (env := env) evs _ (10 * ts.length) _ h0
    ⟨Nat.le_refl _, .inl ⟨rfl, fun d hd => by cases hd⟩, ⟨hm, fun t q hq => by cases hq⟩, fun d hd => by cases hd⟩
  have hsound := sound_run (env := env) (sound_begin (ok_run (ok_start env) before).1.inv jobs) evs
  have hz : 10 * ts.length - (evs.filter fun e => decide (e.1 = j)).length = 0 := by
    rw [timesOf, List.length_map] at henough; omega
  rw [hz] at h2
  have hcur : w.cur = none ∧ w.todo = [] := by
    have hd := h2.due
    unfold Worker.Due at hd
    cases hc : w.cur with
    | none =>
      rw [hc] at hd
      exact ⟨rfl, List.length_eq_zero_iff.1 (by simp only at hd; omega)⟩
    | some c =>
      rw [hc] at hd
      obtain ⟨d, -, h⟩ := hd
      omega
  have hout : ∀ d ∈ w.done, d.2 = .err .deviceNotFound ∨ (goesOn d.2 = true ∧ Replied d.1 d.2) := by
    intro d hd
    obtain ⟨h3, c, h, m, h4⟩ := h2.out d hd
    rcases h3 with h3 | h3
    · have := hsound.done j w h1 d hd _ (Grows.refl _)
      rw [h4] at this
      exact absurd h3 (post_msg this)
    · exact h3
  have hgood : ∀ d ∈ w.done, goesOn d.2 = true → Replied d.1 d.2 := by
    intro d hd hg
    rcases hout d hd with h | h
    · rw [h] at hg; cases hg
    · exact h.2
  refine ⟨w, h1, hcur.1, hcur.2, ?_⟩
  rcases h2.way with ⟨h3, h4⟩ | ⟨-, -, front, t, r, h3, h4, h5, h6⟩
  · rw [hcur.1, hcur.2] at h3
    exact .inl ⟨by simpa using h3, fun d hd => hgood d hd (h4 d hd)⟩
  · have hr : r = .err .deviceNotFound := by
      rcases hout (t, r) (by rw [h3]; simp) with h | h
      · exact h
      · exact absurd (h5.symm.trans h.1) (by decide)
    subst hr
    exact .inr ⟨front, t, h3, h4, fun d hd => hgood d (by rw [h3]; exact List.mem_append_left _ hd) (h6 d hd)⟩

/-- The two connections of C154: twenty steps are enough for the first. -/
def twoLinesLong : List (Nat × Clock) := (List.range 20).flatMap fun n => [(0, demoClk (100 + n)), (1, demoClk (100 + n))]

example : ∃ w, ((WSys.begin (CSys.start.run goEnv []).st twoLines).run goEnv twoLinesLong).ws[0]? = some w ∧ w.cur = none ∧
    w.todo = [] ∧ w.done.length = 2 := by
  obtain ⟨w, h1, h2, h3, h4⟩ := C155_answered goEnv [] twoLines twoLinesLong 0 _ rfl (by
    intro t ht
    simp only [List.mem_cons, List.not_mem_nil, or_false] at ht
    rcases ht with rfl | rfl <;> exact ⟨_, _, _, rfl⟩) (by decide)
  refine ⟨w, h1, h2, h3, ?_⟩
  have hl : (((WSys.begin (CSys.start.run goEnv []).st twoLines).run goEnv twoLinesLong).ws[0]?).map (·.done.length) = some 2 := by
    decide +kernel
  rw [h1] at hl
  simpa using hl

/-- A heartbeat of a phone that is not registered ends serve: the registration after it is not handled. -/
def lateRegistration : List (List Task) :=
  [[.msg demoC (hdr2013 0x0002) .m0002, .msg demoC (hdr2013 0x0100) (.m0100 demoRegMsg)]]

example : (((WSys.begin (CSys.start.run goEnv []).st lateRegistration).run goEnv
      ((List.range 20).map fun n => (0, demoClk n))).ws[0]?).map (fun w => (w.cur.isNone, w.todo.length)) = some (true, 0) ∧
    (((WSys.begin (CSys.start.run goEnv []).st lateRegistration).run goEnv
      ((List.range 20).map fun n => (0, demoClk n))).ws[0]?).map (·.done.map (·.2)) = some [.err .deviceNotFound] := by decide +kernel

end JT808
