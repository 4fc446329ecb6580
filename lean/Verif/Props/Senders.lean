import Verif.Model.Senders
import Verif.Props.Serving
/-
C91: frames sent concurrently on one connection.
-/
namespace JT808
open Spec

/-- Every call of Write writes all it is given, or fails without having written anything. -/
def Spec.AllOrNothing (w : Wire) : List (Nat × WriteResp) → Prop
  | [] => True
  | ev :: evs =>
    (∀ p ps, w.todo ev.1 = p :: ps → (ev.2.err = none → p.length ≤ ev.2.n) ∧ (ev.2.err ≠ none → ev.2.n = 0)) ∧
    Spec.AllOrNothing (w.step ev) evs

/-- Which frame is whole on the wire: those whose Write did not fail, in the order of the calls. -/
def Spec.wrote (w : Wire) : List (Nat × WriteResp) → List (Nat × List UInt8)
  | [] => []
  | ev :: evs =>
    (match w.todo ev.1, ev.2.err with
     | p :: _, none => [(ev.1, p)]
     | _, _ => []) ++ Spec.wrote (w.step ev) evs

theorem wire_whole : ∀ (evs : List (Nat × WriteResp)) (w : Wire), Spec.AllOrNothing w evs →
    (w.run evs).out = w.out ++ ((Spec.wrote w evs).map Prod.snd).flatten ∧
    ∀ i, (((Spec.wrote w evs).filter (·.1 = i)).map Prod.snd ++ (w.run evs).todo i).Sublist (w.todo i) := by
  intro evs
  induction evs with
  | nil => intro w _; simp [Wire.run, Spec.wrote]
  | cons ev evs ih =>
    intro w ⟨h1, h2⟩
    obtain ⟨e1, e2⟩ := ih (w.step ev) h2
    have hr : w.run (ev :: evs) = (w.step ev).run evs := rfl
    rw [hr]
    cases ht : w.todo ev.1 with
    | nil =>
      have hs : w.step ev = w := by simp [Wire.step, ht]
      rw [hs] at e1 e2 ⊢
      simp only [Spec.wrote, ht, hs, List.nil_append]
      exact ⟨e1, e2⟩
    | cons p ps =>
      obtain ⟨c1, c2⟩ := h1 p ps ht
      cases hr : ev.2.err with
      | none =>
        have hn := c1 hr
        have hs : w.step ev = ⟨w.out ++ p, fun j => if j = ev.1 then ps else w.todo j⟩ := by
          simp only [Wire.step, ht, hr]
          rw [List.take_of_length_le hn]
          simp [hn]
        rw [hs] at e1 e2 ⊢
        simp only [Spec.wrote, ht, hr, hs]
        refine ⟨by rw [e1]; simp, fun i => ?_⟩
        have := e2 i
        by_cases hi : ev.1 = i
        · subst hi
          simp only [List.filter_cons, decide_true, if_true, List.map_cons, List.cons_append, ht]
          simp only [if_true] at this
          exact this.cons_cons p
        · have hi' : i ≠ ev.1 := fun e => hi e.symm
          simpa [hi, hi'] using this
      | some e =>
        have hn := c2 (by rw [hr]; simp)
        have hs : w.step ev = ⟨w.out, fun j => if j = ev.1 then ps else w.todo j⟩ := by
          simp only [Wire.step, ht, hr, hn]
          simp
        rw [hs] at e1 e2 ⊢
        simp only [Spec.wrote, ht, hr, hs, List.nil_append]
        refine ⟨e1, fun i => ?_⟩
        have := e2 i
        by_cases hi : i = ev.1
        · subst hi
          simp only [if_true] at this
          rw [ht]
          exact this.cons p
        · simpa [hi] using this

/-- What holds of C91: however many goroutines send whatever frames in whatever order on one connection, as long as each
call of Write is all or nothing, the peer reads exactly the frames that were written, each of them whole, each
goroutine's in its order.  Missing: calls that fail half-way (C91_cut_write_loses). -/
theorem C91_frames_stay_whole_partial (frames : Nat → List (List UInt8)) (hf : ∀ i, ∀ f ∈ frames i, Delimited f)
    (evs : List (Nat × WriteResp)) (h : Spec.AllOrNothing (Wire.start frames) evs) (e : Err) :
    ∃ sent : List (Nat × List UInt8),
      Recvs e ((Wire.start frames).run evs).out (sent.map Prod.snd) [] ∧
      (∀ i, ((sent.filter (·.1 = i)).map Prod.snd).Sublist (frames i)) ∧
      ((∀ ev ∈ evs, ev.2.err = none) → ∀ i,
        (sent.filter (·.1 = i)).map Prod.snd ++ ((Wire.start frames).run evs).todo i = frames i) := by
  obtain ⟨e1, e2⟩ := wire_whole evs _ h
  refine ⟨Spec.wrote (Wire.start frames) evs, ?_, fun i => (List.sublist_append_left _ _).trans (e2 i), ?_⟩
  · have hd : ∀ x ∈ (Spec.wrote (Wire.start frames) evs), Delimited x.2 := by
      intro x hx
      refine hf x.1 x.2 (((List.sublist_append_left _ _).trans (e2 x.1)).subset ?_)
      exact List.mem_map.2 ⟨x, List.mem_filter.2 ⟨hx, by simp⟩, rfl⟩
    have := (C03_stream_segmentation e ((Spec.wrote (Wire.start frames) evs).map fun x => ([], x.2)) []
      (by intro it hit; obtain ⟨x, -, rfl⟩ := List.mem_map.1 hit; simp)
      (by intro it hit; obtain ⟨x, hx, rfl⟩ := List.mem_map.1 hit; exact hd x hx) (by simp)).1
    rw [e1]
    simpa [streamOf, Wire.start, List.flatMap_map, List.flatMap_def, Function.comp_def] using this
  · intro hok i
    have key : ∀ (evs : List (Nat × WriteResp)) (w : Wire), Spec.AllOrNothing w evs → (∀ ev ∈ evs, ev.2.err = none) →
        ((Spec.wrote w evs).filter (·.1 = i)).map Prod.snd ++ (w.run evs).todo i = w.todo i := by
      intro evs
      induction evs with
      | nil => intro w _ _; simp [Wire.run, Spec.wrote]
      | cons ev evs ih =>
        intro w ⟨h1, h2⟩ hok
        have e2 := ih (w.step ev) h2 fun x hx => hok x (by simp [hx])
        have hr := hok ev (by simp)
        have hrun : w.run (ev :: evs) = (w.step ev).run evs := rfl
        rw [hrun]
        cases ht : w.todo ev.1 with
        | nil =>
          have hs : w.step ev = w := by simp [Wire.step, ht]
          simp only [Spec.wrote, ht, hs, List.nil_append] at e2 ⊢
          exact e2
        | cons p ps =>
          have hn := (h1 p ps ht).1 hr
          have hs : w.step ev = ⟨w.out ++ p, fun j => if j = ev.1 then ps else w.todo j⟩ := by
            simp only [Wire.step, ht, hr]
            rw [List.take_of_length_le hn]
            simp [hn]
          rw [hs] at e2 ⊢
          simp only [Spec.wrote, ht, hr, hs]
          by_cases hi : ev.1 = i
          · subst hi
            simp only [if_true] at e2
            simp [ht, e2]
          · have hi' : i ≠ ev.1 := fun e => hi e.symm
            simpa [hi, hi'] using e2
    exact key evs _ h hok

/-- The opposite of C91: when a call fails after part of a frame, the next frame another goroutine sends on the
connection, which is written whole, is not delivered: the peer reads the stump closed by its first delimiter, and
everything up to its last delimiter is lost. -/
theorem C91_cut_write_loses (frames : Nat → List (List UInt8)) (i j : Nat) (hij : i ≠ j) (f g : List UInt8)
    (fs gs : List (List UInt8)) (hi : frames i = f :: fs) (hj : frames j = g :: gs) (hf : Delimited f) (hg : Delimited g)
    (k : Nat) (hk : 0 < k) (hk' : k < f.length) (err e : Err) :
    let w := (Wire.start frames).run [(i, ⟨k, some err⟩), (j, ⟨g.length, none⟩)]
    w.todo j = gs ∧ recv e w.out = (.ok (f.take k ++ [0x7e]), g.tail) ∧ recv e g.tail = (.err e, []) := by
  have hji : j ≠ i := fun h => hij h.symm
  have hout : ((Wire.start frames).run [(i, ⟨k, some err⟩), (j, ⟨g.length, none⟩)]).out = f.take k ++ g := by
    simp [Wire.run, Wire.step, Wire.start, hi, hj, hji]
  have htodo : ((Wire.start frames).run [(i, ⟨k, some err⟩), (j, ⟨g.length, none⟩)]).todo j = gs := by
    simp [Wire.run, Wire.step, Wire.start, hi, hj, hji]
  obtain ⟨m, hm, rfl⟩ := hf
  obtain ⟨m', hm', rfl⟩ := hg
  refine ⟨htodo, ?_, ?_⟩
  · rw [hout]
    obtain ⟨k', rfl⟩ : ∃ k', k = k' + 1 := ⟨k - 1, by omega⟩
    have hlen : k' ≤ m.length := by simp at hk'; omega
    have htake : (0x7e :: (m ++ [0x7e]) : List UInt8).take (k' + 1) = 0x7e :: m.take k' := by
      rw [List.take_succ_cons, List.take_append_of_le_length hlen]
    rw [htake]
    have := recv_frame e [] (0x7e :: (m.take k' ++ [0x7e])) (m' ++ [0x7e]) (by simp)
      ⟨m.take k', fun h => hm (List.mem_of_mem_take h), rfl⟩
    simpa using this
  · exact recv_tail e (m' ++ [0x7e]) (by
      rw [List.count_append, List.count_eq_zero_of_not_mem hm']; simp)

/-! Three goroutines, two frames each for the first two; an error without output in between. -/

def wireFrames : Nat → List (List UInt8)
  | 0 => [[0x7e, 1, 0x7e], [0x7e, 2, 2, 0x7e]]
  | 1 => [[0x7e, 3, 0x7e], [0x7e, 4, 0x7e]]
  | 2 => [[0x7e, 5, 0x7e]]
  | _ => []

def wireEvs : List (Nat × WriteResp) :=
  [(1, ⟨3, none⟩), (0, ⟨3, none⟩), (2, ⟨0, some .closed⟩), (0, ⟨4, none⟩), (1, ⟨3, none⟩)]

example : Spec.AllOrNothing (Wire.start wireFrames) wireEvs := by
  simp [Spec.AllOrNothing, wireEvs, Wire.start, Wire.step, wireFrames]
example : ((Wire.start wireFrames).run wireEvs).out =
    [0x7e, 3, 0x7e, 0x7e, 1, 0x7e, 0x7e, 2, 2, 0x7e, 0x7e, 4, 0x7e] := by decide
-- a Write that stops half-way without an error, which the contract of io.Writer excludes, mixes two frames
example : ((Wire.start wireFrames).run [(0, ⟨2, none⟩), (1, ⟨3, none⟩), (0, ⟨9, none⟩)]).out =
    [0x7e, 1, 0x7e, 3, 0x7e, 0x7e] := by decide
-- the hypotheses of C91_cut_write_loses
example : Delimited [0x7e, 2, 2, 0x7e] ∧ Delimited [0x7e, 3, 0x7e] ∧ 2 < [0x7e, 2, 2, (0x7e : UInt8)].length :=
  ⟨⟨[2, 2], by decide, rfl⟩, ⟨[3], by decide, rfl⟩, by decide⟩

end JT808
