import Verif.Model.Bytes
import Verif.Spec.Cut
import Verif.Proof.Framing
import Verif.Proof.Tracks
/-
From bytes to frames: lemmas for C97.
-/
namespace JT808
open Spec

/-- The frame-level events of a byte-level history. -/
def toFrames (r : Conn → RecvSt) : List BEv → List Ev
  | [] => []
  | .byte clk c b werr :: es =>
    match recvStep (r c) b with
    | .inl f => .frame clk c f werr :: toFrames (fun x => if x = c then RecvSt.fresh else r x) es
    | .inr q => toFrames (fun x => if x = c then q else r x) es
  | .fail c e :: es => .readErr c e :: toFrames (fun x => if x = c then RecvSt.fresh else r x) es
  | .other e :: es => if e.isRead then toFrames r es else e :: toFrames r es

theorem byte_run (env : Env) (es : List BEv) (w : ByteSys) :
    (w.run env es).1.sys = (w.sys.run env (toFrames w.recv es)).1 ∧
    (w.run env es).2.filter (· ≠ Obs.none) = (w.sys.run env (toFrames w.recv es)).2.filter (· ≠ Obs.none) := by
  induction es generalizing w with
  | nil => exact ⟨rfl, rfl⟩
  | cons e es ih =>
    cases e with
    | byte clk c b werr =>
      simp only [ByteSys.run, ByteSys.step, toFrames]
      cases h : recvStep (w.recv c) b with
      | inl f =>
        simp only [Sys.run]
        have := ih ({ w.setRecv c RecvSt.fresh with sys := (w.sys.step env (.frame clk c f werr)).1 })
        refine ⟨this.1, ?_⟩
        rw [List.filter_cons, List.filter_cons, this.2]
        rfl
      | inr q =>
        have := ih (w.setRecv c q)
        refine ⟨this.1, ?_⟩
        rw [List.filter_cons]
        simp only [ne_eq, not_true_eq_false, decide_false, Bool.false_eq_true, if_false]
        exact this.2
    | fail c e =>
      simp only [ByteSys.run, ByteSys.step, toFrames, Sys.run]
      have := ih ({ w.setRecv c RecvSt.fresh with sys := (w.sys.step env (.readErr c e)).1 })
      refine ⟨this.1, ?_⟩
      rw [List.filter_cons, List.filter_cons, this.2]
      rfl
    | other e =>
      simp only [ByteSys.run, ByteSys.step, toFrames]
      cases he : e.isRead with
      | true =>
        simp only [if_true]
        have := ih w
        refine ⟨this.1, ?_⟩
        rw [List.filter_cons]
        simp only [ne_eq, not_true_eq_false, decide_false, Bool.false_eq_true, if_false]
        exact this.2
      | false =>
        simp only [Bool.false_eq_true, if_false, Sys.run]
        have := ih { w with sys := (w.sys.step env e).1 }
        refine ⟨this.1, ?_⟩
        rw [List.filter_cons, List.filter_cons, this.2]

/-- What is read on connection `c`. -/
def BEv.readOn (c : Conn) : BEv → Option (UInt8 ⊕ Err)
  | .byte _ c' b _ => if c' = c then some (.inl b) else none
  | .fail c' e => if c' = c then some (.inr e) else none
  | .other _ => none

/-- What the server is given on connection `c`. -/
def Ev.readOn (c : Conn) : Ev → Option (List UInt8 ⊕ Err)
  | .frame _ c' f _ => if c' = c then some (.inl f) else none
  | .readErr c' e => if c' = c then some (.inr e) else none
  | _ => none

/-- Everything else. -/
def Ev.notRead (e : Ev) : Bool := !e.isRead

/-- The bytes `p` have brought Recv to the state `r`. -/
inductive Pending : List UInt8 → RecvSt → Prop where
  | out (p : List UInt8) (h : (0x7e : UInt8) ∉ p) : Pending p ⟨false, []⟩
  | into (noise mid : List UInt8) (h : (0x7e : UInt8) ∉ noise) (hm : (0x7e : UInt8) ∉ mid) :
      Pending (noise ++ 0x7e :: mid) ⟨true, 0x7e :: mid⟩

theorem Pending.count {p : List UInt8} {r : RecvSt} (h : Pending p r) : p.count 0x7e ≤ 1 := by
  cases h with
  | out p h => rw [List.count_eq_zero.mpr h]; omega
  | into noise mid h hm =>
    rw [List.count_append, List.count_cons, List.count_eq_zero.mpr h, List.count_eq_zero.mpr hm]; decide

theorem Pending.next {p : List UInt8} {r : RecvSt} (h : Pending p r) (b : UInt8) :
    (∃ noise f, recvStep r b = .inl f ∧ (0x7e : UInt8) ∉ noise ∧ Delimited f ∧ p ++ [b] = noise ++ f) ∨
    (∃ q, recvStep r b = .inr q ∧ Pending (p ++ [b]) q) := by
  cases h with
  | out p h =>
    refine .inr ?_
    by_cases hb : b = 0x7e
    · subst hb
      exact ⟨_, rfl, .into p [] h (by simp)⟩
    · refine ⟨⟨false, []⟩, by simp [recvStep, hb], .out _ ?_⟩
      simp only [List.mem_append, List.mem_singleton, not_or]
      exact ⟨h, fun x => hb x.symm⟩
  | into noise mid h hm =>
    by_cases hb : b = 0x7e
    · subst hb
      refine .inl ⟨noise, 0x7e :: (mid ++ [0x7e]), rfl, h, ⟨mid, hm, rfl⟩, ?_⟩
      simp
    · refine .inr ⟨⟨true, 0x7e :: (mid ++ [b])⟩, by simp [recvStep, hb], ?_⟩
      have := Pending.into noise (mid ++ [b]) h (by
        simp only [List.mem_append, List.mem_singleton, not_or]
        exact ⟨hm, fun x => hb x.symm⟩)
      simpa using this

theorem cut_frames (c : Conn) (es : List BEv) (r : Conn → RecvSt) (p : List UInt8) (h : Pending p (r c)) :
    Cut (p.map .inl ++ es.filterMap (BEv.readOn c)) ((toFrames r es).filterMap (Ev.readOn c)) := by
  induction es generalizing r p with
  | nil => simpa [toFrames] using Cut.rest p h.count
  | cons e es ih =>
    cases e with
    | byte clk c' b werr =>
      by_cases hc : c' = c
      · subst hc
        simp only [List.filterMap_cons, BEv.readOn, if_true, toFrames]
        rcases h.next b with ⟨noise, f, h1, hn, hf, hs⟩ | ⟨q, h1, hq⟩
        · rw [h1]
          simp only [List.filterMap_cons, Ev.readOn, if_true]
          have := Cut.frame noise f _ _ hn hf
            (ih (fun x => if x = c' then RecvSt.fresh else r x) [] (by simp only [if_true]; exact .out [] (by simp)))
          rw [← hs] at this
          simpa using this
        · rw [h1]
          have := ih (fun x => if x = c' then q else r x) (p ++ [b]) (by simpa using hq)
          simpa using this
      · simp only [List.filterMap_cons, BEv.readOn, if_neg hc, toFrames]
        cases recvStep (r c') b with
        | inl f =>
          simp only [List.filterMap_cons, Ev.readOn, if_neg hc]
          exact ih _ p (by rw [if_neg (fun x => hc x.symm)]; exact h)
        | inr q => exact ih _ p (by rw [if_neg (fun x => hc x.symm)]; exact h)
    | fail c' e =>
      by_cases hc : c' = c
      · subst hc
        simp only [List.filterMap_cons, BEv.readOn, if_true, toFrames, Ev.readOn]
        exact Cut.fail p e _ _ h.count
          (by
            have := ih (fun x => if x = c' then RecvSt.fresh else r x) []
              (by simp only [if_true]; exact .out [] (by simp))
            simpa using this)
      · simp only [List.filterMap_cons, BEv.readOn, if_neg hc, toFrames, Ev.readOn]
        exact ih _ p (by rw [if_neg (fun x => hc x.symm)]; exact h)
    | other e =>
      simp only [List.filterMap_cons, BEv.readOn, toFrames]
      cases he : e.isRead with
      | true => simp only [if_true]; exact ih r p h
      | false =>
        simp only [Bool.false_eq_true, if_false, List.filterMap_cons]
        have : e.readOn c = none := by cases e <;> first | rfl | cases he
        rw [this]
        exact ih r p h

theorem cut_others (es : List BEv) (r : Conn → RecvSt) :
    (toFrames r es).filter Ev.notRead = (es.filterMap fun | .other e => some e | _ => none).filter Ev.notRead := by
  induction es generalizing r with
  | nil => rfl
  | cons e es ih =>
    cases e with
    | byte clk c b werr =>
      simp only [toFrames, List.filterMap_cons]
      cases recvStep (r c) b with
      | inl f => rw [List.filter_cons]; exact ih _
      | inr q => exact ih _
    | fail c e =>
      simp only [toFrames, List.filterMap_cons]
      rw [List.filter_cons]; exact ih _
    | other e =>
      simp only [toFrames, List.filterMap_cons]
      cases he : e.isRead with
      | true => simp only [if_true, List.filter_cons, Ev.notRead, he, Bool.not_true, Bool.false_eq_true, if_false]; exact ih r
      | false => simp only [Bool.false_eq_true, if_false, List.filter_cons, Ev.notRead, he, Bool.not_false, if_true]; exact congrArg _ (ih r)

/-- The loop variables after a history. -/
def recvAfter (r : Conn → RecvSt) : List BEv → Conn → RecvSt
  | [] => r
  | .byte _ c b _ :: es =>
    match recvStep (r c) b with
    | .inl _ => recvAfter (fun x => if x = c then RecvSt.fresh else r x) es
    | .inr q => recvAfter (fun x => if x = c then q else r x) es
  | .fail c _ :: es => recvAfter (fun x => if x = c then RecvSt.fresh else r x) es
  | .other _ :: es => recvAfter r es

theorem toFrames_append (a b : List BEv) (r : Conn → RecvSt) :
    toFrames r (a ++ b) = toFrames r a ++ toFrames (recvAfter r a) b := by
  induction a generalizing r with
  | nil => rfl
  | cons e a ih =>
    cases e with
    | byte clk c x werr =>
      simp only [List.cons_append, toFrames, recvAfter]
      cases recvStep (r c) x with
      | inl f => exact congrArg _ (ih _)
      | inr q => exact ih _
    | fail c e => exact congrArg _ (ih _)
    | other e =>
      simp only [List.cons_append, toFrames, recvAfter]
      cases e.isRead with
      | true => exact ih _
      | false => exact congrArg (e :: ·) (ih r)

theorem recvAfter_append (a b : List BEv) (r : Conn → RecvSt) : recvAfter r (a ++ b) = recvAfter (recvAfter r a) b := by
  induction a generalizing r with
  | nil => rfl
  | cons e a ih =>
    cases e with
    | byte clk c x werr =>
      simp only [List.cons_append, recvAfter]
      cases recvStep (r c) x with
      | inl f => exact ih _
      | inr q => exact ih _
    | fail c e => exact ih _
    | other e => exact ih _

/-- Bytes without a delimiter, read inside a frame. -/
theorem dribble (clk : Clock) (c : Conn) (werr : Option Err) (mid : List UInt8) (hm : (0x7e : UInt8) ∉ mid)
    (r : Conn → RecvSt) (buf : List UInt8) (hr : r c = ⟨true, buf⟩) :
    toFrames r (mid.map fun b => .byte clk c b werr) = [] ∧
    recvAfter r (mid.map fun b => .byte clk c b werr) = fun x => if x = c then ⟨true, buf ++ mid⟩ else r x := by
  induction mid generalizing r buf with
  | nil =>
    refine ⟨rfl, ?_⟩
    funext x
    by_cases hx : x = c
    · subst hx; simpa [recvAfter] using hr
    · simp [recvAfter, hx]
  | cons b mid ih =>
    have hb : b ≠ 0x7e := fun h => hm (by simp [h])
    have hs : recvStep (r c) b = .inr ⟨true, buf ++ [b]⟩ := by rw [hr]; simp [recvStep, hb]
    simp only [List.map_cons, toFrames, recvAfter, hs]
    obtain ⟨h1, h2⟩ := ih (fun h => hm (by simp [h])) (fun x => if x = c then ⟨true, buf ++ [b]⟩ else r x) (buf ++ [b])
      (by simp)
    refine ⟨h1, h2.trans ?_⟩
    funext x
    by_cases hx : x = c
    · simp [hx]
    · simp [hx]

/-- The bytes of a frame, read one after another by a fresh Recv. -/
theorem dribble_frame (clk : Clock) (c : Conn) (werr : Option Err) (f : List UInt8) (hf : Delimited f)
    (r : Conn → RecvSt) (hr : r c = RecvSt.fresh) :
    toFrames r (f.map fun b => .byte clk c b werr) = [.frame clk c f werr] ∧
    recvAfter r (f.map fun b => .byte clk c b werr) = r := by
  obtain ⟨mid, hm, rfl⟩ := hf
  have hs : recvStep (r c) 0x7e = .inr ⟨true, [0x7e]⟩ := by rw [hr]; rfl
  obtain ⟨h1, h2⟩ := dribble clk c werr mid hm (fun x => if x = c then ⟨true, [0x7e]⟩ else r x) [0x7e] (by simp)
  have hl : recvStep (recvAfter (fun x => if x = c then ⟨true, [0x7e]⟩ else r x)
      (mid.map fun b => .byte clk c b werr) c) 0x7e = .inl ([0x7e] ++ mid ++ [0x7e]) := by
    rw [h2]; simp [recvStep]
  simp only [List.map_cons, List.map_append, List.map_nil, toFrames, recvAfter, hs]
  rw [toFrames_append, recvAfter_append, h1]
  simp only [toFrames, recvAfter, hl, List.nil_append]
  refine ⟨by simp, ?_⟩
  rw [h2]
  funext x
  by_cases hx : x = c
  · subst hx; simpa using hr.symm
  · simp [hx]

/-- Cutting a stream with the loop of Recv. -/
def cutRun (r : RecvSt) : List (UInt8 ⊕ Err) → List (List UInt8 ⊕ Err)
  | [] => []
  | .inl b :: s =>
    match recvStep r b with
    | .inl f => .inl f :: cutRun RecvSt.fresh s
    | .inr q => cutRun q s
  | .inr e :: s => .inr e :: cutRun RecvSt.fresh s

theorem cutRun_noise (noise : List UInt8) (h : (0x7e : UInt8) ∉ noise) (s : List (UInt8 ⊕ Err)) :
    cutRun RecvSt.fresh (noise.map .inl ++ s) = cutRun RecvSt.fresh s := by
  induction noise with
  | nil => rfl
  | cons b noise ih =>
    have hb : b ≠ 0x7e := fun x => h (by simp [x])
    have hs : recvStep RecvSt.fresh b = .inr RecvSt.fresh := by simp [recvStep, RecvSt.fresh, hb]
    simp only [List.map_cons, List.cons_append, cutRun, hs]
    exact ih fun x => h (by simp [x])

theorem cutRun_mid (mid : List UInt8) (h : (0x7e : UInt8) ∉ mid) (buf : List UInt8) (s : List (UInt8 ⊕ Err)) :
    cutRun ⟨true, buf⟩ (mid.map .inl ++ s) = cutRun ⟨true, buf ++ mid⟩ s := by
  induction mid generalizing buf with
  | nil => simp
  | cons b mid ih =>
    have hb : b ≠ 0x7e := fun x => h (by simp [x])
    have hs : recvStep ⟨true, buf⟩ b = .inr ⟨true, buf ++ [b]⟩ := by simp [recvStep, hb]
    simp only [List.map_cons, List.cons_append, cutRun, hs]
    rw [ih (fun x => h (by simp [x]))]
    simp

theorem cutRun_tail (tail : List UInt8) (h : tail.count 0x7e ≤ 1) (s : List (UInt8 ⊕ Err)) :
    ∃ r, cutRun RecvSt.fresh (tail.map .inl ++ s) = cutRun r s := by
  by_cases hm : (0x7e : UInt8) ∈ tail
  · obtain ⟨a, b, rfl⟩ := List.append_of_mem hm
    rw [List.count_append, List.count_cons] at h
    simp only [BEq.rfl, if_true] at h
    have ha : (0x7e : UInt8) ∉ a := List.count_eq_zero.mp (by omega)
    have hb : (0x7e : UInt8) ∉ b := List.count_eq_zero.mp (by omega)
    have hs : recvStep RecvSt.fresh 0x7e = .inr ⟨true, [0x7e]⟩ := rfl
    refine ⟨⟨true, [0x7e] ++ b⟩, ?_⟩
    rw [List.map_append, List.append_assoc, cutRun_noise a ha]
    simp only [List.map_cons, List.cons_append, cutRun, hs]
    exact cutRun_mid b hb _ s
  · exact ⟨_, cutRun_noise tail hm s⟩

theorem cut_eq {s : List (UInt8 ⊕ Err)} {o : List (List UInt8 ⊕ Err)} (h : Cut s o) : o = cutRun RecvSt.fresh s := by
  induction h with
  | rest tail h =>
    obtain ⟨r, hr⟩ := cutRun_tail tail h []
    rw [List.append_nil] at hr
    rw [hr]; rfl
  | frame noise f s out hn hf h ih =>
    obtain ⟨mid, hm, rfl⟩ := hf
    rw [List.map_append, List.append_assoc, cutRun_noise noise hn]
    have hs : recvStep RecvSt.fresh 0x7e = .inr ⟨true, [0x7e]⟩ := rfl
    simp only [List.map_cons, List.map_append, List.map_nil, List.cons_append, cutRun, hs, List.append_assoc, List.nil_append]
    rw [cutRun_mid mid hm]
    have hl : recvStep ⟨true, [0x7e] ++ mid⟩ 0x7e = .inl ([0x7e] ++ mid ++ [0x7e]) := by simp [recvStep]
    simp only [cutRun, hl, ← ih]
    simp
  | fail tail e s out ht h ih =>
    obtain ⟨r, hr⟩ := cutRun_tail tail ht (.inr e :: s)
    rw [hr]
    simp only [cutRun, ← ih]

end JT808
