import Verif.Model.Lifetime
import Verif.Proof.Conns
import Verif.Proof.Demo
/-
C114: listening, stopping, and what stays.
-/
namespace JT808

namespace Spec

/-- How often the server could be made to listen. -/
def listens : List HEv → Nat
  | [] => 0
  | .listen true :: es => listens es + 1
  | _ :: es => listens es

/-- The history without the failures of Accept. -/
def noFailures : List HEv → List HEv
  | [] => []
  | .acceptErr _ :: es => noFailures es
  | e :: es => e :: noFailures es

/-- What the peers and the keepalive do, no connection being made. -/
def Quiet (es : List Ev) : Prop :=
  ∀ a, Ev.accept a ∉ es

end Spec

open Spec

theorem hrun_append (env : Env) (a b : List HEv) (h : Host) :
    (h.run env (a ++ b)).1 = ((h.run env a).1.run env b).1 := by
  induction a generalizing h with
  | nil => rfl
  | cons e a ih => exact ih _

/-- Every loop waits at the socket the member holds, and at most `n` more sockets will be opened. -/
def Host.Single (h : Host) (n : Nat) : Prop :=
  (h.field = none ∧ h.loops = [] ∧ n ≤ 1) ∨ (n = 0 ∧ ∃ l, h.field = some l ∧ ∀ x ∈ h.loops, x = l)

theorem Host.again_self (h : Host) (i l : Nat) (hf : h.field = some l) (hi : h.loops[i]? = some l) : h.again i l = h := by
  unfold Host.again
  have : h.loops.set i ((h.field).getD l) = h.loops := by
    rw [hf]
    refine List.ext_getElem? fun j => ?_
    rw [List.getElem?_set]
    split
    · rename_i e
      subst e
      have := (List.getElem?_eq_some_iff.1 hi).1
      rw [if_pos this, hi]; rfl
    · rfl
  rw [this]

theorem Host.Single.step {h : Host} {e : HEv} {es : List HEv} (env : Env) (hs : h.Single (listens (e :: es))) :
    (h.step env e).1.Single (listens es) := by
  cases e with
  | listen ok =>
    cases ok with
    | false => exact hs
    | true =>
      rcases hs with ⟨_, hl, hn⟩ | ⟨hn, _⟩
      · refine .inr ⟨?_, h.opened, rfl, ?_⟩
        · simp only [listens] at hn; omega
        · simp [Host.step, hl]
      · simp [listens] at hn
  | start =>
    rcases hs with ⟨hf, hl, hn⟩ | ⟨hn, l, hf, hl⟩
    · simp only [Host.step, hf]
      exact .inl ⟨hf, hl, hn⟩
    · simp only [Host.step, hf]
      refine .inr ⟨hn, l, rfl, fun x hx => ?_⟩
      rcases List.mem_append.1 hx with hx | hx
      · exact hl x hx
      · simpa using hx
  | stop =>
    rcases hs with ⟨hf, hl, hn⟩ | ⟨hn, l, hf, hl⟩
    · simp only [Host.step, hf]
      exact .inl ⟨hf, hl, hn⟩
    · simp only [Host.step, hf]
      exact .inr ⟨hn, l, rfl, hl⟩
  | arrive i addr =>
    rcases hs with ⟨hf, hl, hn⟩ | ⟨hn, l, hf, hl⟩
    · simp only [Host.step, hl, List.getElem?_nil]
      exact .inl ⟨hf, hl, hn⟩
    · simp only [Host.step]
      cases hi : h.loops[i]? with
      | none => exact .inr ⟨hn, l, hf, hl⟩
      | some x =>
        have hx := hl x (List.mem_of_getElem? hi)
        subst hx
        simp only []
        split
        · exact .inr ⟨hn, x, hf, hl⟩
        · simp only
          rw [Host.again_self _ _ _ (by exact hf) (by exact hi)]
          exact .inr ⟨hn, x, hf, hl⟩
  | acceptErr i =>
    rcases hs with ⟨hf, hl, hn⟩ | ⟨hn, l, hf, hl⟩
    · simp only [Host.step, hl, List.getElem?_nil]
      exact .inl ⟨hf, hl, hn⟩
    · simp only [Host.step]
      cases hi : h.loops[i]? with
      | none => exact .inr ⟨hn, l, hf, hl⟩
      | some x =>
        have hx := hl x (List.mem_of_getElem? hi)
        subst hx
        simp only
        rw [Host.again_self _ _ _ hf hi]
        exact .inr ⟨hn, x, hf, hl⟩
  | ev e => cases e <;> exact hs

theorem Host.Single.run {h : Host} {a b : List HEv} (env : Env) (hs : h.Single (listens (a ++ b))) :
    (h.run env a).1.Single (listens b) := by
  induction a generalizing h with
  | nil => exact hs
  | cons e a ih => exact ih (Host.Single.step env hs)

/-- Failures of Accept do not show: a server that was made to listen once is, after any history, as it would be without
them, however many loops of Start run. -/
theorem C114_failures_partial (env : Env) (s : Sys) (es : List HEv) (h1 : listens es ≤ 1) :
    ((Host.new s).run env es).1 = ((Host.new s).run env (noFailures es)).1 := by
  have h0 : (Host.new s).Single (listens es) := .inl ⟨rfl, rfl, h1⟩
  revert h0
  generalize Host.new s = h
  clear h1
  induction es generalizing h with
  | nil => intro _; rfl
  | cons e es ih =>
    intro h0
    have h2 := ih _ (h0.step env)
    cases e with
    | acceptErr i =>
      have : (h.step env (.acceptErr i)).1 = h := by
        simp only [Host.step]
        cases hi : h.loops[i]? with
        | none => rfl
        | some x =>
          rcases h0 with ⟨_, hl, _⟩ | ⟨_, l, hf, hl⟩
          · rw [hl] at hi; cases hi
          · have hx := hl x (List.mem_of_getElem? hi)
            subst hx
            exact Host.again_self _ _ _ hf hi
      rw [this] at h2
      show ((h.step env (.acceptErr i)).1.run env es).1 = _
      rw [this]
      exact h2
    | listen ok => exact h2
    | start => exact h2
    | stop => exact h2
    | arrive i a => exact h2
    | ev e => exact h2

/-- All loops wait at closed sockets, and the member holds a closed one. -/
def Host.Shut (h : Host) : Prop :=
  (∀ x ∈ h.loops, x ∈ h.closed) ∧ ∀ l, h.field = some l → l ∈ h.closed

theorem Host.Shut.step {h : Host} {e : HEv} {es : List HEv} (env : Env) (hs : h.Shut) (he : listens (e :: es) = 0) :
    (h.step env e).1.Shut ∧ (h.step env e).1.sys.accepted = h.sys.accepted ∧
    ∀ c ∈ (h.step env e).1.sys.live, c ∈ h.sys.live := by
  have same : h.Shut ∧ h.sys.accepted = h.sys.accepted ∧ ∀ c ∈ h.sys.live, c ∈ h.sys.live := ⟨hs, rfl, fun _ hc => hc⟩
  cases e with
  | listen ok =>
    cases ok with
    | false => exact same
    | true => simp [listens] at he
  | start =>
    simp only [Host.step]
    cases hf : h.field with
    | none => exact same
    | some l =>
      refine ⟨⟨fun x hx => ?_, fun x hx => hs.2 x (hf.trans hx)⟩, rfl, fun _ hc => hc⟩
      rcases List.mem_append.1 hx with hx | hx
      · exact hs.1 x hx
      · obtain rfl : x = l := by simpa using hx
        exact hs.2 x hf
  | stop =>
    simp only [Host.step]
    cases hf : h.field with
    | none => exact same
    | some l =>
      exact ⟨⟨fun x hx => List.mem_cons_of_mem _ (hs.1 x hx), fun x hx => List.mem_cons_of_mem _ (hs.2 x (hf.trans hx))⟩, rfl,
        fun _ hc => hc⟩
  | arrive i addr =>
    simp only [Host.step]
    cases hi : h.loops[i]? with
    | none => exact same
    | some x =>
      simp only [if_pos (hs.1 x (List.mem_of_getElem? hi))]
      exact ⟨hs, trivial, fun _ hc => hc⟩
  | acceptErr i =>
    simp only [Host.step]
    cases hi : h.loops[i]? with
    | none => exact same
    | some x =>
      refine ⟨⟨fun y hy => ?_, hs.2⟩, rfl, fun _ hc => hc⟩
      rcases List.mem_or_eq_of_mem_set hy with hy | hy
      · exact hs.1 y hy
      · cases hf : h.field with
        | none =>
          rw [hf] at hy
          obtain rfl : y = x := hy
          exact hs.1 y (List.mem_of_getElem? hi)
        | some l =>
          rw [hf] at hy
          obtain rfl : y = l := hy
          exact hs.2 y hf
  | ev e =>
    have key : (∀ a, e ≠ .accept a) → (h.sys.step env e).1.accepted = h.sys.accepted ∧
        ∀ c ∈ (h.sys.step env e).1.live, c ∈ h.sys.live := by
      intro hne
      rcases step_live env h.sys e with hl | ⟨a, ha, _⟩
      · refine ⟨?_, hl⟩
        unfold Sys.step
        split
        · rfl
        · cases e <;> first | exact absurd rfl (hne _) | rfl | (simp only; split <;> rfl)
      · exact absurd ha (hne a)
    cases e with
    | accept a => exact same
    | _ => exact ⟨hs, key (by intro a ha; cases ha)⟩

theorem Host.Shut.run {h : Host} {es : List HEv} (env : Env) (hs : h.Shut) (he : listens es = 0) :
    (h.run env es).1.Shut ∧ (h.run env es).1.sys.accepted = h.sys.accepted ∧
    ∀ c ∈ (h.run env es).1.sys.live, c ∈ h.sys.live := by
  induction es generalizing h with
  | nil => exact ⟨hs, rfl, fun _ hc => hc⟩
  | cons e es ih =>
    obtain ⟨a1, a2, a3⟩ := hs.step (es := es) env he
    have he' : listens es = 0 := by
      cases e with
      | listen ok =>
        cases ok with
        | true => simp [listens] at he
        | false => exact he
      | _ => exact he
    obtain ⟨b1, b2, b3⟩ := ih a1 he'
    exact ⟨b1, b2.trans a2, fun c hc => a3 c (b3 c hc)⟩

theorem Host.Single.stop {h : Host} {n : Nat} (env : Env) (hs : h.Single n) : (h.step env .stop).1.Shut := by
  rcases hs with ⟨hf, hl, _⟩ | ⟨_, l, hf, hl⟩
  · simp only [Host.step, hf]
    exact ⟨by simp [hl], by simp [hf]⟩
  · simp only [Host.step, hf]
    refine ⟨fun x hx => ?_, fun x hx => ?_⟩
    · rw [hl x hx]; exact List.mem_cons_self
    · obtain rfl : l = x := by simpa using hx
      exact List.mem_cons_self

/-- Stop closes the door: in a server that was made to listen at most once, no connection is accepted after Stop whatever
happens, the loops of Start being called again included, and only connections that were served before are served after. -/
theorem C114_closed_partial (env : Env) (s : Sys) (es es' : List HEv) (h1 : listens es ≤ 1) (h2 : listens es' = 0) :
    ((Host.new s).run env (es ++ .stop :: es')).1.sys.accepted = ((Host.new s).run env es).1.sys.accepted ∧
    ∀ c ∈ ((Host.new s).run env (es ++ .stop :: es')).1.sys.live, c ∈ ((Host.new s).run env es).1.sys.live := by
  have h0 : (Host.new s).Single (listens (es ++ [])) := by
    rw [List.append_nil]; exact .inl ⟨rfl, rfl, h1⟩
  have h3 := (Host.Single.run env h0).stop env
  rw [hrun_append]
  generalize ((Host.new s).run env es).1 = h at *
  obtain ⟨_, a2, a3⟩ := h3.run (es := es') env h2
  have hsys : (h.step env .stop).1.sys = h.sys := by
    simp only [Host.step]; split <;> rfl
  rw [hsys] at a2 a3
  exact ⟨a2, a3⟩

/-- Whatever the peers of the connections do that are there: Stop does not show. The frames are answered, the keepalive
runs and the HTTP requests are answered as in a server that was never stopped. -/
theorem C114_served_on (env : Env) (h : Host) (es : List Ev) (hq : Quiet es) :
    ((h.step env .stop).1.run env (es.map .ev)).2 = (h.sys.run env es).2 ∧
    ((h.step env .stop).1.run env (es.map .ev)).1.sys = (h.sys.run env es).1 := by
  have hsys : (h.step env .stop).1.sys = h.sys := by
    simp only [Host.step]; split <;> rfl
  rw [← hsys]
  generalize (h.step env .stop).1 = g
  clear hsys
  induction es generalizing g with
  | nil => exact ⟨rfl, rfl⟩
  | cons e es ih =>
    have hq' : Quiet es := fun a ha => hq a (List.mem_cons_of_mem _ ha)
    have key : g.step env (.ev e) = ({ g with sys := (g.sys.step env e).1 }, (g.sys.step env e).2) := by
      cases e with
      | accept a => exact absurd List.mem_cons_self (hq a)
      | _ => rfl
    have h1 := ih hq' { g with sys := (g.sys.step env e).1 }
    simp only [List.map_cons, Host.run, Sys.run, key]
    exact ⟨congrArg _ h1.1, h1.2⟩

theorem Host.step_loops (env : Env) (h : Host) (e : HEv) : h.loops.length ≤ (h.step env e).1.loops.length := by
  cases e with
  | listen ok => cases ok <;> exact Nat.le_refl _
  | start =>
    simp only [Host.step]
    split
    · exact Nat.le_refl _
    · simp
  | stop =>
    simp only [Host.step]
    split <;> exact Nat.le_refl _
  | arrive i a =>
    simp only [Host.step]
    split
    · exact Nat.le_refl _
    · split
      · exact Nat.le_refl _
      · simp [Host.again]
  | acceptErr i =>
    simp only [Host.step]
    split
    · exact Nat.le_refl _
    · simp [Host.again]
  | ev e => cases e <;> exact Nat.le_refl _

/-- No loop of Start ever returns, whatever happens. -/
theorem C114_never_returns (env : Env) (h : Host) (es : List HEv) : h.loops.length ≤ (h.run env es).1.loops.length := by
  induction es generalizing h with
  | nil => exact Nat.le_refl _
  | cons e es ih => exact Nat.le_trans (Host.step_loops env h e) (ih _)

/-- After Stop each of them goes round for ever: a closed socket only gives errors, and after any number of them the server
is as it was and the loop is at the same socket. -/
theorem C114_spins (env : Env) (s : Sys) (es es' : List HEv) (h1 : listens es ≤ 1) (h2 : listens es' = 0) (i : Nat)
    (n : Nat) : let h := ((Host.new s).run env (es ++ .stop :: es')).1
    i < h.loops.length →
    (∃ l, h.loops[i]? = some l ∧ l ∈ h.closed) ∧ (h.run env (List.replicate n (.acceptErr i))).1 = h := by
  intro h hi
  have hc : listens (es ++ .stop :: es') = listens es := by
    clear h1 hi
    induction es with
    | nil => exact h2
    | cons e es ih =>
      cases e with
      | listen ok => cases ok <;> simp only [List.cons_append, listens, ih]
      | _ => simp only [List.cons_append, listens, ih]
  have h0 : (Host.new s).Single (listens ((es ++ .stop :: es') ++ [])) := by
    rw [List.append_nil, hc]; exact .inl ⟨rfl, rfl, h1⟩
  have hS : h.Single 0 := Host.Single.run env h0
  have hX : h.Shut := by
    have h0' : (Host.new s).Single (listens (es ++ [])) := by
      rw [List.append_nil]; exact .inl ⟨rfl, rfl, h1⟩
    have h3 := (Host.Single.run env h0').stop env
    have := (h3.run (es := es') env h2).1
    show (((Host.new s).run env (es ++ .stop :: es')).1).Shut
    rw [hrun_append]
    exact this
  clear_value h
  refine ⟨⟨h.loops[i], List.getElem?_eq_getElem hi, hX.1 _ (List.getElem_mem hi)⟩, ?_⟩
  have step1 : (h.step env (.acceptErr i)).1 = h := by
    simp only [Host.step]
    have hg := List.getElem?_eq_getElem hi
    rw [hg]
    rcases hS with ⟨_, hl, _⟩ | ⟨_, l, hf, hl⟩
    · rw [hl] at hi; simp at hi
    · have hx := hl _ (List.getElem_mem hi)
      rw [hx] at hg ⊢
      exact Host.again_self _ _ _ hf hg
  induction n with
  | zero => rfl
  | succ n ih =>
    show ((h.step env (.acceptErr i)).1.run env _).1 = h
    rw [step1]; exact ih

/-- A server that was made to listen again accepts a connection after Stop: the loop still waits at the first socket, which
nobody closes any more. -/
theorem C114_second_listen (env : Env) (addr : Str) :
    let es : List HEv := [.listen true, .start, .listen true, .stop]
    ((Host.new Sys.start).run env es).1.sys.live = [] ∧
    ((Host.new Sys.start).run env (es ++ [.arrive 0 addr])).1.sys.live = [⟨0, addr⟩] :=
  ⟨rfl, rfl⟩

/-- The server listens, two connections come in with a failure of Accept between them, and a terminal registers. -/
def demoDay : List HEv :=
  [.listen true, .start, .arrive 0 [0x61], .acceptErr 0, .arrive 0 [0x62], .ev (.frame (demoClk 1000) demoC demoReg none)]

example : listens demoDay ≤ 1 ∧ (noFailures demoDay).length = 5 := by decide

/-- Everybody is served before and after Stop; the third caller is not. -/
example : ((Host.new Sys.start).run goEnv demoDay).1.sys.live = [⟨1, [0x62]⟩, demoC] ∧
    ((Host.new Sys.start).run goEnv (demoDay ++ .stop :: [.start, .arrive 0 [0x63], .arrive 1 [0x63]])).1.sys.live =
      [⟨1, [0x62]⟩, demoC] ∧
    ((Host.new Sys.start).run goEnv (demoDay ++ .stop :: [.start])).1.loops = [0, 0] ∧
    ((Host.new Sys.start).run goEnv (demoDay ++ [.arrive 0 [0x63]])).1.sys.live = [⟨2, [0x63]⟩, ⟨1, [0x62]⟩, demoC] := by
  decide +kernel

/-- A heartbeat after Stop is answered. -/
example : Quiet [.frame (demoClk 2000) demoC demoBeat none] ∧
    ((((Host.new Sys.start).run goEnv (demoDay ++ [.stop])).1.run goEnv
      [.ev (.frame (demoClk 2000) demoC demoBeat none)]).2.map fun o => o.sent.isSome) = [true] := by
  refine ⟨fun a ha => ?_, ?_⟩
  · simp at ha
  · decide +kernel

end JT808
