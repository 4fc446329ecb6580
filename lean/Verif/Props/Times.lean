import Verif.Proof.Times
import Verif.Props.Register
/-
C153: the sequential description is right for a terminal whose messages are handled one after another, even if time
passes while they are handled.
-/
namespace JT808
open Spec

namespace Spec

/-- A goroutine and the times at which it makes its steps before the next one of the same terminal begins. -/
structure Visit where
  who : Nat
  clks : List Clock

/-- The steps of visits in order. -/
def visitSteps (us : List Visit) : List CEv := us.flatMap fun u => u.clks.map (.run u.who)

/-- A clock that shows nothing but what was shown at one of the given times. -/
def During (clks : List Clock) (clk : Clock) : Prop :=
  clks ≠ [] → (∃ c ∈ clks, clk.ms = c.ms) ∧ ∃ c ∈ clks, clk.civil = c.civil

/-- The sequential server takes the visits in the same order, each at one moment of it. -/
def Moments (us : List Visit) (vs : List Turn) : Prop :=
  vs.length = us.length ∧ ∀ (k : Nat) (u : Visit) (v : Turn), us[k]? = some u → vs[k]? = some v →
    v.who = u.who ∧ During u.clks v.clk

end Spec

theorem run_iters (env : Env) (i : Nat) (t : Task) (clks : List Clock) (q : Prog) (s : CSys)
    (h : s.threads[i]? = some (t, q)) :
    s.run env (clks.map (.run i)) = ⟨(q.iters clks s.st).1, s.threads.set i (t, (q.iters clks s.st).2)⟩ := by
  induction clks generalizing q s with
  | nil =>
    obtain ⟨st, th⟩ := s
    simp only [Prog.iters, CSys.run, List.map_nil, List.foldl_nil]
    congr 1
    obtain ⟨hi, e⟩ := List.getElem?_eq_some_iff.1 h
    rw [← e, List.set_getElem_self]
  | cons c cs ih =>
    have e : s.step env (.run i c) = ⟨(q.next c s.st).1, s.threads.set i (t, (q.next c s.st).2)⟩ := by
      simp only [CSys.step, h]
    have hlt : i < s.threads.length := (List.getElem?_eq_some_iff.1 h).1
    show (s.step env (.run i c)).run env (cs.map (.run i)) = _
    rw [e, ih (q.next c s.st).2 ⟨(q.next c s.st).1, s.threads.set i (t, (q.next c s.st).2)⟩
      (by simp only [List.getElem?_set_self hlt])]
    simp only [Prog.iters, List.set_set]

theorem visits_others (env : Env) (us : List Visit) (s : CSys) (i : Nat) (h : ∀ u ∈ us, u.who ≠ i) :
    (s.run env (visitSteps us)).threads[i]? = s.threads[i]? := by
  induction us generalizing s with
  | nil => rfl
  | cons u us ih =>
    simp only [visitSteps, List.flatMap_cons]
    rw [crun_append]
    refine (ih _ (fun v hv => h v (List.mem_cons_of_mem _ hv))).trans ?_
    cases hs : s.threads[u.who]? with
    | none =>
      have : ∀ cs : List Clock, s.run env (cs.map (.run u.who)) = s := by
        intro cs
        induction cs with
        | nil => rfl
        | cons c cs ih =>
          show (s.step env (.run u.who c)).run env (cs.map (.run u.who)) = _
          rw [show s.step env (.run u.who c) = s by simp only [CSys.step, hs]]
          exact ih
      rw [this]
    | some x =>
      rw [run_iters env u.who x.1 u.clks x.2 s hs]
      exact List.getElem?_set_ne (h u List.mem_cons_self)

/-- A goroutine that time passes for does what the sequential handler does at one moment. -/
theorem timed_handled {env : Env} {t : Task} {clks : List Clock} {st st' : Store} {r : Res (Option Out)}
    (h : (t.prog env).iters clks st = (st', .ret r)) : ∃ clk, During clks clk ∧ handled env clk st t = (st', r) := by
  obtain ⟨o1, o2, -, -, h1, h2, h3⟩ := timed_task env t st clks st' r h
  cases clks with
  | nil =>
    have e1 : o1 = none := by cases o1 with | none => rfl | some c => cases h1 c rfl
    have e2 : o2 = none := by cases o2 with | none => rfl | some c => cases h2 c rfl
    subst e1 e2
    refine ⟨⟨0, ⟨0, 0, 0, 0, 0, 0⟩⟩, fun h => absurd rfl h, ?_⟩
    rw [← alone_handled]
    exact h3 _ (fun _ h => by cases h) fun _ h => by cases h
  | cons c cs =>
    refine ⟨⟨(o1.getD c).ms, (o2.getD c).civil⟩, fun _ => ⟨⟨o1.getD c, ?_, rfl⟩, ⟨o2.getD c, ?_, rfl⟩⟩, ?_⟩
    · cases o1 with
      | none => exact List.mem_cons_self
      | some x => exact h1 x rfl
    · cases o2 with
      | none => exact List.mem_cons_self
      | some x => exact h2 x rfl
    · rw [← alone_handled]
      exact h3 _ (fun x hx => by rw [hx]; rfl) fun x hx => by rw [hx]; rfl

theorem visits_run (env : Env) (tasks : List Task) (us : List Visit) (s : CSys) (hd : (us.map (·.who)).Nodup)
    (h0 : ∀ u ∈ us, ∃ t, tasks[u.who]? = some t ∧ s.threads[u.who]? = some (t, t.prog env))
    (h1 : ∀ u ∈ us, ∃ r, (s.run env (visitSteps us)).returns u.who r) :
    ∃ vs, Moments us vs ∧ (s.run env (visitSteps us)).st = oneByOne env tasks s.st vs ∧
    ∀ (k : Nat) (v : Turn) (t : Task), vs[k]? = some v → tasks[v.who]? = some t →
      (s.run env (visitSteps us)).returns v.who (handled env v.clk (oneByOne env tasks s.st (vs.take k)) t).2 := by
  induction us generalizing s with
  | nil => exact ⟨[], ⟨rfl, fun k u v h => by cases h⟩, rfl, fun k u t h => by cases h⟩
  | cons u us ih =>
    obtain ⟨t, ht, hs⟩ := h0 u List.mem_cons_self
    have hlt : u.who < s.threads.length := (List.getElem?_eq_some_iff.1 hs).1
    simp only [List.map_cons, List.nodup_cons] at hd
    have hne : ∀ v ∈ us, v.who ≠ u.who := fun v hv e => hd.1 (List.mem_map.2 ⟨v, hv, e⟩)
    have e : s.run env (visitSteps (u :: us)) =
        (CSys.mk ((t.prog env).iters u.clks s.st).1
          (s.threads.set u.who (t, ((t.prog env).iters u.clks s.st).2))).run env (visitSteps us) := by
      simp only [visitSteps, List.flatMap_cons]
      rw [crun_append, run_iters env u.who t u.clks _ s hs]
    rw [e] at h1 ⊢
    obtain ⟨r, t', hr⟩ := h1 u List.mem_cons_self
    rw [visits_others env us _ _ hne] at hr
    simp only [List.getElem?_set_self hlt] at hr
    have hit : (t.prog env).iters u.clks s.st = (((t.prog env).iters u.clks s.st).1, .ret r) := by
      exact Prod.ext rfl (congrArg (fun x : Task × Prog => x.2) (Option.some.inj hr))
    obtain ⟨clk, hclk, hal⟩ := timed_handled hit
    have hst : ((t.prog env).iters u.clks s.st).1 = (handled env clk s.st t).1 := by rw [hal]
    have hres : r = (handled env clk s.st t).2 := by rw [hal]
    obtain ⟨vs, k0, k1, k2⟩ := ih (CSys.mk ((t.prog env).iters u.clks s.st).1
      (s.threads.set u.who (t, ((t.prog env).iters u.clks s.st).2))) hd.2
      (fun v hv => by
        obtain ⟨t2, a, b⟩ := h0 v (List.mem_cons_of_mem _ hv)
        exact ⟨t2, a, by simp only [List.getElem?_set_ne (Ne.symm (hne v hv)), b]⟩)
      (fun v hv => h1 v (List.mem_cons_of_mem _ hv))
    have hfold : ∀ vs, oneByOne env tasks s.st (⟨u.who, clk, u.clks.length⟩ :: vs) =
        oneByOne env tasks (handled env clk s.st t).1 vs := by
      intro vs; simp only [oneByOne, List.foldl_cons, ht]
    refine ⟨⟨u.who, clk, u.clks.length⟩ :: vs, ⟨congrArg (· + 1) k0.1, fun k u' v hu hv => ?_⟩, by rw [k1, hfold, hst],
      fun k v t2 hk hv => ?_⟩
    · cases k with
      | zero =>
        simp only [List.getElem?_cons_zero, Option.some.injEq] at hu hv
        subst hu hv
        exact ⟨rfl, hclk⟩
      | succ k => exact k0.2 k u' v (by simpa using hu) (by simpa using hv)
    · cases k with
      | zero =>
        simp only [List.getElem?_cons_zero, Option.some.injEq] at hk
        subst hk
        rw [ht] at hv; cases hv
        refine ⟨t, ?_⟩
        rw [visits_others env us _ _ hne]
        simp only [List.getElem?_set_self hlt]
        rw [hit]
        simp only [List.take_zero]
        rw [hres]; rfl
      | succ k =>
        simp only [List.getElem?_cons_succ] at hk
        have := k2 k v t2 hk hv
        rw [List.take_succ_cons, hfold, ← hst]
        exact this

/-- C153: start any goroutines from any store reached by interleaved goroutines and let them run in any order, each step at
any time.  If those of phone `p` take turns, each returning before the next one begins, while the goroutines of other phones
may make steps at any moment, and if no other terminal has ever registered with a plate with which `p` registers, then
there are moments, each during the turn it is for, such that the device, its locations, its jobs, its parameters and all
results of `p`'s goroutines are those of the sequential server handling each turn of `p` at its moment, and nothing else. -/
theorem C153_moments (env : Env) (before : List CEv) (tasks : List Task) (evs : List CEv) (p : Str)
    (hev : ∀ e ∈ evs, ∃ i clk, e = .run i clk) (hadd : ∀ t ∈ tasks, t.Addressed) (hpl : OwnPlates before tasks p)
    (us : List Visit) (hd : (us.map (·.who)).Nodup) (hp : ∀ u ∈ us, ∃ t, tasks[u.who]? = some t ∧ t.phone = p)
    (hus : evs.filter (CEv.concerns ⟨(CSys.start.run env before).st, tasks.map fun t => (t, t.prog env)⟩ p) = visitSteps us)
    (hdone : ∀ u ∈ us, ∃ r,
      ((CSys.mk (CSys.start.run env before).st (tasks.map fun t => (t, t.prog env))).run env evs).returns u.who r) :
    let st0 := (CSys.start.run env before).st
    let full := (CSys.mk st0 (tasks.map fun t => (t, t.prog env))).run env evs
    ∃ vs, Moments us vs ∧
      let seq := oneByOne env tasks st0 vs
      full.st.look p = seq.look p ∧
      (∀ t ∈ tasks, t.phone = p → ∀ pl, plateOf t = some pl → full.st.lookPlate pl = seq.lookPlate pl) ∧
      full.st.geos.get p = seq.geos.get p ∧ full.st.jobs.count p = seq.jobs.count p ∧ full.st.paramsOf p = seq.paramsOf p ∧
      ∀ (k : Nat) (v : Turn) (t : Task), vs[k]? = some v → tasks[v.who]? = some t →
        full.returns v.who (handled env v.clk (oneByOne env tasks st0 (vs.take k)) t).2 := by
  intro st0 full
  obtain ⟨a1, a0, a2, a3, a5, a4⟩ := C152_no_interference env before tasks evs p hev hadd hpl
  rw [hus] at a0 a1 a2 a3 a4 a5
  have own : ∀ u ∈ us, ∀ r, full.returns u.who r →
      ((CSys.mk st0 (tasks.map fun t => (t, t.prog env))).run env (visitSteps us)).returns u.who r := by
    rintro u hu r ⟨t, ht⟩
    obtain ⟨t', h1, h2⟩ := hp u hu
    have := names_run (env := env) evs (CSys.mk st0 (tasks.map fun t => (t, t.prog env))) hev u.who
    simp only [full] at ht
    rw [ht] at this
    simp only [Option.map_some, List.getElem?_map, h1] at this
    cases this
    exact ⟨t, a4 u.who t _ ht h2⟩
  obtain ⟨vs, k0, k1, k2⟩ := visits_run env tasks us (CSys.mk st0 (tasks.map fun t => (t, t.prog env))) hd
    (fun u hu => by
      obtain ⟨t, h1, -⟩ := hp u hu
      exact ⟨t, h1, by simp only [List.getElem?_map, h1]; rfl⟩)
    (fun u hu => by
      obtain ⟨r, hr⟩ := hdone u hu
      exact ⟨r, own u hu r hr⟩)
  refine ⟨vs, k0, ?_, fun t ht hp pl hpl => ?_, ?_, ?_, ?_, fun k v t hk ht => ?_⟩
  · rw [a1]; exact congrArg (·.look p) k1
  · rw [a0 t ht hp pl hpl]; exact congrArg (·.lookPlate pl) k1
  · rw [a2]; exact congrArg (·.geos.get p) k1
  · rw [a3]; exact congrArg (·.jobs.count p) k1
  · rw [a5]; exact congrArg (·.paramsOf p) k1
  · have hlt : k < us.length := by rw [← k0.1]; exact (List.getElem?_eq_some_iff.1 hk).1
    have hw := (k0.2 k us[k] v (List.getElem?_eq_getElem hlt) hk).1
    have hu : us[k] ∈ us := List.getElem_mem hlt
    obtain ⟨r, hr⟩ := hdone _ hu
    obtain ⟨t1, e1⟩ := own _ hu r hr
    obtain ⟨t2, e2⟩ := k2 k v t hk ht
    rw [hw, e1] at e2
    cases e2
    rw [hw]
    exact hr

/-- Two terminals register at the same time, each with its own plate, and one of them then reports its location with the
engine off; each step takes a while. -/
def slowTasks : List Task :=
  [.msg demoC (hdr2013 0x0100) (.m0100 demoRegMsg), .msg demoC' (hdr2019 0x0100) (.m0100 { demoRegMsg with plate := [0x42] }),
    .msg demoC (hdr2013 0x0200) (.m0200 (demoLocMsg 0 1))]

def slowVisits : List Visit :=
  [⟨0, [demoClk 20, demoClk 21, demoClk 22, demoClk 23, demoClk 24, demoClk 25]⟩,
    ⟨2, [demoClk 30, demoClk 31, demoClk 32, demoClk 33, demoClk 34, demoClk 35]⟩]

def slowEvs : List CEv :=
  [.run 0 (demoClk 20), .run 1 (demoClk 20), .run 1 (demoClk 20), .run 0 (demoClk 21), .run 0 (demoClk 22), .run 1 (demoClk 22),
    .run 0 (demoClk 23), .run 0 (demoClk 24), .run 1 (demoClk 24), .run 0 (demoClk 25), .run 2 (demoClk 30), .run 2 (demoClk 31),
    .run 1 (demoClk 31), .run 2 (demoClk 32), .run 2 (demoClk 33), .run 2 (demoClk 34), .run 2 (demoClk 35), .run 1 (demoClk 40)]

theorem slow_own : OwnPlates [] slowTasks (hdr2013 0).phone := by
  intro t t' ht ht' hp hp' pl hpl
  simp only [List.not_mem_nil, false_or, slowTasks, List.mem_cons, or_false] at ht ht'
  rcases ht with rfl | rfl | rfl
  · exact absurd rfl hp
  · rcases ht' with rfl | rfl | rfl
    · cases hpl; decide
    · exact absurd hp' (by decide)
    · cases hpl
  · exact absurd rfl hp

example : ∃ vs, Moments slowVisits vs ∧
    ((CSys.mk (CSys.start.run goEnv []).st (slowTasks.map fun t => (t, t.prog goEnv))).run goEnv slowEvs).st.look
      (hdr2013 0).phone = (oneByOne goEnv slowTasks Store.empty vs).look (hdr2013 0).phone := by
  obtain ⟨vs, h1, h2, -⟩ := C153_moments goEnv [] slowTasks slowEvs (hdr2013 0).phone (by
      intro e he
      simp only [slowEvs, List.mem_cons, List.not_mem_nil, or_false] at he
      rcases he with rfl | rfl | rfl | rfl | rfl | rfl | rfl | rfl | rfl | rfl | rfl | rfl | rfl | rfl | rfl | rfl | rfl | rfl <;>
        exact ⟨_, _, rfl⟩)
    (by
      intro t ht
      simp only [slowTasks, List.mem_cons, List.not_mem_nil, or_false] at ht
      rcases ht with rfl | rfl | rfl <;> trivial) slow_own slowVisits (by decide +kernel)
    (by
      intro u hu
      simp only [slowVisits, List.mem_cons, List.not_mem_nil, or_false] at hu
      rcases hu with rfl | rfl <;> exact ⟨_, rfl, rfl⟩)
    rfl
    (by
      intro u hu
      simp only [slowVisits, List.mem_cons, List.not_mem_nil, or_false] at hu
      rcases hu with rfl | rfl <;> exact returns_isRet (by decide +kernel))
  exact ⟨vs, h1, h2⟩

/-- What is recorded in that run: the registration was made at its third step, the last message noted at the fourth of the
report. -/
example : (((CSys.mk (CSys.start.run goEnv []).st (slowTasks.map fun t => (t, t.prog goEnv))).run goEnv slowEvs).st.look
    (hdr2013 0).phone).map (fun d => (d.status, d.last)) = some (.sleeping, 33) := by decide +kernel

end JT808
