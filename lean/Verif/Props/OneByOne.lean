import Verif.Props.Concurrency
/-
C109: the sequential description of the server is right for a terminal whose messages are handled one after another.
-/
namespace JT808
open Spec

namespace Spec

/-- What the sequential description says about a goroutine that nothing interrupts: its effect and its result. -/
def handled (env : Env) (clk : Clock) (st : Store) : Task → Store × Res (Option Out)
  | .msg c h m => st.handle env clk c h m
  | .check phone =>
    let r := st.check clk phone
    (r.1, match r.2 with
      | .ok _ => .ok none
      | .err e => .err e
      | .panic => .panic)

/-- A goroutine, the time it sees, and the number of steps it makes before the next one of the same terminal begins. -/
structure Turn where
  who : Nat
  clk : Clock
  n : Nat

/-- The steps of turns taken in order. -/
def turnSteps (us : List Turn) : List CEv := us.flatMap fun u => List.replicate u.n (.run u.who u.clk)

/-- The sequential server handling the turns in order. -/
def oneByOne (env : Env) (tasks : List Task) (st : Store) (us : List Turn) : Store :=
  us.foldl (fun st u => match tasks[u.who]? with
    | some t => (handled env u.clk st t).1
    | none => st) st

end Spec

/-- `n` steps of one goroutine. -/
def Prog.iter (clk : Clock) : Nat → Prog → Store → Store × Prog
  | 0, q, st => (st, q)
  | n + 1, q, st => Prog.iter clk n (q.next clk st).2 (q.next clk st).1

theorem iter_alone {clk : Clock} {n : Nat} {q : Prog} {st st' : Store} {r : Res (Option Out)}
    (h : q.iter clk n st = (st', .ret r)) : q.alone clk st = (st', r) := by
  induction n generalizing q st with
  | zero => simp only [Prog.iter] at h; cases h; rfl
  | succ n ih =>
    cases q with
    | ret r' =>
      have := ih (q := .ret r') (st := st) h
      exact this
    | step f k => exact ih (q := k clk st) (st := f clk st) h

theorem run_steps (env : Env) (clk : Clock) (i : Nat) (t : Task) (n : Nat) (q : Prog) (s : CSys)
    (h : s.threads[i]? = some (t, q)) :
    s.run env (List.replicate n (.run i clk)) =
      ⟨(q.iter clk n s.st).1, s.threads.set i (t, (q.iter clk n s.st).2)⟩ := by
  induction n generalizing q s with
  | zero =>
    obtain ⟨st, th⟩ := s
    simp only [Prog.iter, CSys.run, List.replicate, List.foldl_nil]
    congr 1
    obtain ⟨hi, e⟩ := List.getElem?_eq_some_iff.1 h
    rw [← e, List.set_getElem_self]
  | succ n ih =>
    have e : s.step env (.run i clk) = ⟨(q.next clk s.st).1, s.threads.set i (t, (q.next clk s.st).2)⟩ := by
      simp only [CSys.step, h]
    have hlt : i < s.threads.length := (List.getElem?_eq_some_iff.1 h).1
    show (s.step env (.run i clk)).run env (List.replicate n (.run i clk)) = _
    rw [e, ih (q.next clk s.st).2 ⟨(q.next clk s.st).1, s.threads.set i (t, (q.next clk s.st).2)⟩
      (by simp only [List.getElem?_set_self hlt])]
    simp only [Prog.iter, List.set_set]

theorem alone_handled (env : Env) (clk : Clock) (st : Store) (t : Task) :
    (t.prog env).alone clk st = handled env clk st t := by
  cases t with
  | msg c h m => exact alone_handle env clk c st h m
  | check phone =>
    rw [alone_check]
    simp only [handled]
    congr 1

/-- Steps of goroutines other than `i` leave it alone. -/
theorem turns_others (env : Env) (us : List Turn) (s : CSys) (i : Nat) (h : ∀ u ∈ us, u.who ≠ i) :
    (s.run env (turnSteps us)).threads[i]? = s.threads[i]? := by
  induction us generalizing s with
  | nil => rfl
  | cons u us ih =>
    simp only [turnSteps, List.flatMap_cons]
    rw [crun_append]
    refine (ih _ (fun v hv => h v (List.mem_cons_of_mem _ hv))).trans ?_
    cases hs : s.threads[u.who]? with
    | none =>
      have : ∀ n, s.run env (List.replicate n (.run u.who u.clk)) = s := by
        intro n
        induction n with
        | zero => rfl
        | succ n ih =>
          show (s.step env (.run u.who u.clk)).run env (List.replicate n (.run u.who u.clk)) = _
          rw [show s.step env (.run u.who u.clk) = s by simp only [CSys.step, hs]]
          exact ih
      rw [this]
    | some x =>
      rw [run_steps env u.clk u.who x.1 u.n x.2 s hs]
      exact List.getElem?_set_ne (h u List.mem_cons_self)

theorem turns_run (env : Env) (tasks : List Task) (us : List Turn) (s : CSys) (hd : (us.map (·.who)).Nodup)
    (h0 : ∀ u ∈ us, ∃ t, tasks[u.who]? = some t ∧ s.threads[u.who]? = some (t, t.prog env))
    (h1 : ∀ u ∈ us, ∃ r, (s.run env (turnSteps us)).returns u.who r) :
    (s.run env (turnSteps us)).st = oneByOne env tasks s.st us ∧
    ∀ (k : Nat) (u : Turn) (t : Task), us[k]? = some u → tasks[u.who]? = some t →
      (s.run env (turnSteps us)).returns u.who (handled env u.clk (oneByOne env tasks s.st (us.take k)) t).2 := by
  induction us generalizing s with
  | nil => exact ⟨rfl, fun k u t h => by cases h⟩
  | cons u us ih =>
    obtain ⟨t, ht, hs⟩ := h0 u List.mem_cons_self
    have hlt : u.who < s.threads.length := (List.getElem?_eq_some_iff.1 hs).1
    simp only [List.map_cons, List.nodup_cons] at hd
    have hne : ∀ v ∈ us, v.who ≠ u.who := fun v hv e => hd.1 (List.mem_map.2 ⟨v, hv, e⟩)
    have e : s.run env (turnSteps (u :: us)) =
        (CSys.mk ((t.prog env).iter u.clk u.n s.st).1
          (s.threads.set u.who (t, ((t.prog env).iter u.clk u.n s.st).2))).run env (turnSteps us) := by
      simp only [turnSteps, List.flatMap_cons]
      rw [crun_append, run_steps env u.clk u.who t u.n _ s hs]
    rw [e] at h1 ⊢
    -- the turn is over when it ends
    obtain ⟨r, t', hr⟩ := h1 u List.mem_cons_self
    rw [turns_others env us _ _ hne] at hr
    simp only [List.getElem?_set_self hlt] at hr
    have hit : (t.prog env).iter u.clk u.n s.st = (((t.prog env).iter u.clk u.n s.st).1, .ret r) := by
      exact Prod.ext rfl (congrArg (fun x : Task × Prog => x.2) (Option.some.inj hr))
    have hal := iter_alone hit
    rw [alone_handled] at hal
    have hst : ((t.prog env).iter u.clk u.n s.st).1 = (handled env u.clk s.st t).1 := by rw [hal]
    have hres : r = (handled env u.clk s.st t).2 := by rw [hal]
    obtain ⟨k1, k2⟩ := ih (CSys.mk ((t.prog env).iter u.clk u.n s.st).1
      (s.threads.set u.who (t, ((t.prog env).iter u.clk u.n s.st).2))) hd.2
      (fun v hv => by
        obtain ⟨t2, a, b⟩ := h0 v (List.mem_cons_of_mem _ hv)
        exact ⟨t2, a, by simp only [List.getElem?_set_ne (Ne.symm (hne v hv)), b]⟩)
      (fun v hv => h1 v (List.mem_cons_of_mem _ hv))
    have hfold : ∀ vs, oneByOne env tasks s.st (u :: vs) = oneByOne env tasks (handled env u.clk s.st t).1 vs := by
      intro vs; simp only [oneByOne, List.foldl_cons, ht]
    refine ⟨by rw [k1, hfold, hst], fun k v t2 hk hv => ?_⟩
    cases k with
    | zero =>
      simp only [List.getElem?_cons_zero, Option.some.injEq] at hk
      subst hk
      rw [ht] at hv; cases hv
      refine ⟨t, ?_⟩
      rw [turns_others env us _ _ hne]
      simp only [List.getElem?_set_self hlt]
      rw [hit]
      simp only [List.take_zero]
      rw [hres]; rfl
    | succ k =>
      simp only [List.getElem?_cons_succ] at hk
      have := k2 k v t2 hk hv
      rw [List.take_succ_cons, hfold, ← hst]
      exact this

/-- C109: start any goroutines from any store reached by interleaved goroutines and let them run in any order.  If those
of phone `p` (heartbeats, deregistrations, authentications, location reports, replies, keepalive checks) take turns, each
returning before the next one begins, while the goroutines of other phones may make steps at any moment, then the device,
its locations, its jobs and all results of `p`'s goroutines are those of the sequential server handling `p`'s turns one
after another, and nothing else. -/
theorem C109_one_by_one (env : Env) (before : List CEv) (tasks : List Task) (evs : List CEv) (p : Str)
    (hev : ∀ e ∈ evs, ∃ i clk, e = .run i clk) (hloc : ∀ t ∈ tasks, t.phone = p → t.isLocal = true) (us : List Turn)
    (hd : (us.map (·.who)).Nodup) (hp : ∀ u ∈ us, ∃ t, tasks[u.who]? = some t ∧ t.phone = p)
    (hus : evs.filter (CEv.concerns ⟨(CSys.start.run env before).st, tasks.map fun t => (t, t.prog env)⟩ p) = turnSteps us)
    (hdone : ∀ u ∈ us, ∃ r,
      ((CSys.mk (CSys.start.run env before).st (tasks.map fun t => (t, t.prog env))).run env evs).returns u.who r) :
    let st0 := (CSys.start.run env before).st
    let full := (CSys.mk st0 (tasks.map fun t => (t, t.prog env))).run env evs
    let seq := oneByOne env tasks st0 us
    full.st.look p = seq.look p ∧ full.st.geos.get p = seq.geos.get p ∧ full.st.jobs.count p = seq.jobs.count p ∧
    ∀ (k : Nat) (u : Turn) (t : Task), us[k]? = some u → tasks[u.who]? = some t →
      full.returns u.who (handled env u.clk (oneByOne env tasks st0 (us.take k)) t).2 := by
  intro st0 full seq
  obtain ⟨a1, a2, a3, a4⟩ := C72_no_interference env before tasks evs p hev hloc
  rw [hus] at a1 a2 a3 a4
  -- the names of the goroutines do not change
  have names : ∀ (evs : List CEv) (s : CSys), (∀ e ∈ evs, ∃ i clk, e = .run i clk) → ∀ i : Nat,
      ((s.run env evs).threads[i]?).map (·.1) = (s.threads[i]?).map (·.1) := by
    intro evs
    induction evs with
    | nil => intro s _ i; rfl
    | cons e evs ih =>
      intro s he i
      obtain ⟨j, clk, rfl⟩ := he e List.mem_cons_self
      refine (ih (s.step env (.run j clk)) (fun e h => he e (List.mem_cons_of_mem _ h)) i).trans ?_
      simp only [CSys.step]
      cases hs : s.threads[j]? with
      | none => rfl
      | some x =>
        by_cases hij : j = i
        · subst hij
          have hlt := (List.getElem?_eq_some_iff.1 hs).1
          simp only [List.getElem?_set_self hlt, hs]; rfl
        · simp only [List.getElem?_set_ne hij]
  have own : ∀ u ∈ us, ∀ r, full.returns u.who r →
      ((CSys.mk st0 (tasks.map fun t => (t, t.prog env))).run env (turnSteps us)).returns u.who r := by
    rintro u hu r ⟨t, ht⟩
    obtain ⟨t', h1, h2⟩ := hp u hu
    have := names evs (CSys.mk st0 (tasks.map fun t => (t, t.prog env))) hev u.who
    simp only [full] at ht
    rw [ht] at this
    simp only [Option.map_some, List.getElem?_map, h1] at this
    cases this
    exact ⟨t, a4 u.who t _ ht h2⟩
  obtain ⟨k1, k2⟩ := turns_run env tasks us (CSys.mk st0 (tasks.map fun t => (t, t.prog env))) hd
    (fun u hu => by
      obtain ⟨t, h1, -⟩ := hp u hu
      exact ⟨t, h1, by simp only [List.getElem?_map, h1]; rfl⟩)
    (fun u hu => by
      obtain ⟨r, hr⟩ := hdone u hu
      exact ⟨r, own u hu r hr⟩)
  refine ⟨?_, ?_, ?_, fun k u t hk ht => ?_⟩
  · rw [a1]; exact congrArg (·.look p) k1
  · rw [a2]; exact congrArg (·.geos.get p) k1
  · rw [a3]; exact congrArg (·.jobs.count p) k1
  · have hu : u ∈ us := List.mem_of_getElem? hk
    obtain ⟨r, hr⟩ := hdone u hu
    obtain ⟨t1, e1⟩ := own u hu r hr
    obtain ⟨t2, e2⟩ := k2 k u t hk ht
    rw [e1] at e2
    cases e2
    exact hr

theorem returns_isRet {s : CSys} {i : Nat} (h : ((s.threads[i]?).map (·.2.isRet)) = some true) : ∃ r, s.returns i r := by
  cases hs : s.threads[i]? with
  | none => rw [hs] at h; cases h
  | some x =>
    obtain ⟨t, q⟩ := x
    rw [hs] at h
    cases q with
    | ret r => exact ⟨r, t, hs⟩
    | step f k => simp [Prog.isRet] at h

/-- A registered terminal authenticates and then sends a heartbeat while another one registers. -/
def turnTasks : List Task :=
  [.msg demoC (hdr2013 0x0102) (.m0102 ⟨0, demoCode, [], []⟩),
    .msg demoC' (hdr2019 0x0100) (.m0100 { demoRegMsg with plate := [0x42] }), .msg demoC (hdr2013 0x0002) .m0002]

def turnEvs : List CEv :=
  steps 0 3 (demoClk 20) ++ steps 1 2 (demoClk 20) ++ steps 0 5 (demoClk 20) ++ steps 2 2 (demoClk 30) ++
    steps 1 5 (demoClk 31) ++ steps 2 2 (demoClk 30)

def turnOrder : List Turn := [⟨0, demoClk 20, 8⟩, ⟨2, demoClk 30, 4⟩]

example :
    (((CSys.mk (CSys.start.run goEnv demoRace).st (turnTasks.map fun t => (t, t.prog goEnv))).run goEnv turnEvs).st.look
      (hdr2013 0).phone).map (fun d => (d.status, d.last)) = some (.online, 30) := by
  have h := (C109_one_by_one goEnv demoRace turnTasks turnEvs (hdr2013 0).phone (by
      intro e he
      simp only [turnEvs, steps, List.mem_append, List.mem_replicate] at he
      rcases he with ((((⟨_, rfl⟩ | ⟨_, rfl⟩) | ⟨_, rfl⟩) | ⟨_, rfl⟩) | ⟨_, rfl⟩) | ⟨_, rfl⟩ <;> exact ⟨_, _, rfl⟩)
    (by decide +kernel) turnOrder (by decide +kernel)
    (by
      intro u hu
      simp only [turnOrder, List.mem_cons, List.not_mem_nil, or_false] at hu
      rcases hu with rfl | rfl <;> exact ⟨_, rfl, rfl⟩)
    rfl
    (by
      intro u hu
      simp only [turnOrder, List.mem_cons, List.not_mem_nil, or_false] at hu
      rcases hu with rfl | rfl <;> exact returns_isRet (by decide +kernel))).1
  exact (congrArg (Option.map fun d : Device => (d.status, d.last)) h).trans (by decide +kernel)

end JT808
