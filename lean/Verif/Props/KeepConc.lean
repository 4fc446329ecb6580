import Verif.Proof.KeepConc
import Verif.Proof.Demo
import Verif.Props.Concurrency
/-
C150: a heartbeat keeps a terminal alive also while keepalive checks run.
-/
namespace JT808
open Spec

namespace Spec

/-- Nothing is being done for the phone: each of its goroutines has returned or not begun. -/
def Idle (env : Env) (s : CSys) (p : Str) : Prop :=
  ∀ (i : Nat) (t : Task) (q : Prog), s.threads[i]? = some (t, q) → t.phone = p → q = t.prog env ∨ ∃ r, q = .ret r

/-- The clock of every step of the schedule shows a time at most a minute after `T`, and none before. -/
def WithinMinute (T : Nat) (evs : List CEv) : Prop :=
  ∀ (i : Nat) (clk : Clock), CEv.run i clk ∈ evs → T ≤ clk.ms ∧ clk.ms ≤ T + 60000

/-- The schedule starts nothing but checks and heartbeats for the phone. -/
def OnlyBeats (p : Str) (evs : List CEv) : Prop :=
  ∀ (t : Task), CEv.spawn t ∈ evs → t.phone = p → t = .check p ∨ ∃ c h, t = .msg c h .m0002

end Spec

theorem idle_awake {env : Env} {s : CSys} {T : Nat} {p : Str} (hi : Spec.Idle env s p)
    (hr : ∀ d, s.st.look p = some d → T ≤ d.last) : s.Awake T p := by
  refine ⟨fun r hx => hr _ (by simp only [Store.look, Store.devByPhone, hx, Option.map_some]), fun i t q hq hp => ?_⟩
  rcases hi i t q hq hp with e | ⟨r, e⟩
  · rw [e, ← hp]; exact task_fresh env t _
  · rw [e]; trivial

theorem within_of {T : Nat} {evs : List CEv} (h : Spec.WithinMinute T evs) : ∀ e ∈ evs, e.within T := by
  intro e he
  cases e with
  | spawn t => trivial
  | run i clk => exact h i clk he

/-- C150 as one would wish it is false.  A check that has found the terminal silent for more than a minute is overtaken by
a heartbeat: the heartbeat is acknowledged, and afterwards, at the same moment, the check takes the terminal offline. -/
theorem C150_overtaken (env : Env) (st : Store) (c : Conn) (h : Header) (r : Ref) (clk : Clock)
    (hjob : h.phone ∈ st.jobs) (hdev : st.devByPhone h.phone = some r) (hph : (st.heap r).phone = h.phone)
    (hon : (st.heap r).status ≠ .offline) (hold : clk.ms > (st.heap r).keepalive + (st.heap r).last) :
    ∃ evs,
      (CSys.run env ⟨st, []⟩ evs).returns 1 (.ok (some (gen8001 h 0))) ∧
      ((CSys.run env ⟨st, []⟩ evs).st.look h.phone).map (fun d => (d.status, d.last)) = some ((st.heap r).status, clk.ms) ∧
      ((CSys.run env ⟨st, []⟩ (evs ++ [.run 0 clk])).st.look h.phone).map (fun d => (d.status, d.last)) =
        some (.offline, clk.ms) := by
  refine ⟨[.spawn (.check h.phone), .run 0 clk, .run 0 clk, .run 0 clk, .spawn (.msg c h .m0002), .run 1 clk, .run 1 clk,
    .run 1 clk], ?_⟩
  simp only [Store.devByPhone] at hdev
  simp [CSys.returns, CSys.run, CSys.step, Task.allowed, Task.prog, prog0002, progCheck, progFound, progExpired, Prog.next,
    Prog.upd, Prog.get, Prog.read, Prog.put, Store.devByPhone, Store.look, hjob, hdev, hph, hon, hold, Store.setDev,
    Store.cacheDevice, AMap.get_set]

/-- The same with a terminal already offline: its heartbeat is acknowledged, and then its connection is closed and it is
forgotten. -/
theorem C150_forgotten (env : Env) (st : Store) (c c0 : Conn) (h : Header) (r : Ref) (clk : Clock)
    (hjob : h.phone ∈ st.jobs) (hdev : st.devByPhone h.phone = some r) (hph : (st.heap r).phone = h.phone)
    (hoff : (st.heap r).status = .offline) (hconn : (st.heap r).conn = some c0)
    (hold : clk.ms > (st.heap r).keepalive + (st.heap r).last) :
    ∃ evs,
      (CSys.run env ⟨st, []⟩ evs).returns 1 (.ok (some (gen8001 h 0))) ∧
      ((CSys.run env ⟨st, []⟩ evs).st.look h.phone).map (·.last) = some clk.ms ∧
      (CSys.run env ⟨st, []⟩ (evs ++ [.run 0 clk, .run 0 clk, .run 0 clk])).st.look h.phone = none ∧
      (CSys.run env ⟨st, []⟩ (evs ++ [.run 0 clk, .run 0 clk, .run 0 clk])).st.closed c0.id = true := by
  refine ⟨[.spawn (.check h.phone), .run 0 clk, .run 0 clk, .run 0 clk, .run 0 clk, .spawn (.msg c h .m0002), .run 1 clk, .run 1 clk,
    .run 1 clk], ?_⟩
  simp only [Store.devByPhone] at hdev
  simp [CSys.returns, CSys.run, CSys.step, Task.allowed, Task.prog, prog0002, progCheck, progFound, progClear, progExpired, Prog.next,
    Prog.upd, Prog.get, Prog.read, Prog.put, Store.devByPhone, Store.look, hjob, hdev, hph, hoff, hconn, hold, Store.setDev,
    Store.cacheDevice, AMap.get_set, Store.closeConn, Store.delByPhone, AMap.get_del_self]

/-- C150, what does hold of checks: from a moment at which nothing is being done for the phone and its terminal, if
registered, was heard of at `T` or later, no step that a check of that phone makes within the minute after `T` changes any
device, index or connection, whatever the goroutines of this and all other terminals do in between.
Missing: checks under way at that moment, see `C150_overtaken`. -/
theorem C150_checks_still_partial (env : Env) (before after : List CEv) (p : Str) (T : Nat) (i : Nat) (q : Prog) (clk : Clock)
    (idle : Spec.Idle env (CSys.start.run env before) p)
    (heard : ∀ d, (CSys.start.run env before).st.look p = some d → T ≤ d.last)
    (minute : Spec.WithinMinute T after) (h1 : T ≤ clk.ms) (h2 : clk.ms ≤ T + 60000)
    (hi : (CSys.start.run env (before ++ after)).threads[i]? = some (.check p, q)) :
    ∀ st st', st = (CSys.start.run env (before ++ after)).st →
      st' = (CSys.start.run env (before ++ after ++ [.run i clk])).st →
      st'.heap = st.heap ∧ st'.next = st.next ∧ st'.byPhone = st.byPhone ∧ st'.byPlate = st.byPlate ∧ st'.closed = st.closed := by
  intro st st' e e'
  subst e e'
  rw [crun_append _ _ (before ++ after), crun_append _ _ before]
  rw [crun_append] at hi
  have hok := (ok_run (ok_start env) before).1
  have hb := born_run (ok_start env) born_start before
  have ha := awake_run hok hb (idle_awake idle heard) after (within_of minute)
  exact awake_check (ok_run hok after).1 (born_run hok hb after) ha hi h1 h2

/-- C150, what does hold of the terminal: from such a moment on, and for a minute after it was heard of, a terminal for
which only heartbeats and checks run stays registered, in the state it was in and on the connection it was on, whatever all
other terminals do. -/
theorem C150_stays_partial (env : Env) (before after : List CEv) (p : Str) (T : Nat) (d : Device)
    (idle : Spec.Idle env (CSys.start.run env before) p)
    (reg : (CSys.start.run env before).st.look p = some d) (heard : T ≤ d.last)
    (waiting : ∀ (i : Nat) (t : Task) (q : Prog), (CSys.start.run env before).threads[i]? = some (t, q) → t.phone = p →
      t = .check p ∨ (∃ c h, t = .msg c h .m0002) ∨ ∃ r, q = .ret r)
    (minute : Spec.WithinMinute T after) (beats : Spec.OnlyBeats p after) :
    ∃ d', (CSys.start.run env (before ++ after)).st.look p = some d' ∧ T ≤ d'.last ∧ d'.status = d.status ∧
      d'.conn = d.conn ∧ d'.phone = d.phone ∧ d'.plate = d.plate ∧ d'.id = d.id ∧ d'.code = d.code := by
  rw [crun_append]
  have hok := (ok_run (ok_start env) before).1
  have hb := born_run (ok_start env) born_start before
  obtain ⟨r, hr, hd⟩ : ∃ r, (CSys.start.run env before).st.byPhone.get p = some r ∧ (CSys.start.run env before).st.heap r = d := by
    cases hx : (CSys.start.run env before).st.byPhone.get p with
    | none => simp only [Store.look, Store.devByPhone, hx, Option.map_none] at reg; cases reg
    | some r =>
      simp only [Store.look, Store.devByPhone, hx, Option.map_some, Option.some.injEq] at reg
      exact ⟨r, rfl, reg⟩
  have hA : (CSys.start.run env before).Awake T p := idle_awake idle fun d' hd' => by
    rw [reg] at hd'; cases hd'; exact heard
  have hS : (CSys.start.run env before).Settled p r := by
    intro i t q hq hp
    rcases waiting i t q hq hp with e | ⟨c, h, e⟩ | ⟨x, e⟩
    · exact .inl e
    · subst e
      rcases idle i _ q hq hp with e | ⟨x, e⟩
      · rw [e, ← hp]; exact .inr (beat_steady env c h r)
      · rw [e]; exact .inr trivial
    · rw [e]; exact .inr trivial
  have hg : ∀ e ∈ after, e.gentle p := by
    intro e he
    cases e with
    | spawn t => exact beats t he
    | run i clk => trivial
  obtain ⟨e1, e2⟩ := settled_run hok hb hA hS hr after (within_of minute) hg
  have hlt := (hok.inv.phoneOK _ _ hr).1
  have id := (ok_run hok after).2.ident r hlt
  have hl := (awake_run hok hb hA after (within_of minute)).recent r e1
  refine ⟨((CSys.start.run env before).run env after).st.heap r, ?_, hl, ?_⟩
  · simp only [Store.look, Store.devByPhone, e1, Option.map_some]
  · rw [← hd]
    exact ⟨e2, id.conn, id.phone, id.plate, id.id, SameIdent.code id⟩

/-! ### A schedule -/

theorem idle_of_over {env : Env} {s : CSys} {p : Str} (h : s.threads.all (fun x => x.2.isRet) = true) : Spec.Idle env s p := by
  intro i t q hq _
  have := List.all_eq_true.1 h (t, q) (List.mem_of_getElem? hq)
  cases q with
  | ret r => exact .inr ⟨r, rfl⟩
  | step f k => cases this

/-- A terminal registers, authenticates and sends a heartbeat; at 50 s all three have been answered. -/
def demoAwake : List CEv :=
  [.spawn (.msg demoC (hdr2013 0x0100) (.m0100 demoRegMsg))] ++ steps 0 7 (demoClk 1000) ++
    [.spawn (.msg demoC (hdr2013 0x0102) (.m0102 ⟨0, demoCode, [], []⟩))] ++ steps 1 8 (demoClk 2000) ++
    [.spawn (.msg demoC (hdr2013 0x0002) .m0002)] ++ steps 2 3 (demoClk 50000)

/-- Afterwards a check and a heartbeat run into each other. -/
def demoMeanwhile : List CEv :=
  [.spawn (.check (hdr2013 0).phone), .run 3 (demoClk 61000), .spawn (.msg demoC (hdr2013 0x0002) .m0002),
    .run 4 (demoClk 61001), .run 3 (demoClk 61002), .run 4 (demoClk 61003)]

example : Spec.Idle goEnv (CSys.start.run goEnv demoAwake) (hdr2013 0).phone := idle_of_over (by decide +kernel)

example : ((CSys.start.run goEnv demoAwake).st.look (hdr2013 0).phone).map (fun d => (d.last, d.status)) = some (50000, .online) ∧
    Spec.WithinMinute 50000 demoMeanwhile ∧ Spec.OnlyBeats (hdr2013 0).phone demoMeanwhile ∧
    ((CSys.start.run goEnv (demoAwake ++ demoMeanwhile)).threads[3]?).map (fun x => (x.1, x.2.isRet)) =
      some (.check (hdr2013 0).phone, false) ∧
    ((CSys.start.run goEnv (demoAwake ++ demoMeanwhile)).st.look (hdr2013 0).phone).map (·.last) = some 61003 := by
  refine ⟨by decide +kernel, ?_, ?_, by decide +kernel, by decide +kernel⟩
  · intro i clk h
    simp only [demoMeanwhile, List.mem_cons, reduceCtorEq, CEv.run.injEq, List.not_mem_nil, false_or, or_false] at h
    rcases h with ⟨-, e⟩ | ⟨-, e⟩ | ⟨-, e⟩ | ⟨-, e⟩ <;> subst e <;> exact ⟨by decide, by decide⟩
  · intro t h _
    simp only [demoMeanwhile, List.mem_cons, reduceCtorEq, CEv.spawn.injEq, List.not_mem_nil, false_or, or_false] at h
    rcases h with e | e
    · exact .inl e
    · exact .inr ⟨_, _, e⟩

/-- The moments at which the two counterexamples begin are reached: registered, online and silent for more than a minute, or
offline. -/
example : (hdr2013 0x0002).phone ∈ (CSys.start.run goEnv demoAwake).st.jobs ∧
    (CSys.start.run goEnv demoAwake).st.devByPhone (hdr2013 0x0002).phone = some 0 ∧
    ((CSys.start.run goEnv demoAwake).st.heap 0).phone = (hdr2013 0x0002).phone ∧
    ((CSys.start.run goEnv demoAwake).st.heap 0).status ≠ .offline ∧
    (200000 : Nat) > ((CSys.start.run goEnv demoAwake).st.heap 0).keepalive + ((CSys.start.run goEnv demoAwake).st.heap 0).last := by
  decide +kernel

example : (hdr2013 0x0002).phone ∈ demoSys.st.jobs ∧ demoSys.st.devByPhone (hdr2013 0x0002).phone = some 0 ∧
    (demoSys.st.heap 0).phone = (hdr2013 0x0002).phone ∧ (demoSys.st.heap 0).status = .offline ∧
    (demoSys.st.heap 0).conn = some demoC ∧ (200000 : Nat) > (demoSys.st.heap 0).keepalive + (demoSys.st.heap 0).last := by
  decide +kernel

end JT808
