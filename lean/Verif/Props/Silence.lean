import Verif.Proof.Silence
import Verif.Props.OneByOne
import Verif.Props.KeepConc
/-
C151: a terminal that falls silent is let go, whatever the other terminals do meanwhile.
-/
namespace JT808
open Spec

/-- The goroutines of one phone, run among others, close every connection that they close by themselves. -/
theorem closed_own (env : Env) (before : List CEv) (tasks : List Task) (evs : List CEv) (p : Str)
    (hev : ∀ e ∈ evs, ∃ i clk, e = .run i clk) (hloc : ∀ t ∈ tasks, t.phone = p → t.isLocal = true) (n : Nat) :
    let s0 : CSys := ⟨(CSys.start.run env before).st, tasks.map fun t => (t, t.prog env)⟩
    (s0.run env (evs.filter (CEv.concerns s0 p))).st.closed n = true → (s0.run env evs).st.closed n = true := by
  intro s0
  have hinv : CInv s0.st := (ok_run (ok_start env) before).1.inv
  have hok : s0.OK env := by
    refine ⟨hinv, fun i t q hi => ?_⟩
    simp only [s0, List.getElem?_map, Option.map_eq_some_iff] at hi
    obtain ⟨t', -, h2⟩ := hi
    cases h2
    exact task_safe env _ _
  have hsh : s0.Shut := by
    intro i t q hi
    simp only [s0, List.getElem?_map, Option.map_eq_some_iff] at hi
    obtain ⟨t', -, h2⟩ := hi
    cases h2
    exact task_shuts env _
  have htwin : Twin p (fun r => r < s0.st.next ∧ (s0.st.heap r).phone = p) s0 s0 := by
    refine ⟨⟨rfl, fun r hr => hinv.phoneOK p r hr, fun _ _ => rfl, fun r hr => hr.2, fun r hr => ⟨hr.1, hr.1⟩, rfl, rfl⟩,
      fun _ => rfl, fun i t q hi hp => ⟨hi, ?_⟩⟩
    simp only [s0, List.getElem?_map, Option.map_eq_some_iff] at hi
    obtain ⟨t', h1, h2⟩ := hi
    cases h2
    subst hp
    exact local_task env _ (hloc _ (List.mem_of_getElem? h1) rfl)
  exact closed_run hok (fun _ => rfl) htwin hsh (fun _ h => h) evs hev n

/-- The second check of a terminal that was silent removes it. -/
theorem check_clears {st : Store} {p : Str} {r : Ref} {c : Conn} {clk : Clock} (hr : st.devByPhone p = some r)
    (hp : (st.heap r).phone = p) (hs : (st.heap r).status = .offline) (hc : (st.heap r).conn = some c)
    (hl : clk.ms > (st.heap r).keepalive + (st.heap r).last) :
    (st.check clk p).2 = .ok () ∧ (st.check clk p).1.look p = none ∧ (st.check clk p).1.jobs.count p = 0 ∧
      (st.check clk p).1.geos.get p = none ∧ (st.check clk p).1.closed c.id = true := by
  have e1 : (st.heap r).shouldTurnOffline clk.ms = false := by simp [Device.shouldTurnOffline, hs]
  have e2 : (st.heap r).shouldClear clk.ms = true := by simp [Device.shouldClear, hs, hl]
  simp only [Store.check, hr, e1, e2, hc, if_true]
  simp only [Store.devByPhone] at hr
  refine ⟨rfl, ?_, count_cancel_self _ _, ?_, ?_⟩
  · simp [Store.look, Store.devByPhone, Store.delByPhone, Store.closeConn, Store.delGeo, Store.cancelJob, hr, hp, AMap.get_del_self]
  · simp [Store.delGeo, Store.cancelJob, AMap.get_del_self]
  · show (((st.closeConn c).delByPhone p)).closed c.id = true
    rw [delByPhone_closed]; simp [Store.closeConn]

/-- What the sequential server closes when it handles the turns of a terminal is closed also when others run in between. -/
theorem turns_closed (env : Env) (before : List CEv) (tasks : List Task) (evs : List CEv) (p : Str)
    (hev : ∀ e ∈ evs, ∃ i clk, e = .run i clk) (hloc : ∀ t ∈ tasks, t.phone = p → t.isLocal = true) (us : List Turn)
    (hd : (us.map (·.who)).Nodup) (hp : ∀ u ∈ us, ∃ t, tasks[u.who]? = some t ∧ t.phone = p)
    (hus : evs.filter (CEv.concerns ⟨(CSys.start.run env before).st, tasks.map fun t => (t, t.prog env)⟩ p) = turnSteps us)
    (hdone : ∀ u ∈ us, ∃ r,
      ((CSys.mk (CSys.start.run env before).st (tasks.map fun t => (t, t.prog env))).run env evs).returns u.who r)
    (n : Nat) (hn : (oneByOne env tasks (CSys.start.run env before).st us).closed n = true) :
    ((CSys.mk (CSys.start.run env before).st (tasks.map fun t => (t, t.prog env))).run env evs).st.closed n = true := by
  refine closed_own env before tasks evs p hev hloc n ?_
  obtain ⟨-, -, -, b⟩ := C72_no_interference env before tasks evs p hev hloc
  rw [hus] at b
  rw [hus, (turns_run env tasks us (CSys.mk (CSys.start.run env before).st (tasks.map fun t => (t, t.prog env))) hd
    (fun u hu => by
      obtain ⟨t, h1, -⟩ := hp u hu
      exact ⟨t, h1, by simp only [List.getElem?_map, h1]; rfl⟩)
    (fun u hu => by
      obtain ⟨r, t, ht⟩ := hdone u hu
      refine ⟨r, t, b u.who t _ ht ?_⟩
      obtain ⟨t', h1, h2⟩ := hp u hu
      have := names_run (env := env) evs (CSys.mk (CSys.start.run env before).st (tasks.map fun t => (t, t.prog env))) hev u.who
      rw [ht] at this
      simp only [Option.map_some, List.getElem?_map, h1] at this
      cases this; exact h2)).1]
  exact hn

/-- C151 for a terminal that is offline already: the next check, at a time at which it has been silent for longer than its
keepalive interval, closes its connection and forgets it, its locations and its job, whatever steps the goroutines of other
terminals make before, during and after it. -/
theorem C151_offline (env : Env) (before : List CEv) (tasks : List Task) (evs : List CEv) (p : Str) (u : Turn) (d : Device)
    (c : Conn) (hev : ∀ e ∈ evs, ∃ i clk, e = .run i clk) (hu : tasks[u.who]? = some (.check p))
    (only : ∀ t ∈ tasks, t.phone = p → t = .check p)
    (hus : evs.filter (CEv.concerns ⟨(CSys.start.run env before).st, tasks.map fun t => (t, t.prog env)⟩ p) = turnSteps [u])
    (hdone : ∃ r, ((CSys.mk (CSys.start.run env before).st (tasks.map fun t => (t, t.prog env))).run env evs).returns u.who r)
    (reg : (CSys.start.run env before).st.look p = some d) (hc : d.conn = some c) (hs : d.status = .offline)
    (silent : u.clk.ms > d.keepalive + d.last) :
    let full := (CSys.mk (CSys.start.run env before).st (tasks.map fun t => (t, t.prog env))).run env evs
    full.st.look p = none ∧ full.st.geos.get p = none ∧ full.st.jobs.count p = 0 ∧ full.st.closed c.id = true ∧
      full.returns u.who (.ok none) := by
  intro full
  have hloc : ∀ t ∈ tasks, t.phone = p → t.isLocal = true := fun t ht hp => by rw [only t ht hp]; rfl
  have hturn : ∀ v ∈ [u], ∃ t, tasks[v.who]? = some t ∧ t.phone = p := by
    intro v hv; cases List.mem_singleton.1 hv; exact ⟨_, hu, rfl⟩
  have hret := fun v (hv : v ∈ [u]) => show ∃ r,
      ((CSys.mk (CSys.start.run env before).st (tasks.map fun t => (t, t.prog env))).run env evs).returns v.who r by
    cases List.mem_singleton.1 hv; exact hdone
  obtain ⟨a1, a2, a3, a4⟩ := C109_one_by_one env before tasks evs p hev hloc [u] (by simp) hturn hus hret
  have a5 := turns_closed env before tasks evs p hev hloc [u] (by simp) hturn hus hret c.id
  have hinv := (ok_run (ok_start env) before).1.inv
  obtain ⟨r, hr, hd⟩ : ∃ r, (CSys.start.run env before).st.devByPhone p = some r ∧ (CSys.start.run env before).st.heap r = d := by
    simpa [Store.look, Option.map_eq_some_iff] using reg
  subst hd
  obtain ⟨b1, b2, b3, b4, b5⟩ := check_clears hr (hinv.phoneOK _ _ hr).2 hs hc silent
  have hseq : oneByOne env tasks (CSys.start.run env before).st [u] = ((CSys.start.run env before).st.check u.clk p).1 := by
    simp only [oneByOne, List.foldl_cons, List.foldl_nil, hu, handled]
  have ret := a4 0 u (.check p) rfl hu
  simp only [List.take_zero, oneByOne, List.foldl_nil, handled, b1] at ret
  exact ⟨a1.trans (by rw [hseq]; exact b2), a2.trans (by rw [hseq]; exact b4), a3.trans (by rw [hseq]; exact b3),
    a5 (by rw [hseq]; exact b5), ret⟩

/-- C151 for a terminal that is online or asleep: after two checks, one after the other, it is let go in the same way. -/
theorem C151_online (env : Env) (before : List CEv) (tasks : List Task) (evs : List CEv) (p : Str) (u v : Turn) (d : Device)
    (c : Conn) (hev : ∀ e ∈ evs, ∃ i clk, e = .run i clk) (hu : tasks[u.who]? = some (.check p))
    (hv : tasks[v.who]? = some (.check p)) (huv : u.who ≠ v.who) (only : ∀ t ∈ tasks, t.phone = p → t = .check p)
    (hus : evs.filter (CEv.concerns ⟨(CSys.start.run env before).st, tasks.map fun t => (t, t.prog env)⟩ p) = turnSteps [u, v])
    (hdone : ∀ w ∈ [u, v], ∃ r,
      ((CSys.mk (CSys.start.run env before).st (tasks.map fun t => (t, t.prog env))).run env evs).returns w.who r)
    (reg : (CSys.start.run env before).st.look p = some d) (hc : d.conn = some c) (hs : d.status ≠ .offline)
    (silent : u.clk.ms > d.keepalive + d.last) (silent' : v.clk.ms > d.keepalive + d.last) :
    let full := (CSys.mk (CSys.start.run env before).st (tasks.map fun t => (t, t.prog env))).run env evs
    full.st.look p = none ∧ full.st.geos.get p = none ∧ full.st.jobs.count p = 0 ∧ full.st.closed c.id = true ∧
      full.returns u.who (.ok none) ∧ full.returns v.who (.ok none) := by
  intro full
  have hloc : ∀ t ∈ tasks, t.phone = p → t.isLocal = true := fun t ht hp => by rw [only t ht hp]; rfl
  have hnd : ([u, v].map (·.who)).Nodup := by simpa using huv
  have hturn : ∀ w ∈ [u, v], ∃ t, tasks[w.who]? = some t ∧ t.phone = p := by
    intro w hw
    rcases List.mem_cons.1 hw with e | hw
    · rw [e]; exact ⟨_, hu, rfl⟩
    · cases List.mem_singleton.1 hw; exact ⟨_, hv, rfl⟩
  obtain ⟨a1, a2, a3, a4⟩ := C109_one_by_one env before tasks evs p hev hloc [u, v] hnd hturn hus hdone
  have a5 := turns_closed env before tasks evs p hev hloc [u, v] hnd hturn hus hdone c.id
  have hinv := (ok_run (ok_start env) before).1.inv
  obtain ⟨r, hr, hd⟩ : ∃ r, (CSys.start.run env before).st.devByPhone p = some r ∧ (CSys.start.run env before).st.heap r = d := by
    simpa [Store.look, Option.map_eq_some_iff] using reg
  subst hd
  have hph := (hinv.phoneOK _ _ hr).2
  have e1 : ((CSys.start.run env before).st.heap r).shouldTurnOffline u.clk.ms = true := by
    simp only [Device.shouldTurnOffline, Bool.and_eq_true, decide_eq_true_eq, bne_iff_ne, ne_eq]
    exact ⟨hs, silent⟩
  have f1 : (CSys.start.run env before).st.check u.clk p =
      ((((CSys.start.run env before).st.setDev r ((CSys.start.run env before).st.heap r).lost).cacheDevice r), .ok ()) := by
    simp only [Store.check, hr, e1, if_true]
  have g : (((CSys.start.run env before).st.setDev r ((CSys.start.run env before).st.heap r).lost).cacheDevice r).heap r =
      ((CSys.start.run env before).st.heap r).lost := by simp [Store.cacheDevice, Store.setDev]
  obtain ⟨b1, b2, b3, b4, b5⟩ := check_clears (st := ((CSys.start.run env before).st.check u.clk p).1) (p := p) (r := r) (c := c)
    (clk := v.clk)
    (by rw [f1]; simp [Store.devByPhone, Store.cacheDevice, Store.setDev, Device.lost, hph, AMap.get_set])
    (by rw [f1]; simp only; rw [g]; exact hph) (by rw [f1]; simp only; rw [g]; rfl)
    (by rw [f1]; simp only; rw [g]; exact hc) (by rw [f1]; simp only; rw [g]; exact silent')
  have hseq : oneByOne env tasks (CSys.start.run env before).st [u, v] =
      (((CSys.start.run env before).st.check u.clk p).1.check v.clk p).1 := by
    simp only [oneByOne, List.foldl_cons, List.foldl_nil, hu, hv, handled]
  have ret := a4 0 u (.check p) rfl hu
  simp only [List.take_zero, oneByOne, List.foldl_nil, handled] at ret
  rw [f1] at ret
  have ret' := a4 1 v (.check p) rfl hv
  simp only [List.take_succ_cons, List.take_zero, oneByOne, List.foldl_cons, List.foldl_nil, hu, handled, b1] at ret'
  exact ⟨a1.trans (by rw [hseq]; exact b2), a2.trans (by rw [hseq]; exact b4), a3.trans (by rw [hseq]; exact b3),
    a5 (by rw [hseq]; exact b5), ret, ret'⟩

/-- It is needed that the checks do not overlap: a check that has found a terminal silent, and then waits while two others
take it offline and remove it, brings it back, without a job, so that no check will ever remove it. -/
theorem C151_overlapping (env : Env) (st : Store) (p : Str) (r : Ref) (c : Conn) (clk : Clock)
    (hjob : p ∈ st.jobs) (hdev : st.devByPhone p = some r) (hph : (st.heap r).phone = p)
    (hon : (st.heap r).status ≠ .offline) (hc : (st.heap r).conn = some c)
    (silent : clk.ms > (st.heap r).keepalive + (st.heap r).last) :
    ∃ evs, (∀ e ∈ evs, e = .spawn (.check p) ∨ ∃ i, e = .run i clk) ∧
      (∀ i, i < 3 → (CSys.run env ⟨st, []⟩ evs).returns i (.ok none)) ∧
      (CSys.run env ⟨st, []⟩ evs).st.look p = some (st.heap r).lost ∧ (CSys.run env ⟨st, []⟩ evs).st.jobs.count p = 0 ∧
      (CSys.run env ⟨st, []⟩ evs).st.closed c.id = true := by
  refine ⟨[.spawn (.check p), .run 0 clk, .run 0 clk, .run 0 clk] ++
    [.spawn (.check p), .run 1 clk, .run 1 clk, .run 1 clk, .run 1 clk, .run 1 clk] ++
    [.spawn (.check p), .run 2 clk, .run 2 clk, .run 2 clk, .run 2 clk, .run 2 clk, .run 2 clk, .run 2 clk, .run 2 clk, .run 2 clk] ++
    [.run 0 clk, .run 0 clk], by simp, ?_⟩
  simp only [Store.devByPhone] at hdev
  have hi : ∀ (P : Nat → Prop), P 0 → P 1 → P 2 → ∀ i, i < 3 → P i := by
    intro P h0 h1 h2 i h
    match i, h with
    | 0, _ => exact h0
    | 1, _ => exact h1
    | 2, _ => exact h2
  refine ⟨hi _ ?_ ?_ ?_, ?_, ?_, ?_⟩ <;>
  simp [CSys.returns, CSys.run, CSys.step, Task.allowed, Task.prog, progCheck, progFound, progClear, progExpired, Prog.next,
    Prog.upd, Prog.get, Prog.read, Prog.put, Store.devByPhone, Store.look, hjob, hdev, hph, hon, hc, silent, Store.setDev,
    Store.cacheDevice, AMap.get_set, Store.closeConn, Store.delByPhone, Store.delGeo, Store.cancelJob, List.count_eq_zero,
    Device.lost]

/-- Two checks of the terminal of `demoAwake`, last heard of at 50 s, and the registration of another one. -/
def demoSilent : List Task :=
  [.check (hdr2013 0).phone, .check (hdr2013 0).phone, .msg demoC' (hdr2019 0x0100) (.m0100 { demoRegMsg with plate := [0x42] })]

def demoTurn : Turn := ⟨0, demoClk 110001, 5⟩
def demoTurn' : Turn := ⟨1, demoClk 120001, 9⟩

/-- The registration goes on during both checks. -/
def demoSilence : List CEv :=
  steps 0 2 (demoClk 110001) ++ steps 2 3 (demoClk 110002) ++ steps 0 3 (demoClk 110001) ++ steps 1 4 (demoClk 120001) ++
    steps 2 2 (demoClk 120002) ++ steps 1 5 (demoClk 120001) ++ steps 2 1 (demoClk 130000)

example : (demoSilence.filter (CEv.concerns ⟨(CSys.start.run goEnv demoAwake).st, demoSilent.map fun t => (t, t.prog goEnv)⟩
      (hdr2013 0).phone)).length = (turnSteps [demoTurn, demoTurn']).length ∧
    (∀ t ∈ demoSilent, t.phone = (hdr2013 0).phone → t = .check (hdr2013 0).phone) ∧
    (((CSys.mk (CSys.start.run goEnv demoAwake).st (demoSilent.map fun t => (t, t.prog goEnv))).run goEnv demoSilence).threads.map
      fun x => x.2.isRet) = [true, true, true] ∧
    ((CSys.start.run goEnv demoAwake).st.look (hdr2013 0).phone).map (fun d => (d.conn, d.status, d.keepalive + d.last)) =
      some (some demoC, .online, 110000) ∧
    (((CSys.mk (CSys.start.run goEnv demoAwake).st (demoSilent.map fun t => (t, t.prog goEnv))).run goEnv demoSilence).st.look
      (hdr2013 0).phone) = none ∧
    (((CSys.mk (CSys.start.run goEnv demoAwake).st (demoSilent.map fun t => (t, t.prog goEnv))).run goEnv demoSilence).st.look
      (hdr2019 0).phone).isSome = true := by
  decide +kernel

example : demoSilence.filter (CEv.concerns ⟨(CSys.start.run goEnv demoAwake).st, demoSilent.map fun t => (t, t.prog goEnv)⟩
    (hdr2013 0).phone) = turnSteps [demoTurn, demoTurn'] := by rfl

end JT808
