import Verif.Proof.Interleave
import Verif.Proof.Demo
/-
C33, C46, C49, C61, C68-C72: what holds, and what does not, when handlers and keepalive checks run concurrently.
-/
namespace JT808
open Spec

/-- The goroutine with number `i` has returned `r`. -/
def CSys.returns (s : CSys) (i : Nat) (r : Res (Option Out)) : Prop := ∃ t, s.threads[i]? = some (t, .ret r)

/-- `n` steps of goroutine `i`. -/
def steps (i n : Nat) (clk : Clock) : List CEv := List.replicate n (.run i clk)

/-! ### C61 -/

/-- C61: in every interleaving, whatever a lookup returns is filed under the key that was looked up. -/
theorem C61_keys (env : Env) (evs : List CEv) :
    (∀ p d, (CSys.start.run env evs).st.look p = some d → d.phone = p) ∧
      ∀ q d, (CSys.start.run env evs).st.lookPlate q = some d → d.plate = q := by
  have h := (ok_run (ok_start env) evs).1.inv
  refine ⟨fun p d hd => ?_, fun q d hd => ?_⟩
  · simp only [Store.look, Option.map_eq_some_iff] at hd
    obtain ⟨r, hr, rfl⟩ := hd
    exact (h.phoneOK p r hr).2
  · simp only [Store.lookPlate, Option.map_eq_some_iff] at hd
    obtain ⟨r, hr, rfl⟩ := hd
    exact (h.plateOK q r hr).2

/-- A registration and a heartbeat of the same terminal, interleaved; the device is found under both keys. -/
def demoRace : List CEv :=
  [.spawn (.msg demoC (hdr2013 0x0100) (.m0100 demoRegMsg)), .spawn (.msg demoC (hdr2013 0x0002) .m0002)] ++
    steps 0 4 (demoClk 5) ++ steps 1 2 (demoClk 7) ++ steps 0 2 (demoClk 8) ++ steps 1 2 (demoClk 9)

example : ((CSys.start.run goEnv demoRace).st.look (hdr2013 0).phone).map (fun d => (d.plate, d.last)) =
      some (demoRegMsg.plate, 7) ∧
    ((CSys.start.run goEnv demoRace).st.lookPlate demoRegMsg.plate).map (fun d => (d.phone, d.last)) =
      some ((hdr2013 0).phone, 7) ∧
    (CSys.start.run goEnv demoRace).st.jobs = [(hdr2013 0).phone] := by decide +kernel

/-! ### C33 -/

/-- C33 is false: whenever a plate and two phones are free, two registrations of that plate can both succeed, and then
the plate index knows only one of the two terminals. -/
theorem C33_both_succeed (env : Env) (st : Store) (c c' : Conn) (h h' : Header) (m m' : Register) (clk : Clock)
    (hplate : m'.plate = m.plate) (hne : h'.phone ≠ h.phone) (fplate : st.lookPlate m.plate = none)
    (f : st.look h.phone = none) (f' : st.look h'.phone = none) :
    ∃ evs code code',
      (CSys.run env ⟨st, []⟩ evs).returns 0 (.ok (some (gen8100 h 0 code))) ∧
      (CSys.run env ⟨st, []⟩ evs).returns 1 (.ok (some (gen8100 h' 0 code'))) ∧
      ((CSys.run env ⟨st, []⟩ evs).st.look h.phone).map (·.plate) = some m.plate ∧
      ((CSys.run env ⟨st, []⟩ evs).st.look h'.phone).map (·.plate) = some m.plate ∧
      ((CSys.run env ⟨st, []⟩ evs).st.lookPlate m.plate).map (·.phone) = some h'.phone := by
  have e1 : st.hasPlate m.plate = false := by
    simp only [Store.lookPlate, Option.map_eq_none_iff] at fplate
    simp [Store.hasPlate, fplate]
  have e2 : st.hasPhone h.phone = false := by
    simp only [Store.look, Option.map_eq_none_iff] at f
    simp [Store.hasPhone, f]
  have e3 : st.hasPhone h'.phone = false := by
    simp only [Store.look, Option.map_eq_none_iff] at f'
    simp [Store.hasPhone, f']
  refine ⟨[.spawn (.msg c h (.m0100 m)), .spawn (.msg c' h' (.m0100 m')), .run 0 clk, .run 0 clk, .run 1 clk, .run 1 clk,
    .run 0 clk, .run 0 clk, .run 0 clk, .run 0 clk, .run 1 clk, .run 1 clk, .run 1 clk, .run 1 clk],
    (Device.new clk c h m).code, (Device.new clk c' h' m').code, ?_⟩
  simp [CSys.returns, CSys.run, CSys.step, Task.allowed, Task.prog, prog0100, Prog.read, Prog.next, e1, e2, e3, hplate,
    progTimer, Prog.upd, Prog.get, Store.alloc, Store.cacheDevice, Store.devByPhone, Store.look, Store.lookPlate,
    Store.devByPlate, Device.new, AMap.get_set, Ne.symm hne]

example : ∃ evs code code',
    (CSys.run goEnv ⟨Store.empty, []⟩ evs).returns 0 (.ok (some (gen8100 (hdr2013 0x0100) 0 code))) ∧
    (CSys.run goEnv ⟨Store.empty, []⟩ evs).returns 1 (.ok (some (gen8100 (hdr2019 0x0100) 0 code'))) :=
  let ⟨evs, a, b, h, h', _⟩ := C33_both_succeed goEnv Store.empty demoC demoC' (hdr2013 0x0100) (hdr2019 0x0100) demoRegMsg
    demoRegMsg (demoClk 1) rfl (by decide) rfl rfl rfl
  ⟨evs, a, b, h, h'⟩

/-- C33, what does hold: a registration that looks at the plate index while the plate is taken is refused, whatever
happens before and afterwards.  Missing: a second registration that looks before the first has filed its device. -/
theorem C33_late_refused_partial (env : Env) (before after : List CEv) (i : Nat) (clk : Clock) (c : Conn) (h : Header)
    (m : Register)
    (hi : (CSys.start.run env before).threads[i]? = some (.msg c h (.m0100 m), (Task.msg c h (.m0100 m)).prog env))
    (taken : (CSys.start.run env before).st.lookPlate m.plate ≠ none) :
    (CSys.start.run env (before ++ .run i clk :: after)).returns i (.ok (some (gen8100 h 1 placeholderCode))) := by
  refine ⟨.msg c h (.m0100 m), ?_⟩
  rw [crun_append, crun_cons]
  refine returned_run ?_ after
  have hlt : i < (CSys.start.run env before).threads.length := by
    rcases Nat.lt_or_ge i (CSys.start.run env before).threads.length with h' | h'
    · exact h'
    · rw [List.getElem?_eq_none h'] at hi; cases hi
  have e : (CSys.start.run env before).st.hasPlate m.plate = true := by
    simp only [Store.lookPlate, ne_eq, Option.map_eq_none_iff] at taken
    exact Option.isSome_iff_ne_none.2 taken
  simp only [CSys.step, hi, List.getElem?_set, if_true, hlt]
  simp only [Task.prog, prog0100, Prog.read, Prog.next, e, if_true]

example : (CSys.start.run goEnv (demoRace ++ [.spawn (.msg demoC' (hdr2019 0x0100) (.m0100 demoRegMsg))])).st.lookPlate
    demoRegMsg.plate ≠ none := by decide +kernel

/-! ### C46 -/

/-- C46 is false: whenever a terminal has a keepalive job, a check that starts before the terminal deregisters and looks
it up afterwards ends the process. -/
theorem C46_race_crashes (env : Env) (st : Store) (c : Conn) (h : Header) (r : Ref) (clk : Clock)
    (hjob : h.phone ∈ st.jobs) (hdev : st.devByPhone h.phone = some r) (hph : (st.heap r).phone = h.phone) :
    ∃ evs, (CSys.run env ⟨st, []⟩ evs).returns 0 (.ok (some (gen8001 h 0))) ∧
      (CSys.run env ⟨st, []⟩ evs).crashed = true := by
  refine ⟨[.spawn (.msg c h .m0003), .spawn (.check h.phone), .run 0 clk, .run 0 clk, .run 0 clk, .run 1 clk, .run 1 clk], ?_⟩
  simp only [Store.devByPhone] at hdev
  simp [CSys.returns, CSys.run, CSys.step, Task.allowed, Task.prog, prog0003, progCheck, Prog.next, Prog.upd,
    Prog.get, Store.devByPhone, hjob, hdev, hph, Store.cancelJob, Store.delByPhone, AMap.get_del_self, CSys.crashed]

example : (hdr2013 0x0003).phone ∈ demoSys.st.jobs ∧ demoSys.st.devByPhone (hdr2013 0x0003).phone = some 0 ∧
    (demoSys.st.heap 0).phone = (hdr2013 0x0003).phone := by decide +kernel

/-- C46 is false in a second way: a deregistration that comes between a registration's own lookup and its `cron.Add`
leaves a job without a device, and the next check of that job ends the process although nothing runs beside it. -/
theorem C46_orphan_job_crashes (env : Env) (st : Store) (c c' : Conn) (h h' : Header) (m : Register) (clk : Clock)
    (hph : h'.phone = h.phone) (fplate : st.lookPlate m.plate = none) (f : st.look h.phone = none) :
    ∃ evs code,
      (CSys.run env ⟨st, []⟩ evs).returns 0 (.ok (some (gen8100 h 0 code))) ∧
      (CSys.run env ⟨st, []⟩ evs).returns 1 (.ok (some (gen8001 h' 0))) ∧
      h.phone ∈ (CSys.run env ⟨st, []⟩ evs).st.jobs ∧ (CSys.run env ⟨st, []⟩ evs).st.look h.phone = none ∧
      (CSys.run env ⟨st, []⟩ evs).crashed = false ∧
      ((progCheck h.phone).alone clk (CSys.run env ⟨st, []⟩ evs).st).2 = .panic := by
  have e1 : st.hasPlate m.plate = false := by
    simp only [Store.lookPlate, Option.map_eq_none_iff] at fplate
    simp [Store.hasPlate, fplate]
  have e2 : st.hasPhone h.phone = false := by
    simp only [Store.look, Option.map_eq_none_iff] at f
    simp [Store.hasPhone, f]
  refine ⟨[.spawn (.msg c h (.m0100 m)), .spawn (.msg c' h' .m0003), .run 0 clk, .run 0 clk, .run 0 clk, .run 0 clk, .run 0 clk,
    .run 1 clk, .run 1 clk, .run 1 clk, .run 0 clk], (Device.new clk c h m).code, ?_⟩
  simp [CSys.returns, CSys.run, CSys.step, Task.allowed, Task.prog, prog0100, prog0003, progCheck, Prog.read, Prog.next, e1, e2,
    progTimer, Prog.upd, Prog.get, Store.alloc, Store.cacheDevice, Store.devByPhone, Store.look, hph,
    Device.new, AMap.get_set, AMap.get_del_self, Store.cancelJob, Store.delByPhone, CSys.crashed, Prog.alone]

/-- C46, what does hold: a check that finds its device never panics, whatever runs beside it before and afterwards.
Missing: a check whose device is gone when it looks it up. -/
theorem C46_found_partial (env : Env) (before after : List CEv) (i : Nat) (clk : Clock) (phone : Str)
    (hi : (CSys.start.run env before).threads[i]? = some (.check phone, (Task.check phone).prog env))
    (hd : (CSys.start.run env before).st.look phone ≠ none) :
    ¬ (CSys.start.run env (before ++ .run i clk :: after)).returns i .panic := by
  rintro ⟨t, ht⟩
  have hok := (ok_run (ok_start env) before).1
  have hlt : i < (CSys.start.run env before).threads.length := by
    rcases Nat.lt_or_ge i (CSys.start.run env before).threads.length with h' | h'
    · exact h'
    · rw [List.getElem?_eq_none h'] at hi; cases hi
  rw [crun_append, crun_cons] at ht
  cases hr : (CSys.start.run env before).st.devByPhone phone with
  | none => exact hd (by simp [Store.look, hr])
  | some r =>
    have hheld : Held phone (CSys.start.run env before).st r := hok.inv.phoneOK _ _ hr
    have hstep : (CSys.start.run env before).step env (.run i clk) =
        ⟨(CSys.start.run env before).st, (CSys.start.run env before).threads.set i (.check phone, progFound phone r)⟩ := by
      simp only [CSys.step, hi, Task.prog, progCheck, Prog.get, Prog.next, hr]
    have hok1 := (ok_step hok (.run i clk)).1
    rw [hstep] at ht hok1
    have hs : (progFound phone r).Safe (fun _ x => x ≠ .panic) (fun _ => True) phone (CSys.start.run env before).st :=
      safeFound phone (fun _ _ h => h) hheld
    have hi' : ((CSys.start.run env before).threads.set i (.check phone, progFound phone r))[i]? =
        some (.check phone, progFound phone r) := by
      rw [List.getElem?_set, if_pos rfl, if_pos hlt]
    obtain ⟨q', hq', hsq⟩ := safe_run hok1 hi' hs after
    rw [hq'] at ht
    cases ht
    exact hsq _ (Grows.refl _) rfl

example : (CSys.start.run goEnv (demoRace ++ [.spawn (.check (hdr2013 0).phone)])).st.look (hdr2013 0).phone ≠ none ∧
    ((CSys.start.run goEnv (demoRace ++ [.spawn (.check (hdr2013 0).phone)])).threads.map (·.1))[2]? =
      some (.check (hdr2013 0).phone) := by decide +kernel

/-! ### C49 -/

/-- C49: the `n`-th of successive calls returns `n` modulo 65536. -/
theorem C49_sequential (n : Nat) : (nextSerial (serialAfter n)).2.toNat = (n + 1) % 65536 := by
  have h := serialAfter_toNat n
  rw [(nextSerial_toNat (by rw [h]; omega)).2, h]
  omega

/-- C49: numbers of successive calls differ unless the calls are a multiple of 65536 apart. -/
theorem C49_distinct (i j : Nat) (hij : i < j) (hj : j < i + 65536) :
    (nextSerial (serialAfter i)).2 ≠ (nextSerial (serialAfter j)).2 := by
  intro h
  have := congrArg UInt16.toNat h
  rw [C49_sequential, C49_sequential] at this
  omega

example : [(nextSerial (serialAfter 0)).2, (nextSerial (serialAfter 1)).2, (nextSerial 65534).2, (nextSerial 65535).2,
    (nextSerial (nextSerial 65535).1).2] = [1, 2, 65535, 0, 1] := by decide

/-- C49, concurrent callers: as long as there are at most 65535 calls, the numbers are between 1 and the number of calls
and differ from one another in every interleaving.  Missing: the calls after the counter has passed 65535. -/
theorem C49_concurrent_partial (evs : List SerialEv) (hb : (SerialSys.start.run evs).calls.length ≤ 65535) :
    (∀ (i : Nat) (n : UInt16), (SerialSys.start.run evs).calls[i]? = some (.done n) →
      1 ≤ n.toNat ∧ n.toNat ≤ (SerialSys.start.run evs).calls.length) ∧
    ∀ (i j : Nat) (n n' : UInt16), i ≠ j → (SerialSys.start.run evs).calls[i]? = some (.done n) →
      (SerialSys.start.run evs).calls[j]? = some (.done n') → n ≠ n' := by
  have h := serial_run serial_start evs hb
  refine ⟨fun i n hi => ?_, fun i j n n' hij hi hj e => ?_⟩
  · rcases h.pcs i _ hi with h' | ⟨m, h1, h2, h3⟩
    · cases h'
    · cases h1
      have := h.count
      exact ⟨h2, by omega⟩
  · subst e; exact h.distinct i j n hij hi hj

example : (SerialSys.start.run [.call, .call, .run 1, .call, .run 2, .run 0]).calls = [.done 3, .done 1, .done 2] := by decide

/-- `n` calls, one after the other, from the start: each is called and makes its step(s). -/
def serialCalls (n : Nat) : List SerialEv := (List.range n).flatMap fun i => [.call, .run i]

theorem serialCalls_run (n : Nat) (hn : n ≤ 65535) :
    (SerialSys.start.run (serialCalls n)).counter.toNat = n ∧ (SerialSys.start.run (serialCalls n)).calls.length = n ∧
      ∀ pc ∈ (SerialSys.start.run (serialCalls n)).calls, ∃ k, pc = .done k := by
  induction n with
  | zero => exact ⟨rfl, rfl, fun _ h => by cases h⟩
  | succ n ih =>
    obtain ⟨h1, h2, h3⟩ := ih (by omega)
    have e : SerialSys.start.run (serialCalls (n + 1)) = ((SerialSys.start.run (serialCalls n)).step .call).step (.run n) := by
      simp only [serialCalls, List.range_succ, List.flatMap_append, SerialSys.run, List.foldl_append]
      rfl
    rw [e]
    generalize SerialSys.start.run (serialCalls n) = s at *
    have hc : (s.counter + 1).toNat = n + 1 := by rw [UInt32.toNat_add, h1]; simp; omega
    have hle : s.counter + 1 ≤ 0xffff := by rw [UInt32.le_iff_toNat_le, hc]; simp; omega
    have hget : (s.calls ++ [SerialPc.add])[n]? = some .add := by
      rw [List.getElem?_append_right (by omega), h2]; simp
    simp only [SerialSys.step, hget, SerialPc.next, hle, if_true]
    refine ⟨hc, by simp [h2], fun pc hpc => ?_⟩
    rcases List.mem_or_eq_of_mem_set hpc with h | h
    · rcases List.mem_append.1 h with h | h
      · exact h3 pc h
      · -- the last entry has been replaced
        simp only [List.mem_singleton] at h
        subst h
        exfalso
        rw [List.mem_iff_getElem?] at hpc
        obtain ⟨j, hj⟩ := hpc
        rw [List.getElem?_set] at hj
        split at hj
        · split at hj <;> cases hj
        · rw [List.getElem?_append] at hj
          split at hj
          · obtain ⟨k, hk⟩ := h3 _ (List.mem_of_getElem? hj)
            cases hk
          · rw [List.getElem?_singleton] at hj
            split at hj
            · omega
            · cases hj
    · exact ⟨_, h⟩

/-- C49 is false for concurrent callers: after 65535 calls that have all returned, two concurrent calls can both
return 0. -/
theorem C49_concurrent_repeats :
    ∃ before after, (∀ pc ∈ (SerialSys.start.run before).calls, ∃ k, pc = .done k) ∧
      (SerialSys.start.run before).calls.length = 65535 ∧
      (SerialSys.start.run (before ++ after)).calls = (SerialSys.start.run before).calls ++ [.done 0, .done 0] := by
  obtain ⟨h1, h2, h3⟩ := serialCalls_run 65535 (Nat.le_refl _)
  refine ⟨serialCalls 65535,
    [.call, .call, .run 65535, .run 65536, .run 65535, .run 65535, .run 65536, .run 65536], h3, h2, ?_⟩
  have happ : ∀ (s : SerialSys) (a b : List SerialEv), s.run (a ++ b) = (s.run a).run b := fun _ _ _ => List.foldl_append
  rw [happ]
  generalize SerialSys.start.run (serialCalls 65535) = s at *
  have hc : s.counter = 65535 := by apply UInt32.toNat_inj.1; rw [h1]; rfl
  obtain ⟨counter, calls⟩ := s
  simp only at hc h2 ⊢
  subst hc
  have g0 : ∀ x y : SerialPc, (calls ++ [x, y])[65535]? = some x := by
    intro x y; rw [List.getElem?_append_right (by omega), h2]; simp
  have g1 : ∀ x y : SerialPc, (calls ++ [x, y])[65536]? = some y := by
    intro x y; rw [List.getElem?_append_right (by omega), h2]; simp
  have s0 : ∀ x y z : SerialPc, (calls ++ [x, y]).set 65535 z = calls ++ [z, y] := by
    intro x y z; rw [List.set_append_right _ _ (by omega), h2]; rfl
  have s1 : ∀ x y z : SerialPc, (calls ++ [x, y]).set 65536 z = calls ++ [x, z] := by
    intro x y z; rw [List.set_append_right _ _ (by omega), h2]; rfl
  simp only [SerialSys.run, List.foldl, SerialSys.step, List.append_assoc, List.cons_append, List.nil_append, g0, g1, s0, s1,
    SerialPc.next]
  simp (decide := true) only [if_false]
  rfl

/-! ### C68 -/

/-- C68: in every interleaving, a step of a goroutine that serves one terminal changes neither the device that another
phone resolves to, nor its stored locations, nor its keepalive job. -/
theorem C68_isolation (env : Env) (evs : List CEv) (i : Nat) (clk : Clock) (t : Task) (q : Str)
    (hi : (((CSys.start.run env evs).threads[i]?).map (·.1)) = some t) (hq : q ≠ t.phone) :
    let s := CSys.start.run env evs
    (s.step env (.run i clk)).st.look q = s.st.look q ∧
      (s.step env (.run i clk)).st.geos.get q = s.st.geos.get q ∧
      (s.step env (.run i clk)).st.jobs.count q = s.st.jobs.count q := by
  intro s
  have hok : s.OK env := (ok_run (ok_start env) evs).1
  have hi : (s.threads[i]?).map (·.1) = some t := hi
  cases ht : s.threads[i]? with
  | none => rw [ht] at hi; cases hi
  | some tp =>
    obtain ⟨t', p⟩ := tp
    rw [ht] at hi
    cases hi
    have hstep : (s.step env (.run i clk)).st = (p.next clk s.st).1 := by simp only [CSys.step, ht]
    rw [hstep]
    cases p with
    | ret r => exact ⟨rfl, rfl, rfl⟩
    | step f k =>
      have ho := (hok.safe i t' _ ht clk s.st (Grows.refl _) hok.inv).1
      refine ⟨?_, ho.geos q hq, ho.jobs q hq⟩
      have hidx := ho.index q hq
      show ((f clk s.st).byPhone.get q).map (f clk s.st).heap = (s.st.byPhone.get q).map s.st.heap
      rw [hidx]
      cases hr : s.st.byPhone.get q with
      | none => rfl
      | some r =>
        obtain ⟨h1, h2⟩ := hok.inv.phoneOK q r hr
        have := ho.dev r h1 (by rw [h2]; exact hq)
        simp only [Option.map_some, this]

example : (((CSys.start.run goEnv demoRace).threads[1]?).map (·.1)) = some (.msg demoC (hdr2013 0x0002) .m0002) ∧
    (hdr2019 0).phone ≠ (hdr2013 0x0002).phone := by decide +kernel

/-! ### C69 -/

/-- C69: in every interleaving, an authentication that has been accepted presented exactly the code of a registration
of the same phone. -/
theorem C69_accepted_code_issued (env : Env) (evs : List CEv) (i : Nat) (c : Conn) (h : Header) (m : AuthMsg)
    (hi : (CSys.start.run env evs).threads[i]? = some (.msg c h (.m0102 m), .ret (.ok (some (gen8001 h 0))))) :
    ∃ (j : Nat) (c' : Conn) (h' : Header) (m' : Register), (((CSys.start.run env evs).threads[j]?).map (·.1)) =
        some (.msg c' h' (.m0100 m')) ∧
      h'.phone = h.phone ∧ m.code = authCodeOf m'.deviceID m'.plate h'.phone := by
  have hok := (ok_run (ok_start env) evs).1
  have hborn := born_run (ok_start env) born_start evs
  obtain ⟨-, hpost⟩ := hok.safe i _ _ hi _ (Grows.refl _)
  obtain ⟨r, hr, hcode⟩ := hpost rfl
  obtain ⟨j, t, q, hj, hm⟩ := hborn r hr.1
  cases t with
  | check ph => cases hm
  | msg c' h' m' =>
    cases m' with
    | m0100 m' =>
      obtain ⟨a, b, d, -⟩ := hm
      refine ⟨j, c', h', m', by rw [hj]; rfl, a.symm.trans hr.2, ?_⟩
      rw [← hcode, ← b, ← d, ← a]
      rfl
    | _ => cases hm

/-- C69: a registration that has been accepted answered with the code of its own terminal. -/
theorem C69_reply_code (env : Env) (evs : List CEv) (i : Nat) (c : Conn) (h : Header) (m : Register) (code : Str)
    (hi : (CSys.start.run env evs).threads[i]? = some (.msg c h (.m0100 m), .ret (.ok (some (gen8100 h 0 code))))) :
    code = authCodeOf m.deviceID m.plate h.phone := by
  have hok := (ok_run (ok_start env) evs).1
  obtain ⟨-, hpost⟩ := hok.safe i _ _ hi _ (Grows.refl _)
  obtain ⟨r, hr, h1, h2, -, h3⟩ := hpost code rfl
  rw [← h3, ← h1, ← h2, ← hr.2]
  rfl

/-- The registration of `demoRace` followed by the authentication with its code. -/
def demoRaceAuth : List CEv :=
  demoRace ++ .spawn (.msg demoC (hdr2013 0x0102) (.m0102 ⟨0, demoCode, [], []⟩)) :: steps 2 8 (demoClk 10)

example : ((CSys.start.run goEnv demoRaceAuth).threads[2]?).map (·.2.alone (demoClk 0) Store.empty |>.2) =
    some (.ok (some (gen8001 (hdr2013 0x0102) 0))) := by decide +kernel

/-! ### C70 -/

/-- C70 is false: a heartbeat that has looked its device up before a deregistration and files it afterwards brings the
terminal back, and without a keepalive job, so that no check will ever remove it. -/
theorem C70_resurrected (env : Env) (st : Store) (c c' : Conn) (h h' : Header) (r : Ref) (clk : Clock)
    (hph : h'.phone = h.phone) (hdev : st.devByPhone h.phone = some r) (hr : (st.heap r).phone = h.phone) :
    ∃ evs, (CSys.run env ⟨st, []⟩ evs).returns 0 (.ok (some (gen8001 h 0))) ∧
      (CSys.run env ⟨st, []⟩ evs).returns 1 (.ok (some (gen8001 h' 0))) ∧
      (CSys.run env ⟨st, []⟩ evs).st.look h.phone ≠ none ∧ h.phone ∉ (CSys.run env ⟨st, []⟩ evs).st.jobs := by
  refine ⟨[.spawn (.msg c h .m0003), .spawn (.msg c' h' .m0002), .run 1 clk, .run 1 clk, .run 0 clk, .run 0 clk, .run 0 clk,
    .run 1 clk], ?_⟩
  simp only [Store.devByPhone] at hdev
  simp [CSys.returns, CSys.run, CSys.step, Task.allowed, Task.prog, prog0003, prog0002, Prog.next, Prog.upd, Prog.put,
    Prog.get, Store.devByPhone, hph, hdev, hr, Store.cancelJob, Store.delByPhone, AMap.get_set_self,
    Store.cacheDevice, Store.setDev, Store.look]

example : demoSys.st.devByPhone (hdr2013 0x0003).phone = some 0 ∧ (demoSys.st.heap 0).phone = (hdr2013 0x0003).phone := by
  decide +kernel

/-- C70, what does hold: once a terminal is unknown and every goroutine of it has returned, it stays unknown in every
interleaving until a registration of that phone is started.  Missing: handlers still running when it was removed. -/
theorem C70_stays_gone_partial (env : Env) (before after : List CEv) (p : Str)
    (hgone : (CSys.start.run env before).st.look p = none)
    (hret : ∀ (i : Nat) (t : Task) (q : Prog), (CSys.start.run env before).threads[i]? = some (t, q) → t.phone = p →
      ∃ r, q = .ret r)
    (hreg : ∀ c h m, CEv.spawn (.msg c h (.m0100 m)) ∈ after → h.phone ≠ p) :
    (CSys.start.run env (before ++ after)).st.look p = none := by
  rw [crun_append]
  have hok := (ok_run (ok_start env) before).1
  have hg : (CSys.start.run env before).Gone p := by
    refine ⟨?_, fun i t q hi hp => ?_⟩
    · simpa [Store.look, Store.devByPhone] using hgone
    · obtain ⟨r, rfl⟩ := hret i t q hi hp
      trivial
  have := gone_run hok hg after (fun t ht hreg' => by
    cases t with
    | check ph => exact hreg'
    | msg c h m =>
      cases m with
      | m0100 m => exact hreg c h m ht hreg'
      | _ => exact hreg')
  simp [Store.look, Store.devByPhone, this.none]

/-- A deregistration after `demoRace`; all goroutines have returned and the phone is unknown. -/
def demoRaceBye : List CEv := demoRace ++ .spawn (.msg demoC (hdr2013 0x0003) .m0003) :: steps 2 3 (demoClk 10)

/-- The goroutine has returned. -/
def Prog.isRet : Prog → Bool
  | .ret _ => true
  | .step .. => false

example : (CSys.start.run goEnv demoRaceBye).st.look (hdr2013 0).phone = none ∧
    (CSys.start.run goEnv demoRaceBye).threads.map (·.2.isRet) = [true, true, true] := by decide +kernel

/-! ### C71 -/

/-- C71: in every interleaving no message handler panics. -/
theorem C71_handlers_do_not_panic (env : Env) (evs : List CEv) (i : Nat) (c : Conn) (h : Header) (m : Msg) :
    (CSys.start.run env evs).threads[i]? ≠ some (.msg c h m, .ret .panic) := by
  intro hi
  have hok := (ok_run (ok_start env) evs).1
  have hp := hok.safe i _ _ hi _ (Grows.refl _)
  cases m with
  | m8104 =>
    obtain ⟨q, j, e⟩ := fixedDecode_ok env h.phone
    have := hp rfl
    rw [e] at this; cases this
  | m0100 m => exact absurd rfl hp.1
  | m0102 m => exact absurd rfl hp.1
  | _ => exact absurd rfl hp

/-- The handlers of `demoRace` have returned without panic. -/
example : (CSys.start.run goEnv demoRace).threads.map (·.2.isRet) = [true, true] := by decide +kernel

/-! ### C72 -/

/-- C72: what a group of goroutines does to its own terminal does not depend on the goroutines of other terminals.
Start the given goroutines from any store reached by interleaved goroutines and let them run in any order.  If those of
phone `p` are heartbeats, deregistrations, authentications, location reports, replies or keepalive checks, then the
outcome for `p` (their results, the device, its locations and its jobs) is the one of the same run without any step of
a goroutine of another phone, whatever those others are (registrations included). -/
theorem C72_no_interference (env : Env) (before : List CEv) (tasks : List Task) (evs : List CEv) (p : Str)
    (hev : ∀ e ∈ evs, ∃ i clk, e = .run i clk) (hloc : ∀ t ∈ tasks, t.phone = p → t.isLocal = true) :
    let s0 : CSys := ⟨(CSys.start.run env before).st, tasks.map fun t => (t, t.prog env)⟩
    let full := s0.run env evs
    let own := s0.run env (evs.filter (CEv.concerns s0 p))
    full.st.look p = own.st.look p ∧ full.st.geos.get p = own.st.geos.get p ∧
      full.st.jobs.count p = own.st.jobs.count p ∧
      ∀ (i : Nat) (t : Task) (q : Prog), full.threads[i]? = some (t, q) → t.phone = p → own.threads[i]? = some (t, q) := by
  intro s0 full own
  have hinv : CInv s0.st := (ok_run (ok_start env) before).1.inv
  have hok : s0.OK env := by
    refine ⟨hinv, fun i t q hi => ?_⟩
    simp only [s0, List.getElem?_map, Option.map_eq_some_iff] at hi
    obtain ⟨t', -, h2⟩ := hi
    cases h2
    exact task_safe env _ _
  have htwin : Twin p (fun r => r < s0.st.next ∧ (s0.st.heap r).phone = p) s0 s0 := by
    refine ⟨⟨rfl, fun r hr => hinv.phoneOK p r hr, fun _ _ => rfl, fun r hr => hr.2, fun r hr => ⟨hr.1, hr.1⟩, rfl, rfl⟩,
      fun _ => rfl, fun i t q hi hp => ⟨hi, ?_⟩⟩
    simp only [s0, List.getElem?_map, Option.map_eq_some_iff] at hi
    obtain ⟨t', h1, h2⟩ := hi
    cases h2
    subst hp
    exact local_task env _ (hloc _ (List.mem_of_getElem? h1) rfl)
  have h := twin_run hok (fun _ => rfl) htwin evs hev
  refine ⟨?_, h.agree.geos, h.agree.jobs, fun i t q hi hp => (h.same i t q hi hp).1⟩
  show (full.st.byPhone.get p).map full.st.heap = (own.st.byPhone.get p).map own.st.heap
  have hidx : full.st.byPhone.get p = own.st.byPhone.get p := h.agree.index
  rw [← hidx]
  cases hr : full.st.byPhone.get p with
  | none => rfl
  | some r => exact congrArg some (h.agree.heap r (h.agree.mine r hr))

/-- A heartbeat and a registration of another phone. -/
example : (∀ t ∈ [Task.msg demoC (hdr2013 0x0002) .m0002, .msg demoC' (hdr2019 0x0100) (.m0100 demoRegMsg)],
    t.phone = (hdr2013 0).phone → t.isLocal = true) := by decide +kernel

end JT808
