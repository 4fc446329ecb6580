import Verif.Props.Conversation
/-
Several simulators.
-/
namespace JT808
open Spec

/-- The frame the server reads next is the simulator's. -/
theorem Talk.head {env : Env} {plate : Str} {r : Ref} {p : Pair} {n : Nat} (h : Talk env plate r p n) {f : List UInt8}
    {rest : List (List UInt8)} (hu : p.up = f :: rest) :
    ∃ hd m, (∀ now, Holds env now f hd m) ∧ hd.phone = p.phone ∧ (∀ g, m = .m0100 g → g.plate = plate) := by
  cases h.phase with
  | registering f' hd m hup _ _ _ _ _ hh _ hph hpl =>
    rw [hup] at hu; injection hu with h1 h2; subst h1
    exact ⟨hd, _, hh, hph, fun g hg => by injection hg with hg; subst hg; exact hpl⟩
  | registered hd d hup => rw [hup] at hu; cases hu
  | authenticating f' hd a d hup _ _ _ _ hh _ hph =>
    rw [hup] at hu; injection hu with h1 h2; subst h1
    exact ⟨hd, _, hh, hph, fun g hg => by cases hg⟩
  | authenticated f' d hup => rw [hup] at hu; cases hu
  | talking d hup =>
    obtain ⟨hd, m, hh, _, hph, hm⟩ := hup f (by rw [hu]; simp)
    refine ⟨hd, m, hh, hph, ?_⟩
    rcases hm with rfl | ⟨l, rfl⟩ <;> intro g hg <;> cases hg

/-- A frame that holds a message of `phone` is a frame of `phone`. -/
theorem Holds.framePhone {env : Env} {now : Civil} {f : List UInt8} {h : Header} {m : Msg} (hh : Holds env now f h m) :
    framePhone env f = some h.phone := by
  obtain ⟨pd, t, j, e1, e2, -⟩ := hh
  simp only [JT808.framePhone, e1, e2]

/-- The simulator's process may change as long as it keeps this simulator's device and its status. -/
theorem Talk.swap {env : Env} {plate : Str} {r : Ref} {p : Pair} {n : Nat} (h : Talk env plate r p n) {ct : Store}
    (hp : Plays p.phone r ct) (hs : (ct.heap r).status = (p.client.heap r).status) :
    Talk env plate r { p with client := ct } n := by
  refine ⟨h.hosts, hp, h.going, h.count, ?_⟩
  cases h.phase with
  | registering f hd m hup hdown hb hoff hnone htk hh hw hph hpl =>
    exact .registering f hd m hup hdown hb (hs.trans hoff) hnone htk hh hw hph hpl
  | registered hd d hup hdown hb hoff hkn hw hnf hph => exact .registered hd d hup hdown hb (hs.trans hoff) hkn hw hnf hph
  | authenticating f hd a d hup hdown hb hoff hkn hh hw hph hc =>
    exact .authenticating f hd a d hup hdown hb (hs.trans hoff) hkn hh hw hph hc
  | authenticated f d hup hdown hb hoff hkn hno hdf =>
    exact .authenticated f d hup hdown hb (hs.trans hoff) hkn hno hdf
  | talking d hup hdown hon hkn hno => exact .talking d hup hdown (hs.trans hon) hkn hno

/-- What the process keeps for the other simulators when one of them reads. -/
structure Spares (phone : Str) (ct ct' : Store) : Prop where
  next : ct'.next = ct.next
  plays : ∀ q r', q ≠ phone → Plays q r' ct → Plays q r' ct' ∧ (ct'.heap r').status = (ct.heap r').status

theorem Spares.refl (phone : Str) (ct : Store) : Spares phone ct ct := ⟨rfl, fun _ _ _ h => ⟨h, rfl⟩⟩

theorem acked_spares {env : Env} {clk : Clock} {c : Conn} {phone : Str} {r : Ref} {ct : Store} (hp : Plays phone r ct)
    {h : Header} (hw : h.WF) (hnf : h.isFragmented = false) (hh : h.phone = phone) :
    Spares phone ct (ct.handleFrame env clk c (generalReply h 0)).1 := by
  have w4 : Header.WF { h with msgID := 0x8001 } := ⟨hw.attr, hw.phone, hw.pv, hw.frag⟩
  have c4 := C19_general_reply env _ w4 ⟨h.serial, h.msgID, 0⟩
  have hold4 := c4.holds clk.civil hnf .t8001 .m8001 rfl (fun _ => rfl)
  have hph : (Header.withBodyLength { h with msgID := 0x8001 } (GeneralAck.mk h.serial h.msgID 0).encode.length).phone =
      phone := hh
  have key : ct.handleFrame env clk c (generalReply h 0) = finish env (process8001 clk ct
      (Header.withBodyLength { h with msgID := 0x8001 } (GeneralAck.mk h.serial h.msgID 0).encode.length)
      ⟨h.serial, h.msgID, 0⟩) := by
    rw [generalReply, answer, ← (by rfl : (0 : UInt8).toNat = 0), ← ackEncode, hold4.handle]
    rfl
  rw [key]
  simp only [process8001, Store.devByPhone, if_true, hph, hp.get]
  by_cases ho : (ct.heap r).status = .offline
  · rw [if_neg (by simp [ho])]
    refine ⟨rfl, ?_⟩
    intro q r' hq hp'
    have hr : r' ≠ r := by
      intro hx; subst hx; exact hq (hp'.ph.symm.trans hp.ph)
    show Plays q r' ((ct.setDev r ((ct.heap r).awake clk)).cacheDevice r) ∧
      (((ct.setDev r ((ct.heap r).awake clk)).cacheDevice r).heap r').status = _
    have hheap : ((ct.setDev r ((ct.heap r).awake clk)).cacheDevice r).heap r' = ct.heap r' := by
      simp [Store.cacheDevice, Store.setDev, hr]
    refine ⟨⟨?_, ?_, ?_, ?_, ?_⟩, ?_⟩
    · simp [Store.cacheDevice, Store.setDev, AMap.get_set, Device.awake, hp.ph, hq, hp'.get]
    · rw [hheap]; exact hp'.ph
    · rw [hheap]; exact hp'.imei
    · rw [hheap]; exact hp'.sw
    · rw [hheap]; exact hp'.wf
    · rw [hheap]
  · rw [if_pos ho]; exact Spares.refl _ _

theorem Talk.spares {env : Env} {plate : Str} {r : Ref} {p : Pair} {n : Nat} (h : Talk env plate r p n) (e : PairEv) :
    Spares p.phone p.client (p.step env e).client := by
  have hput : ∀ o, (p.put env o).client = p.client := by intro o; unfold Pair.put; split <;> rfl
  cases e with
  | serverReads clk =>
    simp only [Pair.step]
    split <;> exact Spares.refl _ _
  | notice => simp only [Pair.step]; split; · split <;> exact Spares.refl _ _
              · exact Spares.refl _ _
  | beat =>
    simp only [Pair.step]
    split
    · split
      · rw [hput]; exact Spares.refl _ _
      · exact Spares.refl _ _
    · exact Spares.refl _ _
  | locate x =>
    simp only [Pair.step]
    split
    · split
      · rw [hput]; exact Spares.refl _ _
      · exact Spares.refl _ _
    · exact Spares.refl _ _
  | other e => exact Spares.refl _ _
  | clientReads clk =>
    have general : ∀ {f rest}, p.down = f :: rest → DownFrame p.phone f →
        Spares p.phone p.client (p.step env (.clientReads clk)).client := by
      rintro f rest hd ⟨hh, hw, hnf, hph, rfl⟩
      have h1 := acked_spares (env := env) (clk := clk) (c := p.cc) h.plays hw hnf hph
      simp only [Pair.step, h.going, hd]
      cases hx : p.client.handleFrame env clk p.cc (generalReply hh 0) with
      | mk st o => rw [hx] at h1; cases o <;> exact h1
    have nothing : p.down = [] → Spares p.phone p.client (p.step env (.clientReads clk)).client := by
      intro hd
      have : p.step env (.clientReads clk) = p := by simp only [Pair.step, h.going, hd]; rfl
      rw [this]; exact Spares.refl _ _
    cases h.phase with
    | registering f hd m hup hdown => exact nothing hdown
    | registered hd d hup hdown hb hoff hk hw hnf hph =>
      obtain ⟨h3, a, auth, e1, -⟩ := client_answers env clk p.cc p.client hd hw hnf d.code (code_length d) r
        (by rw [hph]; exact h.plays.get) h.plays.imei h.plays.sw
      simp only [Pair.step, h.going, hdown, e1]
      exact Spares.refl _ _
    | authenticating f hd a d hup hdown => exact nothing hdown
    | authenticated f d hup hdown hb hoff hk hno hdf => exact general hdown hdf
    | talking d hup hdown hon hk =>
      cases hu : p.down with
      | nil => exact nothing hu
      | cons f rest => exact general hu (hdown f (by rw [hu]; simp))

/-- The simulators of the fleet all talk, and are different. -/
structure FleetTalk (env : Env) (ref : Nat → Ref) (fl : Fleet) : Prop where
  talk : ∀ i < fl.count, ∃ n, Talk env (fl.dev i).plate (ref i) (fl.view i) n
  phone : ∀ i < fl.count, (fl.sim i).phone = (fl.dev i).phone
  refs : ∀ i < fl.count, ref i < fl.client.next
  phones : ∀ i < fl.count, ∀ j < fl.count, i ≠ j → (fl.dev i).phone ≠ (fl.dev j).phone
  plates : ∀ i < fl.count, ∀ j < fl.count, i ≠ j → (fl.dev i).plate ≠ (fl.dev j).plate
  conns : ∀ i < fl.count, ∀ j < fl.count, i ≠ j → (fl.sim i).sc ≠ (fl.sim j).sc
  reach : ∃ evs, fl.server = (Sys.start.run env evs).1

/-- Which steps of the fleet are considered: a new simulator finds its phone and plate free and differs from the others,
simulators' clocks show dates, and what happens to the server leaves all of them alone. -/
def Fleet.Allows (env : Env) (fl : Fleet) : FleetEv → Prop
  | .join _ cc d _ _ _ => ∃ v id plate phone imei keepalive, d = genDevice v id plate phone imei keepalive cc ∧
      Spec.Ready env fl.server v id plate phone imei ∧
      ∀ i < fl.count, (fl.dev i).phone ≠ d.phone ∧ (fl.dev i).plate ≠ d.plate
  | .at i e => i < fl.count ∧ (∀ x, e = .locate x → x.now.Valid) ∧ ∀ e', e ≠ .other e'
  | .world e => ∀ i < fl.count, e.aside env (fl.sim i).sc (fl.dev i).phone (fl.dev i).plate fl.server

theorem put_fields (env : Env) (p : Pair) (o : Out) :
    (p.put env o).phone = p.phone ∧ (p.put env o).sc = p.sc ∧ (p.put env o).server = p.server ∧
    (p.put env o).client = p.client := by
  unfold Pair.put; split <;> exact ⟨rfl, rfl, rfl, rfl⟩

theorem step_server (env : Env) (p : Pair) (e : PairEv) : (p.step env e).server =
    match p.serverEv e with
    | some ev => (p.server.step env ev).1
    | none => p.server := by
  cases e with
  | serverReads clk =>
    cases hu : p.up with
    | nil => simp only [Pair.step, Pair.serverEv, hu]
    | cons f rest => simp only [Pair.step, Pair.serverEv, hu]
  | notice => simp only [Pair.step, Pair.serverEv]; split; · split <;> rfl
              · rfl
  | beat =>
    simp only [Pair.step, Pair.serverEv]
    split
    · split
      · rw [(put_fields env p _).2.2.1]
      · rfl
    · rfl
  | locate x =>
    simp only [Pair.step, Pair.serverEv]
    split
    · split
      · rw [(put_fields env p _).2.2.1]
      · rfl
    · rfl
  | other e => rfl
  | clientReads clk =>
    simp only [Pair.step, Pair.serverEv]
    split
    · rfl
    · split
      · rfl
      · split <;> rfl

theorem FleetTalk.step {env : Env} {ref : Nat → Ref} {fl : Fleet} (h : FleetTalk env ref fl) (e : FleetEv)
    (ha : fl.Allows env e) :
    ∃ ref', FleetTalk env ref' (fl.step env e) := by
  cases e with
  | join addr cc d province city color =>
    obtain ⟨v, id, plate, phone, imei, ka, hd, hr, hne⟩ := ha
    have hst := start_talk hr addr fl.client cc ka province city color
    have hplate : d.plate = plate := by rw [hd]; rfl
    rw [← hd] at hst
    have hps : (Pair.start env fl.server addr fl.client cc d province city color).server =
        (fl.server.step env (.accept addr)).1 := (put_fields env _ _).2.2.1
    have hpc : (Pair.start env fl.server addr fl.client cc d province city color).client = fl.client.buildDevice d :=
      (put_fields env _ _).2.2.2
    have hpp : (Pair.start env fl.server addr fl.client cc d province city color).phone = d.phone := (put_fields env _ _).1
    have hpsc : (Pair.start env fl.server addr fl.client cc d province city color).sc = ⟨fl.server.accepted, addr⟩ :=
      (put_fields env _ _).2.1
    have hcn : fl.server.accepted = fl.server.accepted := rfl
    obtain ⟨evs, he⟩ := h.reach
    have hci := reachable_conn env evs
    rw [← he] at hci
    have hnew : ∀ i < fl.count, i ≠ fl.count := fun i hi => by omega
    have hview : ∀ j < fl.count, (fl.step env (.join addr cc d province city color)).view j =
        { (fl.view j).step env (.other (.accept addr)) with client := fl.client.buildDevice d } := by
      intro j hj
      simp only [Fleet.step, Fleet.view, Fleet.watch, hnew j hj, if_false, hps, hpc, Pair.step]
    have hviewn : (fl.step env (.join addr cc d province city color)).view fl.count =
        Pair.start env fl.server addr fl.client cc d province city color := by
      simp [Fleet.step, Fleet.view]
    have hdev : ∀ j < fl.count, (fl.step env (.join addr cc d province city color)).dev j = fl.dev j := by
      intro j hj; simp [Fleet.step, hnew j hj]
    have hdevn : (fl.step env (.join addr cc d province city color)).dev fl.count = d := by simp [Fleet.step]
    have hcount : (fl.step env (.join addr cc d province city color)).count = fl.count + 1 := rfl
    have hphn : ∀ j < fl.count, ((fl.step env (.join addr cc d province city color)).sim j).phone = (fl.sim j).phone ∧
        ((fl.step env (.join addr cc d province city color)).sim j).sc = (fl.sim j).sc := by
      intro j hj
      simp [Fleet.step, Fleet.watch, hnew j hj, Pair.step, Fleet.view]
    have hsimn : (fl.step env (.join addr cc d province city color)).sim fl.count =
        Pair.start env fl.server addr fl.client cc d province city color := by simp [Fleet.step]
    have hsc : ∀ j < fl.count, (fl.sim j).sc ≠ ⟨fl.server.accepted, addr⟩ := by
      intro j hj hx
      obtain ⟨n, ht⟩ := h.talk j hj
      have := hci.ids _ ht.hosts.live
      have h2 : (fl.view j).sc = (fl.sim j).sc := rfl
      rw [h2, hx] at this
      exact Nat.lt_irrefl _ this
    refine ⟨fun j => if j = fl.count then fl.client.next else ref j, ?_, ?_, ?_, ?_, ?_, ?_, ?_⟩
    · intro j hj
      rw [hcount] at hj
      by_cases hjn : j = fl.count
      · subst hjn
        simp only [if_true, hviewn, hdevn]
        rw [hplate]
        exact ⟨4, hst⟩
      · have hj' : j < fl.count := by omega
        simp only [if_neg hjn, hview j hj', hdev j hj']
        obtain ⟨n, ht⟩ := h.talk j hj'
        obtain ⟨n', ht'⟩ := ht.step (.other (.accept addr)) trivial
        have hr := h.refs j hj'
        have hheap : (fl.client.buildDevice d).heap (ref j) = fl.client.heap (ref j) := by
          have : ref j ≠ fl.client.next := Nat.ne_of_lt hr
          simp [Store.buildDevice, Store.alloc, Store.cacheDevice, this]
        have hpl : Plays (fl.sim j).phone (ref j) fl.client := ht.plays
        refine ⟨n', ht'.swap ?_ ?_⟩
        · refine ⟨?_, ?_, ?_, ?_, ?_⟩
          · have hne' := (hne j hj').1
            rw [← h.phone j hj'] at hne'
            have : (fl.client.buildDevice d).byPhone.get (fl.sim j).phone = some (ref j) := by
              simp [Store.buildDevice, Store.alloc, Store.cacheDevice, AMap.get_set, hne', hpl.get]
            exact this
          · rw [hheap]; exact hpl.ph
          · rw [hheap]; exact hpl.imei
          · rw [hheap]; exact hpl.sw
          · rw [hheap]; exact hpl.wf
        · rw [hheap]; rfl
    · intro j hj
      rw [hcount] at hj
      by_cases hjn : j = fl.count
      · subst hjn; rw [hsimn, hdevn]; exact hpp
      · have hj' : j < fl.count := by omega
        rw [(hphn j hj').1, hdev j hj']; exact h.phone j hj'
    · intro j hj
      rw [hcount] at hj
      have hnext : (fl.step env (.join addr cc d province city color)).client.next = fl.client.next + 1 := by
        show (Pair.start env fl.server addr fl.client cc d province city color).client.next = _
        rw [hpc]; rfl
      rw [hnext]
      by_cases hjn : j = fl.count
      · simp only [if_pos hjn]; exact Nat.lt_succ_self _
      · have hj' : j < fl.count := by omega
        simp only [if_neg hjn]
        exact Nat.lt_succ_of_lt (h.refs j hj')
    · intro i hi j hj hij
      rw [hcount] at hi hj
      by_cases hin : i = fl.count
      · subst hin
        have hj' : j < fl.count := by omega
        rw [hdevn, hdev j hj']; exact (hne j hj').1.symm
      · have hi' : i < fl.count := by omega
        by_cases hjn : j = fl.count
        · subst hjn; rw [hdevn, hdev i hi']; exact (hne i hi').1
        · have hj' : j < fl.count := by omega
          rw [hdev i hi', hdev j hj']; exact h.phones i hi' j hj' hij
    · intro i hi j hj hij
      rw [hcount] at hi hj
      by_cases hin : i = fl.count
      · subst hin
        have hj' : j < fl.count := by omega
        rw [hdevn, hdev j hj']; exact (hne j hj').2.symm
      · have hi' : i < fl.count := by omega
        by_cases hjn : j = fl.count
        · subst hjn; rw [hdevn, hdev i hi']; exact (hne i hi').2
        · have hj' : j < fl.count := by omega
          rw [hdev i hi', hdev j hj']; exact h.plates i hi' j hj' hij
    · intro i hi j hj hij
      rw [hcount] at hi hj
      by_cases hin : i = fl.count
      · subst hin
        have hj' : j < fl.count := by omega
        rw [hsimn, hpsc, (hphn j hj').2]; exact (hsc j hj').symm
      · have hi' : i < fl.count := by omega
        by_cases hjn : j = fl.count
        · subst hjn; rw [hsimn, hpsc, (hphn i hi').2]; exact hsc i hi'
        · have hj' : j < fl.count := by omega
          rw [(hphn i hi').2, (hphn j hj').2]; exact h.conns i hi' j hj' hij
    · refine ⟨evs ++ [.accept addr], ?_⟩
      show (Pair.start env fl.server addr fl.client cc d province city color).server = _
      rw [hps, run_snoc, ← he]
  | «at» i e =>
    obtain ⟨hi, hx, hno⟩ := ha
    obtain ⟨n, ht⟩ := h.talk i hi
    have hal : (fl.view i).Allows env (fl.dev i).plate e := by
      cases e with
      | locate x => exact hx x rfl
      | other e' => exact absurd rfl (hno e')
      | serverReads | clientReads | notice | beat => exact trivial
    have hrun := run_phone env (fl.view i) [e]
    have hrun1 : ((fl.view i).step env e).phone = (fl.sim i).phone := hrun.1
    have hrun2 : ((fl.view i).step env e).sc = (fl.sim i).sc := hrun.2
    have hwatch : ∀ ev j, (fl.watch env ev j).phone = (fl.sim j).phone ∧ (fl.watch env ev j).sc = (fl.sim j).sc := by
      intro ev j; cases ev <;> exact ⟨rfl, rfl⟩
    have hsp := ht.spares e
    have hph : ∀ j, ((fl.step env (.at i e)).sim j).phone = (fl.sim j).phone ∧
        ((fl.step env (.at i e)).sim j).sc = (fl.sim j).sc := by
      intro j
      simp only [Fleet.step]
      split
      · subst_vars; exact ⟨hrun1, hrun2⟩
      · exact hwatch _ _
    refine ⟨ref, ?_, ?_, ?_, h.phones, h.plates, ?_, ?_⟩
    · intro j hj
      by_cases hij : j = i
      · subst hij
        obtain ⟨n', ht'⟩ := ht.step e hal
        refine ⟨n', ?_⟩
        have : (fl.step env (.at j e)).view j = (fl.view j).step env e := by simp [Fleet.step, Fleet.view]
        rw [this]; exact ht'
      · obtain ⟨m, hj'⟩ := h.talk j hj
        have hne : (fl.sim j).phone ≠ (fl.sim i).phone := by
          rw [h.phone j hj, h.phone i hi]; exact h.phones j hj i hi hij
        have hev : (fl.step env (.at i e)).view j =
            { (match (fl.view i).serverEv e with
               | some ev => (fl.view j).step env (.other ev)
               | none => fl.view j) with client := ((fl.view i).step env e).client } := by
          have hsv := step_server env (fl.view i) e
          simp only [Fleet.step, Fleet.view, if_neg hij, Fleet.watch] at hsv ⊢
          cases hse : Pair.serverEv _ e with
          | none => rw [hse] at hsv; simp only at hsv ⊢; rw [hsv]
          | some ev => rw [hse] at hsv; simp only at hsv ⊢; rw [hsv]; rfl
        rw [hev]
        show ∃ n, Talk env (fl.dev j).plate (ref j) _ n
        have hbase : ∃ n, Talk env (fl.dev j).plate (ref j) (match (fl.view i).serverEv e with
               | some ev => (fl.view j).step env (.other ev)
               | none => fl.view j) n ∧ (match (fl.view i).serverEv e with
               | some ev => (fl.view j).step env (.other ev)
               | none => fl.view j).client = fl.client ∧ (match (fl.view i).serverEv e with
               | some ev => (fl.view j).step env (.other ev)
               | none => fl.view j).phone = (fl.sim j).phone := by
          cases hse : (fl.view i).serverEv e with
          | none => exact ⟨m, hj', rfl, rfl⟩
          | some ev =>
            have hasd : ev.aside env (fl.sim j).sc (fl.sim j).phone (fl.dev j).plate fl.server := by
              cases e with
              | serverReads clk =>
                simp only [Pair.serverEv] at hse
                cases hu : (fl.view i).up with
                | nil => rw [hu] at hse; cases hse
                | cons f rest =>
                  rw [hu] at hse; injection hse with hse; subst hse
                  obtain ⟨hd, mm, hh, hp, hpl⟩ := ht.head hu
                  refine ⟨h.conns i hi j hj (Ne.symm hij), ?_, ?_⟩
                  · rw [(hh clk.civil).framePhone, hp]
                    intro hx; injection hx with hx; exact hne hx.symm
                  · intro _ hd' g hdl
                    have := (Delivers.unique ((hh clk.civil).delivers fl.server.st) hdl).2
                    have hpl' := hpl g this
                    rw [hpl']; exact h.plates i hi j hj (Ne.symm hij)
              | other e' => exact absurd rfl (hno e')
              | clientReads | notice | beat | locate => cases hse
            obtain ⟨n', ht'⟩ := hj'.step (.other ev) hasd
            exact ⟨n', ht', rfl, rfl⟩
        obtain ⟨n', hb1, hb2, hb3⟩ := hbase
        have := hsp.plays (fl.sim j).phone (ref j) hne hj'.plays
        refine ⟨n', hb1.swap ?_ ?_⟩
        · rw [hb3]; exact this.1
        · rw [hb2]; exact this.2
    · intro j hj; rw [(hph j).1]; exact h.phone j hj
    · intro j hj
      show ref j < ((fl.view i).step env e).client.next
      rw [hsp.next]; exact h.refs j hj
    · intro a ha b hb hab; rw [(hph a).2, (hph b).2]; exact h.conns a ha b hb hab
    · obtain ⟨evs, he⟩ := h.reach
      show ∃ evs, ((fl.view i).step env e).server = _
      rw [step_server]
      cases hse : (fl.view i).serverEv e with
      | none => exact ⟨evs, he⟩
      | some ev =>
        refine ⟨evs ++ [ev], ?_⟩
        show (fl.server.step env ev).1 = _
        rw [run_snoc, ← he]
  | world e =>
    refine ⟨ref, ?_, ?_, h.refs, h.phones, h.plates, ?_, ?_⟩
    · intro j hj
      obtain ⟨n, ht⟩ := h.talk j hj
      exact ht.step (.other e) (by
        show e.aside env (fl.sim j).sc (fl.sim j).phone (fl.dev j).plate fl.server
        rw [h.phone j hj]; exact ha j hj)
    · intro j hj; exact h.phone j hj
    · intro i hi j hj hij; exact h.conns i hi j hj hij
    · obtain ⟨evs, he⟩ := h.reach
      exact ⟨evs ++ [e], by rw [run_snoc, ← he]; rfl⟩

end JT808
