import Verif.Proof.Sessions
/-
Which connections there are, and which event closes one.
-/
namespace JT808
open Spec

/-- Connections over histories: served ones have different numbers, and no device refers to a connection that was never
accepted. -/
structure ConnInv (s : Sys) : Prop where
  ids : ∀ c ∈ s.live, c.id < s.accepted
  inj : ∀ c ∈ s.live, ∀ c' ∈ s.live, c.id = c'.id → c = c'
  devs : ∀ p d c, s.st.look p = some d → d.conn = some c → c.id < s.accepted
  open_ : ∀ i, s.accepted ≤ i → s.st.closed i = false

theorem devNext_conn_or {clk : Clock} {c : Conn} {h : Header} {taken : Str → Bool} {m : Msg} {o : Option Device}
    {d' : Device} (he : devNext clk c h taken m o = some d') :
    d'.conn = some c ∨ ∃ d, o = some d ∧ d'.conn = d.conn := by
  cases o with
  | none =>
    cases m <;> simp only [devNext] at he <;> first | cases he | skip
    case m0100 m =>
      by_cases ht : taken m.plate = true
      · rw [if_pos ht] at he; cases he
      · rw [if_neg ht] at he; injection he with he; subst he; exact .inl rfl
  | some d =>
    right
    refine ⟨d, rfl, ?_⟩
    cases m <;> simp only [devNext] at he <;> first | cases he | skip
    all_goals first | rfl | skip
    case m0102 m =>
      by_cases ht : m.code = d.code
      · rw [if_pos ht] at he; injection he with he; subst he; rfl
      · rw [if_neg ht] at he; cases he
    all_goals split <;> rfl

/-- What closes the connection with number `i`. -/
inductive ClosedBy (env : Env) (s : Sys) (i : Nat) : Ev → Prop
  | frame (clk : Clock) (c : Conn) (bytes : List UInt8) (werr : Option Err) : c ∈ s.live → c.id = i →
      (s.st.serveFrame env clk c werr bytes).2.ended = true → ClosedBy env s i (.frame clk c bytes werr)
  | readErr (c : Conn) (e : Err) : c ∈ s.live → c.id = i → e.endsServe = true → ClosedBy env s i (.readErr c e)
  | check (clk : Clock) (p : Str) (d : Device) (c : Conn) : s.st.look p = some d → d.conn = some c → c.id = i →
      d.status = .offline → d.last + 60000 < clk.ms → ClosedBy env s i (.check clk p)
  | query (p : Str) (d : Device) (c : Conn) : s.st.look p = some d → s.st.session d.sessionID = some c → c.id = i →
      ClosedBy env s i (.httpQuery p (some .closed))
  | set (p : Str) (d : Device) (c : Conn) (bound : DeviceParams) (bad : Bool) : s.st.look p = some d →
      s.st.session d.sessionID = some c → c.id = i → ClosedBy env s i (.httpSet p bound bad (some .closed))

theorem remove_closes {st : Store} {c : Conn} {i : Nat} (h0 : st.closed i = false) (h1 : (st.remove c).closed i = true) :
    c.id = i := by
  rw [closed_remove] at h1
  by_cases h : i = c.id
  · exact h.symm
  · rw [if_neg h, h0] at h1; cases h1

theorem apiSend_closes {env : Env} {werr : Option Err} {st : Store} {r : Ref} {code : Option Nat} {id : UInt16} {m : Msg}
    {i : Nat} (h0 : st.closed i = false) (h1 : (st.apiSend env werr r code id m).1.closed i = true) :
    werr = some .closed ∧ ∃ c, st.session (st.heap r).sessionID = some c ∧
      ∃ c', st.session c.addr = some c' ∧ c'.id = i := by
  unfold Store.apiSend at h1
  simp only at h1
  cases hs : st.session (st.heap r).sessionID with
  | none => rw [hs] at h1; simp only at h1; rw [h0] at h1; cases h1
  | some c =>
    rw [hs] at h1
    simp only at h1
    generalize hx : genMsgHeader (st.heap r).phone (st.heap r).ver (st.heap r).protoVer id (st.takeSerial c).2 = hd at h1
    have hk : ((st.takeSerial c).1.serverSend env werr c.addr (hd, m)).1.closed i = true := by
      cases hq : (st.takeSerial c).1.serverSend env werr c.addr (hd, m) with
      | mk st2 r2 => rw [hq] at h1; cases r2 <;> exact h1
    unfold Store.serverSend at hk
    have hs2 : (st.takeSerial c).1.session c.addr = st.session c.addr := rfl
    have h02 : (st.takeSerial c).1.closed i = false := h0
    rw [hs2] at hk
    cases hs3 : st.session c.addr with
    | none => rw [hs3] at hk; simp only at hk; rw [h02] at hk; cases hk
    | some c' =>
      rw [hs3] at hk
      simp only at hk
      cases ho : Out.encode env (hd, m) with
      | panic => rw [ho] at hk; simp only at hk; rw [h02] at hk; cases hk
      | err e => rw [ho] at hk; simp only at hk; rw [h02] at hk; cases hk
      | ok f =>
        rw [ho] at hk
        simp only at hk
        cases werr with
        | none => simp only at hk; rw [h02] at hk; cases hk
        | some e =>
          cases e <;> simp only at hk <;> first | (rw [h02] at hk; cases hk; done) | skip
          exact ⟨rfl, c, rfl, c', hs3, remove_closes h02 hk⟩

theorem check_closes {clk : Clock} {st : Store} (h : StoreInv st) {p : Str} (hj : p ∈ st.jobs) {i : Nat}
    (h0 : st.closed i = false) (h1 : (st.check clk p).1.closed i = true) :
    ∃ d c, st.look p = some d ∧ d.conn = some c ∧ c.id = i ∧ d.status = .offline ∧ d.last + 60000 < clk.ms := by
  obtain ⟨r, hr⟩ := Option.isSome_iff_exists.1 ((h.jobs p).1 hj)
  obtain ⟨cn, hcn, h2⟩ := check_registered (clk := clk) h hr
  rw [h2] at h1
  simp only at h1
  by_cases h3 : (st.heap r).shouldTurnOffline clk.ms = true
  · rw [if_pos h3] at h1; rw [show (st.setDev r (st.heap r).lost).closed i = st.closed i from rfl, h0] at h1; cases h1
  · rw [if_neg h3] at h1
    by_cases h4 : (st.heap r).shouldClear clk.ms = true
    · rw [if_pos h4] at h1
      have hd : ∀ (s : Store) (p : Str), (s.delByPhone p).closed = s.closed := by
        intro s p; unfold Store.delByPhone; cases s.byPhone.get p <;> rfl
      have h5 : ((st.closeConn cn).delByPhone p).closed i = true := h1
      rw [hd] at h5
      unfold Store.closeConn at h5
      simp only at h5
      refine ⟨st.heap r, cn, Store.look_some.2 ⟨r, hr, rfl⟩, hcn, ?_, ?_, ?_⟩
      · by_cases hi : i = cn.id
        · exact hi.symm
        · rw [if_neg hi, h0] at h5; cases h5
      · unfold Device.shouldClear at h4; simp at h4; exact h4.1
      · unfold Device.shouldClear at h4; simp at h4; rw [h.keep _ _ hr] at h4; omega
    · rw [if_neg h4, h0] at h1; cases h1

/-- An event that closes a connection is one of these. -/
theorem step_closed (env : Env) (s : Sys) (e : Ev) (h : StoreInv s.st) (hs : SessInv s) (i : Nat)
    (h0 : s.st.closed i = false) (h1 : (s.step env e).1.st.closed i = true) : ClosedBy env s i e := by
  unfold Sys.step at h1
  by_cases hcr : s.crashed = true
  · rw [if_pos hcr, h0] at h1; cases h1
  · rw [if_neg hcr] at h1
    cases e with
    | accept addr => simp only [Store.storeSession, h0] at h1; cases h1
    | frame clk c bytes werr =>
      simp only at h1
      by_cases hl : c ∈ s.live
      · rw [if_pos hl] at h1
        simp only at h1
        rcases serveFrame_conns env clk c werr h bytes with ⟨e0, e1, e2⟩ | ⟨e0, e1, e2⟩
        · rw [e2, h0] at h1; cases h1
        · rw [e2] at h1; exact .frame clk c bytes werr hl (remove_closes h0 h1) e0
      · rw [if_neg hl, h0] at h1; cases h1
    | readErr c e =>
      simp only at h1
      by_cases hl : c ∈ s.live
      · rw [if_pos hl] at h1
        simp only [Store.serveErr] at h1
        by_cases he : e.endsServe = true
        · rw [if_pos he] at h1; exact .readErr c e hl (remove_closes h0 h1) he
        · rw [if_neg he, h0] at h1; cases h1
      · rw [if_neg hl, h0] at h1; cases h1
    | check clk phone =>
      simp only at h1
      by_cases hj : phone ∈ s.st.jobs
      · rw [if_pos hj] at h1
        obtain ⟨d, c, a1, a2, a3, a4, a5⟩ := check_closes h hj h0 h1
        exact .check clk phone d c a1 a2 a3 a4 a5
      · rw [if_neg hj, h0] at h1; cases h1
    | httpList => simp only [h0] at h1; cases h1
    | httpGeo phone =>
      simp only at h1
      rw [(apiGeo_conns s.st phone).2, h0] at h1; cases h1
    | httpQuery phone werr =>
      simp only [Store.apiQuery] at h1
      cases hd : s.st.devByPhone phone with
      | none => rw [hd] at h1; simp only [h0] at h1; cases h1
      | some r =>
        rw [hd] at h1
        obtain ⟨rfl, c, a1, c', a2, a3⟩ := apiSend_closes h0 h1
        rw [(hs.served _ _ a1).2, a1] at a2
        injection a2 with a2; subst a2
        exact .query phone _ c (Store.look_some.2 ⟨r, hd, rfl⟩) a1 a3
    | httpSet phone bound bad werr =>
      simp only [Store.apiSet] at h1
      cases hd : s.st.devByPhone phone with
      | none => rw [hd] at h1; simp only [h0] at h1; cases h1
      | some r =>
        rw [hd] at h1
        obtain ⟨rfl, c, a1, c', a2, a3⟩ := apiSend_closes h0 h1
        rw [(hs.served _ _ a1).2, a1] at a2
        injection a2 with a2; subst a2
        exact .set phone _ c bound bad (Store.look_some.2 ⟨r, hd, rfl⟩) a1 a3

/-- Only an accept changes the number of accepted connections. -/
theorem step_accepted (env : Env) (s : Sys) (e : Ev) : s.accepted ≤ (s.step env e).1.accepted := by
  unfold Sys.step
  by_cases hcr : s.crashed = true
  · rw [if_pos hcr]; exact Nat.le_refl _
  · rw [if_neg hcr]
    cases e <;> simp only <;> first | omega | (split <;> exact Nat.le_refl _)

/-- Served connections after an event were served before, or have just been accepted. -/
theorem step_live (env : Env) (s : Sys) (e : Ev) :
    (∀ c ∈ (s.step env e).1.live, c ∈ s.live) ∨
    (∃ a, e = .accept a ∧ (s.step env e).1.live = ⟨s.accepted, a⟩ :: s.live ∧ (s.step env e).1.accepted = s.accepted + 1) := by
  unfold Sys.step
  by_cases hcr : s.crashed = true
  · rw [if_pos hcr]; exact .inl fun _ h => h
  · rw [if_neg hcr]
    cases e with
    | accept a => exact .inr ⟨a, rfl, rfl, rfl⟩
    | frame clk c bytes werr =>
      left; simp only
      split
      · simp only; split
        · exact fun c hc => (List.mem_filter.1 hc).1
        · exact fun _ h => h
      · exact fun _ h => h
    | readErr c e =>
      left; simp only
      split
      · simp only; split
        · exact fun c hc => (List.mem_filter.1 hc).1
        · exact fun _ h => h
      · exact fun _ h => h
    | check clk p => left; simp only; split <;> exact fun _ h => h
    | httpList => exact .inl fun _ h => h
    | httpGeo p => exact .inl fun _ h => h
    | httpQuery p w => exact .inl fun _ h => h
    | httpSet p b x w => exact .inl fun _ h => h

theorem step_conn (env : Env) (s : Sys) (e : Ev) (h : StoreInv s.st) (hs : SessInv s) (hc : ConnInv s) :
    ConnInv (s.step env e).1 := by
  have ha := step_accepted env s e
  have hdevs : ∀ p d c, (s.step env e).1.st.look p = some d → d.conn = some c → c.id < (s.step env e).1.accepted := by
    intro p d c hd hcn
    refine Nat.lt_of_lt_of_le ?_ ha
    generalize ho : (s.step env e).1.st.look p = o at hd
    have hv := step_dev env s e h p
    rw [ho] at hv
    cases hv with
    | same => exact hc.devs p d c hd hcn
    | msg clk c' bytes werr hh m hl hdl hp =>
      rcases devNext_conn_or hd with h1 | ⟨d0, h1, h2⟩
      · rw [h1] at hcn; injection hcn with hcn; subst hcn; exact hc.ids _ hl
      · exact hc.devs p d0 c h1 (by rw [← h2]; exact hcn)
    | chk clk hj =>
      cases hl : s.st.look p with
      | none => rw [hl] at hd; cases hd
      | some d0 =>
        rw [hl] at hd
        refine hc.devs p d0 c hl ?_
        simp only [Option.bind_some, devCheck] at hd
        rw [← hcn]
        split at hd
        · split at hd
          · cases hd
          · injection hd with hd; subst hd; rfl
        · injection hd with hd; subst hd; rfl
  have hopen : ∀ i, (s.step env e).1.accepted ≤ i → (s.step env e).1.st.closed i = false := by
    intro i hi
    have h0 := hc.open_ i (by omega)
    cases h1 : (s.step env e).1.st.closed i with
    | false => rfl
    | true =>
      have hsess : ∀ {a c}, s.st.session a = some c → c.id ≠ i := fun hx he => by
        have := hc.ids _ (hs.served _ _ hx).1; omega
      cases step_closed env s e h hs i h0 h1 with
      | frame clk c bytes werr a1 a2 => have := hc.ids _ a1; omega
      | readErr c e a1 a2 => have := hc.ids _ a1; omega
      | check clk p d c a1 a2 a3 => have := hc.devs _ _ _ a1 a2; omega
      | query p d c a1 a2 a3 => exact absurd a3 (hsess a2)
      | set p d c b x a1 a2 a3 => exact absurd a3 (hsess a2)
  rcases step_live env s e with hl | ⟨a, -, hl, hacc⟩
  · exact ⟨fun c hm => Nat.lt_of_lt_of_le (hc.ids c (hl c hm)) ha,
      fun c hm c' hm' => hc.inj c (hl c hm) c' (hl c' hm'), hdevs, hopen⟩
  · refine ⟨fun c hm => ?_, fun c hm c' hm' he => ?_, hdevs, hopen⟩
    · rw [hl] at hm; rw [hacc]
      rcases List.mem_cons.1 hm with rfl | hm
      · exact Nat.lt_succ_self _
      · have := hc.ids c hm; omega
    · rw [hl] at hm hm'
      rcases List.mem_cons.1 hm with rfl | hm <;> rcases List.mem_cons.1 hm' with rfl | hm'
      · rfl
      · have := hc.ids c' hm'; simp only at he; omega
      · have := hc.ids c hm; simp only at he; omega
      · exact hc.inj c hm c' hm' he

theorem start_conn : ConnInv Sys.start :=
  ⟨fun c hc => (by cases hc), fun c hc => (by cases hc), fun p d c hd => (by cases hd), fun _ _ => rfl⟩

theorem reachable_conn (env : Env) (evs : List Ev) : ConnInv (Sys.start.run env evs).1 := by
  induction evs using snoc_ind with
  | h0 => exact start_conn
  | h1 evs e ih => rw [run_snoc]; exact step_conn env _ e (reachable_inv env evs).1 (reachable_sess env evs) ih

end JT808
