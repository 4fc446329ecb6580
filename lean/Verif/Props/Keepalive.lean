import Verif.Proof.Tracks
/-
C43, C44, C46, C51: keepalive checks and what a frame can do to the process.
-/
namespace JT808
open Spec


/-! ## C43 heartbeats protect -/

/-- After a heartbeat of a registered phone at time `t`, and whatever happens afterwards on clocks that do not run
backwards, a keepalive check of that phone no later than one minute after `t` changes nothing at all. -/
theorem C43_heartbeat_protects (env : Env) (evs evs' : List Ev) (clk clk' : Clock) (c : Conn) (bytes : List UInt8)
    (werr : Option Err) (h : Header) (hc : c ∈ (Sys.start.run env evs).1.live)
    (hh : Holds env clk.civil bytes h .m0002)
    (hmono : ∀ e ∈ evs', ∀ t', e.time = some t' → clk.ms ≤ t') (hk : clk'.ms ≤ clk.ms + 60000) :
    let s := (Sys.start.run env (evs ++ .frame clk c bytes werr :: evs')).1
    s.step env (.check clk' h.phone) = (s, Obs.none) := by
  have hi := reachable_inv env evs
  have hi2 := reachable_inv env (evs ++ .frame clk c bytes werr :: evs')
  refine check_recent env hi2.1 hi2.2 h.phone ?_
  intro d hd
  have key : clk.ms ≤ d.last := by
    rw [run_append] at hd
    refine run_last env evs' _ (step_inv env _ (.frame clk c bytes werr) hi.1).1 h.phone clk.ms hmono ?_ d hd
    intro d1 hd1
    unfold Sys.step at hd1
    rw [if_neg (by rw [hi.2]; simp)] at hd1
    simp only at hd1
    rw [if_pos hc] at hd1
    simp only at hd1
    rw [look_serveFrame hi.1 (hh.delivers _), if_pos rfl] at hd1
    cases ho : (Sys.start.run env evs).1.st.look h.phone with
    | none => rw [ho] at hd1; cases hd1
    | some d0 =>
      rw [ho] at hd1; simp only [devNext] at hd1; injection hd1 with hd1; subst hd1
      exact Nat.le_refl _
  omega

/-- Any device heard of within the last minute is safe, whatever it last sent. -/
theorem C43_recent (env : Env) (evs : List Ev) (clk : Clock) (p : Str)
    (hl : ∀ d, (Sys.start.run env evs).1.st.look p = some d → clk.ms ≤ d.last + 60000) :
    (Sys.start.run env evs).1.step env (.check clk p) = ((Sys.start.run env evs).1, Obs.none) :=
  check_recent env (reachable_inv env evs).1 (reachable_inv env evs).2 p hl

example : demoC ∈ (Sys.start.run goEnv demoEvs).1.live ∧ Holds goEnv (demoClk 50000).civil demoBeat (hdr2013 0x0002) .m0002 :=
  ⟨by decide +kernel, demoBeat_holds _⟩
-- without the heartbeat at 50 s this check would remove the terminal
example : ((demoSys.step goEnv (.frame (demoClk 50000) demoC demoBeat none)).1.step goEnv
    (.check (demoClk 110000) (hdr2013 0).phone)).1.st.look (hdr2013 0).phone ≠ none ∧
    (demoSys.step goEnv (.check (demoClk 110000) (hdr2013 0).phone)).1.st.look (hdr2013 0).phone = none := by
  decide +kernel

/-! ## C44 silent terminals -/

/-- A check of a registered phone not heard of for more than a minute: a terminal that is not offline is turned
offline and stays; one that is offline already is removed from both indexes, with its locations and its job, and its
connection is closed. -/
theorem C44_one_check (env : Env) (evs : List Ev) (clk : Clock) (p : Str) (d : Device)
    (hd : (Sys.start.run env evs).1.st.look p = some d) (ht : d.last + 60000 < clk.ms) :
    let s' := ((Sys.start.run env evs).1.step env (.check clk p)).1
    (d.status ≠ .offline → s'.st.look p = some { d with status := .offline } ∧ s'.st.lookPlate d.plate = s'.st.look p ∧
      s'.st.jobs = (Sys.start.run env evs).1.st.jobs) ∧
    (d.status = .offline → s'.st.look p = none ∧ s'.st.lookPlate d.plate = none ∧ s'.st.geos.get p = none ∧
      p ∉ s'.st.jobs ∧ ∃ c, d.conn = some c ∧ s'.st.closed c.id = true) := by
  have hi := reachable_inv env evs
  obtain ⟨r, hr, rfl⟩ := Store.look_some.1 hd
  obtain ⟨cn, hcn, h2⟩ := check_registered (clk := clk) hi.1 hr
  have hk := hi.1.keep _ _ hr
  have hj : p ∈ (Sys.start.run env evs).1.st.jobs := (hi.1.jobs p).2 (by rw [hr]; rfl)
  have ht' : clk.ms > 60000 + ((Sys.start.run env evs).1.st.heap r).last := by omega
  have hs : ((Sys.start.run env evs).1.step env (.check clk p)).1.st =
      ((Sys.start.run env evs).1.st.check clk p).1 := by
    unfold Sys.step
    rw [if_neg (by rw [hi.2]; simp)]
    simp only
    rw [if_pos hj]
  intro s'
  simp only [s']
  rw [hs, h2]
  unfold Device.shouldTurnOffline Device.shouldClear
  refine ⟨?_, ?_⟩
  · intro hst
    have hb : (((Sys.start.run env evs).1.st.heap r).status != DStatus.offline) = true := by simpa using hst
    simp only [hb, hk, ht', decide_true, Bool.and_self, if_true]
    refine ⟨by rw [look_setDev hi.1 hr, if_pos rfl]; simp only [Device.lost, hk], ?_, rfl⟩
    rw [look_setDev hi.1 hr, if_pos rfl, lookPlate_setDev hi.1 hr, if_pos rfl]
  · intro hst
    simp only [hst, hk, ht', bne_self_eq_false, Bool.false_and, Bool.false_eq_true, if_false, beq_self_eq_true,
          decide_true, Bool.and_self, if_true]
    rw [clear_eq]
    have h4 : StoreInv ((Sys.start.run env evs).1.st.closeConn cn) :=
      hi.1.of_same ⟨rfl, rfl, rfl, rfl, rfl⟩ hi.1.rings hi.1.params
    have h5 := look_drop h4 (p := p) (r := r) hr p
    have h6 := lookPlate_drop h4 (p := p) (r := r) hr ((Sys.start.run env evs).1.st.heap r).plate
    have h7 := Store.delByPhone_eq (st := ((Sys.start.run env evs).1.st.closeConn cn).cancelJob p) hr
      (hi.1.phoneOK _ _ hr).2.1
    rw [if_pos rfl] at h5
    refine ⟨h5, ?_, AMap.get_del_self _ _, ?_, cn, hcn, ?_⟩
    · exact h6.trans (if_pos rfl)
    · rw [h7]; simp [Store.delGeo, Store.cancelJob]
    · rw [h7]; simp [Store.delGeo, Store.cancelJob, Store.closeConn]

/-- Two checks of a terminal that is not offline and is silent: if between and before them no frame speaks for the
phone, the first one turns it offline, the second one removes it. -/
theorem C44_two_checks (env : Env) (evs a b : List Ev) (clk clk' : Clock) (p : Str) (d : Device)
    (hd : (Sys.start.run env evs).1.st.look p = some d) (hs : d.status ≠ .offline)
    (ha : ∀ e ∈ a, ¬ e.touches env p) (hb : ∀ e ∈ b, ¬ e.touches env p)
    (ht : d.last + 60000 < clk.ms) (ht' : clk.ms ≤ clk'.ms) :
    (Sys.start.run env (evs ++ a ++ [.check clk p])).1.st.look p = some { d with status := .offline } ∧
    (let s' := (Sys.start.run env (evs ++ a ++ [.check clk p] ++ b ++ [.check clk' p])).1
     s'.st.look p = none ∧ s'.st.lookPlate d.plate = none ∧ s'.st.geos.get p = none ∧ p ∉ s'.st.jobs ∧
      ∃ c, d.conn = some c ∧ s'.st.closed c.id = true) := by
  have h1 : (Sys.start.run env (evs ++ a)).1.st.look p = some d := by
    rw [run_append, run_untouched env a _ (reachable_inv env evs).1 p ha]; exact hd
  have h2 := ((C44_one_check env (evs ++ a) clk p d h1 ht).1 hs).1
  rw [← run_snoc] at h2
  refine ⟨h2, ?_⟩
  have h3 : (Sys.start.run env (evs ++ a ++ [.check clk p] ++ b)).1.st.look p = some { d with status := .offline } := by
    rw [run_append, run_untouched env b _ (reachable_inv env _).1 p hb]; exact h2
  have h4 := (C44_one_check env _ clk' p { d with status := .offline } h3 (by simp only; omega)).2 rfl
  rw [run_snoc]
  exact h4

/-- Registered, authenticated, silent. -/
def silentEvs : List Ev := demoEvs ++ [.frame (demoClk 2000) demoC (demoAuth demoCode) none]
example : ((Sys.start.run goEnv silentEvs).1.st.look (hdr2013 0).phone).map (fun d => (d.status, d.last))
    = some (.online, 2000) := by decide +kernel
example : (Sys.start.run goEnv (silentEvs ++ [.check (demoClk 63000) (hdr2013 0).phone, .httpList,
    .check (demoClk 64000) (hdr2013 0).phone])).1.st.look (hdr2013 0).phone = none := by decide +kernel

/-! ## C46 checks and crashes -/

/-- With handlers and checks that run one at a time no check dereferences a missing device, in any history.  Missing:
checks that run while a handler of the same phone is under way (see C46 in Verif/Props/Conc.lean). -/
theorem C46_sequential_partial (env : Env) (evs : List Ev) :
    (Sys.start.run env evs).1.crashed = false ∧
    ∀ clk p, p ∈ (Sys.start.run env evs).1.st.jobs → ((Sys.start.run env evs).1.st.check clk p).2 = .ok () :=
  ⟨(reachable_inv env evs).2, fun _ _ hp => (check_inv (reachable_inv env evs).1 hp).2⟩

example : (hdr2013 0).phone ∈ demoSys.st.jobs := by decide +kernel

/-! ## C51 hostile frames -/

/-- Whatever bytes arrive as a frame on a served connection, in whatever state: the process goes on, its stores stay
consistent, all other connections stay served and open with their sessions, and what is sent goes to this connection. -/
theorem C51_any_frame (env : Env) (evs : List Ev) (clk : Clock) (c : Conn) (bytes : List UInt8) (werr : Option Err) :
    let s := (Sys.start.run env evs).1
    let r := s.step env (.frame clk c bytes werr)
    r.1.crashed = false ∧ StoreInv r.1.st ∧
    (∀ c' f, r.2.sent = some (c', f) → c' = c ∧ r.2.ended = false) ∧
    (∀ c', c' ≠ c → (c' ∈ r.1.live ↔ c' ∈ s.live)) ∧
    (∀ i, i ≠ c.id → r.1.st.closed i = s.st.closed i) ∧
    (∀ a, a ≠ c.addr → r.1.st.session a = s.st.session a) ∧
    (r.2.ended = false → r.1.live = s.live ∧ r.1.st.closed = s.st.closed ∧ r.1.st.sessions = s.st.sessions) := by
  have hi := reachable_inv env evs
  have hi2 := step_inv env (Sys.start.run env evs).1 (.frame clk c bytes werr) hi.1
  refine ⟨hi2.2 hi.2, hi2.1, ?_⟩
  generalize (Sys.start.run env evs).1 = s at *
  unfold Sys.step
  rw [if_neg (by rw [hi.2]; simp)]
  simp only
  by_cases hl : c ∈ s.live
  · rw [if_pos hl]
    simp only
    have hq := handleFrame_conns env clk c hi.1 bytes
    refine ⟨?_, ?_, ?_, ?_, ?_⟩
    · intro c' f hs
      unfold Store.serveFrame at hs ⊢
      cases hx : s.st.handleFrame env clk c bytes with
      | mk st1 o =>
        rw [hx] at hs
        cases o with
        | silent => cases hs
        | panicked => cases hs
        | failed e =>
          simp only at hs
          by_cases h1 : e.endsServe = true
          · rw [if_pos h1] at hs; cases hs
          · rw [if_neg h1] at hs; cases hs
        | reply g =>
          cases werr with
          | none => simp only [Option.some.injEq, Prod.mk.injEq] at hs; exact ⟨hs.1.symm, rfl⟩
          | some e =>
            simp only at hs
            by_cases h1 : e.endsServe = true
            · rw [if_pos h1] at hs; cases hs
            · rw [if_neg h1] at hs; cases hs
    · intro c' hc
      by_cases h1 : (s.st.serveFrame env clk c werr bytes).2.ended = true
      · rw [if_pos h1, List.mem_filter]; simp [hc]
      · rw [if_neg h1]
    · intro i hne
      rcases serveFrame_handle (env := env) (clk := clk) (c := c) (werr := werr) (st := s.st) (frame := bytes) with e | e
      · rw [e, hq.1]
      · rw [e]; simp [Store.remove, Store.closeConn, Store.clearSession, hne, hq.1]
    · intro a hne
      rcases serveFrame_handle (env := env) (clk := clk) (c := c) (werr := werr) (st := s.st) (frame := bytes) with e | e
      · rw [e]; unfold Store.session; rw [hq.2]
      · rw [e]
        show (AMap.del _ _).get a = _
        rw [AMap.get_del_ne _ hne]
        show (s.st.handleFrame env clk c bytes).1.sessions.get a = _
        rw [hq.2]; rfl
    · intro hn
      rw [if_neg (by rw [hn]; simp)]
      refine ⟨rfl, ?_⟩
      have : (s.st.serveFrame env clk c werr bytes).1 = (s.st.handleFrame env clk c bytes).1 := by
        unfold Store.serveFrame at hn ⊢
        cases hx : s.st.handleFrame env clk c bytes with
        | mk st1 o =>
          rw [hx] at hn
          cases o with
          | silent => rfl
          | panicked => cases hn
          | failed e =>
            simp only at hn ⊢
            by_cases h1 : e.endsServe = true
            · rw [if_pos h1] at hn; cases hn
            · rw [if_neg h1]
          | reply g =>
            cases werr with
            | none => rfl
            | some e =>
              simp only at hn ⊢
              by_cases h1 : e.endsServe = true
              · rw [if_pos h1] at hn; cases hn
              · rw [if_neg h1]
      rw [this]; exact hq
  · rw [if_neg hl]
    exact ⟨fun c' f hs => (by cases hs), fun _ _ => Iff.rfl, fun _ _ => rfl, fun _ _ => rfl,
      fun _ => ⟨rfl, rfl, rfl⟩⟩

end JT808
