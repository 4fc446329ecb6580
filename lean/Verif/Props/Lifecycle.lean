import Verif.Props.Keepalive
import Verif.Props.Auth
/-
C73-C76: how a terminal's status changes over time.
-/
namespace JT808
open Spec

/-- Event `e`, if it is a frame that speaks for `p`, is a heartbeat or a location report with ACC on. -/
def Ev.chatter (env : Env) (p : Str) (e : Ev) : Prop :=
  ∀ clk c bytes werr, e = .frame clk c bytes werr → framePhone env bytes = some p →
    ∃ h m, Holds env clk.civil bytes h m ∧ (m = .m0002 ∨ ∃ l, m = .m0200 l ∧ (GeoMeta.decode l.status).acc ≠ 0)

theorem devNext_chatter {clk : Clock} {c : Conn} {h : Header} {taken : Str → Bool} {m : Msg} (d : Device)
    (hm : m = .m0002 ∨ ∃ l, m = .m0200 l ∧ (GeoMeta.decode l.status).acc ≠ 0) :
    ∃ d', devNext clk c h taken m (some d) = some d' ∧ d'.status = d.status := by
  rcases hm with rfl | ⟨l, rfl, ha⟩
  · exact ⟨_, rfl, rfl⟩
  · refine ⟨d, ?_, rfl⟩
    simp only [devNext]
    rw [if_neg ha]

/-! ## C73 waking up -/

/-- The opposite of C73: from any registered state, whatever else happens on other phones and over HTTP, heartbeats and
location reports with ACC on leave the status what it was.  In particular a sleeping terminal goes on sleeping. -/
theorem C73_reports_keep_status (env : Env) (evs evs' : List Ev) (p : Str) (d : Device)
    (hd : (Sys.start.run env evs).1.st.look p = some d) (hc : ∀ e ∈ evs', e.chatter env p)
    (hk : ∀ clk, Ev.check clk p ∉ evs') :
    ((Sys.start.run env (evs ++ evs')).1.st.look p).map (·.status) = some d.status := by
  induction evs' using snoc_ind with
  | h0 => rw [List.append_nil, hd]; rfl
  | h1 evs' e ih =>
    have ih := ih (fun e' he => hc e' (by simp [he])) (fun clk hx => hk clk (by simp [hx]))
    have hce := hc e (by simp)
    have hke : ∀ clk, e ≠ .check clk p := fun clk hx => hk clk (by simp [hx])
    rw [← List.append_assoc, run_snoc]
    have hi := reachable_inv env (evs ++ evs')
    generalize ho : ((Sys.start.run env (evs ++ evs')).1.step env e).1.st.look p = o
    have hdv := step_dev env _ e hi.1 p
    rw [ho] at hdv
    cases hdv with
    | same => exact ih
    | chk clk hj => exact absurd rfl (hke clk)
    | msg clk c bytes werr hh m hl hdl hp =>
      obtain ⟨h', m', h1, h2⟩ := hce clk c bytes werr rfl (by rw [← hp]; exact hdl.phone)
      obtain ⟨rfl, rfl⟩ := hdl.unique (h1.delivers _)
      cases hb : (Sys.start.run env (evs ++ evs')).1.st.look p with
      | none => rw [hb] at ih; cases ih
      | some d1 =>
        rw [hb] at ih
        obtain ⟨d', e1, e2⟩ := devNext_chatter (clk := clk) (c := c) (h := hh)
          (taken := (Sys.start.run env (evs ++ evs')).1.st.taken) d1 h2
        rw [e1, Option.map_some, e2]
        exact ih

/-- What a frame on a served connection makes of its phone. -/
theorem run_frame_look {env : Env} {evs : List Ev} {clk : Clock} {c : Conn} {bytes : List UInt8} {h : Header} {m : Msg}
    (hc : c ∈ (Sys.start.run env evs).1.live) (hh : Delivers env clk.civil (Sys.start.run env evs).1.st bytes h m)
    (werr : Option Err) :
    (Sys.start.run env (evs ++ [.frame clk c bytes werr])).1.st.look h.phone =
      devNext clk c h (Sys.start.run env evs).1.st.taken m ((Sys.start.run env evs).1.st.look h.phone) := by
  have hi := reachable_inv env evs
  rw [run_snoc]
  unfold Sys.step
  rw [if_neg (by rw [hi.2]; simp)]
  simp only
  rw [if_pos hc]
  simp only
  rw [look_serveFrame hi.1 hh, if_pos rfl]

theorem issues_unique {env : Env} {s : Sys} {p code code' : Str} {e : Ev} (h : e.issues env s p code)
    (h' : e.issues env s p code') : code = code' := by
  obtain ⟨clk, c, bytes, werr, hh, m, rfl, hl, hd, hp, hr⟩ := h
  obtain ⟨clk', c', bytes', werr', hh', m', e1, hl', hd', hp', hr'⟩ := h'
  simp only [Ev.frame.injEq] at e1
  obtain ⟨rfl, rfl, rfl, rfl⟩ := e1
  obtain ⟨rfl, -⟩ := hd.unique hd'
  rw [hr] at hr'
  injection hr' with hr'
  exact (registerReply_injective (by omega) (by omega) hr').2

theorem LastIssued.unique {env : Env} {evs : List Ev} {p code code' : Str} (h : LastIssued env evs p code)
    (h' : LastIssued env evs p code') : code = code' := by
  obtain ⟨pre, e, post, rfl, h1, h2⟩ := h
  obtain ⟨pre', e', post', he, h1', h2'⟩ := h'
  rcases List.append_eq_append_iff.1 he with ⟨a, ha, hb⟩ | ⟨a, ha, hb⟩
  · cases a with
    | nil =>
      simp only [List.append_nil, List.nil_append, List.cons.injEq] at ha hb
      obtain ⟨rfl, rfl⟩ := hb
      subst ha
      exact issues_unique h1 h1'
    | cons x a =>
      simp only [List.cons_append, List.cons.injEq] at hb
      obtain ⟨rfl, rfl⟩ := hb
      subst ha
      exact absurd h1' (h2 a e' post' rfl code')
  · cases a with
    | nil =>
      simp only [List.append_nil, List.nil_append, List.cons.injEq] at ha hb
      obtain ⟨rfl, rfl⟩ := hb
      subst ha
      exact issues_unique h1 h1'
    | cons x a =>
      simp only [List.cons_append, List.cons.injEq] at hb
      obtain ⟨rfl, rfl⟩ := hb
      subst ha
      exact absurd h1 (h2' a e post rfl code)

/-- What does wake a sleeping terminal: an authentication with the issued code.  Missing: location reports with ACC on,
which do not (C73_reports_keep_status). -/
theorem C73_auth_wakes_partial (env : Env) (evs : List Ev) (clk : Clock) (c : Conn) (bytes : List UInt8)
    (werr : Option Err) (h : Header) (m : AuthMsg) (hc : c ∈ (Sys.start.run env evs).1.live)
    (hd : ((Sys.start.run env evs).1.st.look h.phone).isSome)
    (hh : Holds env clk.civil bytes h (.m0102 m)) (hm : LastIssued env evs h.phone m.code) :
    ((Sys.start.run env (evs ++ [.frame clk c bytes werr])).1.st.look h.phone).map (·.status) = some .online := by
  obtain ⟨d, hd⟩ := Option.isSome_iff_exists.1 hd
  have hcode := hm.unique (registered_issued env evs h.phone d hd)
  rw [run_frame_look hc (hh.delivers _), hd]
  simp only [devNext]
  rw [if_pos hcode]; rfl

/-- Registered, authenticated, parked with ACC off. -/
def parkedEvs : List Ev := silentEvs ++ [.frame (demoClk 3000) demoC (demoLoc 2 31230000) none]
example : ((Sys.start.run goEnv parkedEvs).1.st.look (hdr2013 0).phone).map (·.status) = some .sleeping := by decide +kernel
-- the engine is started: a location with ACC on, and a heartbeat, which satisfy the hypotheses
example : ∀ e ∈ [Ev.frame (demoClk 4000) demoC (demoLoc 3 31230000) none, .frame (demoClk 5000) demoC demoBeat none],
    e.chatter goEnv (hdr2013 0).phone := by
  intro e he clk c bytes werr hx hp
  simp only [List.mem_cons, List.not_mem_nil, or_false] at he
  rcases he with rfl | rfl
  · simp only [Ev.frame.injEq] at hx
    obtain ⟨rfl, rfl, rfl, rfl⟩ := hx
    exact ⟨_, _, demoLoc_holds _, .inr ⟨_, rfl, by decide⟩⟩
  · simp only [Ev.frame.injEq] at hx
    obtain ⟨rfl, rfl, rfl, rfl⟩ := hx
    exact ⟨_, _, demoBeat_holds _, .inl rfl⟩
-- the terminal drives and still sleeps
example : ((Sys.start.run goEnv (parkedEvs ++ [.frame (demoClk 4000) demoC (demoLoc 3 31230000) none,
    .frame (demoClk 5000) demoC demoBeat none])).1.st.look (hdr2013 0).phone).map (·.status) = some .sleeping := by
  decide +kernel
example : ((Sys.start.run goEnv (parkedEvs ++ [.frame (demoClk 4000) demoC (demoAuth demoCode) none])).1.st.look
    (hdr2013 0).phone).map (·.status) = some .online := by decide +kernel

/-! ## C74 coming back online -/

/-- The opposite of C74: from any state in which the phone is offline or unknown, heartbeats, location reports with ACC
on, registrations, keepalive checks, and anything concerning other phones leave it offline or unknown. -/
theorem C74_stays_offline (env : Env) (evs evs' : List Ev) (p : Str)
    (hd : ∀ d, (Sys.start.run env evs).1.st.look p = some d → d.status = .offline)
    (hc : ∀ clk c bytes werr, Ev.frame clk c bytes werr ∈ evs' → framePhone env bytes = some p →
      ∃ h m, Holds env clk.civil bytes h m ∧
        (m = .m0002 ∨ (∃ l, m = .m0200 l ∧ (GeoMeta.decode l.status).acc ≠ 0) ∨ ∃ r, m = .m0100 r)) :
    ∀ d, (Sys.start.run env (evs ++ evs')).1.st.look p = some d → d.status = .offline := by
  induction evs' using snoc_ind with
  | h0 => rw [List.append_nil]; exact hd
  | h1 evs' e ih =>
    have ih := ih (fun clk c bytes werr he => hc clk c bytes werr (by simp [he]))
    rw [← List.append_assoc, run_snoc]
    have hi := reachable_inv env (evs ++ evs')
    generalize ho : ((Sys.start.run env (evs ++ evs')).1.step env e).1.st.look p = o
    have hdv := step_dev env _ e hi.1 p
    rw [ho] at hdv
    intro d he
    cases hdv with
    | same => exact ih d he
    | chk clk hj =>
      cases hb : (Sys.start.run env (evs ++ evs')).1.st.look p with
      | none => rw [hb] at he; cases he
      | some d0 =>
        rw [hb] at he
        have h0 := ih d0 hb
        simp only [Option.bind_some, devCheck] at he
        split at he
        · cases he
        · injection he with he; rw [← he]; exact h0
    | msg clk c bytes werr hh m hl hdl hp =>
      obtain ⟨h', m', h1, h2⟩ := hc clk c bytes werr (by simp) (by rw [← hp]; exact hdl.phone)
      obtain ⟨rfl, rfl⟩ := hdl.unique (h1.delivers _)
      cases hb : (Sys.start.run env (evs ++ evs')).1.st.look p with
      | none =>
        rw [hb] at he
        rcases h2 with rfl | ⟨l, rfl, -⟩ | ⟨r, rfl⟩
        · cases he
        · cases he
        · simp only [devNext] at he
          split at he
          · cases he
          · injection he with he; rw [← he]; rfl
      | some d0 =>
        rw [hb] at he
        have h0 := ih d0 hb
        rcases h2 with h2 | h2 | ⟨r, rfl⟩
        · obtain ⟨d', e1, e2⟩ := devNext_chatter (clk := clk) (c := c) (h := hh)
            (taken := (Sys.start.run env (evs ++ evs')).1.st.taken) d0 (.inl h2)
          rw [e1] at he; injection he with he; rw [← he, e2]; exact h0
        · obtain ⟨d', e1, e2⟩ := devNext_chatter (clk := clk) (c := c) (h := hh)
            (taken := (Sys.start.run env (evs ++ evs')).1.st.taken) d0 (.inr h2)
          rw [e1] at he; injection he with he; rw [← he, e2]; exact h0
        · simp only [devNext] at he
          injection he with he; rw [← he]; exact h0

/-- What holds of C74: a heartbeat of a registered terminal refreshes the time it was last heard of, so an offline
terminal that sends one is not removed for another minute.  Missing: that it is online again. -/
theorem C74_heartbeat_keeps_partial (env : Env) (evs evs' : List Ev) (clk : Clock) (c : Conn) (bytes : List UInt8)
    (werr : Option Err) (h : Header) (hc : c ∈ (Sys.start.run env evs).1.live) (hh : Holds env clk.civil bytes h .m0002)
    (hd : ((Sys.start.run env evs).1.st.look h.phone).isSome)
    (hq : ∀ e ∈ evs', e.touches env h.phone → ∃ clk', e = .check clk' h.phone ∧ clk'.ms ≤ clk.ms + 60000) :
    ((Sys.start.run env (evs ++ .frame clk c bytes werr :: evs')).1.st.look h.phone).map (fun d => (d.last, d.status)) =
      ((Sys.start.run env evs).1.st.look h.phone).map (fun d => (clk.ms, d.status)) := by
  obtain ⟨d, hd⟩ := Option.isSome_iff_exists.1 hd
  have h1 := run_frame_look hc (hh.delivers _) werr
  rw [hd] at h1
  simp only [devNext] at h1
  have h2 : ∀ evs', (∀ e ∈ evs', e.touches env h.phone → ∃ clk', e = .check clk' h.phone ∧ clk'.ms ≤ clk.ms + 60000) →
      (Sys.start.run env (evs ++ [.frame clk c bytes werr] ++ evs')).1.st.look h.phone = some (d.seen clk) := by
    intro evs'
    induction evs' using snoc_ind with
    | h0 => intro _; rw [List.append_nil]; exact h1
    | h1 evs' e ih =>
      intro hq
      have ih := ih (fun e' he => hq e' (by simp [he]))
      rw [← List.append_assoc, run_snoc]
      have hi := reachable_inv env (evs ++ [.frame clk c bytes werr] ++ evs')
      by_cases ht : e.touches env h.phone
      · obtain ⟨clk', rfl, hk⟩ := hq e (by simp) ht
        rw [check_recent env hi.1 hi.2 h.phone]
        · exact ih
        · intro d' hd'
          rw [ih] at hd'; injection hd' with hd'; rw [← hd']; exact hk
      · rw [step_untouched env _ e hi.1 _ ht]; exact ih
  have h3 := h2 evs' hq
  rw [List.append_assoc] at h3
  rw [show evs ++ .frame clk c bytes werr :: evs' = evs ++ ([.frame clk c bytes werr] ++ evs') from rfl, h3, hd]
  rfl

-- an authenticated terminal falls silent, is taken offline, and then sends heartbeats and reports: it stays offline
example : ((Sys.start.run goEnv (silentEvs ++ [.check (demoClk 63000) (hdr2013 0).phone,
    .frame (demoClk 64000) demoC demoBeat none, .frame (demoClk 65000) demoC (demoLoc 3 31230000) none,
    .frame (demoClk 66000) demoC demoBeat none, .check (demoClk 120000) (hdr2013 0).phone])).1.st.look
    (hdr2013 0).phone).map (fun d => (d.last, d.status)) = some (66000, .offline) := by decide +kernel

/-! ## C75 how long a silent terminal stays -/

theorem run_check_look (env : Env) (evs : List Ev) (clk : Clock) (p : Str) :
    (Sys.start.run env (evs ++ [.check clk p])).1.st.look p =
      ((Sys.start.run env evs).1.st.look p).bind (devCheck clk.ms) := by
  have hi := reachable_inv env evs
  rw [run_snoc]
  unfold Sys.step
  rw [if_neg (by rw [hi.2]; simp)]
  simp only
  by_cases hj : p ∈ (Sys.start.run env evs).1.st.jobs
  · rw [if_pos hj]
    simp only
    rw [look_check hi.1 hj, if_pos rfl]
  · rw [if_neg hj]
    have : (Sys.start.run env evs).1.st.look p = none := by
      rw [Store.look_none]
      have := fun hx => hj ((hi.1.jobs p).2 hx)
      simpa using this
    rw [this]; rfl

/-- A keepalive check of `p` later than `t`. -/
def Ev.checkAfter (p : Str) (t : Nat) : Ev → Bool
  | .check clk q => decide (q = p) && decide (t < clk.ms)
  | _ => false

/-- Exactly what becomes of a terminal that says nothing, whatever else happens: what counts is how many of its checks
came more than a minute after it was last heard of.  After none it is what it was, after one it is offline if it was not,
and otherwise it is gone. -/
theorem C75_fate (env : Env) (evs evs' : List Ev) (p : Str) (d : Device)
    (hd : (Sys.start.run env evs).1.st.look p = some d)
    (hq : ∀ clk c bytes werr, Ev.frame clk c bytes werr ∈ evs' → framePhone env bytes ≠ some p) :
    (Sys.start.run env (evs ++ evs')).1.st.look p =
      (if evs'.countP (Ev.checkAfter p (d.last + 60000)) = 0 then some d
       else if evs'.countP (Ev.checkAfter p (d.last + 60000)) = 1 ∧ d.status ≠ .offline
         then some { d with status := .offline } else none) := by
  induction evs' using snoc_ind with
  | h0 => rw [List.append_nil]; simpa using hd
  | h1 evs' e ih =>
    have ih := ih (fun clk c bytes werr he => hq clk c bytes werr (by simp [he]))
    have hi := reachable_inv env (evs ++ evs')
    rw [← List.append_assoc, List.countP_append]
    by_cases hk : e.touches env p
    · cases e with
      | frame clk c bytes werr => exact absurd hk (hq clk c bytes werr (by simp))
      | check clk q =>
        have : q = p := hk
        subst this
        rw [run_check_look, ih]
        simp only [List.countP_cons, List.countP_nil, Ev.checkAfter, decide_true, Bool.true_and, decide_eq_true_eq]
        generalize evs'.countP (Ev.checkAfter q (d.last + 60000)) = n
        by_cases ht : d.last + 60000 < clk.ms
        · rw [if_pos ht]
          by_cases h0 : n = 0
          · subst h0
            simp only [if_true, Option.bind_some, devCheck, ht]
            by_cases hs : d.status = .offline <;> simp [hs, Device.lost]
          · rw [if_neg h0]
            have e1 : ¬ n + (0 + 1) = 0 := by omega
            have e2 : ¬ (n + (0 + 1) = 1 ∧ d.status ≠ .offline) := by omega
            rw [if_neg e1, if_neg e2]
            by_cases h1 : n = 1 ∧ d.status ≠ .offline
            · rw [if_pos h1]; simp [devCheck, ht]
            · rw [if_neg h1]; rfl
        · rw [if_neg ht]
          simp only [Nat.add_zero]
          by_cases h0 : n = 0
          · simp [h0, devCheck, ht]
          · by_cases h1 : n = 1 ∧ d.status ≠ .offline
            · simp [h1, devCheck, ht]
            · simp [h0, h1]
      | _ => exact absurd hk id
    · rw [run_snoc, step_untouched env _ e hi.1 _ hk, ih]
      have : [e].countP (Ev.checkAfter p (d.last + 60000)) = 0 := by
        cases e with
        | check clk q =>
          have : ¬ q = p := hk
          simp [Ev.checkAfter, this]
        | _ => rfl
      rw [this]; rfl

theorem two_le_countP {α : Type} (q : α → Bool) {l : List α} {a b : α} (ha : a ∈ l) (hb : b ∈ l) (hab : a ≠ b)
    (qa : q a = true) (qb : q b = true) : 2 ≤ l.countP q := by
  induction l with
  | nil => cases ha
  | cons x l ih =>
    rw [List.countP_cons]
    rcases List.mem_cons.1 ha with rfl | ha' <;> rcases List.mem_cons.1 hb with rfl | hb'
    · exact absurd rfl hab
    · have := List.countP_pos_iff.2 ⟨b, hb', qb⟩; rw [if_pos qa]; omega
    · have := List.countP_pos_iff.2 ⟨a, ha', qa⟩; rw [if_pos qb]; omega
    · have := ih ha' hb'; omega

theorem three_periods {t0 k l T x : Nat} (h : t0 + k ≤ l + 2 * x) (hT : l + 3 * x ≤ T) : t0 + (k + x) ≤ T := by omega

/-- A terminal whose job runs every minute, counted from some moment `t0` not later than its last sign of life, and that
says nothing, is gone three minutes after that sign, from both indexes, with its job, whatever else happened. -/
theorem C75_gone_after_three_periods (env : Env) (evs evs' : List Ev) (p : Str) (d : Device) (t0 T : Nat)
    (hd : (Sys.start.run env evs).1.st.look p = some d) (h0 : t0 ≤ d.last)
    (hq : ∀ clk c bytes werr, Ev.frame clk c bytes werr ∈ evs' → framePhone env bytes ≠ some p)
    (hjob : ∀ k, d.last < t0 + 60000 * k → t0 + 60000 * k ≤ T → ∃ clk, clk.ms = t0 + 60000 * k ∧ Ev.check clk p ∈ evs')
    (hT : d.last + 3 * 60000 ≤ T) :
    (Sys.start.run env (evs ++ evs')).1.st.look p = none ∧ p ∉ (Sys.start.run env (evs ++ evs')).1.st.jobs := by
  have key : (Sys.start.run env (evs ++ evs')).1.st.look p = none := by
    rw [C75_fate env evs evs' p d hd hq]
    obtain ⟨k, hk1, hk2⟩ : ∃ k, d.last + 60000 < t0 + 60000 * k ∧ t0 + 60000 * k ≤ d.last + 2 * 60000 :=
      ⟨(d.last + 2 * 60000 - t0) / 60000, by omega, by omega⟩
    obtain ⟨c1, e1, m1⟩ := hjob k (by omega) (by omega)
    have e3 : 60000 * (k + 1) = 60000 * k + 60000 := Nat.mul_succ _ _
    have f1 : d.last < t0 + 60000 * (k + 1) := by rw [e3]; omega
    have f2 : t0 + 60000 * (k + 1) ≤ T := by rw [e3]; exact three_periods hk2 hT
    obtain ⟨c2, e2, m2⟩ := hjob (k + 1) f1 f2
    rw [e3] at e2
    have h2 := two_le_countP (Ev.checkAfter p (d.last + 60000)) m1 m2
      (fun hx => by
        have : c1 = c2 := by injection hx
        subst this; clear hx m1 m2; omega)
      (by simp only [Ev.checkAfter, decide_true, Bool.true_and, decide_eq_true_eq]; omega)
      (by simp only [Ev.checkAfter, decide_true, Bool.true_and, decide_eq_true_eq]; omega)
    rw [if_neg (by omega), if_neg (by omega)]
  refine ⟨key, fun hj => ?_⟩
  have := ((reachable_inv env (evs ++ evs')).1.jobs p).1 hj
  rw [Store.look_none.1 key] at this
  cases this

/-- And it is still registered two minutes after that sign if it was not offline: with checks a minute apart at most one
of them falls into the second minute. -/
theorem C75_kept_two_periods (env : Env) (evs evs' : List Ev) (p : Str) (d : Device)
    (hd : (Sys.start.run env evs).1.st.look p = some d) (hs : d.status ≠ .offline)
    (hq : ∀ clk c bytes werr, Ev.frame clk c bytes werr ∈ evs' → framePhone env bytes ≠ some p)
    (hone : evs'.countP (Ev.checkAfter p (d.last + 60000)) ≤ 1) :
    ((Sys.start.run env (evs ++ evs')).1.st.look p).isSome := by
  rw [C75_fate env evs evs' p d hd hq]
  by_cases h0 : evs'.countP (Ev.checkAfter p (d.last + 60000)) = 0
  · rw [if_pos h0]; rfl
  · rw [if_neg h0, if_pos ⟨by omega, hs⟩]; rfl

/-- The job registered at 1 s, over three minutes of silence. -/
def minuteChecks : List Ev := [1, 2, 3].map fun k => .check (demoClk (1000 + 60000 * k)) (hdr2013 0).phone
-- last heard of at 2 s: kept at 61 s and offline at 121 s, gone at 181 s
example : ((Sys.start.run goEnv (silentEvs ++ minuteChecks.take 1)).1.st.look (hdr2013 0).phone).map (·.status) = some .online ∧
    ((Sys.start.run goEnv (silentEvs ++ minuteChecks.take 2)).1.st.look (hdr2013 0).phone).map (·.status) = some .offline ∧
    (Sys.start.run goEnv (silentEvs ++ minuteChecks)).1.st.look (hdr2013 0).phone = none := by decide +kernel
example : ∀ k, 2000 < 1000 + 60000 * k → 1000 + 60000 * k ≤ 182000 →
    ∃ clk : Clock, clk.ms = 1000 + 60000 * k ∧ Ev.check clk (hdr2013 0).phone ∈ minuteChecks := by
  intro k h1 h2
  refine ⟨demoClk (1000 + 60000 * k), rfl, ?_⟩
  have : k = 1 ∨ k = 2 ∨ k = 3 := by omega
  rcases this with rfl | rfl | rfl <;> simp [minuteChecks]

/-! ## C76 what the comment on the check promises -/

/-- The opposite of the first promise: the check that takes a terminal offline leaves every connection, every session and
every serve loop as it was. -/
theorem C76_offline_keeps_connection (env : Env) (evs : List Ev) (clk : Clock) (p : Str) (d : Device)
    (hd : (Sys.start.run env evs).1.st.look p = some d) (hs : d.status ≠ .offline) (ht : d.last + 60000 < clk.ms) :
    let s := (Sys.start.run env evs).1
    let s' := (s.step env (.check clk p)).1
    (s'.st.look p).map (·.status) = some .offline ∧ s'.st.closed = s.st.closed ∧ s'.st.sessions = s.st.sessions ∧
      s'.live = s.live := by
  have hi := reachable_inv env evs
  have h1 := ((C44_one_check env evs clk p d hd ht).1 hs).1
  obtain ⟨r, hr, rfl⟩ := Store.look_some.1 hd
  obtain ⟨cn, hcn, h2⟩ := check_registered (clk := clk) hi.1 hr
  have hk := hi.1.keep _ _ hr
  have hj : p ∈ (Sys.start.run env evs).1.st.jobs := (hi.1.jobs p).2 (by rw [hr]; rfl)
  have ht' : clk.ms > 60000 + ((Sys.start.run env evs).1.st.heap r).last := by omega
  have hb : (((Sys.start.run env evs).1.st.heap r).status != DStatus.offline) = true := by simpa using hs
  simp only
  refine ⟨by rw [h1]; rfl, ?_⟩
  unfold Sys.step
  rw [if_neg (by rw [hi.2]; simp)]
  simp only
  rw [if_pos hj]
  simp only
  rw [h2]
  unfold Device.shouldTurnOffline
  simp only [hb, hk, ht', decide_true, Bool.and_self, if_true]
  refine ⟨?_, ?_, ?_⟩ <;> first | rfl | trivial

/-- The opposite of the second promise: a terminal taken offline by a check is removed by the next one, however soon after
the first that is. -/
theorem C76_removed_next (env : Env) (evs b : List Ev) (clk clk' : Clock) (p : Str) (d : Device)
    (hd : (Sys.start.run env evs).1.st.look p = some d) (hs : d.status ≠ .offline) (ht : d.last + 60000 < clk.ms)
    (hb : ∀ e ∈ b, ¬ e.touches env p) (ht' : clk.ms ≤ clk'.ms) :
    ((Sys.start.run env (evs ++ [.check clk p] ++ b)).1.st.look p).map (·.status) = some .offline ∧
    (Sys.start.run env (evs ++ [.check clk p] ++ b ++ [.check clk' p])).1.st.look p = none := by
  have h := C44_two_checks env evs [] b clk clk' p d hd hs (by simp) hb ht ht'
  rw [List.append_nil] at h
  refine ⟨?_, h.2.1⟩
  rw [run_append, run_untouched env b _ (reachable_inv env _).1 p hb, h.1]; rfl

/-- What holds of C76: a terminal is not removed before it was offline and silent for a minute, and when it is removed the
connection it registered on is closed.  Missing: the two promises of the comment, which are false
(C76_offline_keeps_connection, C76_removed_next). -/
theorem C76_removal_partial (env : Env) (evs : List Ev) (clk : Clock) (p : Str) (d : Device)
    (hd : (Sys.start.run env evs).1.st.look p = some d)
    (hgone : (Sys.start.run env (evs ++ [.check clk p])).1.st.look p = none) :
    d.status = .offline ∧ d.last + 60000 < clk.ms ∧
      ∃ c, d.conn = some c ∧ (Sys.start.run env (evs ++ [.check clk p])).1.st.closed c.id = true := by
  rw [run_check_look, hd] at hgone
  simp only [Option.bind_some, devCheck] at hgone
  by_cases h1 : d.last + 60000 < clk.ms
  · rw [if_pos h1] at hgone
    by_cases h2 : d.status = .offline
    · rw [run_snoc]
      obtain ⟨-, -, -, -, h3⟩ := (C44_one_check env evs clk p d hd h1).2 h2
      exact ⟨h2, h1, h3⟩
    · rw [if_neg h2] at hgone; cases hgone
  · rw [if_neg h1] at hgone; cases hgone

-- removed 63 seconds after it was last heard of, 1 second after it was taken offline
example : (Sys.start.run goEnv (silentEvs ++ [.check (demoClk 63000) (hdr2013 0).phone] ++ [] ++
    [.check (demoClk 64000) (hdr2013 0).phone])).1.st.look (hdr2013 0).phone = none := by decide +kernel
example : (Sys.start.run goEnv (silentEvs ++ [.check (demoClk 63000) (hdr2013 0).phone])).1.st.closed demoC.id = false := by
  decide +kernel

end JT808
