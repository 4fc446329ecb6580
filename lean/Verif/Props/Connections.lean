import Verif.Proof.Conns
import Verif.Props.Codes
import Verif.Props.Reconnect
/-
C84-C86: what closes a connection and what does not.
-/
namespace JT808
open Spec

/-! ## C84 what closes a connection -/

/-- Why the server closes connection `c` at an event in state `s`: the serve loop of `c` ends on something that arrived
on `c` or on a failed reply to it, reading from `c` fails, a terminal that registered on `c` is removed for silence, or a
request for a terminal whose session is `c` could not be written. -/
def Spec.Reason (env : Env) (s : Sys) (c : Conn) (e : Ev) : Prop :=
  (∃ clk bytes werr, e = .frame clk c bytes werr ∧ (s.step env e).2.ended = true) ∨
  (∃ err, e = .readErr c err ∧ (s.step env e).2.ended = true) ∨
  (∃ clk p d, e = .check clk p ∧ s.st.look p = some d ∧ d.conn = some c ∧ d.status = .offline ∧ d.last + 60000 < clk.ms) ∨
  (∃ p d, (e = .httpQuery p (some .closed) ∨ ∃ bound bad, e = .httpSet p bound bad (some .closed)) ∧
    s.st.look p = some d ∧ s.st.session d.sessionID = some c)

/-- Devices refer to connections by their numbers, which are never used twice. -/
structure Same (s : Sys) (c : Conn) : Prop where
  dev : ∀ p d c', s.st.look p = some d → d.conn = some c' → c'.id = c.id → c' = c
  live : ∀ c' ∈ s.live, c'.id = c.id → c' = c

theorem step_same (env : Env) (s : Sys) (e : Ev) (h : StoreInv s.st) (hc : c.id < s.accepted) (hs : Same s c) :
    Same (s.step env e).1 c := by
  constructor
  · intro p d c' hd hcn hid
    generalize ho : (s.step env e).1.st.look p = o at hd
    have hv := step_dev env s e h p
    rw [ho] at hv
    cases hv with
    | same => exact hs.dev p d c' hd hcn hid
    | msg clk c1 bytes werr hh m hl hdl hp =>
      rcases devNext_conn_or hd with h1 | ⟨d0, h1, h2⟩
      · rw [h1] at hcn; injection hcn with hcn; subst hcn; exact hs.live _ hl hid
      · exact hs.dev p d0 c' h1 (by rw [← h2]; exact hcn) hid
    | chk clk hj =>
      cases hl : s.st.look p with
      | none => rw [hl] at hd; cases hd
      | some d0 =>
        rw [hl] at hd
        refine hs.dev p d0 c' hl ?_ hid
        simp only [Option.bind_some, devCheck] at hd
        rw [← hcn]
        split at hd
        · split at hd
          · cases hd
          · injection hd with hd; subst hd; rfl
        · injection hd with hd; subst hd; rfl
  · intro c' hl hid
    rcases step_live env s e with h1 | ⟨a, -, h1, -⟩
    · exact hs.live c' (h1 c' hl) hid
    · rw [h1] at hl
      rcases List.mem_cons.1 hl with rfl | hl
      · simp only at hid; omega
      · exact hs.live c' hl hid

theorem run_accepted (env : Env) (evs : List Ev) (s : Sys) : s.accepted ≤ (s.run env evs).1.accepted := by
  induction evs generalizing s with
  | nil => exact Nat.le_refl _
  | cons e evs ih => exact Nat.le_trans (step_accepted env s e) (ih _)

theorem run_same (env : Env) (evs : List Ev) (s : Sys) (h : StoreInv s.st) (hc : c.id < s.accepted) (hs : Same s c) :
    Same (s.run env evs).1 c := by
  induction evs generalizing s with
  | nil => exact hs
  | cons e evs ih =>
    exact ih _ (step_inv env s e h).1 (Nat.lt_of_lt_of_le hc (step_accepted env s e)) (step_same env s e h hc hs)

/-- A newly accepted connection. -/
theorem accept_same (env : Env) (evs : List Ev) (addr : Str) :
    let s := (Sys.start.run env (evs ++ [.accept addr])).1
    let c : Conn := ⟨(Sys.start.run env evs).1.accepted, addr⟩
    Same s c ∧ c ∈ s.live ∧ c.id < s.accepted ∧ s.st.closed c.id = false ∧
      ∀ p d c', s.st.look p = some d → d.conn = some c' → c'.id ≠ c.id := by
  simp only
  have hc := reachable_conn env evs
  have hcr := (reachable_inv env evs).2
  rw [run_snoc]
  have hst : ((Sys.start.run env evs).1.step env (.accept addr)).1 =
      { (Sys.start.run env evs).1 with
        st := (Sys.start.run env evs).1.st.storeSession ⟨(Sys.start.run env evs).1.accepted, addr⟩
        live := ⟨(Sys.start.run env evs).1.accepted, addr⟩ :: (Sys.start.run env evs).1.live
        accepted := (Sys.start.run env evs).1.accepted + 1 } := by
    unfold Sys.step; rw [if_neg (by rw [hcr]; simp)]
  rw [hst]
  have hno : ∀ p d c', (Sys.start.run env evs).1.st.look p = some d → d.conn = some c' →
      c'.id ≠ (Sys.start.run env evs).1.accepted := fun p d c' h1 h2 => Nat.ne_of_lt (hc.devs p d c' h1 h2)
  refine ⟨⟨fun p d c' h1 h2 h3 => absurd h3 (hno p d c' h1 h2), fun c' h1 h2 => ?_⟩, by simp, by simp,
    hc.open_ _ (Nat.le_refl _), hno⟩
  simp only [List.mem_cons] at h1
  rcases h1 with rfl | h1
  · rfl
  · have := hc.ids _ h1; simp only at h2; omega

theorem serveErr_ended (c : Conn) (st : Store) (e : Err) : (st.serveErr c e).2.ended = e.endsServe := by
  unfold Store.serveErr
  cases e.endsServe <;> rfl

theorem ClosedBy.reason {env : Env} {s : Sys} {c : Conn} {e : Ev} (hcr : s.crashed = false) (hs : Same s c)
    (hss : SessInv s) (h : ClosedBy env s c.id e) : Reason env s c e := by
  cases h with
  | frame clk c' bytes werr a1 a2 a3 =>
    have := hs.live c' a1 a2; subst this
    refine .inl ⟨clk, bytes, werr, rfl, ?_⟩
    unfold Sys.step; rw [if_neg (by rw [hcr]; simp)]; simp only; rw [if_pos a1]; exact a3
  | readErr c' e a1 a2 a3 =>
    have := hs.live c' a1 a2; subst this
    refine .inr (.inl ⟨e, rfl, ?_⟩)
    unfold Sys.step; rw [if_neg (by rw [hcr]; simp)]; simp only; rw [if_pos a1, serveErr_ended]; exact a3
  | check clk p d c' a1 a2 a3 a4 a5 =>
    have := hs.dev p d c' a1 a2 a3; subst this
    exact .inr (.inr (.inl ⟨clk, p, d, rfl, a1, a2, a4, a5⟩))
  | query p d c' a1 a2 a3 =>
    have := hs.live c' (hss.served _ _ a2).1 a3; subst this
    exact .inr (.inr (.inr ⟨p, d, .inl rfl, a1, a2⟩))
  | set p d c' bound bad a1 a2 a3 =>
    have := hs.live c' (hss.served _ _ a2).1 a3; subst this
    exact .inr (.inr (.inr ⟨p, d, .inr ⟨bound, bad, rfl⟩, a1, a2⟩))

/-- C84: whatever happens after a connection was accepted, if the server has closed it, it was for one of the four
reasons, all of which name this very connection. -/
theorem C84_closed_for_a_reason (env : Env) (evs evs' : List Ev) (addr : Str)
    (hcl : (Sys.start.run env (evs ++ .accept addr :: evs')).1.st.closed (Sys.start.run env evs).1.accepted = true) :
    ∃ pre e post, evs' = pre ++ e :: post ∧
      Reason env (Sys.start.run env (evs ++ .accept addr :: pre)).1 ⟨(Sys.start.run env evs).1.accepted, addr⟩ e := by
  induction evs' using snoc_ind with
  | h0 =>
    have := (accept_same env evs addr).2.2.2.1
    simp only at this
    rw [this] at hcl; cases hcl
  | h1 evs' e ih =>
    have he : evs ++ .accept addr :: (evs' ++ [e]) = (evs ++ .accept addr :: evs') ++ [e] := by simp
    rw [he, run_snoc] at hcl
    cases h0 : (Sys.start.run env (evs ++ .accept addr :: evs')).1.st.closed (Sys.start.run env evs).1.accepted with
    | true =>
      obtain ⟨pre, e', post, h1, h2⟩ := ih h0
      exact ⟨pre, e', post ++ [e], by rw [h1]; simp, h2⟩
    | false =>
      refine ⟨evs', e, [], rfl, ?_⟩
      have hi := reachable_inv env (evs ++ .accept addr :: evs')
      have hss := reachable_sess env (evs ++ .accept addr :: evs')
      have hcb := step_closed env _ e hi.1 hss _ h0 hcl
      obtain ⟨a1, a2, a3, a4, a5⟩ := accept_same env evs addr
      have hsame : Same (Sys.start.run env (evs ++ .accept addr :: evs')).1 ⟨(Sys.start.run env evs).1.accepted, addr⟩ := by
        have : evs ++ .accept addr :: evs' = (evs ++ [.accept addr]) ++ evs' := by simp
        rw [this, run_append]
        exact run_same env evs' _ (reachable_inv env _).1 a3 a1
      exact ClosedBy.reason hi.2 hsame hss hcb

/-- C84, the first three reasons do close the connection. -/
theorem C84_reasons_close (env : Env) (evs : List Ev) (c : Conn) (e : Ev) (hl : c ∈ (Sys.start.run env evs).1.live)
    (hr : (∃ clk bytes werr, e = .frame clk c bytes werr ∧ ((Sys.start.run env evs).1.step env e).2.ended = true) ∨
      (∃ err, e = .readErr c err ∧ ((Sys.start.run env evs).1.step env e).2.ended = true) ∨
      (∃ clk p d, e = .check clk p ∧ (Sys.start.run env evs).1.st.look p = some d ∧ d.conn = some c ∧
        d.status = .offline ∧ d.last + 60000 < clk.ms)) :
    (Sys.start.run env (evs ++ [e])).1.st.closed c.id = true := by
  have hi := reachable_inv env evs
  rw [run_snoc]
  rcases hr with ⟨clk, bytes, werr, rfl, he⟩ | ⟨err, rfl, he⟩ | ⟨clk, p, d, rfl, h1, h2, h3, h4⟩
  · unfold Sys.step at he ⊢
    rw [if_neg (by rw [hi.2]; simp)] at he ⊢
    simp only at he ⊢
    rw [if_pos hl] at he ⊢
    rcases serveFrame_conns env clk c werr hi.1 bytes with ⟨e0, e1, e2⟩ | ⟨e0, e1, e2⟩
    · simp only [e0] at he; cases he
    · simp only [e2, closed_remove, if_true]
  · unfold Sys.step at he ⊢
    rw [if_neg (by rw [hi.2]; simp)] at he ⊢
    simp only at he ⊢
    rw [if_pos hl] at he ⊢
    rcases serveErr_conns c (Sys.start.run env evs).1.st err with ⟨e0, e1⟩ | ⟨e0, e1⟩
    · simp only [e0] at he; cases he
    · simp only [e1, closed_remove, if_true]
  · obtain ⟨r, hr, rfl⟩ := Store.look_some.1 h1
    have hj := (hi.1.jobs p).2 (by rw [hr]; rfl)
    obtain ⟨cn, hcn, hck⟩ := check_registered (clk := clk) hi.1 hr
    rw [h2] at hcn; injection hcn with hcn; subst hcn
    unfold Sys.step
    rw [if_neg (by rw [hi.2]; simp)]
    simp only
    rw [if_pos hj, hck]
    have n1 : ¬ ((Sys.start.run env evs).1.st.heap r).shouldTurnOffline clk.ms = true := by
      unfold Device.shouldTurnOffline; simp [h3]
    have n2 : ((Sys.start.run env evs).1.st.heap r).shouldClear clk.ms = true := by
      unfold Device.shouldClear; rw [hi.1.keep _ _ hr]; simp [h3]; omega
    simp only
    rw [if_neg n1, if_pos n2]
    have hd : ∀ (s : Store) (p : Str), (s.delByPhone p).closed = s.closed := by
      intro s p; unfold Store.delByPhone; cases s.byPhone.get p <;> rfl
    show (((Sys.start.run env evs).1.st.closeConn c).delByPhone p).closed c.id = true
    rw [hd]
    simp [Store.closeConn]

/-- C84, reading from a connection that is served: the end of the stream, or a closed connection, ends the serving, closes
the connection and gives up the session under its address; any other failed read changes nothing. -/
theorem C84_read_fails (env : Env) (evs : List Ev) (c : Conn) (hl : c ∈ (Sys.start.run env evs).1.live) :
    (∀ e, e = .eof ∨ e = .closed →
      let s := (Sys.start.run env (evs ++ [.readErr c e])).1
      c ∉ s.live ∧ s.st.closed c.id = true ∧ s.st.session c.addr = none) ∧
    (Sys.start.run env (evs ++ [.readErr c .io])).1 = (Sys.start.run env evs).1 := by
  have hi := reachable_inv env evs
  constructor
  · intro e he
    simp only [run_snoc]
    unfold Sys.step
    rw [if_neg (by rw [hi.2]; simp)]
    simp only
    rw [if_pos hl]
    have : (Sys.start.run env evs).1.st.serveErr c e = ((Sys.start.run env evs).1.st.remove c, ⟨none, true, none⟩) := by
      rcases he with rfl | rfl <;> rfl
    rw [this]
    refine ⟨by simp, by simp [closed_remove], ?_⟩
    simp [Store.remove, Store.clearSession, Store.session, AMap.get_del_self]
  · rw [run_snoc]
    unfold Sys.step
    rw [if_neg (by rw [hi.2]; simp)]
    simp only
    rw [if_pos hl]
    rfl

example : demoC ∈ demoSys.live ∧ demoSys.st.session demoC.addr = some demoC := by decide +kernel

/-- The demonstration terminal goes silent and is removed with its connection; the other connection stays open. -/
example : let s := (Sys.start.run goEnv (silentEvs ++ [.check (demoClk 63000) (hdr2013 0).phone,
      .check (demoClk 64000) (hdr2013 0).phone])).1
    s.st.closed demoC.id = true ∧ s.st.closed demoC'.id = false := by decide +kernel
example : ((Sys.start.run goEnv (silentEvs ++ [.check (demoClk 63000) (hdr2013 0).phone])).1.st.look (hdr2013 0).phone).map
      (fun d => (d.conn, d.status, d.last)) = some (some demoC, .offline, 2000) ∧
    demoC ∈ (Sys.start.run goEnv (silentEvs ++ [.check (demoClk 63000) (hdr2013 0).phone])).1.live := by decide +kernel

/-! ## C85 terminals on one connection -/

/-- The opposite of C85: when a silent terminal is removed, the connection it registered on is closed although another
terminal `q` that registered on it is registered still, in whatever state and however recently heard of. -/
theorem C85_expiry_takes_others_along (env : Env) (evs : List Ev) (clk : Clock) (c : Conn) (p q : Str) (d d' : Device)
    (hl : c ∈ (Sys.start.run env evs).1.live) (hpq : p ≠ q)
    (hp : (Sys.start.run env evs).1.st.look p = some d) (hq : (Sys.start.run env evs).1.st.look q = some d')
    (hc : d.conn = some c) (hs : d.status = .offline) (ht : d.last + 60000 < clk.ms) :
    (Sys.start.run env (evs ++ [.check clk p])).1.st.closed c.id = true ∧
    (Sys.start.run env (evs ++ [.check clk p])).1.st.look q = some d' := by
  refine ⟨C84_reasons_close env evs c _ hl (.inr (.inr ⟨clk, p, d, rfl, hp, hc, hs, ht⟩)), ?_⟩
  rw [run_snoc, step_untouched env _ (.check clk p) (reachable_inv env evs).1 q hpq]
  exact hq

/-- Two terminals behind one gateway: both register on the first connection, the second authenticates and keeps sending
heartbeats, the first says nothing more. -/
def gatewayEvs : List Ev :=
  [.accept [0x61],
   .frame (demoClk 1000) demoC (msgFrame (hdrOf phoneA 0x0100) (regA.encode goEnv .v2013)) none,
   .frame (demoClk 1000) demoC demoReg none,
   .frame (demoClk 2000) demoC (demoAuth demoCode) none,
   .frame (demoClk 61500) demoC demoBeat none]

/-- The connection of the second, which was heard of half a second ago, is closed. -/
theorem C85_gateway :
    ((Sys.start.run goEnv gatewayEvs).1.st.look (hdr2013 0).phone).map (fun d => (d.status, d.last, d.conn)) =
      some (.online, 61500, some demoC) ∧
    let s := (Sys.start.run goEnv (gatewayEvs ++ [.check (demoClk 62000) phoneA])).1
    s.st.closed demoC.id = true ∧ (s.st.look (hdr2013 0).phone).map (·.status) = some .online := by decide +kernel

/-- What holds of C85: a check of `p` does not close a connection on which `p` did not register.  Missing: connections
shared by several terminals. -/
theorem C85_own_connection_partial (env : Env) (evs : List Ev) (clk : Clock) (p : Str) (i : Nat)
    (hi : (Sys.start.run env evs).1.st.closed i = false)
    (hp : ∀ d c, (Sys.start.run env evs).1.st.look p = some d → d.conn = some c → c.id ≠ i) :
    (Sys.start.run env (evs ++ [.check clk p])).1.st.closed i = false := by
  rw [run_snoc]
  cases h1 : ((Sys.start.run env evs).1.step env (.check clk p)).1.st.closed i with
  | false => rfl
  | true =>
    cases step_closed env _ _ (reachable_inv env evs).1 (reachable_sess env evs) i hi h1 with
    | check _ _ d c a1 a2 a3 => exact absurd a3 (hp d c a1 a2)

example : (Sys.start.run goEnv silentEvs).1.st.closed demoC'.id = false ∧
    ((Sys.start.run goEnv silentEvs).1.st.look (hdr2013 0).phone).map (·.conn) = some (some demoC) := by decide +kernel

/-! ## C86 idle connections -/

/-- Something arrives on the connection, reading from it fails, or a write of an HTTP request fails. -/
def Ev.usesConn (c : Conn) : Ev → Prop
  | .frame _ c' _ _ => c' = c
  | .readErr c' _ => c' = c
  | .httpQuery _ werr => werr = some .closed
  | .httpSet _ _ _ werr => werr = some .closed
  | _ => False

/-- The opposite of C86: a connection on which nothing ever arrives is served forever, whatever else happens and however
much time passes: no keepalive check ever closes it. -/
theorem C86_idle_never_closed (env : Env) (evs evs' : List Ev) (addr : Str)
    (hq : ∀ e ∈ evs', ¬ e.usesConn ⟨(Sys.start.run env evs).1.accepted, addr⟩) :
    let c : Conn := ⟨(Sys.start.run env evs).1.accepted, addr⟩
    let s := (Sys.start.run env (evs ++ .accept addr :: evs')).1
    c ∈ s.live ∧ s.st.closed c.id = false := by
  simp only
  suffices h : ⟨(Sys.start.run env evs).1.accepted, addr⟩ ∈ (Sys.start.run env (evs ++ .accept addr :: evs')).1.live ∧
      (Sys.start.run env (evs ++ .accept addr :: evs')).1.st.closed (Sys.start.run env evs).1.accepted = false ∧
      ∀ p d c', (Sys.start.run env (evs ++ .accept addr :: evs')).1.st.look p = some d → d.conn = some c' →
        c'.id ≠ (Sys.start.run env evs).1.accepted from ⟨h.1, h.2.1⟩
  induction evs' using snoc_ind with
  | h0 =>
    obtain ⟨a1, a2, a3, a4, a5⟩ := accept_same env evs addr
    exact ⟨a2, a4, a5⟩
  | h1 evs' e ih =>
    obtain ⟨b1, b2, b3⟩ := ih (fun e' he => hq e' (by simp [he]))
    have he : evs ++ .accept addr :: (evs' ++ [e]) = (evs ++ .accept addr :: evs') ++ [e] := by simp
    have hne := hq e (by simp)
    rw [he, run_snoc]
    have hi := reachable_inv env (evs ++ .accept addr :: evs')
    have hss := reachable_sess env (evs ++ .accept addr :: evs')
    have hcn := reachable_conn env (evs ++ .accept addr :: evs')
    revert b1 b2 b3 hi hss hcn
    generalize (Sys.start.run env (evs ++ .accept addr :: evs')).1 = s
    generalize hc : (⟨(Sys.start.run env evs).1.accepted, addr⟩ : Conn) = c at hne
    have hcid : (Sys.start.run env evs).1.accepted = c.id := by rw [← hc]
    rw [hcid]
    intro b1 b2 b3 hi hss hcn
    refine ⟨?_, ?_, ?_⟩
    · unfold Sys.step
      rw [if_neg (by rw [hi.2]; simp)]
      cases e with
      | accept a => exact List.mem_cons_of_mem _ b1
      | frame clk c' bytes werr =>
        have : c' ≠ c := hne
        simp only
        split
        · simp only; split
          · exact List.mem_filter.2 ⟨b1, by simpa using Ne.symm this⟩
          · exact b1
        · exact b1
      | readErr c' err =>
        have : c' ≠ c := hne
        simp only
        split
        · simp only; split
          · exact List.mem_filter.2 ⟨b1, by simpa using Ne.symm this⟩
          · exact b1
        · exact b1
      | check clk p => simp only; split <;> exact b1
      | httpList => exact b1
      | httpGeo p => exact b1
      | httpQuery p w => exact b1
      | httpSet p b x w => exact b1
    · cases h1 : (s.step env e).1.st.closed c.id with
      | false => rfl
      | true =>
        cases step_closed env s e hi.1 hss _ b2 h1 with
        | frame clk c' bytes werr a1 a2 => exact absurd (hcn.inj _ a1 _ b1 a2) hne
        | readErr c' e a1 a2 => exact absurd (hcn.inj _ a1 _ b1 a2) hne
        | check clk p d c' a1 a2 a3 => exact absurd a3 (b3 p d c' a1 a2)
        | query p d c' => exact absurd rfl hne
        | set p d c' => exact absurd rfl hne
    · intro p d c' hd hcn'
      generalize ho : (s.step env e).1.st.look p = o at hd
      have hv := step_dev env s e hi.1 p
      rw [ho] at hv
      cases hv with
      | same => exact b3 p d c' hd hcn'
      | msg clk c1 bytes werr hh m hl hdl hp =>
        rcases devNext_conn_or hd with h1 | ⟨d0, h1, h2⟩
        · rw [h1] at hcn'; injection hcn' with hcn'; subst hcn'
          exact fun hx => hne (hcn.inj _ hl _ b1 hx)
        · exact b3 p d0 c' h1 (by rw [← h2]; exact hcn')
      | chk clk hj =>
        cases hl : s.st.look p with
        | none => rw [hl] at hd; cases hd
        | some d0 =>
          rw [hl] at hd
          refine b3 p d0 c' hl ?_
          simp only [Option.bind_some, devCheck] at hd
          rw [← hcn']
          split at hd
          · split at hd
            · cases hd
            · injection hd with hd; subst hd; rfl
          · injection hd with hd; subst hd; rfl

/-- The second connection of the demonstration never says anything. -/
example : ∀ e ∈ [Ev.frame (demoClk 1000) demoC demoReg none, .check (demoClk 100000000) (hdr2013 0).phone,
      .httpQuery (hdr2013 0).phone none],
    ¬ e.usesConn ⟨(Sys.start.run goEnv [.accept [0x61]]).1.accepted, [0x62]⟩ := by
  intro e he
  simp only [List.mem_cons, List.not_mem_nil, or_false] at he
  rcases he with rfl | rfl | rfl
  · show demoC ≠ _; decide
  · exact id
  · intro hx; cases hx

/-- What holds of C86: a connection on which a terminal registered that then stays silent is closed by the first check
that finds the terminal offline and unheard of for a minute.  Missing: connections on which nobody registered. -/
theorem C86_registered_closed_partial (env : Env) (evs : List Ev) (clk : Clock) (c : Conn) (p : Str) (d : Device)
    (hl : c ∈ (Sys.start.run env evs).1.live) (hp : (Sys.start.run env evs).1.st.look p = some d)
    (hc : d.conn = some c) (hs : d.status = .offline) (ht : d.last + 60000 < clk.ms) :
    (Sys.start.run env (evs ++ [.check clk p])).1.st.closed c.id = true :=
  C84_reasons_close env evs c _ hl (.inr (.inr ⟨clk, p, d, rfl, hp, hc, hs, ht⟩))

end JT808
