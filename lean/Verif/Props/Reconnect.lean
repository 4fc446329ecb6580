import Verif.Props.Lifecycle
import Verif.Proof.Sessions
/-
C77, C78: terminals that come back on another connection.
-/
namespace JT808
open Spec

/-! ## C77 registering again -/

theorem taken_own_plate {env : Env} {evs : List Ev} {p : Str} {d : Device}
    (hd : (Sys.start.run env evs).1.st.look p = some d) : (Sys.start.run env evs).1.st.taken d.plate = true := by
  obtain ⟨r, hr, rfl⟩ := Store.look_some.1 hd
  have hq := ((reachable_inv env evs).1.phoneOK _ _ hr).2.2
  unfold Store.taken
  rw [(Store.lookPlate_some (d := (Sys.start.run env evs).1.st.heap r)).2 ⟨r, hq, rfl⟩]; rfl

/-- The opposite of C77: as long as the server has not removed the terminal, whatever happened to its connection and to
anyone else, a registration of its phone on any connection is refused, and one with its own plate with code 1. -/
theorem C77_refused_while_cached (env : Env) (evs evs' : List Ev) (p : Str) (d : Device)
    (hd : (Sys.start.run env evs).1.st.look p = some d) (hu : ∀ e ∈ evs', ¬ e.touches env p)
    (clk : Clock) (c : Conn) (bytes : List UInt8) (h : Header) (m : Register)
    (hh : Holds env clk.civil bytes h (.m0100 m)) (hp : h.phone = p) :
    let st := (Sys.start.run env (evs ++ evs')).1.st
    (∃ r, (r = 1 ∨ r = 3) ∧ (st.handleFrame env clk c bytes).2 = .reply (registerReply h r placeholderCode)) ∧
    (m.plate = d.plate → (st.handleFrame env clk c bytes).2 = .reply (registerReply h 1 placeholderCode)) ∧
    (st.handleFrame env clk c bytes).1.look p = some d := by
  have h1 : (Sys.start.run env (evs ++ evs')).1.st.look p = some d := by
    rw [run_append, run_untouched env evs' _ (reachable_inv env evs).1 p hu]; exact hd
  simp only
  have hr := handleFrame_register (c := c) (hh.delivers (Sys.start.run env (evs ++ evs')).1.st)
  refine ⟨?_, ?_, ?_⟩
  · rw [hr]
    by_cases ht : (Sys.start.run env (evs ++ evs')).1.st.taken m.plate = true
    · exact ⟨1, .inl rfl, by rw [if_pos ht]⟩
    · exact ⟨3, .inr rfl, by rw [if_neg ht, if_pos (by rw [hp, h1]; rfl)]⟩
  · intro hm
    rw [hr, if_pos (by rw [hm]; exact taken_own_plate h1)]
  · rw [look_handleFrame (reachable_inv env _).1 (hh.delivers _), if_pos hp.symm, hp, h1]; rfl

/-- What holds of C77: after two late keepalive checks (one if it was offline) a registration succeeds again, unless the
plate was given away meanwhile.  Missing: that it succeeds at once, which is false (C77_refused_while_cached). -/
theorem C77_after_checks_partial (env : Env) (evs evs' : List Ev) (p : Str) (d : Device)
    (hd : (Sys.start.run env evs).1.st.look p = some d)
    (hq : ∀ clk c bytes werr, Ev.frame clk c bytes werr ∈ evs' → framePhone env bytes ≠ some p)
    (hn : 2 ≤ evs'.countP (Ev.checkAfter p (d.last + 60000)))
    (clk : Clock) (c : Conn) (bytes : List UInt8) (h : Header) (m : Register)
    (hh : Holds env clk.civil bytes h (.m0100 m)) (hp : h.phone = p)
    (hm : (Sys.start.run env (evs ++ evs')).1.st.lookPlate m.plate = none) :
    let st := (Sys.start.run env (evs ++ evs')).1.st
    (∃ code, (st.handleFrame env clk c bytes).2 = .reply (registerReply h 0 code)) ∧
    ((st.handleFrame env clk c bytes).1.look p).map (fun d => (d.plate, d.conn)) = some (m.plate, some c) := by
  have h1 : (Sys.start.run env (evs ++ evs')).1.st.look p = none := by
    rw [C75_fate env evs evs' p d hd hq, if_neg (by omega), if_neg (by omega)]
  have ht : ¬ (Sys.start.run env (evs ++ evs')).1.st.taken m.plate = true := by unfold Store.taken; rw [hm]; simp
  simp only
  refine ⟨⟨(Device.new clk c h m).code, ?_⟩, ?_⟩
  · rw [handleFrame_register (hh.delivers _), if_neg ht, if_neg (by rw [hp, h1]; simp)]
  · rw [look_handleFrame (reachable_inv env _).1 (hh.delivers _), if_pos hp.symm, hp, h1]
    simp only [devNext]
    rw [if_neg ht]; rfl

/-- The connection drops and the terminal comes back from another address. -/
def droppedEvs : List Ev := [.readErr demoC .eof]
example : ∀ e ∈ droppedEvs, ¬ e.touches goEnv (hdr2013 0).phone := by simp [droppedEvs, Ev.touches]
example : ((Sys.start.run goEnv (silentEvs ++ droppedEvs)).1.st.handleFrame goEnv (demoClk 5000) demoC' demoReg).2 =
    .reply (registerReply ((hdr2013 0x0100).withBodyLength 41) 1 placeholderCode) := by decide +kernel
-- two minutes later
example : ((Sys.start.run goEnv (silentEvs ++ (droppedEvs ++ minuteChecks))).1.st.handleFrame goEnv (demoClk 190000) demoC'
    demoReg).2 = .reply (registerReply ((hdr2013 0x0100).withBodyLength 41) 0 demoCode) := by decide +kernel
example : 2 ≤ (droppedEvs ++ minuteChecks).countP (Ev.checkAfter (hdr2013 0).phone (2000 + 60000)) := by decide +kernel

/-! ## C78 server-initiated messages after a reconnect -/

/-- The last successful registration of `p` in `evs` came on connection `c`. -/
def RegisteredOn (env : Env) (evs : List Ev) (p : Str) (c : Conn) : Prop :=
  ∃ pre clk bytes werr post code, evs = pre ++ .frame clk c bytes werr :: post ∧
    Ev.issues env (Sys.start.run env pre).1 p (.frame clk c bytes werr) code ∧
    ∀ mid e' post', post = mid ++ e' :: post' → ∀ code',
      ¬ e'.issues env (Sys.start.run env (pre ++ .frame clk c bytes werr :: mid)).1 p code'

theorem RegisteredOn.snoc {env : Env} {evs : List Ev} {e : Ev} {p : Str} {c : Conn} (h : RegisteredOn env evs p c)
    (hn : ∀ code', ¬ e.issues env (Sys.start.run env evs).1 p code') : RegisteredOn env (evs ++ [e]) p c := by
  obtain ⟨pre, clk, bytes, werr, post, code, rfl, h1, h2⟩ := h
  refine ⟨pre, clk, bytes, werr, post ++ [e], code, by simp, h1, ?_⟩
  intro mid e' post' hp
  rcases List.eq_nil_or_concat post' with rfl | ⟨q, a, rfl⟩
  · obtain ⟨rfl, h3⟩ := List.append_inj' hp rfl
    injection h3 with h3; subst h3
    exact hn
  · have h4 : post ++ [e] = (mid ++ e' :: q) ++ [a] := by rw [hp]; simp
    exact h2 mid e' q (List.append_inj' h4 rfl).1

theorem devNext_conn {clk : Clock} {c : Conn} {h : Header} {taken : Str → Bool} {m : Msg} {d d' : Device}
    (he : devNext clk c h taken m (some d) = some d') : d'.sessionID = d.sessionID ∧ d'.conn = d.conn := by
  cases m <;> simp only [devNext] at he
  case m0003 => cases he
  case m0102 m =>
    by_cases hc : m.code = d.code
    · rw [if_pos hc] at he; injection he with he; subst he; exact ⟨rfl, rfl⟩
    · rw [if_neg hc] at he; cases he
  all_goals
    injection he with he
    first
    | (subst he; exact ⟨rfl, rfl⟩)
    | (split at he <;> (subst he; exact ⟨rfl, rfl⟩))

theorem devCheck_conn {now : Nat} {d d' : Device} (h : devCheck now d = some d') :
    d'.sessionID = d.sessionID ∧ d'.conn = d.conn := by
  unfold devCheck at h
  split at h
  · split at h
    · cases h
    · injection h with h; subst h; exact ⟨rfl, rfl⟩
  · injection h with h; subst h; exact ⟨rfl, rfl⟩

/-- A terminal is tied to the connection of its last registration: nothing it sends later on any connection, an
authentication included, changes where the server will look for it. -/
theorem C78_tied_to_registration (env : Env) (evs : List Ev) (p : Str) (d : Device)
    (hd : (Sys.start.run env evs).1.st.look p = some d) :
    ∃ c, RegisteredOn env evs p c ∧ d.sessionID = c.addr ∧ d.conn = some c := by
  induction evs using snoc_ind generalizing d with
  | h0 => cases hd
  | h1 evs e ih =>
    rw [run_snoc] at hd
    have hi := reachable_inv env evs
    generalize ho : ((Sys.start.run env evs).1.step env e).1.st.look p = o at hd
    have hdv := step_dev env _ e hi.1 p
    rw [ho] at hdv
    cases hb : (Sys.start.run env evs).1.st.look p with
    | some d0 =>
      have hn : ∀ code', ¬ e.issues env (Sys.start.run env evs).1 p code' := fun code' hx => by
        have := issues_free hx; rw [hb] at this; cases this
      have hc : d.sessionID = d0.sessionID ∧ d.conn = d0.conn := by
        cases hdv with
        | same => rw [hb] at hd; injection hd with hd; rw [hd]; exact ⟨rfl, rfl⟩
        | msg clk c bytes werr hh m hl hdl hp => rw [hb] at hd; exact devNext_conn hd
        | chk clk hj => rw [hb] at hd; exact devCheck_conn hd
      obtain ⟨c, h1, h2, h3⟩ := ih d0 hb
      exact ⟨c, h1.snoc hn, hc.1.trans h2, hc.2.trans h3⟩
    | none =>
      cases hdv with
      | same => rw [hb] at hd; cases hd
      | chk clk hj => rw [hb] at hd; cases hd
      | msg clk c bytes werr hh m hl hdl hp =>
        rw [hb] at hd
        cases m <;> simp only [devNext] at hd <;> first | cases hd | skip
        case m0100 m =>
          by_cases ht : (Sys.start.run env evs).1.st.taken m.plate = true
          · rw [if_pos ht] at hd; cases hd
          · rw [if_neg ht] at hd; injection hd with hd; subst hd
            refine ⟨c, ⟨evs, clk, bytes, werr, [], (Device.new clk c hh m).code, rfl,
              ⟨clk, c, bytes, werr, hh, m, rfl, hl, hdl, hp, ?_⟩, ?_⟩, rfl, rfl⟩
            · rw [handleFrame_register hdl, if_neg ht, if_neg (by rw [hp, hb]; simp)]
            · intro mid e' post' hx; simp at hx

theorem serverSend_conn {env : Env} {werr : Option Err} {st : Store} {id : Str} {o : Out} {c' : Conn} {f : List UInt8}
    (h : (st.serverSend env werr id o).2 = .ok (some (c', f))) : st.session id = some c' := by
  unfold Store.serverSend at h
  cases hs : st.session id with
  | none => rw [hs] at h; cases h
  | some c =>
    rw [hs] at h
    simp only at h
    cases hx : Out.encode env o with
    | panic => rw [hx] at h; cases h
    | err e => rw [hx] at h; cases h
    | ok g =>
      rw [hx] at h
      cases werr with
      | none => simp only [Res.ok.injEq, Option.some.injEq, Prod.mk.injEq] at h; rw [h.1]
      | some e => cases e <;> cases h

theorem apiSend_found {env : Env} {werr : Option Err} {st : Store} {r : Ref} {code : Option Nat} {id : UInt16} {m : Msg}
    {c' : Conn} {f : List UInt8} (hs : (st.apiSend env werr r code id m).2.sent = some (c', f)) :
    ∃ c, st.session (st.heap r).sessionID = some c ∧ st.session c.addr = some c' := by
  unfold Store.apiSend at hs
  simp only at hs
  cases hx : st.session (st.heap r).sessionID with
  | none => rw [hx] at hs; cases hs
  | some c =>
    refine ⟨c, rfl, ?_⟩
    rw [hx] at hs
    simp only at hs
    cases hy : (st.takeSerial c).1.serverSend env werr c.addr
        (genMsgHeader (st.heap r).phone (st.heap r).ver (st.heap r).protoVer id (st.takeSerial c).2, m) with
    | mk s2 res =>
      rw [hy] at hs
      cases res with
      | err e => cases hs
      | panic => cases hs
      | ok g =>
        simp only at hs
        subst hs
        exact serverSend_conn (st := (st.takeSerial c).1) (congrArg Prod.snd hy)

/-- What holds of C78: whatever a parameter request over HTTP sends for a phone goes to a connection with the address of
the one the terminal registered on.  Missing: that it is the connection it last authenticated on, which is false
(C78_lost, C78_wrong_connection). -/
theorem C78_sent_to_registration_partial (env : Env) (evs : List Ev) (p : Str) (e : Ev)
    (he : (∃ werr, e = .httpQuery p werr) ∨ ∃ b bad werr, e = .httpSet p b bad werr) (c' : Conn) (f : List UInt8)
    (hs : ((Sys.start.run env evs).1.step env e).2.sent = some (c', f)) :
    ∃ c, RegisteredOn env evs p c ∧ c'.addr = c.addr ∧ (Sys.start.run env evs).1.st.session c.addr = some c' := by
  have hi := reachable_inv env evs
  have hse := reachable_sess env evs
  have main : ∀ (r : Ref) (code : Option Nat) (id : UInt16) (m : Msg) (werr : Option Err),
      (Sys.start.run env evs).1.st.byPhone.get p = some r →
      ((Sys.start.run env evs).1.st.apiSend env werr r code id m).2.sent = some (c', f) →
      ∃ c, RegisteredOn env evs p c ∧ c'.addr = c.addr ∧ (Sys.start.run env evs).1.st.session c.addr = some c' := by
    intro r code id m werr hr hx
    obtain ⟨c, h1, h2, h3⟩ := C78_tied_to_registration env evs p _ (Store.look_some.2 ⟨r, hr, rfl⟩)
    obtain ⟨c1, h4, h5⟩ := apiSend_found hx
    rw [h2] at h4
    have e1 := (hse.served _ _ h4).2
    have e2 := (hse.served _ _ h5).2
    rw [e1, h4] at h5
    injection h5 with h5
    subst h5
    exact ⟨c, h1, e1, h4⟩
  unfold Sys.step at hs
  rw [if_neg (by rw [hi.2]; simp)] at hs
  rcases he with ⟨werr, rfl⟩ | ⟨b, bad, werr, rfl⟩
  · simp only at hs
    unfold Store.apiQuery Store.devByPhone at hs
    cases hr : (Sys.start.run env evs).1.st.byPhone.get p with
    | none => rw [hr] at hs; cases hs
    | some r => rw [hr] at hs; exact main r _ _ _ _ hr hs
  · simp only at hs
    unfold Store.apiSet Store.devByPhone at hs
    cases hr : (Sys.start.run env evs).1.st.byPhone.get p with
    | none => rw [hr] at hs; cases hs
    | some r => rw [hr] at hs; exact main r _ _ _ _ hr hs

theorem RegisteredOn.unique {env : Env} {evs : List Ev} {p : Str} {c c' : Conn} (h : RegisteredOn env evs p c)
    (h' : RegisteredOn env evs p c') : c = c' := by
  obtain ⟨pre, clk, b, w, post, code, rfl, h1, h2⟩ := h
  obtain ⟨pre', clk', b', w', post', code', he, h1', h2'⟩ := h'
  rcases List.append_eq_append_iff.1 he with ⟨a, ha, hb⟩ | ⟨a, ha, hb⟩
  · cases a with
    | nil =>
      simp only [List.nil_append, List.cons.injEq, Ev.frame.injEq] at hb
      exact hb.1.2.1
    | cons x a =>
      simp only [List.cons_append, List.cons.injEq] at hb
      obtain ⟨rfl, rfl⟩ := hb
      subst ha
      exact absurd h1' (h2 a _ post' rfl code')
  · cases a with
    | nil =>
      simp only [List.nil_append, List.cons.injEq, Ev.frame.injEq] at hb
      exact hb.1.2.1.symm
    | cons x a =>
      simp only [List.cons_append, List.cons.injEq] at hb
      obtain ⟨rfl, rfl⟩ := hb
      subst ha
      exact absurd h1 (h2' a _ post rfl code)

/-- The opposite of C78, when the connection the terminal registered on is gone: a parameter query for it sends nothing
and answers 400, whatever other connection the terminal has authenticated on since. -/
theorem C78_lost (env : Env) (evs : List Ev) (p : Str) (c : Conn) (hr : RegisteredOn env evs p c)
    (hs : (Sys.start.run env evs).1.st.session c.addr = none) (werr : Option Err) :
    let o := ((Sys.start.run env evs).1.step env (.httpQuery p werr)).2
    o.sent = none ∧ o.http = some 400 := by
  have hi := reachable_inv env evs
  simp only
  unfold Sys.step
  rw [if_neg (by rw [hi.2]; simp)]
  simp only
  unfold Store.apiQuery Store.devByPhone
  cases hg : (Sys.start.run env evs).1.st.byPhone.get p with
  | none => exact ⟨rfl, rfl⟩
  | some r =>
    obtain ⟨c1, h1, h2, -⟩ := C78_tied_to_registration env evs p _ (Store.look_some.2 ⟨r, hg, rfl⟩)
    have := h1.unique hr
    subst this
    simp only
    unfold Store.apiSend
    simp only
    rw [h2, hs]
    exact ⟨rfl, rfl⟩

/-- The terminal registers and authenticates on one connection, loses it, and authenticates again on another one. -/
def roamingEvs : List Ev := silentEvs ++ [.readErr demoC .eof, .frame (demoClk 5000) demoC' (demoAuth demoCode) none]
-- it is online on a served connection, and cannot be asked for its parameters
example : ((Sys.start.run goEnv roamingEvs).1.st.look (hdr2013 0).phone).map (·.status) = some .online ∧
    demoC' ∈ (Sys.start.run goEnv roamingEvs).1.live ∧
    (Sys.start.run goEnv roamingEvs).1.st.session demoC'.addr = some demoC' ∧
    (Sys.start.run goEnv roamingEvs).1.st.session demoC.addr = none ∧
    ((Sys.start.run goEnv roamingEvs).1.step goEnv (.httpQuery (hdr2013 0).phone none)).2 = ⟨none, false, some 400⟩ := by
  decide +kernel
example : ∃ c, RegisteredOn goEnv roamingEvs (hdr2013 0).phone c ∧ c = demoC := by
  have hx : ((Sys.start.run goEnv roamingEvs).1.st.look (hdr2013 0).phone).map (·.conn) = some (some demoC) := by
    decide +kernel
  obtain ⟨d, hd, hc⟩ := Option.map_eq_some_iff.1 hx
  obtain ⟨c, h1, -, h3⟩ := C78_tied_to_registration goEnv roamingEvs _ d hd
  rw [h3] at hc; injection hc with hc
  exact ⟨c, h1, hc⟩

/-- The opposite of C78 when someone else has the old address by then: the query for this terminal is sent to the
stranger. -/
theorem C78_wrong_connection :
    let s := (Sys.start.run goEnv (roamingEvs ++ [.accept demoC.addr])).1
    (s.st.look (hdr2013 0).phone).map (·.status) = some .online ∧
    ((s.step goEnv (.httpQuery (hdr2013 0).phone none)).2.sent.map (·.1)) = some ⟨2, demoC.addr⟩ := by
  decide +kernel

end JT808
