import Verif.Props.Refinement
import Verif.Props.Registry
import Verif.Proof.Demo
/-
C103: who may speak for a terminal.
-/
namespace JT808
open Spec

/-! ## C103 -/

theorem handle_conn (env : Env) (clk : Clock) (c c' : Conn) (st : Store) (h : Header) (m : Msg)
    (hm : ∀ q, m ≠ .m0100 q) : st.handle env clk c h m = st.handle env clk c' h m := by
  cases m <;> first | rfl | exact absurd rfl (hm _)

theorem handleFrame_conn {env : Env} {clk : Clock} (c c' : Conn) {st : Store} {f : List UInt8}
    (hn : ∀ h m, ¬ Delivers env clk.civil st f h (.m0100 m)) :
    st.handleFrame env clk c f = st.handleFrame env clk c' f := by
  unfold Store.handleFrame
  cases hd : st.decodePacket env f with
  | mk st1 r =>
    cases r with
    | err e => rfl
    | panic => rfl
    | ok pkt =>
      have : st1.process env clk c pkt = st1.process env clk c' pkt := by
        unfold Store.process
        cases ht : MType.ofID pkt.header.msgID with
        | none => rfl
        | some t =>
          dsimp only
          cases hf : (pkt.header.isFragmented && !pkt.segCompleted) with
          | true => rfl
          | false =>
            simp only [Bool.false_eq_true, if_false]
            cases hm : t.decode env clk.civil pkt.header pkt.body 0 with
            | err e => rfl
            | panic => rfl
            | ok x =>
              obtain ⟨m, j⟩ := x
              refine handle_conn env clk c c' st1 pkt.header m ?_
              rintro q rfl
              exact hn pkt.header q ⟨st1, pkt, t, j, hd, rfl, ht, hf, hm⟩
      simp only [this]

/-- The opposite of C103: the connection a message arrives on does not matter.  Whatever happened before, take a frame
that is no registration and does not end the connection.  Arriving on another connection, it leaves the server in the
same state and gets the same answer, sent to that other connection. -/
theorem C103_any_connection (env : Env) (evs : List Ev) (clk : Clock) (f : List UInt8) (c c' : Conn)
    (hn : ∀ h m, ¬ Delivers env clk.civil (Sys.start.run env evs).1.st f h (.m0100 m))
    (hc : c ∈ (Sys.start.run env evs).1.live) (hc' : c' ∈ (Sys.start.run env evs).1.live)
    (hgo : ((Sys.start.run env evs).1.step env (.frame clk c f none)).2.ended = false) :
    ((Sys.start.run env evs).1.step env (.frame clk c' f none)).1 =
      ((Sys.start.run env evs).1.step env (.frame clk c f none)).1 ∧
    ((Sys.start.run env evs).1.step env (.frame clk c' f none)).2.ended = false ∧
    ((Sys.start.run env evs).1.step env (.frame clk c' f none)).2.sent =
      ((Sys.start.run env evs).1.step env (.frame clk c f none)).2.sent.map fun x => (c', x.2) := by
  have hcr := (reachable_inv env evs).2
  generalize (Sys.start.run env evs).1 = s at *
  unfold Sys.step at hgo ⊢
  simp only [hcr, Bool.false_eq_true, if_false, if_pos hc, if_pos hc'] at hgo ⊢
  unfold Store.serveFrame at hgo ⊢
  rw [handleFrame_conn c' c hn]
  generalize s.st.handleFrame env clk c f = r at *
  obtain ⟨st, o⟩ := r
  cases o with
  | silent => exact ⟨rfl, rfl, rfl⟩
  | reply g => exact ⟨rfl, rfl, rfl⟩
  | failed e =>
    dsimp only at hgo ⊢
    by_cases he : e.endsServe = true
    · rw [if_pos he] at hgo; cases hgo
    · simp [he]
  | panicked => cases hgo

/-- Nor is the code a secret: what the listing shows of a terminal is enough to compute it, and an authentication with it
succeeds on any connection. -/
theorem C103_code_computed (env : Env) (evs : List Ev) (d : Device) (hd : d ∈ (Sys.start.run env evs).1.st.apiList.1)
    (clk : Clock) (c : Conn) (f : List UInt8) (h : Header) (m : AuthMsg) (hf : Holds env clk.civil f h (.m0102 m))
    (hp : h.phone = d.phone) (hm : m.code = codeText d.id d.plate d.phone) :
    ((Sys.start.run env evs).1.st.handleFrame env clk c f).2 = .reply (generalReply h 0) ∧
    (((Sys.start.run env evs).1.st.handleFrame env clk c f).1.look d.phone).map (·.status) = some .online := by
  have hl := ((C62_listing env _ ⟨evs, rfl⟩).2 d).1 hd
  obtain ⟨code, -, hx⟩ := C34_auth_iff_issued env evs d.phone (by rw [hl]; rfl)
  have hy := hx clk c f h m hf hp
  by_cases hc : m.code = code
  · exact hy.1 hc
  · exfalso
    have hi := (reachable_inv env evs).1
    have h1 := look_handleFrame hi (hf.delivers _) c h.phone
    rw [if_pos rfl, hp, hl] at h1
    simp only [devNext] at h1
    rw [if_pos (by rw [hm, codeText_eq]), (hy.2 hc).2] at h1
    cases h1

/-- Once a terminal has authenticated, the listing shows the code itself; before that an empty text. -/
theorem C103_code_listed (env : Env) (evs : List Ev) (d : Device) (hd : d ∈ (Sys.start.run env evs).1.st.apiList.1) :
    d.authCode = [] ∨ d.authCode = codeText d.id d.plate d.phone := by
  have hl := ((C62_listing env _ ⟨evs, rfl⟩).2 d).1 hd
  rw [← codeText_eq]
  generalize d.phone = p at hl
  clear hd
  induction evs using snoc_ind generalizing d with
  | h0 => cases hl
  | h1 evs e ih =>
    rw [run_snoc] at hl
    have hi := reachable_inv env evs
    generalize ho : ((Sys.start.run env evs).1.step env e).1.st.look p = o at hl
    have hdv := step_dev env _ e hi.1 p
    rw [ho] at hdv
    cases hdv with
    | same => exact ih d hl
    | chk clk hj =>
      cases hb : (Sys.start.run env evs).1.st.look p with
      | none => rw [hb] at hl; cases hl
      | some d0 =>
        rw [hb] at hl
        have hk := ih d0 hb
        have hl : devCheck clk.ms d0 = some d := hl
        rw [devCheck_code hl]
        unfold devCheck at hl
        split at hl
        · split at hl
          · cases hl
          · injection hl with hl; subst hl; exact hk
        · injection hl with hl; subst hl; exact hk
    | msg clk c bytes werr hh m _ hdl hp =>
      cases hb : (Sys.start.run env evs).1.st.look p with
      | none =>
        rw [hb] at hl
        cases m <;> simp only [devNext] at hl <;> first | cases hl | skip
        case m0100 m =>
          split at hl
          · cases hl
          · injection hl with hl; subst hl; exact .inl rfl
      | some d0 =>
        rw [hb] at hl
        have hk := ih d0 hb
        have hcode := devNext_code hl
        rw [hcode]
        cases m <;> simp only [devNext] at hl
        case m0003 => cases hl
        case m0102 m =>
          split at hl
          · next hc => injection hl with hl; subst hl; exact .inr hc
          · cases hl
        all_goals
          injection hl with hl
          first
          | (subst hl; exact hk)
          | (split at hl <;> (subst hl; exact hk))

/-- What is left of C103: a registered terminal keeps the connection of its registration, and with it id and plate, until
it is removed; a frame on another connection does not change that. -/
theorem C103_registration_partial (env : Env) (evs : List Ev) (e : Ev) (p : Str) (d d' : Device)
    (hd : (Sys.start.run env evs).1.st.look p = some d)
    (hd' : ((Sys.start.run env evs).1.step env e).1.st.look p = some d') :
    d'.id = d.id ∧ d'.plate = d.plate ∧ d'.conn = d.conn ∧ d'.sessionID = d.sessionID := by
  have hi := reachable_inv env evs
  generalize ho : ((Sys.start.run env evs).1.step env e).1.st.look p = o at hd'
  have hdv := step_dev env _ e hi.1 p
  rw [ho] at hdv
  cases hdv with
  | same => rw [hd] at hd'; injection hd' with hd'; subst hd'; exact ⟨rfl, rfl, rfl, rfl⟩
  | chk clk hj =>
    rw [hd] at hd'
    have hl : devCheck clk.ms d = some d' := hd'
    unfold devCheck at hl
    split at hl
    · split at hl
      · cases hl
      · injection hl with hl; subst hl; exact ⟨rfl, rfl, rfl, rfl⟩
    · injection hl with hl; subst hl; exact ⟨rfl, rfl, rfl, rfl⟩
  | msg clk c bytes werr hh m _ hdl hp =>
    rw [hd] at hd'
    cases m <;> simp only [devNext] at hd'
    case m0003 => cases hd'
    case m0102 m =>
      split at hd'
      · injection hd' with hl; subst hl; exact ⟨rfl, rfl, rfl, rfl⟩
      · cases hd'
    all_goals
      injection hd' with hl
      first
      | (subst hl; exact ⟨rfl, rfl, rfl, rfl⟩)
      | (split at hl <;> (subst hl; exact ⟨rfl, rfl, rfl, rfl⟩))

/-- A concrete story: the second connection has neither registered nor authenticated, and neither has the terminal
authenticated; its position is what the second connection reported. -/
theorem C103_stranger_reports :
    ((Sys.start.run goEnv (demoEvs ++ [.frame (demoClk 2000) demoC' (demoLoc 3 31230000) none])).1.st.apiGeo
      (hdr2013 0).phone).2.2.map (fun e => (e.1.status, e.1.conn, e.2.lat)) = some (.offline, some demoC, 31230000) := by
  decide +kernel

-- the hypotheses of C103_any_connection hold for it
example : demoC ∈ demoSys.live ∧ demoC' ∈ demoSys.live ∧
    (demoSys.step goEnv (.frame (demoClk 2000) demoC (demoLoc 3 31230000) none)).2.ended = false ∧
    (demoSys.step goEnv (.frame (demoClk 2000) demoC (demoLoc 3 31230000) none)).2.sent.isSome ∧
    ∀ h m, ¬ Delivers goEnv (demoClk 2000).civil demoSys.st (demoLoc 3 31230000) h (.m0100 m) := by
  refine ⟨by decide +kernel, by decide +kernel, by decide +kernel, by decide +kernel, ?_⟩
  intro h m hx
  have := (hx.unique ((demoLoc_holds _).delivers _)).2
  cases this
-- the code computed from the listing is the demonstration terminal's, and the second connection authenticates with it
example : (demoSys.st.apiList.1.map fun d => codeText d.id d.plate d.phone) = [demoCode] := by decide +kernel
example : (demoSys.st.handleFrame goEnv (demoClk 2000) demoC' (demoAuth demoCode)).2 =
    .reply (generalReply ((hdr2013 0x0102).withBodyLength demoCode.length) 0) := by decide +kernel
-- after that the listing shows it
example : ((Sys.start.run goEnv (demoEvs ++ [.frame (demoClk 2000) demoC' (demoAuth demoCode) none])).1.st.apiList.1.map
    fun d => (d.status, d.authCode)) = [(.online, demoCode)] := by decide +kernel

end JT808
