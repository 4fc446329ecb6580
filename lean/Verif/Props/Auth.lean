import Verif.Proof.Issue
/-
C34, C36: authentication.
-/
namespace JT808
open Spec

/-! ## C34 the code issued at registration -/

/-- In state `s`, event `e` is a registration of phone `p` on a served connection to which the server replies "success"
with `code`. -/
def Ev.issues (env : Env) (s : Sys) (p : Str) (e : Ev) (code : Str) : Prop :=
  ∃ clk c bytes werr h m, e = .frame clk c bytes werr ∧ c ∈ s.live ∧ Delivers env clk.civil s.st bytes h (.m0100 m) ∧
    h.phone = p ∧ (s.st.handleFrame env clk c bytes).2 = .reply (registerReply h 0 code)

/-- `code` is the one carried by the last successful registration reply for `p` in `evs`. -/
def LastIssued (env : Env) (evs : List Ev) (p code : Str) : Prop :=
  ∃ pre e post, evs = pre ++ e :: post ∧ e.issues env (Sys.start.run env pre).1 p code ∧
    ∀ mid e' post', post = mid ++ e' :: post' → ∀ code', ¬ e'.issues env (Sys.start.run env (pre ++ e :: mid)).1 p code'

theorem handleFrame_register {env : Env} {clk : Clock} {c : Conn} {st : Store} {bytes : List UInt8} {h : Header}
    {m : Register} (hd : Delivers env clk.civil st bytes h (.m0100 m)) :
    (st.handleFrame env clk c bytes).2 = .reply (if st.taken m.plate then registerReply h 1 placeholderCode
      else if (st.look h.phone).isSome then registerReply h 3 placeholderCode
      else registerReply h 0 (Device.new clk c h m).code) := by
  obtain ⟨sg, e⟩ := hd.handle c
  rw [e]
  simp only [Store.handle, process0100]
  have hx : Store.hasPlate { st with segs := sg } m.plate = st.taken m.plate := hasPlate_taken st m.plate
  have hy : Store.hasPhone { st with segs := sg } h.phone = (st.look h.phone).isSome := by
    unfold Store.hasPhone Store.look; simp; rfl
  rw [hx, hy]
  by_cases h1 : st.taken m.plate = true
  · rw [if_pos h1, if_pos h1]; exact congrArg Prod.snd (finish_gen8100 env _ h 1 _)
  · rw [if_neg h1, if_neg h1]
    by_cases h2 : (st.look h.phone).isSome = true
    · rw [if_pos h2, if_pos h2]; exact congrArg Prod.snd (finish_gen8100 env _ h 3 _)
    · rw [if_neg h2, if_neg h2]; exact congrArg Prod.snd (finish_gen8100 env _ h 0 _)

theorem issues_free {env : Env} {s : Sys} {p code : Str} {e : Ev} (h : e.issues env s p code) : s.st.look p = none := by
  obtain ⟨clk, c, bytes, werr, hh, m, rfl, hl, hd, rfl, hr⟩ := h
  rw [handleFrame_register hd] at hr
  injection hr with hr
  by_cases h1 : s.st.taken m.plate = true
  · rw [if_pos h1] at hr; exact absurd (registerReply_injective (by omega) (by omega) hr).1 (by omega)
  · rw [if_neg h1] at hr
    by_cases h2 : (s.st.look hh.phone).isSome = true
    · rw [if_pos h2] at hr; exact absurd (registerReply_injective (by omega) (by omega) hr).1 (by omega)
    · simpa using h2

theorem devNext_code {clk : Clock} {c : Conn} {h : Header} {taken : Str → Bool} {m : Msg} {d d' : Device}
    (he : devNext clk c h taken m (some d) = some d') : d'.code = d.code := by
  cases m <;> simp only [devNext] at he
  case m0003 => cases he
  case m0102 m =>
    by_cases hc : m.code = d.code
    · rw [if_pos hc] at he; injection he with he; subst he; rfl
    · rw [if_neg hc] at he; cases he
  all_goals
    injection he with he
    first
    | (subst he; rfl)
    | (split at he <;> (subst he; rfl))

theorem devCheck_code {now : Nat} {d d' : Device} (h : devCheck now d = some d') : d'.code = d.code := by
  unfold devCheck at h
  by_cases h1 : d.last + 60000 < now
  · rw [if_pos h1] at h
    by_cases h2 : d.status = .offline
    · rw [if_pos h2] at h; cases h
    · rw [if_neg h2] at h; injection h with h; subst h; rfl
  · rw [if_neg h1] at h; injection h with h; subst h; rfl

theorem LastIssued.snoc {env : Env} {evs : List Ev} {e : Ev} {p code : Str} (h : LastIssued env evs p code)
    (hn : ∀ code', ¬ e.issues env (Sys.start.run env evs).1 p code') : LastIssued env (evs ++ [e]) p code := by
  obtain ⟨pre, e0, post, rfl, h1, h2⟩ := h
  refine ⟨pre, e0, post ++ [e], by simp, h1, ?_⟩
  intro mid e' post' hp
  rcases List.eq_nil_or_concat post' with rfl | ⟨q, a, rfl⟩
  · have := List.append_inj' hp rfl
    obtain ⟨rfl, h3⟩ := this
    injection h3 with h3; subst h3
    exact hn
  · have h4 : post ++ [e] = (mid ++ e' :: q) ++ [a] := by rw [hp]; simp
    have := List.append_inj' h4 rfl
    exact h2 mid e' q this.1

/-- The code a registered device would have to show is the one issued last. -/
theorem registered_issued (env : Env) (evs : List Ev) (p : Str) (d : Device)
    (hd : (Sys.start.run env evs).1.st.look p = some d) : LastIssued env evs p d.code := by
  induction evs using snoc_ind generalizing d with
  | h0 => cases hd
  | h1 evs e ih =>
    rw [run_snoc] at hd
    have hi := reachable_inv env evs
    generalize ho : ((Sys.start.run env evs).1.step env e).1.st.look p = o at hd
    have hdv := step_dev env _ e hi.1 p
    rw [ho] at hdv
    cases hb : (Sys.start.run env evs).1.st.look p with
    | some d0 =>
      have hn : ∀ code', ¬ e.issues env (Sys.start.run env evs).1 p code' := fun code' hx => by
        have := issues_free hx; rw [hb] at this; cases this
      have hc : d.code = d0.code := by
        cases hdv with
        | same => rw [hb] at hd; injection hd with hd; rw [hd]
        | msg clk c bytes werr hh m hl hdl hp => rw [hb] at hd; exact devNext_code hd
        | chk clk hj => rw [hb] at hd; exact devCheck_code hd
      rw [hc]
      exact (ih d0 hb).snoc hn
    | none =>
      cases hdv with
      | same => rw [hb] at hd; cases hd
      | chk clk hj => rw [hb] at hd; cases hd
      | msg clk c bytes werr hh m hl hdl hp =>
        rw [hb] at hd
        cases m <;> simp only [devNext] at hd <;> first | cases hd | skip
        case m0100 m =>
          by_cases ht : (Sys.start.run env evs).1.st.taken m.plate = true
          · rw [if_pos ht] at hd; cases hd
          · rw [if_neg ht] at hd; injection hd with hd; subst hd
            refine ⟨evs, _, [], rfl, ⟨clk, c, bytes, werr, hh, m, rfl, hl, hdl, hp, ?_⟩, ?_⟩
            · rw [handleFrame_register hdl, if_neg ht, if_neg (by rw [hp, hb]; simp)]
            · intro mid e' post' hx; simp at hx

theorem auth_iff_code (env : Env) (evs : List Ev) (p : Str) (d : Device) (hd : (Sys.start.run env evs).1.st.look p = some d)
    (clk : Clock) (c : Conn) (frame : List UInt8) (h : Header) (m : AuthMsg) (hh : Holds env clk.civil frame h (.m0102 m))
    (hph : h.phone = p) :
    let r := (Sys.start.run env evs).1.st.handleFrame env clk c frame
    (m.code = d.code → r.2 = .reply (generalReply h 0) ∧ (r.1.look p).map (·.status) = some .online) ∧
    (m.code ≠ d.code → r.2 = .reply (generalReply h 1) ∧ r.1.look p = none) := by
  subst hph
  have hi := (reachable_inv env evs).1
  have hl := look_handleFrame hi (hh.delivers _) c h.phone
  rw [if_pos rfl, hd] at hl
  simp only [devNext] at hl
  obtain ⟨r, hr, rfl⟩ := Store.look_some.1 hd
  simp only
  rw [hl, hh.handle]
  simp only [Store.handle, process0102, Store.devByPhone, hr]
  refine ⟨fun hc => ?_, fun hc => ?_⟩
  · rw [if_pos hc, if_neg (by simpa using hc)]
    exact ⟨congrArg Prod.snd (finish_gen8001 env _ h 0), rfl⟩
  · rw [if_neg hc, if_pos hc]
    exact ⟨congrArg Prod.snd (finish_gen8001 env _ h 1), rfl⟩

/-- After any history, for a registered phone: there is a code carried by the last successful registration reply for
it, and an authentication is answered with success and turns the terminal online iff it shows that code; any other
answer is 1 and removes the terminal. -/
theorem C34_auth_iff_issued (env : Env) (evs : List Ev) (p : Str) (hp : ((Sys.start.run env evs).1.st.look p).isSome) :
    ∃ code, LastIssued env evs p code ∧
      ∀ clk c frame h m, Holds env clk.civil frame h (.m0102 m) → h.phone = p →
        let r := (Sys.start.run env evs).1.st.handleFrame env clk c frame
        (m.code = code → r.2 = .reply (generalReply h 0) ∧ (r.1.look p).map (·.status) = some .online) ∧
        (m.code ≠ code → r.2 = .reply (generalReply h 1) ∧ r.1.look p = none) := by
  obtain ⟨d, hd⟩ := Option.isSome_iff_exists.1 hp
  exact ⟨d.code, registered_issued env evs p d hd, fun clk c frame h m hh hph => auth_iff_code env evs p d hd clk c frame h m hh hph⟩

/-- A code that was issued is not the two answers' confusion: the two replies differ on the wire. -/
theorem C34_replies_differ (h : Header) : generalReply h 0 ≠ generalReply h 1 := by
  intro e
  have := (answer_injective e).2
  unfold ackBody at this
  have := List.append_cancel_left this
  cases this

example : ((Sys.start.run goEnv demoEvs).1.st.look (hdr2013 0).phone).isSome := by decide +kernel
example : Ev.issues goEnv (Sys.start.run goEnv [.accept [0x61], .accept [0x62]]).1 (hdr2013 0).phone
    (.frame (demoClk 1000) demoC demoReg none) demoCode :=
  ⟨demoClk 1000, demoC, demoReg, none, _, _, rfl, by decide +kernel, (demoReg_holds _).delivers _, rfl, by decide +kernel⟩
-- the issued code, and another
example : ((demoSys.st.handleFrame goEnv (demoClk 2000) demoC (demoAuth demoCode)).1.look (hdr2013 0).phone).map (·.status)
    = some .online := by decide +kernel
example : (demoSys.st.handleFrame goEnv (demoClk 2000) demoC (demoAuth [0x78, 0x79])).1.look (hdr2013 0).phone = none := by
  decide +kernel

/-! ## C36 online or sleeping -/

/-- In state `s`, event `e` is a message for the registered phone `p` on a served connection that takes it out of the
offline state: an authentication with the code last issued, a location report with ACC off, or a platform general reply
with result 0. -/
def Ev.wakes (env : Env) (evs : List Ev) (p : Str) (e : Ev) : Prop :=
  ∃ clk c bytes werr h m, e = .frame clk c bytes werr ∧ c ∈ (Sys.start.run env evs).1.live ∧
    Delivers env clk.civil (Sys.start.run env evs).1.st bytes h m ∧ h.phone = p ∧
    ((∃ a, m = .m0102 a ∧ LastIssued env evs p a.code) ∨ (∃ l, m = .m0200 l ∧ (GeoMeta.decode l.status).acc = 0) ∨
      (∃ a, m = .m8001 a ∧ a.result = 0))

/-- What holds of C36: a device that is not offline got an event of one of three kinds while registered, and has been
registered ever since.  Missing: that it is always the first kind, which is false (C36_location_wakes,
C36_general_reply_wakes). -/
theorem C36_woken_partial (env : Env) (evs : List Ev) (p : Str) (d : Device)
    (hd : (Sys.start.run env evs).1.st.look p = some d) (hs : d.status ≠ .offline) :
    ∃ pre e post, evs = pre ++ e :: post ∧ e.wakes env pre p ∧ ((Sys.start.run env pre).1.st.look p).isSome ∧
      ∀ mid, mid <+: post → ((Sys.start.run env (pre ++ e :: mid)).1.st.look p).isSome := by
  induction evs using snoc_ind generalizing d with
  | h0 => cases hd
  | h1 evs e ih =>
    have hd0 := hd
    rw [run_snoc] at hd
    have hi := reachable_inv env evs
    generalize ho : ((Sys.start.run env evs).1.step env e).1.st.look p = o at hd
    have hdv := step_dev env _ e hi.1 p
    rw [ho] at hdv
    have ext : ∀ d1, (Sys.start.run env evs).1.st.look p = some d1 → d1.status ≠ .offline →
        ∃ pre e' post, evs ++ [e] = pre ++ e' :: post ∧ e'.wakes env pre p ∧
          ((Sys.start.run env pre).1.st.look p).isSome ∧
          ∀ mid, mid <+: post → ((Sys.start.run env (pre ++ e' :: mid)).1.st.look p).isSome := by
      intro d1 h1 h2
      obtain ⟨pre, e', post, rfl, h3, h4, h5⟩ := ih d1 h1 h2
      refine ⟨pre, e', post ++ [e], by simp, h3, h4, ?_⟩
      intro mid hm
      obtain ⟨t, ht⟩ := hm
      rcases List.eq_nil_or_concat t with rfl | ⟨q, a, rfl⟩
      · simp only [List.append_nil] at ht
        subst ht
        have : pre ++ e' :: (post ++ [e]) = pre ++ e' :: post ++ [e] := by simp
        rw [this, hd0]; rfl
      · have h4 : (mid ++ q) ++ [a] = post ++ [e] := by rw [← ht]; simp
        exact h5 mid ⟨q, (List.append_inj' h4 rfl).1⟩
    have here : ∀ d1, (Sys.start.run env evs).1.st.look p = some d1 → e.wakes env evs p →
        ∃ pre e' post, evs ++ [e] = pre ++ e' :: post ∧ e'.wakes env pre p ∧
          ((Sys.start.run env pre).1.st.look p).isSome ∧
          ∀ mid, mid <+: post → ((Sys.start.run env (pre ++ e' :: mid)).1.st.look p).isSome := by
      intro d1 h1 h2
      refine ⟨evs, e, [], rfl, h2, by rw [h1]; rfl, ?_⟩
      intro mid hm
      rw [List.prefix_nil.1 hm, hd0]; rfl
    cases hb : (Sys.start.run env evs).1.st.look p with
    | none =>
      exfalso
      cases hdv with
      | same => rw [hb] at hd; cases hd
      | chk clk hj => rw [hb] at hd; cases hd
      | msg clk c bytes werr hh m hl hdl hp =>
        rw [hb] at hd
        cases m <;> simp only [devNext] at hd <;> first | cases hd | skip
        case m0100 m =>
          by_cases ht : (Sys.start.run env evs).1.st.taken m.plate = true
          · rw [if_pos ht] at hd; cases hd
          · rw [if_neg ht] at hd; injection hd with hd; subst hd; exact hs rfl
    | some d1 =>
      cases hdv with
      | same => rw [hb] at hd; injection hd with hd; subst hd; exact ext _ hb hs
      | chk clk hj =>
        rw [hb] at hd
        simp only [Option.bind_some, devCheck] at hd
        by_cases h1 : d1.last + 60000 < clk.ms
        · rw [if_pos h1] at hd
          by_cases h2 : d1.status = .offline
          · rw [if_pos h2] at hd; cases hd
          · rw [if_neg h2] at hd; injection hd with hd; subst hd; exact absurd rfl hs
        · rw [if_neg h1] at hd; injection hd with hd; subst hd; exact ext _ hb hs
      | msg clk c bytes werr hh m hl hdl hp =>
        rw [hb] at hd
        cases m <;> simp only [devNext] at hd
        case m0003 => cases hd
        case m0002 => injection hd with hd; subst hd; exact ext _ hb hs
        case m0102 m =>
          by_cases hc : m.code = d1.code
          · refine here _ hb ⟨clk, c, bytes, werr, hh, _, rfl, hl, hdl, hp, .inl ⟨m, rfl, ?_⟩⟩
            rw [hc]; exact registered_issued env evs p d1 hb
          · rw [if_neg hc] at hd; cases hd
        case m0200 m =>
          injection hd with hd
          by_cases ha : (GeoMeta.decode m.status).acc = 0
          · exact here _ hb ⟨clk, c, bytes, werr, hh, _, rfl, hl, hdl, hp, .inr (.inl ⟨m, rfl, ha⟩)⟩
          · rw [if_neg ha] at hd; subst hd; exact ext _ hb hs
        case m8001 m =>
          injection hd with hd
          by_cases ha : m.result = 0 ∧ d1.status = .offline
          · exact here _ hb ⟨clk, c, bytes, werr, hh, _, rfl, hl, hdl, hp, .inr (.inr ⟨m, rfl, ha.1⟩)⟩
          · rw [if_neg ha] at hd; subst hd; exact ext _ hb hs
        all_goals (injection hd with hd; subst hd; exact ext _ hb hs)

/-- So a phone that never sent an ACC-off location or a general reply is online or sleeping only after an authentication
with the issued code, at which it was registered and since which it has stayed registered. -/
theorem C36_authenticated_partial (env : Env) (evs : List Ev) (p : Str) (d : Device)
    (hd : (Sys.start.run env evs).1.st.look p = some d) (hs : d.status ≠ .offline)
    (hno : ∀ pre e post, evs = pre ++ e :: post → ∀ clk c bytes werr h m, e = .frame clk c bytes werr →
      Delivers env clk.civil (Sys.start.run env pre).1.st bytes h m → h.phone = p →
        (∀ l, m = .m0200 l → (GeoMeta.decode l.status).acc ≠ 0) ∧ (∀ a, m = .m8001 a → a.result ≠ 0)) :
    ∃ pre clk c bytes werr post h a, evs = pre ++ .frame clk c bytes werr :: post ∧
      Delivers env clk.civil (Sys.start.run env pre).1.st bytes h (.m0102 a) ∧ h.phone = p ∧
      LastIssued env pre p a.code ∧
      ∀ mid, mid <+: post → ((Sys.start.run env (pre ++ .frame clk c bytes werr :: mid)).1.st.look p).isSome := by
  obtain ⟨pre, e, post, rfl, ⟨clk, c, bytes, werr, h, m, rfl, hl, hdl, hp, hk⟩, -, h3⟩ := C36_woken_partial env evs p d hd hs
  obtain ⟨n1, n2⟩ := hno pre _ post rfl clk c bytes werr h m rfl hdl hp
  rcases hk with ⟨a, rfl, ha⟩ | ⟨l, rfl, hl⟩ | ⟨a, rfl, ha⟩
  · exact ⟨pre, clk, c, bytes, werr, post, h, a, rfl, hdl, hp, ha, h3⟩
  · exact absurd hl (n1 l rfl)
  · exact absurd ha (n2 a rfl)

/-- The opposite of C36: a terminal that never authenticated sleeps after one location report with ACC off. -/
theorem C36_location_wakes :
    ((Sys.start.run goEnv (demoEvs ++ [.frame (demoClk 2000) demoC (demoLoc 2 31230000) none])).1.st.look
      (hdr2013 0).phone).map (·.status) = some .sleeping := by decide +kernel

/-- And it is online after one general reply with result 0, even on another connection. -/
theorem C36_general_reply_wakes :
    ((Sys.start.run goEnv (demoEvs ++ [.frame (demoClk 2000) demoC' (demoAck 0) none])).1.st.look
      (hdr2013 0).phone).map (·.status) = some .online := by decide +kernel

-- an authenticated terminal: the hypotheses of C36_woken_partial
example : ((Sys.start.run goEnv (demoEvs ++ [.frame (demoClk 2000) demoC (demoAuth demoCode) none])).1.st.look
      (hdr2013 0).phone).map (·.status) = some .online := by decide +kernel

end JT808
