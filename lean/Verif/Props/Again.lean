import Verif.Props.Handlers
import Verif.Props.Auth
import Verif.Props.Refused
/-
C92: messages only a platform sends.  C93: frames sent again because no answer came.
-/
namespace JT808
open Spec

/-! ## C92 platform messages -/

/-- Messages that go from the platform to a terminal. -/
def Spec.FromPlatform : Msg → Prop
  | .m8001 _ | .m8100 _ | .m8103 _ | .m8104 | .m9205 _ => True
  | _ => False

theorem holds_params_phone {env : Env} {now : Civil} {frame : List UInt8} {h : Header} {m : SetParams}
    (hh : Holds env now frame h (.m8103 m)) : m.params.phone = h.phone := by
  obtain ⟨pd, t, j, -, -, -, -, e5⟩ := hh
  exact (decode_8103_phone e5).1

/-- The opposite of C92: whoever is connected, registered or not, can set terminal parameters on the server for any phone,
and is told that it worked. -/
theorem C92_anyone_sets_parameters (env : Env) (clk : Clock) (s : Sys) (hcr : s.crashed = false) (c : Conn)
    (hl : c ∈ s.live) (frame : List UInt8) (h : Header) (m : SetParams)
    (hh : Holds env clk.civil frame h (.m8103 m)) (hnew : s.st.paramsOf h.phone = none) :
    let r := s.step env (.frame clk c frame none)
    r.1.st.paramsOf h.phone = some m.params ∧
    r.2 = ⟨some (c, answer h 0x0001 (ackBody h.serial.toNat h.msgID.toNat 0)), false, none⟩ := by
  have hk : s.st.handleFrame env clk c frame = (s.st.cacheParams m.params,
      .reply (answer h 0x0001 (ackBody h.serial.toNat h.msgID.toNat 0))) := by
    rw [hh.handle]
    simp only [Store.handle, process8103, hnew]
    exact finish_gen0001 env _ h
  rw [step_reply hcr hl hk]
  refine ⟨?_, rfl⟩
  show (s.st.params.set m.params.phone m.params).get h.phone = _
  rw [holds_params_phone hh]
  exact AMap.get_set_self _ _ _

/-- And it answers the queries of a platform as if it were a terminal. -/
theorem C92_server_reports_media (env : Env) (clk : Clock) (s : Sys) (hcr : s.crashed = false) (c : Conn)
    (hl : c ∈ s.live) (frame : List UInt8) (h : Header) (m : MediaQuery)
    (hh : Holds env clk.civil frame h (.m9205 m)) :
    ∃ body, s.step env (.frame clk c frame none) = (s, ⟨some (c, answer h 0x1205 body), false, none⟩) := by
  have hk : s.st.handleFrame env clk c frame = (s.st, .reply (answer h 0x1205
      (MediaList.encode ⟨h.serial, 1, ⟨m.channel, m.start, m.stop, 0, 0, 0, 0, 0⟩, 0⟩))) := by
    rw [hh.handle]; rfl
  exact ⟨_, step_reply hcr hl hk⟩

/-- What holds of C92: the registered terminals are as before, except that a general reply with result 0 turns an
offline terminal online; locations, sessions and jobs are as before.  Missing: the parameters, the answers, and that
exception. -/
theorem C92_registry_kept_partial (env : Env) (clk : Clock) (c : Conn) (st : Store) (hr : Reachable env st)
    (frame : List UInt8) (h : Header) (m : Msg) (hh : Holds env clk.civil frame h m) (hm : Spec.FromPlatform m) :
    let st' := (st.handleFrame env clk c frame).1
    (∀ p d, st.look p = some d → ∃ d', st'.look p = some d' ∧
      (d' ≠ d → p = h.phone ∧ (∃ a, m = .m8001 a ∧ a.result = 0) ∧ d.status = .offline ∧
        d' = { d with status := .online, last := clk.ms })) ∧
    (∀ p, st.look p = none → st'.look p = none) ∧
    st'.geos = st.geos ∧ st'.sessions = st.sessions := by
  have hl := look_handleFrame hr.inv (hh.delivers st) c
  have hg : (st.handleFrame env clk c frame).1.geos = st.geos ∧ (st.handleFrame env clk c frame).1.sessions = st.sessions := by
    rw [hh.handle, finish_fst]
    cases m <;> simp only [Spec.FromPlatform] at hm <;> simp only [Store.handle]
    · simp only [process8001]
      split
      · split
        · exact ⟨rfl, rfl⟩
        · split <;> exact ⟨rfl, rfl⟩
      · exact ⟨rfl, rfl⟩
    · simp only [process8100]
      split <;> exact ⟨rfl, rfl⟩
    · exact ⟨rfl, rfl⟩
    · simp only [process8104]
      split
      · exact ⟨rfl, rfl⟩
      · split <;> exact ⟨rfl, rfl⟩
    · exact ⟨trivial, trivial⟩
  refine ⟨?_, ?_, hg⟩
  · intro p d hd
    rw [hl p]
    by_cases hp : p = h.phone
    · rw [if_pos hp, ← hp, hd]
      cases m <;> simp only [Spec.FromPlatform] at hm
      case m8001 a =>
        simp only [devNext]
        refine ⟨_, rfl, ?_⟩
        intro hne
        by_cases hc : a.result = 0 ∧ d.status = .offline
        · rw [if_pos hc]; exact ⟨by first | exact hp | trivial, ⟨a, rfl, hc.1⟩, hc.2, rfl⟩
        · rw [if_neg hc] at hne; exact absurd rfl hne
      all_goals exact ⟨d, rfl, fun hne => absurd rfl hne⟩
    · rw [if_neg hp]; exact ⟨d, hd, fun hne => absurd rfl hne⟩
  · intro p hn
    rw [hl p]
    by_cases hp : p = h.phone
    · rw [if_pos hp, ← hp, hn]
      cases m <;> simp only [Spec.FromPlatform] at hm <;> rfl
    · rw [if_neg hp]; exact hn

/-! A phone nobody has registered sets a parameter and asks for media, on the second connection of the example. -/

def strangerSet : List UInt8 := msgFrame (hdr2013 0x8103) [1, 0, 0, 0, 2, 4, 0, 0, 0, 5]
def strangerAsk : List UInt8 := msgFrame (hdr2013 0x9205) 
  (MediaQuery.encode ⟨1, ⟨2024, 2, 29, 23, 59, 58⟩, ⟨2024, 3, 1, 0, 0, 0⟩, 0, 1, 2, 0, 1⟩)

theorem strangerSet_holds (now : Civil) : Holds goEnv now strangerSet ((hdr2013 0x8103).withBodyLength 10)
    (.m8103 ⟨1, ⟨(hdr2013 0).phone, 1, [⟨2, 4, .dword 5⟩]⟩⟩) := ⟨_, .t8103, _, rfl, rfl, rfl, rfl, rfl⟩

example : (Sys.start.step goEnv (.accept [0x61])).1.crashed = false ∧
    demoC ∈ (Sys.start.step goEnv (.accept [0x61])).1.live ∧
    (Sys.start.step goEnv (.accept [0x61])).1.st.paramsOf ((hdr2013 0x8103).withBodyLength 10).phone = none ∧
    (Sys.start.step goEnv (.accept [0x61])).1.st.look (hdr2013 0x8103).phone = none := by decide +kernel
example : (((Sys.start.step goEnv (.accept [0x61])).1.step goEnv (.frame (demoClk 5) demoC strangerSet none)).1.st.paramsOf
    (hdr2013 0).phone).isSome := by decide +kernel

/-! ## C93 frames sent again -/

/-- What holds of C93: a heartbeat, an authentication with the issued code, a refused registration and the
messages that are not answered can be sent again without harm: the second answer is the first one, and the terminals
are as if the frame had only arrived the second time.  Missing: the other messages, see the three theorems below. -/
theorem C93_harmless_partial (env : Env) (clk clk' : Clock) (c c' : Conn) (st : Store) (hr : Reachable env st)
    (frame : List UInt8) (h : Header) (m : Msg) (hh : ∀ now, Holds env now frame h m)
    (hm : (m = .m0002 ∧ (st.look h.phone).isSome) ∨
      (∃ a d, m = .m0102 a ∧ st.look h.phone = some d ∧ a.code = d.code) ∨
      (∃ r, m = .m0100 r ∧ ((st.lookPlate r.plate).isSome ∨ (st.look h.phone).isSome)) ∨
      (∃ a, m = .m0001 a) ∨ (∃ a, m = .m0104 a) ∨ (∃ a, m = .m1205 a)) :
    let a := st.handleFrame env clk c frame
    let b := a.1.handleFrame env clk' c' frame
    b.2 = a.2 ∧ ∀ p, b.1.look p = (st.handleFrame env clk' c' frame).1.look p := by
  have hi : StoreInv (st.handleFrame env clk c frame).1 := by
    obtain ⟨_, e⟩ := handleFrame_eff' hr.inv (env := env) (clk := clk) (c := c) frame
    exact e.inv hr.inv
  have l1 := look_handleFrame hr.inv ((hh clk.civil).delivers st) c
  have l2 := look_handleFrame hi ((hh clk'.civil).delivers _) c'
  have l3 := look_handleFrame hr.inv ((hh clk'.civil).delivers st) c'
  have fromSame : (st.handleFrame env clk c frame).1 = st → (st.handleFrame env clk' c' frame).2 = (st.handleFrame env clk c frame).2 →
      ((st.handleFrame env clk c frame).1.handleFrame env clk' c' frame).2 = (st.handleFrame env clk c frame).2 ∧
      ∀ p, ((st.handleFrame env clk c frame).1.handleFrame env clk' c' frame).1.look p =
        (st.handleFrame env clk' c' frame).1.look p := by
    intro e1 e2
    rw [e1]; exact ⟨e2, fun _ => rfl⟩
  rcases hm with ⟨rfl, hs⟩ | ⟨a, d, rfl, hd, hc⟩ | ⟨r, rfl, ht⟩ | hq
  · obtain ⟨d, hd⟩ := Option.isSome_iff_exists.1 hs
    have hd1 : (st.handleFrame env clk c frame).1.look h.phone = some (d.seen clk) := by
      rw [l1, if_pos rfl, hd]; rfl
    refine ⟨?_, fun p => ?_⟩
    · obtain ⟨r, hg, -⟩ := Store.look_some.1 hd
      obtain ⟨r', hg', -⟩ := Store.look_some.1 hd1
      have e1 : (st.handleFrame env clk c frame).2 = .reply (generalReply h 0) := by
        rw [(hh _).handle]; simp only [Store.handle, process0002, Store.devByPhone, hg]
        rw [finish_gen8001]; rfl
      have e2 : ((st.handleFrame env clk c frame).1.handleFrame env clk' c' frame).2 = .reply (generalReply h 0) := by
        rw [(hh _).handle]; simp only [Store.handle, process0002, Store.devByPhone, hg']
        rw [finish_gen8001]; rfl
      rw [e1, e2]
    · rw [l2, l3]
      by_cases hp : p = h.phone
      · rw [if_pos hp, if_pos hp, hd1, hd]; rfl
      · rw [if_neg hp, if_neg hp, l1, if_neg hp]
  · have hd1 : (st.handleFrame env clk c frame).1.look h.phone = some (d.authed clk a) := by
      rw [l1, if_pos rfl, hd]; simp only [devNext, if_pos hc]
    refine ⟨?_, fun p => ?_⟩
    · obtain ⟨r, hg, hgd⟩ := Store.look_some.1 hd
      obtain ⟨r', hg', hgd'⟩ := Store.look_some.1 hd1
      have e1 : (st.handleFrame env clk c frame).2 = .reply (generalReply h 0) := by
        rw [(hh _).handle]; simp only [Store.handle, process0102, Store.devByPhone, hg, hgd]
        rw [if_neg (fun hx => hx hc), finish_gen8001]; rfl
      have e2 : ((st.handleFrame env clk c frame).1.handleFrame env clk' c' frame).2 = .reply (generalReply h 0) := by
        rw [(hh _).handle]; simp only [Store.handle, process0102, Store.devByPhone, hg', hgd']
        rw [if_neg (fun hx => hx hc), finish_gen8001]; rfl
      rw [e1, e2]
    · rw [l2, l3]
      by_cases hp : p = h.phone
      · rw [if_pos hp, if_pos hp, hd1, hd]
        simp only [devNext]
        rw [if_pos hc, if_pos (show a.code = (d.authed clk a).code from hc)]
        rfl
      · rw [if_neg hp, if_neg hp, l1, if_neg hp]
  · by_cases hpl : (st.lookPlate r.plate).isSome
    · have e1 := C32_plate_taken env clk c st frame h r (hh _) hpl
      have e2 := C32_plate_taken env clk' c' st frame h r (hh _) hpl
      exact fromSame (by rw [e1]) (by rw [e1, e2])
    · have hph : (st.look h.phone).isSome := by
        rcases ht with ht | ht
        · exact absurd ht hpl
        · exact ht
      have hpl' : st.lookPlate r.plate = none := by simpa using hpl
      have e1 := C32_phone_taken env clk c st frame h r (hh _) hpl' hph
      have e2 := C32_phone_taken env clk' c' st frame h r (hh _) hpl' hph
      exact fromSame (by rw [e1]) (by rw [e1, e2])
  · have : ∀ clk c, st.handleFrame env clk c frame = (st, .silent) := by
      intro clk c
      rw [(hh _).handle]
      rcases hq with ⟨a, rfl⟩ | ⟨a, rfl⟩ | ⟨a, rfl⟩ <;> rfl
    exact fromSame (by rw [this]) (by rw [this, this])

/-- The opposite of C93 for registrations: a registration that was accepted and whose answer got lost is refused when it
is sent again; the refusal does not carry the code, and with the text it carries the terminal removes itself. -/
theorem C93_registration_again (env : Env) (clk clk' clk'' : Clock) (c c' : Conn) (st : Store) (hr : Reachable env st)
    (frame : List UInt8) (h : Header) (m : Register) (hh : ∀ now, Holds env now frame h (.m0100 m))
    (hpl : st.lookPlate m.plate = none) (hph : st.look h.phone = none)
    (auth : List UInt8) (h' : Header) (a : AuthMsg) (ha : Holds env clk''.civil auth h' (.m0102 a))
    (hsame : h'.phone = h.phone) (hcode : a.code = placeholderCode) :
    ∃ st' code, st.handleFrame env clk c frame = (st', .reply (registerReply h 0 code)) ∧
      st'.handleFrame env clk' c' frame = (st', .reply (registerReply h 1 placeholderCode)) ∧ code ≠ placeholderCode ∧
      (st'.handleFrame env clk'' c' auth).2 = .reply (generalReply h' 1) ∧
      (st'.handleFrame env clk'' c' auth).1.look h.phone = none := by
  have hi : StoreInv (st.handleFrame env clk c frame).1 := by
    obtain ⟨_, e⟩ := handleFrame_eff' hr.inv (env := env) (clk := clk) (c := c) frame
    exact e.inv hr.inv
  obtain ⟨st', code, d, e1, e2, e3, -⟩ := C32_free env clk c st hr frame h m (hh _) hpl hph
  rw [e1] at hi
  have hd : st'.look h.phone = some d := by rw [e2, if_pos rfl]
  have e4 := C32_plate_taken env clk' c' st' frame h m (hh _) (by rw [e3, if_pos rfl]; rfl)
  have hne := code_ne_placeholder d
  have hcode' : code ≠ placeholderCode := by
    have h1 : ¬ (st.hasPlate m.plate = true) := by
      unfold Store.hasPlate; unfold Store.lookPlate at hpl; simp at hpl; simp [hpl]
    have h2 : ¬ (st.hasPhone h.phone = true) := by
      unfold Store.hasPhone; unfold Store.look at hph; simp at hph; simp [hph]
    have e1' := e1
    rw [(hh _).handle] at e1'
    simp only [Store.handle, process0100, if_neg h1, if_neg h2] at e1'
    have e5 := congrArg Prod.snd e1'
    rw [finish_gen8100] at e5
    simp only at e5
    have e6 : registerReply h 0 (Device.new clk c h m).code = registerReply h 0 code := Outcome.reply.inj e5
    have e7 := (answer_injective e6).2
    unfold registerAckBody at e7
    have e8 := List.append_cancel_left e7
    rw [← e8]
    exact (code_ne_placeholder _).symm
  obtain ⟨r, hg, hgd⟩ := Store.look_some.1 hd
  have e5 := look_handleFrame hi (ha.delivers st') c' h.phone
  rw [hsame] at e5
  refine ⟨st', code, e1, e4, hcode', ?_, ?_⟩
  · rw [ha.handle]
    simp only [Store.handle, process0102, Store.devByPhone, hsame, hg, hgd]
    rw [if_pos (by rw [hcode]; exact hne), finish_gen8001]; rfl
  · rw [e5, if_pos rfl, hd]
    simp only [devNext]
    rw [if_neg (by rw [hcode]; exact hne)]

/-- A deregistration that is sent again is answered by closing the connection. -/
theorem C93_deregistration_again (env : Env) (clk clk' : Clock) (c c' : Conn) (st : Store) (hr : Reachable env st)
    (frame : List UInt8) (h : Header) (hh : ∀ now, Holds env now frame h .m0003) (d : Device)
    (hd : st.look h.phone = some d) (werr : Option Err) :
    ∃ st', st.handleFrame env clk c frame = (st', .reply (generalReply h 0)) ∧
      st'.serveFrame env clk' c' werr frame = (st'.remove c', ⟨none, true, none⟩) := by
  obtain ⟨st', e1, e2, -⟩ := C37_deregistered_partial env clk c st hr frame h (hh _) d hd
  exact ⟨st', e1, C38_unregistered_refused env clk' c' werr st' frame h .m0003 (hh _) (.inr (.inl rfl))
    (by rw [e2, if_pos rfl])⟩

/-- A location report that is sent again is recorded again: the ring is that of two reports. -/
theorem C93_location_again (env : Env) (evs : List Ev) (clk : Clock) (c c' : Conn)
    (hc : c ∈ (Sys.start.run env evs).1.live) (hc' : c' ∈ (Sys.start.run env evs).1.live)
    (frame : List UInt8) (h : Header) (m : LocMsg) (hh : ∀ now, Holds env now frame h (.m0200 m)) (d : Device)
    (hd : (Sys.start.run env evs).1.st.look h.phone = some d) :
    let s := (Sys.start.run env evs).1
    let s1 := (s.step env (.frame clk c frame none)).1
    let s2 := (s1.step env (.frame clk c' frame none)).1
    ∃ g r1 r2, ((s.st.geos.get h.phone).getD (Ring.new 100)).write (some g) = .ok r1 ∧ r1.write (some g) = .ok r2 ∧
      s1.st.geos.get h.phone = some r1 ∧ s2.st.geos.get h.phone = some r2 := by
  intro s s1 s2
  have hi := reachable_inv env evs
  obtain ⟨t1, r1, a1, a2, a3, a4, -⟩ := C39_location_recorded env clk c _ ⟨evs, rfl⟩ frame h m (hh _) d hd
  have e1 : s1 = { s with st := t1 } := by show (s.step env _).1 = _; rw [step_reply hi.2 hc a1]
  have hr1 : Reachable env t1 := ⟨evs ++ [.frame clk c frame none], by rw [run_snoc]; show t1 = s1.st; rw [e1]⟩
  have hd1 := a4 h.phone
  rw [if_pos rfl] at hd1
  obtain ⟨t2, r2, b1, b2, b3, -⟩ := C39_location_recorded env clk c' t1 hr1 frame h m (hh _) _ hd1
  have e2 : s2 = { s with st := t2 } := by
    show (s1.step env _).1 = _
    rw [e1]
    exact congrArg Prod.fst (step_reply (s := { s with st := t1 }) hi.2 hc' b1)
  refine ⟨_, r1, r2, a2, ?_, by rw [e1]; simp [a3], by rw [e2]; simp [b3]⟩
  rw [a3, if_pos rfl] at b2
  exact b2

/-! The terminal of the examples sends everything twice. -/

example : (demoSys.st.look (hdr2013 0x0002).phone).isSome := by decide +kernel
example : (demoSys.st.lookPlate demoRegMsg.plate).isSome := by decide +kernel
example : let a := demoSys.st.handleFrame goEnv (demoClk 2000) demoC demoBeat
    let b := a.1.handleFrame goEnv (demoClk 3000) demoC demoBeat
    b.2 = a.2 ∧ (b.1.look (hdr2013 0).phone).map (·.last) = some 3000 := by decide +kernel
-- before the registration, and the authentication with the text of the refusal
example : Store.empty.lookPlate demoRegMsg.plate = none ∧ Store.empty.look (hdr2013 0).phone = none := by decide
example (now : Civil) : Holds goEnv now (demoAuth placeholderCode) ((hdr2013 0x0102).withBodyLength 8)
    (.m0102 ⟨0, placeholderCode, [], []⟩) := ⟨_, .t0102, _, rfl, rfl, rfl, rfl, rfl⟩
example : ((hdr2013 0x0102).withBodyLength 8).phone = ((hdr2013 0x0100).withBodyLength 41).phone := rfl
example : (demoSys.st.look (hdr2013 0x0003).phone).isSome ∧
    ((demoSys.st.handleFrame goEnv (demoClk 2000) demoC demoBye).1.serveFrame goEnv (demoClk 3000) demoC none demoBye).2.ended
      = true := by decide +kernel
example : demoC ∈ demoSys.live ∧ (demoSys.st.look ((hdr2013 0x0200).withBodyLength 28).phone).isSome := by decide +kernel

end JT808
