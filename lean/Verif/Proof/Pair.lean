import Verif.Model.Pair
import Verif.Props.Connections
import Verif.Props.EndToEnd
import Verif.Props.Simulator
import Verif.Props.Refinement
/-
Lemmas on the conversation of the server with a simulated terminal.
-/
namespace JT808
open Spec

/-! ### Frames -/

theorem beat_holds (env : Env) (d : Device) (hp : PhoneWF (if d.ver = .v2019 then .v2019 else .v2013) d.phone) :
    ∃ f h, Out.encode env (clientBeat d) = .ok f ∧ (∀ now, Holds env now f h .m0002) ∧ h.WF ∧ h.phone = d.phone := by
  have hw := clientHeader_wf 0x0002 d hp
  have hcar : FrameCarries env (clientHeader 0x0002 d) [] (fun _ => (pure () : Rd Unit)) () :=
    .of_reads env hw [] (by decide) _ _ (by intro _ _ _ _; rfl)
  have hid : MType.ofID (clientHeader 0x0002 d).msgID = some .t0002 := by unfold clientHeader; split <;> rfl
  have hnf : (clientHeader 0x0002 d).isFragmented = false := by unfold clientHeader; split <;> rfl
  have hphone : (clientHeader 0x0002 d).phone = d.phone := by unfold clientHeader; split <;> rfl
  exact ⟨_, _, rfl, fun now => hcar.holds now hnf .t0002 (fun _ => .m0002) hid (fun _ => rfl),
    Header.withBodyLength_wf hw 0 (by decide), hphone⟩

theorem locate_holds (env : Env) (d : Device) (hp : PhoneWF (if d.ver = .v2019 then .v2019 else .v2013) d.phone)
    (x : LocDraw) (hx : x.now.Valid) :
    ∃ f h l, Out.encode env (clientLocation d x) = .ok f ∧ (∀ now, Holds env now f h (.m0200 l)) ∧ h.WF ∧
      h.phone = d.phone := by
  have hw := clientHeader_wf 0x0200 d hp
  have hid : MType.ofID (clientHeader 0x0200 d).msgID = some .t0200 := by unfold clientHeader; split <;> rfl
  have hnf : (clientHeader 0x0200 d).isFragmented = false := by unfold clientHeader; split <;> rfl
  have hphone : (clientHeader 0x0200 d).phone = d.phone := by unfold clientHeader; split <;> rfl
  have ht : TimeStr (formatTime x.now) := ⟨formatTime_length _, formatTime_bcd _ hx⟩
  unfold clientLocation
  simp only
  generalize hm : (LocMsg.mk _ _ _ _ _ _ _ _ : LocMsg) = m
  have htm : TimeStr m.time := by rw [← hm]; exact ht
  have hcar := C19_location env _ hw m htm
  exact ⟨_, _, m, rfl, fun now => hcar.holds now hnf .t0200 .m0200 hid (fun _ => rfl),
    Header.withBodyLength_wf hw _ (by rw [m.encode_length htm]; decide), hphone⟩

/-! ### The server's side -/

theorem step_reply {env : Env} {clk : Clock} {s : Sys} {c : Conn} {f r : List UInt8} {st : Store}
    (hcr : s.crashed = false) (hl : c ∈ s.live) (hh : s.st.handleFrame env clk c f = (st, .reply r)) :
    s.step env (.frame clk c f none) = ({ s with st := st }, ⟨some (c, r), false, none⟩) := by
  unfold Sys.step
  rw [if_neg (by rw [hcr]; simp)]
  simp only
  rw [if_pos hl]
  simp only [Store.serveFrame, hh, Bool.false_eq_true, if_false]

theorem devNext_plate {clk : Clock} {c : Conn} {h : Header} {taken : Str → Bool} {m : Msg} {o : Option Device}
    {d' : Device} (he : devNext clk c h taken m o = some d') :
    (∃ r, m = .m0100 r ∧ d'.plate = r.plate) ∨ ∃ d, o = some d ∧ d'.plate = d.plate := by
  cases o with
  | none =>
    cases m <;> simp only [devNext] at he <;> first | cases he | skip
    case m0100 m =>
      by_cases ht : taken m.plate = true
      · rw [if_pos ht] at he; cases he
      · rw [if_neg ht] at he; injection he with he; subst he; exact .inl ⟨m, rfl, rfl⟩
  | some d =>
    right
    refine ⟨d, rfl, ?_⟩
    cases m <;> simp only [devNext] at he <;> first | cases he | skip
    all_goals first | rfl | skip
    case m0102 m =>
      by_cases ht : m.code = d.code
      · rw [if_pos ht] at he; injection he with he; subst he; rfl
      · rw [if_neg ht] at he; cases he
    all_goals split <;> rfl

/-- Nobody has plate `q`. -/
theorem taken_false {st : Store} (hi : StoreInv st) (q : Str) :
    st.taken q = false ↔ ∀ p d, st.look p = some d → d.plate ≠ q := by
  constructor
  · intro h p d hd he
    have : st.taken q = true := (registry_hasPlate hi q).1 ⟨p, d.entry, registry_some hd, he⟩
    rw [h] at this; cases this
  · intro h
    cases ht : st.taken q with
    | false => rfl
    | true =>
      obtain ⟨p, e, h1, h2⟩ := (registry_hasPlate hi q).2 ht
      obtain ⟨d, h3, rfl⟩ := Option.map_eq_some_iff.1 h1
      exact absurd h2 (h p d h3)

/-- Nothing on connection `c`, nothing from `phone`, no expired check of `phone`, no registration with `plate` before
`phone` is registered, and no parameter request to `c`. -/
def Ev.aside (env : Env) (c : Conn) (phone plate : Str) (s : Sys) : Ev → Prop
  | .frame clk c' bytes _ => c' ≠ c ∧ framePhone env bytes ≠ some phone ∧
      (s.st.look phone = none → ∀ h m, Delivers env clk.civil s.st bytes h (.m0100 m) → m.plate ≠ plate)
  | .readErr c' _ => c' ≠ c
  | .check clk p => p = phone → ∀ d, s.st.look p = some d → clk.ms ≤ d.last + 60000
  | .httpQuery p _ => ∀ d, s.st.look p = some d → s.st.session d.sessionID ≠ some c
  | .httpSet p _ _ _ => ∀ d, s.st.look p = some d → s.st.session d.sessionID ≠ some c
  | _ => True

/-- The server's side of the conversation apart from the device itself: a reachable state in which the connection is
served and open, and nobody else registered on it. -/
structure Hosts (env : Env) (c : Conn) (phone : Str) (s : Sys) : Prop where
  reach : ∃ evs, s = (Sys.start.run env evs).1
  live : c ∈ s.live
  opened : s.st.closed c.id = false
  devs : ∀ p d c', p ≠ phone → s.st.look p = some d → d.conn = some c' → c'.id ≠ c.id

theorem Hosts.inv {env : Env} {c : Conn} {phone : Str} {s : Sys} (h : Hosts env c phone s) :
    StoreInv s.st ∧ s.crashed = false ∧ SessInv s ∧ ConnInv s ∧ Reachable env s.st := by
  obtain ⟨evs, he⟩ := h.reach
  subst he
  exact ⟨(reachable_inv env evs).1, (reachable_inv env evs).2, reachable_sess env evs, reachable_conn env evs, evs, rfl⟩

/-- A frame of the simulator that is answered. -/
theorem Hosts.reads {env : Env} {c : Conn} {phone : Str} {s : Sys} (h : Hosts env c phone s) {clk : Clock}
    {f r : List UInt8} {hd : Header} {m : Msg} {st : Store} (hh : Holds env clk.civil f hd m) (hp : hd.phone = phone)
    (hs : s.st.handleFrame env clk c f = (st, .reply r)) : Hosts env c phone { s with st := st } := by
  obtain ⟨i1, i2, i3, i4, -⟩ := h.inv
  have e := step_reply i2 h.live hs
  refine ⟨?_, h.live, ?_, ?_⟩
  · obtain ⟨evs, he⟩ := h.reach
    refine ⟨evs ++ [.frame clk c f none], ?_⟩
    rw [run_snoc, ← he, e]
  · have := (handleFrame_conns env clk c i1 f).1
    rw [hs] at this
    show st.closed c.id = false
    rw [this]; exact h.opened
  · intro p d c' hne hl
    have := look_handleFrame i1 (hh.delivers s.st) c p
    rw [hs, hp, if_neg hne] at this
    exact h.devs p d c' hne (this ▸ hl)

theorem serveFrame_sent_on {env : Env} {clk : Clock} {c c' : Conn} {werr : Option Err} {st : Store} {f g : List UInt8}
    (h : (st.serveFrame env clk c werr f).2.sent = some (c', g)) : c' = c := by
  unfold Store.serveFrame at h
  cases hh : st.handleFrame env clk c f with
  | mk st1 o =>
    rw [hh] at h
    cases o with
    | silent => cases h
    | panicked => cases h
    | failed e => simp only at h; split at h <;> cases h
    | reply r =>
      cases werr with
      | none => simp only [Option.some.injEq, Prod.mk.injEq] at h; exact h.1.symm
      | some e => simp only at h; split at h <;> cases h

theorem serverSend_sent_on {env : Env} {werr : Option Err} {st st2 : Store} {id : Str} {o : Out} {c' : Conn} {g : List UInt8}
    (h : st.serverSend env werr id o = (st2, .ok (some (c', g)))) : st.session id = some c' := by
  unfold Store.serverSend at h
  cases hs : st.session id with
  | none => rw [hs] at h; cases h
  | some c =>
    rw [hs] at h
    simp only at h
    cases ho : Out.encode env o with
    | panic => rw [ho] at h; cases h
    | err e => rw [ho] at h; cases h
    | ok f =>
      rw [ho] at h
      simp only at h
      cases werr with
      | none => injection h with _ h; injection h with h; injection h with h; injection h with h _; rw [h]
      | some e => cases e <;> cases h

theorem apiSend_sent_on {env : Env} {werr : Option Err} {st : Store} {r : Ref} {code : Option Nat} {id : UInt16} {m : Msg}
    {c' : Conn} {g : List UInt8} (h : (st.apiSend env werr r code id m).2.sent = some (c', g)) :
    ∃ c, st.session (st.heap r).sessionID = some c ∧ st.session c.addr = some c' := by
  unfold Store.apiSend at h
  simp only at h
  cases hs : st.session (st.heap r).sessionID with
  | none => rw [hs] at h; cases h
  | some c =>
    rw [hs] at h
    simp only at h
    generalize hx : genMsgHeader (st.heap r).phone (st.heap r).ver (st.heap r).protoVer id (st.takeSerial c).2 = hd at h
    cases hq : (st.takeSerial c).1.serverSend env werr c.addr (hd, m) with
    | mk st2 r2 =>
      rw [hq] at h
      cases r2 with
      | err e => cases h
      | panic => cases h
      | ok o =>
        simp only at h
        subst h
        have hs2 := serverSend_sent_on hq
        exact ⟨c, rfl, hs2⟩

/-- Nothing is sent on the connection by an event that keeps aside. -/
theorem aside_sent {env : Env} {c : Conn} {phone plate : Str} {s : Sys} (hss : SessInv s) {e : Ev}
    (ha : e.aside env c phone plate s) {c' : Conn} {g : List UInt8} (h : (s.step env e).2.sent = some (c', g)) :
    c' ≠ c := by
  unfold Sys.step at h
  by_cases hcr : s.crashed = true
  · rw [if_pos hcr] at h; cases h
  · rw [if_neg hcr] at h
    cases e with
    | accept a => cases h
    | frame clk c1 bytes werr =>
      simp only at h
      split at h
      · rw [serveFrame_sent_on h]; exact ha.1
      · cases h
    | readErr c1 err =>
      simp only [Store.serveErr] at h
      split at h
      · split at h <;> cases h
      · cases h
    | check clk p => simp only at h; split at h <;> cases h
    | httpList => cases h
    | httpGeo p => cases h
    | httpQuery p w =>
      simp only [Store.apiQuery] at h
      cases hd : s.st.devByPhone p with
      | none => rw [hd] at h; cases h
      | some r =>
        rw [hd] at h
        obtain ⟨c2, h1, h2⟩ := apiSend_sent_on h
        rw [(hss.served _ _ h1).2, h1] at h2
        injection h2 with h2; subst h2
        exact fun hx => ha _ (Store.look_some.2 ⟨r, hd, rfl⟩) (hx ▸ h1)
    | httpSet p b x w =>
      simp only [Store.apiSet] at h
      cases hd : s.st.devByPhone p with
      | none => rw [hd] at h; cases h
      | some r =>
        rw [hd] at h
        obtain ⟨c2, h1, h2⟩ := apiSend_sent_on h
        rw [(hss.served _ _ h1).2, h1] at h2
        injection h2 with h2; subst h2
        exact fun hx => ha _ (Store.look_some.2 ⟨r, hd, rfl⟩) (hx ▸ h1)

/-- An event that keeps aside leaves the server's side as it is. -/
theorem Hosts.other {env : Env} {c : Conn} {phone plate : Str} {s : Sys} (h : Hosts env c phone s) {e : Ev}
    (ha : e.aside env c phone plate s) :
    Hosts env c phone (s.step env e).1 ∧ (s.step env e).1.st.look phone = s.st.look phone ∧
    (s.st.look phone = none → s.st.taken plate = false → (s.step env e).1.st.taken plate = false) := by
  obtain ⟨i1, i2, i3, i4, -⟩ := h.inv
  have i1' := (step_inv env s e i1).1
  have hlook : (s.step env e).1.st.look phone = s.st.look phone := by
    by_cases ht : e.touches env phone
    · cases e with
      | frame clk c' bytes werr => exact absurd ht ha.2.1
      | check clk p =>
        have : p = phone := ht
        subst this
        rw [check_recent env i1 i2 p (ha rfl)]
      | accept a => exact ht.elim
      | readErr c' err => exact ht.elim
      | httpList => exact ht.elim
      | httpGeo p => exact ht.elim
      | httpQuery p w => exact ht.elim
      | httpSet p b x w => exact ht.elim
    · exact step_untouched env s e i1 phone ht
  refine ⟨⟨?_, ?_, ?_, ?_⟩, hlook, ?_⟩
  · obtain ⟨evs, he⟩ := h.reach
    exact ⟨evs ++ [e], by rw [run_snoc, ← he]⟩
  · unfold Sys.step
    rw [if_neg (by rw [i2]; simp)]
    cases e with
    | accept a => exact List.mem_cons_of_mem _ h.live
    | frame clk c' bytes werr =>
      have : c' ≠ c := ha.1
      simp only
      split
      · simp only; split
        · exact List.mem_filter.2 ⟨h.live, by simpa using Ne.symm this⟩
        · exact h.live
      · exact h.live
    | readErr c' err =>
      have : c' ≠ c := ha
      simp only
      split
      · simp only; split
        · exact List.mem_filter.2 ⟨h.live, by simpa using Ne.symm this⟩
        · exact h.live
      · exact h.live
    | check clk p => simp only; split <;> exact h.live
    | httpList => exact h.live
    | httpGeo p => exact h.live
    | httpQuery p w => exact h.live
    | httpSet p b x w => exact h.live
  · cases h1 : (s.step env e).1.st.closed c.id with
    | false => rfl
    | true =>
      cases step_closed env s e i1 i3 _ h.opened h1 with
      | frame clk c' bytes werr a1 a2 => exact absurd (i4.inj _ a1 _ h.live a2) ha.1
      | readErr c' e a1 a2 => exact absurd (i4.inj _ a1 _ h.live a2) ha
      | check clk p d c' a1 a2 a3 a4 a5 =>
        by_cases hp : p = phone
        · have := ha hp d a1; omega
        · exact absurd a3 (h.devs p d c' hp a1 a2)
      | query p d c' a1 a2 a3 =>
        exact absurd (i4.inj _ (i3.served _ _ a2).1 _ h.live a3 ▸ a2) (ha d a1)
      | set p d c' bo ba a1 a2 a3 =>
        exact absurd (i4.inj _ (i3.served _ _ a2).1 _ h.live a3 ▸ a2) (ha d a1)
  · intro p d c' hne hd hcn'
    generalize ho : (s.step env e).1.st.look p = o at hd
    have hv := step_dev env s e i1 p
    rw [ho] at hv
    cases hv with
    | same => exact h.devs p d c' hne hd hcn'
    | msg clk c1 bytes werr hh m hl hdl hp =>
      rcases devNext_conn_or hd with h1 | ⟨d0, h1, h2⟩
      · rw [h1] at hcn'; injection hcn' with hcn'; subst hcn'
        exact fun hx => ha.1 (i4.inj _ hl _ h.live hx)
      · exact h.devs p d0 c' hne h1 (by rw [← h2]; exact hcn')
    | chk clk hj =>
      cases hl : s.st.look p with
      | none => rw [hl] at hd; cases hd
      | some d0 =>
        rw [hl] at hd
        refine h.devs p d0 c' hne hl ?_
        simp only [Option.bind_some, devCheck] at hd
        rw [← hcn']
        split at hd
        · split at hd
          · cases hd
          · injection hd with hd; subst hd; rfl
        · injection hd with hd; subst hd; rfl
  · intro hn ht
    rw [taken_false i1'] 
    rw [taken_false i1] at ht
    intro p d hd
    generalize ho : (s.step env e).1.st.look p = o at hd
    have hv := step_dev env s e i1 p
    rw [ho] at hv
    cases hv with
    | same => exact ht p d hd
    | msg clk c1 bytes werr hh m hl hdl hp =>
      rcases devNext_plate hd with ⟨r, h1, h2⟩ | ⟨d0, h1, h2⟩
      · subst h1; rw [h2]; exact ha.2.2 hn hh r hdl
      · rw [h2]; exact ht p d0 h1
    | chk clk hj =>
      cases hl : s.st.look p with
      | none => rw [hl] at hd; cases hd
      | some d0 =>
        rw [hl] at hd
        have := ht p d0 hl
        simp only [Option.bind_some, devCheck] at hd
        split at hd
        · split at hd
          · cases hd
          · injection hd with hd; subst hd; exact this
        · injection hd with hd; subst hd; exact this

/-! ### The simulator's side -/

/-- The simulator has its device. -/
structure Plays (phone : Str) (r : Ref) (ct : Store) : Prop where
  get : ct.byPhone.get phone = some r
  ph : (ct.heap r).phone = phone
  imei : (ct.heap r).imei.length ≤ 15
  sw : Fits 20 (ct.heap r).software
  wf : PhoneWF (if (ct.heap r).ver = .v2019 then .v2019 else .v2013) phone

/-- A general reply is taken in silence, and afterwards the device is online unless it was asleep. -/
theorem Plays.acked {env : Env} {clk : Clock} {c : Conn} {phone : Str} {r : Ref} {ct : Store} (hp : Plays phone r ct)
    {h : Header} (hw : h.WF) (hnf : h.isFragmented = false) (hh : h.phone = phone)
    (hs : (ct.heap r).status ≠ .sleeping) :
    ∃ ct', ct.handleFrame env clk c (generalReply h 0) = (ct', .silent) ∧ Plays phone r ct' ∧
      (ct'.heap r).status = .online := by
  have w4 : Header.WF { h with msgID := 0x8001 } := ⟨hw.attr, hw.phone, hw.pv, hw.frag⟩
  have c4 := C19_general_reply env _ w4 ⟨h.serial, h.msgID, 0⟩
  have hold4 := c4.holds clk.civil hnf .t8001 .m8001 rfl (fun _ => rfl)
  have hph : (Header.withBodyLength { h with msgID := 0x8001 } (GeneralAck.mk h.serial h.msgID 0).encode.length).phone =
      phone := hh
  have key : ct.handleFrame env clk c (generalReply h 0) = finish env (process8001 clk ct
      (Header.withBodyLength { h with msgID := 0x8001 } (GeneralAck.mk h.serial h.msgID 0).encode.length)
      ⟨h.serial, h.msgID, 0⟩) := by
    rw [generalReply, answer, ← (by rfl : (0 : UInt8).toNat = 0), ← ackEncode, hold4.handle]
    rfl
  rw [key]
  simp only [process8001, Store.devByPhone, if_true, hph, hp.get]
  by_cases ho : (ct.heap r).status = .offline
  · rw [if_neg (by simp [ho])]
    refine ⟨(ct.setDev r ((ct.heap r).awake clk)).cacheDevice r, rfl, ⟨?_, ?_, ?_, ?_, ?_⟩, ?_⟩
    · simp [Store.cacheDevice, Store.setDev, AMap.get_set, Device.awake, hp.ph]
    · simp [Store.cacheDevice, Store.setDev, Device.awake, hp.ph]
    · simp [Store.cacheDevice, Store.setDev, Device.awake, hp.imei]
    · simp [Store.cacheDevice, Store.setDev, Device.awake, hp.sw]
    · simpa [Store.cacheDevice, Store.setDev, Device.awake] using hp.wf
    · simp [Store.cacheDevice, Store.setDev, Device.awake]
  · rw [if_pos ho]
    refine ⟨ct, rfl, hp, ?_⟩
    cases hst : (ct.heap r).status with
    | online => rfl
    | offline => exact absurd hst ho
    | sleeping => exact absurd hst hs

/-! ### The conversation -/

/-- A frame of the simulator after it has begun. -/
def UpFrame (env : Env) (phone : Str) (f : List UInt8) : Prop :=
  ∃ h m, (∀ now, Holds env now f h m) ∧ h.WF ∧ h.phone = phone ∧ (m = .m0002 ∨ ∃ l, m = .m0200 l)

/-- An answer of the server after the registration. -/
def DownFrame (phone : Str) (f : List UInt8) : Prop :=
  ∃ h : Header, h.WF ∧ h.isFragmented = false ∧ h.phone = phone ∧ f = generalReply h 0

/-- The record the server has of the simulator. -/
def Knows (phone plate : Str) (c : Conn) (s : Sys) (d : Device) : Prop :=
  s.st.look phone = some d ∧ d.plate = plate ∧ d.conn = some c

/-- Where the conversation is; the number says how many frames are still to be read before everything is answered. -/
inductive Phase (env : Env) (plate : Str) (r : Ref) (p : Pair) : Nat → Prop
  /-- The registration is under way. -/
  | registering (f : List UInt8) (h : Header) (m : Register) : p.up = [f] → p.down = [] → p.began = false →
      (p.client.heap r).status = .offline → p.server.st.look p.phone = none → p.server.st.taken plate = false →
      (∀ now, Holds env now f h (.m0100 m)) → h.WF → h.phone = p.phone → m.plate = plate → Phase env plate r p 4
  /-- The reply to the registration is under way. -/
  | registered (h : Header) (d : Device) : p.up = [] → p.down = [registerReply h 0 d.code] → p.began = false →
      (p.client.heap r).status = .offline → Knows p.phone plate p.sc p.server d → h.WF → h.isFragmented = false →
      h.phone = p.phone → Phase env plate r p 3
  /-- The authentication is under way. -/
  | authenticating (f : List UInt8) (h : Header) (a : AuthMsg) (d : Device) : p.up = [f] → p.down = [] →
      p.began = false → (p.client.heap r).status = .offline → Knows p.phone plate p.sc p.server d →
      (∀ now, Holds env now f h (.m0102 a)) → h.WF → h.phone = p.phone → a.code = d.code → Phase env plate r p 2
  /-- The reply to the authentication is under way. -/
  | authenticated (f : List UInt8) (d : Device) : p.up = [] → p.down = [f] → p.began = false →
      (p.client.heap r).status = .offline → Knows p.phone plate p.sc p.server d → d.status ≠ .offline →
      DownFrame p.phone f → Phase env plate r p 1
  /-- Heartbeats, location reports and their replies. -/
  | talking (d : Device) : (∀ f ∈ p.up, UpFrame env p.phone f) → (∀ f ∈ p.down, DownFrame p.phone f) →
      (p.client.heap r).status = .online → Knows p.phone plate p.sc p.server d → d.status ≠ .offline →
      Phase env plate r p (2 * p.up.length + p.down.length)

/-- What holds at every moment of the conversation. -/
structure Talk (env : Env) (plate : Str) (r : Ref) (p : Pair) (n : Nat) : Prop where
  hosts : Hosts env p.sc p.phone p.server
  plays : Plays p.phone r p.client
  going : p.stopped = false
  count : p.sent = p.got + p.up.length + p.down.length
  phase : Phase env plate r p n

/-- Which steps are considered: the simulator's clock shows a date, other events keep aside. -/
def Pair.Allows (env : Env) (plate : Str) (p : Pair) : PairEv → Prop
  | .locate x => x.now.Valid
  | .other e => e.aside env p.sc p.phone plate p.server
  | _ => True

theorem holds_unfrag {env : Env} {now : Civil} {f : List UInt8} {h : Header} {m : Msg} (hh : Holds env now f h m) :
    h.isFragmented = false := by
  obtain ⟨_, _, _, _, _, e, _⟩ := hh; exact e

theorem Knows.look {phone plate : Str} {c : Conn} {s : Sys} {d : Device} (h : Knows phone plate c s d) :
    s.st.look phone = some d := h.1

/-- The server reads. -/
theorem Talk.serverReads {env : Env} {plate : Str} {r : Ref} {p : Pair} {n : Nat} (h : Talk env plate r p n) (clk : Clock) :
    ∃ n', Talk env plate r (p.step env (.serverReads clk)) n' ∧ (p.up ≠ [] → n' + 1 = n) := by
  obtain ⟨i1, i2, i3, i4, i5⟩ := h.hosts.inv
  -- a frame that is answered with `rep` and leaves `st`
  have answered : ∀ {f : List UInt8} {rest rep st hd m}, p.up = f :: rest → Holds env clk.civil f hd m → hd.phone = p.phone →
      p.server.st.handleFrame env clk p.sc f = (st, .reply rep) →
      p.step env (.serverReads clk) = { p with server := { p.server with st := st }, up := rest, down := p.down ++ [rep] } ∧
      (∀ n', Phase env plate r { p with server := { p.server with st := st }, up := rest, down := p.down ++ [rep] } n' →
        Talk env plate r { p with server := { p.server with st := st }, up := rest, down := p.down ++ [rep] } n') := by
    intro f rest rep st hd m hup hh hp hs
    have e : p.step env (.serverReads clk) =
        { p with server := { p.server with st := st }, up := rest, down := p.down ++ [rep] } := by
      simp only [Pair.step, hup, step_reply i2 h.hosts.live hs, Pair.sentDown, if_true]
    refine ⟨e, fun n' hph => ⟨h.hosts.reads hh hp hs, h.plays, h.going, ?_, hph⟩⟩
    have := h.count
    rw [hup] at this
    simp only [List.length_append, List.length_cons, List.length_nil] at this ⊢
    omega
  -- what the server's record becomes
  have becomes : ∀ {f : List UInt8} {rep st hd m}, Holds env clk.civil f hd m → hd.phone = p.phone →
      p.server.st.handleFrame env clk p.sc f = (st, .reply rep) →
      st.look p.phone = devNext clk p.sc hd p.server.st.taken m (p.server.st.look p.phone) := by
    intro f rep st hd m hh hp hs
    have := look_handleFrame i1 (hh.delivers p.server.st) p.sc p.phone
    rw [hs, hp, if_pos rfl] at this
    exact this
  cases h.phase with
  | registering f hd m hup hdown hb hoff hnone htk hh hw hph hpl =>
    have h1 : ¬ (p.server.st.hasPlate m.plate = true) := by rw [hasPlate_taken, hpl, htk]; simp
    have h2 : ¬ (p.server.st.hasPhone hd.phone = true) := by
      unfold Store.hasPhone; unfold Store.look at hnone; simp at hnone; rw [hph]; simp [hnone]
    have hs : p.server.st.handleFrame env clk p.sc f = (p.server.st.register (Device.new clk p.sc hd m),
        .reply (registerReply hd 0 (Device.new clk p.sc hd m).code)) := by
      rw [(hh clk.civil).handle]
      simp only [Store.handle, process0100]
      rw [if_neg h1, if_neg h2, Store.register_eq]
      exact finish_gen8100 env _ hd 0 _
    obtain ⟨e1, e2⟩ := answered hup (hh _) hph hs
    rw [e1]
    refine ⟨3, e2 _ (.registered hd (Device.new clk p.sc hd m) rfl (by simp [hdown]) hb hoff ⟨?_, ?_, rfl⟩ hw
      (holds_unfrag (hh clk.civil)) hph), fun _ => rfl⟩
    · have hbe := becomes (hh _) hph hs
      rw [hnone] at hbe
      simp only [devNext] at hbe
      rw [if_neg (by rw [hpl, htk]; simp)] at hbe
      exact hbe
    · exact hpl
  | registered hd d hup hdown hb hoff hk hw hnf hph =>
    have : p.step env (.serverReads clk) = p := by simp only [Pair.step, hup]
    rw [this]; exact ⟨_, h, fun hne => absurd hup hne⟩
  | authenticating f hd a d hup hdown hb hoff hk hh hw hph hc =>
    obtain ⟨rf, hr, hrd⟩ := Store.look_some.1 hk.1
    have hs : p.server.st.handleFrame env clk p.sc f =
        ((p.server.st.setDev rf ((p.server.st.heap rf).authed clk a)).cacheDevice rf, .reply (generalReply hd 0)) := by
      rw [(hh clk.civil).handle]
      simp only [Store.handle, process0102, Store.devByPhone, hph, hr]
      rw [if_neg (by simp [hc, hrd])]
      exact finish_gen8001 env _ hd 0
    obtain ⟨e1, e2⟩ := answered hup (hh _) hph hs
    rw [e1]
    have hbe := becomes (hh _) hph hs
    rw [hk.1] at hbe
    simp only [devNext] at hbe
    rw [if_pos hc] at hbe
    exact ⟨1, e2 _ (.authenticated (generalReply hd 0) (d.authed clk a) rfl (by simp [hdown]) hb hoff
      ⟨hbe, hk.2.1, hk.2.2⟩ (by simp [Device.authed]) ⟨hd, hw, holds_unfrag (hh clk.civil), hph, rfl⟩), fun _ => rfl⟩
  | authenticated f d hup hdown hb hoff hk hno hdf =>
    have : p.step env (.serverReads clk) = p := by simp only [Pair.step, hup]
    rw [this]; exact ⟨_, h, fun hne => absurd hup hne⟩
  | talking d hup hdown hon hk hno =>
    cases hu : p.up with
    | nil =>
      have : p.step env (.serverReads clk) = p := by simp only [Pair.step, hu]
      rw [this]; exact ⟨_, h, fun hne => absurd rfl hne⟩
    | cons f rest =>
      obtain ⟨hd, m, hh, hw, hph, hm⟩ := hup f (by rw [hu]; simp)
      have hl : p.server.st.look hd.phone = some d := by rw [hph]; exact hk.1
      have hans : ∃ st, p.server.st.handleFrame env clk p.sc f = (st, .reply (generalReply hd 0)) := by
        rcases hm with rfl | ⟨l, rfl⟩
        · obtain ⟨st', e, -⟩ := C64_heartbeat env clk p.sc p.server.st i5 f hd (hh _) d hl
          exact ⟨st', e⟩
        · obtain ⟨st', rb', e, -⟩ := C39_location_recorded env clk p.sc p.server.st i5 f hd l (hh _) d hl
          exact ⟨st', e⟩
      obtain ⟨st, hs⟩ := hans
      obtain ⟨e1, e2⟩ := answered hu (hh _) hph hs
      rw [e1]
      have hbe := becomes (hh _) hph hs
      rw [hk.1] at hbe
      have hd' : ∃ d', st.look p.phone = some d' ∧ d'.plate = plate ∧ d'.conn = some p.sc ∧
          d'.status ≠ .offline := by
        rcases hm with rfl | ⟨l, rfl⟩
        · exact ⟨_, hbe, hk.2.1, hk.2.2, hno⟩
        · refine ⟨_, hbe, ?_, ?_, ?_⟩
          · split
            · exact hk.2.1
            · exact hk.2.1
          · split
            · exact hk.2.2
            · exact hk.2.2
          · split
            · exact fun hx => by cases hx
            · exact hno
      obtain ⟨d', k1, k2, k3, k4⟩ := hd'
      refine ⟨_, e2 _ (.talking d' (fun g hg => hup g (by rw [hu]; exact List.mem_cons_of_mem _ hg)) ?_ hon ⟨k1, k2, k3⟩ k4),
        fun _ => ?_⟩
      · intro g hg
        rcases List.mem_append.1 hg with hg | hg
        · exact hdown g hg
        · rw [List.mem_singleton.1 hg]; exact ⟨hd, hw, holds_unfrag (hh clk.civil), hph, rfl⟩
      · simp only [List.length_append, List.length_cons, List.length_nil]; omega

/-- The simulator reads. -/
theorem Talk.clientReads {env : Env} {plate : Str} {r : Ref} {p : Pair} {n : Nat} (h : Talk env plate r p n) (clk : Clock) :
    ∃ n', Talk env plate r (p.step env (.clientReads clk)) n' ∧ (p.down ≠ [] → n' + 1 = n) := by
  have nothing : p.down = [] → ∃ n', Talk env plate r (p.step env (.clientReads clk)) n' ∧ (p.down ≠ [] → n' + 1 = n) := by
    intro hd
    have : p.step env (.clientReads clk) = p := by simp only [Pair.step, h.going, hd]; rfl
    rw [this]; exact ⟨_, h, fun hne => absurd hd hne⟩
  -- a general reply
  have acked : ∀ {f rest}, p.down = f :: rest → DownFrame p.phone f → (p.client.heap r).status ≠ .sleeping →
      ∃ ct, Plays p.phone r ct ∧ (ct.heap r).status = .online ∧
        p.step env (.clientReads clk) = { p with client := ct, down := rest, got := p.got + 1 } ∧
        (∀ n', Phase env plate r { p with client := ct, down := rest, got := p.got + 1 } n' →
          Talk env plate r { p with client := ct, down := rest, got := p.got + 1 } n') := by
    rintro f rest hd ⟨hh, hw, hnf, hph, rfl⟩ hs
    obtain ⟨ct, e1, e2, e3⟩ := h.plays.acked (env := env) (clk := clk) (c := p.cc) hw hnf hph hs
    refine ⟨ct, e2, e3, ?_, fun n' hph => ⟨h.hosts, e2, h.going, ?_, hph⟩⟩
    · simp only [Pair.step, h.going, hd, e1]; rfl
    · have := h.count
      rw [hd] at this
      simp only [List.length_cons] at this ⊢
      omega
  cases h.phase with
  | registering f hd m hup hdown hb hoff hnone htk hh hw hph hpl => exact nothing hdown
  | registered hd d hup hdown hb hoff hk hw hnf hph =>
    obtain ⟨h3, a, auth, e1, e2, e3, e4, e5, -⟩ := client_answers env clk p.cc p.client hd hw hnf d.code (code_length d) r
      (by rw [hph]; exact h.plays.get) h.plays.imei h.plays.sw
    have e : p.step env (.clientReads clk) =
        { p with down := [], got := p.got + 1, up := [auth], sent := p.sent + 1 } := by
      simp only [Pair.step, h.going, hdown, e1, hup]; rfl
    rw [e]
    refine ⟨2, ⟨h.hosts, h.plays, h.going, ?_, .authenticating auth h3 a d rfl rfl hb hoff hk e2 e3 (by rw [e4]; exact hph) e5⟩,
      fun _ => rfl⟩
    have := h.count
    rw [hup, hdown] at this
    simp only [List.length_cons, List.length_nil] at this ⊢
    omega
  | authenticating f hd a d hup hdown hb hoff hk hh hw hph hc => exact nothing hdown
  | authenticated f d hup hdown hb hoff hk hno hdf =>
    obtain ⟨ct, e1, e2, e3, e4⟩ := acked hdown hdf (by rw [hoff]; simp)
    rw [e3]
    refine ⟨_, e4 _ (.talking d (by intro g hg; simp only [hup] at hg; cases hg) (by intro g hg; cases hg) e2 hk hno),
      fun _ => ?_⟩
    simp only [hup]; rfl
  | talking d hup hdown hon hk hno =>
    cases hu : p.down with
    | nil => obtain ⟨n', h', -⟩ := nothing hu; exact ⟨n', h', fun hne => absurd rfl hne⟩
    | cons f rest =>
      obtain ⟨ct, e1, e2, e3, e4⟩ := acked hu (hdown f (by rw [hu]; simp)) (by rw [hon]; simp)
      rw [e3]
      refine ⟨_, e4 _ (.talking d hup (fun g hg => hdown g (by rw [hu]; exact List.mem_cons_of_mem _ hg)) e2 hk hno),
        fun _ => ?_⟩
      simp only [List.length_cons]; omega

/-- Once the sending goroutines have begun, the registration is over. -/
theorem Talk.talking_of_began {env : Env} {plate : Str} {r : Ref} {p : Pair} {n : Nat}
    (h : Talk env plate r p n) (hb : p.began = true) : ∃ d, (∀ f ∈ p.up, UpFrame env p.phone f) ∧ (∀ f ∈ p.down, DownFrame p.phone f) ∧
      (p.client.heap r).status = .online ∧ Knows p.phone plate p.sc p.server d ∧ d.status ≠ .offline := by
  cases h.phase with
  | registering f hd m hup hdown hb' => rw [hb'] at hb; cases hb
  | registered hd d hup hdown hb' => rw [hb'] at hb; cases hb
  | authenticating f hd a d hup hdown hb' => rw [hb'] at hb; cases hb
  | authenticated f d hup hdown hb' => rw [hb'] at hb; cases hb
  | talking d hup hdown hon hk hno => exact ⟨d, hup, hdown, hon, hk, hno⟩

/-- A sending goroutine makes a round. -/
theorem Talk.puts {env : Env} {plate : Str} {r : Ref} {p : Pair} {n : Nat} (h : Talk env plate r p n)
    (hb : p.began = true) (o : Out) {f : List UInt8} (he : Out.encode env o = .ok f) (hf : UpFrame env p.phone f) :
    ∃ n', Talk env plate r (p.put env o) n' := by
  obtain ⟨d, h1, h2, h3, h4, h5⟩ := h.talking_of_began hb
  have e : p.put env o = { p with up := p.up ++ [f], sent := p.sent + 1 } := by simp only [Pair.put, he]
  rw [e]
  refine ⟨_, h.hosts, h.plays, h.going, ?_, .talking d ?_ h2 h3 h4 h5⟩
  · have := h.count
    simp only [List.length_append, List.length_cons, List.length_nil] at this ⊢
    omega
  · intro g hg
    rcases List.mem_append.1 hg with hg | hg
    · exact h1 g hg
    · rw [List.mem_singleton.1 hg]; exact hf

theorem Talk.step {env : Env} {plate : Str} {r : Ref} {p : Pair} {n : Nat} (h : Talk env plate r p n) (e : PairEv)
    (ha : p.Allows env plate e) : ∃ n', Talk env plate r (p.step env e) n' := by
  cases e with
  | serverReads clk => obtain ⟨n', h', -⟩ := h.serverReads clk; exact ⟨n', h'⟩
  | clientReads clk => obtain ⟨n', h', -⟩ := h.clientReads clk; exact ⟨n', h'⟩
  | notice =>
    have hg : p.client.devByPhone p.phone = some r := h.plays.get
    simp only [Pair.step, hg]
    by_cases hs : (p.client.heap r).status = .online
    · rw [if_pos hs]
      refine ⟨n, h.hosts, h.plays, h.going, h.count, ?_⟩
      cases h.phase with
      | registering f hd m hup hdown hb hoff => rw [hoff] at hs; cases hs
      | registered hd d hup hdown hb hoff => rw [hoff] at hs; cases hs
      | authenticating f hd a d hup hdown hb hoff => rw [hoff] at hs; cases hs
      | authenticated f d hup hdown hb hoff => rw [hoff] at hs; cases hs
      | talking d hup hdown hon hk hno => exact .talking d hup hdown hon hk hno
    · rw [if_neg hs]; exact ⟨n, h⟩
  | beat =>
    have hg : p.client.devByPhone p.phone = some r := h.plays.get
    by_cases hb : p.began = true
    · simp only [Pair.step, hg, hb, if_true]
      obtain ⟨f, hd, e1, e2, e3, e4⟩ := beat_holds env (p.client.heap r) (by rw [h.plays.ph]; exact h.plays.wf)
      exact h.puts hb _ e1 ⟨hd, _, e2, e3, by rw [e4]; exact h.plays.ph, .inl rfl⟩
    · simp only [Pair.step, hb]; exact ⟨n, h⟩
  | locate x =>
    have hg : p.client.devByPhone p.phone = some r := h.plays.get
    by_cases hb : p.began = true
    · simp only [Pair.step, hg, hb, if_true]
      obtain ⟨f, hd, l, e1, e2, e3, e4⟩ := locate_holds env (p.client.heap r) (by rw [h.plays.ph]; exact h.plays.wf) x ha
      exact h.puts hb _ e1 ⟨hd, _, e2, e3, by rw [e4]; exact h.plays.ph, .inr ⟨l, rfl⟩⟩
    · simp only [Pair.step, hb]; exact ⟨n, h⟩
  | other e =>
    obtain ⟨i1, i2, i3, i4, i5⟩ := h.hosts.inv
    obtain ⟨h1, h2, h3⟩ := h.hosts.other (plate := plate) ha
    have hsd : p.sentDown (p.server.step env e).2 = [] := by
      unfold Pair.sentDown
      split
      · rename_i c f hx
        rw [if_neg (aside_sent i3 ha hx)]
      · rfl
    have he : p.step env (.other e) = { p with server := (p.server.step env e).1 } := by
      simp only [Pair.step, hsd, List.append_nil]
    rw [he]
    have hk : ∀ {d}, Knows p.phone plate p.sc p.server d → Knows p.phone plate p.sc (p.server.step env e).1 d :=
      fun hk => ⟨by rw [h2]; exact hk.1, hk.2⟩
    refine ⟨n, h1, h.plays, h.going, h.count, ?_⟩
    cases h.phase with
    | registering f hd m hup hdown hb hoff hnone htk hh hw hph hpl =>
      exact .registering f hd m hup hdown hb hoff (by rw [← hnone]; exact h2) (h3 hnone htk) hh hw hph hpl
    | registered hd d hup hdown hb hoff hkn hw hnf hph => exact .registered hd d hup hdown hb hoff (hk hkn) hw hnf hph
    | authenticating f hd a d hup hdown hb hoff hkn hh hw hph hc =>
      exact .authenticating f hd a d hup hdown hb hoff (hk hkn) hh hw hph hc
    | authenticated f d hup hdown hb hoff hkn hno hdf => exact .authenticated f d hup hdown hb hoff (hk hkn) hno hdf
    | talking d hup hdown hon hkn hno => exact .talking d hup hdown hon (hk hkn) hno

end JT808
