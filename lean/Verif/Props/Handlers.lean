import Verif.Proof.Frame
import Verif.Props.Registry
/-
C27, C28, C30, C35, C37, C38, C39, C41, C42, C64: single messages.
-/
namespace JT808
open Spec

/-- The message ids the README lists as supported, plus the ones of the simulator's side. -/
def supportedIDs : List Nat :=
  [0x0001, 0x0002, 0x0003, 0x0100, 0x0102, 0x0104, 0x0200, 0x1205, 0x8001, 0x8100, 0x8103, 0x8104, 0x9205]

theorem ofID_none_iff (id : UInt16) : MType.ofID id = none ↔ id.toNat ∉ supportedIDs := by
  have h : ∀ l : List (UInt16 × MType), l.lookup id = none ↔ id.toNat ∉ l.map (fun e => e.1.toNat) := by
    intro l
    induction l with
    | nil => simp
    | cons e l ih =>
      rw [List.lookup_cons]
      by_cases hx : id = e.1
      · subst hx; simp
      · have : (id == e.1) = false := by simpa using hx
        rw [this]
        have hn : id.toNat ≠ e.1.toNat := fun hh => hx (UInt16.toNat_inj.1 hh)
        simp only [ih, List.map_cons, List.mem_cons, hn, false_or]
  exact h msgTable

/-! ## C27 unknown ids -/

/-- An unfragmented packet with an unsupported id changes nothing, is not answered and does not end the connection.
Missing: fragments, for which it is false (next theorem). -/
theorem C27_unknown_id_partial (env : Env) (clk : Clock) (c : Conn) (werr : Option Err) (st : Store) (frame : List UInt8)
    (pd : Packet) (hd : decodeFrame env frame = .ok pd) (hf : pd.header.isFragmented = false)
    (hu : pd.header.msgID.toNat ∉ supportedIDs) :
    st.serveFrame env clk c werr frame = (st, ⟨none, false, none⟩) := by
  unfold Store.serveFrame
  rw [handleFrame_packet hd hf]
  unfold Store.process
  rw [(ofID_none_iff _).2 hu]
  rfl

-- 0x0704 (bulk location upload) is not supported
example : ∃ pd, decodeFrame goEnv (msgFrame (hdr2013 0x0704) [1, 2]) = .ok pd ∧ pd.header.isFragmented = false ∧
    pd.header.msgID.toNat ∉ supportedIDs := ⟨_, rfl, rfl, by decide⟩

/-- The opposite for fragments: whatever its message id, the first fragment of a message ends the connection and stays
in the segment cache. -/
theorem C27_fragment_closes (env : Env) (clk : Clock) (c : Conn) (werr : Option Err) (st : Store) (frame : List UInt8)
    (pd : Packet) (f : Frag) (hd : decodeFrame env frame = .ok pd) (hf : pd.header.isFragmented = true)
    (hg : pd.header.frag = some f) (hn : st.segs.get (segKey pd.header.phone pd.header.msgID) = none) :
    (st.serveFrame env clk c werr frame).2 = ⟨none, true, none⟩ ∧
      ((st.serveFrame env clk c werr frame).1.segs.get (segKey pd.header.phone pd.header.msgID)).isSome := by
  let segs' := st.segs.set (segKey pd.header.phone pd.header.msgID) (Segment.ofPacket pd.header f pd.body.data)
  have e : st.handleFrame env clk c frame = ({ st with segs := segs' }, .panicked) := by
    unfold Store.handleFrame Store.decodePacket
    rw [hd]
    simp only [hf, hg, if_true, Store.cacheSegment, Segment.ofPacket, hn, segs']
  unfold Store.serveFrame
  rw [e]
  refine ⟨rfl, ?_⟩
  simp [Store.remove, Store.closeConn, Store.clearSession, segs', AMap.get_set_self]

/-- A fragment with the unsupported id 0x0704. -/
def unknownFragment : List UInt8 :=
  msgFrame { hdr2013 0x0704 with attr := ⟨0, 0, 1, 0, 0, .none, true, .v2013⟩, frag := some ⟨2, 1⟩ } [5]

example : ∃ pd f, decodeFrame goEnv unknownFragment = .ok pd ∧ pd.header.isFragmented = true ∧
    pd.header.frag = some f ∧ pd.header.msgID.toNat ∉ supportedIDs ∧
    demoSys.st.segs.get (segKey pd.header.phone pd.header.msgID) = none :=
  ⟨_, _, rfl, rfl, rfl, by decide, by decide +kernel⟩

/-! ## C28 corrupt frames -/

/-- A frame whose un-stuffed content has a wrong checksum changes nothing, is not answered and does not end the
connection. -/
theorem C28_corrupt_ignored (env : Env) (clk : Clock) (c : Conn) (werr : Option Err) (st : Store) (p : List UInt8)
    (hx : xorSum p ≠ 0) :
    st.serveFrame env clk c werr (frameOf p) = (st, ⟨none, false, none⟩) := by
  have hne : p ≠ [] := by intro h; subst h; exact hx rfl
  have hd : decodeFrame env (frameOf p) = .err .verifyFailed := by
    rw [decodeFrame_frameOf, verify_fail _ hne hx]
  unfold Store.serveFrame Store.handleFrame Store.decodePacket
  rw [hd]
  rfl

/-- The same for frames with escape sequences no encoder writes: whatever their content un-escapes to. -/
theorem C28_corrupt_raw_ignored (env : Env) (clk : Clock) (c : Conn) (werr : Option Err) (st : Store) (f : List UInt8)
    (hf : Delimited f) (hx : xorSum (unescape env f).data ≠ 0) :
    st.serveFrame env clk c werr f = (st, ⟨none, false, none⟩) := by
  have hne : (unescape env f).data ≠ [] := by intro h; rw [h] at hx; exact hx rfl
  have hd : decodeFrame env f = .err .verifyFailed := by
    unfold decodeFrame
    obtain ⟨mid, -, rfl⟩ := hf
    have : (0x7e :: (mid ++ [0x7e]) : List UInt8).getLast? = some 0x7e := by
      rw [← List.cons_append, List.getLast?_append]; rfl
    simp only [this, verify_fail _ hne hx]
  unfold Store.serveFrame Store.handleFrame Store.decodePacket
  rw [hd]
  rfl

/-- The empty frame `7e 7e` is ignored too. -/
theorem C28_empty_ignored (env : Env) (clk : Clock) (c : Conn) (werr : Option Err) (st : Store) :
    st.serveFrame env clk c werr [0x7e, 0x7e] = (st, ⟨none, false, none⟩) := rfl

example : xorSum [0x00, 0x02, 0x00, 0x00, 0x01, 0x23, 0x45, 0x67, 0x89, 0x01, 0x00, 0x4e, 0xc5] ≠ 0 := by decide

/-! ## C30 at most one reply -/

/-- A frame is sent only on the connection the request came from, and only as the encoding of what the handler of a
decoded packet returned. -/
theorem C30_reply_only_on_success (env : Env) (clk : Clock) (c c' : Conn) (werr : Option Err) (st : Store)
    (frame f : List UInt8) (hs : (st.serveFrame env clk c werr frame).2.sent = some (c', f)) :
    c' = c ∧ werr = none ∧ (st.serveFrame env clk c werr frame).2.ended = false ∧
      ∃ st1 pkt st2 o, st.decodePacket env frame = (st1, .ok pkt) ∧
        st1.process env clk c pkt = (st2, .ok (some o)) ∧ Out.encode env o = .ok f ∧
        (st.serveFrame env clk c werr frame).1 = st2 := by
  unfold Store.serveFrame at hs ⊢
  cases hx : st.handleFrame env clk c frame with
  | mk st1 o =>
    rw [hx] at hs
    cases o with
    | silent => cases hs
    | failed e =>
      simp only at hs
      by_cases hc : e.endsServe = true
      · rw [if_pos hc] at hs; cases hs
      · rw [if_neg hc] at hs; cases hs
    | panicked => cases hs
    | reply g =>
      cases werr with
      | some e =>
        simp only at hs
        by_cases hc : e.endsServe = true
        · rw [if_pos hc] at hs; cases hs
        · rw [if_neg hc] at hs; cases hs
      | none =>
        simp only [Option.some.injEq, Prod.mk.injEq] at hs
        obtain ⟨h1, h2⟩ := hs
        subst h2
        refine ⟨h1.symm, rfl, rfl, ?_⟩
        unfold Store.handleFrame at hx
        cases hd : st.decodePacket env frame with
        | mk sa r =>
          rw [hd] at hx
          cases r with
          | err e => cases hx
          | panic => cases hx
          | ok pkt =>
            simp only at hx
            cases hp : sa.process env clk c pkt with
            | mk sb r2 =>
              rw [hp] at hx
              cases r2 with
              | err e => cases hx
              | panic => cases hx
              | ok oo =>
                cases oo with
                | none => cases hx
                | some o =>
                  simp only at hx
                  cases he : Out.encode env o with
                  | ok f' =>
                    rw [he] at hx; simp only [Prod.mk.injEq, Outcome.reply.injEq] at hx
                    obtain ⟨rfl, rfl⟩ := hx
                    exact ⟨_, _, _, _, rfl, hp, he, rfl⟩
                  | err e => rw [he] at hx; cases hx
                  | panic => rw [he] at hx; cases hx

/-- A panic anywhere sends nothing and ends the connection. -/
theorem C30_panic_sends_nothing (env : Env) (clk : Clock) (c : Conn) (werr : Option Err) (st : Store)
    (frame : List UInt8) (hp : (st.handleFrame env clk c frame).2 = .panicked) :
    (st.serveFrame env clk c werr frame).2 = ⟨none, true, none⟩ := by
  unfold Store.serveFrame
  cases hx : st.handleFrame env clk c frame with
  | mk st1 o => rw [hx] at hp; simp only at hp; subst hp; rfl

example : (demoSys.st.serveFrame goEnv (demoClk 2000) demoC none demoBeat).2.sent
    = some (demoC, generalReply (hdr2013 0x0002) 0) := by decide +kernel
-- the first fragment of anything panics
example : (demoSys.st.handleFrame goEnv (demoClk 2000) demoC (msgFrame
    { hdr2013 0x0002 with attr := ⟨0, 0, 1, 0, 0, .none, true, .v2013⟩, frag := some ⟨2, 1⟩ } [])).2 = .panicked := by
  decide +kernel

/-! ## C38 unregistered phones -/

/-- Heartbeats, deregistrations, authentications and locations of an unregistered phone: no reply, the connection is
closed and its session forgotten, nothing else changes. -/
theorem C38_unregistered_refused (env : Env) (clk : Clock) (c : Conn) (werr : Option Err) (st : Store)
    (frame : List UInt8) (h : Header) (m : Msg) (hh : Holds env clk.civil frame h m)
    (hm : m = .m0002 ∨ m = .m0003 ∨ (∃ a, m = .m0102 a) ∨ (∃ l, m = .m0200 l)) (hu : st.look h.phone = none) :
    st.serveFrame env clk c werr frame = (st.remove c, ⟨none, true, none⟩) := by
  have hd : st.devByPhone h.phone = none := Store.look_none.1 hu
  unfold Store.serveFrame
  rw [hh.handle]
  rcases hm with rfl | rfl | ⟨a, rfl⟩ | ⟨l, rfl⟩ <;>
    simp [Store.handle, process0002, process0003, process0102, process0200, hd, finish, Err.endsServe]

/-- Removing a connection touches only its session entry and its socket. -/
theorem C38_remove_effect (c : Conn) (st : Store) (p : Str) :
    SameFor p st (st.remove c) ∧ (st.remove c).closed c.id = true ∧ (st.remove c).session c.addr = none ∧
    (∀ c' : Conn, c'.id ≠ c.id → (st.remove c).closed c'.id = st.closed c'.id) ∧
    (∀ a, a ≠ c.addr → (st.remove c).session a = st.session a) := by
  refine ⟨⟨rfl, rfl, rfl, rfl⟩, ?_, ?_, ?_, ?_⟩
  · simp [Store.remove, Store.closeConn, Store.clearSession]
  · exact AMap.get_del_self _ _
  · intro c' hc; simp [Store.remove, Store.closeConn, Store.clearSession, hc]
  · intro a ha; exact AMap.get_del_ne _ ha

example : Holds goEnv (demoClk 0).civil demoBeat (hdr2013 0x0002) .m0002 ∧ Store.empty.look (hdr2013 0x0002).phone = none :=
  ⟨demoBeat_holds _, rfl⟩

/-! ## C64 heartbeats -/

/-- A heartbeat of a registered phone is answered with success, sets the time of its last message and changes nothing
else. -/
theorem C64_heartbeat (env : Env) (clk : Clock) (c : Conn) (st : Store) (hr : Reachable env st) (frame : List UInt8)
    (h : Header) (hh : Holds env clk.civil frame h .m0002) (d : Device) (hd : st.look h.phone = some d) :
    ∃ st', st.handleFrame env clk c frame = (st', .reply (generalReply h 0)) ∧
      (∀ p, st'.look p = if p = h.phone then some { d with last := clk.ms } else st.look p) ∧
      (∀ q, st'.lookPlate q = if q = d.plate then some { d with last := clk.ms } else st.lookPlate q) ∧
      st'.jobs = st.jobs ∧ SameRest st st' := by
  obtain ⟨r, hg, rfl⟩ := Store.look_some.1 hd
  have hs : SameIdent (st.heap r) ((st.heap r).seen clk) := ⟨rfl, rfl, rfl, rfl, rfl, rfl, rfl, rfl⟩
  refine ⟨st.setDev r ((st.heap r).seen clk), ?_, look_setDev hr.inv hg _, lookPlate_setDev hr.inv hg _, rfl,
    ⟨rfl, rfl, rfl, rfl, rfl, rfl⟩⟩
  rw [hh.handle]
  simp only [Store.handle, process0002, Store.devByPhone, hg]
  rw [hr.inv.touch hg hs]
  exact finish_gen8001 env _ h 0

example : Reachable goEnv demoSys.st ∧ (demoSys.st.look (hdr2013 0x0002).phone).isSome :=
  ⟨demo_reachable, by decide +kernel⟩

/-! ## C39 location reports -/

/-- The ACC switch of a status word. -/
def accOff (status : UInt32) : Prop := status.toNat.testBit 0 = false

instance (s : UInt32) : Decidable (accOff s) := inferInstanceAs (Decidable (_ = _))

theorem acc_iff (s : UInt32) : (GeoMeta.decode s).acc = 0 ↔ accOff s := by
  unfold accOff GeoMeta.decode
  simp only
  rw [← UInt8.toNat_inj]
  simp only [UInt32.toNat_toUInt8, UInt32.toNat_and]
  have h1 : (1 : UInt32).toNat = 1 := rfl
  have h0 : (0 : UInt8).toNat = 0 := rfl
  rw [h1, h0, Nat.testBit_eq_decide_div_mod_eq, Nat.and_one_is_mod]
  simp; omega

/-- A location report of a registered phone is answered with success; the position becomes the newest entry of that
phone's track; the device changes only if ACC is off, then it falls asleep and its time is refreshed. -/
theorem C39_location_recorded (env : Env) (clk : Clock) (c : Conn) (st : Store) (hr : Reachable env st)
    (frame : List UInt8) (h : Header) (m : LocMsg) (hh : Holds env clk.civil frame h (.m0200 m)) (d : Device)
    (hd : st.look h.phone = some d) :
    ∃ st' rb', st.handleFrame env clk c frame = (st', .reply (generalReply h 0)) ∧
      ((st.geos.get h.phone).getD (Ring.new 100)).write (some
        { phone := h.phone, geo := GeoMeta.decode m.status, lat := m.lat, long := m.long, alt := m.alt,
          speed := m.speed, dir := m.dir, time := parseTime clk.civil m.time }) = .ok rb' ∧
      (∀ p, st'.geos.get p = if p = h.phone then some rb' else st.geos.get p) ∧
      (∀ p, st'.look p = if p = h.phone then
        some (if accOff m.status then { d with status := .sleeping, last := clk.ms } else d) else st.look p) ∧
      st'.jobs = st.jobs ∧ st'.params = st.params ∧ st'.sessions = st.sessions ∧ st'.closed = st.closed := by
  obtain ⟨r, hg, rfl⟩ := Store.look_some.1 hd
  obtain ⟨rb', e1, e2, e3⟩ := process0200_eq (clk := clk) hr.inv hg m
  refine ⟨{ accStore clk st r (GeoMeta.decode m.status).acc with geos := st.geos.set h.phone rb' }, rb', ?_, e1, ?_, ?_, ?_, ?_, ?_, ?_⟩
  · rw [hh.handle]
    simp only [Store.handle]
    rw [e3]
    exact finish_gen8001 env _ h 0
  · intro p; exact AMap.get_set _ _ _ _
  · intro p
    have hl : ∀ (s : Store) (g : AMap (Ring DeviceGeo)), Store.look { s with geos := g } p = s.look p := fun _ _ => rfl
    rw [hl]
    unfold accStore
    by_cases ha : (GeoMeta.decode m.status).acc = 0
    · rw [if_pos ha, if_pos ((acc_iff _).1 ha)]; exact look_setDev hr.inv hg _ p
    · rw [if_neg ha, if_neg (fun hx => ha ((acc_iff _).2 hx))]
      by_cases hp : p = h.phone
      · rw [if_pos hp, hp]; exact hd
      · rw [if_neg hp]
  all_goals (simp only [accStore]; split <;> rfl)

example : Holds goEnv (demoClk 0).civil (demoLoc 3 31230000) ((hdr2013 0x0200).withBodyLength 28)
    (.m0200 (demoLocMsg 3 31230000)) ∧ ¬ accOff 3 ∧ accOff 2 := ⟨demoLoc_holds _, by decide, by decide⟩
example : (demoSys.st.handleFrame goEnv (demoClk 2000) demoC (demoLoc 2 5)).1.look (hdr2013 0).phone
    = (demoSys.st.look (hdr2013 0).phone).map (fun d => { d with status := .sleeping, last := 2000 }) := by decide +kernel

/-! ## C37, C42 deregistration -/

/-- A deregistration of a registered phone is answered with success; phone and plate are free and the job is gone. It
does not matter on which connection it arrives. -/
theorem C37_deregistered_partial (env : Env) (clk : Clock) (c : Conn) (st : Store) (hr : Reachable env st)
    (frame : List UInt8) (h : Header) (hh : Holds env clk.civil frame h .m0003) (d : Device)
    (hd : st.look h.phone = some d) :
    ∃ st', st.handleFrame env clk c frame = (st', .reply (generalReply h 0)) ∧
      (∀ p, st'.look p = if p = h.phone then none else st.look p) ∧
      (∀ q, st'.lookPlate q = if q = d.plate then none else st.lookPlate q) ∧
      h.phone ∉ st'.jobs ∧ SameRest st st' := by
  obtain ⟨r, hg, rfl⟩ := Store.look_some.1 hd
  have hp := (hr.inv.phoneOK _ _ hg).2.1
  refine ⟨(st.cancelJob h.phone).delByPhone h.phone, ?_, look_drop hr.inv hg, lookPlate_drop hr.inv hg, ?_, ?_⟩
  · rw [hh.handle]
    simp only [Store.handle, process0003, Store.devByPhone, hg, hp]
    exact finish_gen8001 env _ h 0
  · rw [Store.delByPhone_eq (st := st.cancelJob h.phone) hg hp]
    simp [Store.cancelJob]
  · rw [Store.delByPhone_eq (st := st.cancelJob h.phone) hg hp]
    exact ⟨rfl, rfl, rfl, rfl, rfl, rfl⟩

/-- The opposite of the last clause of C37: the track survives a deregistration, whatever is in it. -/
theorem C37_locations_survive (env : Env) (clk : Clock) (c : Conn) (st : Store) (hr : Reachable env st)
    (frame : List UInt8) (h : Header) (hh : Holds env clk.civil frame h .m0003) (d : Device)
    (hd : st.look h.phone = some d) :
    (st.handleFrame env clk c frame).1.geos = st.geos ∧ (st.handleFrame env clk c frame).1.params = st.params := by
  obtain ⟨st', e, -, -, -, hs⟩ := C37_deregistered_partial env clk c st hr frame h hh d hd
  rw [e]; exact ⟨hs.geos, hs.params⟩

/-- The history: register, report a position, deregister, and somebody registers the phone with another plate. -/
def reuseEvs : List Ev :=
  demoEvs ++ [.frame (demoClk 2000) demoC (demoLoc 3 31230000) none, .frame (demoClk 3000) demoC demoBye none,
    .frame (demoClk 4000) demoC' (msgFrame (hdr2013 0x0100)
      ({ demoRegMsg with plate := [0x42, 0x39], deviceID := [0x7a] }.encode goEnv .v2013)) none]

/-- The new owner of the phone is shown with the position of the old one. -/
theorem C37_old_location_served :
    (((Sys.start.run goEnv reuseEvs).1.st.apiGeo (hdr2013 0).phone).2.2.map (fun e => (e.1.plate, e.2.lat)))
      = some ([0x42, 0x39], 31230000) := by decide +kernel

/-- The opposite of C42: a deregistration removes the terminal whatever connection it arrives on. -/
theorem C42_any_connection_deregisters (env : Env) (clk : Clock) (owner c : Conn) (_ : c ≠ owner) (st : Store)
    (hr : Reachable env st) (frame : List UInt8) (h : Header) (hh : Holds env clk.civil frame h .m0003) (d : Device)
    (hd : st.look h.phone = some d) (_ : d.conn = some owner) :
    (st.handleFrame env clk c frame).1.look h.phone = none := by
  obtain ⟨st', e, h1, -⟩ := C37_deregistered_partial env clk c st hr frame h hh d hd
  rw [e]; simp [h1]

/-- A second connection deregisters the terminal of the first. -/
theorem C42_foreign_deregistration :
    (demoSys.st.look (hdr2013 0).phone).map (·.conn) = some (some demoC) ∧ demoC ≠ demoC' ∧
      (demoSys.step goEnv (.frame (demoClk 2000) demoC' demoBye none)).1.st.look (hdr2013 0).phone = none := by
  refine ⟨?_, by decide, ?_⟩ <;> decide +kernel

/-- What holds of C42: a deregistration affects no other phone, whatever connection it arrives on.  Missing: that it
has no effect on its own phone. -/
theorem C42_other_phones_partial (env : Env) (clk : Clock) (c : Conn) (werr : Option Err) (st : Store)
    (hr : Reachable env st) (frame : List UInt8) (h : Header) (hh : Holds env clk.civil frame h .m0003) (p : Str)
    (hp : p ≠ h.phone) : SameFor p st (st.serveFrame env clk c werr frame).1 := by
  apply serveFrame_other hr.inv
  obtain ⟨pd, t, j, e1, e2, -⟩ := hh
  unfold framePhone
  rw [e1]; simp only [e2]; exact fun hx => hp (Option.some.inj hx).symm

/-! ## C35 failed authentications -/

/-- The opposite of C35: an authentication with a wrong code, on whatever connection, removes the registered
terminal. -/
theorem C35_wrong_code_removes (env : Env) (clk : Clock) (owner c : Conn) (_ : c ≠ owner) (st : Store)
    (hr : Reachable env st) (frame : List UInt8) (h : Header) (m : AuthMsg) (hh : Holds env clk.civil frame h (.m0102 m))
    (d : Device) (hd : st.look h.phone = some d) (_ : d.conn = some owner) (hc : m.code ≠ d.code) :
    ∃ st', st.handleFrame env clk c frame = (st', .reply (generalReply h 1)) ∧ st'.look h.phone = none ∧
      st'.lookPlate d.plate = none ∧ h.phone ∉ st'.jobs := by
  obtain ⟨r, hg, rfl⟩ := Store.look_some.1 hd
  have hp := (hr.inv.phoneOK _ _ hg).2.1
  refine ⟨(st.cancelJob h.phone).delByPhone h.phone, ?_, by rw [look_drop hr.inv hg, if_pos rfl],
    by rw [lookPlate_drop hr.inv hg, if_pos rfl], ?_⟩
  · rw [hh.handle]
    simp only [Store.handle, process0102, Store.devByPhone, hg]
    rw [if_pos hc, hp]
    exact finish_gen8001 env _ h 1
  · rw [Store.delByPhone_eq (st := st.cancelJob h.phone) hg hp]
    simp [Store.cancelJob]

/-- A second connection throws out the terminal of the first with a guess. -/
theorem C35_foreign_guess :
    (demoSys.st.look (hdr2013 0).phone).map (·.conn) = some (some demoC) ∧ demoC ≠ demoC' ∧
      (demoSys.step goEnv (.frame (demoClk 2000) demoC' (demoAuth [0x78, 0x79]) none)).1.st.look (hdr2013 0).phone
        = none := by
  refine ⟨?_, by decide, ?_⟩ <;> decide +kernel

/-- What holds of C35: it disturbs no other phone.  Missing: the phone itself. -/
theorem C35_other_phones_partial (env : Env) (clk : Clock) (c : Conn) (werr : Option Err) (st : Store)
    (hr : Reachable env st) (frame : List UInt8) (h : Header) (m : AuthMsg) (hh : Holds env clk.civil frame h (.m0102 m))
    (p : Str) (hp : p ≠ h.phone) : SameFor p st (st.serveFrame env clk c werr frame).1 := by
  apply serveFrame_other hr.inv
  obtain ⟨pd, t, j, e1, e2, -⟩ := hh
  unfold framePhone
  rw [e1]; simp only [e2]; exact fun hx => hp (Option.some.inj hx).symm

/-! ## C41 isolation -/

/-- Nothing that does not concern a phone changes what is stored about it: over any stretch of events without frames,
checks and location queries of that phone, its device, track, parameters and job stay as they are. -/
theorem C41_isolation (env : Env) (evs evs' : List Ev) (p : Str) (hc : ∀ e ∈ evs', ¬ e.concerns env p) :
    SameFor p (Sys.start.run env evs).1.st (Sys.start.run env (evs ++ evs')).1.st := by
  rw [run_append]
  exact run_other env evs' _ (reachable_inv env evs).1 p hc

/-- One frame: it can only touch the phone in its own header. -/
theorem C41_frame (env : Env) (clk : Clock) (c : Conn) (werr : Option Err) (st : Store) (hr : Reachable env st)
    (frame : List UInt8) (p : Str) (hp : framePhone env frame ≠ some p) :
    SameFor p st (st.serveFrame env clk c werr frame).1 := serveFrame_other hr.inv frame p hp

/-- One keepalive check. -/
theorem C41_check (env : Env) (clk : Clock) (st : Store) (hr : Reachable env st) (p p' : Str) (hj : p ∈ st.jobs)
    (hp : p' ≠ p) : SameFor p' st (st.check clk p).1 := check_other hr.inv hj hp

example : framePhone goEnv demoReg ≠ some (digitStr [9, 9]) := by decide +kernel

end JT808
