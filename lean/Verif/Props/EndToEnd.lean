import Verif.Model.Client
import Verif.Props.Registry
import Verif.Props.Replies
/-
C58: the simulator's registration and authentication, exchanged with the server as bytes.
-/
namespace JT808
open Spec

/-- The four frames go back and forth, and at the end both sides show the phone online.  `sc` and `cc` are the
connections seen by server and simulator; the clocks are those of the four steps. -/
def Handshake (env : Env) (k1 k2 k3 k4 : Clock) (sc cc : Conn) (server client : Store) (first : List UInt8)
    (phone : Str) : Prop :=
  ∃ server1 reply1 client1 auth server2 reply2 client2,
    server.handleFrame env k1 sc first = (server1, .reply reply1) ∧
    client.handleFrame env k2 cc reply1 = (client1, .reply auth) ∧
    server1.handleFrame env k3 sc auth = (server2, .reply reply2) ∧
    client1.handleFrame env k4 cc reply2 = (client2, .silent) ∧
    (server2.look phone).map (·.status) = some .online ∧ (client2.look phone).map (·.status) = some .online

theorem clientHeader_wf (id : UInt16) (d : Device) (hd : PhoneWF (if d.ver = .v2019 then .v2019 else .v2013) d.phone) :
    (clientHeader id d).WF := by
  unfold clientHeader
  split
  · rename_i hv
    rw [if_pos hv] at hd
    refine ⟨⟨?_, ?_, ?_, ?_, ?_, ?_, ?_, ?_⟩, hd, ?_, ?_⟩ <;>
      first | (simp only; decide) | rfl | (intro hx; exact absurd rfl hx)
  · rename_i hv
    rw [if_neg hv] at hd
    refine ⟨⟨?_, ?_, ?_, ?_, ?_, ?_, ?_, ?_⟩, hd, ?_, ?_⟩ <;> first | (simp only; decide) | rfl | (intro; rfl)

theorem fillDevicePhone_wf {v : Ver} {phone : Str} (hc : ∀ c ∈ phone, bcdChar c)
    (hl : phone.length ≤ if v = .v2019 then 20 else 12) :
    PhoneWF (if v = .v2019 then .v2019 else .v2013) (fillDevicePhone phone (if v = .v2019 then 20 else 12)) := by
  refine ⟨?_, ?_⟩
  · intro c hm
    unfold fillDevicePhone at hm
    rcases List.mem_append.1 hm with hm | hm
    · rw [(List.mem_replicate.1 hm).2]; decide
    · exact hc c hm
  · unfold fillDevicePhone
    rw [List.length_append, List.length_replicate]
    split <;> rename_i hv <;> simp only [hv, if_true, if_false, Ver.phoneBytes] at hl ⊢ <;> omega

/-- A frame that carries a message holds it. -/
theorem FrameCarries.holds {α : Type} {env : Env} {h : Header} {body : List UInt8} {dec : Header → Rd α}
    {a : α} (hc : FrameCarries env h body dec a) (now : Civil) (hf : h.isFragmented = false) (t : MType) (mk : α → Msg)
    (ht : MType.ofID h.msgID = some t)
    (hd : ∀ h', t.decode env now h' = (do let m ← dec h'; pure (mk m))) :
    Holds env now (encodeFrame (writeHeader h body)) (h.withBodyLength body.length) (mk a) := by
  obtain ⟨pd, e1, e2, -, e4⟩ := hc
  have e2' : pd.header = h.withBodyLength body.length := e2
  refine ⟨pd, t, body.length, e1, e2', hf, ht, ?_⟩
  rw [hd, rd_bind_eq, ← e2', e4]
  rfl

/-- The authentication frame carries the code, whatever the IMEI and the software version are. -/
theorem auth_carries (env : Env) (h : Header) (hw : h.WF) (code imei sw : Str) (hc : code.length ≤ 255)
    (hi : imei.length ≤ 15) (hs : Fits 20 sw) :
    ∃ m : AuthMsg, m.code = code ∧
      (m.imei = if h.attr.verDesc = .v2019 then padOnly 15 imei else []) ∧
      (m.software = if h.attr.verDesc = .v2019 then sw else []) ∧
      FrameCarries env h (AuthMsg.encode h.attr.verDesc ⟨UInt8.ofNat code.length, code, imei, sw⟩) AuthMsg.decode m := by
  rcases hw.attr.verDesc_cases with hv | hv
  · refine ⟨⟨UInt8.ofNat code.length, code, padOnly 15 imei, sw⟩, rfl, by rw [hv]; rfl, by rw [hv]; rfl, ?_⟩
    have e : AuthMsg.encode h.attr.verDesc ⟨UInt8.ofNat code.length, code, imei, sw⟩ =
        AuthMsg.encode h.attr.verDesc ⟨UInt8.ofNat code.length, code, padOnly 15 imei, sw⟩ := by
      rw [hv]
      have : padOnly 15 (padOnly 15 imei) = padOnly 15 imei := by
        unfold padOnly
        rw [List.length_append, List.length_replicate]
        have : 15 - (imei.length + (15 - imei.length)) = 0 := by omega
        rw [this]; simp
      simp only [AuthMsg.encode, this]
    rw [e]
    refine C65_auth_2019_partial env h hw hv _ hc rfl ?_ hs
    simp only [padOnly, List.length_append, List.length_replicate]; omega
  · exact ⟨⟨0, code, [], []⟩, rfl, by rw [hv]; rfl, by rw [hv]; rfl, C65_auth_2013 env h hw hv code (by omega) _ imei sw⟩

/-- The simulator answers a registration reply with an authentication that carries the code, whatever the result was. -/
theorem client_answers_any (env : Env) (clk : Clock) (c : Conn) (ct : Store) (h : Header) (hw : h.WF)
    (hnf : h.isFragmented = false) (result : UInt8) (code : Str) (hcl : code.length ≤ 10) (r : Ref)
    (hr : ct.byPhone.get h.phone = some r) (him : (ct.heap r).imei.length ≤ 15) (hsw : Fits 20 (ct.heap r).software) :
    ∃ h3 a auth, ct.handleFrame env clk c (registerReply h result.toNat code) = (ct, .reply auth) ∧
      (∀ now, Holds env now auth h3 (.m0102 a)) ∧ h3.WF ∧ h3.phone = h.phone ∧ a.code = code ∧
      (a.imei = if h.attr.verDesc = .v2019 then padOnly 15 (ct.heap r).imei else []) ∧
      (a.software = if h.attr.verDesc = .v2019 then (ct.heap r).software else []) := by
  have w2 : Header.WF { h with msgID := 0x8100 } := ⟨hw.attr, hw.phone, hw.pv, hw.frag⟩
  have c2 := C19_register_reply env _ w2 ⟨h.serial, result, code⟩ (by show code.length ≤ 1020; omega)
  have hold2 := c2.holds clk.civil hnf .t8100 .m8100 rfl (fun _ => rfl)
  have hn2 : (RegisterAck.mk h.serial result code).encode.length ≤ 13 := by
    simp [RegisterAck.encode, writeWord, writeByte, writeString, writeBytes, put16_length]; omega
  generalize (RegisterAck.mk h.serial result code).encode.length = n2 at hold2 hn2
  have w2' := Header.withBodyLength_wf w2 n2 (by omega)
  generalize hh2 : Header.withBodyLength _ n2 = h2 at hold2 w2'
  have p2 : h2.phone = h.phone := by rw [← hh2]; rfl
  have f2 : h2.isFragmented = false := by rw [← hh2]; exact hnf
  have w3 : Header.WF { h2 with msgID := 0x0102 } := ⟨w2'.attr, w2'.phone, w2'.pv, w2'.frag⟩
  have v2 : h2.attr.verDesc = h.attr.verDesc := by rw [← hh2]; rfl
  obtain ⟨a, ha, hi, hsf, c3⟩ := auth_carries env _ w3 code (ct.heap r).imei (ct.heap r).software (by omega) him hsw
  have hl3 : (AuthMsg.encode h2.attr.verDesc
      ⟨UInt8.ofNat code.length, code, (ct.heap r).imei, (ct.heap r).software⟩).length ≤ 46 := by
    have := hsw.1
    cases h2.attr.verDesc <;>
      simp only [AuthMsg.encode, writeString, writeBytes, writeByte, padOnly, List.length_append, List.length_replicate,
        List.length_cons, List.length_nil] <;> omega
  refine ⟨_, a, _, ?_, fun now => c3.holds now f2 .t0102 .m0102 rfl (fun _ => rfl),
    Header.withBodyLength_wf w3 _ (Nat.lt_of_le_of_lt hl3 (by decide)), p2, ha, by rw [hi, v2], by rw [hsf, v2]⟩
  rw [registerReply, answer, ← registerAckEncode, hold2.handle]
  simp only [Store.handle, process8100, Store.devByPhone, p2, hr, finish, gen0102, Out.encode, Msg.encodeBody]

theorem client_answers (env : Env) (clk : Clock) (c : Conn) (ct : Store) (h : Header) (hw : h.WF)
    (hnf : h.isFragmented = false) (code : Str) (hcl : code.length ≤ 10) (r : Ref)
    (hr : ct.byPhone.get h.phone = some r) (him : (ct.heap r).imei.length ≤ 15) (hsw : Fits 20 (ct.heap r).software) :
    ∃ h3 a auth, ct.handleFrame env clk c (registerReply h 0 code) = (ct, .reply auth) ∧
      (∀ now, Holds env now auth h3 (.m0102 a)) ∧ h3.WF ∧ h3.phone = h.phone ∧ a.code = code ∧
      (a.imei = if h.attr.verDesc = .v2019 then padOnly 15 (ct.heap r).imei else []) ∧
      (a.software = if h.attr.verDesc = .v2019 then (ct.heap r).software else []) :=
  client_answers_any env clk c ct h hw hnf 0 code hcl r hr him hsw

/-- The server answers the right code with result 0 and the device is online. -/
theorem server_accepts (env : Env) (clk : Clock) (c : Conn) (st : Store) (frame : List UInt8) (h : Header) (a : AuthMsg)
    (hh : Holds env clk.civil frame h (.m0102 a)) (r : Ref) (hr : st.byPhone.get h.phone = some r)
    (hph : (st.heap r).phone = h.phone) (ha : a.code = (st.heap r).code) :
    ∃ st', st.handleFrame env clk c frame = (st', .reply (generalReply h 0)) ∧
      (st'.look h.phone).map (·.status) = some .online := by
  refine ⟨(st.setDev r ((st.heap r).authed clk a)).cacheDevice r, ?_, ?_⟩
  · rw [hh.handle]
    simp only [Store.handle, process0102, Store.devByPhone, hr]
    rw [if_neg (by simp [ha])]
    exact finish_gen8001 env _ h 0
  · simp [Store.look, Store.devByPhone, Store.cacheDevice, Store.setDev, AMap.get_set, Device.authed, hph]

/-- The simulator's device goes online with the general reply. -/
theorem client_online (env : Env) (clk : Clock) (c : Conn) (ct : Store) (h : Header) (hw : h.WF)
    (hnf : h.isFragmented = false) (r : Ref) (hr : ct.byPhone.get h.phone = some r)
    (hph : (ct.heap r).phone = h.phone) (hoff : (ct.heap r).status = .offline) :
    ∃ ct', ct.handleFrame env clk c (generalReply h 0) = (ct', .silent) ∧
      (ct'.look h.phone).map (·.status) = some .online := by
  have w4 : Header.WF { h with msgID := 0x8001 } := ⟨hw.attr, hw.phone, hw.pv, hw.frag⟩
  have c4 := C19_general_reply env _ w4 ⟨h.serial, h.msgID, 0⟩
  have hold4 := c4.holds clk.civil hnf .t8001 .m8001 rfl (fun _ => rfl)
  refine ⟨(ct.setDev r ((ct.heap r).awake clk)).cacheDevice r, ?_, ?_⟩
  · rw [generalReply, answer, ← (by rfl : (0 : UInt8).toNat = 0), ← ackEncode, hold4.handle]
    simp only [Store.handle, process8001, Store.devByPhone, if_true]
    have : (Header.withBodyLength { h with msgID := 0x8001 } (GeneralAck.mk h.serial h.msgID 0).encode.length).phone =
      h.phone := rfl
    rw [this, hr]
    simp only [hoff]
    rw [if_neg (by simp)]
    rfl
  · simp [Store.look, Store.devByPhone, Store.cacheDevice, Store.setDev, AMap.get_set, Device.awake, hph]

theorem handshake_core (env : Env) (k1 k2 k3 k4 : Clock) (sc cc : Conn) (st ct : Store)
    (frame : List UInt8) (h : Header) (hw : h.WF) (m : Register) (hh : Holds env k1.civil frame h (.m0100 m))
    (hf : st.lookPlate m.plate = none) (hp : st.look h.phone = none) (r : Ref) (hr : ct.byPhone.get h.phone = some r)
    (hph : (ct.heap r).phone = h.phone) (hoff : (ct.heap r).status = .offline) (him : (ct.heap r).imei.length ≤ 15)
    (hsw : Fits 20 (ct.heap r).software) : Handshake env k1 k2 k3 k4 sc cc st ct frame h.phone := by
  have hnf : h.isFragmented = false := by obtain ⟨_, _, _, _, _, e, _⟩ := hh; exact e
  have h1 : ¬ (st.hasPlate m.plate = true) := by
    unfold Store.hasPlate; unfold Store.lookPlate at hf; simp at hf; simp [hf]
  have h2 : ¬ (st.hasPhone h.phone = true) := by
    unfold Store.hasPhone; unfold Store.look at hp; simp at hp; simp [hp]
  have hcl := code_length (Device.new k1 sc h m)
  obtain ⟨h3, a, auth, e2, hold3, w3, p3, ha, -⟩ := client_answers env k2 cc ct h hw hnf _ hcl r hr him hsw
  have e1 : st.handleFrame env k1 sc frame = (st.register (Device.new k1 sc h m),
      .reply (registerReply h 0 (Device.new k1 sc h m).code)) := by
    rw [hh.handle]
    simp only [Store.handle, process0100]
    rw [if_neg h1, if_neg h2, Store.register_eq]
    exact finish_gen8100 env _ h 0 _
  have f3 : h3.isFragmented = false := by obtain ⟨_, _, _, _, _, e, _⟩ := hold3 k3.civil; exact e
  obtain ⟨st2, e3, o3⟩ := server_accepts env k3 sc (st.register (Device.new k1 sc h m)) auth h3 a (hold3 _) st.next
    (by simp [Store.register, AMap.get_set, p3, Device.new]) (by simp [Store.register, p3, Device.new])
    (by simp [Store.register, ha])
  obtain ⟨ct2, e4, o4⟩ := client_online env k4 cc ct h3 w3 f3 r (by rw [p3]; exact hr) (by rw [p3]; exact hph) hoff
  rw [p3] at o3 o4
  exact ⟨_, _, _, _, _, _, _, e1, e2, e3, e4, o3, o4⟩

theorem buildDevice_get (ct : Store) (d : Device) :
    (ct.buildDevice d).byPhone.get d.phone = some ct.next ∧ (ct.buildDevice d).heap ct.next = d := by
  simp [Store.buildDevice, Store.alloc, Store.cacheDevice, AMap.get_set]

/-- The frame the simulator sends first. -/
def firstFrame (env : Env) (d : Device) (province city : UInt16) (color : UInt8) : List UInt8 :=
  match Out.encode env (clientRegister d province city color) with
  | .ok f => f
  | _ => []

theorem take_fits (n : Nat) (s : Str) (h : ∀ c ∈ s, c ≠ 0) : Fits n (s.take n) := by
  refine ⟨by simp; omega, ?_⟩
  intro c hc
  exact h c (List.mem_of_mem_take (List.mem_of_getLast? hc))

theorem padCut_take (n : Nat) (s : Str) : padCut n (s.take n) = padCut n s := by
  unfold padCut
  rw [List.take_take, Nat.min_self, List.length_take]
  congr 2; omega

theorem clientMaker_nonzero : ∀ c ∈ clientMaker, c ≠ 0 := by decide
theorem clientSoftware_fits : Fits 20 clientSoftware := by unfold Fits; decide

/-- What of the simulator's registration fits into the fields of the layout. -/
def cutRegister (v : Ver) (province city : UInt16) (id : Str) (color : UInt8) (plate : Str) : Register :=
  ⟨province, city, clientMaker.take (Register.encWidths v).1, clientMaker.take (Register.encWidths v).2.1,
    id.take (Register.encWidths v).2.2, color, plate, []⟩

theorem cutRegister_encode (env : Env) (v : Ver) (province city : UInt16) (id : Str) (color : UInt8) (plate : Str) :
    Register.encode env v ⟨province, city, clientMaker, clientMaker, id, color, plate, []⟩ =
      (cutRegister v province city id color plate).encode env v := by
  simp only [cutRegister, Register.encode, padCut_take]

/-- A 2019 simulator: the handshake succeeds whenever its plate and phone are free. -/
theorem C58_handshake_2019 (env : Env) (k1 k2 k3 k4 : Clock) (sc cc : Conn) (server client : Store)
    (id plate phone imei g : Str) (keepalive : Nat) (province city : UInt16) (color : UInt8)
    (hid : ∀ c ∈ id, c ≠ 0) (henc : env.gbkEnc plate = some g) (hdec : env.gbkDec g = some plate) (hg : g.length ≤ 947)
    (hpc : ∀ c ∈ phone, bcdChar c) (hpl : phone.length ≤ 20) (him : imei.length ≤ 15)
    (hfree : server.lookPlate plate = none) (hfree' : server.look (fillDevicePhone phone 20) = none) :
    let d := genDevice .v2019 id plate phone imei keepalive cc
    Handshake env k1 k2 k3 k4 sc cc server (client.buildDevice d) (firstFrame env d province city color)
      (fillDevicePhone phone 20) := by
  intro d
  have hph : PhoneWF .v2019 d.phone := fillDevicePhone_wf (v := .v2019) hpc hpl
  have hw : (clientHeader 0x0100 d).WF := clientHeader_wf _ _ hph
  have hv : (clientHeader 0x0100 d).attr.verDesc = .v2019 := rfl
  have f1 := take_fits 11 _ clientMaker_nonzero
  have f2 := take_fits 30 _ clientMaker_nonzero
  have f3 := take_fits 30 _ hid
  have hc := C20_register_2019 env _ hw hv (cutRegister .v2019 province city id color plate) g henc hdec hg f1 f2 f3
  have hhold := hc.holds k1.civil rfl .t0100 .m0100 rfl (fun _ => rfl)
  have hl : ((cutRegister .v2019 province city id color plate).encode env .v2019).length = 76 + g.length :=
    Register.encode_length env .v2019 _ g henc f1 f2 f3
  rw [hv] at hhold
  have hw' := Header.withBodyLength_wf hw ((cutRegister .v2019 province city id color plate).encode env .v2019).length
    (by omega)
  rw [← cutRegister_encode] at hhold hw'
  have hb := buildDevice_get client d
  exact handshake_core env k1 k2 k3 k4 sc cc server (client.buildDevice d) _ _ hw' _ hhold hfree hfree' client.next
    hb.1 (by rw [hb.2]; rfl) (by rw [hb.2]; rfl) (by rw [hb.2]; exact him) (by rw [hb.2]; exact clientSoftware_fits)

/-- A 2013 or 2011 simulator (both send the 2013 layout), if it has a plate.
Missing for the full C58: an empty plate, where it is false (C58_empty_plate_2013). -/
theorem C58_handshake_2013_partial (env : Env) (k1 k2 k3 k4 : Clock) (sc cc : Conn) (server client : Store) (v : Ver)
    (hv : v ≠ .v2019) (id plate phone imei g : Str) (keepalive : Nat) (province city : UInt16) (color : UInt8)
    (hid : ∀ c ∈ id, c ≠ 0) (henc : env.gbkEnc plate = some g) (hdec : env.gbkDec g = some plate) (hne : g ≠ [])
    (hg : g.length ≤ 947)
    (hpc : ∀ c ∈ phone, bcdChar c) (hpl : phone.length ≤ 12) (him : imei.length ≤ 15)
    (hfree : server.lookPlate plate = none) (hfree' : server.look (fillDevicePhone phone 12) = none) :
    let d := genDevice v id plate phone imei keepalive cc
    Handshake env k1 k2 k3 k4 sc cc server (client.buildDevice d) (firstFrame env d province city color)
      (fillDevicePhone phone 12) := by
  intro d
  have hph : PhoneWF .v2013 d.phone := by
    have := fillDevicePhone_wf (v := .v2013) hpc hpl
    simpa [d, genDevice, hv] using this
  have hdp : d.phone = fillDevicePhone phone 12 := by simp [d, genDevice, hv]
  have he : clientHeader 0x0100 d = ⟨0x0100, ⟨0, 0, 0, 0, 0, .none, false, .v2013⟩, 0, d.phone, 1, none⟩ := by
    unfold clientHeader; rw [if_neg (by exact hv)]
  have hw : (clientHeader 0x0100 d).WF := clientHeader_wf _ _ (by
    have : d.ver = v := rfl
    rw [this, if_neg hv]; exact hph)
  have hvd : (clientHeader 0x0100 d).attr.verDesc = .v2013 := by rw [he]
  have f1 := take_fits 5 _ clientMaker_nonzero
  have f2 := take_fits 20 _ clientMaker_nonzero
  have f3 := take_fits 7 _ hid
  have hc := C20_register_2013_partial env _ hw hvd (cutRegister .v2013 province city id color plate) g henc hdec hne hg
    f1 f2 f3
  have hhold := hc.holds k1.civil (by rw [he]; rfl) .t0100 .m0100 (by rw [he]; rfl) (fun _ => rfl)
  have hl : ((cutRegister .v2013 province city id color plate).encode env .v2013).length = 37 + g.length :=
    Register.encode_length env .v2013 _ g henc f1 f2 f3
  rw [hvd] at hhold
  have hw' := Header.withBodyLength_wf hw ((cutRegister .v2013 province city id color plate).encode env .v2013).length
    (by omega)
  rw [← cutRegister_encode] at hhold hw'
  have hb := buildDevice_get client d
  have hff : firstFrame env d province city color = encodeFrame (writeHeader (clientHeader 0x0100 d)
      (Register.encode env .v2013 ⟨province, city, clientMaker, clientMaker, id, color, plate, []⟩)) := by
    simp only [firstFrame, Out.encode, clientRegister, Msg.encodeBody, hvd]
    rfl
  have hp1 : ∀ n, ((clientHeader 0x0100 d).withBodyLength n).phone = fillDevicePhone phone 12 := by
    intro n; rw [he]; exact hdp
  rw [hff]
  have key := handshake_core env k1 k2 k3 k4 sc cc server (client.buildDevice d) _ _ hw' _ hhold hfree
    (by rw [hp1]; exact hfree') client.next
    (by rw [hp1, ← hdp]; exact hb.1) (by rw [hp1, ← hdp, hb.2]) (by rw [hb.2]; rfl) (by rw [hb.2]; exact him)
    (by rw [hb.2]; exact clientSoftware_fits)
  rwa [hp1] at key

/-- Two simulators without a plate: the second one's registration is refused although nobody has its plate or phone. -/
def bareDevice (last : Nat) : Device := genDevice .v2013 [0x69, 0x64] [] (digitStr [1, 3, 8, 0, 0, last]) [] 30000 demoC

theorem C58_empty_plate_2013 :
    let server := (Store.empty.handleFrame goEnv (demoClk 0) demoC (firstFrame goEnv (bareDevice 1) 31 115 1)).1
    server.lookPlate (bareDevice 2).plate = none ∧ server.look (bareDevice 2).phone = none ∧
    (server.handleFrame goEnv (demoClk 0) demoC' (firstFrame goEnv (bareDevice 2) 31 115 1)).2 =
      .reply (registerReply ((clientHeader 0x0100 (bareDevice 2)).withBodyLength 37) 1 placeholderCode) := by
  decide +kernel

-- a server with one terminal and a simulator with another plate and phone
example : goEnv.gbkEnc [0x42, 0x31] = some [0x42, 0x31] ∧ goEnv.gbkDec [0x42, 0x31] = some [0x42, 0x31] ∧
    demoSys.st.lookPlate [0x42, 0x31] = none ∧
    demoSys.st.look (fillDevicePhone (digitStr [1, 3, 9, 1, 2, 3, 4, 5, 6, 7, 8]) 12) = none ∧
    demoSys.st.look (fillDevicePhone (digitStr [1, 3, 9, 1, 2, 3, 4, 5, 6, 7, 8]) 20) = none := by decide +kernel

end JT808
