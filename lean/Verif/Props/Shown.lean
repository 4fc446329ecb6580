import Verif.Props.EndToEnd
import Verif.Props.Conversation
/-
C108: how the server shows a simulated terminal.
-/
namespace JT808
open Spec

namespace Spec

/-- The bytes of a text. -/
def utf8 (s : String) : Str := s.toUTF8.toList

/-- The first three of the four frames of registration and authentication, seen from outside: what the server replies to
`first` makes the simulator authenticate, and `after` is the server then. -/
def SignedOn (env : Env) (k1 k2 k3 : Clock) (sc cc : Conn) (server client : Store) (first : List UInt8) (after : Store) :
    Prop :=
  ∃ server1 reply1 client1 auth reply2,
    server.handleFrame env k1 sc first = (server1, .reply reply1) ∧
    client.handleFrame env k2 cc reply1 = (client1, .reply auth) ∧
    server1.handleFrame env k3 sc auth = (after, .reply reply2)

end Spec

/-- The record that the handshake leaves, and that it takes place. -/
theorem handshake_listed (env : Env) (k1 k2 k3 : Clock) (sc cc : Conn) (st ct : Store)
    (frame : List UInt8) (h : Header) (hw : h.WF) (m : Register) (hh : Holds env k1.civil frame h (.m0100 m))
    (hf : st.lookPlate m.plate = none) (hp : st.look h.phone = none) (r : Ref) (hr : ct.byPhone.get h.phone = some r)
    (him : (ct.heap r).imei.length ≤ 15) (hsw : Fits 20 (ct.heap r).software) :
    ∃ after d, SignedOn env k1 k2 k3 sc cc st ct frame after ∧ after.look h.phone = some d ∧
      d.id = m.deviceID ∧ d.plate = m.plate ∧ d.phone = h.phone ∧ d.ver = h.attr.verDesc ∧ d.protoVer = h.protoVer ∧ d.status = .online ∧
      (d.imei = if h.attr.verDesc = .v2019 then padOnly 15 (ct.heap r).imei else []) ∧
      (d.software = if h.attr.verDesc = .v2019 then (ct.heap r).software else []) := by
  have hnf : h.isFragmented = false := by obtain ⟨_, _, _, _, _, e, _⟩ := hh; exact e
  have h1 : ¬ (st.hasPlate m.plate = true) := by
    unfold Store.hasPlate; unfold Store.lookPlate at hf; simp at hf; simp [hf]
  have h2 : ¬ (st.hasPhone h.phone = true) := by
    unfold Store.hasPhone; unfold Store.look at hp; simp at hp; simp [hp]
  have hcl := code_length (Device.new k1 sc h m)
  obtain ⟨h3, a, auth, e2, hold3, w3, p3, ha, hi, hs⟩ := client_answers env k2 cc ct h hw hnf _ hcl r hr him hsw
  have e1 : st.handleFrame env k1 sc frame = (st.register (Device.new k1 sc h m),
      .reply (registerReply h 0 (Device.new k1 sc h m).code)) := by
    rw [hh.handle]
    simp only [Store.handle, process0100]
    rw [if_neg h1, if_neg h2, Store.register_eq]
    exact finish_gen8100 env _ h 0 _
  have hg : (st.register (Device.new k1 sc h m)).byPhone.get h3.phone = some st.next := by
    simp [Store.register, AMap.get_set, p3, Device.new]
  have hd : (st.register (Device.new k1 sc h m)).heap st.next = Device.new k1 sc h m := by simp [Store.register]
  refine ⟨((st.register (Device.new k1 sc h m)).setDev st.next ((Device.new k1 sc h m).authed k3 a)).cacheDevice st.next,
    (Device.new k1 sc h m).authed k3 a, ⟨_, _, _, _, generalReply h3 0, e1, e2, ?_⟩, ?_, rfl, rfl, rfl, rfl, rfl, rfl, hi, hs⟩
  · rw [(hold3 _).handle]
    simp only [Store.handle, process0102, Store.devByPhone, hg]
    rw [hd, if_neg (by simp [ha])]
    exact finish_gen8001 env _ h3 0
  · simp [Store.look, Store.devByPhone, Store.cacheDevice, Store.setDev, AMap.get_set, Device.authed, Device.new]

/-- A 2019 simulator whose identity fits the fields of the protocol: after registration and authentication the server
shows its device id, plate, phone, IMEI and software version exactly as the simulator has them. -/
theorem C108_2019 (env : Env) (k1 k2 k3 : Clock) (sc cc : Conn) (server client : Store)
    (id plate phone imei g : Str) (keepalive : Nat) (province city : UInt16) (color : UInt8)
    (hid : ∀ c ∈ id, c ≠ 0) (hil : id.length ≤ 30) (henc : env.gbkEnc plate = some g) (hdec : env.gbkDec g = some plate)
    (hg : g.length ≤ 947) (hpc : ∀ c ∈ phone, bcdChar c) (hpl : phone.length ≤ 20) (him : imei.length = 15)
    (hfree : server.lookPlate plate = none) (hfree' : server.look (fillDevicePhone phone 20) = none) :
    let own := genDevice .v2019 id plate phone imei keepalive cc
    ∃ after d, SignedOn env k1 k2 k3 sc cc server (client.buildDevice own) (firstFrame env own province city color) after ∧
      after.look own.phone = some d ∧ d.id = id ∧ d.plate = plate ∧ d.phone = own.phone ∧ d.ver = .v2019 ∧
      d.protoVer = 1 ∧ d.status = .online ∧ d.imei = imei ∧ d.software = utf8 "fakeyanss.github.io" := by
  intro own
  have hph : PhoneWF .v2019 own.phone := fillDevicePhone_wf (v := .v2019) hpc hpl
  have hw : (clientHeader 0x0100 own).WF := clientHeader_wf _ _ hph
  have hv : (clientHeader 0x0100 own).attr.verDesc = .v2019 := rfl
  have f1 := take_fits 11 _ clientMaker_nonzero
  have f2 := take_fits 30 _ clientMaker_nonzero
  have f3 := take_fits 30 _ hid
  have hc := C20_register_2019 env _ hw hv (cutRegister .v2019 province city id color plate) g henc hdec hg f1 f2 f3
  have hhold := hc.holds k1.civil rfl .t0100 .m0100 rfl (fun _ => rfl)
  have hl : ((cutRegister .v2019 province city id color plate).encode env .v2019).length = 76 + g.length :=
    Register.encode_length env .v2019 _ g henc f1 f2 f3
  rw [hv] at hhold
  have hw' := Header.withBodyLength_wf hw ((cutRegister .v2019 province city id color plate).encode env .v2019).length
    (by omega)
  rw [← cutRegister_encode] at hhold hw'
  have hb := buildDevice_get client own
  obtain ⟨after, d, h1, h2, h3, h4, h5, h6, hq, h7, h8, h9⟩ := handshake_listed env k1 k2 k3 sc cc server
    (client.buildDevice own) _ _ hw' _ hhold hfree hfree' client.next hb.1
    (by rw [hb.2]; exact Nat.le_of_eq him) (by rw [hb.2]; exact clientSoftware_fits)
  refine ⟨after, d, h1, h2, ?_, h4, h5, h6, hq, h7, ?_, ?_⟩
  · rw [h3]; exact List.take_of_length_le hil
  · rw [h8, hb.2]
    show padOnly 15 imei = imei
    unfold padOnly; rw [him]; simp
  · rw [h9, hb.2]
    show clientSoftware = _
    decide +kernel

/-- What holds of C108 for 2013 and 2011 simulators (both send the 2013 layout) with a plate: device id, plate and phone
are shown exactly.  Missing: IMEI and software version are shown empty, and a 2011 simulator as a 2013 terminal, because
the layout does not carry them; and device ids beyond seven bytes (C108_id_cut). -/
theorem C108_2013_partial (env : Env) (k1 k2 k3 : Clock) (sc cc : Conn) (server client : Store) (v : Ver)
    (hv : v ≠ .v2019) (id plate phone imei g : Str) (keepalive : Nat) (province city : UInt16) (color : UInt8)
    (hid : ∀ c ∈ id, c ≠ 0) (hil : id.length ≤ 7) (henc : env.gbkEnc plate = some g) (hdec : env.gbkDec g = some plate)
    (hne : g ≠ []) (hg : g.length ≤ 947)
    (hpc : ∀ c ∈ phone, bcdChar c) (hpl : phone.length ≤ 12) (him : imei.length ≤ 15)
    (hfree : server.lookPlate plate = none) (hfree' : server.look (fillDevicePhone phone 12) = none) :
    let own := genDevice v id plate phone imei keepalive cc
    ∃ after d, SignedOn env k1 k2 k3 sc cc server (client.buildDevice own) (firstFrame env own province city color) after ∧
      after.look own.phone = some d ∧ d.id = id ∧ d.plate = plate ∧ d.phone = own.phone ∧ d.ver = .v2013 ∧
      d.protoVer = 0 ∧ d.status = .online ∧ d.imei = [] ∧ d.software = [] := by
  intro d
  have hph : PhoneWF .v2013 d.phone := by
    have := fillDevicePhone_wf (v := .v2013) hpc hpl
    simpa [d, genDevice, hv] using this
  have hdp : d.phone = fillDevicePhone phone 12 := by simp [d, genDevice, hv]
  have he : clientHeader 0x0100 d = ⟨0x0100, ⟨0, 0, 0, 0, 0, .none, false, .v2013⟩, 0, d.phone, 1, none⟩ := by
    unfold clientHeader; rw [if_neg (by exact hv)]
  have hw : (clientHeader 0x0100 d).WF := clientHeader_wf _ _ (by
    have : d.ver = v := rfl
    rw [this, if_neg hv]; exact hph)
  have hvd : (clientHeader 0x0100 d).attr.verDesc = .v2013 := by rw [he]
  have f1 := take_fits 5 _ clientMaker_nonzero
  have f2 := take_fits 20 _ clientMaker_nonzero
  have f3 := take_fits 7 _ hid
  have hc := C20_register_2013_partial env _ hw hvd (cutRegister .v2013 province city id color plate) g henc hdec hne hg
    f1 f2 f3
  have hhold := hc.holds k1.civil (by rw [he]; rfl) .t0100 .m0100 (by rw [he]; rfl) (fun _ => rfl)
  have hl : ((cutRegister .v2013 province city id color plate).encode env .v2013).length = 37 + g.length :=
    Register.encode_length env .v2013 _ g henc f1 f2 f3
  rw [hvd] at hhold
  have hw' := Header.withBodyLength_wf hw ((cutRegister .v2013 province city id color plate).encode env .v2013).length
    (by omega)
  rw [← cutRegister_encode] at hhold hw'
  have hb := buildDevice_get client d
  have hff : firstFrame env d province city color = encodeFrame (writeHeader (clientHeader 0x0100 d)
      (Register.encode env .v2013 ⟨province, city, clientMaker, clientMaker, id, color, plate, []⟩)) := by
    simp only [firstFrame, Out.encode, clientRegister, Msg.encodeBody, hvd]
    rfl
  have hp1 : ∀ n, ((clientHeader 0x0100 d).withBodyLength n).phone = fillDevicePhone phone 12 := by
    intro n; rw [he]; exact hdp
  have hv1 : ∀ n, ((clientHeader 0x0100 d).withBodyLength n).attr.verDesc = .v2013 := by
    intro n; rw [he]; rfl
  rw [hff]
  obtain ⟨after, d', h1, h2, h3, h4, h5, h6, hq, h7, h8, h9⟩ := handshake_listed env k1 k2 k3 sc cc server
    (client.buildDevice d) _ _ hw' _ hhold hfree (by rw [hp1]; exact hfree') client.next
    (by rw [hp1, ← hdp]; exact hb.1) (by rw [hb.2]; exact him) (by rw [hb.2]; exact clientSoftware_fits)
  rw [hp1] at h2 h5
  rw [hv1] at h6 h8 h9
  refine ⟨after, d', h1, by rw [hdp]; exact h2, ?_, h4, by rw [hdp]; exact h5, h6, hq.trans (by rw [he]; rfl), h7, h8, h9⟩
  rw [h3]; exact List.take_of_length_le hil

/-- How the simulator introduces itself: whoever reads its first frame finds the province, city, colour and plate that were
drawn, the maker's name as maker and model, and its id, each cut to the width of its field. -/
theorem C108_introduced (env : Env) (v : Ver) (c : Conn) (id plate phone imei g : Str) (keepalive : Nat)
    (province city : UInt16) (color : UInt8) (hid : ∀ c ∈ id, c ≠ 0) (henc : env.gbkEnc plate = some g)
    (hdec : env.gbkDec g = some plate) (hne : v ≠ .v2019 → g ≠ []) (hg : g.length ≤ 947)
    (hpc : ∀ c ∈ phone, bcdChar c) (hpl : phone.length ≤ if v = .v2019 then 20 else 12) :
    let own := genDevice v id plate phone imei keepalive c
    ∃ f h m, Out.encode env (clientRegister own province city color) = .ok f ∧ (∀ now, Holds env now f h (.m0100 m)) ∧
      h.phone = own.phone ∧ m.province = province ∧ m.city = city ∧ m.color = color ∧ m.plate = plate ∧
      m.mode = utf8 "fakeyanss" ∧
      m.manufacturer = (if v = .v2019 then utf8 "fakeyanss" else utf8 "fakey") ∧
      m.deviceID = id.take (if v = .v2019 then 30 else 7) := by
  obtain ⟨f, h, m, e1, e2, e3, e4, rfl⟩ := register_says env v c id plate phone imei g keepalive province city color hid henc
    hdec hne hg hpc hpl
  refine ⟨f, h, _, e1, e2, e4, rfl, rfl, rfl, rfl, ?_, ?_, ?_⟩ <;> by_cases hv : v = .v2019 <;>
    simp only [if_pos, hv, Register.received, cutRegister, Register.encWidths, if_false]
  all_goals decide +kernel

/-- A 2013 simulator with a plate. -/
example : let own := genDevice .v2013 (utf8 "ABC1234567") [0x61] (digitStr [1, 3]) [] 60 demoC
    (Out.encode goEnv (clientRegister own 31 115 1)).bind (fun f =>
      (Store.empty.handleFrame goEnv (demoClk 0) demoC f).1.listDevice.head?.elim .panic fun d => .ok d.id) =
        .ok (utf8 "ABC1234") := by
  decide +kernel

/-- The opposite of C108: a 2013 simulator with an eight-byte device id, IMEI "1".  The server shows seven bytes of the
id, no IMEI and no software version. -/
theorem C108_id_cut :
    let own := genDevice .v2013 (utf8 "ABCDEFGH") [0x42, 0x31] (utf8 "13912345678") (utf8 "1") 30000 demoC
    let (s1, o) := Store.empty.handleFrame goEnv (demoClk 0) demoC (firstFrame goEnv own 31 115 1)
    o = .reply (registerReply ((clientHeader 0x0100 own).withBodyLength 39) 0 (authCodeOf (utf8 "ABCDEFG") [0x42, 0x31] own.phone)) ∧
    (s1.look own.phone).map (fun d => (d.id, d.imei, d.software)) = some (utf8 "ABCDEFG", [], []) := by
  decide +kernel

-- a server with one terminal and a simulator with another plate and phone, of either layout
example : ∃ after d, SignedOn goEnv (demoClk 0) (demoClk 1) (demoClk 2) demoC' demoC demoSys.st
    (Store.empty.buildDevice
      (genDevice .v2019 (utf8 "ABCDEFGH") [0x42, 0x31] (utf8 "13912345678") (utf8 "012345678901234") 30000 demoC))
    (firstFrame goEnv
      (genDevice .v2019 (utf8 "ABCDEFGH") [0x42, 0x31] (utf8 "13912345678") (utf8 "012345678901234") 30000 demoC) 31 115 1)
    after ∧ after.look (utf8 "00000000013912345678") = some d ∧ d.imei = utf8 "012345678901234" := by
  obtain ⟨after, d, h1, h2, -, -, -, -, -, -, h8, -⟩ := C108_2019 goEnv (demoClk 0) (demoClk 1) (demoClk 2) demoC' demoC
    demoSys.st Store.empty (utf8 "ABCDEFGH") [0x42, 0x31] (utf8 "13912345678") (utf8 "012345678901234") [0x42, 0x31] 30000
    31 115 1 (by decide +kernel) (by decide +kernel) (by decide +kernel) (by decide +kernel) (by decide)
    (by decide +kernel) (by decide +kernel) (by decide +kernel) (by decide +kernel) (by decide +kernel)
  exact ⟨after, d, h1, by rw [← h2]; congr 1; decide +kernel, h8⟩

example : ∃ after d, SignedOn goEnv (demoClk 0) (demoClk 1) (demoClk 2) demoC' demoC demoSys.st
    (Store.empty.buildDevice (genDevice .v2013 (utf8 "ABCDEFG") [0x42, 0x31] (utf8 "13912345678") (utf8 "1") 30000 demoC))
    (firstFrame goEnv (genDevice .v2013 (utf8 "ABCDEFG") [0x42, 0x31] (utf8 "13912345678") (utf8 "1") 30000 demoC) 31 115 1)
    after ∧ after.look (utf8 "013912345678") = some d ∧ d.id = utf8 "ABCDEFG" := by
  obtain ⟨after, d, h1, h2, h3, -⟩ := C108_2013_partial goEnv (demoClk 0) (demoClk 1) (demoClk 2) demoC' demoC
    demoSys.st Store.empty .v2013 (by decide) (utf8 "ABCDEFG") [0x42, 0x31] (utf8 "13912345678") (utf8 "1") [0x42, 0x31]
    30000 31 115 1 (by decide +kernel) (by decide +kernel) (by decide +kernel) (by decide +kernel) (by decide) (by decide)
    (by decide +kernel) (by decide +kernel) (by decide +kernel) (by decide +kernel) (by decide +kernel)
  exact ⟨after, d, h1, by rw [← h2]; congr 1; decide +kernel, h3⟩

end JT808
