import Verif.Proof.Bounds
import Verif.Props.Header
/-
C17, C19, C20, C65: message bodies.
-/
namespace JT808
open Spec

/-! ## C19 fixed-layout messages -/

/-- `dec`, run on what the frame of `body` decodes to, gives `a` back. -/
def FrameCarries {α : Type} (env : Env) (h : Header) (body : List UInt8) (dec : Header → Rd α) (a : α) : Prop :=
  ∃ pd, decodeFrame env (encodeFrame (writeHeader h body)) = .ok pd ∧
    pd.header = { h with attr := { h.attr with bodyLength := UInt16.ofNat body.length } } ∧
    pd.body.data = body ∧ dec pd.header pd.body 0 = .ok (a, body.length)

theorem FrameCarries.of_reads {α : Type} (env : Env) {h : Header} (hw : h.WF) (body : List UInt8)
    (hb : body.length ≤ 1023) (dec : Header → Rd α) (a : α)
    (hr : ReadsAt 0 (dec (h.withBodyLength body.length)) body a) : FrameCarries env h body dec a := by
  obtain ⟨pd, e1, e2, -, e3, e4⟩ := frame_body_roundtrip env hw body hb dec a hr
  exact ⟨pd, e1, e2, e3, e4⟩

/-- General replies of terminal and platform. -/
theorem C19_general_reply (env : Env) (h : Header) (hw : h.WF) (m : GeneralAck) :
    FrameCarries env h m.encode (fun _ => GeneralAck.decode) m :=
  .of_reads env hw _ (by simp [GeneralAck.encode, writeWord, writeByte, put16_length]) _ _ (readsAt_ack 0 m)

theorem LocMsg.encode_length (m : LocMsg) (ht : TimeStr m.time) : m.encode.length = 28 := by
  have := numberStr2BCD_length ht.2 (by rw [ht.1]; decide) (by rw [ht.1])
  simp [LocMsg.encode, writeWord, writeDWord, writeBCD, put16_length, put32_length, this, ht.1]

/-- Location reports whose time is twelve digits. -/
theorem C19_location (env : Env) (h : Header) (hw : h.WF) (m : LocMsg) (ht : TimeStr m.time) :
    FrameCarries env h m.encode (fun _ => LocMsg.decode) m :=
  .of_reads env hw _ (by rw [m.encode_length ht]; decide) _ _ (readsAt_loc 0 m ht)

/-- Registration replies. -/
theorem C19_register_reply (env : Env) (h : Header) (hw : h.WF) (m : RegisterAck) (hc : m.code.length ≤ 1020) :
    FrameCarries env h m.encode RegisterAck.decode m := by
  have hl : m.encode.length = m.code.length + 3 := by
    simp [RegisterAck.encode, writeWord, writeByte, writeString, writeBytes, put16_length]; omega
  refine .of_reads env hw _ (by omega) _ _ (readsAt_registerAck _ m ?_)
  simp only [Header.withBodyLength, UInt16.toNat_ofNat']
  omega

theorem MediaQuery.encode_length (q : MediaQuery) (h : q.InRange) : q.encode.length = 24 := by
  simp [MediaQuery.encode, writeTime, writeBCD, writeDWord, writeByte, numberStr2BCD_formatTime _ h.1.1,
    numberStr2BCD_formatTime _ h.2.1, put32_length, Civil.bytes, timeBytes]

/-- Media list queries. -/
theorem C19_media_query (env : Env) (now : Civil) (h : Header) (hw : h.WF) (q : MediaQuery) (hq : q.InRange) :
    FrameCarries env h q.encode (fun _ => MediaQuery.decode now) q :=
  .of_reads env hw _ (by rw [q.encode_length hq]; decide) _ _ (readsAt_query 0 now q hq)

/-- Media lists. -/
theorem C19_media_list (env : Env) (now : Civil) (h : Header) (hw : h.WF) (m : MediaList) (hq : m.query.InRange) :
    FrameCarries env h m.encode (fun _ => MediaList.decode now) m := by
  refine .of_reads env hw _ ?_ _ _ (readsAt_media 0 now m hq)
  simp [MediaList.encode, writeWord, writeDWord, writeBytes, put16_length, put32_length, m.query.encode_length hq]

/-- Server time. -/
theorem C19_server_time (env : Env) (now : Civil) (h : Header) (hw : h.WF) (t : Civil) (ht : t.InRange) :
    FrameCarries env h (serverTimeEncode t) (fun _ => serverTimeDecode now) t := by
  refine .of_reads env hw _ ?_ _ _ (readsAt_serverTime 0 now t ht)
  simp [serverTimeEncode, writeTime, writeBCD, numberStr2BCD_formatTime _ ht.1, Civil.bytes, timeBytes]

theorem put32_dword (n : UInt32) : put32 n = dword n.toNat := by
  have := n.toNat_lt
  have h8 : (8 : UInt32).toNat % 32 = 8 := by decide
  have h16 : (16 : UInt32).toNat % 32 = 16 := by decide
  have h24 : (24 : UInt32).toNat % 32 = 24 := by decide
  unfold put32 dword
  simp only [List.cons.injEq, and_true]
  refine ⟨?_, ?_, ?_, ?_⟩ <;> apply UInt8.toNat_inj.mp <;>
    simp only [UInt32.toNat_toUInt8, UInt32.toNat_shiftRight, UInt8.toNat_ofNat', h8, h16, h24,
      Nat.shiftRight_eq_div_pow] <;> omega

/-- The bodies are the protocol's byte layouts. -/
theorem C19_layouts (a : GeneralAck) (l : LocMsg) (ds : List Nat) (hds : ∀ d ∈ ds, d < 10) (h12 : ds.length = 12)
    (hl : l.time = digitStr ds) (r : RegisterAck) :
    a.encode = ackBody a.ansSerial.toNat a.ansID.toNat a.result.toNat ∧
    l.encode = locationBody l.alarm.toNat l.status.toNat l.lat.toNat l.long.toNat l.alt.toNat l.speed.toNat
      l.dir.toNat ds ∧
    r.encode = registerAckBody r.ansSerial.toNat r.result.toNat r.code := by
  refine ⟨?_, ?_, ?_⟩
  · simp [GeneralAck.encode, writeWord, writeByte, ackBody, put16_word]
  · have : numberStr2BCD l.time = packBcd ds := by
      unfold numberStr2BCD
      have e : 8 - l.time.length = 0 := by rw [hl]; simp [digitStr, h12]
      rw [e, hl]
      simpa using str2Byte_digitStr ds hds
    simp [LocMsg.encode, writeWord, writeDWord, writeBCD, locationBody, put16_word, put32_dword, this]
  · simp [RegisterAck.encode, writeWord, writeByte, writeString, writeBytes, registerAckBody, put16_word]

/-- The 2013 header of the examples. -/
def hdr2013 (id : UInt16) : Header :=
  ⟨id, ⟨0, 0, 0, 0, 0, .none, false, .v2013⟩, 0, digitStr [0,1,3,8,0,0,1,3,8,0,0,0], 7, none⟩

/-- The 2019 header of the examples. -/
def hdr2019 (id : UInt16) : Header :=
  ⟨id, ⟨0, 0, 0, 1, 0, .none, false, .v2019⟩, 1, digitStr [0,0,0,0,0,0,0,0,0,1,3,8,0,0,1,3,8,0,0,0], 7, none⟩

theorem hdr2013_wf (id : UInt16) : (hdr2013 id).WF := by
  refine ⟨⟨?_, ?_, ?_, ?_, ?_, ?_, ?_, ?_⟩, ⟨?_, ?_⟩, ?_, ?_⟩ <;> first | (simp only [hdr2013]; decide) | rfl

theorem hdr2019_wf (id : UInt16) : (hdr2019 id).WF := by
  refine ⟨⟨?_, ?_, ?_, ?_, ?_, ?_, ?_, ?_⟩, ⟨?_, ?_⟩, ?_, ?_⟩ <;> first | (simp only [hdr2019]; decide) | rfl

-- a location report: 31.23 N, 121.47 E, 60.0 km/h, 2024-02-29 23:59:58
example : FrameCarries goEnv (hdr2019 0x0200)
    (LocMsg.mk 0 3 31230000 121470000 15 600 90 (digitStr [2,4,0,2,2,9,2,3,5,9,5,8])).encode
    (fun _ => LocMsg.decode) ⟨0, 3, 31230000, 121470000, 15, 600, 90, digitStr [2,4,0,2,2,9,2,3,5,9,5,8]⟩ :=
  C19_location _ _ (hdr2019_wf _) _ ⟨rfl, by decide⟩

example : (MediaQuery.mk 1 ⟨2024, 2, 29, 23, 59, 58⟩ ⟨2024, 3, 1, 0, 0, 0⟩ 0 1 2 0 1).InRange := by
  simp only [MediaQuery.InRange, Civil.InRange, Civil.Valid, inWindow]; decide

/-! ## C20 registration messages -/

/-- What a received registration is: the message with the name of its region. -/
def Register.received (env : Env) (m : Register) : Register :=
  { m with locationDesc := env.region (decimalPad 2 m.province.toNat ++ decimalPad 4 m.city.toNat) }

/-- 2019 layout, every registration whose texts fit and whose plate the GBK codec can carry. -/
theorem C20_register_2019 (env : Env) (h : Header) (hw : h.WF) (hv : h.attr.verDesc = .v2019) (m : Register)
    (g : List UInt8) (henc : env.gbkEnc m.plate = some g) (hdec : env.gbkDec g = some m.plate)
    (hg : g.length ≤ 947) (h1 : Fits 11 m.manufacturer) (h2 : Fits 30 m.mode) (h3 : Fits 30 m.deviceID) :
    FrameCarries env h (m.encode env h.attr.verDesc) (Register.decode env) (m.received env) := by
  rw [hv]
  have hl : (m.encode env .v2019).length = 76 + g.length := Register.encode_length env .v2019 m g henc h1 h2 h3
  refine .of_reads env hw _ (by omega) _ _ (readsAt_register env _ .v2019 m g henc hdec h1 h2 h3 ?_ ?_)
  · simp [Header.withBodyLength, hv, Register.decWidths, Register.encWidths]
  · simp only [Header.withBodyLength, UInt16.toNat_ofNat']; omega

/-- 2013 layout: as above, for registrations that carry a plate.
Missing for the full C20: an empty plate, where it is false (C20_empty_plate_lost). -/
theorem C20_register_2013_partial (env : Env) (h : Header) (hw : h.WF) (hv : h.attr.verDesc = .v2013) (m : Register)
    (g : List UInt8) (henc : env.gbkEnc m.plate = some g) (hdec : env.gbkDec g = some m.plate) (hne : g ≠ [])
    (hg : g.length ≤ 947) (h1 : Fits 5 m.manufacturer) (h2 : Fits 20 m.mode) (h3 : Fits 7 m.deviceID) :
    FrameCarries env h (m.encode env h.attr.verDesc) (Register.decode env) (m.received env) := by
  rw [hv]
  have hl : (m.encode env .v2013).length = 37 + g.length := Register.encode_length env .v2013 m g henc h1 h2 h3
  have : 0 < g.length := List.length_pos_iff.mpr hne
  refine .of_reads env hw _ (by omega) _ _ (readsAt_register env _ .v2013 m g henc hdec h1 h2 h3 ?_ ?_)
  · simp only [Header.withBodyLength, hv, Register.decWidths, Register.encWidths, UInt16.toNat_ofNat']
    rw [if_pos (by omega)]
  · simp only [Header.withBodyLength, UInt16.toNat_ofNat']; omega

theorem writeHeader_2011 (h : Header) (body : List UInt8) (hv : h.attr.verDesc = .v2013) :
    writeHeader { h with attr := { h.attr with verDesc := .v2011 } } body = writeHeader h body := by
  simp [writeHeader, Header.encode, Header.withBodyLength, Attr.encode, hv]

/-- 2011 layout: a registration sent as version 2011 (the header on the wire is the 2013 one) whose plate takes at
most twelve bytes.  Missing for the full C20: longer plates, where it is false (C20_long_plate_2011). -/
theorem C20_register_2011_partial (env : Env) (h : Header) (hw : h.WF) (hv : h.attr.verDesc = .v2013) (m : Register)
    (g : List UInt8) (henc : env.gbkEnc m.plate = some g) (hdec : env.gbkDec g = some m.plate)
    (hg : g.length ≤ 12) (h1 : Fits 5 m.manufacturer) (h2 : Fits 8 m.mode) (h3 : Fits 7 m.deviceID) :
    ∃ pd, decodeFrame env (encodeFrame (writeHeader { h with attr := { h.attr with verDesc := .v2011 } }
        (m.encode env .v2011))) = .ok pd ∧
      ∃ j, Register.decode env pd.header pd.body 0 = .ok (m.received env, j) := by
  rw [writeHeader_2011 h _ hv]
  have hl : (m.encode env .v2011).length = 25 + g.length := Register.encode_length env .v2011 m g henc h1 h2 h3
  obtain ⟨pd, e1, -, -, -, e2⟩ := frame_body_roundtrip env hw (m.encode env .v2011) (by omega) (Register.decode env)
    (m.received env) (readsAt_register env _ .v2011 m g henc hdec h1 h2 h3 (by
      simp only [Header.withBodyLength, hv, Register.decWidths, Register.encWidths, UInt16.toNat_ofNat']
      rw [if_neg (by omega)]) (by
      simp only [Header.withBodyLength, UInt16.toNat_ofNat']; omega))
  exact ⟨pd, e1, _, e2⟩

/-- Decoding `frame` as a registration. -/
def readRegister (env : Env) (frame : List UInt8) : Res Register :=
  match decodeFrame env frame with
  | .ok pd =>
    match Register.decode env pd.header pd.body 0 with
    | .ok (m, _) => .ok m
    | .err e => .err e
    | .panic => .panic
  | .err e => .err e
  | .panic => .panic

/-- The opposite of C20: a 2013 registration without a plate is read in the 2011 layout: its id is lost and the
plate is filled from other fields. -/
theorem C20_empty_plate_lost :
    readRegister goEnv (encodeFrame (writeHeader (hdr2013 0x0100)
      (Register.encode goEnv .v2013 ⟨31, 115, [0x4d], [0x58], [0x49, 0x44, 0x31], 1, [], []⟩)))
    = .ok ⟨31, 115, [0x4d], [0x58], [], 0, [0, 0, 0, 0, 0x49, 0x44, 0x31, 0, 0, 0, 0, 1], []⟩ := by decide

/-- The opposite of C20: a 2011 registration with a thirteen-byte plate is read in the 2013 layout. -/
theorem C20_long_plate_2011 :
    readRegister goEnv (encodeFrame (writeHeader (hdr2013 0x0100)
      (Register.encode goEnv .v2011 ⟨31, 115, [0x4d], [0x58], [0x49, 0x44, 0x31], 1, List.replicate 13 0x41, []⟩)))
    = .ok ⟨31, 115, [0x4d], [0x58, 0, 0, 0, 0, 0, 0, 0, 0x49, 0x44, 0x31, 0, 0, 0, 0, 1, 0x41, 0x41, 0x41, 0x41],
        List.replicate 7 0x41, 0x41, [0x41], []⟩ := by decide

/-- The opposite of C20 in every version: a plate the GBK encoder rejects leaves an empty body. -/
theorem C20_unencodable_plate (env : Env) (v : Ver) (m : Register) (h : env.gbkEnc m.plate = none) :
    m.encode env v = [] := by
  simp [Register.encode, writeGBK, h]

theorem padCut_eq_cut (n : Nat) (s : Str) : padCut n s = padded n (s.take n) := by
  unfold padCut padded
  rw [List.length_take]
  by_cases h : n ≤ s.length
  · rw [Nat.min_eq_left h]; simp [Nat.sub_eq_zero_of_le h]
  · rw [Nat.min_eq_right (by omega)]

/-- The bytes are the protocol's layout; texts that do not fit are cut to their field, so that the fields after them
stay in place. -/
theorem C20_layout (env : Env) (m : Register) (g : List UInt8) (henc : env.gbkEnc m.plate = some g) :
    m.encode env .v2019 = registerBody 11 30 30 m.province.toNat m.city.toNat m.color.toNat (m.manufacturer.take 11)
      (m.mode.take 30) (m.deviceID.take 30) g ∧
    m.encode env .v2013 = registerBody 5 20 7 m.province.toNat m.city.toNat m.color.toNat (m.manufacturer.take 5)
      (m.mode.take 20) (m.deviceID.take 7) g ∧
    m.encode env .v2011 = registerBody 5 8 7 m.province.toNat m.city.toNat m.color.toNat (m.manufacturer.take 5)
      (m.mode.take 8) (m.deviceID.take 7) g := by
  refine ⟨?_, ?_, ?_⟩ <;> rw [Register.encode_eq env _ m g henc] <;>
    simp only [Register.encWidths] <;> rw [padCut_eq_cut, padCut_eq_cut, padCut_eq_cut] <;>
    simp [registerBody, put16_word]

example : Register.encode goEnv .v2011 ⟨31, 115, List.replicate 9 0x4d, [0x58], [0x49], 1, [0x41], []⟩ =
    [0, 31, 0, 115, 0x4d, 0x4d, 0x4d, 0x4d, 0x4d, 0x58, 0, 0, 0, 0, 0, 0, 0, 0x49, 0, 0, 0, 0, 0, 0, 1, 0x41] := by decide

-- plate "A12345", manufacturer "MANU1", model "M-1", id "ID00001"
example : FrameCarries goEnv (hdr2013 0x0100)
    ((Register.mk 31 115 [0x4d, 0x41, 0x4e, 0x55, 0x31] [0x4d, 0x2d, 0x31] [0x49, 0x44, 0x30, 0x30, 0x30, 0x30, 0x31] 2
      [0x41, 0x31, 0x32, 0x33, 0x34, 0x35] []).encode goEnv .v2013) (Register.decode goEnv)
    ⟨31, 115, [0x4d, 0x41, 0x4e, 0x55, 0x31], [0x4d, 0x2d, 0x31], [0x49, 0x44, 0x30, 0x30, 0x30, 0x30, 0x31], 2,
      [0x41, 0x31, 0x32, 0x33, 0x34, 0x35], []⟩ :=
  C20_register_2013_partial goEnv (hdr2013 0x0100) (hdr2013_wf _) rfl _ _ rfl rfl (by decide) (by decide)
    ⟨by decide, by decide⟩ ⟨by decide, by decide⟩ ⟨by decide, by decide⟩

/-! ## C65 authentication messages -/

/-- 2013 layout: the whole body is the code. -/
theorem C65_auth_2013 (env : Env) (h : Header) (hw : h.WF) (hv : h.attr.verDesc = .v2013) (code : Str)
    (hc : code.length ≤ 1023) (n : UInt8) (imei sw : Str) :
    FrameCarries env h (AuthMsg.encode h.attr.verDesc ⟨n, code, imei, sw⟩) AuthMsg.decode ⟨0, code, [], []⟩ := by
  have e : AuthMsg.encode h.attr.verDesc ⟨n, code, imei, sw⟩ = code := by simp [AuthMsg.encode, hv]
  rw [e]
  refine .of_reads env hw _ hc _ _ (readsAt_auth_2013 _ code (by simpa [Header.withBodyLength] using hv) ?_)
  simp only [Header.withBodyLength, UInt16.toNat_ofNat']; omega

/-- 2019 layout, with a fifteen-character IMEI and a software version of up to 20.
Missing for the full C65: shorter IMEIs, where it is false (C65_short_imei). -/
theorem C65_auth_2019_partial (env : Env) (h : Header) (hw : h.WF) (hv : h.attr.verDesc = .v2019) (m : AuthMsg)
    (hc : m.code.length ≤ 255) (hn : m.codeLen = UInt8.ofNat m.code.length) (hi : m.imei.length = 15)
    (hs : Fits 20 m.software) : FrameCarries env h (m.encode h.attr.verDesc) AuthMsg.decode m := by
  have hl : (m.encode .v2019).length = 36 + m.code.length := by
    have := hs.1
    simp [AuthMsg.encode, writeString, writeBytes, writeByte, padOnly, hi]
    omega
  rw [hv]
  refine .of_reads env hw _ (by omega) _ _ ?_
  have := readsAt_auth_2019 (h.withBodyLength (m.encode .v2019).length) m (by simpa [Header.withBodyLength] using hv)
    hc hi hs
  rw [← hn] at this
  exact this

/-- The opposite of C65: an IMEI of three characters comes back with twelve NULs. -/
theorem C65_short_imei : AuthMsg.decode (hdr2019 0x0102)
      ⟨AuthMsg.encode .v2019 ⟨2, [0x31, 0x32], [0x33, 0x34, 0x35], [0x56]⟩, []⟩ 0
    = .ok (⟨2, [0x31, 0x32], [0x33, 0x34, 0x35] ++ List.replicate 12 0, [0x56]⟩, 38) := by decide

/-- A code of 256 bytes or more is announced with its length modulo 256. -/
theorem C65_long_code (m : AuthMsg) : (m.encode .v2019).head? = some (UInt8.ofNat m.code.length) := by
  simp [AuthMsg.encode, writeString, writeBytes, writeByte]

example : FrameCarries goEnv (hdr2019 0x0102) (AuthMsg.encode .v2019 ⟨2, [0x31, 0x32], List.replicate 15 0x39, [0x56]⟩)
    AuthMsg.decode ⟨2, [0x31, 0x32], List.replicate 15 0x39, [0x56]⟩ :=
  C65_auth_2019_partial goEnv (hdr2019 0x0102) (hdr2019_wf _) rfl _ (by decide) (by decide) (by decide)
    ⟨by decide, by decide⟩

/-! ## C17 truncated bodies -/

def MType.minLen (t : MType) (v2019 : Bool) : Nat :=
  match t with
  | .t0001 | .t8001 => 5
  | .t0100 => if v2019 then 76 else 25
  | .t0102 => if v2019 then 36 else 0
  | .t0104 | .t8100 => 3
  | .t0200 => 28
  | .t1205 => 34
  | .t8103 => 1
  | .t9205 => 24
  | .t0002 | .t0003 | .t8104 => 0

/-- For the types whose fixed part ends in a BYTE (general replies, registration, parameter messages, registration
replies, media queries), a body shorter than the fixed part is never accepted, whatever memory lies behind it.
Missing for the full C17: 0x0102, 0x0200 and 0x1205, where it is false (C17_truncated_location_accepted). -/
theorem C17_min_length_partial (env : Env) (now : Civil) (h : Header) (id : UInt16) (t : MType)
    (ht : MType.ofID id = some t) (h2 : t ≠ .t0200) (h3 : t ≠ .t1205) (h4 : t ≠ .t0102)
    (body slack : List UInt8) (m : Msg) (j : Nat) (hd : t.decode env now h ⟨body, slack⟩ 0 = .ok (m, j)) :
    minBodyLen id.toNat (h.attr.verDesc = .v2019) ≤ body.length := by
  have hid : ∀ x ∈ msgTable, ∀ v, minBodyLen x.1.toNat v = MType.minLen x.2 v := by decide
  have hm : (id, t) ∈ msgTable := by
    unfold MType.ofID at ht
    obtain ⟨l1, l2, e, -⟩ := List.lookup_eq_some_iff.mp ht
    rw [e]; simp
  rw [show minBodyLen id.toNat _ = MType.minLen t _ from hid (id, t) hm _]
  cases t with
  | t0001 => simpa [MType.minLen] using Needs.first Needs.ack _ _ _ _ hd
  | t0002 => exact Nat.zero_le _
  | t0003 => exact Nat.zero_le _
  | t0100 =>
    have := Needs.first (Needs.register env h) _ _ _ _ hd
    simpa [MType.minLen] using this
  | t0102 => exact absurd rfl h4
  | t0104 => simpa [MType.minLen] using Needs.first (Needs.paramsMsg env h) _ _ _ _ hd
  | t0200 => exact absurd rfl h2
  | t1205 => exact absurd rfl h3
  | t8001 => simpa [MType.minLen] using Needs.first Needs.ack _ _ _ _ hd
  | t8100 => simpa [MType.minLen] using Needs.first (Needs.registerAck h) _ _ _ _ hd
  | t8103 => simpa [MType.minLen] using Needs.first (Needs.setParams env h) _ _ _ _ hd
  | t8104 => exact Nat.zero_le _
  | t9205 => simpa [MType.minLen] using Needs.first (Needs.query now) _ _ _ _ hd

/-- For every type: a message that consumed no more than its body is determined by the body alone.
Missing for the full C17: messages that consumed more. -/
theorem C17_no_outside_bytes_partial (env : Env) (now : Civil) (h : Header) (t : MType) (body slack : List UInt8)
    (m : Msg) (j : Nat) (hd : t.decode env now h ⟨body, slack⟩ 0 = .ok (m, j)) (hj : j ≤ body.length)
    (slack' : List UInt8) : t.decode env now h ⟨body, slack'⟩ 0 = .ok (m, j) := by
  obtain ⟨-, -, h3⟩ := Local.msg env now h t _ _ _ _ hd
  refine h3 ⟨body, slack'⟩ hj ?_
  simp only [Slice.mem]
  rw [List.take_append_of_le_length hj]

/-- The opposite of C17: a location report cut off two bytes before its end is accepted as a frame, and its time is
completed with the checksum byte (0x98) and a zero byte of unused buffer. -/
theorem C17_truncated_location_accepted :
    ∃ pd, decodeFrame goEnv (encodeFrame (writeHeader (hdr2013 0x0200)
        ([0,0,0,0, 0,0,0,3, 1,2,3,4, 5,6,7,8, 0,9, 0,10, 0,9, 0x24, 0x02, 0x29, 0x23] : List UInt8))) = .ok pd ∧
      pd.body.data.length = 26 ∧
      LocMsg.decode pd.body 0 = .ok (⟨0, 3, 0x01020304, 0x05060708, 9, 10, 9,
        digitStr [2,4,0,2,2,9,2,3,9,8,0,0]⟩, 28) := by
  refine ⟨_, rfl, ?_, ?_⟩ <;> decide

-- a general reply of four bytes is refused although the checksum follows it in memory
example : ∃ pd, decodeFrame goEnv (encodeFrame (writeHeader (hdr2013 0x0001) [0, 1, 2, 0])) = .ok pd ∧
    GeneralAck.decode pd.body 0 = .panic := by
  refine ⟨_, rfl, ?_⟩; decide

end JT808
