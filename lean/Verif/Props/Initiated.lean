import Verif.Props.Query
import Verif.Props.Params
import Verif.Props.Fragments
/-
C54, C57: what a terminal decodes from the messages the server sends on its own.
-/
namespace JT808
open Spec

/-! ## C54 -/

/-- The header a terminal of the given version should see: an unencrypted, unfragmented message of `n` bytes. -/
def intendedHeader (ver : Ver) (pv : UInt8) (phone : Str) (id serial : UInt16) (n : Nat) : Header :=
  { msgID := id
    attr := { bodyLength := UInt16.ofNat n, encryption := 0, packetFragmented := 0
              versionSign := if ver = .v2019 then 1 else 0, extra := 0
              encDesc := .none, fragDesc := false, verDesc := if ver = .v2019 then .v2019 else .v2013 }
    protoVer := if ver = .v2019 then pv else 0
    phone := phone, serial := serial, frag := none }

theorem intendedHeader_wf {ver : Ver} {pv : UInt8} {phone : Str} (hp : PhoneWF ver phone) (id serial : UInt16) {n : Nat}
    (hn : n < 1024) : (intendedHeader ver pv phone id serial n).WF := by
  refine ⟨⟨?_, ?_, ?_, ?_, ?_, ?_, ?_, ?_⟩, ?_, ?_, ?_⟩ <;> simp only [intendedHeader]
  · rw [UInt16.toNat_ofNat']; omega
  · decide
  · decide
  · split <;> decide
  · decide
  · rfl
  · rfl
  · by_cases h : ver = .v2019 <;> simp [h]
  · cases ver
    · exact ⟨hp.chars, hp.len⟩
    · exact hp
    · exact hp
  · intro h; split at h
    · exact absurd rfl h
    · rename_i hv; rw [if_neg hv]
  · rfl

theorem genMsgHeader_bytes {ver : Ver} (hv : ver ≠ .v2019) (pv : UInt8) (phone : Str) (id serial : UInt16) (n : Nat) :
    ((genMsgHeader phone ver pv id serial).withBodyLength n).encode = (intendedHeader ver pv phone id serial n).encode := by
  rw [Header.encode_eq, Header.encode_eq]
  have : versionDecode ver = 0 := by cases ver <;> first | rfl | exact absurd rfl hv
  simp [genMsgHeader, Header.withBodyLength, intendedHeader, hv, this, Attr.encode]

/-- The frame of a message generated for a terminal that is not a 2019 one. -/
theorem decode_generated (env : Env) {ver : Ver} (hv : ver ≠ .v2019) (pv : UInt8) {phone : Str} (hp : PhoneWF ver phone)
    (id serial : UInt16) (body : List UInt8) (hb : body.length ≤ 1023) :
    ∃ slack, decodeFrame env (encodeFrame (writeHeader (genMsgHeader phone ver pv id serial) body)) =
      .ok ⟨intendedHeader ver pv phone id serial body.length, ⟨body, slack⟩, 0x7e, false⟩ := by
  unfold writeHeader
  rw [genMsgHeader_bytes hv]
  exact decodeFrame_encodeFrame env (intendedHeader_wf hp id serial (by omega)) body

/-- The bytes the server writes before the body for a 2019 terminal. -/
theorem genMsgHeader_2019 (pv : UInt8) (phone : Str) (id serial : UInt16) (n : Nat) :
    ((genMsgHeader phone .v2019 pv id serial).withBodyLength n).encode =
      put16 id ++ (put16 (intendedHeader .v2019 pv phone id serial n).attr.encode ++
        (numberStr2BCD phone ++ put16 serial)) := by
  rw [Header.encode_eq]
  simp [genMsgHeader, Header.withBodyLength, intendedHeader, versionDecode, Attr.encode]

theorem decode_generated_2019 (env : Env) (pv : UInt8) {phone : Str} (hp : PhoneWF .v2019 phone) (id serial : UInt16)
    (x : UInt8) (rest : List UInt8) (hb : rest.length ≤ 1022) :
    ∃ slack, decodeFrame env (encodeFrame (writeHeader (genMsgHeader phone .v2019 pv id serial) (x :: rest))) =
      .ok ⟨{ msgID := id, attr := (intendedHeader .v2019 pv phone id serial (rest.length + 1)).attr
             protoVer := (numberStr2BCD phone).headD 0
             phone := bcd2NumberStr ((numberStr2BCD phone).tail ++ [(word serial.toNat).headD 0])
             serial := be16 ((word serial.toNat).getLastD 0) x, frag := none },
          ⟨rest, slack⟩, 0x7e, false⟩ := by
  have hw := intendedHeader_wf (pv := pv) hp id serial (n := rest.length + 1) (by omega)
  have hl := numberStr2BCD_phone_length hp
  rw [← put16_word]
  cases hbs : numberStr2BCD phone with
  | nil => rw [hbs] at hl; simp [Ver.phoneBytes] at hl
  | cons b0 bs =>
    rw [hbs] at hl
    simp only [List.length_cons, Ver.phoneBytes] at hl
    obtain ⟨s0, s1, hs⟩ : ∃ s0 s1, put16 serial = [s0, s1] := ⟨_, _, rfl⟩
    rw [hs]
    unfold writeHeader
    rw [genMsgHeader_2019, hbs, hs]
    simp only [List.headD_cons, List.tail_cons, List.getLastD_cons, List.length_cons]
    generalize hattr : (intendedHeader .v2019 pv phone id serial (rest.length + 1)).attr = a at *
    have hwa : a.WF := hattr ▸ hw.attr
    have hver : a.verDesc = .v2019 := by rw [← hattr]; rfl
    have hfr : a.fragDesc = false := by rw [← hattr]; rfl
    let hdr := put16 id ++ (put16 a.encode ++ ([b0] ++ ((bs ++ [s0]) ++ [s1, x])))
    have hsplit : put16 id ++ (put16 a.encode ++ (b0 :: bs ++ [s0, s1])) ++ x :: rest = hdr ++ rest := by
      simp [hdr]
    rw [hsplit]
    have hd : ∀ slack, Header.decode ⟨hdr ++ rest, slack⟩ 0 =
        .ok ({ msgID := id, attr := a, protoVer := b0, phone := bcd2NumberStr (bs ++ [s0]), serial := be16 s1 x, frag := none }, hdr.length) := by
      intro slack
      have : ReadsAt 0 Header.decode hdr
          { msgID := id, attr := a, protoVer := b0, phone := bcd2NumberStr (bs ++ [s0]), serial := be16 s1 x, frag := none } := by
        unfold Header.decode
        refine ReadsAt.bind (readsAt_word _ _) ?_
        refine ReadsAt.bind (readsAt_word _ _) ?_
        simp only [Attr.decode_encode hwa, hver]
        refine ReadsAt.bind (a := b0) ?_ ?_
        · exact readsAt_byte _ _
        refine ReadsAt.bind (a := bcd2NumberStr (bs ++ [s0])) ?_ ?_
        · exact readsAt_bcd _ 10 _ (by simp; omega)
        have h2 : [s1, x] = put16 (be16 s1 x) := (put16_be16' s1 x).symm
        rw [h2]
        refine ReadsAt.bind0 (readsAt_word _ _) ?_
        simp only [hfr]
        exact ReadsAt.bind0 (a := none) (ReadsAt.pure _ _) (ReadsAt.pure _ _)
      have := this [] rest slack rfl
      simpa using this
    have hx : xorSum (genVerifier (hdr ++ rest)) = 0 := by
      rw [genVerifier, xorSum_append, xorAll_eq, xor_eq_zero_iff']; simp [xorSum]
    rw [encodeFrame, escape_eq]
    exact ⟨_, decodeFrame_split env hx hd⟩

/-- Without a body the 2019 terminal's decoder runs past the end of the packet. -/
theorem decode_generated_2019_empty (env : Env) (pv : UInt8) {phone : Str} (hp : PhoneWF .v2019 phone)
    (id serial : UInt16) :
    decodeFrame env (encodeFrame (writeHeader (genMsgHeader phone .v2019 pv id serial) [])) = .panic := by
  have hw := intendedHeader_wf (pv := pv) hp id serial (n := 0) (by omega)
  have hl := numberStr2BCD_phone_length hp
  cases hbs : numberStr2BCD phone with
  | nil => rw [hbs] at hl; simp [Ver.phoneBytes] at hl
  | cons b0 bs =>
    rw [hbs] at hl
    simp only [List.length_cons, Ver.phoneBytes] at hl
    obtain ⟨s0, s1, hs⟩ : ∃ s0 s1, put16 serial = [s0, s1] := ⟨_, _, rfl⟩
    unfold writeHeader
    rw [List.length_nil, genMsgHeader_2019, hbs, hs]
    generalize hattr : (intendedHeader .v2019 pv phone id serial 0).attr = a at *
    have hwa : a.WF := hattr ▸ hw.attr
    have hver : a.verDesc = .v2019 := by rw [← hattr]; rfl
    have hfr : a.fragDesc = false := by rw [← hattr]; rfl
    let pre := put16 id ++ (put16 a.encode ++ ([b0] ++ ((bs ++ [s0]) ++ [s1])))
    have hpre : put16 id ++ (put16 a.encode ++ (b0 :: bs ++ [s0, s1])) ++ [] = pre := by simp [pre]
    rw [hpre]
    have hlen : pre.length = 16 := by simp [pre, put16_length]; omega
    have hx : xorSum (genVerifier pre) = 0 := by
      rw [genVerifier, xorSum_append, xorAll_eq, xor_eq_zero_iff']; simp [xorSum]
    rw [encodeFrame, escape_eq, decodeFrame_frameOf]
    obtain ⟨ck, hck⟩ : ∃ ck, genVerifier pre = pre ++ [ck] := ⟨_, rfl⟩
    rw [hck] at hx ⊢
    generalize hz : List.replicate (env.grow (pre ++ [ck]).length) (0 : UInt8) = zs
    have hv : verify ⟨pre ++ [ck], zs⟩ = .ok ⟨pre, ck :: zs⟩ := by
      rw [verify_ok_iff]
      exact ⟨by simp, hx, ck, rfl, rfl⟩
    simp only [hv]
    -- the reads stay within the capacity, but end one byte behind the packet
    have hd : Header.decode ⟨pre, ck :: zs⟩ 0 =
        .ok ({ msgID := id, attr := a, protoVer := b0, phone := bcd2NumberStr (bs ++ [s0]), serial := be16 s1 ck,
               frag := none }, 17) := by
      let all := put16 id ++ (put16 a.encode ++ ([b0] ++ ((bs ++ [s0]) ++ [s1, ck])))
      have r1 : readWord ⟨pre, ck :: zs⟩ 0 = .ok (id, 2) := readsAt_word 0 id [] _ _ rfl
      have r2 : readWord ⟨pre, ck :: zs⟩ 2 = .ok (a.encode, 4) := by
        have := readsAt_word 2 a.encode (put16 id) ([b0] ++ ((bs ++ [s0]) ++ [s1])) (ck :: zs) rfl
        rw [List.append_assoc] at this
        exact this
      have r3 : readByte ⟨pre, ck :: zs⟩ 4 = .ok (b0, 5) := by
        have := readsAt_byte 4 b0 (put16 id ++ put16 a.encode) ((bs ++ [s0]) ++ [s1]) (ck :: zs) rfl
        rw [List.append_assoc, List.append_assoc] at this
        exact this
      have r4 : readBCD 10 ⟨pre, ck :: zs⟩ 5 = .ok (bcd2NumberStr (bs ++ [s0]), 15) := by
        have h10 : (bs ++ [s0]).length = 10 := by simp; omega
        have := readsAt_bcd 5 10 (bs ++ [s0]) (by rw [h10]; rfl) (put16 id ++ put16 a.encode ++ [b0]) [s1] (ck :: zs) rfl
        simp only [List.append_assoc] at this
        rw [h10] at this
        simpa only [pre, List.append_assoc] using this
      have r5 : readWord ⟨pre, ck :: zs⟩ 15 = .ok (be16 s1 ck, 17) := by
        have hm : (Slice.mk pre (ck :: zs)).mem = all ++ zs := by simp [Slice.mem, pre, all]
        have hal : all.length = 17 := by simp [all, put16_length]; omega
        have h15 : all = (put16 id ++ (put16 a.encode ++ ([b0] ++ (bs ++ [s0])))) ++ [s1, ck] := by simp [all]
        have h15l : (put16 id ++ (put16 a.encode ++ ([b0] ++ (bs ++ [s0])))).length = 15 := by
          simp [put16_length]; omega
        rw [readWord_ok _ _ (by rw [hm, List.length_append, hal]; omega), hm, h15]
        generalize put16 id ++ (put16 a.encode ++ ([b0] ++ (bs ++ [s0]))) = q at h15l
        simp [List.getD, h15l, List.getElem?_append]
      unfold Header.decode
      simp only [rd_bind_eq, r1, r2, Attr.decode_encode hwa, hver, Header.decodePV, Header.decodePhone, if_true, r3, r4,
        r5, hfr, Header.decodeFrag]
      rfl
    simp only [hd, Slice.from', hlen]
    rfl

/-- The serial number the next message on a connection gets. -/
def Sys.nextSerialOn (s : Sys) (c : Conn) : UInt16 := (nextSerial (s.st.serial c.id)).2

/-- Sending through the HTTP API to a terminal with a session. -/
theorem apiSend_sent {env : Env} {st : Store} {r : Ref} {id : UInt16} {m : Msg} {c : Conn} {body : List UInt8}
    (hs : st.session (st.heap r).sessionID = some c) (ha : c.addr = (st.heap r).sessionID)
    (hb : ∀ h, m.encodeBody env h = .ok body) :
    (st.apiSend env none r none id m).2 = ⟨some (c, encodeFrame (writeHeader
      (genMsgHeader (st.heap r).phone (st.heap r).ver (st.heap r).protoVer id (nextSerial (st.serial c.id)).2) body)),
      false, some 200⟩ := by
  have e : (st.takeSerial c).1.session c.addr = some c := by rw [ha]; exact hs
  simp only [Store.apiSend, hs, Store.serverSend, e, Out.encode, hb]
  rfl

/-- What the two requests that make the server send put on the wire, after any history. -/
theorem sends {env : Env} {evs : List Ev} {p : Str} {d : Device} {c : Conn}
    (hd : (Sys.start.run env evs).1.st.look p = some d)
    (hs : (Sys.start.run env evs).1.st.session d.sessionID = some c) :
    ((Sys.start.run env evs).1.step env (.httpQuery p none)).2 = ⟨some (c, encodeFrame (writeHeader
        (genMsgHeader p d.ver d.protoVer 0x8104 ((Sys.start.run env evs).1.nextSerialOn c)) [])), false, some 200⟩ ∧
    ∀ bound body, SetParams.encode env ⟨0, bound⟩ = .ok body →
      ((Sys.start.run env evs).1.step env (.httpSet p bound false none)).2 = ⟨some (c, encodeFrame (writeHeader
        (genMsgHeader p d.ver d.protoVer 0x8103 ((Sys.start.run env evs).1.nextSerialOn c)) body)), false, some 200⟩ := by
  have hi := reachable_inv env evs
  have ha := ((reachable_sess env evs).served _ _ hs).2
  obtain ⟨r, hr, rfl⟩ := Store.look_some.1 hd
  have hp : ((Sys.start.run env evs).1.st.heap r).phone = p := (hi.1.phoneOK p r hr).2.1
  have hc : ¬ (Sys.start.run env evs).1.crashed = true := by rw [hi.2]; simp
  constructor
  · unfold Sys.step
    rw [if_neg hc]
    have := apiSend_sent (env := env) (id := 0x8104) (m := .m8104) hs ha (fun _ => rfl)
    simp only [Store.apiQuery, hr, Store.devByPhone]
    rw [this, hp]; rfl
  · intro bound body hb
    unfold Sys.step
    rw [if_neg hc]
    have := apiSend_sent (env := env) (id := 0x8103) (m := .m8103 ⟨0, bound⟩) hs ha (fun _ => hb)
    simp only [Store.apiSet, hr, Store.devByPhone]
    rw [if_neg (by simp), this, hp]; rfl

/-- What holds of C54: after any history, the parameter query for a registered terminal that is not a 2019 one and has a
session is sent on that session's connection, and the terminal decodes it to the intended header; likewise a parameter
setting whose items encode to at most 1023 bytes.  Missing: 2019 terminals, for which it is false
(C54_2019_query_panics, C54_2019_set_misread). -/
theorem C54_2013_partial (env : Env) (evs : List Ev) (p : Str) (d : Device) (c : Conn)
    (hd : (Sys.start.run env evs).1.st.look p = some d) (hv : d.ver ≠ .v2019) (hp : PhoneWF d.ver p)
    (hs : (Sys.start.run env evs).1.st.session d.sessionID = some c) :
    (∃ f pd, ((Sys.start.run env evs).1.step env (.httpQuery p none)).2 = ⟨some (c, f), false, some 200⟩ ∧
      decodeFrame env f = .ok pd ∧
      pd.header = intendedHeader d.ver d.protoVer p 0x8104 ((Sys.start.run env evs).1.nextSerialOn c) 0 ∧
      pd.body.data = []) ∧
    ∀ bound body, SetParams.encode env ⟨0, bound⟩ = .ok body → body.length ≤ 1023 →
      ∃ f pd, ((Sys.start.run env evs).1.step env (.httpSet p bound false none)).2 = ⟨some (c, f), false, some 200⟩ ∧
        decodeFrame env f = .ok pd ∧
        pd.header =
          intendedHeader d.ver d.protoVer p 0x8103 ((Sys.start.run env evs).1.nextSerialOn c) body.length ∧
        pd.body.data = body := by
  obtain ⟨h1, h2⟩ := sends hd hs
  constructor
  · obtain ⟨sl, e⟩ := decode_generated env hv d.protoVer hp 0x8104 ((Sys.start.run env evs).1.nextSerialOn c) []
      (by decide)
    exact ⟨_, _, h1, e, rfl, rfl⟩
  · intro bound body hb hl
    obtain ⟨sl, e⟩ := decode_generated env hv d.protoVer hp 0x8103 ((Sys.start.run env evs).1.nextSerialOn c) body hl
    exact ⟨_, _, h2 bound body hb, e, rfl, rfl⟩

/-- The opposite of C54 for 2019 terminals: whatever the terminal's phone and the serial number, the parameter query
makes a decoder of this library panic. -/
theorem C54_2019_query_panics (env : Env) (evs : List Ev) (p : Str) (d : Device) (c : Conn)
    (hd : (Sys.start.run env evs).1.st.look p = some d) (hv : d.ver = .v2019) (hp : PhoneWF .v2019 p)
    (hs : (Sys.start.run env evs).1.st.session d.sessionID = some c) :
    ∃ f, ((Sys.start.run env evs).1.step env (.httpQuery p none)).2 = ⟨some (c, f), false, some 200⟩ ∧
      decodeFrame env f = .panic := by
  obtain ⟨h1, -⟩ := sends hd hs
  rw [hv] at h1
  exact ⟨_, h1, decode_generated_2019_empty env _ hp _ _⟩

theorem setParams_body {env : Env} {bound : DeviceParams} {body : List UInt8}
    (hb : SetParams.encode env ⟨0, bound⟩ = .ok body) :
    ∃ rest, ParamData.encodeAll env bound.params = .ok rest ∧ body = bound.cnt :: rest := by
  unfold SetParams.encode DeviceParams.encode at hb
  cases h : ParamData.encodeAll env bound.params with
  | ok bs =>
    rw [h] at hb
    injection hb with hb
    exact ⟨bs, rfl, by rw [← hb]; rfl⟩
  | err e => rw [h] at hb; cases hb
  | panic => rw [h] at hb; cases hb

/-- And a parameter setting always loses its first byte, the number of parameters, to the header, whose serial number
takes its place. -/
theorem C54_2019_set_misread (env : Env) (evs : List Ev) (p : Str) (d : Device) (c : Conn)
    (hd : (Sys.start.run env evs).1.st.look p = some d) (hv : d.ver = .v2019) (hp : PhoneWF .v2019 p)
    (hs : (Sys.start.run env evs).1.st.session d.sessionID = some c) (bound : DeviceParams) (body : List UInt8)
    (hb : SetParams.encode env ⟨0, bound⟩ = .ok body) (hl : body.length ≤ 1023) :
    ∃ f pd, ((Sys.start.run env evs).1.step env (.httpSet p bound false none)).2 = ⟨some (c, f), false, some 200⟩ ∧
      decodeFrame env f = .ok pd ∧ pd.body.data = body.tail ∧
      pd.header.serial.toNat =
        ((Sys.start.run env evs).1.nextSerialOn c).toNat % 256 * 256 + bound.cnt.toNat := by
  obtain ⟨-, h2⟩ := sends hd hs
  have h2 := h2 bound body hb
  rw [hv] at h2
  obtain ⟨rest, -, rfl⟩ := setParams_body hb
  obtain ⟨sl, e⟩ := decode_generated_2019 env d.protoVer hp 0x8103 ((Sys.start.run env evs).1.nextSerialOn c) bound.cnt
    rest (by simpa using hl)
  refine ⟨_, _, h2, e, rfl, ?_⟩
  rw [be16_toNat]
  simp [word]

/-- The acknowledgement of a middle fragment, which also has its own header: a terminal that is not a 2019 one decodes
it to the intended header and body. -/
theorem C54_fragment_ack_partial (env : Env) (clk : Clock) (c : Conn) (st : Store) (frame : List UInt8)
    (pd : Packet) (f : Frag) (hd : decodeFrame env frame = .ok pd) (hf : pd.header.isFragmented = true)
    (hg : pd.header.frag = some f) (s : Segment)
    (hs : st.segs.get (segKey pd.header.phone pd.header.msgID) = some s) (hl : f.index ≠ s.total)
    (hi : pd.header.msgID.toNat ∈ supportedIDs) (d : Device) (hp : st.look pd.header.phone = some d) (c' : Conn)
    (hc : st.session d.sessionID = some c') (hv : d.ver ≠ .v2019) (hw : PhoneWF d.ver d.phone) :
    ∃ st' f' pd', st.handleFrame env clk c frame = (st', .reply f') ∧ decodeFrame env f' = .ok pd' ∧
      pd'.header = intendedHeader d.ver d.protoVer d.phone 0x8001 (nextSerial (st.serial c'.id)).2 5 ∧
      pd'.body.data = ackBody pd.header.serial.toNat pd.header.msgID.toNat 0 := by
  obtain ⟨st', e⟩ := middle_reply env clk c st frame pd f hd hf hg s hs hl hi d hp c' hc
  obtain ⟨sl, e'⟩ := decode_generated env hv d.protoVer hw 0x8001 (nextSerial (st.serial c'.id)).2
    (ackBody pd.header.serial.toNat pd.header.msgID.toNat 0) (by show 5 ≤ 1023; decide)
  exact ⟨st', _, _, e, e', rfl, rfl⟩

/-- A 2019 terminal decodes the acknowledgement with its body cut to four bytes. -/
theorem C54_2019_fragment_ack_misread (env : Env) (clk : Clock) (c : Conn) (st : Store) (frame : List UInt8)
    (pd : Packet) (f : Frag) (hd : decodeFrame env frame = .ok pd) (hf : pd.header.isFragmented = true)
    (hg : pd.header.frag = some f) (s : Segment)
    (hs : st.segs.get (segKey pd.header.phone pd.header.msgID) = some s) (hl : f.index ≠ s.total)
    (hi : pd.header.msgID.toNat ∈ supportedIDs) (d : Device) (hp : st.look pd.header.phone = some d) (c' : Conn)
    (hc : st.session d.sessionID = some c') (hv : d.ver = .v2019) (hw : PhoneWF .v2019 d.phone) :
    ∃ st' f' pd', st.handleFrame env clk c frame = (st', .reply f') ∧ decodeFrame env f' = .ok pd' ∧
      pd'.body.data = (ackBody pd.header.serial.toNat pd.header.msgID.toNat 0).tail := by
  obtain ⟨st', e⟩ := middle_reply env clk c st frame pd f hd hf hg s hs hl hi d hp c' hc
  rw [hv] at e
  obtain ⟨x, rest, hx⟩ : ∃ x rest, ackBody pd.header.serial.toNat pd.header.msgID.toNat 0 = x :: rest := ⟨_, _, rfl⟩
  have hlen : (x :: rest).length = 5 := by rw [← hx]; rfl
  rw [hx] at e ⊢
  obtain ⟨sl, e'⟩ := decode_generated_2019 env d.protoVer hw 0x8001 (nextSerial (st.serial c'.id)).2 x rest
    (by simp at hlen; omega)
  exact ⟨st', _, _, e, e', rfl⟩

/-- A 2019 terminal connects and registers. -/
def demo19Evs : List Ev := [.accept [0x61], .accept [0x62], .frame (demoClk 1000) demoC
  (msgFrame (hdr2019 0x0100) (demoRegMsg.encode goEnv .v2019)) none]

-- both kinds of terminals are registered and have a session
example : (demoSys.st.look (hdr2013 0).phone).map (fun d => (d.ver, demoSys.st.session d.sessionID)) =
    some (.v2013, some demoC) ∧ PhoneWF .v2013 (hdr2013 0).phone :=
  ⟨by decide +kernel, (hdr2013_wf 0).phone⟩
example : let s := (Sys.start.run goEnv demo19Evs).1
    (s.st.look (hdr2019 0).phone).map (fun d => (d.ver, s.st.session d.sessionID)) = some (.v2019, some demoC) ∧
    PhoneWF .v2019 (hdr2019 0).phone :=
  ⟨by decide +kernel, (hdr2019_wf 0).phone⟩
-- and a setting with one parameter encodes
example : SetParams.encode goEnv ⟨0, ⟨[], 1, [⟨0x0001, 0, .num 30⟩]⟩⟩ = .ok [1, 0,0,0,1, 4, 0,0,0,30] := rfl

/-! ## C57 -/

/-- What holds of C57: after any history, a PUT of parameters that survive encoding (`ListRoundtrip`) with a right count,
for a registered terminal that is not a 2019 one and has a session, reaches it as that list.  Missing: 2019 terminals
(C57_2019_nothing_set), and the parameters C24 excludes. -/
theorem C57_put_partial (env : Env) (now : Civil) (evs : List Ev) (p : Str) (d : Device) (c : Conn)
    (hd : (Sys.start.run env evs).1.st.look p = some d) (hv : d.ver ≠ .v2019) (hp : PhoneWF d.ver p)
    (hs : (Sys.start.run env evs).1.st.session d.sessionID = some c)
    (ps qs : List ParamData) (bs : List UInt8) (hr : ListRoundtrip env ps qs bs) (hn : ps.length ≤ 255)
    (hb : bs.length ≤ 1022) (ph : Str) :
    ∃ f h, ((Sys.start.run env evs).1.step env (.httpSet p ⟨ph, UInt8.ofNat ps.length, ps⟩ false none)).2 =
        ⟨some (c, f), false, some 200⟩ ∧
      Holds env now f h (.m8103 ⟨UInt8.ofNat ps.length, ⟨p, UInt8.ofNat ps.length, qs⟩⟩) := by
  obtain ⟨-, h2⟩ := sends hd hs
  have he : SetParams.encode env ⟨0, ⟨ph, UInt8.ofNat ps.length, ps⟩⟩ = .ok (UInt8.ofNat ps.length :: bs) := by
    simp [SetParams.encode, DeviceParams.encode, hr.encode, writeBytes, writeByte]
  have h2 := h2 _ _ he
  let h0 := intendedHeader d.ver d.protoVer p 0x8103 ((Sys.start.run env evs).1.nextSerialOn c) (bs.length + 1)
  have hw : h0.WF := intendedHeader_wf hp _ _ (by omega)
  obtain ⟨body, -, rfl, pd, e1, e2, e3, e4⟩ := C24_set_message_partial env h0 hw ps qs bs hr hn hb 0
  have hbytes : encodeFrame (writeHeader h0 (UInt8.ofNat ps.length :: bs)) = encodeFrame (writeHeader
      (genMsgHeader p d.ver d.protoVer 0x8103 ((Sys.start.run env evs).1.nextSerialOn c)) (UInt8.ofNat ps.length :: bs)) := by
    unfold writeHeader
    rw [genMsgHeader_bytes hv]
    rfl
  rw [hbytes] at e1
  refine ⟨_, pd.header, h2, pd, .t8103, (UInt8.ofNat ps.length :: bs).length, e1, rfl, ?_, ?_, ?_⟩
  · rw [e2]; rfl
  · rw [e2]; rfl
  · have hph : h0.phone = p := rfl
    rw [hph] at e4
    show Rd.bind (SetParams.decode env pd.header) _ pd.body 0 = _
    unfold Rd.bind
    rw [e4]
    rfl

/-- The first byte of any encoded parameter list is the high byte of a supported id, which is zero. -/
theorem encodeAll_head {env : Env} {ps : List ParamData} {bs : List UInt8} (h : ParamData.encodeAll env ps = .ok bs)
    (hn : bs ≠ []) : ∃ rest, bs = 0 :: rest := by
  induction ps generalizing bs with
  | nil => injection h with h; exact absurd h.symm hn
  | cons p ps ih =>
    unfold ParamData.encodeAll at h
    cases hp : p.encode env with
    | panic => simp [hp] at h
    | err e => simp only [hp] at h; exact ih h hn
    | ok b =>
      have hb : ∃ r, b = 0 :: r := by
        unfold ParamData.encode at hp
        cases hk : argTable p.id with
        | none => simp [hk] at hp
        | some k =>
          have hid : p.id.toNat < 65536 := by
            have : ∀ x ∈ argList, x.1.toNat < 65536 := by decide
            exact this _ (lookup_mem _ _ _ hk)
          simp only [hk] at hp
          cases hv : k.encode env p.value with
          | err e => simp [hv] at hp
          | panic => simp [hv] at hp
          | ok v =>
            simp only [hv] at hp
            injection hp with hp
            have h0 : UInt8.ofNat (p.id.toNat / 16777216) = 0 := by
              rw [Nat.div_eq_of_lt (by omega)]; rfl
            rw [← hp]
            simp only [writeBytes, writeByte, writeDWord, List.nil_append, put32_dword, dword, h0, List.cons_append]
            exact ⟨_, rfl⟩
      obtain ⟨r, rfl⟩ := hb
      simp only [hp] at h
      cases ht : ParamData.encodeAll env ps with
      | ok t => simp only [ht] at h; injection h with h; exact ⟨_, h.symm⟩
      | err e => simp [ht] at h
      | panic => simp [ht] at h

/-- The opposite of C57 for 2019 terminals: whatever supported parameters are PUT, the terminal decodes a setting of no
parameters at all. -/
theorem C57_2019_nothing_set (env : Env) (now : Civil) (evs : List Ev) (p : Str) (d : Device) (c : Conn)
    (hd : (Sys.start.run env evs).1.st.look p = some d) (hv : d.ver = .v2019) (hp : PhoneWF .v2019 p)
    (hs : (Sys.start.run env evs).1.st.session d.sessionID = some c) (bound : DeviceParams) (bs : List UInt8)
    (hb : ParamData.encodeAll env bound.params = .ok bs) (hl : bs.length ≤ 1022) (hn : bs ≠ []) :
    ∃ f h ph, ((Sys.start.run env evs).1.step env (.httpSet p bound false none)).2 = ⟨some (c, f), false, some 200⟩ ∧
      Holds env now f h (.m8103 ⟨0, ⟨ph, 0, []⟩⟩) := by
  obtain ⟨-, h2⟩ := sends hd hs
  have he : SetParams.encode env ⟨0, bound⟩ = .ok (bound.cnt :: bs) := by
    simp [SetParams.encode, DeviceParams.encode, hb, writeBytes, writeByte]
  have h2 := h2 _ _ he
  rw [hv] at h2
  obtain ⟨rest, rfl⟩ := encodeAll_head hb hn
  obtain ⟨sl, e⟩ := decode_generated_2019 env d.protoVer hp 0x8103 ((Sys.start.run env evs).1.nextSerialOn c) bound.cnt
    (0 :: rest) hl
  exact ⟨_, _, _, h2, _, .t8103, _, e, rfl, rfl, rfl, rfl⟩

example : ParamData.encodeAll goEnv [⟨0x0001, 0, .num 30⟩] = .ok [0,0,0,1, 4, 0,0,0,30] := rfl

end JT808
