import Verif.Proof.Codec
/-
C09, C14, C15, C16, C18: attribute word, header, whole packets.
-/
namespace JT808
open Spec

/-! ## C14 the attribute word -/

/-- Every field is the run of bits the protocol assigns to it. -/
theorem C14_decode_bits (w : UInt16) :
    (Attr.decode w).bodyLength.toNat = bits w.toNat 0 10 ∧
    (Attr.decode w).encryption.toNat = bits w.toNat 10 3 ∧
    (Attr.decode w).packetFragmented.toNat = bits w.toNat 13 1 ∧
    (Attr.decode w).versionSign.toNat = bits w.toNat 14 1 ∧
    (Attr.decode w).extra.toNat = bits w.toNat 15 1 :=
  ⟨Attr.decode_bodyLength w, Attr.decode_encryption w, Attr.decode_packetFragmented w,
    Attr.decode_versionSign w, Attr.decode_extra w⟩

/-- The derived fields: version 2019 iff bit 14, fragmented iff bit 13, encryption none/RSA iff 0/1. -/
theorem C14_decode_descriptions (w : UInt16) :
    ((Attr.decode w).verDesc = .v2019 ↔ w.toNat.testBit 14 = true) ∧
    ((Attr.decode w).verDesc = .v2013 ↔ w.toNat.testBit 14 = false) ∧
    ((Attr.decode w).fragDesc = w.toNat.testBit 13) ∧
    ((Attr.decode w).encDesc = .none ↔ bits w.toNat 10 3 = 0) ∧
    ((Attr.decode w).encDesc = .rsa ↔ bits w.toNat 10 3 = 1) := by
  have hw := Attr.decode_wf w
  have h14 : w.toNat.testBit 14 = decide ((Attr.decode w).versionSign.toNat = 1) := by
    rw [Nat.testBit_eq_decide_div_mod_eq, Attr.decode_versionSign]; rfl
  have h13 : w.toNat.testBit 13 = decide ((Attr.decode w).packetFragmented.toNat = 1) := by
    rw [Nat.testBit_eq_decide_div_mod_eq, Attr.decode_packetFragmented]; rfl
  have e1 : ((Attr.decode w).versionSign = 1) ↔ (Attr.decode w).versionSign.toNat = 1 := by
    rw [← UInt8.toNat_inj]; rfl
  have e2 : ((Attr.decode w).packetFragmented = 1) ↔ (Attr.decode w).packetFragmented.toNat = 1 := by
    rw [← UInt8.toNat_inj]; rfl
  have e3 : ((Attr.decode w).encryption = 0) ↔ bits w.toNat 10 3 = 0 := by
    rw [← Attr.decode_encryption, ← UInt8.toNat_inj]; rfl
  have e4 : ((Attr.decode w).encryption = 1) ↔ bits w.toNat 10 3 = 1 := by
    rw [← Attr.decode_encryption, ← UInt8.toNat_inj]; rfl
  rw [h14, h13, hw.verD, hw.fragD, hw.encD, ← e3, ← e4]
  refine ⟨?_, ?_, ?_, ?_, ?_⟩
  · by_cases h : (Attr.decode w).versionSign = 1
    · simp [h]
    · have := mt e1.mpr h; simp [h, this]
  · by_cases h : (Attr.decode w).versionSign = 1
    · simp [h]
    · have := mt e1.mpr h; simp [h, this]
  · by_cases h : (Attr.decode w).packetFragmented = 1
    · simp [h]
    · have := mt e2.mpr h; simp [h, this]
  · by_cases h : (Attr.decode w).encryption = 0
    · simp [h]
    · by_cases h' : (Attr.decode w).encryption = 1 <;> simp [h, h']
  · by_cases h : (Attr.decode w).encryption = 0
    · simp [h]
    · by_cases h' : (Attr.decode w).encryption = 1 <;> simp [h, h']

/-- Encoding what was decoded gives the same word. -/
theorem C14_reencode (w : UInt16) : (Attr.decode w).encode = w := Attr.encode_decode w

/-- Encoding in-range fields gives the protocol's word. -/
theorem C14_encode_word (a : Attr) (h1 : a.bodyLength.toNat < 2 ^ 10) (h2 : a.encryption.toNat < 2 ^ 3)
    (h3 : a.packetFragmented.toNat < 2) (h4 : a.versionSign.toNat < 2) (h5 : a.extra.toNat < 2) :
    a.encode.toNat = attrWord a.bodyLength.toNat a.encryption.toNat a.packetFragmented.toNat
      a.versionSign.toNat a.extra.toNat := Attr.encode_toNat a h1 h2 h3 h4 h5

-- 0xE421: reserved 1, version 1, fragmented 1, encryption 1, length 33
example : Attr.decode 0xE421 = ⟨33, 1, 1, 1, 1, .rsa, true, .v2019⟩ := by decide
example : (Attr.decode 0xE421).encode = 0xE421 := by decide

/-! ## C15 headers -/

/-- A header whose phone fills its field, decoded from its encoding anywhere in a packet. -/
theorem C15_header_roundtrip (h : Header) (hw : h.WF) (pre post slack : List UInt8) :
    Header.decode ⟨pre ++ h.encode ++ post, slack⟩ pre.length = .ok (h, pre.length + h.encode.length) ∧
    h.encode.length = headerLen (h.attr.verDesc = .v2019) h.attr.fragDesc :=
  ⟨readsAt_header pre.length hw pre post slack rfl, Header.encode_length hw⟩

/-- Characters of a digit list. -/
def digitStr (ds : List Nat) : Str := ds.map fun d => 0x30 + UInt8.ofNat d

theorem digitStr_bcd {ds : List Nat} (h : ∀ d ∈ ds, d < 10) : ∀ c ∈ digitStr ds, bcdChar c := by
  intro c hc
  obtain ⟨d, hd, rfl⟩ := List.mem_map.mp hc
  have key : ∀ d, d < 10 → bcdChar (0x30 + UInt8.ofNat d) := by decide +kernel
  exact key d (h d hd)

theorem str2Byte_digitStr (ds : List Nat) (h : ∀ d ∈ ds, d < 10) : str2Byte (digitStr ds) = packBcd ds := by
  match ds with
  | [] => rfl
  | [_] => rfl
  | a :: b :: rest =>
    have key : ∀ a, a < 10 → hexVal (0x30 + UInt8.ofNat a) = some (UInt8.ofNat a) := by decide +kernel
    have ha := h a (by simp)
    have hb := h b (by simp)
    have ih := str2Byte_digitStr rest (fun d hd => h d (by simp [hd]))
    simp only [digitStr, List.map_cons, str2Byte, key a ha, key b hb, packBcd]
    rw [← ih]
    simp only [List.cons.injEq]
    refine ⟨?_, rfl⟩
    rw [UInt8.ofNat_add, UInt8.ofNat_mul]; rfl

theorem put16_word (n : UInt16) : put16 n = word n.toNat := by
  have := n.toNat_lt
  unfold put16 word
  congr 1
  · apply UInt8.toNat_inj.mp
    simp only [UInt16.toNat_toUInt8, UInt16.toNat_shiftRight, UInt8.toNat_ofNat']
    have h8 : (8 : UInt16).toNat % 16 = 8 := by decide
    rw [h8, Nat.shiftRight_eq_div_pow]
  · congr 1
    apply UInt8.toNat_inj.mp
    simp only [UInt16.toNat_toUInt8, UInt8.toNat_ofNat']
    omega

/-- The encoding is the protocol's header layout. -/
theorem C15_layout (h : Header) (hw : h.WF) (ds : List Nat) (hds : ∀ d ∈ ds, d < 10) (hp : h.phone = digitStr ds) :
    h.encode = headerBytes h.msgID.toNat
      (attrWord h.attr.bodyLength.toNat h.attr.encryption.toNat h.attr.packetFragmented.toNat
        h.attr.versionSign.toNat h.attr.extra.toNat)
      (if h.attr.versionSign.toNat = 1 then some h.protoVer.toNat else none) ds h.serial.toNat
      (h.frag.map fun f => (f.total.toNat, f.index.toNat)) := by
  have hl := hw.phone.len
  have hl8 : 8 ≤ h.phone.length := by
    have : 6 ≤ h.attr.verDesc.phoneBytes := by cases h.attr.verDesc <;> decide
    omega
  have hb : numberStr2BCD h.phone = packBcd ds := by
    unfold numberStr2BCD
    have : 8 - h.phone.length = 0 := by omega
    rw [this, hp]
    simpa using str2Byte_digitStr ds hds
  have hv : h.attr.verDesc = .v2019 ↔ h.attr.versionSign.toNat = 1 := by
    rw [hw.attr.verD]
    have e1 : (h.attr.versionSign = 1) ↔ h.attr.versionSign.toNat = 1 := by
      rw [← UInt8.toNat_inj]; rfl
    rw [← e1]
    by_cases hx : h.attr.versionSign = 1 <;> simp [hx]
  rw [Header.encode_eq, hb]
  simp only [put16_word, headerBytes,
    Attr.encode_toNat _ hw.attr.len hw.attr.enc hw.attr.frag hw.attr.ver hw.attr.ext, hv]
  have hf : ∀ f : Frag, f.encode = word f.total.toNat ++ word f.index.toNat := by
    intro f; simp [Frag.encode, writeWord, put16_word]
  by_cases h1 : h.attr.versionSign.toNat = 1 <;> cases h.frag <;> simp [h1, hf, List.append_assoc]

/-- A decoded header whose phone number fills its field (no F digit in it) re-encodes to exactly the bytes it
came from. -/
theorem C15_reencode (hdr body slack : List UInt8) (h : Header)
    (hd : Header.decode ⟨hdr ++ body, slack⟩ 0 = .ok (h, hdr.length))
    (hl : h.phone.length = if h.attr.versionSign = 1 then 20 else 12) :
    h.encode = hdr := by
  obtain ⟨hw, -, -, -, he⟩ := Header.decode_facts hd
  have : h.phone.length = 2 * h.attr.verDesc.phoneBytes := by
    rw [hl, hw.verD]; split <;> rfl
  rw [← he this]
  simp [Slice.mem]

-- 2019 layout, fragment 2 of 3
example : (Header.mk 0x0200 ⟨5, 0, 1, 1, 0, .none, true, .v2019⟩ 1 (digitStr [0,0,0,0,0,0,0,0,0,1,3,8,0,0,1,3,8,0,0,0])
    7 (some ⟨3, 2⟩)).WF :=
  ⟨⟨by decide, by decide, by decide, by decide, by decide, by decide, by decide, by decide⟩,
    ⟨by decide, by decide⟩, by decide, by decide⟩
example : Header.decode ⟨[2, 0, 0, 5, 1, 0x38, 0, 0x13, 0x80, 0, 0, 7, 9, 9, 9, 9, 9], []⟩ 0 =
    .ok (⟨0x0200, ⟨5, 0, 0, 0, 0, .none, false, .v2013⟩, 0, digitStr [0,1,3,8,0,0,1,3,8,0,0,0], 7, none⟩, 12) := by
  decide

/-! ## C16 truncated headers -/

/-- The attribute word of a packet. -/
def attrAt (p : List UInt8) : Nat := (p.getD 2 0).toNat * 256 + (p.getD 3 0).toNat

theorem attr_testBit (a b : UInt8) :
    decide ((Attr.decode (be16 a b)).verDesc = .v2019) = (a.toNat * 256 + b.toNat).testBit 14 ∧
    (Attr.decode (be16 a b)).fragDesc = (a.toNat * 256 + b.toNat).testBit 13 := by
  have h := C14_decode_descriptions (be16 a b)
  rw [be16_toNat] at h
  obtain ⟨h1, -, h3, -⟩ := h
  refine ⟨?_, h3⟩
  by_cases hv : (Attr.decode (be16 a b)).verDesc = .v2019
  · simp [hv, h1.mp hv]
  · have := mt h1.mpr hv
    simp [hv, Bool.eq_false_iff.mpr this]

theorem headerLen_ge (a b : Bool) : 12 ≤ headerLen a b := by
  unfold headerLen; split <;> omega

/-- A frame is decoded exactly if its checksum is right and its packet, without the checksum byte, is at
least as long as the header layout its attribute word asks for. -/
theorem C16_accepted_iff (env : Env) (p : List UInt8) :
    (∃ pd, decodeFrame env (frameOf p) = .ok pd) ↔
      xorSum p = 0 ∧ headerLen ((attrAt p).testBit 14) ((attrAt p).testBit 13) + 1 ≤ p.length := by
  rw [decodeFrame_frameOf]
  constructor
  · rintro ⟨pd, h⟩
    cases hv : verify ⟨p, List.replicate (env.grow p.length) 0⟩ with
    | err e => simp [hv] at h
    | panic => simp [hv] at h
    | ok r =>
      simp only [hv] at h
      obtain ⟨hne, hx, c, hc, hs⟩ := (verify_ok_iff _ _).mp hv
      simp only at hne hx hc hs
      refine ⟨hx, ?_⟩
      cases hd : Header.decode r 0 with
      | err e => simp [hd] at h
      | panic => simp [hd] at h
      | ok x =>
        obtain ⟨hh, j⟩ := x
        simp only [hd] at h
        obtain ⟨-, ha, hj⟩ := Header.decode_inv hd
        have hjl : j ≤ r.data.length := by
          unfold Slice.from' at h
          by_cases hc' : j ≤ r.data.length
          · exact hc'
          · simp [hc'] at h
        rw [ha] at hj
        have e := attr_testBit (r.mem.getD 2 0) (r.mem.getD 3 0)
        rw [e.1, e.2] at hj
        have h12 := headerLen_ge ((attrAt p).testBit 14) ((attrAt p).testBit 13)
        have h12' : 12 ≤ j := by rw [hj]; exact headerLen_ge _ _
        have g : ∀ i, i < 12 → r.mem.getD i 0 = p.getD i 0 := by
          intro i hi
          rw [getD_mem r (by omega)]
          simp [hc, List.getD, List.getElem?_append_left (show i < r.data.length by omega)]
        rw [g 2 (by omega), g 3 (by omega)] at hj
        have hl : p.length = r.data.length + 1 := by rw [hc]; simp
        unfold attrAt
        rw [← hj, hl]
        omega
  · rintro ⟨hx, hl⟩
    have h12 := headerLen_ge ((attrAt p).testBit 14) ((attrAt p).testBit 13)
    have hne : p ≠ [] := by intro h; subst h; simp at hl
    obtain ⟨d, c, rfl⟩ : ∃ d c, p = d ++ [c] := by
      rcases List.eq_nil_or_concat p with h | ⟨d, c, h⟩
      · exact absurd h hne
      · exact ⟨d, c, by rw [h, List.concat_eq_append]⟩
    generalize hsl : List.replicate (env.grow (d ++ [c]).length) (0 : UInt8) = sl
    have hv : verify ⟨d ++ [c], sl⟩ = .ok ⟨d, c :: sl⟩ := by
      rw [verify_ok_iff]; exact ⟨by simp, hx, c, rfl, rfl⟩
    simp only [hv]
    have hdl : 12 ≤ d.length := by simp at hl; omega
    have g : ∀ i, i < 12 → (d ++ [c]).getD i 0 = d.getD i 0 := by
      intro i hi
      simp [List.getD, List.getElem?_append_left (show i < d.length by omega)]
    have e := attr_testBit (d.getD 2 0) (d.getD 3 0)
    unfold attrAt at hl
    rw [g 2 (by omega), g 3 (by omega), ← e.1, ← e.2] at hl
    have hl' : headerLen (decide ((Attr.decode (be16 (d.getD 2 0) (d.getD 3 0))).verDesc = .v2019))
        (Attr.decode (be16 (d.getD 2 0) (d.getD 3 0))).fragDesc ≤ d.length := by
      simp only [List.length_append, List.length_singleton] at hl; omega
    obtain ⟨hh, hd⟩ := Header.decode_complete ⟨d, c :: sl⟩ hl'
    simp only [hd, Slice.from']
    rw [if_pos hl']
    exact ⟨_, rfl⟩

/-- A frame whose packet is shorter than its header layout is never decoded, whatever lies behind it in
memory. -/
theorem C16_truncated_header (env : Env) (p : List UInt8) (pd : Packet)
    (h : p.length < headerLen ((attrAt p).testBit 14) ((attrAt p).testBit 13) + 1) :
    decodeFrame env (frameOf p) ≠ .ok pd := by
  intro hd
  have := (C16_accepted_iff env p).mp ⟨pd, hd⟩
  omega

/-- An accepted packet splits into header bytes, body and checksum, and the header is what those header bytes
alone decode to: neither the checksum nor memory behind it leaks into it. -/
theorem C16_header_from_packet (env : Env) (p : List UInt8) (pd : Packet)
    (h : decodeFrame env (frameOf p) = .ok pd) :
    ∃ hdr c, p = hdr ++ pd.body.data ++ [c] ∧ Header.decode ⟨hdr, []⟩ 0 = .ok (pd.header, hdr.length) ∧
      hdr.length = headerLen ((attrAt p).testBit 14) ((attrAt p).testBit 13) := by
  rw [decodeFrame_frameOf] at h
  cases hv : verify ⟨p, List.replicate (env.grow p.length) 0⟩ with
  | err e => simp [hv] at h
  | panic => simp [hv] at h
  | ok r =>
    simp only [hv] at h
    obtain ⟨hne, hx, c, hc, hs⟩ := (verify_ok_iff _ _).mp hv
    simp only at hne hx hc hs
    cases hd : Header.decode r 0 with
    | err e => simp [hd] at h
    | panic => simp [hd] at h
    | ok x =>
      obtain ⟨hh, j⟩ := x
      simp only [hd, Slice.from'] at h
      by_cases hj : j ≤ r.data.length
      · rw [if_pos hj] at h
        simp only at h
        injection h with h
        subst h
        obtain ⟨-, -, hloc⟩ := Local.header r 0 hh j hd
        have ht : r.mem.take j = r.data.take j := by
          simp only [Slice.mem]; rw [List.take_append_of_le_length hj]
        have hlen : (r.data.take j).length = j := by simp; omega
        refine ⟨r.data.take j, c, by simp [hc], ?_, ?_⟩
        · have := hloc ⟨r.data.take j, []⟩ (by simp; omega) (by rw [ht, List.take_take, Nat.min_self])
          rw [hlen]; exact this
        · rw [hlen]
          obtain ⟨-, ha, hjl⟩ := Header.decode_inv hd
          rw [ha] at hjl
          have e := attr_testBit (r.mem.getD 2 0) (r.mem.getD 3 0)
          rw [e.1, e.2] at hjl
          have h12' : 12 ≤ j := by rw [hjl]; exact headerLen_ge _ _
          have g : ∀ i, i < 12 → r.mem.getD i 0 = p.getD i 0 := by
            intro i hi
            rw [getD_mem r (by omega)]
            simp [hc, List.getD, List.getElem?_append_left (show i < r.data.length by omega)]
          rw [g 2 (by omega), g 3 (by omega)] at hjl
          exact hjl
      · rw [if_neg hj] at h; simp at h

-- a 2019 packet cut after eleven header bytes (checksum correct), and a complete 2013 one
example : decodeFrame goEnv (frameOf [0x00, 0x02, 0x40, 0x00, 0x01, 0, 0, 0, 0, 0, 0, 0x43]) = .panic := by decide
example : (decodeFrame goEnv (frameOf [0x00, 0x02, 0x00, 0x00, 0x01, 0x23, 0x45, 0x67, 0x89, 0x01, 0x00, 0x4e, 0xc4])).isOk
    = true := by decide

/-! ## C18 the body length -/

/-- For bodies up to 1023 bytes the attribute word of the packet is the body length plus the attribute bits
that were set.  Missing for the full C18: longer bodies, where it is false (next theorem). -/
theorem C18_body_length_partial (h : Header) (hw : h.attr.WF) (body : List UInt8) (hb : body.length ≤ 1023) :
    attrAt (writeHeader h body) = attrWord body.length h.attr.encryption.toNat h.attr.packetFragmented.toNat
      h.attr.versionSign.toNat h.attr.extra.toNat := by
  have hm : body.length % 2 ^ 16 = body.length := Nat.mod_eq_of_lt (by omega)
  have e := Attr.encode_toNat (h.withBodyLength body.length).attr
    (by simp only [Header.withBodyLength, UInt16.toNat_ofNat']; omega) hw.enc hw.frag hw.ver hw.ext
  simp only [Header.withBodyLength, UInt16.toNat_ofNat', hm] at e
  rw [← e]
  unfold writeHeader
  rw [Header.encode_eq]
  simp only [Header.withBodyLength]
  generalize Attr.encode _ = w
  have : w = be16 (w >>> 8).toUInt8 w.toUInt8 := (put16_be16 w).symm
  rw [this, be16_toNat]
  simp [attrAt, put16, ← this]

/-- The opposite of C18 beyond the ten bits: a body of 1024 to 65535 bytes carries into the encryption bits and
above: the low ten bits are the length modulo 1024, and the attribute bits are not the ones set. -/
theorem C18_overlong_body (h : Header) (hw : h.attr.WF) (body : List UInt8) (hb : 1024 ≤ body.length)
    (hb' : body.length < 65536) :
    bits (attrAt (writeHeader h body)) 0 10 = body.length % 1024 ∧
    attrAt (writeHeader h body) / 1024 ≠
      attrWord 0 h.attr.encryption.toNat h.attr.packetFragmented.toNat h.attr.versionSign.toNat h.attr.extra.toNat / 1024 := by
  have e : attrAt (writeHeader h body) = (body.length + attrWord 0 h.attr.encryption.toNat
      h.attr.packetFragmented.toNat h.attr.versionSign.toNat h.attr.extra.toNat) % 65536 := by
    have h1 := hw.enc; have h2 := hw.frag; have h3 := hw.ver; have h4 := hw.ext
    have : attrAt (writeHeader h body) = (h.withBodyLength body.length).attr.encode.toNat := by
      unfold writeHeader
      rw [Header.encode_eq]
      simp only [Header.withBodyLength]
      generalize Attr.encode _ = w
      have : w = be16 (w >>> 8).toUInt8 w.toUInt8 := (put16_be16 w).symm
      rw [this, be16_toNat]
      simp [attrAt, put16, ← this]
    rw [this]
    have e10 : (10 : UInt16).toNat % 16 = 10 := by decide
    have e13 : (13 : UInt16).toNat % 16 = 13 := by decide
    have e14 : (14 : UInt16).toNat % 16 = 14 := by decide
    have e15 : (15 : UInt16).toNat % 16 = 15 := by decide
    simp only [Header.withBodyLength, Attr.encode, UInt16.toNat_add, UInt16.toNat_shiftLeft, UInt8.toNat_toUInt16,
      Nat.shiftLeft_eq, e10, e13, e14, e15, UInt16.toNat_ofNat', attrWord]
    omega
  have h1 := hw.enc; have h2 := hw.frag; have h3 := hw.ver; have h4 := hw.ext
  rw [e]
  simp only [bits, attrWord]
  constructor
  · omega
  · omega

example : (Attr.decode 0x4000).WF := Attr.decode_wf _
-- a 1030-byte body in an unencrypted 2013 packet: length 6, encryption RSA
example : Attr.decode ((Header.mk 0x8103 (Attr.decode 0) 0 [] 1 none).withBodyLength 1030).attr.encode
    = ⟨6, 1, 0, 0, 0, .rsa, false, .v2013⟩ := by decide

/-! ## C09 whole packets -/

/-- A packet we frame decodes to the same header, with the body length filled in, and the same body. -/
theorem C09_packet_roundtrip (env : Env) (h : Header) (hw : h.WF) (body : List UInt8) (hb : body.length ≤ 1023) :
    ∃ pd, decodeFrame env (encodeFrame (writeHeader h body)) = .ok pd ∧
      pd.body.data = body ∧ pd.header = { h with attr := { h.attr with bodyLength := UInt16.ofNat body.length } } ∧
      pd.header.attr.bodyLength.toNat = body.length := by
  obtain ⟨slack, e⟩ := decodeFrame_encodeFrame env (Header.withBodyLength_wf hw body.length (by omega)) body
  refine ⟨_, e, rfl, rfl, ?_⟩
  simp only [Header.withBodyLength, UInt16.toNat_ofNat']
  omega

example : (decodeFrame goEnv (encodeFrame (writeHeader
    ⟨0x8001, ⟨0, 0, 0, 1, 0, .none, false, .v2019⟩, 1, digitStr [0,0,0,0,0,0,0,0,0,1,3,8,0,0,1,3,8,0,0,0], 126, none⟩
    [0, 125, 1, 2, 0]))).isOk = true := by decide

/-! ## C66 declared and actual body length -/

/-- The opposite of C66: a packet with any body and any declared length, equal to the body's or not, is accepted and
hands over the whole body. -/
theorem C66_any_declared_length_accepted (env : Env) (h : Header) (hw : h.WF) (body : List UInt8) (declared : Nat)
    (hd : declared < 1024) :
    ∃ pd, decodeFrame env (encodeFrame ((h.withBodyLength declared).encode ++ body)) = .ok pd ∧
      pd.header.attr.bodyLength.toNat = declared ∧ pd.body.data = body := by
  obtain ⟨slack, e⟩ := decodeFrame_encodeFrame env (Header.withBodyLength_wf hw declared hd) body
  refine ⟨_, e, ?_, rfl⟩
  simp only [Header.withBodyLength, UInt16.toNat_ofNat']
  omega

/-- A packet that announces 100 bytes and carries two is accepted. -/
theorem C66_length_mismatch_accepted :
    ∃ (frame : List UInt8) (pd : Packet), decodeFrame goEnv frame = .ok pd ∧
      pd.header.attr.bodyLength = 100 ∧ pd.body.data = [1, 2] :=
  ⟨[0x7e, 0x00, 0x02, 0x00, 0x64, 1, 0x38, 0, 0, 0, 0, 0, 1, 1, 2, 0x5d, 0x7e], _, rfl, rfl, rfl⟩

/-- What holds: the packets the server itself writes declare the length they have, up to 1023 bytes.
Missing for the full C66: everything received. -/
theorem C66_own_packets_partial (env : Env) (h : Header) (hw : h.WF) (body : List UInt8) (hb : body.length ≤ 1023)
    (pd : Packet) (hd : decodeFrame env (encodeFrame (writeHeader h body)) = .ok pd) :
    pd.header.attr.bodyLength.toNat = pd.body.data.length := by
  obtain ⟨pd', e, e1, -, e2⟩ := C09_packet_roundtrip env h hw body hb
  rw [hd] at e
  injection e with e
  subst e
  rw [e2, e1]

example : (Header.mk 0x8001 (Attr.decode 0) 0 (digitStr [0,1,3,8,0,0,0,0,0,0,0,1]) 1 none).WF := by
  refine ⟨Attr.decode_wf _, ⟨by decide, by decide⟩, by decide, by decide⟩

end JT808
