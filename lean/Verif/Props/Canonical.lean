import Verif.Props.Phones
import Verif.Spec.Canonical
/-
C142: a frame that is accepted is the one encoding of what was read.
-/
namespace JT808
open Spec

theorem escaped_stuff {l : List UInt8} (h : Escaped l) : (unescapeBody l).flatMap stuff = l := by
  induction h with
  | nil => rfl
  | plain h1 h2 _ ih =>
    rw [unescapeBody_cons_ne h2, List.flatMap_cons, ih]
    simp [stuff, h1, h2]
  | delim _ ih => simp only [unescapeBody, and_self, if_true, List.flatMap_cons, ih]; rfl
  | esc _ ih =>
    rename_i r _
    have : unescapeBody (0x7d :: 0x01 :: r) = 0x7d :: unescapeBody r := by simp [unescapeBody]
    rw [this, List.flatMap_cons, ih]; rfl

theorem stuff_escaped (p : List UInt8) : Escaped (p.flatMap stuff) := by
  induction p with
  | nil => exact .nil
  | cons v p ih =>
    rw [List.flatMap_cons]
    unfold stuff
    split
    · exact .delim ih
    · split
      · exact .esc ih
      · rename_i h1 h2
        exact .plain h1 h2 ih

theorem escaped_iff (l : List UInt8) : Escaped l ↔ (unescapeBody l).flatMap stuff = l :=
  ⟨escaped_stuff, fun h => h ▸ stuff_escaped _⟩

/-- Two frames whose bytes mean the same after unescaping are read alike. -/
theorem decodeFrame_inner (env : Env) (inner : List UInt8) :
    decodeFrame env (0x7e :: inner ++ [0x7e]) = decodeFrame env (frameOf (unescapeBody inner)) := by
  have h1 : unescape env (0x7e :: inner ++ [0x7e]) = unescape env (frameOf (unescapeBody inner)) := by
    rw [unescape_frameOf]
    simp only [unescape, List.cons_append, List.drop_succ_cons, List.drop_zero, List.dropLast_concat]
  have h2 : (0x7e :: inner ++ [0x7e]).getLast? = some 0x7e := by rw [List.getLast?_append]; rfl
  have h3 : (frameOf (unescapeBody inner)).getLast? = some 0x7e := by
    unfold frameOf; rw [List.getLast?_append]; rfl
  unfold decodeFrame
  rw [h1, h2, h3]

theorem str2Byte_length_le : ∀ s : Str, 2 * (str2Byte s).length ≤ s.length
  | [] => by simp [str2Byte]
  | [_] => by simp [str2Byte]
  | a :: b :: r => by
    have := str2Byte_length_le r
    unfold str2Byte
    split
    · simp only [List.length_cons]; omega
    · simp

theorem bcd2NumberStr_length_le (bs : List UInt8) (hb : 0 < bs.length) : (bcd2NumberStr bs).length ≤ 2 * bs.length := by
  have e : (bs.flatMap hex2).length = 2 * bs.length := by
    clear hb
    induction bs with
    | nil => rfl
    | cons b bs ih => rw [List.flatMap_cons, List.length_append, ih]; simp [hex2]; omega
  unfold bcd2NumberStr
  simp only
  split
  · omega
  · split
    · simp; omega
    · rw [List.length_drop]; omega

theorem xor_last {p : List UInt8} {c : UInt8} (h : xorSum (p ++ [c]) = 0) : c = xorSum p := by
  rw [xorSum_append, xor_eq_zero_iff'] at h
  rw [h]; simp [xorSum]

/-- The number of digits the phone number field of a header has room for. -/
def Spec.phoneRoom (h : Header) : Nat := if h.attr.versionSign = 1 then 20 else 12

/-- C142: a frame that is accepted is read as header and body; putting these together again gives the frame, byte for byte, exactly
if the frame is escaped as the standard says, the phone number fills its field, and the length the header declares is that of the
body (up to a multiple of 65536). -/
theorem C142_reencode (env : Env) (inner : List UInt8) (pd : Packet)
    (h : decodeFrame env (0x7e :: inner ++ [0x7e]) = .ok pd) :
    encodeFrame (writeHeader pd.header pd.body.data) = 0x7e :: inner ++ [0x7e] ↔
      Escaped inner ∧ pd.header.phone.length = phoneRoom pd.header ∧
        pd.body.data.length % 65536 = pd.header.attr.bodyLength.toNat := by
  rw [decodeFrame_inner] at h
  obtain ⟨hdr, c, hp, hd, hl⟩ := C16_header_from_packet env _ pd h
  obtain ⟨ph, pl⟩ := phone_of h
  obtain ⟨hw, -, -, hfr, -⟩ := Header.decode_facts hd
  obtain ⟨-, -, hj⟩ := Header.decode_inv hd
  have hsum : xorSum (unescapeBody inner) = 0 := ((C16_accepted_iff env _).1 ⟨pd, h⟩).1
  have hc : c = xorSum (hdr ++ pd.body.data) := by rw [hp] at hsum; exact xor_last hsum
  have enc : ∀ q, encodeFrame q = 0x7e :: (q ++ [xorSum q]).flatMap stuff ++ [0x7e] := by
    intro q
    unfold encodeFrame genVerifier
    rw [escape_eq, xorAll_eq]; rfl
  have hver : pd.header.attr.verDesc.phoneBytes * 2 = phoneRoom pd.header := by
    unfold phoneRoom; rw [hw.verD]; split <;> rfl
  have same : (pd.header.withBodyLength pd.body.data.length).encode = hdr → pd.header.phone.length = phoneRoom pd.header ∧
        pd.body.data.length % 65536 = pd.header.attr.bodyLength.toNat := by
    intro he
    have hve : (pd.header.withBodyLength pd.body.data.length).attr.verDesc = pd.header.attr.verDesc := rfl
    have hln := congrArg List.length he
    rw [Header.encode_eq] at hln
    simp only [List.length_append, put16_length] at hln
    have hfl : ((pd.header.withBodyLength pd.body.data.length).frag.elim [] Frag.encode).length =
        if pd.header.attr.fragDesc then 4 else 0 := by
      rw [← hfr]
      show (pd.header.frag.elim [] Frag.encode).length = _
      cases pd.header.frag <;> rfl
    have hvl : (if (pd.header.withBodyLength pd.body.data.length).attr.verDesc = .v2019 then
        [(pd.header.withBodyLength pd.body.data.length).protoVer] else []).length =
        if pd.header.attr.verDesc = .v2019 then 1 else 0 := by rw [hve]; split <;> rfl
    rw [hfl, hvl, hj, headerLen_rest _ _ hw.verDesc_cases] at hln
    have hb : (numberStr2BCD pd.header.phone).length = pd.header.attr.verDesc.phoneBytes := by
      have : (pd.header.withBodyLength pd.body.data.length).phone = pd.header.phone := rfl
      rw [this] at hln
      omega
    have h6 : 6 ≤ pd.header.attr.verDesc.phoneBytes := by cases pd.header.attr.verDesc <;> decide
    have hge : 2 * pd.header.attr.verDesc.phoneBytes ≤ pd.header.phone.length := by
      have := str2Byte_length_le (List.replicate (8 - pd.header.phone.length) 0x66 ++ pd.header.phone)
      rw [← numberStr2BCD, hb, List.length_append, List.length_replicate] at this
      omega
    have hle : pd.header.phone.length ≤ 2 * pd.header.attr.verDesc.phoneBytes := by
      have hv : pd.header.attr.verDesc.phoneBytes = (if (attrAt (unescapeBody inner)).testBit 14 then 10 else 6) := by
        rw [hj] at hl
        revert hl
        rcases hw.verDesc_cases with hv | hv <;> rw [hv] <;> cases (attrAt (unescapeBody inner)).testBit 14 <;>
          cases (attrAt (unescapeBody inner)).testBit 13 <;> cases pd.header.attr.fragDesc <;> decide
      rw [hv, ← pl, ph]
      exact bcd2NumberStr_length_le _ (by rw [pl]; split <;> decide)
    refine ⟨by omega, ?_⟩
    obtain ⟨-, hat, -⟩ := Header.decode_inv hd
    have hwd : be16 ((⟨hdr, []⟩ : Slice).mem.getD 2 0) ((⟨hdr, []⟩ : Slice).mem.getD 3 0) =
        (pd.header.withBodyLength pd.body.data.length).attr.encode := by
      have hm : (⟨hdr, []⟩ : Slice).mem = hdr := by simp [Slice.mem]
      rw [hm, ← he, Header.encode_eq]
      exact put16_be16 _
    have hae : pd.header.attr.encode = (pd.header.withBodyLength pd.body.data.length).attr.encode := by
      rw [← hwd]
      conv => lhs; rw [hat]
      exact Attr.encode_decode _
    have hbl : pd.header.attr.bodyLength = UInt16.ofNat pd.body.data.length := by
      simpa [Attr.encode, Header.withBodyLength] using hae
    rw [hbl, UInt16.toNat_ofNat']
  constructor
  · intro he
    rw [enc] at he
    have he : (writeHeader pd.header pd.body.data ++ [xorSum (writeHeader pd.header pd.body.data)]).flatMap stuff = inner := by
      injection he with _ he
      exact List.append_cancel_right he
    refine ⟨he ▸ stuff_escaped _, same ?_⟩
    have hu := unescapeBody_flatMap (writeHeader pd.header pd.body.data ++ [xorSum (writeHeader pd.header pd.body.data)])
    rw [he, hp] at hu
    have := (List.append_inj' hu rfl).1
    exact (List.append_cancel_right this).symm
  · rintro ⟨h1, h2, h3⟩
    have hlen : pd.header.withBodyLength pd.body.data.length = pd.header := by
      unfold Header.withBodyLength
      have : UInt16.ofNat pd.body.data.length = pd.header.attr.bodyLength := by
        apply UInt16.toNat_inj.1
        rw [UInt16.toNat_ofNat']; exact h3
      rw [this]
    have hdr' := C15_reencode hdr [] [] pd.header (by rw [List.append_nil]; exact hd) h2
    have hwr : writeHeader pd.header pd.body.data = hdr ++ pd.body.data := by
      unfold writeHeader; rw [hlen, hdr']
    rw [enc, hwr, ← hc, ← hp, escaped_stuff h1]

/-- C142: of frames put together like that there is one for each reading. -/
theorem C142_unique (env : Env) (a b : List UInt8) (pd qd : Packet) (ha : decodeFrame env (0x7e :: a ++ [0x7e]) = .ok pd)
    (hb : decodeFrame env (0x7e :: b ++ [0x7e]) = .ok qd) (hh : pd.header = qd.header) (hd : pd.body.data = qd.body.data)
    (ea : Escaped a) (eb : Escaped b) (hp : pd.header.phone.length = phoneRoom pd.header)
    (hl : pd.body.data.length % 65536 = pd.header.attr.bodyLength.toNat) : a = b := by
  have h1 := (C142_reencode env a pd ha).2 ⟨ea, hp, hl⟩
  have h2 := (C142_reencode env b qd hb).2 ⟨eb, hh ▸ hp, by rw [← hh, ← hd]; exact hl⟩
  rw [hh, hd, h2] at h1
  injection h1 with _ h1
  exact (List.append_cancel_right h1).symm

/-- C142: a frame that is not escaped as the standard says is treated as the one that is. -/
theorem C142_lenient (env : Env) (clk : Clock) (c : Conn) (werr : Option Err) (st : Store) (inner : List UInt8) :
    st.serveFrame env clk c werr (0x7e :: inner ++ [0x7e]) = st.serveFrame env clk c werr (frameOf (unescapeBody inner)) := by
  unfold Store.serveFrame Store.handleFrame Store.decodePacket
  rw [decodeFrame_inner]

/-- C142: so different frames may be read alike. First: 0x7d in front of 0x05 and the same escaped. Second: phone numbers with an
F: what stands before it is not looked at. -/
theorem C142_not_injective :
    (∃ a b pd, a ≠ b ∧ decodeFrame goEnv (0x7e :: a ++ [0x7e]) = .ok pd ∧ decodeFrame goEnv (0x7e :: b ++ [0x7e]) = .ok pd ∧
      ¬ Escaped a ∧ Escaped b) ∧
    ∃ a b pd qd, a ≠ b ∧ Escaped a ∧ Escaped b ∧ decodeFrame goEnv (0x7e :: a ++ [0x7e]) = .ok pd ∧
      decodeFrame goEnv (0x7e :: b ++ [0x7e]) = .ok qd ∧ pd.header = qd.header ∧ pd.body.data = qd.body.data := by
  refine ⟨⟨[0, 2, 0, 2, 1, 0x38, 0, 0x13, 0x80, 0, 0, 7, 0x7d, 5, 0xd5],
    [0, 2, 0, 2, 1, 0x38, 0, 0x13, 0x80, 0, 0, 7, 0x7d, 1, 5, 0xd5], _, by decide, rfl, rfl, ?_, ?_⟩,
    [0, 2, 0, 0, 0x1f, 0x38, 0, 0x13, 0x80, 0, 0, 7, 0xb1],
    [0, 2, 0, 0, 0x2f, 0x38, 0, 0x13, 0x80, 0, 0, 7, 0x81], _, _, by decide, ?_, ?_, rfl, rfl, rfl, rfl⟩
  all_goals (rw [escaped_iff]; decide)

/-! ### Bodies -/

/-- The bytes from `i` to `j` of the memory a message is read from. -/
def Seg (s : Slice) (i j : Nat) (bs : List UInt8) : Prop := i ≤ j ∧ j ≤ s.mem.length ∧ (s.mem.drop i).take (j - i) = bs

theorem Seg.trans {s : Slice} {i m j : Nat} {a b : List UInt8} (h : Seg s i m a) (g : Seg s m j b) : Seg s i j (a ++ b) :=
  ⟨Nat.le_trans h.1 g.1, g.2.1, by rw [drop_take_split h.1 g.1, h.2.2, g.2.2]⟩

theorem put32_be32' (a b c d : UInt8) : put32 (be32 a b c d) = [a, b, c, d] := by
  have ha := a.toNat_lt
  have hb := b.toNat_lt
  have hc := c.toNat_lt
  have hd := d.toNat_lt
  have h24 : (24 : UInt32).toNat % 32 = 24 := by decide
  have h16 : (16 : UInt32).toNat % 32 = 16 := by decide
  have h8 : (8 : UInt32).toNat % 32 = 8 := by decide
  unfold put32
  have e : ∀ x y : UInt8, x.toNat = y.toNat → x = y := fun x y h => UInt8.toNat_inj.mp h
  rw [e (be32 a b c d >>> 24).toUInt8 a, e (be32 a b c d >>> 16).toUInt8 b, e (be32 a b c d >>> 8).toUInt8 c,
    e (be32 a b c d).toUInt8 d]
  all_goals simp only [UInt32.toNat_toUInt8, UInt32.toNat_shiftRight, be32_toNat, h24, h16, h8, Nat.shiftRight_eq_div_pow]
  all_goals omega

theorem seg_bytes {s : Slice} {i j : Nat} {n : Int} {bs : List UInt8} (h : readBytes n s i = .ok (bs, j)) :
    Seg s i j bs ∧ bs.length = n.toNat := by
  obtain ⟨_, h1, h2, h3⟩ := readBytes_inv h
  subst h1
  refine ⟨⟨by omega, h2, ?_⟩, ?_⟩
  · rw [h3, show i + n.toNat - i = n.toNat by omega]
  · rw [h3, List.length_take, List.length_drop]; omega

theorem seg_dword {s : Slice} {i j : Nat} {w : UInt32} (h : readDWord s i = .ok (w, j)) : Seg s i j (put32 w) := by
  unfold readDWord at h
  obtain ⟨bs, m, h1, h2⟩ := rd_bind_ok h
  obtain ⟨h3, h4⟩ := seg_bytes h1
  match bs, h4 with
  | [a, b, c, d], _ =>
    simp only at h2
    rw [rd_pure_eq] at h2
    cases h2
    rw [put32_be32']; exact h3

theorem seg_bcd {s : Slice} {i j : Nat} {n : Nat} (hn : 4 ≤ n) {p : Str} (h : readBCD n s i = .ok (p, j)) (hp : p.length = 2 * n) :
    Seg s i j (numberStr2BCD p) := by
  unfold readBCD at h
  obtain ⟨bs, m, h1, h2⟩ := rd_bind_ok h
  obtain ⟨h3, h4⟩ := seg_bytes h1
  rw [rd_pure_eq] at h2
  cases h2
  have h4 : bs.length = n := by simpa using h4
  have hF := bcd2NumberStr_full (bs := bs) (by rw [hp, h4]) (by intro h0; rw [h0] at h4; simp at h4; omega)
  rw [bcd_roundtrip_bytes bs hF (by omega)]; exact h3

theorem trim_pad (n : Nat) (s : Str) (h : s.length = n) : padOnly n (trimNul s) = s := by
  have key : ∀ r : Str, r = List.replicate (r.length - (r.dropWhile (· == 0)).length) 0 ++ r.dropWhile (· == 0) ∧
      (r.dropWhile (· == 0)).length ≤ r.length := by
    intro r
    induction r with
    | nil => exact ⟨rfl, Nat.le_refl _⟩
    | cons b r ih =>
      rw [List.dropWhile_cons]
      split
      · rename_i hb
        have hb : b = 0 := by simpa using hb
        subst hb
        refine ⟨?_, by have := ih.2; simp only [List.length_cons]; omega⟩
        have := ih.2
        rw [List.length_cons, show r.length + 1 - (r.dropWhile (· == 0)).length =
          (r.length - (r.dropWhile (· == 0)).length) + 1 by omega, List.replicate_succ, List.cons_append, ← ih.1]
      · exact ⟨by simp, Nat.le_refl _⟩
  have := (key s.reverse).1
  unfold padOnly trimNul
  rw [List.length_reverse] at this ⊢
  have h2 := congrArg List.reverse this
  rw [List.reverse_reverse, List.reverse_append, List.reverse_replicate, h] at h2
  exact h2.symm

theorem undo_ack {s : Slice} {i j : Nat} {m : GeneralAck} (h : GeneralAck.decode s i = .ok (m, j)) : Seg s i j m.encode := by
  unfold GeneralAck.decode at h
  obtain ⟨a, i1, e1, h⟩ := rd_bind_ok h
  obtain ⟨b, i2, e2, h⟩ := rd_bind_ok h
  obtain ⟨c, i3, e3, h⟩ := rd_bind_ok h
  rw [rd_pure_eq] at h
  cases h
  have := (Seg.trans (undo_word _ _ _ _ e1) (undo_word _ _ _ _ e2)).trans (undo_byte _ _ _ _ e3)
  simpa [GeneralAck.encode, writeWord, writeByte] using this

theorem undo_loc {s : Slice} {i j : Nat} {m : LocMsg} (h : LocMsg.decode s i = .ok (m, j)) (ht : m.time.length = 12) :
    Seg s i j m.encode := by
  unfold LocMsg.decode at h
  obtain ⟨a1, i1, e1, h⟩ := rd_bind_ok h
  obtain ⟨a2, i2, e2, h⟩ := rd_bind_ok h
  obtain ⟨a3, i3, e3, h⟩ := rd_bind_ok h
  obtain ⟨a4, i4, e4, h⟩ := rd_bind_ok h
  obtain ⟨a5, i5, e5, h⟩ := rd_bind_ok h
  obtain ⟨a6, i6, e6, h⟩ := rd_bind_ok h
  obtain ⟨a7, i7, e7, h⟩ := rd_bind_ok h
  obtain ⟨a8, i8, e8, h⟩ := rd_bind_ok h
  rw [rd_pure_eq] at h
  cases h
  have g8 := seg_bcd (n := 6) (by omega) e8 ht
  have := (((((((seg_dword e1).trans (seg_dword e2)).trans (seg_dword e3)).trans (seg_dword e4)).trans
    (undo_word _ _ _ _ e5)).trans (undo_word _ _ _ _ e6)).trans (undo_word _ _ _ _ e7)).trans g8
  simpa [LocMsg.encode, writeDWord, writeWord, writeBCD] using this

theorem undo_regAck {h : Header} {s : Slice} {i j : Nat} {m : RegisterAck} (hd : RegisterAck.decode h s i = .ok (m, j)) :
    Seg s i j m.encode := by
  unfold RegisterAck.decode at hd
  obtain ⟨a1, i1, e1, hd⟩ := rd_bind_ok hd
  obtain ⟨a2, i2, e2, hd⟩ := rd_bind_ok hd
  obtain ⟨a3, i3, e3, hd⟩ := rd_bind_ok hd
  obtain ⟨a4, i4, e4, hd⟩ := rd_bind_ok hd
  rw [rd_pure_eq] at hd
  cases hd
  cases e3
  have := ((Seg.trans (undo_word _ _ _ _ e1) (undo_byte _ _ _ _ e2)).trans (seg_bytes e4).1)
  simpa [RegisterAck.encode, writeWord, writeByte, writeString, writeBytes] using this

theorem undo_auth {h : Header} {s : Slice} {i j : Nat} {m : AuthMsg} (hi : i ≤ s.mem.length)
    (hd : AuthMsg.decode h s i = .ok (m, j)) : Seg s i j (m.encode h.attr.verDesc) := by
  unfold AuthMsg.decode at hd
  cases hv' : h.attr.verDesc with
  | v2011 =>
    rw [hv'] at hd
    cases hd
    exact ⟨Nat.le_refl _, hi, by simp [AuthMsg.encode]⟩
  | v2013 =>
    rw [hv'] at hd
    obtain ⟨a1, i1, e1, hd⟩ := rd_bind_ok hd
    rw [rd_pure_eq] at hd
    cases hd
    exact (seg_bytes e1).1
  | v2019 =>
    rw [hv'] at hd
    obtain ⟨a1, i1, e1, hd⟩ := rd_bind_ok hd
    obtain ⟨a2, i2, e2, hd⟩ := rd_bind_ok hd
    obtain ⟨a3, i3, e3, hd⟩ := rd_bind_ok hd
    obtain ⟨a4, i4, e4, hd⟩ := rd_bind_ok hd
    rw [rd_pure_eq] at hd
    cases hd
    obtain ⟨g2, l2⟩ := seg_bytes e2
    obtain ⟨g3, l3⟩ := seg_bytes e3
    obtain ⟨g4, l4⟩ := seg_bytes e4
    have := ((Seg.trans (undo_byte _ _ _ _ e1) g2).trans g3).trans g4
    have p4 := trim_pad 20 a4 l4
    have p3 : padOnly 15 a3 = a3 := by unfold padOnly; rw [l3]; simp
    have p2 : UInt8.ofNat a2.length = a1 := by rw [l2]; simp
    simp only [AuthMsg.encode, p4, p3, p2]
    simpa [writeByte, writeString, writeBytes] using this

/-- C142: the body of an acknowledgement, an authentication, an answer to a registration or a position whose time has its twelve
digits is, up to where it was read, the encoding of what was read; of heartbeats, deregistrations and requests for parameters
nothing is read.  Registrations and media queries: Props/Bodies.lean; parameter lists and positions with other times:
Props/ParamBodies.lean.  Missing: the registration of 2011 (false, C142_register_2011). -/
theorem C142_body_partial (env : Env) (now : Civil) (h : Header) (t : MType) (body : Slice) (m : Msg) (j : Nat) (hd : t.decode env now h body 0 = .ok (m, j))
    (ht : t ∈ [.t0001, .t0002, .t0003, .t0102, .t0200, .t8001, .t8100, .t8104])
    (htime : ∀ l, m = .m0200 l → l.time.length = 12) :
    m.encodeBody env h = .ok (body.mem.take j) := by
  have fin : ∀ bs, Seg body 0 j bs → bs = body.mem.take j := by
    intro bs hs
    rw [← hs.2.2]; simp
  cases t with
  | t0001 =>
    obtain ⟨a, i, e, hd⟩ := rd_bind_ok hd
    rw [rd_pure_eq] at hd; cases hd
    exact congrArg Res.ok (fin _ (undo_ack e))
  | t8001 =>
    obtain ⟨a, i, e, hd⟩ := rd_bind_ok hd
    rw [rd_pure_eq] at hd; cases hd
    exact congrArg Res.ok (fin _ (undo_ack e))
  | t0002 => cases hd; rfl
  | t0003 => cases hd; rfl
  | t8104 => cases hd; rfl
  | t0102 =>
    obtain ⟨a, i, e, hd⟩ := rd_bind_ok hd
    rw [rd_pure_eq] at hd; cases hd
    exact congrArg Res.ok (fin _ (undo_auth (Nat.zero_le _) e))
  | t0200 =>
    obtain ⟨a, i, e, hd⟩ := rd_bind_ok hd
    rw [rd_pure_eq] at hd; cases hd
    exact congrArg Res.ok (fin _ (undo_loc e (htime _ rfl)))
  | t8100 =>
    obtain ⟨a, i, e, hd⟩ := rd_bind_ok hd
    rw [rd_pure_eq] at hd; cases hd
    exact congrArg Res.ok (fin _ (undo_regAck e))
  | _ => simp at ht

/-! ### The hypotheses can be met -/

/-- A heartbeat whose checksum has to be escaped. -/
def demoEscaped : List UInt8 := [0, 2, 0, 0, 1, 0x38, 0, 0x13, 0x80, 0, 0, 0xd6, 0x7d, 0x02]

example : ∃ pd, decodeFrame goEnv (0x7e :: demoEscaped ++ [0x7e]) = .ok pd ∧
    encodeFrame (writeHeader pd.header pd.body.data) = 0x7e :: demoEscaped ++ [0x7e] ∧ Escaped demoEscaped ∧
    pd.header.phone.length = phoneRoom pd.header ∧ pd.body.data.length % 65536 = pd.header.attr.bodyLength.toNat := by
  refine ⟨_, rfl, ?_⟩
  have h := (C142_reencode goEnv demoEscaped _ rfl).2
  refine ⟨h ⟨?_, rfl, rfl⟩, ?_, rfl, rfl⟩ <;> (rw [escaped_iff]; decide)

/-- A frame that declares one byte more than it has is accepted and does not come out again. -/
example : ∃ pd, decodeFrame goEnv [0x7e, 0, 2, 0, 1, 1, 0x38, 0, 0x13, 0x80, 0, 0, 7, 0xae, 0x7e] = .ok pd ∧
    encodeFrame (writeHeader pd.header pd.body.data) ≠ [0x7e, 0, 2, 0, 1, 1, 0x38, 0, 0x13, 0x80, 0, 0, 7, 0xae, 0x7e] := by
  refine ⟨_, rfl, ?_⟩
  have h := (C142_reencode goEnv [0, 2, 0, 1, 1, 0x38, 0, 0x13, 0x80, 0, 0, 7, 0xae] _ rfl).1
  intro e
  exact absurd (h e).2.2 (by decide)

example : (Msg.m0200 (demoLocMsg 3 31230000)).encodeBody goEnv (hdr2013 0x0200) =
    .ok ((⟨(demoLocMsg 3 31230000).encode ++ [1, 4, 0, 0, 0, 9], []⟩ : Slice).mem.take 28) :=
  C142_body_partial goEnv ⟨2024, 2, 29, 12, 0, 0⟩ (hdr2013 0x0200) .t0200 _ _ 28 rfl (by decide)
    (by intro l hl; cases hl; rfl)

end JT808
