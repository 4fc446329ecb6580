import Verif.Proof.Header
/-
Helper lemmas about decoding whole frames.
-/
namespace JT808
open Spec

theorem decodeFrame_frameOf (env : Env) (p : List UInt8) :
    decodeFrame env (frameOf p) =
      match verify ⟨p, List.replicate (env.grow p.length) 0⟩ with
      | .err e => .err e
      | .panic => .panic
      | .ok pkt =>
        match Header.decode pkt 0 with
        | .err e => .err e
        | .panic => .panic
        | .ok (h, idx) =>
          match pkt.from' idx with
          | .err e => .err e
          | .panic => .panic
          | .ok body => .ok ⟨h, body, 0x7e, false⟩ := by
  unfold decodeFrame
  rw [unescape_frameOf]
  have : (frameOf p).getLast? = some 0x7e := by rw [frameOf, List.getLast?_append]; rfl
  simp only [this]
  cases verify ⟨p, List.replicate (env.grow p.length) 0⟩ with
  | err e => rfl
  | panic => rfl
  | ok pkt =>
    simp only
    cases Header.decode pkt 0 with
    | err e => rfl
    | panic => rfl
    | ok r => rfl

/-- Decoding the frame of a packet `hdr ++ body ++ [checksum]`. -/
theorem decodeFrame_split (env : Env) {h : Header} {hdr body : List UInt8} {c : UInt8}
    (hx : xorSum (hdr ++ body ++ [c]) = 0)
    (hd : ∀ slack, Header.decode ⟨hdr ++ body, slack⟩ 0 = .ok (h, hdr.length)) :
    decodeFrame env (frameOf (hdr ++ body ++ [c])) =
      .ok ⟨h, ⟨body, c :: List.replicate (env.grow (hdr ++ body ++ [c]).length) 0⟩, 0x7e, false⟩ := by
  rw [decodeFrame_frameOf]
  have hv : verify ⟨hdr ++ body ++ [c], List.replicate (env.grow (hdr ++ body ++ [c]).length) 0⟩ =
      .ok ⟨hdr ++ body, c :: List.replicate (env.grow (hdr ++ body ++ [c]).length) 0⟩ := by
    rw [verify_ok_iff]
    exact ⟨by simp, hx, c, rfl, rfl⟩
  simp only [hv, hd, Slice.from']
  simp

/-- A packet of our own, framed and decoded again. -/
theorem decodeFrame_encodeFrame (env : Env) {h : Header} (hw : h.WF) (body : List UInt8) :
    ∃ slack, decodeFrame env (encodeFrame (h.encode ++ body)) = .ok ⟨h, ⟨body, slack⟩, 0x7e, false⟩ := by
  have hx : xorSum (genVerifier (h.encode ++ body)) = 0 := by
    rw [genVerifier, xorSum_append, xorAll_eq, xor_eq_zero_iff']; simp [xorSum]
  have hd : ∀ slack, Header.decode ⟨h.encode ++ body, slack⟩ 0 = .ok (h, h.encode.length) := by
    intro slack
    have := readsAt_header 0 hw [] body slack rfl
    simpa using this
  rw [encodeFrame, escape_eq]
  exact ⟨_, decodeFrame_split env hx hd⟩

/-! ### Which packets have a complete header -/

theorem readBytes_ok (s : Slice) (i n : Nat) (h : i + n ≤ s.mem.length) :
    readBytes n s i = .ok ((s.mem.drop i).take n, i + n) := by
  simp [readBytes, Slice.sub, h]

theorem readBytes_inv {s : Slice} {i j : Nat} {n : Int} {bs : List UInt8} (h : readBytes n s i = .ok (bs, j)) :
    0 ≤ n ∧ j = i + n.toNat ∧ j ≤ s.mem.length ∧ bs = (s.mem.drop i).take n.toNat := by
  unfold readBytes Slice.sub at h
  split at h
  · rename_i bs' hb
    injection h with h; injection h with h1 h2
    split at hb
    · rename_i hc
      injection hb with hb
      exact ⟨hc.1, h2.symm, by omega, by rw [← h1, hb]⟩
    · cases hb
  · cases h
  · cases h

theorem take_two {l : List UInt8} {i : Nat} (h : i + 2 ≤ l.length) :
    (l.drop i).take 2 = [l.getD i 0, l.getD (i + 1) 0] := by
  have h0 : i < l.length := by omega
  have h1 : i + 1 < l.length := by omega
  rw [List.drop_eq_getElem_cons h0, List.drop_eq_getElem_cons h1]
  simp only [List.take_succ_cons, List.take_zero]
  simp [List.getD, h0, h1]

theorem readWord_ok (s : Slice) (i : Nat) (h : i + 2 ≤ s.mem.length) :
    readWord s i = .ok (be16 (s.mem.getD i 0) (s.mem.getD (i + 1) 0), i + 2) := by
  unfold readWord
  rw [rd_bind_eq]
  have := readBytes_ok s i 2 h
  rw [take_two h] at this
  rw [show (2 : Int) = ((2 : Nat) : Int) from rfl, this]
  rfl

theorem readWord_inv {s : Slice} {i j : Nat} {w : UInt16} (h : readWord s i = .ok (w, j)) :
    j = i + 2 ∧ j ≤ s.mem.length ∧ w = be16 (s.mem.getD i 0) (s.mem.getD (i + 1) 0) := by
  by_cases hl : i + 2 ≤ s.mem.length
  · rw [readWord_ok s i hl] at h
    injection h with h; injection h with h1 h2
    exact ⟨h2.symm, by omega, h1.symm⟩
  · unfold readWord at h
    rw [rd_bind_eq] at h
    have : readBytes 2 s i = .panic := by
      unfold readBytes Slice.sub
      rw [if_neg (by simp; omega)]
    simp [this] at h

theorem rd_bind_ok {α β : Type} {r : Rd α} {f : α → Rd β} {s : Slice} {i j : Nat} {b : β}
    (h : (r >>= f) s i = .ok (b, j)) : ∃ a m, r s i = .ok (a, m) ∧ f a s m = .ok (b, j) := by
  rw [rd_bind_eq] at h
  cases hr : r s i with
  | err e => simp [hr] at h
  | panic => simp [hr] at h
  | ok x => simp only [hr] at h; exact ⟨x.1, x.2, rfl, h⟩

theorem readBCD_inv {s : Slice} {i j : Nat} {n : Int} {p : Str} (h : readBCD n s i = .ok (p, j)) :
    0 ≤ n ∧ j = i + n.toNat ∧ j ≤ s.mem.length ∧ p = bcd2NumberStr ((s.mem.drop i).take n.toNat) := by
  unfold readBCD at h
  obtain ⟨bs, m, h1, h2⟩ := rd_bind_ok h
  rw [rd_pure_eq] at h2
  injection h2 with h2; injection h2 with h2 h3
  obtain ⟨a, b, c, d⟩ := readBytes_inv h1
  subst h3
  exact ⟨a, b, c, by rw [← h2, d]⟩

theorem readByte_inv {s : Slice} {i j : Nat} {b : UInt8} (h : readByte s i = .ok (b, j)) :
    j = i + 1 ∧ j ≤ s.data.length ∧ b = s.data.getD i 0 := by
  unfold readByte Slice.index at h
  cases hd : s.data[i]? with
  | none => simp [hd] at h
  | some c =>
    simp only [hd] at h
    injection h with h; injection h with h1 h2
    rw [List.getElem?_eq_some_iff] at hd
    obtain ⟨hlt, he⟩ := hd
    refine ⟨h2.symm, by omega, ?_⟩
    rw [← h1, ← he]; simp [List.getD, hlt]

theorem readByte_ok (s : Slice) (i : Nat) (h : i < s.data.length) :
    readByte s i = .ok (s.data.getD i 0, i + 1) := by
  unfold readByte Slice.index
  simp [List.getD, h]

/-! ### Fixed-width readers -/

/-- A successful read advances the cursor by `n`. -/
def Width {α : Type} (n : Nat) (r : Rd α) : Prop := ∀ s i a j, r s i = .ok (a, j) → j = i + n

/-- With `n` bytes left within the length, the read succeeds and advances by `n`. -/
def Takes {α : Type} (n : Nat) (r : Rd α) : Prop :=
  ∀ (s : Slice) i, i + n ≤ s.data.length → ∃ a, r s i = .ok (a, i + n)

theorem Width.pure {α : Type} (a : α) : Width 0 (Pure.pure a : Rd α) := by
  intro s i b j h
  rw [rd_pure_eq] at h
  injection h with h; injection h with _ h; exact h.symm

theorem Takes.pure {α : Type} (a : α) : Takes 0 (Pure.pure a : Rd α) := fun _ _ _ => ⟨a, rfl⟩

theorem Width.bind {α β : Type} {n m : Nat} {r : Rd α} {f : α → Rd β} (h1 : Width n r)
    (h2 : ∀ a, Width m (f a)) : Width (n + m) (r >>= f) := by
  intro s i b j h
  obtain ⟨a, k, e1, e2⟩ := rd_bind_ok h
  have := h1 s i a k e1
  have := h2 a s k b j e2
  omega

theorem Takes.bind {α β : Type} {n m : Nat} {r : Rd α} {f : α → Rd β} (h1 : Takes n r)
    (h2 : ∀ a, Takes m (f a)) : Takes (n + m) (r >>= f) := by
  intro s i h
  obtain ⟨a, e1⟩ := h1 s i (by omega)
  obtain ⟨b, e2⟩ := h2 a s (i + n) (by omega)
  refine ⟨b, ?_⟩
  rw [rd_bind_eq, e1]
  simp only [e2, Nat.add_assoc]

theorem width_byte : Width 1 readByte := fun _ _ _ _ h => (readByte_inv h).1
theorem takes_byte : Takes 1 readByte := fun s i h => ⟨_, readByte_ok s i (by omega)⟩
theorem width_word : Width 2 readWord := fun _ _ _ _ h => (readWord_inv h).1
theorem takes_word : Takes 2 readWord := fun s i h => ⟨_, readWord_ok s i (by simp [Slice.mem]; omega)⟩
theorem width_bytes (n : Nat) : Width n (readBytes n) := fun _ _ _ _ h => (readBytes_inv h).2.1
theorem takes_bytes (n : Nat) : Takes n (readBytes n) :=
  fun s i h => ⟨_, readBytes_ok s i n (by simp [Slice.mem]; omega)⟩
theorem width_bcd (n : Nat) : Width n (readBCD n) := Width.bind (m := 0) (width_bytes n) (fun _ => Width.pure _)
theorem takes_bcd (n : Nat) : Takes n (readBCD n) := Takes.bind (m := 0) (takes_bytes n) (fun _ => Takes.pure _)

theorem width_dword : Width 4 readDWord := by
  intro s i a j h
  unfold readDWord at h
  obtain ⟨bs, k, e1, e2⟩ := rd_bind_ok h
  have hk := width_bytes 4 s i bs k e1
  have : j = k := by
    match bs, e2 with
    | [_, _, _, _], e2 => simp only [rd_pure_eq] at e2; injection e2 with e2; injection e2 with _ e2; exact e2.symm
  omega

theorem takes_dword : Takes 4 readDWord := by
  intro s i h
  unfold readDWord
  have hm : i + 4 ≤ s.mem.length := by simp [Slice.mem]; omega
  have e := readBytes_ok s i 4 hm
  have hl : ((s.mem.drop i).take 4).length = 4 := by simp; omega
  rw [rd_bind_eq, show (4 : Int) = ((4 : Nat) : Int) from rfl, e]
  match hb : (s.mem.drop i).take 4, hl with
  | [a, b, c, d], _ => exact ⟨be32 a b c d, rfl⟩

theorem width_pv (v : Ver) : Width (if v = .v2019 then 1 else 0) (Header.decodePV v) := by
  unfold Header.decodePV
  split
  · exact width_byte
  · exact Width.pure _

theorem takes_pv (v : Ver) : Takes (if v = .v2019 then 1 else 0) (Header.decodePV v) := by
  unfold Header.decodePV
  split
  · exact takes_byte
  · exact Takes.pure _

theorem width_phone {v : Ver} (h : v = .v2019 ∨ v = .v2013) : Width v.phoneBytes (Header.decodePhone v) := by
  rcases h with rfl | rfl <;> exact width_bcd _

theorem takes_phone {v : Ver} (h : v = .v2019 ∨ v = .v2013) : Takes v.phoneBytes (Header.decodePhone v) := by
  rcases h with rfl | rfl <;> exact takes_bcd _

theorem width_frag (b : Bool) : Width (if b then 4 else 0) (Header.decodeFrag b) := by
  unfold Header.decodeFrag
  split
  · exact Width.bind (n := 4) (m := 0)
      (Width.bind (m := 2) width_word (fun _ => Width.bind (m := 0) width_word (fun _ => Width.pure _)))
      (fun _ => Width.pure _)
  · exact Width.pure _

theorem takes_frag (b : Bool) : Takes (if b then 4 else 0) (Header.decodeFrag b) := by
  unfold Header.decodeFrag
  split
  · exact Takes.bind (n := 4) (m := 0)
      (Takes.bind (m := 2) takes_word (fun _ => Takes.bind (m := 0) takes_word (fun _ => Takes.pure _)))
      (fun _ => Takes.pure _)
  · exact Takes.pure _

/-- The header reader behind the attribute word. -/
def Header.decodeRest (id : UInt16) (attr : Attr) : Rd Header := do
  let pv ← Header.decodePV attr.verDesc
  let phone ← Header.decodePhone attr.verDesc
  let serial ← readWord
  let frag ← Header.decodeFrag attr.fragDesc
  pure { msgID := id, attr := attr, protoVer := pv, phone := phone, serial := serial, frag := frag }

theorem headerLen_rest (v : Ver) (b : Bool) (h : v = .v2019 ∨ v = .v2013) :
    headerLen (v = .v2019) b = 4 + ((if v = .v2019 then 1 else 0) + (v.phoneBytes + (2 + ((if b then 4 else 0) + 0)))) := by
  rcases h with rfl | rfl <;> simp [headerLen, Ver.phoneBytes] <;> omega

theorem width_rest (id : UInt16) (attr : Attr) (h : attr.verDesc = .v2019 ∨ attr.verDesc = .v2013) :
    Width ((if attr.verDesc = .v2019 then 1 else 0) + (attr.verDesc.phoneBytes + (2 + ((if attr.fragDesc then 4 else 0) + 0))))
      (Header.decodeRest id attr) :=
  Width.bind (width_pv _) fun _ => Width.bind (width_phone h) fun _ => Width.bind width_word fun _ =>
    Width.bind (width_frag _) fun _ => Width.pure _

theorem takes_rest (id : UInt16) (attr : Attr) (h : attr.verDesc = .v2019 ∨ attr.verDesc = .v2013) :
    Takes ((if attr.verDesc = .v2019 then 1 else 0) + (attr.verDesc.phoneBytes + (2 + ((if attr.fragDesc then 4 else 0) + 0))))
      (Header.decodeRest id attr) :=
  Takes.bind (takes_pv _) fun _ => Takes.bind (takes_phone h) fun _ => Takes.bind takes_word fun _ =>
    Takes.bind (takes_frag _) fun _ => Takes.pure _

theorem Header.decode_rest : Header.decode =
    (do let id ← readWord; let w ← readWord; Header.decodeRest id (Attr.decode w)) := rfl

theorem Header.decodeRest_attr {s : Slice} {i j : Nat} {id : UInt16} {attr : Attr} {h : Header}
    (hd : Header.decodeRest id attr s i = .ok (h, j)) : h.attr = attr ∧ h.msgID = id := by
  unfold Header.decodeRest at hd
  obtain ⟨pv, i3, -, hd⟩ := rd_bind_ok hd
  obtain ⟨ph, i4, -, hd⟩ := rd_bind_ok hd
  obtain ⟨sn, i5, -, hd⟩ := rd_bind_ok hd
  obtain ⟨fr, i6, -, hd⟩ := rd_bind_ok hd
  rw [rd_pure_eq] at hd
  injection hd with hd; injection hd with hd _
  rw [← hd]; exact ⟨rfl, rfl⟩

/-- Where a decoded header ends, and which attribute word it has. -/
theorem Header.decode_inv {s : Slice} {h : Header} {j : Nat} (hd : Header.decode s 0 = .ok (h, j)) :
    h.msgID = be16 (s.mem.getD 0 0) (s.mem.getD 1 0) ∧
    h.attr = Attr.decode (be16 (s.mem.getD 2 0) (s.mem.getD 3 0)) ∧
    j = headerLen (h.attr.verDesc = .v2019) h.attr.fragDesc := by
  rw [Header.decode_rest] at hd
  obtain ⟨id, i1, e1, hd1⟩ := rd_bind_ok hd
  obtain ⟨w, i2, e2, hd2⟩ := rd_bind_ok hd1
  obtain ⟨a1, -, a1'⟩ := readWord_inv e1
  obtain ⟨a2, -, a2'⟩ := readWord_inv e2
  obtain ⟨hattr, hid⟩ := Header.decodeRest_attr hd2
  subst a1
  refine ⟨by rw [hid, a1'], by rw [hattr, a2'], ?_⟩
  have hv := (Attr.decode_wf w).verDesc_cases
  have := width_rest id (Attr.decode w) hv s i2 h j hd2
  rw [hattr, headerLen_rest _ _ hv]
  omega

theorem getD_mem (s : Slice) {i : Nat} (hi : i < s.data.length) : s.mem.getD i 0 = s.data.getD i 0 := by
  simp [Slice.mem, List.getD, List.getElem?_append_left hi]

theorem Header.decode_complete (s : Slice)
    (h : headerLen ((Attr.decode (be16 (s.data.getD 2 0) (s.data.getD 3 0))).verDesc = .v2019)
      (Attr.decode (be16 (s.data.getD 2 0) (s.data.getD 3 0))).fragDesc ≤ s.data.length) :
    ∃ hd, Header.decode s 0 = .ok (hd,
      headerLen ((Attr.decode (be16 (s.data.getD 2 0) (s.data.getD 3 0))).verDesc = .v2019)
      (Attr.decode (be16 (s.data.getD 2 0) (s.data.getD 3 0))).fragDesc) := by
  have hmem : s.data.length ≤ s.mem.length := by simp [Slice.mem]
  have h12 : 12 ≤ s.data.length := by
    refine Nat.le_trans ?_ h
    unfold headerLen
    split <;> omega
  have hv := (Attr.decode_wf (be16 (s.data.getD 2 0) (s.data.getD 3 0))).verDesc_cases
  rw [Header.decode_rest, rd_bind_eq, readWord_ok s 0 (by omega)]
  simp only
  rw [rd_bind_eq, readWord_ok s 2 (by omega), getD_mem s (by omega : 2 < _), getD_mem s (by omega : 3 < _)]
  simp only
  rw [headerLen_rest _ _ hv] at h ⊢
  have := takes_rest (be16 (s.mem.getD 0 0) (s.mem.getD 1 0)) _ hv s 4 h
  exact this

/-! ### Decoded headers -/

theorem hex2_chars (b : UInt8) : ∀ c ∈ hex2 b, bcdChar c ∨ c = 0x46 := by
  have key : ∀ n, n < 256 → ∀ c ∈ hex2 (UInt8.ofNat n), bcdChar c ∨ c = 0x46 := by decide +kernel
  exact forall_uint8 (P := fun b => ∀ c ∈ hex2 b, bcdChar c ∨ c = 0x46) key b

theorem lastIndex_spec (c : UInt8) (s : Str) :
    (c ∉ s ∧ lastIndex c s = none) ∨ ∃ k, lastIndex c s = some k ∧ k < s.length ∧ c ∉ s.drop (k + 1) := by
  by_cases h : c ∈ s
  · right
    have : ∃ a b, s = a ++ c :: b ∧ c ∉ b := by
      induction s with
      | nil => simp at h
      | cons x s ih =>
        by_cases hs : c ∈ s
        · obtain ⟨a, b, h1, h2⟩ := ih hs
          exact ⟨x :: a, b, by simp [h1], h2⟩
        · have : x = c := by
            rcases List.mem_cons.mp h with h | h
            · exact h.symm
            · exact absurd h hs
          exact ⟨[], s, by simp [this], hs⟩
    obtain ⟨a, b, rfl, hb⟩ := this
    refine ⟨a.length, lastIndex_split hb, by simp, ?_⟩
    have : (a ++ c :: b).drop (a.length + 1) = b := by simp
    rwa [this]
  · exact Or.inl ⟨h, lastIndex_none h⟩

theorem bcd2NumberStr_chars (bs : List UInt8) : ∀ c ∈ bcd2NumberStr bs, bcdChar c := by
  have hc : ∀ c ∈ bs.flatMap hex2, bcdChar c ∨ c = 0x46 := by
    intro c hc
    obtain ⟨b, -, hb⟩ := List.mem_flatMap.mp hc
    exact hex2_chars b c hb
  simp only [bcd2NumberStr]
  rcases lastIndex_spec 0x46 (bs.flatMap hex2) with ⟨h, e⟩ | ⟨k, e, -, h⟩
  · simp only [e]
    intro c hm
    rcases hc c hm with h' | h'
    · exact h'
    · subst h'; exact absurd hm h
  · simp only [e]
    split
    · decide
    · intro c hm
      rcases hc c (List.mem_of_mem_drop hm) with h' | h'
      · exact h'
      · subst h'; exact absurd hm h

/-- A BCD string that fills its field had no F digit. -/
theorem bcd2NumberStr_full {bs : List UInt8} (h : (bcd2NumberStr bs).length = 2 * bs.length) (_hb : bs ≠ []) :
    (0x46 : UInt8) ∉ bs.flatMap hex2 := by
  simp only [bcd2NumberStr] at h
  rcases lastIndex_spec 0x46 (bs.flatMap hex2) with ⟨h', e⟩ | ⟨k, e, hk, -⟩
  · exact h'
  · simp only [e] at h
    have hn := hex2_length bs
    split at h
    · simp at h; omega
    · rw [List.length_drop, hn] at h; omega

theorem put16_be16' (a b : UInt8) : put16 (be16 a b) = [a, b] := by
  have ha := a.toNat_lt
  have hb := b.toNat_lt
  unfold put16
  congr 1
  · apply UInt8.toNat_inj.mp
    have h8 : (8 : UInt16).toNat % 16 = 8 := by decide
    simp only [UInt16.toNat_toUInt8, UInt16.toNat_shiftRight, be16_toNat, h8, Nat.shiftRight_eq_div_pow]
    omega
  · congr 1
    apply UInt8.toNat_inj.mp
    simp only [UInt16.toNat_toUInt8, be16_toNat]
    omega

/-- What was read, put back: the bytes consumed are the encoding of the result. -/
def Undo {α : Type} (r : Rd α) (enc : α → List UInt8) : Prop :=
  ∀ s i a j, r s i = .ok (a, j) → i ≤ j ∧ j ≤ s.mem.length ∧ (s.mem.drop i).take (j - i) = enc a

theorem undo_word : Undo readWord put16 := by
  intro s i a j h
  obtain ⟨h1, h2, h3⟩ := readWord_inv h
  subst h1
  refine ⟨by omega, h2, ?_⟩
  rw [h3, put16_be16', show i + 2 - i = 2 by omega, take_two h2]

theorem undo_byte : Undo readByte (fun b => [b]) := by
  intro s i a j h
  obtain ⟨h1, h2, h3⟩ := readByte_inv h
  subst h1
  have hm : i < s.mem.length := by simp [Slice.mem]; omega
  refine ⟨by omega, by omega, ?_⟩
  rw [h3, show i + 1 - i = 1 by omega, List.drop_eq_getElem_cons hm, ← getD_mem s (by omega)]
  simp only [List.take_succ_cons, List.take_zero]
  simp [List.getD, hm]

theorem drop_take_split {l : List UInt8} {i m j : Nat} (h1 : i ≤ m) (h2 : m ≤ j) :
    (l.drop i).take (j - i) = (l.drop i).take (m - i) ++ (l.drop m).take (j - m) := by
  have : j - i = (m - i) + (j - m) := by omega
  rw [this, List.take_add, List.drop_drop]
  have : i + (m - i) = m := by omega
  rw [this]

/-- Facts about any header a decoder returns. -/
theorem Header.decode_facts {s : Slice} {h : Header} {j : Nat} (hd : Header.decode s 0 = .ok (h, j)) :
    h.attr.WF ∧ (∀ c ∈ h.phone, bcdChar c) ∧ (h.attr.verDesc ≠ .v2019 → h.protoVer = 0) ∧
    h.frag.isSome = h.attr.fragDesc ∧
    (h.phone.length = 2 * h.attr.verDesc.phoneBytes → s.mem.take j = h.encode) := by
  rw [Header.decode_rest] at hd
  obtain ⟨id, i1, e1, hd1⟩ := rd_bind_ok hd
  obtain ⟨w, i2, e2, hd2⟩ := rd_bind_ok hd1
  have hattr := (Header.decodeRest_attr hd2).1
  unfold Header.decodeRest at hd2
  obtain ⟨pv, i3, e3, hd3⟩ := rd_bind_ok hd2
  obtain ⟨ph, i4, e4, hd4⟩ := rd_bind_ok hd3
  obtain ⟨sn, i5, e5, hd5⟩ := rd_bind_ok hd4
  obtain ⟨fr, i6, e6, hd6⟩ := rd_bind_ok hd5
  rw [rd_pure_eq] at hd6
  injection hd6 with hd6; injection hd6 with hh hj
  subst hj
  have hwf := Attr.decode_wf w
  obtain ⟨a1, b1, c1⟩ := undo_word _ _ _ _ e1
  obtain ⟨a2, b2, c2⟩ := undo_word _ _ _ _ e2
  obtain ⟨a5, b5, c5⟩ := undo_word _ _ _ _ e5
  have h3 : i2 ≤ i3 ∧ i3 ≤ s.mem.length ∧
      (s.mem.drop i2).take (i3 - i2) = (if (Attr.decode w).verDesc = .v2019 then [pv] else []) ∧
      ((Attr.decode w).verDesc ≠ .v2019 → pv = 0) := by
    unfold Header.decodePV at e3
    split at e3
    · rename_i hv
      obtain ⟨x, y, z⟩ := undo_byte _ _ _ _ e3
      exact ⟨x, y, by rw [z]; simp [hv], fun h => absurd hv h⟩
    · rename_i hv
      rw [rd_pure_eq] at e3
      injection e3 with e3; injection e3 with e3 e3'
      subst e3'
      exact ⟨Nat.le_refl _, b2, by simp [hv], fun _ => e3.symm⟩
  have h4 : i4 = i3 + (Attr.decode w).verDesc.phoneBytes ∧ i4 ≤ s.mem.length ∧
      ph = bcd2NumberStr ((s.mem.drop i3).take (Attr.decode w).verDesc.phoneBytes) := by
    rcases hwf.verDesc_cases with hv | hv <;> rw [hv] at e4 ⊢ <;>
      obtain ⟨-, x, y, z⟩ := readBCD_inv e4 <;> exact ⟨x, y, z⟩
  have h6 : i5 ≤ i6 ∧ (s.mem.drop i5).take (i6 - i5) = fr.elim [] Frag.encode ∧
      fr.isSome = (Attr.decode w).fragDesc := by
    unfold Header.decodeFrag at e6
    split at e6
    · rename_i hf
      obtain ⟨f, i7, e7, e6⟩ := rd_bind_ok e6
      rw [rd_pure_eq] at e6
      injection e6 with e6; injection e6 with e6 e6'
      subst e6 e6'
      unfold Frag.decode at e7
      obtain ⟨t, i8, e8, e7⟩ := rd_bind_ok e7
      obtain ⟨u, i9, e9, e7⟩ := rd_bind_ok e7
      rw [rd_pure_eq] at e7
      injection e7 with e7; injection e7 with e7 e7'
      subst e7 e7'
      obtain ⟨x, y, z⟩ := undo_word _ _ _ _ e8
      obtain ⟨x', y', z'⟩ := undo_word _ _ _ _ e9
      refine ⟨by omega, ?_, by simp [hf]⟩
      rw [drop_take_split x x', z, z']
      simp [Frag.encode, writeWord]
    · rename_i hf
      rw [rd_pure_eq] at e6
      injection e6 with e6; injection e6 with e6 e6'
      subst e6 e6'
      exact ⟨Nat.le_refl _, by simp, by simpa using hf⟩
  obtain ⟨a3, b3, c3, d3⟩ := h3
  obtain ⟨a4, b4, c4⟩ := h4
  obtain ⟨a6, c6, d6⟩ := h6
  subst hh
  refine ⟨hwf, ?_, d3, d6, ?_⟩
  · intro c hc
    rw [c4] at hc
    exact bcd2NumberStr_chars _ c hc
  · intro hl
    simp only at hl
    have hlen : ((s.mem.drop i3).take (Attr.decode w).verDesc.phoneBytes).length =
        (Attr.decode w).verDesc.phoneBytes := by
      rw [List.length_take, List.length_drop]; omega
    have hpb : 6 ≤ (Attr.decode w).verDesc.phoneBytes := by cases (Attr.decode w).verDesc <;> decide
    have hF : (0x46 : UInt8) ∉ ((s.mem.drop i3).take (Attr.decode w).verDesc.phoneBytes).flatMap hex2 := by
      apply bcd2NumberStr_full
      · rw [← c4, hlen, hl]
      · intro h0; rw [h0] at hlen; simp at hlen; omega
    have hphone : numberStr2BCD ph = (s.mem.drop i3).take (i4 - i3) := by
      rw [c4, bcd_roundtrip_bytes _ hF (by omega), a4]
      congr 1; omega
    rw [Header.encode_eq]
    simp only [Attr.encode_decode]
    have e : s.mem.take i6 = (s.mem.drop 0).take (i6 - 0) := by simp
    rw [e, drop_take_split a1 (by omega), drop_take_split a2 (by omega), drop_take_split a3 (by omega),
      drop_take_split (i := i3) (m := i4) (by omega) (by omega), drop_take_split a5 a6, c1, c2, c3, c5, c6, hphone]

theorem Header.decode_wf {s : Slice} {h : Header} {j : Nat} (hd : Header.decode s 0 = .ok (h, j))
    (hl : h.phone.length = 2 * h.attr.verDesc.phoneBytes) : h.WF := by
  obtain ⟨h1, h2, h3, h4, -⟩ := Header.decode_facts hd
  exact ⟨h1, ⟨h2, hl⟩, h3, h4⟩

end JT808
