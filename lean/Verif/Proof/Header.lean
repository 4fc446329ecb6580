import Verif.Proof.Reader
import Verif.Proof.Bcd
import Verif.Proof.Framing
import Verif.Model.Codec
import Verif.Spec.Header
/-
Helper lemmas about the attribute word and the header.
-/
namespace JT808
open Spec

theorem and_mask_shift (x n k : Nat) : (x &&& ((2 ^ n - 1) <<< k)) >>> k = x / 2 ^ k % 2 ^ n := by
  rw [Nat.shiftRight_and_distrib, Nat.shiftLeft_shiftRight, Nat.and_two_pow_sub_one_eq_mod,
    Nat.shiftRight_eq_div_pow]

theorem Attr.decode_bodyLength (w : UInt16) : (Attr.decode w).bodyLength.toNat = bits w.toNat 0 10 := by
  have := and_mask_shift w.toNat 10 0
  simpa [Attr.decode, bits, UInt16.toNat_and] using this

theorem Attr.decode_encryption (w : UInt16) : (Attr.decode w).encryption.toNat = bits w.toNat 10 3 := by
  have := and_mask_shift w.toNat 3 10
  simp only [Attr.decode, bits, UInt16.toNat_toUInt8, UInt16.toNat_shiftRight, UInt16.toNat_and]
  rw [← this]
  have h : (w.toNat &&& (2 ^ 3 - 1) <<< 10) >>> 10 < 256 := by rw [this]; omega
  exact Nat.mod_eq_of_lt h

theorem Attr.decode_packetFragmented (w : UInt16) :
    (Attr.decode w).packetFragmented.toNat = bits w.toNat 13 1 := by
  have := and_mask_shift w.toNat 1 13
  simp only [Attr.decode, bits, UInt16.toNat_toUInt8, UInt16.toNat_shiftRight, UInt16.toNat_and]
  rw [← this]
  have h : (w.toNat &&& (2 ^ 1 - 1) <<< 13) >>> 13 < 256 := by rw [this]; omega
  exact Nat.mod_eq_of_lt h

theorem Attr.decode_versionSign (w : UInt16) : (Attr.decode w).versionSign.toNat = bits w.toNat 14 1 := by
  have := and_mask_shift w.toNat 1 14
  simp only [Attr.decode, bits, UInt16.toNat_toUInt8, UInt16.toNat_shiftRight, UInt16.toNat_and]
  rw [← this]
  have h : (w.toNat &&& (2 ^ 1 - 1) <<< 14) >>> 14 < 256 := by rw [this]; omega
  exact Nat.mod_eq_of_lt h

theorem Attr.decode_extra (w : UInt16) : (Attr.decode w).extra.toNat = bits w.toNat 15 1 := by
  have := and_mask_shift w.toNat 1 15
  simp only [Attr.decode, bits, UInt16.toNat_toUInt8, UInt16.toNat_shiftRight, UInt16.toNat_and]
  rw [← this]
  have h : (w.toNat &&& (2 ^ 1 - 1) <<< 15) >>> 15 < 256 := by rw [this]; omega
  exact Nat.mod_eq_of_lt h

theorem Attr.encode_toNat (a : Attr) (h1 : a.bodyLength.toNat < 2 ^ 10) (h2 : a.encryption.toNat < 2 ^ 3)
    (h3 : a.packetFragmented.toNat < 2) (h4 : a.versionSign.toNat < 2) (h5 : a.extra.toNat < 2) :
    a.encode.toNat = attrWord a.bodyLength.toNat a.encryption.toNat a.packetFragmented.toNat
      a.versionSign.toNat a.extra.toNat := by
  unfold Attr.encode attrWord
  have e10 : (10 : UInt16).toNat % 16 = 10 := by decide
  have e13 : (13 : UInt16).toNat % 16 = 13 := by decide
  have e14 : (14 : UInt16).toNat % 16 = 14 := by decide
  have e15 : (15 : UInt16).toNat % 16 = 15 := by decide
  simp only [UInt16.toNat_add, UInt16.toNat_shiftLeft, UInt8.toNat_toUInt16, Nat.shiftLeft_eq, e10, e13, e14, e15]
  omega

/-- Attributes as a decoder produces them: every field within its width, derived fields in agreement. -/
structure Attr.WF (a : Attr) : Prop where
  len : a.bodyLength.toNat < 2 ^ 10
  enc : a.encryption.toNat < 2 ^ 3
  frag : a.packetFragmented.toNat < 2
  ver : a.versionSign.toNat < 2
  ext : a.extra.toNat < 2
  encD : a.encDesc = if a.encryption = 0 then .none else if a.encryption = 1 then .rsa else .unknown
  fragD : a.fragDesc = (a.packetFragmented == 1)
  verD : a.verDesc = if a.versionSign = 1 then .v2019 else .v2013

theorem Attr.decode_wf (w : UInt16) : (Attr.decode w).WF where
  len := by rw [Attr.decode_bodyLength]; exact Nat.mod_lt _ (by decide)
  enc := by rw [Attr.decode_encryption]; exact Nat.mod_lt _ (by decide)
  frag := by rw [Attr.decode_packetFragmented]; exact Nat.mod_lt _ (by decide)
  ver := by rw [Attr.decode_versionSign]; exact Nat.mod_lt _ (by decide)
  ext := by rw [Attr.decode_extra]; exact Nat.mod_lt _ (by decide)
  encD := rfl
  fragD := rfl
  verD := rfl

theorem Attr.encode_decode (w : UInt16) : (Attr.decode w).encode = w := by
  have hw := Attr.decode_wf w
  apply UInt16.toNat_inj.mp
  rw [Attr.encode_toNat _ hw.len hw.enc hw.frag hw.ver hw.ext, Attr.decode_bodyLength, Attr.decode_encryption,
    Attr.decode_packetFragmented, Attr.decode_versionSign, Attr.decode_extra]
  have := w.toNat_lt
  simp only [attrWord, bits]; omega

theorem Attr.ext_of {a b : Attr} (ha : a.WF) (hb : b.WF) (h1 : a.bodyLength = b.bodyLength)
    (h2 : a.encryption = b.encryption) (h3 : a.packetFragmented = b.packetFragmented)
    (h4 : a.versionSign = b.versionSign) (h5 : a.extra = b.extra) : a = b := by
  have e1 := ha.encD; have e2 := ha.fragD; have e3 := ha.verD
  have f1 := hb.encD; have f2 := hb.fragD; have f3 := hb.verD
  cases a; cases b
  simp only at *
  subst h1 h2 h3 h4 h5
  rw [e1, e2, e3, f1, f2, f3]

theorem Attr.decode_encode {a : Attr} (ha : a.WF) : Attr.decode a.encode = a := by
  have he := Attr.encode_toNat a ha.len ha.enc ha.frag ha.ver ha.ext
  have := ha.len; have := ha.enc; have := ha.frag; have := ha.ver; have := ha.ext
  apply Attr.ext_of (Attr.decode_wf _) ha
  · apply UInt16.toNat_inj.mp; rw [Attr.decode_bodyLength, he]; simp only [attrWord, bits]; omega
  · apply UInt8.toNat_inj.mp; rw [Attr.decode_encryption, he]; simp only [attrWord, bits]; omega
  · apply UInt8.toNat_inj.mp; rw [Attr.decode_packetFragmented, he]; simp only [attrWord, bits]; omega
  · apply UInt8.toNat_inj.mp; rw [Attr.decode_versionSign, he]; simp only [attrWord, bits]; omega
  · apply UInt8.toNat_inj.mp; rw [Attr.decode_extra, he]; simp only [attrWord, bits]; omega

/-- Bytes of the phone field. -/
def Ver.phoneBytes : Ver → Nat
  | .v2019 => 10
  | _ => 6

/-- A phone number that fills its BCD field: 12 characters (2013) or 20 (2019). -/
structure PhoneWF (v : Ver) (phone : Str) : Prop where
  chars : ∀ c ∈ phone, bcdChar c
  len : phone.length = 2 * v.phoneBytes

/-- Headers a decoder can produce from F-free phone fields. -/
structure Header.WF (h : Header) : Prop where
  attr : h.attr.WF
  phone : PhoneWF h.attr.verDesc h.phone
  pv : h.attr.verDesc ≠ .v2019 → h.protoVer = 0
  frag : h.frag.isSome = h.attr.fragDesc

theorem Attr.WF.verDesc_cases {a : Attr} (h : a.WF) : a.verDesc = .v2019 ∨ a.verDesc = .v2013 := by
  rw [h.verD]; split <;> simp

theorem numberStr2BCD_phone_length {v : Ver} {p : Str} (h : PhoneWF v p) :
    (numberStr2BCD p).length = v.phoneBytes := by
  have hl := h.len
  have : 6 ≤ v.phoneBytes := by cases v <;> decide
  rw [numberStr2BCD_length h.chars (by omega) (by omega), hl]
  omega

theorem bcd_phone {v : Ver} {p : Str} (h : PhoneWF v p) : bcd2NumberStr (numberStr2BCD p) = p := by
  rw [bcd_roundtrip h.chars, if_pos]
  right
  have hl := h.len
  omega

theorem readsAt_frag (i : Nat) (f : Frag) : ReadsAt i Frag.decode f.encode f := by
  unfold Frag.decode Frag.encode writeWord
  simp only [List.nil_append]
  exact ReadsAt.bind (readsAt_word _ _) (ReadsAt.bind0 (readsAt_word _ _) (ReadsAt.pure _ _))

theorem Header.encode_eq (h : Header) : h.encode =
    put16 h.msgID ++ (put16 h.attr.encode ++ ((if h.attr.verDesc = .v2019 then [h.protoVer] else []) ++
      (numberStr2BCD h.phone ++ (put16 h.serial ++ h.frag.elim [] Frag.encode)))) := by
  unfold Header.encode
  cases h.frag <;> by_cases hv : h.attr.verDesc = .v2019 <;>
    simp [writeWord, writeByte, writeBCD, hv, List.append_assoc]

theorem readsAt_header (i : Nat) {h : Header} (hw : h.WF) : ReadsAt i Header.decode h.encode h := by
  rw [Header.encode_eq]
  unfold Header.decode
  refine ReadsAt.bind (readsAt_word _ _) ?_
  refine ReadsAt.bind (readsAt_word _ _) ?_
  simp only [Attr.decode_encode hw.attr]
  refine ReadsAt.bind (a := h.protoVer) ?_ ?_
  · unfold Header.decodePV
    by_cases hv : h.attr.verDesc = .v2019
    · simp only [hv, if_true]; exact readsAt_byte _ _
    · simp only [hv, if_false, hw.pv hv]; exact ReadsAt.pure _ _
  refine ReadsAt.bind (a := h.phone) ?_ ?_
  · have hl := numberStr2BCD_phone_length hw.phone
    have hb := bcd_phone hw.phone
    have e : Header.decodePhone h.attr.verDesc = readBCD h.attr.verDesc.phoneBytes := by
      rcases hw.attr.verDesc_cases with hv | hv <;> rw [hv] <;> rfl
    rw [e, ← hl]
    have := readsAt_bcd (i + (put16 h.msgID).length + (put16 h.attr.encode).length +
      (if h.attr.verDesc = .v2019 then [h.protoVer] else []).length) (numberStr2BCD h.phone).length
        (numberStr2BCD h.phone) rfl
    rw [hb] at this
    exact this
  refine ReadsAt.bind (readsAt_word _ _) ?_
  refine ReadsAt.bind0 (a := h.frag) ?_ (ReadsAt.pure _ _)
  have hf := hw.frag
  unfold Header.decodeFrag
  cases hfr : h.frag with
  | none =>
    have : h.attr.fragDesc = false := by rw [← hf, hfr]; rfl
    simp only [this]
    exact ReadsAt.pure _ _
  | some f =>
    have : h.attr.fragDesc = true := by rw [← hf, hfr]; rfl
    simp only [this, if_true]
    exact ReadsAt.map (readsAt_frag _ f)

theorem Header.encode_length {h : Header} (hw : h.WF) :
    h.encode.length = headerLen (h.attr.verDesc = .v2019) h.attr.fragDesc := by
  have hl := numberStr2BCD_phone_length hw.phone
  have hf := hw.frag
  rw [Header.encode_eq]
  simp only [List.length_append, put16_length, hl, headerLen]
  rcases hw.attr.verDesc_cases with hv | hv <;> rw [hv] <;>
    cases hfr : h.frag <;> simp [hfr] at hf <;>
    simp [hf, Frag.encode, writeWord, put16_length, Ver.phoneBytes]

theorem Header.withBodyLength_wf {h : Header} (hw : h.WF) (n : Nat) (hn : n < 1024) :
    (h.withBodyLength n).WF where
  attr := { len := by
              simp only [Header.withBodyLength, UInt16.toNat_ofNat']
              omega
            enc := hw.attr.enc, frag := hw.attr.frag, ver := hw.attr.ver, ext := hw.attr.ext
            encD := hw.attr.encD, fragD := hw.attr.fragD, verD := hw.attr.verD }
  phone := hw.phone
  pv := hw.pv
  frag := hw.frag

/-! ### Locality of readers -/

/-- A reader that succeeds has consumed `mem[i..j)` and would do the same on any slice that holds those bytes
within its length. -/
def Local {α : Type} (r : Rd α) : Prop :=
  ∀ s i a j, r s i = .ok (a, j) → i ≤ j ∧ (i ≤ s.mem.length → j ≤ s.mem.length) ∧
    ∀ s' : Slice, j ≤ s'.data.length → s'.data.take j = s.mem.take j → r s' i = .ok (a, j)

theorem Local.pure {α : Type} (a : α) : Local (Pure.pure a : Rd α) := by
  intro s i b j h
  rw [rd_pure_eq] at h
  injection h with h; injection h with h1 h2; subst h1 h2
  exact ⟨Nat.le_refl _, id, fun s' _ _ => rfl⟩

theorem Local.fail {α : Type} (e : Err) : Local (Rd.fail e : Rd α) := by
  intro s i b j h; cases h

theorem Local.panic {α : Type} : Local (Rd.panic : Rd α) := by
  intro s i b j h; cases h

theorem Local.getIdx : Local Rd.getIdx := by
  intro s i b j h
  injection h with h; injection h with h1 h2; subst h1 h2
  exact ⟨Nat.le_refl _, id, fun s' _ _ => rfl⟩

theorem take_of_take {α : Type} {x y : List α} {m j : Nat} (h : m ≤ j) (e : x.take j = y.take j) :
    x.take m = y.take m := by
  have := congrArg (List.take m) e
  simpa [List.take_take, Nat.min_eq_left h] using this

theorem Local.bind {α β : Type} {r : Rd α} {f : α → Rd β} (hr : Local r) (hf : ∀ a, Local (f a)) :
    Local (r >>= f) := by
  intro s i b j h
  rw [rd_bind_eq] at h
  cases hr' : r s i with
  | err e => simp [hr'] at h
  | panic => simp [hr'] at h
  | ok x =>
    obtain ⟨a, m⟩ := x
    simp only [hr'] at h
    obtain ⟨h1, h2, h3⟩ := hr s i a m hr'
    obtain ⟨g1, g2, g3⟩ := hf a s m b j h
    refine ⟨Nat.le_trans h1 g1, fun hi => g2 (h2 hi), ?_⟩
    intro s' hl he
    rw [rd_bind_eq, h3 s' (Nat.le_trans g1 hl) (take_of_take g1 he)]
    exact g3 s' hl he

theorem Local.readByte : Local readByte := by
  intro s i b j h
  unfold JT808.readByte Slice.index at h
  cases hd : s.data[i]? with
  | none => simp [hd] at h
  | some c =>
    simp only [hd] at h
    injection h with h; injection h with h1 h2; subst h1 h2
    have hi : i < s.data.length := by
      rw [List.getElem?_eq_some_iff] at hd; exact hd.1
    refine ⟨by omega, fun _ => by simp [Slice.mem]; omega, ?_⟩
    intro s' hl he
    have e1 : s'.data[i]? = (s'.data.take (i + 1))[i]? := by simp
    have e2 : (s.mem.take (i + 1))[i]? = s.data[i]? := by
      simp [Slice.mem, List.getElem?_append_left hi]
    unfold JT808.readByte Slice.index
    rw [e1, he, e2, hd]

theorem Local.readBytes (n : Int) : Local (readBytes n) := by
  intro s i b j h
  unfold JT808.readBytes Slice.sub at h
  split at h
  · rename_i bs hb
    injection h with h; injection h with h1 h2; subst h1 h2
    split at hb
    · rename_i hc
      injection hb with hb; subst hb
      refine ⟨by omega, fun _ => hc.2, ?_⟩
      intro s' hl he
      have hc' : 0 ≤ n ∧ i + n.toNat ≤ s'.mem.length := ⟨hc.1, by simp [Slice.mem]; omega⟩
      unfold JT808.readBytes Slice.sub
      rw [if_pos hc']
      have e : (s'.mem.drop i).take n.toNat = (s.mem.drop i).take n.toNat := by
        have e1 : s'.mem.take (i + n.toNat) = s.mem.take (i + n.toNat) := by
          rw [← he, Slice.mem, List.take_append_of_le_length hl]
        have e2 := congrArg (List.drop i) e1
        simp only [List.drop_take] at e2
        have : i + n.toNat - i = n.toNat := by omega
        rwa [this] at e2
      simp [e]
    · cases hb
  · cases h
  · cases h

theorem Local.readWord : Local readWord := by
  unfold JT808.readWord
  refine Local.bind (Local.readBytes 2) (fun bs => ?_)
  match bs with
  | [a, b] => exact Local.pure _
  | [] => exact Local.panic
  | [_] => exact Local.panic
  | _ :: _ :: _ :: _ => exact Local.panic

theorem Local.readDWord : Local readDWord := by
  unfold JT808.readDWord
  refine Local.bind (Local.readBytes 4) (fun bs => ?_)
  match bs with
  | [a, b, c, d] => exact Local.pure _
  | [] => exact Local.panic
  | [_] => exact Local.panic
  | [_, _] => exact Local.panic
  | [_, _, _] => exact Local.panic
  | _ :: _ :: _ :: _ :: _ :: _ => exact Local.panic

theorem Local.readBCD (n : Int) : Local (readBCD n) :=
  Local.bind (Local.readBytes n) (fun _ => Local.pure _)

theorem Local.readGBK (env : Env) (n : Int) : Local (readGBK env n) := by
  unfold JT808.readGBK
  refine Local.bind (Local.readBytes n) (fun bs => ?_)
  split <;> exact Local.pure _

theorem Local.frag : Local Frag.decode :=
  Local.bind Local.readWord (fun _ => Local.bind Local.readWord (fun _ => Local.pure _))

theorem Local.header : Local Header.decode := by
  unfold Header.decode
  refine Local.bind Local.readWord (fun _ => Local.bind Local.readWord (fun w => ?_))
  refine Local.bind (by unfold Header.decodePV; split; exact Local.readByte; exact Local.pure _) (fun _ => ?_)
  refine Local.bind (by
    unfold Header.decodePhone; split; exact Local.readBCD _; exact Local.readBCD _; exact Local.fail _) (fun _ => ?_)
  refine Local.bind Local.readWord (fun _ => ?_)
  refine Local.bind ?_ (fun _ => Local.pure _)
  unfold Header.decodeFrag
  split
  · exact Local.bind Local.frag (fun _ => Local.pure _)
  · exact Local.pure _

end JT808
