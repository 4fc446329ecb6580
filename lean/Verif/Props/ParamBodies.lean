import Verif.Props.Bodies
import Verif.Props.Gbk
import Verif.Props.Phones
/-
C142, continued: lists of parameters, and positions.
-/
namespace JT808
open Spec

/-- The bytes of a value as they are written. BYTE, WORD and DWORD: as many as the type has. BCD: digits below fifteen, two to a
byte, short ones filled up. GBK: what GBK has for the text that they are. -/
def Spec.PlainValue (env : Env) : PType → List UInt8 → Prop
  | .byte, v => v.length = 1
  | .word, v => v.length = 2
  | .dword, v => v.length = 4
  | .bcd, v => ∃ ds : List Nat, (∀ d ∈ ds, d < 15) ∧ v = bcdValue ds
  | .string, _ => True
  | .gbk, v => (env.gbkEnc ((env.gbkDec v).getD [])).getD [] = v

/-- A number of parameters, one after the other, each with the length that it has. -/
inductive Spec.PlainList (env : Env) : Nat → List UInt8 → Prop
  | nil : PlainList env 0 []
  | cons {id : UInt32} {t : PType} {v : List UInt8} {n : Nat} {rest : List UInt8} : id.toNat ∈ paramIDs t → v.length ≤ 255 →
      PlainValue env t v → PlainList env n rest → PlainList env (n + 1) (paramItem id.toNat v ++ rest)

/-! ### BCD -/

/-- The value of a character of a BCD text. -/
def bcdDigit (c : UInt8) : Nat := if c < 0x40 then (c - 0x30).toNat else (c - 0x37).toNat

theorem bcdDigit_spec : ∀ c : UInt8, bcdChar c →
    bcdDigit c < 15 ∧ hexVal c = some (UInt8.ofNat (bcdDigit c)) ∧ hexDigit (UInt8.ofNat (bcdDigit c)) = c := by
  intro c
  refine forall_uint8 (P := fun c => bcdChar c →
    bcdDigit c < 15 ∧ hexVal c = some (UInt8.ofNat (bcdDigit c)) ∧ hexDigit (UInt8.ofNat (bcdDigit c)) = c) ?_ c
  decide +kernel

theorem numberStr2BCD_is (s : Str) (h : ∀ c ∈ s, bcdChar c) : numberStr2BCD s = bcdValue (s.map bcdDigit) := by
  have := str2Byte_nibbles (List.replicate (8 - s.length) (0x66, 15) ++ s.map fun c => (c, bcdDigit c)) (by
    intro p hp
    rcases List.mem_append.mp hp with hp | hp
    · rw [(List.mem_replicate.mp hp).2]; decide
    · obtain ⟨c, hc, rfl⟩ := List.mem_map.mp hp; exact (bcdDigit_spec c (h c hc)).2.1)
  unfold numberStr2BCD bcdValue
  simp only [List.map_append, List.map_replicate, List.map_map] at this
  rw [show List.map ((fun x : UInt8 × Nat => x.1) ∘ fun c => (c, bcdDigit c)) s = s by simp [Function.comp_def],
    show List.map ((fun x : UInt8 × Nat => x.2) ∘ fun c => (c, bcdDigit c)) s = s.map bcdDigit from rfl] at this
  rw [List.length_map]
  exact this

theorem digits_text (ds : List Nat) (h : ∀ d ∈ ds, d < 15) :
    ∃ s : Str, (∀ c ∈ s, bcdChar c) ∧ s.map bcdDigit = ds := by
  refine ⟨ds.map fun d => hexDigit (UInt8.ofNat d), ?_, ?_⟩
  · intro c hc
    obtain ⟨d, hd, rfl⟩ := List.mem_map.1 hc
    have : ∀ d, d < 15 → bcdChar (hexDigit (UInt8.ofNat d)) := by decide +kernel
    exact this d (h d hd)
  · rw [List.map_map]
    have key : ∀ d, d < 15 → bcdDigit (hexDigit (UInt8.ofNat d)) = d := by decide +kernel
    conv => rhs; rw [← List.map_id ds]
    exact List.map_congr_left fun d hd => key d (h d hd)

theorem bcd_plain (env : Env) (v : List UInt8) : numberStr2BCD (bcd2NumberStr v) = v ↔ PlainValue env .bcd v := by
  constructor
  · intro h
    have hc := bcd2NumberStr_chars v
    refine ⟨(bcd2NumberStr v).map bcdDigit, ?_, ?_⟩
    · intro d hd
      obtain ⟨c, h1, rfl⟩ := List.mem_map.1 hd
      exact (bcdDigit_spec c (hc c h1)).1
    · rw [← numberStr2BCD_is _ hc, h]
  · rintro ⟨ds, h1, rfl⟩
    obtain ⟨s, h2, rfl⟩ := digits_text ds h1
    rw [← numberStr2BCD_is s h2, bcd_roundtrip h2]
    by_cases hl : s.length ≤ 8 ∨ s.length % 2 = 0
    · rw [if_pos hl]
    · rw [if_neg hl]
      unfold numberStr2BCD
      rw [show 8 - s.dropLast.length = 0 by rw [List.length_dropLast]; omega, show 8 - s.length = 0 by omega]
      exact (str2Byte_odd s (by omega)).symm

theorem bcd_written_length (v : List UInt8) (hv : 0 < v.length) :
    (numberStr2BCD (bcd2NumberStr v)).length ≤ max 4 v.length ∧ 4 ≤ (numberStr2BCD (bcd2NumberStr v)).length := by
  have h1 := bcd2NumberStr_length_le v hv
  rw [numberStr2BCD_is _ (bcd2NumberStr_chars v), bcdValue, packBcd_length, List.length_append, List.length_replicate, List.length_map]
  omega

/-! ### One parameter -/

/-- Texts do not get much longer by being read and written again. -/
def Spec.GbkBound (env : Env) : Prop := ∀ v g, env.gbkEnc ((env.gbkDec v).getD []) = some g → g.length ≤ 2 * v.length

theorem gbkText_length {T : GbkTable} {g : List UInt8} {t : List Nat} (h : GbkText T g t) : g.length ≤ 2 * t.length := by
  induction h with
  | nil => simp
  | ascii _ _ ih => simp only [List.length_cons]; omega
  | euro _ ih => simp only [List.length_cons]; omega
  | pair _ _ _ _ _ ih => simp only [List.length_cons]; omega

theorem gbkBound_env (T : GbkTable) (hT : GbkTable.Sound T) (env : Env) : GbkBound (gbkEnv T env) := by
  intro v g h
  obtain ⟨t, h1, h2, h3⟩ := C144_read T hT v
  have h : utf8ToGbk T ((gbkToUtf8 T v).getD []) = some g := h
  rw [h1, Option.getD_some] at h
  obtain ⟨t', e, h4, h5⟩ := (C144_write T hT _ g).1 h
  have h6 := seen_utf8Text h4
  rw [← e] at h6
  have : t' = t := seen_unique h6 (seen_utf8Text h2)
  subst this
  have := gbkText_length h5
  omega

theorem undo_item {env : Env} (hE : GbkBound env) {s : Slice} {i j : Nat} {p : ParamData}
    (h : ParamData.decode env s i = .ok (p, j)) :
    ∃ t v w, p.id.toNat ∈ paramIDs t ∧ Seg s i j (put32 p.id ++ [p.len] ++ v) ∧
      p.encode env = .ok (put32 p.id ++ [UInt8.ofNat w.length] ++ w) ∧
      (UInt8.ofNat w.length = p.len → w.length = v.length ∧ v.length = p.len.toNat) ∧
      (∀ v' : List UInt8, v'.length = p.len.toNat → PlainValue env t v' → v.length = v'.length) ∧
      (w = v ↔ PlainValue env t v) := by
  unfold ParamData.decode at h
  obtain ⟨id, k1, e1, h⟩ := rd_bind_ok h
  obtain ⟨len, k2, e2, h⟩ := rd_bind_ok h
  obtain ⟨x, k3, e3, h⟩ := rd_bind_ok h
  rw [rd_pure_eq] at h
  cases h
  have front : Seg s i k2 (put32 id ++ [len]) := (seg_dword e1).trans (undo_byte _ _ _ _ e2)
  have hlen := len.toNat_lt
  unfold ParamData.decodeValue at e3
  cases ht : argTable id with
  | none => rw [ht] at e3; cases e3
  | some k =>
    rw [ht] at e3
    have henc : ∀ w, k.encode env x = .ok w → ParamData.encode env ⟨id, len, x⟩ =
        .ok (put32 id ++ [UInt8.ofNat w.length] ++ w) := by
      intro w hw
      unfold ParamData.encode
      simp only [ht, hw]
      simp [writeBytes, writeByte, writeDWord]
    have cong : ∀ n : Nat, UInt8.ofNat n = len → n < 256 → n = len.toNat := by
      intro n h1 h2
      rw [← h1, UInt8.toNat_ofNat']; omega
    cases k with
    | byte =>
      obtain ⟨b, k4, e4, e3⟩ := rd_bind_ok e3
      rw [rd_pure_eq] at e3; cases e3
      refine ⟨.byte, [b], [b], (C23_table id .byte).mp ht, front.trans (undo_byte _ _ _ _ e4), henc _ rfl, ?_, ?_, ?_⟩
      · intro h; exact ⟨rfl, cong _ h (by simp)⟩
      · intro v' _ h; exact h.symm
      · exact iff_of_true rfl rfl
    | word =>
      obtain ⟨b, k4, e4, e3⟩ := rd_bind_ok e3
      rw [rd_pure_eq] at e3; cases e3
      refine ⟨.word, put16 b, put16 b, (C23_table id .word).mp ht, front.trans (undo_word _ _ _ _ e4), henc _ rfl, ?_, ?_, ?_⟩
      · intro h; exact ⟨rfl, cong _ h (by rw [put16_length]; omega)⟩
      · intro v' _ h; exact h.symm
      · exact iff_of_true rfl rfl
    | dword =>
      obtain ⟨b, k4, e4, e3⟩ := rd_bind_ok e3
      rw [rd_pure_eq] at e3; cases e3
      refine ⟨.dword, put32 b, put32 b, (C23_table id .dword).mp ht, front.trans (seg_dword e4), henc _ rfl, ?_, ?_, ?_⟩
      · intro h; exact ⟨rfl, cong _ h (by rw [put32_length]; omega)⟩
      · intro v' _ h; exact h.symm
      · exact iff_of_true rfl rfl
    | bytes =>
      obtain ⟨b, k4, e4, e3⟩ := rd_bind_ok e3
      rw [rd_pure_eq] at e3; cases e3
      unfold readBCD at e4
      obtain ⟨v, k5, e5, e4⟩ := rd_bind_ok e4
      rw [rd_pure_eq] at e4; cases e4
      obtain ⟨g, l⟩ := seg_bytes e5
      rw [Int.toNat_natCast] at l
      refine ⟨.bcd, v, numberStr2BCD (bcd2NumberStr v), (C23_table id .bcd).mp ht, front.trans g, henc _ rfl, ?_, ?_,
        bcd_plain env v⟩
      · intro h
        refine ⟨?_, l⟩
        rw [l]
        refine cong _ h ?_
        cases v with
        | nil => decide
        | cons a v =>
          have := (bcd_written_length (a :: v) (by simp)).1
          omega
      · intro v' h _; rw [l, h]
    | string =>
      obtain ⟨b, k4, e4, e3⟩ := rd_bind_ok e3
      rw [rd_pure_eq] at e3; cases e3
      obtain ⟨g, l⟩ := seg_bytes e4
      rw [Int.toNat_natCast] at l
      refine ⟨.string, b, b, (C23_table id .string).mp ht, front.trans g, henc _ rfl, fun _ => ⟨rfl, l⟩, ?_, iff_of_true rfl trivial⟩
      intro v' h _; rw [l, h]
    | gbk =>
      obtain ⟨b, k4, e4, e3⟩ := rd_bind_ok e3
      rw [rd_pure_eq] at e3; cases e3
      unfold readGBK at e4
      obtain ⟨v, k5, e5, e4⟩ := rd_bind_ok e4
      have hb : b = (env.gbkDec v).getD [] ∧ k5 = j := by
        cases hg : env.gbkDec v with
        | none => rw [hg] at e4; cases e4; exact ⟨rfl, rfl⟩
        | some s => rw [hg] at e4; cases e4; exact ⟨rfl, rfl⟩
      obtain ⟨hb, rfl⟩ := hb
      obtain ⟨g, l⟩ := seg_bytes e5
      rw [Int.toNat_natCast] at l
      refine ⟨.gbk, v, (env.gbkEnc b).getD [], (C23_table id .gbk).mp ht, front.trans g, henc _ ?_, ?_, ?_, ?_⟩
      · show Res.ok (writeGBK env [] b) = _
        unfold writeGBK
        cases env.gbkEnc b <;> rfl
      · intro h
        refine ⟨?_, l⟩
        cases hg : env.gbkEnc b with
        | none => rw [hg] at h; rw [l]; exact cong _ h (by decide)
        | some x =>
          rw [hg, Option.getD_some] at h
          rw [Option.getD_some, l]
          have := hE v x (by rw [← hb, hg])
          have hm : x.length % 256 = len.toNat := by
            rw [show len = UInt8.ofNat x.length from h.symm, UInt8.toNat_ofNat']
          omega
      · intro v' h _; rw [l, h]
      · rw [hb]; exact Iff.rfl

/-! ### Lists -/

theorem kindOf_inj {a b : PType} (h : kindOf a = kindOf b) : a = b := by
  cases a <;> cases b <;> first | rfl | cases h

theorem undo_list {env : Env} (hE : GbkBound env) : ∀ {n : Nat} {s : Slice} {i j : Nat} {ps : List ParamData}, i ≤ s.mem.length →
    ParamData.decodeN env n s i = .ok (ps, j) →
    ∃ bs out, Seg s i j bs ∧ ParamData.encodeAll env ps = .ok out ∧ (out = bs ↔ PlainList env n bs)
  | 0, s, i, j, ps, hi, h => by
    unfold ParamData.decodeN at h
    rw [rd_pure_eq] at h
    cases h
    exact ⟨[], [], ⟨Nat.le_refl _, hi, by simp⟩, rfl, iff_of_true rfl .nil⟩
  | n + 1, s, i, j, ps, hi, h => by
    unfold ParamData.decodeN at h
    obtain ⟨p, k, e1, h⟩ := rd_bind_ok h
    obtain ⟨qs, k', e2, h⟩ := rd_bind_ok h
    rw [rd_pure_eq] at h
    cases h
    obtain ⟨t, v, w, h1, h2, h3, h4, h5, h6⟩ := undo_item hE e1
    obtain ⟨bs, out, g1, g2, g3⟩ := undo_list hE h2.2.1 e2
    refine ⟨put32 p.id ++ [p.len] ++ v ++ bs, put32 p.id ++ [UInt8.ofNat w.length] ++ w ++ out, h2.trans g1, ?_, ?_⟩
    · unfold ParamData.encodeAll
      simp only [h3, g2]
    · constructor
      · intro e
        rw [List.append_assoc, List.append_assoc, List.append_assoc, List.append_assoc] at e
        have e := List.append_cancel_left e
        rw [List.singleton_append, List.singleton_append] at e
        injection e with q1 q2
        obtain ⟨l1, l2⟩ := h4 q1
        obtain ⟨q3, q4⟩ := List.append_inj q2 l1
        have hp : put32 p.id ++ [p.len] ++ v = paramItem p.id.toNat v := by
          rw [put32_dword, paramItem, l2, UInt8.ofNat_toNat]
        rw [hp]
        exact .cons h1 (by rw [l2]; have := p.len.toNat_lt; omega) (h6.1 q3) (g3.1 q4)
      · intro e
        generalize hx : put32 p.id ++ [p.len] ++ v ++ bs = x at e
        cases e with
        | @cons id' t' v' _ rest' c1 c2 c3 c4 =>
          rw [paramItem, ← put32_dword, List.append_assoc, List.append_assoc, List.append_assoc, List.append_assoc] at hx
          obtain ⟨q1, q2⟩ := List.append_inj hx rfl
          rw [List.singleton_append, List.singleton_append] at q2
          injection q2 with q3 q4
          have hid : p.id = id' := by
            have := (readsAt_dword 0 p.id) [] [] [] rfl
            rw [q1] at this
            have h' := (readsAt_dword 0 id') [] [] [] rfl
            rw [this] at h'
            injection h' with h'
            injection h'
          subst hid
          have htt : t' = t := by
            have a := (C23_table p.id t').mpr c1
            have b := (C23_table p.id t).mpr h1
            rw [a] at b
            exact kindOf_inj (by injection b)
          subst htt
          have hl : v'.length = p.len.toNat := by
            rw [q3, UInt8.toNat_ofNat']; omega
          obtain ⟨q5, q6⟩ := List.append_inj q4 (h5 v' hl c3)
          subst q5 q6
          have hw := h6.2 c3
          subst hw
          rw [g3.2 c4, paramItem, put32_dword]

theorem undo_params {env : Env} (hE : GbkBound env) {phone : Str} {n : UInt8} {s : Slice} {i j : Nat} {d : DeviceParams}
    (h : Rd.onRest (DeviceParams.decode env phone n) s i = .ok (d, j)) :
    ∃ bs out, Seg s i j bs ∧ d.encode env = .ok (n :: out) ∧ (out = bs ↔ PlainList env n.toNat bs) := by
  unfold Rd.onRest Slice.from' at h
  by_cases hl : i ≤ s.data.length
  · rw [if_pos hl] at h
    simp only at h
    cases hm : DeviceParams.decode env phone n ⟨s.data.drop i, s.slack⟩ 0 with
    | err e => rw [hm] at h; cases h
    | panic => rw [hm] at h; cases h
    | ok x =>
      rw [hm] at h
      cases h
      obtain ⟨d, k⟩ := x
      unfold DeviceParams.decode at hm
      obtain ⟨ps, k', e1, hm⟩ := rd_bind_ok hm
      rw [rd_pure_eq] at hm
      cases hm
      obtain ⟨bs, out, g1, g2, g3⟩ := undo_list hE (Nat.zero_le _) e1
      have hmem : (⟨s.data.drop i, s.slack⟩ : Slice).mem = s.mem.drop i := by
        unfold Slice.mem
        rw [List.drop_append_of_le_length hl]
      obtain ⟨s1, s2, s3⟩ := g1
      rw [hmem] at s2 s3
      refine ⟨bs, out, ⟨by simp only; omega, ?_, ?_⟩, ?_, g3⟩
      · rw [List.length_drop] at s2
        have : i ≤ s.mem.length := by unfold Slice.mem; rw [List.length_append]; omega
        simp only; omega
      · rw [List.drop_zero] at s3
        simp only
        rw [show i + k - i = k - 0 by omega]
        exact s3
      · unfold DeviceParams.encode
        simp only [g2]
        rfl
  · rw [if_neg hl] at h; cases h

/-- C142, parameters to be set: what was read is written as it came, exactly if the list has its parameters with the lengths that
their types have and the texts as they are written. -/
theorem C142_set_params (env : Env) (hE : GbkBound env) (now : Civil) (h : Header) (body : Slice) (m : Msg) (j : Nat)
    (hd : MType.t8103.decode env now h body 0 = .ok (m, j)) :
    ∃ n rest, body.mem.take j = n :: rest ∧
      (m.encodeBody env h = .ok (body.mem.take j) ↔ PlainList env n.toNat rest) := by
  obtain ⟨r, i, e, hd⟩ := rd_bind_ok hd
  rw [rd_pure_eq] at hd; cases hd
  unfold SetParams.decode at e
  obtain ⟨n, i1, e1, e⟩ := rd_bind_ok e
  obtain ⟨d, i2, e2, e⟩ := rd_bind_ok e
  rw [rd_pure_eq] at e; cases e
  obtain ⟨bs, out, g1, g2, g3⟩ := undo_params hE e2
  have all := (show Seg body 0 i1 [n] from undo_byte _ _ _ _ e1).trans g1
  have h0 := all.2.2
  rw [List.drop_zero, Nat.sub_zero] at h0
  refine ⟨n, bs, h0, ?_⟩
  rw [h0, ← g3]
  have : (Msg.m8103 ⟨n, d⟩).encodeBody env h = .ok (n :: out) := by
    show SetParams.encode env ⟨n, d⟩ = _
    unfold SetParams.encode
    simp only [g2, writeBytes, List.nil_append]
  rw [this]
  constructor
  · intro hx; injection hx with hx; exact List.append_cancel_left (as := [n]) hx
  · intro hx; rw [hx]; rfl

/-- C142, the parameters a terminal has: the same. -/
theorem C142_params (env : Env) (hE : GbkBound env) (now : Civil) (h : Header) (body : Slice) (m : Msg) (j : Nat)
    (hd : MType.t0104.decode env now h body 0 = .ok (m, j)) :
    ∃ a b n rest, body.mem.take j = a :: b :: n :: rest ∧
      (m.encodeBody env h = .ok (body.mem.take j) ↔ PlainList env n.toNat rest) := by
  obtain ⟨r, i, e, hd⟩ := rd_bind_ok hd
  rw [rd_pure_eq] at hd; cases hd
  unfold ParamsMsg.decode at e
  obtain ⟨w, i0, e0, e⟩ := rd_bind_ok e
  obtain ⟨n, i1, e1, e⟩ := rd_bind_ok e
  obtain ⟨d, i2, e2, e⟩ := rd_bind_ok e
  rw [rd_pure_eq] at e; cases e
  obtain ⟨bs, out, g1, g2, g3⟩ := undo_params hE e2
  have all := ((show Seg body 0 i0 (put16 w) from undo_word _ _ _ _ e0).trans
    (show Seg body i0 i1 [n] from undo_byte _ _ _ _ e1)).trans g1
  have h0 := all.2.2
  rw [List.drop_zero, Nat.sub_zero] at h0
  refine ⟨(w >>> 8).toUInt8, w.toUInt8, n, bs, h0, ?_⟩
  rw [h0, ← g3]
  have : (Msg.m0104 ⟨w, n, some d⟩).encodeBody env h = .ok (put16 w ++ n :: out) := by
    show ParamsMsg.encode env ⟨w, n, some d⟩ = _
    unfold ParamsMsg.encode
    simp only [g2, writeBytes, writeWord, List.nil_append]
  rw [this, List.append_assoc, List.singleton_append]
  constructor
  · intro hx; injection hx with hx
    exact List.append_cancel_left (as := [n]) (List.append_cancel_left hx)
  · intro hx; rw [hx]

/-- C142: so with GBK. -/
theorem C142_params_gbk (T : GbkTable) (hT : GbkTable.Sound T) (env : Env) (now : Civil) (h : Header) (body : Slice) (m : Msg)
    (j : Nat) (hd : MType.t0104.decode (gbkEnv T env) now h body 0 = .ok (m, j)) :
    ∃ a b n rest, body.mem.take j = a :: b :: n :: rest ∧
      (m.encodeBody (gbkEnv T env) h = .ok (body.mem.take j) ↔ PlainList (gbkEnv T env) n.toNat rest) :=
  C142_params _ (gbkBound_env T hT env) now h body m j hd

/-! ### Positions -/

theorem noF_of {bs : List UInt8} (h : (0x46 : UInt8) ∉ bs.flatMap hex2) : NoF bs := by
  have key : ∀ n, n < 256 → (0x46 : UInt8) ∉ hex2 (UInt8.ofNat n) →
      ((UInt8.ofNat n).toNat / 16 ≠ 15 ∧ (UInt8.ofNat n).toNat % 16 ≠ 15) := by decide +kernel
  have key' := forall_uint8 (P := fun b => (0x46 : UInt8) ∉ hex2 b → (b.toNat / 16 ≠ 15 ∧ b.toNat % 16 ≠ 15)) key
  intro b hb
  exact key' b fun hx => h (List.mem_flatMap.mpr ⟨b, hb, hx⟩)

/-- C142, positions: what was read is written as it came, exactly if no half of a byte of the time is F. -/
theorem C142_position (env : Env) (now : Civil) (h : Header) (body : Slice) (m : Msg) (j : Nat)
    (hd : MType.t0200.decode env now h body 0 = .ok (m, j)) :
    j = 28 ∧ (m.encodeBody env h = .ok (body.mem.take j) ↔ NoF ((body.mem.take j).drop 22)) := by
  obtain ⟨l, i, e, hd⟩ := rd_bind_ok hd
  rw [rd_pure_eq] at hd; cases hd
  unfold LocMsg.decode at e
  obtain ⟨a1, i1, e1, e⟩ := rd_bind_ok e
  obtain ⟨a2, i2, e2, e⟩ := rd_bind_ok e
  obtain ⟨a3, i3, e3, e⟩ := rd_bind_ok e
  obtain ⟨a4, i4, e4, e⟩ := rd_bind_ok e
  obtain ⟨a5, i5, e5, e⟩ := rd_bind_ok e
  obtain ⟨a6, i6, e6, e⟩ := rd_bind_ok e
  obtain ⟨a7, i7, e7, e⟩ := rd_bind_ok e
  obtain ⟨a8, i8, e8, e⟩ := rd_bind_ok e
  rw [rd_pure_eq] at e; cases e
  have front := (((((seg_dword e1).trans (seg_dword e2)).trans (seg_dword e3)).trans (seg_dword e4)).trans
    (undo_word _ _ _ _ e5)).trans (undo_word _ _ _ _ e6) |>.trans (undo_word _ _ _ _ e7)
  unfold readBCD at e8
  obtain ⟨bs, k, e9, e8⟩ := rd_bind_ok e8
  rw [rd_pure_eq] at e8; cases e8
  obtain ⟨g, gl⟩ := seg_bytes e9
  have gl : bs.length = 6 := gl
  have all := front.trans g
  have fl : (put32 a1 ++ put32 a2 ++ put32 a3 ++ put32 a4 ++ put16 a5 ++ put16 a6 ++ put16 a7).length = 22 := rfl
  have h0 := all.2.2
  rw [List.drop_zero, Nat.sub_zero] at h0
  have hj : j = 28 := by
    have := congrArg List.length h0
    rw [List.length_append, fl, gl, List.length_take] at this
    have := all.2.1
    omega
  refine ⟨hj, ?_⟩
  rw [h0]
  have hdrop : (put32 a1 ++ put32 a2 ++ put32 a3 ++ put32 a4 ++ put16 a5 ++ put16 a6 ++ put16 a7 ++ bs).drop 22 = bs := by
    rw [← fl, List.drop_left]
  rw [hdrop]
  have henc : (Msg.m0200 ⟨a1, a2, a3, a4, a5, a6, a7, bcd2NumberStr bs⟩).encodeBody env h =
      .ok (put32 a1 ++ put32 a2 ++ put32 a3 ++ put32 a4 ++ put16 a5 ++ put16 a6 ++ put16 a7 ++ numberStr2BCD (bcd2NumberStr bs)) := rfl
  rw [henc]
  constructor
  · intro hx
    injection hx with hx
    have hx := List.append_cancel_left hx
    have hlen : (bcd2NumberStr bs).length = 2 * bs.length := by
      have h1 := bcd2NumberStr_length_le bs (by omega)
      have h2 := congrArg List.length hx
      rw [numberStr2BCD_is _ (bcd2NumberStr_chars bs), bcdValue, packBcd_length, List.length_append, List.length_replicate,
        List.length_map] at h2
      omega
    exact noF_of (bcd2NumberStr_full hlen (by intro h; rw [h] at gl; cases gl))
  · intro hF
    rw [bcd_roundtrip_bytes bs (noF_hex hF) (by omega)]

/-! ### The hypotheses can be met -/

example : ∃ m, MType.t0200.decode goEnv ⟨2024, 2, 29, 12, 0, 0⟩ (hdr2013 0x0200)
      ⟨List.replicate 22 0xff ++ [0x24, 2, 0x30, 0xab, 0x99, 0x58], []⟩ 0 = .ok (m, 28) ∧
    m.encodeBody goEnv (hdr2013 0x0200) = .ok (List.replicate 22 0xff ++ [0x24, 2, 0x30, 0xab, 0x99, 0x58]) := by
  refine ⟨_, rfl, (C142_position goEnv ⟨2024, 2, 29, 12, 0, 0⟩ (hdr2013 0x0200)
    ⟨List.replicate 22 0xff ++ [0x24, 2, 0x30, 0xab, 0x99, 0x58], []⟩ _ 28 rfl).2.2 ?_⟩
  unfold NoF
  decide +kernel

/-- A time that is not set: four bytes instead of six. -/
example : ∃ m, MType.t0200.decode goEnv ⟨2024, 2, 29, 12, 0, 0⟩ (hdr2013 0x0200) ⟨List.replicate 28 0xff, []⟩ 0 = .ok (m, 28) ∧
    m.encodeBody goEnv (hdr2013 0x0200) = .ok (List.replicate 26 0xff) :=
  ⟨_, rfl, by decide +kernel⟩

/-- Two parameters: a heartbeat interval of 30 s, and 京A as the server's name. -/
def kyoParams : List UInt8 := [0, 7, 2, 0, 0, 0, 1, 4, 0, 0, 0, 30, 0, 0, 0, 0x13, 3, 0xbe, 0xa9, 0x41]

example : ∃ m, MType.t0104.decode (gbkEnv kyoTable goEnv) ⟨2024, 2, 29, 12, 0, 0⟩ (hdr2013 0x0104) ⟨kyoParams, [0xaa]⟩ 0 = .ok (m, 20) ∧
    m.encodeBody (gbkEnv kyoTable goEnv) (hdr2013 0x0104) = .ok kyoParams := by
  refine ⟨_, rfl, ?_⟩
  obtain ⟨a, b, n, rest, h1, h2⟩ := C142_params_gbk kyoTable kyo_sound goEnv ⟨2024, 2, 29, 12, 0, 0⟩ (hdr2013 0x0104)
    ⟨kyoParams, [0xaa]⟩ _ 20 rfl
  injection h1 with _ h1; injection h1 with _ h1; injection h1 with h3 h4
  subst h3 h4
  exact h2.2 (.cons (id := 1) (t := .dword) (v := [0, 0, 0, 30]) (by decide) (by decide) rfl
    (.cons (id := 0x13) (t := .gbk) (v := [0xbe, 0xa9, 0x41]) (by decide) (by decide) (by unfold PlainValue; decide +kernel) .nil))

/-- And the other way: an interval that says it has one byte is written with four. -/
example : ∃ m, MType.t8103.decode goEnv ⟨2024, 2, 29, 12, 0, 0⟩ (hdr2013 0x8103) ⟨[1, 0, 0, 0, 1, 1, 0, 0, 0, 30], []⟩ 0 = .ok (m, 10) ∧
    m.encodeBody goEnv (hdr2013 0x8103) = .ok [1, 0, 0, 0, 1, 4, 0, 0, 0, 30] :=
  ⟨_, rfl, by decide +kernel⟩

-- a short number with its filler, one whose filler is too long, and one with a filler in between
example : PlainValue goEnv .bcd [0xff, 0xff, 0x23, 0x15] ∧ ¬ PlainValue goEnv .bcd [0xff, 0xff, 0xff, 0x23, 0x15] ∧
    ¬ PlainValue goEnv .bcd [0x12, 0xf3, 0x45, 0x67] := by
  rw [← bcd_plain, ← bcd_plain, ← bcd_plain]
  decide +kernel

end JT808
