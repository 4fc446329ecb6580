import Verif.Props.Canonical
import Verif.Proof.Time
/-
C142, continued: registrations and media queries.
-/
namespace JT808
open Spec

/-- Six bytes that are a date and time of the years 1969 to 2068. -/
def Spec.IsDate (bs : List UInt8) : Prop :=
  ∃ y mo d h mi s, validDateTime y mo d h mi s ∧ inWindow y ∧ bs = timeBytes y mo d h mi s

theorem seg_time {now : Civil} (hn : now.Valid) (hw : inWindow now.year) {s : Slice} {i j : Nat} {t : Civil}
    (h : readTime now s i = .ok (t, j)) :
    j = i + 6 ∧ Seg s i j ((s.mem.drop i).take 6) ∧ ((s.mem.drop i).take 6).length = 6 ∧
      (numberStr2BCD (formatTime t)).length = 6 ∧
      (numberStr2BCD (formatTime t) = (s.mem.drop i).take 6 ↔ IsDate ((s.mem.drop i).take 6)) := by
  unfold readTime at h
  obtain ⟨p, m, h1, h2⟩ := rd_bind_ok h
  rw [rd_pure_eq] at h2
  cases h2
  unfold readBCD at h1
  obtain ⟨bs, m, h1, h2⟩ := rd_bind_ok h1
  rw [rd_pure_eq] at h2
  cases h2
  obtain ⟨-, hj, hm, hb⟩ := readBytes_inv h1
  obtain ⟨g1, g2⟩ := seg_bytes h1
  have hb : bs = (s.mem.drop i).take 6 := hb
  rw [← hb]
  have hv : (parseTime now (bcd2NumberStr bs)).Valid ∧ inWindow (parseTime now (bcd2NumberStr bs)).year := by
    unfold parseTime
    cases ht : timeParse (bcd2NumberStr bs) with
    | none => exact ⟨hn, hw⟩
    | some t => exact ⟨(timeParse_some ht).1, (timeParse_some ht).2.1⟩
  rw [numberStr2BCD_formatTime _ hv.1]
  refine ⟨hj, g1, g2, rfl, fun e => ⟨_, _, _, _, _, _, hv.1, hv.2, e.symm⟩, ?_⟩
  intro hd
  obtain ⟨y, mo, d, hh, mi, ss, h1, h2, h3⟩ := hd
  have e : bs = (Civil.mk y mo d hh mi ss).bytes := h3
  have h4 : bcd2NumberStr bs = formatTime ⟨y, mo, d, hh, mi, ss⟩ := by rw [e]; exact bcd2NumberStr_bytes _ h1
  rw [h4]
  unfold parseTime
  rw [timeParse_format ⟨y, mo, d, hh, mi, ss⟩ h1 h2]
  exact e.symm

/-- The parts of a media query, as bytes. -/
theorem undo_query {now : Civil} (hn : now.Valid) (hw : inWindow now.year) {s : Slice} {i j : Nat} {q : MediaQuery}
    (h : MediaQuery.decode now s i = .ok (q, j)) :
    j = i + 24 ∧ j ≤ s.mem.length ∧ q.encode.length = 24 ∧
    (q.encode = (s.mem.drop i).take 24 ↔ IsDate ((s.mem.drop (i + 1)).take 6) ∧ IsDate ((s.mem.drop (i + 7)).take 6)) := by
  unfold MediaQuery.decode at h
  obtain ⟨a1, i1, e1, h⟩ := rd_bind_ok h
  obtain ⟨a2, i2, e2, h⟩ := rd_bind_ok h
  obtain ⟨a3, i3, e3, h⟩ := rd_bind_ok h
  obtain ⟨a4, i4, e4, h⟩ := rd_bind_ok h
  obtain ⟨a5, i5, e5, h⟩ := rd_bind_ok h
  obtain ⟨a6, i6, e6, h⟩ := rd_bind_ok h
  obtain ⟨a7, i7, e7, h⟩ := rd_bind_ok h
  obtain ⟨a8, i8, e8, h⟩ := rd_bind_ok h
  rw [rd_pure_eq] at h
  cases h
  obtain ⟨j2, g2, l2, n2, d2⟩ := seg_time hn hw e2
  obtain ⟨j3, g3, l3, n3, d3⟩ := seg_time hn hw e3
  have k1 : i1 = i + 1 := (readByte_inv e1).1
  have b4 := seg_dword e4
  have b5 := seg_dword e5
  have g1 : Seg s i i1 [a1] := undo_byte _ _ _ _ e1
  have g6 : Seg s i5 i6 [a6] := undo_byte _ _ _ _ e6
  have g7 : Seg s i6 i7 [a7] := undo_byte _ _ _ _ e7
  have g8 : Seg s i7 j [a8] := undo_byte _ _ _ _ e8
  have tail := (((b4.trans b5).trans g6).trans g7).trans g8
  have all := ((g1.trans g2).trans g3).trans tail
  have k6 : i6 = i5 + 1 := (readByte_inv e6).1
  have k7 : i7 = i6 + 1 := (readByte_inv e7).1
  have k8 : j = i7 + 1 := (readByte_inv e8).1
  have seglen : ∀ {a b : Nat} {bs : List UInt8}, Seg s a b bs → bs.length = b - a := by
    intro a b bs hs
    obtain ⟨x1, x2, x3⟩ := hs
    rw [← x3, List.length_take, List.length_drop]; omega
  have k4 := seglen b4
  have k5 := seglen b5
  rw [show (put32 a4).length = 4 from rfl] at k4
  rw [show (put32 a5).length = 4 from rfl] at k5
  have le4 := b4.1
  have le5 := b5.1
  have hj : j = i + 24 := by omega
  refine ⟨hj, all.2.1, ?_, ?_⟩
  · simp only [MediaQuery.encode, writeTime, writeByte, writeDWord, writeBCD, List.length_append, n2, n3]
    rfl
  · have hall := all.2.2
    rw [hj, show i + 24 - i = 24 by omega] at hall
    rw [hall]
    have he : (MediaQuery.encode ⟨a1, a2, a3, a4, a5, a6, a7, a8⟩) =
        ([a1] ++ numberStr2BCD (formatTime a2) ++ numberStr2BCD (formatTime a3)) ++
          (put32 a4 ++ put32 a5 ++ [a6] ++ [a7] ++ [a8]) := by
      simp [MediaQuery.encode, writeTime, writeByte, writeDWord, writeBCD]
    rw [he]
    subst k1 j2
    rw [← d2, show i + 7 = i + 1 + 6 by omega, ← d3]
    constructor
    · intro hq
      obtain ⟨q1, -⟩ := List.append_inj hq (by simp only [List.length_append, n2, n3, l2, l3])
      obtain ⟨q2, q3⟩ := List.append_inj q1 (by simp only [List.length_append, n2, l2])
      obtain ⟨-, q4⟩ := List.append_inj q2 rfl
      exact ⟨q4, q3⟩
    · rintro ⟨q1, q2⟩
      rw [q1, q2]

/-- C142, media queries: what was read is written as it came, exactly if both times were dates (any other time is taken
to be the present one). -/
theorem C142_query (env : Env) (now : Civil) (hn : now.Valid) (hw : inWindow now.year) (h : Header) (body : Slice) (m : Msg)
    (j : Nat) (hd : MType.t9205.decode env now h body 0 = .ok (m, j)) :
    j = 24 ∧ (m.encodeBody env h = .ok (body.mem.take j) ↔
      IsDate ((body.mem.drop 1).take 6) ∧ IsDate ((body.mem.drop 7).take 6)) := by
  obtain ⟨q, i, e, hd⟩ := rd_bind_ok hd
  rw [rd_pure_eq] at hd; cases hd
  obtain ⟨h1, -, -, h2⟩ := undo_query hn hw e
  have h1 : j = 24 := by omega
  subst h1
  refine ⟨rfl, ?_⟩
  rw [Nat.zero_add, Nat.zero_add, List.drop_zero] at h2
  rw [← h2]
  exact ⟨fun x => by injection x, fun x => congrArg Res.ok x⟩

/-- C142, media lists: the same. -/
theorem C142_media (env : Env) (now : Civil) (hn : now.Valid) (hw : inWindow now.year) (h : Header) (body : Slice) (m : Msg)
    (j : Nat) (hd : MType.t1205.decode env now h body 0 = .ok (m, j)) :
    j = 34 ∧ (m.encodeBody env h = .ok (body.mem.take j) ↔
      IsDate ((body.mem.drop 7).take 6) ∧ IsDate ((body.mem.drop 13).take 6)) := by
  obtain ⟨l, i, e, hd⟩ := rd_bind_ok hd
  rw [rd_pure_eq] at hd; cases hd
  unfold MediaList.decode at e
  obtain ⟨a1, i1, e1, e⟩ := rd_bind_ok e
  obtain ⟨a2, i2, e2, e⟩ := rd_bind_ok e
  obtain ⟨a3, i3, e3, e⟩ := rd_bind_ok e
  rw [rd_pure_eq] at e; cases e
  have g1 : Seg body 0 i1 (put16 a1) := undo_word _ _ _ _ e1
  have g2 := seg_dword e2
  have k1 : i1 = 2 := by have := (readWord_inv e1).1; omega
  have seglen : ∀ {s : Slice} {a b : Nat} {bs : List UInt8}, Seg s a b bs → bs.length = b - a := by
    intro s a b bs hs
    obtain ⟨x1, x2, x3⟩ := hs
    rw [← x3, List.length_take, List.length_drop]; omega
  have k2 : i2 = 6 := by
    have := seglen g2
    rw [show (put32 a2).length = 4 from rfl] at this
    have := g2.1; omega
  subst k1 k2
  unfold Rd.onRest at e3
  unfold Slice.from' at e3
  by_cases hl : 6 ≤ body.data.length
  · rw [if_pos hl] at e3
    simp only at e3
    cases hm : mediaDecode now ⟨body.data.drop 6, body.slack⟩ 0 with
    | err e => rw [hm] at e3; cases e3
    | panic => rw [hm] at e3; cases e3
    | ok x =>
      rw [hm] at e3
      cases e3
      obtain ⟨⟨q, n⟩, k⟩ := x
      unfold mediaDecode at hm
      obtain ⟨b1, k1, f1, hm⟩ := rd_bind_ok hm
      obtain ⟨b2, k2, f2, hm⟩ := rd_bind_ok hm
      rw [rd_pure_eq] at hm; cases hm
      obtain ⟨r1, r2, r3, r4⟩ := undo_query hn hw f1
      rw [Nat.zero_add] at r1
      subst r1
      have g4 := seg_dword f2
      have k4 : k = 28 := by
        have := seglen g4
        rw [show (put32 n).length = 4 from rfl] at this
        have := g4.1; omega
      subst k4
      have hmem : (⟨body.data.drop 6, body.slack⟩ : Slice).mem = body.mem.drop 6 := by
        unfold Slice.mem
        rw [List.drop_append_of_le_length hl]
      rw [hmem] at r4
      rw [List.drop_drop, List.drop_drop, List.drop_drop] at r4
      refine ⟨rfl, ?_⟩
      have r4 : q.encode = (body.mem.drop 6).take 24 ↔
        IsDate ((body.mem.drop 7).take 6) ∧ IsDate ((body.mem.drop 13).take 6) := r4
      rw [← r4]
      have t1 : body.mem.take 34 = put16 a1 ++ put32 a2 ++ ((body.mem.drop 6).take 24 ++ put32 n) := by
        have x1 := (g1.trans g2).2.2
        have x2 := g4.2.2
        rw [hmem, List.drop_drop] at x2
        rw [show (34 : Nat) = 6 + 28 from rfl, List.take_add, show (28 : Nat) = 24 + 4 from rfl, List.take_add, List.drop_drop]
        rw [← x1, ← x2]
        simp
      have t2 : MediaList.encode ⟨a1, a2, q, n⟩ = put16 a1 ++ put32 a2 ++ (q.encode ++ put32 n) := by
        simp [MediaList.encode, writeWord, writeDWord, writeBytes]
      show Res.ok (MediaList.encode ⟨a1, a2, q, n⟩) = .ok (body.mem.take 34) ↔ _
      rw [t1, t2]
      constructor
      · intro hx
        injection hx with hx
        exact List.append_cancel_right (List.append_cancel_left hx)
      · intro hx; rw [hx]
  · rw [if_neg hl] at e3; cases e3

theorem trim_padCut (n : Nat) (s : Str) (h : s.length = n) : padCut n (trimNul s) = s := by
  have h1 := trim_pad n s h
  have h2 : (trimNul s).length ≤ n := by
    have := congrArg List.length h1
    unfold padOnly at this
    rw [List.length_append, List.length_replicate] at this
    omega
  rw [← h1]
  conv => rhs; rw [h1]
  unfold padCut
  rw [List.take_of_length_le (by rw [h1]; exact h2)]
  rw [h1]
  exact h1

/-- C142, registrations in the layouts of 2019 and 2013: what was read is written as it came, exactly if the bytes of the
plate are those GBK has for it.  `p` is where the plate starts. -/
theorem C142_register (env : Env) (now : Civil) (h : Header) (body : Slice) (m : Msg) (j p : Nat)
    (hv : (h.attr.verDesc = .v2019 ∧ p = 76) ∨ (h.attr.verDesc = .v2013 ∧ 37 < h.attr.bodyLength.toNat ∧ p = 37))
    (hd : MType.t0100.decode env now h body 0 = .ok (m, j)) :
    j = h.attr.bodyLength.toNat ∧ (m.encodeBody env h = .ok (body.mem.take j) ↔
      env.gbkEnc ((env.gbkDec ((body.mem.take j).drop p)).getD []) = some ((body.mem.take j).drop p)) := by
  obtain ⟨r, i, e, hd⟩ := rd_bind_ok hd
  rw [rd_pure_eq] at hd; cases hd
  unfold Register.decode at e
  obtain ⟨a1, i1, e1, e⟩ := rd_bind_ok e
  obtain ⟨a2, i2, e2, e⟩ := rd_bind_ok e
  obtain ⟨w, i3, e3, e⟩ := rd_bind_ok e
  obtain ⟨a4, i4, e4, e⟩ := rd_bind_ok e
  obtain ⟨a5, i5, e5, e⟩ := rd_bind_ok e
  obtain ⟨a6, i6, e6, e⟩ := rd_bind_ok e
  obtain ⟨a7, i7, e7, e⟩ := rd_bind_ok e
  obtain ⟨a8, i8, e8, e⟩ := rd_bind_ok e
  obtain ⟨a9, i9, e9, e⟩ := rd_bind_ok e
  rw [rd_pure_eq] at e; cases e
  cases e8
  have hw : w = Register.encWidths h.attr.verDesc ∧ i3 = i2 ∧ p = 5 + w.1 + w.2.1 + w.2.2 := by
    unfold Register.widths at e3
    rcases hv with ⟨h1, h2⟩ | ⟨h1, h2, h3⟩
    · rw [h1] at e3 ⊢; cases e3; exact ⟨rfl, rfl, h2⟩
    · rw [h1] at e3 ⊢
      simp only at e3
      rw [if_pos (by omega)] at e3; cases e3; exact ⟨rfl, rfl, h3⟩
  obtain ⟨hw, rfl, hp⟩ := hw
  obtain ⟨g4, l4⟩ := seg_bytes e4
  obtain ⟨g5, l5⟩ := seg_bytes e5
  obtain ⟨g6, l6⟩ := seg_bytes e6
  rw [Int.toNat_natCast] at l4 l5 l6
  have g7 : Seg body i6 i7 [a7] := undo_byte _ _ _ _ e7
  have g1 : Seg body 0 i1 (put16 a1) := undo_word _ _ _ _ e1
  have g2 : Seg body i1 i3 (put16 a2) := undo_word _ _ _ _ e2
  have front := ((((g1.trans g2).trans g4).trans g5).trans g6).trans g7
  unfold readGBK at e9
  obtain ⟨bs, k, e10, e⟩ := rd_bind_ok e9
  have hplate : a9 = (env.gbkDec bs).getD [] ∧ k = j := by
    cases hg : env.gbkDec bs with
    | none => rw [hg] at e; cases e; exact ⟨rfl, rfl⟩
    | some s => rw [hg] at e; cases e; exact ⟨rfl, rfl⟩
  obtain ⟨hplate, rfl⟩ := hplate
  obtain ⟨g9, l9⟩ := seg_bytes e10
  obtain ⟨n0, n1, -, -⟩ := readBytes_inv e10
  have flen : (put16 a1 ++ put16 a2 ++ a4 ++ a5 ++ a6 ++ [a7]).length = p := by
    simp only [List.length_append, l4, l5, l6, hp, List.length_cons, List.length_nil, put16_length]; omega
  have ha8 : i7 = p := by
    have x := congrArg List.length front.2.2
    rw [flen, List.drop_zero, List.length_take] at x
    have := front.2.1
    omega
  subst ha8
  refine ⟨by omega, ?_⟩
  have hall := (front.trans g9).2.2
  rw [List.drop_zero, Nat.sub_zero] at hall
  rw [hall]
  have hdrop : (put16 a1 ++ put16 a2 ++ a4 ++ a5 ++ a6 ++ [a7] ++ bs).drop i7 = bs := by
    rw [← flen, List.drop_left]
  rw [hdrop, ← hplate]
  show Res.ok (Register.encode env h.attr.verDesc _) = _ ↔ _
  have henc : Register.encode env h.attr.verDesc
      { province := a1, city := a2, manufacturer := trimNul a4, mode := trimNul a5, deviceID := trimNul a6, color := a7, plate := a9
        locationDesc := env.region (decimalPad 2 a1.toNat ++ decimalPad 4 a2.toNat) } =
      writeGBK env (put16 a1 ++ put16 a2 ++ a4 ++ a5 ++ a6 ++ [a7]) a9 := by
    unfold Register.encode
    simp only [← hw, trim_padCut _ _ l4, trim_padCut _ _ l5, trim_padCut _ _ l6]
    simp [writeWord, writeByte]
  rw [henc]
  unfold writeGBK
  cases hg : env.gbkEnc a9 with
  | none =>
    constructor
    · intro hx
      injection hx with hx
      have := congrArg List.length hx
      rw [List.length_append, flen, List.length_nil] at this
      omega
    · intro hx; cases hx
  | some g =>
    constructor
    · intro hx
      injection hx with hx
      exact congrArg some (List.append_cancel_left hx)
    · intro hx
      injection hx with hx
      rw [hx]

/-- C142, the registration of 2011: what was read is not written as it came; twelve bytes are added to the model. -/
theorem C142_register_2011 :
    ∃ m, MType.t0100.decode goEnv ⟨2024, 2, 29, 12, 0, 0⟩ ((hdr2013 0x0100).withBodyLength 29)
        ⟨List.replicate 25 0x41 ++ [0x42, 0x31, 0x32, 0x33], []⟩ 0 = .ok (m, 29) ∧
      ∃ bs, m.encodeBody goEnv ((hdr2013 0x0100).withBodyLength 29) = .ok bs ∧ bs.length = 41 :=
  ⟨_, rfl, _, rfl, by decide +kernel⟩

/-! ### The hypotheses can be met -/

example : ∃ m, MType.t9205.decode goEnv ⟨2024, 2, 29, 12, 0, 0⟩ (hdr2013 0x9205)
      ⟨[1, 0x24, 2, 0x29, 0x23, 0x59, 0x58, 0x24, 3, 1, 0, 0, 0, 0, 0, 0, 1, 0, 0, 0, 2, 3, 4, 5, 0xaa], []⟩ 0 = .ok (m, 24) ∧
    m.encodeBody goEnv (hdr2013 0x9205) =
      .ok [1, 0x24, 2, 0x29, 0x23, 0x59, 0x58, 0x24, 3, 1, 0, 0, 0, 0, 0, 0, 1, 0, 0, 0, 2, 3, 4, 5] := by
  refine ⟨_, rfl, ?_⟩
  refine (C142_query goEnv ⟨2024, 2, 29, 12, 0, 0⟩ ?_ ?_ (hdr2013 0x9205)
    ⟨[1, 0x24, 2, 0x29, 0x23, 0x59, 0x58, 0x24, 3, 1, 0, 0, 0, 0, 0, 0, 1, 0, 0, 0, 2, 3, 4, 5, 0xaa], []⟩ _ 24 rfl).2.2 ⟨?_, ?_⟩
  · unfold Civil.Valid; decide
  · unfold inWindow; decide
  · exact ⟨2024, 2, 29, 23, 59, 58, by decide, by unfold inWindow; decide, by decide⟩
  · exact ⟨2024, 3, 1, 0, 0, 0, by decide, by unfold inWindow; decide, by decide⟩

/-- The 30th of February becomes the present time. -/
example : ∃ m, MType.t9205.decode goEnv ⟨2024, 2, 29, 12, 0, 0⟩ (hdr2013 0x9205)
      ⟨[1, 0x24, 2, 0x30, 0x23, 0x59, 0x58, 0x24, 3, 1, 0, 0, 0, 0, 0, 0, 1, 0, 0, 0, 2, 3, 4, 5], []⟩ 0 = .ok (m, 24) ∧
    m.encodeBody goEnv (hdr2013 0x9205) =
      .ok [1, 0x24, 2, 0x29, 0x12, 0, 0, 0x24, 3, 1, 0, 0, 0, 0, 0, 0, 1, 0, 0, 0, 2, 3, 4, 5] :=
  ⟨_, rfl, by decide +kernel⟩

example : ∃ m, MType.t0100.decode goEnv ⟨2024, 2, 29, 12, 0, 0⟩ ((hdr2013 0x0100).withBodyLength 41)
      ⟨demoRegMsg.encode goEnv .v2013, []⟩ 0 = .ok (m, 41) ∧
    m.encodeBody goEnv ((hdr2013 0x0100).withBodyLength 41) = .ok (demoRegMsg.encode goEnv .v2013) := by
  refine ⟨_, rfl, ?_⟩
  exact (C142_register goEnv ⟨2024, 2, 29, 12, 0, 0⟩ ((hdr2013 0x0100).withBodyLength 41) ⟨demoRegMsg.encode goEnv .v2013, []⟩ _ 41 37
    (.inr ⟨rfl, by decide, rfl⟩) rfl).2.2 (by decide +kernel)

end JT808
