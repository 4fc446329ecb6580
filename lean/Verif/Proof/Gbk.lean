import Verif.Spec.Gbk
import Verif.Proof.Json
/-
Helper lemmas for the text conversion.
-/
namespace JT808
open Spec

theorem encodeRune_eq {r : Nat} (h : Spec.Scalar r) : encodeRune r = utf8Of r := by
  unfold Spec.Scalar at h
  unfold encodeRune utf8Of
  split
  · rfl
  · split
    · rfl
    · split
      · omega
      · rfl

theorem gbkRune_scalar {T : GbkTable} (hT : ∀ i, Spec.Scalar (T.char i)) (b : UInt8) (s : Str) :
    Spec.Scalar (gbkRune T b s).1 ∧ 1 ≤ (gbkRune T b s).2 := by
  have hb := b.toNat_lt
  have f : Spec.Scalar 0xFFFD := by unfold Spec.Scalar; decide
  have g : ∀ i, Spec.Scalar (if T.char i = 0 then 0xFFFD else T.char i) := by
    intro i
    split
    · exact f
    · exact hT i
  have big : Spec.Scalar 0x20AC := by unfold Spec.Scalar; decide
  unfold gbkRune
  split
  · exact ⟨Or.inl (by rename_i h; rw [UInt8.lt_iff_toNat_lt] at h; have : b.toNat < 128 := h; show b.toNat < _; omega), Nat.le_refl 1⟩
  · split
    · exact ⟨big, Nat.le_refl 1⟩
    · split
      · split
        · exact ⟨f, Nat.le_refl 1⟩
        · split
          · exact ⟨g _, Nat.le_succ 1⟩
          · split
            · exact ⟨g _, Nat.le_succ 1⟩
            · exact ⟨f, Nat.le_refl 1⟩
      · exact ⟨f, Nat.le_refl 1⟩

theorem gbkDecodeN_text {T : GbkTable} (hT : ∀ i, Spec.Scalar (T.char i)) :
    ∀ k s, ∃ t, gbkDecodeN T k s = utf8Text t ∧ (∀ n ∈ t, Spec.Scalar n) ∧ t.length ≤ s.length
  | 0, s => ⟨[], by unfold gbkDecodeN; rfl, by simp, by simp⟩
  | k + 1, [] => ⟨[], by unfold gbkDecodeN; rfl, by simp, by simp⟩
  | k + 1, b :: s => by
    obtain ⟨h1, h2⟩ := gbkRune_scalar hT b s
    obtain ⟨t, e, ht, hl⟩ := gbkDecodeN_text hT k ((b :: s).drop (gbkRune T b s).2)
    refine ⟨(gbkRune T b s).1 :: t, ?_, ?_, ?_⟩
    · rw [gbkDecodeN, e, encodeRune_eq h1]; rfl
    · intro n hn
      cases hn with
      | head => exact h1
      | tail _ hn => exact ht n hn
    · rw [List.length_drop] at hl
      simp only [List.length_cons] at hl ⊢
      omega

theorem gbkRune_pair {T : GbkTable} (hT : GbkTable.Sound T) {a b : UInt8} {r : Nat} (hc : T.code r = a.toNat * 256 + b.toNat)
    (h0 : T.code r ≠ 0) (g : Str) : gbkRune T a (b :: g) = (r, 2) := by
  have hb := b.toNat_lt
  have ha := a.toNat_lt
  have h1 := hT.lead r h0
  have h2 := hT.second r h0
  have h3 := hT.back r h0
  have hr := (hT.known r h0).2
  have e1 : T.code r / 256 = a.toNat := by omega
  have e2 : T.code r % 256 = b.toNat := by omega
  rw [e1, e2] at h3
  rw [e2] at h2
  unfold gbkRune
  rw [if_neg (by rw [UInt8.lt_iff_toNat_lt]; show ¬ a.toNat < 128; omega),
    if_neg (by rw [← UInt8.toNat_inj]; show ¬ a.toNat = 128; omega),
    if_pos (by rw [UInt8.lt_iff_toNat_lt]; show a.toNat < 255; omega)]
  simp only [UInt8.lt_iff_toNat_lt, UInt8.le_iff_toNat_le]
  show (if 64 ≤ b.toNat ∧ b.toNat < 127 then _ else if 128 ≤ b.toNat ∧ b.toNat < 255 then _ else _) = _
  by_cases hs : b.toNat < 0x7f
  · rw [if_pos hs] at h3
    rw [if_pos ⟨by omega, hs⟩]
    show ((if T.char _ = 0 then 0xFFFD else T.char _), 2) = _
    rw [show (0x81 : Nat) = 129 from rfl] at h3
    rw [h3, if_neg (by omega)]
  · rw [if_neg hs] at h3
    rw [if_neg (by omega), if_pos ⟨by omega, by omega⟩]
    show ((if T.char _ = 0 then 0xFFFD else T.char _), 2) = _
    rw [h3, if_neg (by omega)]

theorem gbkDecodeN_of {T : GbkTable} (hT : GbkTable.Sound T) {g : List UInt8} {t : List Nat} (h : GbkText T g t) :
    ∀ k, g.length ≤ k → gbkDecodeN T k g = utf8Text t := by
  induction h with
  | nil => intro k _; cases k <;> rfl
  | @ascii b g t hb _ ih =>
    intro k hk
    cases k with
    | zero => simp at hk
    | succ k =>
      have e : gbkRune T b g = (b.toNat, 1) := by
        unfold gbkRune
        rw [if_pos (by rw [UInt8.lt_iff_toNat_lt]; exact hb)]
      rw [gbkDecodeN, e, encodeRune_eq (Or.inl (by omega))]
      show utf8Of _ ++ gbkDecodeN T k g = _
      rw [ih k (by simpa using hk)]
      rfl
  | @euro g t _ ih =>
    intro k hk
    cases k with
    | zero => simp at hk
    | succ k =>
      have e : gbkRune T 0x80 g = (0x20AC, 1) := rfl
      rw [gbkDecodeN, e, encodeRune_eq (r := 0x20AC) (by unfold Spec.Scalar; decide)]
      show utf8Of _ ++ gbkDecodeN T k g = _
      rw [ih k (by simpa using hk)]
      rfl
  | @pair a b r g t _ _ hc h0 _ ih =>
    intro k hk
    cases k with
    | zero => simp at hk
    | succ k =>
      rw [gbkDecodeN, gbkRune_pair hT hc h0, encodeRune_eq (hT.known r h0).1]
      show utf8Of _ ++ gbkDecodeN T k g = _
      rw [ih k (by simp only [List.length_cons] at hk; omega)]
      rfl

theorem decodeRune_utf8Of {n : Nat} (hn : Spec.Scalar n) (h80 : 0x80 ≤ n) (r : Str) :
    decodeRune (utf8Of n ++ r) = (n, (utf8Of n).length) := by
  have hs := runeSize_utf8Of hn h80 r
  unfold Spec.Scalar at hn
  unfold decodeRune
  rw [hs]
  unfold utf8Of
  rw [if_neg (by omega : ¬ n < 0x80)]
  by_cases h1 : n < 0x800
  · rw [if_pos h1]
    show (((UInt8.ofNat (0xC0 + n / 64)).toNat % 32) * 64 + (UInt8.ofNat (0x80 + n % 64)).toNat % 64, 2) = (n, 2)
    rw [UInt8.toNat_ofNat', UInt8.toNat_ofNat']
    congr 1
    omega
  · rw [if_neg h1]
    by_cases h2 : n < 0x10000
    · rw [if_pos h2]
      show (((UInt8.ofNat (0xE0 + n / 4096)).toNat % 16) * 4096 + ((UInt8.ofNat (0x80 + n / 64 % 64)).toNat % 64) * 64 +
        (UInt8.ofNat (0x80 + n % 64)).toNat % 64, 3) = (n, 3)
      rw [UInt8.toNat_ofNat', UInt8.toNat_ofNat', UInt8.toNat_ofNat']
      congr 1
      omega
    · rw [if_neg h2]
      show (((UInt8.ofNat (0xF0 + n / 262144)).toNat % 8) * 262144 + ((UInt8.ofNat (0x80 + n / 4096 % 64)).toNat % 64) * 4096 +
        ((UInt8.ofNat (0x80 + n / 64 % 64)).toNat % 64) * 64 + (UInt8.ofNat (0x80 + n % 64)).toNat % 64, 4) = (n, 4)
      rw [UInt8.toNat_ofNat', UInt8.toNat_ofNat', UInt8.toNat_ofNat', UInt8.toNat_ofNat']
      congr 1
      omega

theorem gbkCode_some {T : GbkTable} (hT : GbkTable.Sound T) {r : Nat} {g : Str} (h80 : 0x80 ≤ r) (h : gbkCode T r = some g)
    {g' : Str} {t : List Nat} (hg : GbkText T g' t) : GbkText T (g ++ g') (r :: t) := by
  unfold gbkCode at h
  split at h
  · cases h
    rename_i e
    rw [e]
    exact .euro hg
  · split at h
    · cases h
    · cases h
      rename_i he h0
      have := hT.lead r h0
      refine .pair h80 he ?_ h0 hg
      rw [UInt8.toNat_ofNat', UInt8.toNat_ofNat']
      omega

theorem gbkEncodeN_some {T : GbkTable} (hT : GbkTable.Sound T) : ∀ k s g, s.length ≤ k → gbkEncodeN T k s = some g →
    ∃ t, s = utf8Text t ∧ (∀ n ∈ t, Spec.Scalar n) ∧ GbkText T g t
  | 0, [], g, _, h => by
    cases h
    exact ⟨[], rfl, by simp, .nil⟩
  | 0, _ :: _, g, hk, h => by simp at hk
  | k + 1, [], g, _, h => by
    cases h
    exact ⟨[], rfl, by simp, .nil⟩
  | k + 1, b :: s, g, hk, h => by
    have hk : s.length ≤ k := by simpa using hk
    rw [gbkEncodeN] at h
    split at h
    · rename_i hb
      obtain ⟨g', h1, rfl⟩ := Option.map_eq_some_iff.1 h
      obtain ⟨t, e, ht, hg⟩ := gbkEncodeN_some hT k s g' hk h1
      have hb : b.toNat < 0x80 := by rw [UInt8.lt_iff_toNat_lt] at hb; exact hb
      refine ⟨b.toNat :: t, ?_, ?_, .ascii hb hg⟩
      · rw [e]
        show _ = utf8Of b.toNat ++ utf8Text t
        rw [show utf8Of b.toNat = [b] by unfold utf8Of; rw [if_pos hb, UInt8.ofNat_toNat]]
        rfl
      · intro n hn
        cases hn with
        | head => exact Or.inl (by omega)
        | tail _ hn => exact ht n hn
    · rename_i hb
      split at h
      · cases h
      · rename_i c hc
        obtain ⟨g', h1, rfl⟩ := Option.map_eq_some_iff.1 h
        cases hr : runeSize (b :: s) with
        | zero =>
          have e : decodeRune (b :: s) = (0xFFFD, 1) := by unfold decodeRune; rw [hr]; rfl
          rw [e] at hc
          unfold gbkCode at hc
          rw [if_neg (by decide), if_pos hT.none] at hc
          cases hc
        | succ j =>
          obtain ⟨n, r, hn, h80, e, hl⟩ := runeSize_pos hr
          rw [e] at hc h1
          rw [decodeRune_utf8Of hn h80] at hc h1
          rw [List.drop_left] at h1
          have hlen : (utf8Of n).length + r.length = s.length + 1 := by
            rw [← List.length_append, ← e]; rfl
          obtain ⟨t, e', ht, hg⟩ := gbkEncodeN_some hT k r g' (by omega) h1
          refine ⟨n :: t, by rw [e, e']; rfl, ?_, gbkCode_some hT h80 hc hg⟩
          intro m hm
          cases hm with
          | head => exact hn
          | tail _ hm => exact ht m hm

theorem gbkEncodeN_of {T : GbkTable} (hT : GbkTable.Sound T) {g : List UInt8} {t : List Nat} (h : GbkText T g t) :
    ∀ k, (utf8Text t).length ≤ k → gbkEncodeN T k (utf8Text t) = some g := by
  have big : ∀ {r : Nat} {c g : Str} {t : List Nat}, Spec.Scalar r → 0x80 ≤ r → gbkCode T r = some c →
      (∀ k, (utf8Text t).length ≤ k → gbkEncodeN T k (utf8Text t) = some g) →
      ∀ k, (utf8Text (r :: t)).length ≤ k → gbkEncodeN T k (utf8Text (r :: t)) = some (c ++ g) := by
    intro r c g t hr h80 hc ih k hk
    have e : utf8Text (r :: t) = utf8Of r ++ utf8Text t := rfl
    rw [e] at hk ⊢
    have hs := runeSize_utf8Of hr h80 (utf8Text t)
    have hd := decodeRune_utf8Of hr h80 (utf8Text t)
    cases hu : utf8Of r with
    | nil => exact absurd hu (utf8Of_ne_nil r)
    | cons b u =>
      cases k with
      | zero => rw [hu] at hk; simp at hk
      | succ k =>
        have hb : ¬ b < 0x80 := by
          rw [UInt8.lt_iff_toNat_lt]
          show ¬ b.toNat < 128
          unfold utf8Of at hu
          unfold Spec.Scalar at hr
          repeat' split at hu
          all_goals
            injection hu with hu _
            rw [← hu, UInt8.toNat_ofNat']
            omega
        rw [hu] at hd hk
        show gbkEncodeN T (k + 1) (b :: (u ++ utf8Text t)) = _
        rw [gbkEncodeN, if_neg hb]
        rw [show b :: (u ++ utf8Text t) = b :: u ++ utf8Text t from rfl, hd]
        simp only [hc]
        rw [List.drop_left, ih k (by simp only [List.length_append, List.length_cons] at hk; omega)]
        rfl
  induction h with
  | nil => intro k _; cases k <;> rfl
  | @ascii b g t hb _ ih =>
    intro k hk
    have e : utf8Text (b.toNat :: t) = b :: utf8Text t := by
      show utf8Of b.toNat ++ utf8Text t = _
      rw [show utf8Of b.toNat = [b] by unfold utf8Of; rw [if_pos hb, UInt8.ofNat_toNat]]
      rfl
    rw [e] at hk ⊢
    cases k with
    | zero => simp at hk
    | succ k =>
      rw [gbkEncodeN, if_pos (by rw [UInt8.lt_iff_toNat_lt]; exact hb), ih k (by simpa using hk)]
      rfl
  | @euro g t _ ih => exact big (c := [0x80]) (by unfold Spec.Scalar; decide) (by decide) rfl ih
  | @pair a b r g t h80 he hc h0 _ ih =>
    refine big (c := [a, b]) (hT.known r h0).1 h80 ?_ ih
    unfold gbkCode
    have hb := b.toNat_lt
    rw [if_neg he, if_neg h0, show T.code r / 256 = a.toNat by omega, show T.code r % 256 = b.toNat by omega,
      UInt8.ofNat_toNat, UInt8.ofNat_toNat]

end JT808
