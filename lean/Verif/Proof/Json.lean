import Verif.Model.JsonText
import Verif.Spec.Json
import Verif.Proof.Decimal
/-
UTF-8 and JSON texts.
-/
namespace JT808
open Spec

theorem ofNat_inj {a b : Nat} (ha : a < 256) (hb : b < 256) (h : UInt8.ofNat a = UInt8.ofNat b) : a = b := by
  have := congrArg UInt8.toNat h
  simp only [UInt8.toNat_ofNat'] at this
  omega

theorem utf8Of_prefix {n m : Nat} {r r' : List UInt8} (hn : Scalar n) (hm : Scalar m)
    (h : utf8Of n ++ r = utf8Of m ++ r') : n = m ∧ r = r' := by
  unfold Scalar at hn hm
  unfold utf8Of at h
  repeat' split at h
  all_goals simp only [List.cons_append, List.nil_append, List.cons.injEq] at h
  all_goals have h0 := ofNat_inj (by omega) (by omega) h.1
  all_goals try omega
  · exact ⟨h0, h.2⟩
  · have h1 := ofNat_inj (by omega) (by omega) h.2.1
    exact ⟨by omega, h.2.2⟩
  · have h1 := ofNat_inj (by omega) (by omega) h.2.1
    have h2 := ofNat_inj (by omega) (by omega) h.2.2.1
    exact ⟨by omega, h.2.2.2⟩
  · have h1 := ofNat_inj (by omega) (by omega) h.2.1
    have h2 := ofNat_inj (by omega) (by omega) h.2.2.1
    have h3 := ofNat_inj (by omega) (by omega) h.2.2.2.1
    exact ⟨by omega, h.2.2.2.2⟩

theorem utf8Of_ne_nil (n : Nat) : utf8Of n ≠ [] := by
  unfold utf8Of
  split
  · simp
  · split
    · simp
    · split <;> simp

/-- The rows of the table. -/
theorem runeInfo_some {b : UInt8} {k : Nat} {lo hi : UInt8} (h : runeInfo b = some (k, lo, hi)) :
    (k = 2 ∧ 0xc2 ≤ b.toNat ∧ b.toNat ≤ 0xdf ∧ lo.toNat = 0x80 ∧ hi.toNat = 0xbf) ∨
    (k = 3 ∧ b.toNat = 0xe0 ∧ lo.toNat = 0xa0 ∧ hi.toNat = 0xbf) ∨
    (k = 3 ∧ b.toNat = 0xed ∧ lo.toNat = 0x80 ∧ hi.toNat = 0x9f) ∨
    (k = 3 ∧ 0xe1 ≤ b.toNat ∧ b.toNat ≤ 0xef ∧ b.toNat ≠ 0xed ∧ lo.toNat = 0x80 ∧ hi.toNat = 0xbf) ∨
    (k = 4 ∧ b.toNat = 0xf0 ∧ lo.toNat = 0x90 ∧ hi.toNat = 0xbf) ∨
    (k = 4 ∧ 0xf1 ≤ b.toNat ∧ b.toNat ≤ 0xf3 ∧ lo.toNat = 0x80 ∧ hi.toNat = 0xbf) ∨
    (k = 4 ∧ b.toNat = 0xf4 ∧ lo.toNat = 0x80 ∧ hi.toNat = 0x8f) := by
  unfold runeInfo at h
  simp only [UInt8.le_iff_toNat_le, ← UInt8.toNat_inj] at h
  repeat' split at h
  all_goals first
    | (simp only [Option.some.injEq, Prod.mk.injEq] at h
       obtain ⟨rfl, rfl, rfl⟩ := h
       simp_all
       done)
    | (simp only [Option.some.injEq, Prod.mk.injEq] at h
       obtain ⟨rfl, rfl, rfl⟩ := h
       simp_all
       omega)
    | cases h

theorem runeInfo_none {b : UInt8} (h : runeInfo b = none) :
    b.toNat < 0xc2 ∨ 0xf4 < b.toNat := by
  unfold runeInfo at h
  simp only [UInt8.le_iff_toNat_le, ← UInt8.toNat_inj] at h
  repeat' split at h
  all_goals first
    | (cases h; done)
    | (have e1 : UInt8.toNat 194 = 194 := rfl
       have e2 : UInt8.toNat 223 = 223 := rfl
       have e3 : UInt8.toNat 224 = 224 := rfl
       have e4 : UInt8.toNat 237 = 237 := rfl
       have e5 : UInt8.toNat 225 = 225 := rfl
       have e6 : UInt8.toNat 239 = 239 := rfl
       have e7 : UInt8.toNat 240 = 240 := rfl
       have e8 : UInt8.toNat 241 = 241 := rfl
       have e9 : UInt8.toNat 243 = 243 := rfl
       have e0 : UInt8.toNat 244 = 244 := rfl
       omega)

theorem ofNat_toNat {b : UInt8} {n : Nat} (h : n = b.toNat) : UInt8.ofNat n = b := by
  subst h; exact UInt8.ofNat_toNat

/-- Where the decoder sees an encoded character, there is one. -/
theorem runeSize_pos {s : Str} {k : Nat} (h : runeSize s = k + 1) :
    ∃ n r, Scalar n ∧ 0x80 ≤ n ∧ s = utf8Of n ++ r ∧ (utf8Of n).length = k + 1 := by
  unfold runeSize at h
  split at h
  · cases h
  · rename_i b s
    split at h
    · cases h
    · cases h
    · rename_i n lo hi b1 s hr
      have hr := runeInfo_some hr
      simp only [UInt8.lt_iff_toNat_lt] at h
      split at h
      · cases h
      · rename_i h1
        split at h
        · rename_i h2
          obtain rfl : k = 1 := by omega
          refine ⟨(b.toNat - 0xc0) * 64 + (b1.toNat - 0x80), s, ?_⟩
          have hb : 0xc2 ≤ b.toNat ∧ b.toNat ≤ 0xdf ∧ 0x80 ≤ b1.toNat ∧ b1.toNat ≤ 0xbf := by omega
          have e : utf8Of ((b.toNat - 0xc0) * 64 + (b1.toNat - 0x80)) = [b, b1] := by
            unfold utf8Of
            rw [if_neg (by omega), if_pos (by omega), ofNat_toNat (b := b) (by omega), ofNat_toNat (b := b1) (by omega)]
          rw [e]
          exact ⟨by unfold Scalar; omega, by omega, rfl, rfl⟩
        · rename_i h2
          split at h
          · cases h
          · rename_i b2 s
            have e80 : UInt8.toNat 0x80 = 0x80 := rfl
            have ebf : UInt8.toNat 0xbf = 0xbf := rfl
            rw [e80, ebf] at h
            split at h
            · cases h
            · rename_i h3
              split at h
              · rename_i h4
                obtain rfl : k = 2 := by omega
                refine ⟨(b.toNat - 0xe0) * 4096 + (b1.toNat - 0x80) * 64 + (b2.toNat - 0x80), s, ?_⟩
                have e : utf8Of ((b.toNat - 0xe0) * 4096 + (b1.toNat - 0x80) * 64 + (b2.toNat - 0x80)) = [b, b1, b2] := by
                  unfold utf8Of
                  rw [if_neg (by omega), if_neg (by omega), if_pos (by omega), ofNat_toNat (b := b) (by omega),
                    ofNat_toNat (b := b1) (by omega), ofNat_toNat (b := b2) (by omega)]
                rw [e]
                exact ⟨by unfold Scalar; omega, by omega, rfl, rfl⟩
              · rename_i h4
                split at h
                · cases h
                · rename_i b3 s
                  split at h
                  · cases h
                  · rename_i h5
                    obtain rfl : k = 3 := by omega
                    refine ⟨(b.toNat - 0xf0) * 262144 + (b1.toNat - 0x80) * 4096 + (b2.toNat - 0x80) * 64 +
                      (b3.toNat - 0x80), s, ?_⟩
                    have e : utf8Of ((b.toNat - 0xf0) * 262144 + (b1.toNat - 0x80) * 4096 + (b2.toNat - 0x80) * 64 +
                        (b3.toNat - 0x80)) = [b, b1, b2, b3] := by
                      unfold utf8Of
                      rw [if_neg (by omega), if_neg (by omega), if_neg (by omega), ofNat_toNat (b := b) (by omega),
                        ofNat_toNat (b := b1) (by omega), ofNat_toNat (b := b2) (by omega), ofNat_toNat (b := b3) (by omega)]
                    rw [e]
                    exact ⟨by unfold Scalar; omega, by omega, rfl, rfl⟩

/-- Where there is one, the decoder sees it. -/
theorem runeSize_utf8Of {n : Nat} (hn : Scalar n) (h80 : 0x80 ≤ n) (r : Str) :
    runeSize (utf8Of n ++ r) = (utf8Of n).length := by
  cases hk : runeSize (utf8Of n ++ r) with
  | succ k =>
    obtain ⟨m, r', hm, _, he, hl⟩ := runeSize_pos hk
    obtain ⟨rfl, _⟩ := utf8Of_prefix hn hm he
    exact hl.symm
  | zero =>
    exfalso
    unfold Scalar at hn
    have e80 : UInt8.toNat 0x80 = 0x80 := rfl
    have ebf : UInt8.toNat 0xbf = 0xbf := rfl
    have key : ∀ (b : UInt8), 0xc2 ≤ b.toNat → b.toNat ≤ 0xf4 → ∃ k lo hi, runeInfo b = some (k, lo, hi) := by
      intro b h1 h2
      cases hr : runeInfo b with
      | none => have := runeInfo_none hr; omega
      | some x => exact ⟨_, _, _, rfl⟩
    unfold utf8Of at hk
    rw [if_neg (by omega)] at hk
    split at hk
    · obtain ⟨k, lo, hi, hr⟩ := key (UInt8.ofNat (0xC0 + n / 64)) (by rw [UInt8.toNat_ofNat']; omega)
        (by rw [UInt8.toNat_ofNat']; omega)
      simp only [List.cons_append, List.nil_append, runeSize, hr, UInt8.lt_iff_toNat_lt, UInt8.toNat_ofNat'] at hk
      have hr := runeInfo_some hr
      simp only [UInt8.toNat_ofNat'] at hr
      rw [if_neg (by omega), if_pos (by omega)] at hk
      cases hk
    · split at hk
      · obtain ⟨k, lo, hi, hr⟩ := key (UInt8.ofNat (0xE0 + n / 4096)) (by rw [UInt8.toNat_ofNat']; omega)
          (by rw [UInt8.toNat_ofNat']; omega)
        simp only [List.cons_append, List.nil_append, runeSize, hr, UInt8.lt_iff_toNat_lt, UInt8.toNat_ofNat', e80, ebf] at hk
        have hr := runeInfo_some hr
        simp only [UInt8.toNat_ofNat'] at hr
        rw [if_neg (by omega), if_neg (by omega), if_neg (by omega), if_pos (by omega)] at hk
        cases hk
      · obtain ⟨k, lo, hi, hr⟩ := key (UInt8.ofNat (0xF0 + n / 262144)) (by rw [UInt8.toNat_ofNat']; omega)
          (by rw [UInt8.toNat_ofNat']; omega)
        simp only [List.cons_append, List.nil_append, runeSize, hr, UInt8.lt_iff_toNat_lt, UInt8.toNat_ofNat', e80, ebf] at hk
        have hr := runeInfo_some hr
        simp only [UInt8.toNat_ofNat'] at hr
        rw [if_neg (by omega), if_neg (by omega), if_neg (by omega), if_neg (by omega), if_neg (by omega)] at hk
        cases hk

theorem hexWorth_jsonHex {n : UInt8} (h : n.toNat < 16) : hexWorth (jsonHex n) = some n.toNat := by
  unfold jsonHex
  have e10 : UInt8.toNat 10 = 10 := rfl
  have e30 : UInt8.toNat 0x30 = 0x30 := rfl
  have e61 : UInt8.toNat 0x61 = 0x61 := rfl
  simp only [UInt8.lt_iff_toNat_lt, e10]
  split
  · rename_i h1
    have : (0x30 + n).toNat = 0x30 + n.toNat := by rw [UInt8.toNat_add, e30]; omega
    unfold hexWorth
    rw [this, if_pos (by omega)]
    congr 1; omega
  · rename_i h1
    have h2 : (n - 10).toNat = n.toNat - 10 := by
      rw [UInt8.toNat_sub_of_le]
      · rw [e10]
      · rw [UInt8.le_iff_toNat_le, e10]; omega
    have : (0x61 + (n - 10)).toNat = 0x61 + (n.toNat - 10) := by rw [UInt8.toNat_add, e61, h2]; omega
    unfold hexWorth
    rw [this, if_neg (by omega), if_pos (by omega)]
    congr 1; omega

theorem jsonByte_char {b : UInt8} (h : b.toNat < 0x80) : JChar (jsonByte b) b.toNat := by
  unfold jsonByte
  split
  · rename_i h1
    rcases h1 with rfl | rfl
    · exact .short (by decide)
    · exact .short (by decide)
  · rename_i h1
    split
    · rename_i h2; subst h2; exact .short (by decide)
    · split
      · rename_i h2; subst h2; exact .short (by decide)
      · split
        · rename_i h2; subst h2; exact .short (by decide)
        · split
          · have h16 : UInt8.toNat 16 = 16 := rfl
            have hd : (b / 16).toNat = b.toNat / 16 := by rw [UInt8.toNat_div, h16]
            have hm : (b % 16).toNat = b.toNat % 16 := by rw [UInt8.toNat_mod, h16]
            have key := JChar.hex (a := 0x30) (b := 0x30) (c := jsonHex (b / 16)) (d := jsonHex (b % 16)) (w := 0) (x := 0)
              (y := b.toNat / 16) (z := b.toNat % 16) rfl rfl
              (by rw [← hd]; exact hexWorth_jsonHex (by omega)) (by rw [← hm]; exact hexWorth_jsonHex (by omega))
              (by unfold Scalar; omega)
            have e : ((0 * 16 + 0) * 16 + b.toNat / 16) * 16 + b.toNat % 16 = b.toNat := by omega
            rwa [e] at key
          · rename_i h2
            simp only [not_or, UInt8.lt_iff_toNat_lt, ← UInt8.toNat_inj] at h1 h2
            have e20 : UInt8.toNat 0x20 = 0x20 := rfl
            have e22 : UInt8.toNat 0x22 = 0x22 := rfl
            have e5c : UInt8.toNat 0x5c = 0x5c := rfl
            rw [e20] at h2
            rw [e22, e5c] at h1
            have e : utf8Of b.toNat = [b] := by
              unfold utf8Of; rw [if_pos h, UInt8.ofNat_toNat]
            rw [← e]
            exact .plain (by unfold Scalar; omega) (by omega) h1.2 h1.1

theorem seen_byte {b : UInt8} {s : List UInt8} {t : List Nat} (hb : b.toNat < 0x80) (h : Seen s t) :
    Seen (b :: s) (b.toNat :: t) := by
  have e : utf8Of b.toNat = [b] := by
    unfold utf8Of; rw [if_pos hb, UInt8.ofNat_toNat]
  have := Seen.char (n := b.toNat) (by unfold Scalar; omega) h
  rwa [e] at this

/-- Between the quotation marks are the characters that are seen in the bytes. -/
theorem jsonChars_seen (k : Nat) (s : Str) (h : s.length ≤ k) : ∃ t, Seen s t ∧ JChars (jsonCharsN k s) t := by
  induction k generalizing s with
  | zero =>
    obtain rfl : s = [] := List.eq_nil_of_length_eq_zero (by omega)
    exact ⟨[], .nil, .nil⟩
  | succ k ih =>
    cases s with
    | nil => exact ⟨[], .nil, .nil⟩
    | cons b s =>
      simp only [jsonCharsN]
      have e80 : UInt8.toNat 0x80 = 0x80 := rfl
      have hs : s.length ≤ k := by simpa using h
      split
      · rename_i hb
        rw [UInt8.lt_iff_toNat_lt, e80] at hb
        obtain ⟨t, h1, h2⟩ := ih s hs
        exact ⟨_, seen_byte hb h1, .cons (jsonByte_char hb) h2⟩
      · rename_i hb
        rw [UInt8.lt_iff_toNat_lt, e80] at hb
        cases hr : runeSize (b :: s) with
        | zero =>
          obtain ⟨t, h1, h2⟩ := ih s hs
          refine ⟨0xFFFD :: t, .bad ?_ h1, .cons (u := [0x5c, 0x75, 0x66, 0x66, 0x66, 0x64]) ?_ h2⟩
          · intro n r hn he
            by_cases h80 : 0x80 ≤ n
            · have := runeSize_utf8Of hn h80 r
              rw [← he, hr] at this
              exact utf8Of_ne_nil n (List.eq_nil_of_length_eq_zero this.symm)
            · unfold utf8Of at he
              rw [if_pos (by omega)] at he
              injection he with he _
              rw [he, UInt8.toNat_ofNat'] at hb
              omega
          · exact JChar.hex (w := 15) (x := 15) (y := 15) (z := 13) rfl rfl rfl rfl (by unfold Scalar; omega)
        | succ n =>
          obtain ⟨m, r, hm, h80, he, hl⟩ := runeSize_pos hr
          have ht : (b :: s).take (n + 1) = utf8Of m := by rw [he, ← hl, List.take_left]
          have hd : (b :: s).drop (n + 1) = r := by rw [he, ← hl, List.drop_left]
          have hrl : r.length ≤ k := by
            have := congrArg List.length he
            rw [List.length_append, hl] at this
            simp only [List.length_cons] at this h
            omega
          obtain ⟨t, h1, h2⟩ := ih r hrl
          simp only [ht, hd]
          refine ⟨m :: t, he ▸ .char hm h1, .cons ?_ h2⟩
          split
          · rename_i hu
            have : utf8Of m ++ [] = utf8Of 0x2028 ++ [] := by rw [hu]; rfl
            obtain rfl := (utf8Of_prefix hm (by unfold Scalar; omega) this).1
            exact JChar.hex (w := 2) (x := 0) (y := 2) (z := 8) rfl rfl rfl rfl (by unfold Scalar; omega)
          · split
            · rename_i hu
              have : utf8Of m ++ [] = utf8Of 0x2029 ++ [] := by rw [hu]; rfl
              obtain rfl := (utf8Of_prefix hm (by unfold Scalar; omega) this).1
              exact JChar.hex (w := 2) (x := 0) (y := 2) (z := 9) rfl rfl rfl rfl (by unfold Scalar; omega)
            · exact .plain hm (by omega) (by omega) (by omega)

/-- What is seen is determined by the bytes. -/
theorem seen_unique {s : List UInt8} {t t' : List Nat} (h : Seen s t) (h' : Seen s t') : t = t' := by
  induction h generalizing t' with
  | nil =>
    generalize hs : ([] : List UInt8) = s at h'
    cases h' with
    | nil => rfl
    | char _ _ => exact absurd (List.append_eq_nil_iff.1 hs.symm).1 (utf8Of_ne_nil _)
    | bad _ _ => cases hs
  | @char n s t hn _ ih =>
    generalize hs : utf8Of n ++ s = s' at h'
    cases h' with
    | nil => exact absurd (List.append_eq_nil_iff.1 hs).1 (utf8Of_ne_nil _)
    | char hm h2 =>
      obtain ⟨rfl, rfl⟩ := utf8Of_prefix hn hm hs
      rw [ih h2]
    | bad hb _ => exact absurd hs.symm (hb n s hn)
  | @bad b s t hb _ ih =>
    generalize hs : b :: s = s' at h'
    cases h' with
    | nil => cases hs
    | char hm h2 => exact absurd hs (hb _ _ hm)
    | bad _ h2 =>
      injection hs with h1 h3
      subst h1; subst h3
      rw [ih h2]

/-- In a text in UTF-8 one sees the text. -/
theorem seen_utf8Text {t : List Nat} (h : ∀ n ∈ t, Scalar n) : Seen (utf8Text t) t := by
  induction t with
  | nil => exact .nil
  | cons n t ih =>
    exact .char (h n List.mem_cons_self) (ih fun m hm => h m (List.mem_cons_of_mem _ hm))

end JT808
