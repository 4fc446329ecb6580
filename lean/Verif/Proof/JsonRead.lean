import Verif.Model.JsonRead
import Verif.Spec.JsonRfc
import Verif.Proof.JsonUnique
/-
Reading a JSON text gives the value it denotes.
-/
namespace JT808
open Spec

/-! ### White space -/

theorem jsonSpace_iff (b : UInt8) : jsonSpace b = true ↔ b = 0x20 ∨ b = 0x09 ∨ b = 0x0a ∨ b = 0x0d := by
  unfold jsonSpace
  simp only [Bool.or_eq_true, beq_iff_eq]
  constructor
  · rintro (((h | h) | h) | h) <;> simp [h]
  · rintro (h | h | h | h) <;> simp [h]

theorem skipSpace_blank {w : List UInt8} (h : Blank w) (s : Str) : skipSpace (w ++ s) = skipSpace s := by
  induction w with
  | nil => rfl
  | cons b w ih =>
    have hb := (jsonSpace_iff b).2 (h b List.mem_cons_self)
    unfold skipSpace at ih ⊢
    rw [List.cons_append, List.dropWhile_cons, if_pos hb]
    exact ih fun x hx => h x (List.mem_cons_of_mem _ hx)

theorem skipSpace_cons {b : UInt8} (h : jsonSpace b = false) (s : Str) : skipSpace (b :: s) = b :: s := by
  unfold skipSpace
  rw [List.dropWhile_cons, if_neg (by rw [h]; simp)]

theorem skipSpace_split (s : Str) : ∃ w, Blank w ∧ s = w ++ skipSpace s := by
  induction s with
  | nil => exact ⟨[], fun _ h => absurd h List.not_mem_nil, rfl⟩
  | cons b s ih =>
    obtain ⟨w, hw, e⟩ := ih
    cases hb : jsonSpace b with
    | false => exact ⟨[], fun _ h => absurd h List.not_mem_nil, by rw [skipSpace_cons hb]; rfl⟩
    | true =>
      refine ⟨b :: w, ?_, ?_⟩
      · intro x hx
        rcases List.mem_cons.1 hx with rfl | hx
        · exact (jsonSpace_iff _).1 hb
        · exact hw x hx
      · have : skipSpace (b :: s) = skipSpace s := by
          unfold skipSpace; rw [List.dropWhile_cons, if_pos hb]
        rw [this, List.cons_append, ← e]

/-! ### Strings -/

theorem jsonNibble_eq (b : UInt8) : jsonNibble b = hexWorth b := by
  have key : ∀ n : Fin 256, jsonNibble (UInt8.ofNat n.1) = hexWorth (UInt8.ofNat n.1) := by decide +kernel
  have := key ⟨b.toNat, b.toNat_lt⟩
  simpa using this

theorem hexWorth_lt {b : UInt8} {n : Nat} (h : hexWorth b = some n) : n < 16 := by
  unfold hexWorth at h
  split at h
  · injection h with h; omega
  · split at h
    · injection h with h; omega
    · split at h
      · injection h with h; omega
      · cases h

theorem hexWorth_not_quote {b : UInt8} {n : Nat} (h : hexWorth b = some n) : b ≠ 0x22 := by
  rintro rfl
  rw [show hexWorth 0x22 = none by decide] at h
  cases h

theorem Spec.HexEscape.lt {u : List UInt8} {n : Nat} (h : HexEscape u n) : n < 0x10000 := by
  obtain ⟨a, b, c, d, w, x, y, z, _, h1, h2, h3, h4, rfl⟩ := h
  have := hexWorth_lt h1; have := hexWorth_lt h2; have := hexWorth_lt h3; have := hexWorth_lt h4
  omega

theorem Spec.HexEscape.get {u : List UInt8} {n : Nat} (h : HexEscape u n) (s : Str) :
    ∃ v, u ++ s = 0x5c :: 0x75 :: v ∧ getu4 v = some (n, s) := by
  obtain ⟨a, b, c, d, w, x, y, z, rfl, h1, h2, h3, h4, rfl⟩ := h
  refine ⟨a :: b :: c :: d :: s, rfl, ?_⟩
  simp only [getu4, jsonNibble_eq, h1, h2, h3, h4]

theorem getu4_some {v s : Str} {n : Nat} (h : getu4 v = some (n, s)) :
    ∃ u, HexEscape u n ∧ 0x5c :: 0x75 :: v = u ++ s := by
  unfold getu4 at h
  split at h
  · rename_i a b c d s'
    simp only [jsonNibble_eq] at h
    split at h
    · rename_i w x y z h1 h2 h3 h4
      simp only [Option.some.injEq, Prod.mk.injEq] at h
      obtain ⟨h, rfl⟩ := h
      exact ⟨[0x5c, 0x75, a, b, c, d], ⟨a, b, c, d, w, x, y, z, rfl, h1, h2, h3, h4, h.symm⟩, rfl⟩
    · cases h
  · cases h

theorem Spec.HexEscape.no_quote {u : List UInt8} {n : Nat} (h : HexEscape u n) : ∀ b ∈ u, b ≠ 0x22 := by
  obtain ⟨a, b, c, d, w, x, y, z, rfl, h1, h2, h3, h4, _⟩ := h
  intro b hb
  simp only [List.mem_cons, List.not_mem_nil, or_false] at hb
  rcases hb with rfl | rfl | rfl | rfl | rfl | rfl
  · decide
  · decide
  · exact hexWorth_not_quote h1
  · exact hexWorth_not_quote h2
  · exact hexWorth_not_quote h3
  · exact hexWorth_not_quote h4

/-- What contains no quotation mark lies before the first one. -/
theorem before_quote {u x r r' : List UInt8} (hu : ∀ b ∈ u, b ≠ 0x22) (h : x ++ 0x22 :: r = u ++ r') : ∃ r'', x = u ++ r'' := by
  induction u generalizing x with
  | nil => exact ⟨x, rfl⟩
  | cons b u ih =>
    cases x with
    | nil =>
      injection h with h _
      exact absurd h.symm (hu b List.mem_cons_self)
    | cons c x =>
      injection h with h1 h2
      obtain ⟨r'', rfl⟩ := ih (fun y hy => hu y (List.mem_cons_of_mem _ hy)) h2
      exact ⟨r'', by rw [h1]; rfl⟩

theorem putRune_eq {n : Nat} (h : Scalar n) : putRune n = utf8Of n := by
  unfold Scalar at h
  unfold putRune utf8Of
  split
  · rfl
  · split
    · rfl
    · rw [if_neg (by omega)]

theorem scalar_fffd : Scalar 0xFFFD := by unfold Scalar; omega

theorem utf8Of_high {n : Nat} (h80 : 0x80 ≤ n) (hn : Scalar n) : ∀ b ∈ utf8Of n, 0x80 ≤ b.toNat := by
  unfold Scalar at hn
  unfold utf8Of
  rw [if_neg (by omega)]
  intro b hb
  split at hb
  · simp only [List.mem_cons, List.not_mem_nil, or_false] at hb
    rcases hb with rfl | rfl <;> rw [UInt8.toNat_ofNat'] <;> omega
  · split at hb
    · simp only [List.mem_cons, List.not_mem_nil, or_false] at hb
      rcases hb with rfl | rfl | rfl <;> rw [UInt8.toNat_ofNat'] <;> omega
    · simp only [List.mem_cons, List.not_mem_nil, or_false] at hb
      rcases hb with rfl | rfl | rfl | rfl <;> rw [UInt8.toNat_ofNat'] <;> omega

theorem ne_of_toNat {a b : UInt8} (h : a.toNat ≠ b.toNat) : a ≠ b := fun e => h (by rw [e])

/-- A character is read. -/
theorem rchar_read {u : List UInt8} {n : Nat} (h : RChar u n) (s : Str) :
    readChar (u ++ s) = some (utf8Of n, s) ∧ ∃ b v, u = b :: v ∧ b ≠ 0x22 := by
  have e22 : UInt8.toNat 0x22 = 0x22 := rfl
  have e5c : UInt8.toNat 0x5c = 0x5c := rfl
  have e20 : UInt8.toNat 0x20 = 0x20 := rfl
  have e80 : UInt8.toNat 0x80 = 0x80 := rfl
  cases h with
  | char h =>
    cases h with
    | plain hn h20 h22 h5c =>
      by_cases h80 : n < 0x80
      · have e : utf8Of n = [UInt8.ofNat n] := by unfold utf8Of; rw [if_pos h80]
        have et : (UInt8.ofNat n).toNat = n := by rw [UInt8.toNat_ofNat']; omega
        rw [e]
        refine ⟨?_, _, _, rfl, ne_of_toNat (by rw [et, e22]; exact h22)⟩
        simp only [List.cons_append, List.nil_append, readChar]
        rw [if_neg (ne_of_toNat (by rw [et, e5c]; exact h5c)), if_neg (by rw [UInt8.lt_iff_toNat_lt, et, e20]; omega),
          if_pos (by rw [UInt8.lt_iff_toNat_lt, et, e80]; omega)]
      · have hs := runeSize_utf8Of hn (by omega) s
        have hh := utf8Of_high (by omega : 0x80 ≤ n) hn
        cases hu : utf8Of n with
        | nil => exact absurd hu (utf8Of_ne_nil n)
        | cons b v =>
          have hb := hh b (by rw [hu]; exact List.mem_cons_self)
          refine ⟨?_, b, v, rfl, ne_of_toNat (by rw [e22]; omega)⟩
          rw [hu] at hs
          simp only [List.cons_append, List.length_cons] at hs
          simp only [List.cons_append, readChar]
          rw [if_neg (ne_of_toNat (by rw [e5c]; omega)), if_neg (by rw [UInt8.lt_iff_toNat_lt, e20]; omega),
            if_neg (by rw [UInt8.lt_iff_toNat_lt, e80]; omega)]
          simp only [hs]
          rw [← List.cons_append, ← List.length_cons (a := b), List.take_left, List.drop_left]
    | short hm =>
      refine ⟨?_, _, _, rfl, by decide⟩
      simp only [shortEscapes, List.mem_cons, List.not_mem_nil, or_false, Prod.mk.injEq] at hm
      rcases hm with ⟨rfl, rfl⟩ | ⟨rfl, rfl⟩ | ⟨rfl, rfl⟩ | ⟨rfl, rfl⟩ | ⟨rfl, rfl⟩ | ⟨rfl, rfl⟩ | ⟨rfl, rfl⟩ | ⟨rfl, rfl⟩ <;> rfl
    | @hex a b c d w x y z h1 h2 h3 h4 hs =>
      refine ⟨?_, _, _, rfl, by decide⟩
      simp only [List.cons_append, List.nil_append, readChar, readEscape, getu4, jsonNibble_eq, h1, h2, h3, h4, if_true]
      rw [if_neg (by unfold Scalar at hs; omega), putRune_eq hs]
  | @pair u v hi lo h1 h2 g1 g2 g3 g4 =>
    obtain ⟨u', eu, gu⟩ := h1.get (v ++ s)
    obtain ⟨v', ev, gv⟩ := h2.get s
    have hb : ∃ b t, u ++ v = b :: t ∧ b ≠ 0x22 := by
      obtain ⟨a, b, c, d, w, x, y, z, rfl, _⟩ := h1
      exact ⟨_, _, rfl, by decide⟩
    refine ⟨?_, hb⟩
    rw [List.append_assoc, eu]
    simp only [readChar, readEscape, gu, if_true]
    rw [if_pos ⟨g1, by omega⟩, ev]
    simp only [lowHalf, gv]
    rw [if_pos ⟨g2, g3, g4⟩]
    have hp : Scalar (paired hi lo) := by unfold Scalar paired; omega
    simp only [putRune_eq (n := (hi - 0xD800) * 1024 + (lo - 0xDC00) + 0x10000) hp]
    rfl

/-- A text between quotation marks is read as what it denotes. -/
theorem lstring_read {s t : List UInt8} (h : LString s t) (k : Nat) (hk : s.length < k) (r : Str) :
    readChars k (s ++ 0x22 :: r) = some (t, r) := by
  induction h generalizing k with
  | nil =>
    cases k with
    | zero => omega
    | succ k => simp [readChars]
  | @cons u s t n hc _ ih =>
    cases k with
    | zero => omega
    | succ k =>
      obtain ⟨hr, b, v, rfl, hb⟩ := rchar_read hc (s ++ 0x22 :: r)
      simp only [List.length_append, List.length_cons] at hk
      simp only [List.cons_append, List.append_assoc] at hr ⊢
      simp only [readChars, if_neg hb, hr, ih k (by omega)]
  | @bad b s t hb hn _ ih =>
    cases k with
    | zero => omega
    | succ k =>
      have e22 : UInt8.toNat 0x22 = 0x22 := rfl
      have e5c : UInt8.toNat 0x5c = 0x5c := rfl
      have e20 : UInt8.toNat 0x20 = 0x20 := rfl
      have e80 : UInt8.toNat 0x80 = 0x80 := rfl
      have hz : runeSize (b :: (s ++ 0x22 :: r)) = 0 := by
        cases hk : runeSize (b :: (s ++ 0x22 :: r)) with
        | zero => rfl
        | succ m =>
          obtain ⟨n, r', hsc, h80, he, _⟩ := runeSize_pos hk
          obtain ⟨r'', e⟩ := before_quote (x := b :: s) (r := r) (r' := r')
            (fun c hc => ne_of_toNat (by have := utf8Of_high h80 hsc c hc; rw [e22]; omega)) he
          exact absurd e (hn n r'' hsc)
      have hr : readChar (b :: (s ++ 0x22 :: r)) = some (utf8Of 0xFFFD, s ++ 0x22 :: r) := by
        simp only [readChar]
        rw [if_neg (ne_of_toNat (by rw [e5c]; omega)), if_neg (by rw [UInt8.lt_iff_toNat_lt, e20]; omega),
          if_neg (by rw [UInt8.lt_iff_toNat_lt, e80]; omega)]
        simp only [hz]
        rw [putRune_eq scalar_fffd]
      simp only [List.length_cons] at hk
      simp only [List.cons_append, readChars, hr, ih k (by omega)]
      rw [if_neg (ne_of_toNat (by rw [e22]; omega))]
  | @lone u s t n hu g1 g2 hn _ ih =>
    cases k with
    | zero => omega
    | succ k =>
      obtain ⟨u', eu, gu⟩ := hu.get (s ++ 0x22 :: r)
      have hl : lowHalf n (s ++ 0x22 :: r) = none := by
        cases hl : lowHalf n (s ++ 0x22 :: r) with
        | none => rfl
        | some x =>
          exfalso
          unfold lowHalf at hl
          split at hl
          · rename_i s1 hs1
            split at hl
            · rename_i r2 s2 hg
              split at hl
              · rename_i hcond
                obtain ⟨v, hv, ev⟩ := getu4_some hg
                obtain ⟨r'', e⟩ := before_quote (r := r) hv.no_quote (hs1.trans ev)
                exact hn hcond.1 v r2 r'' hv hcond.2.1 hcond.2.2 e
              · cases hl
            · cases hl
          · cases hl
      have hr : readChar (u ++ (s ++ 0x22 :: r)) = some (utf8Of 0xFFFD, s ++ 0x22 :: r) := by
        rw [eu]
        simp only [readChar, readEscape, gu, if_true, hl]
        rw [if_pos ⟨g1, g2⟩, putRune_eq scalar_fffd]
      rw [eu] at hr
      have hlen : s.length < k := by
        obtain ⟨a, b, c, d, w, x, y, z, rfl, _⟩ := hu
        simp only [List.length_append, List.length_cons] at hk
        omega
      rw [List.append_assoc, eu]
      simp only [readChars, hr, ih k hlen]
      rfl

/-- What is read was a character, a byte that is no UTF-8, or a single surrogate. -/
theorem readChar_some {b : UInt8} {s t s' : Str} (hb : b ≠ 0x22) (h : readChar (b :: s) = some (t, s')) :
    (∃ u n, RChar u n ∧ b :: s = u ++ s' ∧ t = utf8Of n) ∨
    (0x80 ≤ b.toNat ∧ (∀ n r, Scalar n → b :: s ≠ utf8Of n ++ r) ∧ s' = s ∧ t = utf8Of 0xFFFD) ∨
    (∃ u n, HexEscape u n ∧ 0xD800 ≤ n ∧ n < 0xE000 ∧ b :: s = u ++ s' ∧ t = utf8Of 0xFFFD ∧
      (n < 0xDC00 → ∀ v m r, HexEscape v m → 0xDC00 ≤ m → m < 0xE000 → s' ≠ v ++ r)) := by
  have e22 : UInt8.toNat 0x22 = 0x22 := rfl
  have e5c : UInt8.toNat 0x5c = 0x5c := rfl
  have e20 : UInt8.toNat 0x20 = 0x20 := rfl
  have e80 : UInt8.toNat 0x80 = 0x80 := rfl
  simp only [readChar] at h
  split at h
  · rename_i hbs
    subst hbs
    unfold readEscape at h
    split at h
    · cases h
    · rename_i e s
      split at h
      · rename_i he
        subst he
        split at h
        · cases h
        · rename_i r s1 hg
          obtain ⟨u, hu, eu⟩ := getu4_some hg
          split at h
          · rename_i hsur
            split at h
            · rename_i n s2 hl
              simp only [Option.some.injEq, Prod.mk.injEq] at h
              obtain ⟨rfl, rfl⟩ := h
              unfold lowHalf at hl
              split at hl
              · rename_i s3
                split at hl
                · rename_i r2 s4 hg2
                  split at hl
                  · rename_i hc
                    simp only [Option.some.injEq, Prod.mk.injEq] at hl
                    obtain ⟨rfl, rfl⟩ := hl
                    obtain ⟨v, hv, ev⟩ := getu4_some hg2
                    refine .inl ⟨u ++ v, paired r r2, .pair hu hv hsur.1 hc.1 hc.2.1 hc.2.2, ?_, ?_⟩
                    · rw [eu, ev, List.append_assoc]
                    · exact putRune_eq (by unfold Scalar; omega)
                  · cases hl
                · cases hl
              · cases hl
            · rename_i hl
              simp only [Option.some.injEq, Prod.mk.injEq] at h
              obtain ⟨rfl, rfl⟩ := h
              refine .inr (.inr ⟨u, r, hu, hsur.1, hsur.2, eu, putRune_eq scalar_fffd, ?_⟩)
              rintro hlt v m r' hv g1 g2 rfl
              obtain ⟨v', ev, gv⟩ := hv.get r'
              rw [ev] at hl
              simp only [lowHalf, gv] at hl
              rw [if_pos ⟨hlt, g1, g2⟩] at hl
              cases hl
          · rename_i hsur
            simp only [Option.some.injEq, Prod.mk.injEq] at h
            obtain ⟨rfl, rfl⟩ := h
            have hsc : Scalar r := by have := hu.lt; unfold Scalar; omega
            refine .inl ⟨u, r, .char ?_, eu, putRune_eq hsc⟩
            obtain ⟨a, b, c, d, w, x, y, z, rfl, h1, h2, h3, h4, rfl⟩ := hu
            exact .hex h1 h2 h3 h4 hsc
      · have key : ∀ n, (e, n) ∈ shortEscapes → some (utf8Of n, s) = some (t, s') →
            ∃ u n, RChar u n ∧ 0x5c :: e :: s = u ++ s' ∧ t = utf8Of n := by
          intro n hm h
          simp only [Option.some.injEq, Prod.mk.injEq] at h
          obtain ⟨rfl, rfl⟩ := h
          exact ⟨[0x5c, e], n, .char (.short hm), rfl, rfl⟩
        split at h
        · rename_i he
          rcases he with rfl | rfl | rfl
          · exact .inl (key 0x22 (by decide) h)
          · exact .inl (key 0x5c (by decide) h)
          · exact .inl (key 0x2f (by decide) h)
        · split at h
          · rename_i he; subst he; exact .inl (key 8 (by decide) h)
          · split at h
            · rename_i he; subst he; exact .inl (key 12 (by decide) h)
            · split at h
              · rename_i he; subst he; exact .inl (key 10 (by decide) h)
              · split at h
                · rename_i he; subst he; exact .inl (key 13 (by decide) h)
                · split at h
                  · rename_i he; subst he; exact .inl (key 9 (by decide) h)
                  · cases h
  · rename_i h5c
    split at h
    · cases h
    · rename_i h20
      rw [UInt8.lt_iff_toNat_lt, e20] at h20
      split at h
      · rename_i h80
        rw [UInt8.lt_iff_toNat_lt, e80] at h80
        simp only [Option.some.injEq, Prod.mk.injEq] at h
        obtain ⟨rfl, rfl⟩ := h
        have e : utf8Of b.toNat = [b] := by
          unfold utf8Of; rw [if_pos h80, UInt8.ofNat_toNat]
        refine .inl ⟨[b], b.toNat, .char ?_, rfl, e.symm⟩
        rw [← e]
        exact .plain (by unfold Scalar; omega) (by omega) (fun h => hb (UInt8.toNat_inj.1 (h.trans e22.symm)))
          (fun h => h5c (UInt8.toNat_inj.1 (h.trans e5c.symm)))
      · rename_i h80
        rw [UInt8.lt_iff_toNat_lt, e80] at h80
        split at h
        · rename_i hz
          simp only [Option.some.injEq, Prod.mk.injEq] at h
          obtain ⟨rfl, rfl⟩ := h
          refine .inr (.inl ⟨by omega, ?_, rfl, putRune_eq scalar_fffd⟩)
          intro n r hn he
          by_cases hn80 : 0x80 ≤ n
          · have := runeSize_utf8Of hn hn80 r
            rw [← he, hz] at this
            exact utf8Of_ne_nil n (List.eq_nil_of_length_eq_zero this.symm)
          · unfold utf8Of at he
            rw [if_pos (by omega)] at he
            injection he with he _
            rw [he, UInt8.toNat_ofNat'] at h80
            omega
        · rename_i m hz
          obtain ⟨n, r, hn, hn80, he, hl⟩ := runeSize_pos hz
          simp only [Option.some.injEq, Prod.mk.injEq] at h
          obtain ⟨rfl, rfl⟩ := h
          rw [he, ← hl, List.take_left, List.drop_left]
          exact .inl ⟨utf8Of n, n, .char (.plain hn (by omega) (by omega) (by omega)), rfl, rfl⟩

/-- What is read lay before a quotation mark. -/
theorem readChars_some (k : Nat) (s t r : Str) (h : readChars k s = some (t, r)) :
    ∃ x, LString x t ∧ s = x ++ 0x22 :: r := by
  induction k generalizing s t with
  | zero => cases h
  | succ k ih =>
    cases s with
    | nil => cases h
    | cons b s =>
      simp only [readChars] at h
      split at h
      · rename_i hb
        subst hb
        simp only [Option.some.injEq, Prod.mk.injEq] at h
        obtain ⟨rfl, rfl⟩ := h
        exact ⟨[], .nil, rfl⟩
      · rename_i hb
        split at h
        · cases h
        · rename_i t1 s1 hc
          split at h
          · cases h
          · rename_i t2 s2 hr
            simp only [Option.some.injEq, Prod.mk.injEq] at h
            obtain ⟨rfl, rfl⟩ := h
            obtain ⟨x, hx, rfl⟩ := ih s1 t2 hr
            rcases readChar_some hb hc with ⟨u, n, hu, e, rfl⟩ | ⟨h1, h2, rfl, rfl⟩ | ⟨u, n, hu, g1, g2, e, rfl, h3⟩
            · exact ⟨u ++ x, .cons hu hx, by rw [e, List.append_assoc]⟩
            · refine ⟨b :: x, .bad h1 ?_ hx, rfl⟩
              intro n r' hn he
              refine h2 n (r' ++ 0x22 :: s2) hn ?_
              rw [← List.append_assoc, ← he]; rfl
            · refine ⟨u ++ x, .lone hu g1 g2 ?_ hx, by rw [e, List.append_assoc]⟩
              intro hlt v m r' hv g3 g4 he
              refine h3 hlt v m (r' ++ 0x22 :: s2) hv g3 g4 ?_
              rw [he, List.append_assoc]

theorem rstring_lstring {s t : List UInt8} (h : RString s t) : LString s t := by
  induction h with
  | nil => exact .nil
  | cons hc _ ih => exact .cons hc ih

theorem readStr_complete {s t : List UInt8} (h : LString s t) (r : Str) : readStr (s ++ 0x22 :: r) = some (t, r) :=
  lstring_read h _ (by simp) r

theorem readStr_sound {s t r : Str} (h : readStr s = some (t, r)) : ∃ x, LString x t ∧ s = x ++ 0x22 :: r :=
  readChars_some _ _ _ _ h

end JT808
