import Verif.Proof.Bcd
/-
C105: hexadecimal text.
-/
namespace JT808

/-! ## The notation -/

/-- The digits and their values; letters in either case. -/
def Spec.hexDigits : List (Char × UInt8) :=
  [('0', 0), ('1', 1), ('2', 2), ('3', 3), ('4', 4), ('5', 5), ('6', 6), ('7', 7), ('8', 8), ('9', 9),
   ('a', 10), ('b', 11), ('c', 12), ('d', 13), ('e', 14), ('f', 15),
   ('A', 10), ('B', 11), ('C', 12), ('D', 13), ('E', 14), ('F', 15)]

/-- The byte `c` is a digit with value `v`. -/
def Spec.HexDigit (c v : UInt8) : Prop := ∃ x ∈ Spec.hexDigits, x.1.toNat.toUInt8 = c ∧ x.2 = v

/-- The text spells the bytes, two digits each, the higher one first. -/
inductive Spec.HexText : Str → List UInt8 → Prop
  | nil : HexText [] []
  | cons {a b x y : UInt8} {s : Str} {bs : List UInt8} : Spec.HexDigit a x → Spec.HexDigit b y → HexText s bs →
      HexText (a :: b :: s) ((16 * x + y) :: bs)

/-! ## C105 -/

theorem hexDigit_iff (c v : UInt8) : Spec.HexDigit c v ↔ hexVal c = some v := by
  have key : ∀ n : Fin 256, hexVal (UInt8.ofNat n.1) = (Spec.hexDigits.find? fun x => x.1.toNat.toUInt8 = UInt8.ofNat n.1).map (·.2) := by
    decide +kernel
  have uniq : ∀ x ∈ Spec.hexDigits, ∀ y ∈ Spec.hexDigits, x.1.toNat.toUInt8 = y.1.toNat.toUInt8 → x.2 = y.2 := by
    decide +kernel
  have k := key ⟨c.toNat, c.toNat_lt⟩
  simp only [UInt8.ofNat_toNat] at k
  rw [k]
  constructor
  · rintro ⟨x, hx, hc, hv⟩
    cases hf : Spec.hexDigits.find? fun x => x.1.toNat.toUInt8 = c with
    | none =>
      have := List.find?_eq_none.1 hf x hx
      simp [hc] at this
    | some y =>
      have h1 := List.mem_of_find?_eq_some hf
      have h2 := List.find?_some hf
      simp only [decide_eq_true_eq] at h2
      rw [Option.map_some, ← uniq x hx y h1 (hc.trans h2.symm), hv]
  · intro h
    cases hf : Spec.hexDigits.find? fun x => x.1.toNat.toUInt8 = c with
    | none => rw [hf] at h; cases h
    | some y =>
      rw [hf] at h
      have h2 := List.find?_some hf
      simp only [decide_eq_true_eq] at h2
      exact ⟨y, List.mem_of_find?_eq_some hf, h2, by injection h⟩

/-- Str2Byte gives the bytes spelled by the text up to the first place where no two digits follow, and what is left
there begins with no two digits.  This determines the result. -/
theorem C105_decode (s : Str) (bs : List UInt8) :
    str2Byte s = bs ↔ ∃ p r, s = p ++ r ∧ Spec.HexText p bs ∧
      ∀ a b t x y, r = a :: b :: t → Spec.HexDigit a x → ¬ Spec.HexDigit b y := by
  induction s using str2Byte.induct generalizing bs with
  | case1 a b rest x y hy hx ih =>
    simp only [str2Byte, hx, hy]
    constructor
    · rintro rfl
      obtain ⟨p, r, h1, h2, h3⟩ := (ih _).1 rfl
      refine ⟨a :: b :: p, r, by rw [h1]; rfl, ?_, h3⟩
      rw [UInt8.mul_comm]
      exact .cons ((hexDigit_iff ..).2 hx) ((hexDigit_iff ..).2 hy) h2
    · rintro ⟨p, r, h1, h2, h3⟩
      cases h2 with
      | nil => exact absurd ((hexDigit_iff ..).2 hy) (h3 a b rest x y h1.symm ((hexDigit_iff ..).2 hx))
      | @cons a' b' x' y' s' bs' ha hb ht =>
        simp only [List.cons_append, List.cons.injEq] at h1
        obtain ⟨rfl, rfl, h1⟩ := h1
        rw [hexDigit_iff] at ha hb
        rw [hx] at ha; rw [hy] at hb
        injection ha with ha; injection hb with hb
        subst ha hb
        rw [(ih bs').2 ⟨s', r, h1, ht, h3⟩, UInt8.mul_comm]
  | case2 a b rest hn =>
    have e : str2Byte (a :: b :: rest) = [] := by
      simp only [str2Byte]
    rw [e]
    constructor
    · rintro rfl
      refine ⟨[], a :: b :: rest, rfl, .nil, ?_⟩
      intro a' b' t x y h hx hy
      injection h with h1 h2; injection h2 with h2 h3
      subst h1 h2
      exact hn x y ((hexDigit_iff ..).1 hx) ((hexDigit_iff ..).1 hy)
    · rintro ⟨p, r, h1, h2, h3⟩
      cases h2 with
      | nil => rfl
      | @cons a' b' x' y' s' bs' ha hb ht =>
        simp only [List.cons_append, List.cons.injEq] at h1
        obtain ⟨rfl, rfl, h1⟩ := h1
        exact absurd ((hexDigit_iff ..).1 hb) (hn x' y' ((hexDigit_iff ..).1 ha))
  | case3 s hs =>
    have e : str2Byte s = [] := by
      cases s with
      | nil => rfl
      | cons a s =>
        cases s with
        | nil => rfl
        | cons b s => exact absurd rfl (hs a b s)
    rw [e]
    constructor
    · rintro rfl
      exact ⟨[], s, rfl, .nil, fun a b t x y h => absurd h (hs a b t)⟩
    · rintro ⟨p, r, h1, h2, h3⟩
      cases h2 with
      | nil => rfl
      | @cons a' b' x' y' s' bs' ha hb ht => exact absurd h1 (hs a' b' (s' ++ r))

/-- "0Fa9x1": the upper and lower case letters, then no digit. -/
example : str2Byte [0x30, 0x46, 0x61, 0x39, 0x78, 0x31] = [0x0f, 0xa9] := by decide

/-- Byte2Str spells any bytes, in lower case, and Str2Byte gives them back. -/
theorem C105_encode (bs : List UInt8) :
    Spec.HexText (byte2Str bs) bs ∧ str2Byte (byte2Str bs) = bs ∧ (byte2Str bs).length = 2 * bs.length ∧
    ∀ c ∈ byte2Str bs, ¬ (0x41 ≤ c ∧ c ≤ 0x5a) := by
  have key : ∀ n : Fin 256, hexVal (hexDigitLow (UInt8.ofNat n.1 / 16)) = some (UInt8.ofNat n.1 / 16) ∧
      hexVal (hexDigitLow (UInt8.ofNat n.1 % 16)) = some (UInt8.ofNat n.1 % 16) ∧
      16 * (UInt8.ofNat n.1 / 16) + UInt8.ofNat n.1 % 16 = UInt8.ofNat n.1 ∧
      ¬ (0x41 ≤ hexDigitLow (UInt8.ofNat n.1 / 16) ∧ hexDigitLow (UInt8.ofNat n.1 / 16) ≤ 0x5a) ∧
      ¬ (0x41 ≤ hexDigitLow (UInt8.ofNat n.1 % 16) ∧ hexDigitLow (UInt8.ofNat n.1 % 16) ≤ 0x5a) := by
    decide +kernel
  have h1 : Spec.HexText (byte2Str bs) bs := by
    induction bs with
    | nil => exact .nil
    | cons b bs ih =>
      have k := key ⟨b.toNat, b.toNat_lt⟩
      simp only [UInt8.ofNat_toNat] at k
      have := Spec.HexText.cons ((hexDigit_iff ..).2 k.1) ((hexDigit_iff ..).2 k.2.1) ih
      rw [k.2.2.1] at this
      exact this
  refine ⟨h1, (C105_decode _ _).2 ⟨byte2Str bs, [], by simp, h1, by intro a b t x y h; cases h⟩, ?_, ?_⟩
  · clear h1
    induction bs with
    | nil => rfl
    | cons b bs ih => simp only [byte2Str, List.flatMap_cons, List.length_append] at ih ⊢; simp [ih]; omega
  · intro c hc
    simp only [byte2Str, List.mem_flatMap, List.mem_cons, List.not_mem_nil, or_false] at hc
    obtain ⟨b, -, hb⟩ := hc
    have k := key ⟨b.toNat, b.toNat_lt⟩
    simp only [UInt8.ofNat_toNat] at k
    rcases hb with rfl | rfl
    · exact k.2.2.2.1
    · exact k.2.2.2.2

/-- "7e0a". -/
example : byte2Str [0x7e, 0x0a] = [0x37, 0x65, 0x30, 0x61] := by decide

end JT808
