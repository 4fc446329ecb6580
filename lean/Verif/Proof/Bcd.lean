import Verif.Proof.Reader
/-
Helper lemmas about BCD strings.
-/
namespace JT808

theorem forall_uint8 {P : UInt8 → Prop} (h : ∀ n, n < 256 → P (UInt8.ofNat n)) (x : UInt8) : P x := by
  have := h x.toNat x.toNat_lt
  simpa using this

/-- Characters that survive a BCD write and read: 0-9 and A-E. -/
def bcdChar (c : UInt8) : Prop := (0x30 ≤ c ∧ c ≤ 0x39) ∨ (0x41 ≤ c ∧ c ≤ 0x45)

instance (c : UInt8) : Decidable (bcdChar c) := by unfold bcdChar; infer_instance

theorem hexVal_bcdChar (c : UInt8) (h : bcdChar c) :
    ∃ v, hexVal c = some v ∧ v < 16 ∧ hexDigit v = c ∧ c ≠ 0x46 := by
  have key : ∀ c : UInt8, bcdChar c →
      ((hexVal c).elim False fun v => v < 16 ∧ hexDigit v = c ∧ c ≠ 0x46) := by
    apply forall_uint8
    have : ∀ n, n < 256 → (bcdChar (UInt8.ofNat n) →
      ((hexVal (UInt8.ofNat n)).elim false fun v => decide (v < 16 ∧ hexDigit v = UInt8.ofNat n
        ∧ UInt8.ofNat n ≠ 0x46)) = true) := by decide +kernel
    intro n hn hb
    have h1 := this n hn hb
    cases hv : hexVal (UInt8.ofNat n) with
    | none => rw [hv] at h1; simp at h1
    | some v => rw [hv] at h1; simpa using h1
  have h1 := key c h
  cases hv : hexVal c with
  | none => rw [hv] at h1; exact h1.elim
  | some v => rw [hv] at h1; exact ⟨v, rfl, h1⟩

theorem hex2_pair (x y : UInt8) (hx : x < 16) (hy : y < 16) :
    hex2 (x * 16 + y) = [hexDigit x, hexDigit y] := by
  have key : ∀ n, n < 16 → ∀ m, m < 16 →
      hex2 (UInt8.ofNat n * 16 + UInt8.ofNat m) = [hexDigit (UInt8.ofNat n), hexDigit (UInt8.ofNat m)] := by
    decide +kernel
  have := key x.toNat (by simpa [UInt8.lt_iff_toNat_lt] using hx) y.toNat
    (by simpa [UInt8.lt_iff_toNat_lt] using hy)
  simpa using this

/-- Every byte is the pair of its hex digits. -/
theorem hex2_val (b : UInt8) :
    ∃ x y, hexVal (hexDigit (b / 16)) = some x ∧ hexVal (hexDigit (b % 16)) = some y ∧ x * 16 + y = b := by
  have key : ∀ n, n < 256 →
      hexVal (hexDigit (UInt8.ofNat n / 16)) = some (UInt8.ofNat n / 16) ∧
      hexVal (hexDigit (UInt8.ofNat n % 16)) = some (UInt8.ofNat n % 16) ∧
      UInt8.ofNat n / 16 * 16 + UInt8.ofNat n % 16 = UInt8.ofNat n := by decide +kernel
  exact ⟨_, _, forall_uint8 (P := fun b => hexVal (hexDigit (b / 16)) = some (b / 16) ∧
      hexVal (hexDigit (b % 16)) = some (b % 16) ∧ b / 16 * 16 + b % 16 = b) key b⟩

/-- `up` is what a hex character turns into after decoding and printing. -/
def HexUp (c u : UInt8) : Prop := ∃ v, hexVal c = some v ∧ v < 16 ∧ hexDigit v = u

theorem HexUp.of_bcdChar {c : UInt8} (h : bcdChar c) : HexUp c c := by
  obtain ⟨v, h1, h2, h3, -⟩ := hexVal_bcdChar c h
  exact ⟨v, h1, h2, h3⟩

theorem HexUp.f : HexUp 0x66 0x46 := ⟨15, by decide, by decide, by decide⟩

/-- Pointwise `HexUp`. -/
inductive HexUps : Str → Str → Prop
  | nil : HexUps [] []
  | cons {c u s t} : HexUp c u → HexUps s t → HexUps (c :: s) (u :: t)

/-- Decoding an even-length hex string and printing the bytes gives the upper-cased string. -/
theorem str2Byte_flatMap {s u : Str} (h : HexUps s u) (he : s.length % 2 = 0) :
    (str2Byte s).flatMap hex2 = u ∧ (str2Byte s).length = s.length / 2 := by
  match s, u, h with
  | [], _, .nil => simp [str2Byte]
  | [_], _, _ => simp at he
  | a :: b :: s, _, .cons ha (.cons hb ht) =>
    obtain ⟨x, hx1, hx2, hx3⟩ := ha
    obtain ⟨y, hy1, hy2, hy3⟩ := hb
    have := str2Byte_flatMap ht (by simp at he; omega)
    simp only [str2Byte, hx1, hy1, List.flatMap_cons, hex2_pair x y hx2 hy2, hx3, hy3, this.1, this.2,
      List.length_cons]
    constructor
    · rfl
    · omega

/-- An odd last character is dropped. -/
theorem str2Byte_odd (s : Str) (ho : s.length % 2 = 1) : str2Byte s = str2Byte s.dropLast := by
  match s with
  | [] => rfl
  | [_] => rfl
  | [_, _] => simp at ho
  | a :: b :: c :: s =>
    have ih := str2Byte_odd (c :: s) (by simp at ho ⊢; omega)
    simp only [List.dropLast_cons_cons]
    have : ((b :: c :: s).dropLast) = b :: (c :: s).dropLast := by simp
    rw [str2Byte, str2Byte, ih]

theorem lastIndex_none {c : UInt8} {s : Str} (h : c ∉ s) : lastIndex c s = none := by
  have : s.reverse.findIdx? (· == c) = none := by
    rw [List.findIdx?_eq_none_iff]
    intro x hx
    have : x ∈ s := by simpa using hx
    simp; rintro rfl; exact h this
  simp [lastIndex, this]

theorem lastIndex_split {c : UInt8} {s t : Str} (h : c ∉ t) : lastIndex c (s ++ c :: t) = some s.length := by
  have : (s ++ c :: t).reverse.findIdx? (· == c) = some t.length := by
    simp only [List.reverse_append, List.reverse_cons, List.append_assoc]
    rw [List.findIdx?_append]
    have : t.reverse.findIdx? (· == c) = none := by
      rw [List.findIdx?_eq_none_iff]
      intro x hx
      have : x ∈ t := by simpa using hx
      simp; rintro rfl; exact h this
    rw [this]
    simp [List.findIdx?_cons]
  simp only [lastIndex, this]
  simp

theorem forall₂_replicate (k : Nat) {a b : UInt8} (h : HexUp a b) :
    HexUps (List.replicate k a) (List.replicate k b) := by
  induction k with
  | zero => exact .nil
  | succ k ih => simpa [List.replicate_succ] using HexUps.cons h ih

theorem forall₂_bcd {s : Str} (h : ∀ c ∈ s, bcdChar c) : HexUps s s := by
  induction s with
  | nil => exact .nil
  | cons c s ih =>
    exact .cons (.of_bcdChar (h c (by simp))) (ih fun x hx => h x (by simp [hx]))

theorem forall₂_append' {s u t v : Str} (h : HexUps s u) (h' : HexUps t v) :
    HexUps (s ++ t) (u ++ v) := by
  induction h with
  | nil => simpa
  | cons a _ ih => exact .cons a ih

theorem f_not_bcd {s : Str} (h : ∀ c ∈ s, bcdChar c) : (0x46 : UInt8) ∉ s := by
  intro hh
  have := h _ hh
  revert this; decide

/-- Writing then reading, for strings of 0-9A-E. -/
theorem bcd_roundtrip {s : Str} (h : ∀ c ∈ s, bcdChar c) :
    bcd2NumberStr (numberStr2BCD s) = if s.length ≤ 8 ∨ s.length % 2 = 0 then s else s.dropLast := by
  unfold bcd2NumberStr numberStr2BCD
  by_cases hl : s.length < 8
  · have hpad : (List.replicate (8 - s.length) (0x66 : UInt8) ++ s).length = 8 := by simp; omega
    have := str2Byte_flatMap (forall₂_append' (forall₂_replicate (8 - s.length) HexUp.f) (forall₂_bcd h))
      (by rw [hpad])
    rw [this.1]
    obtain ⟨k, hk⟩ : ∃ k, 8 - s.length = k + 1 := ⟨8 - s.length - 1, by omega⟩
    have e : List.replicate (8 - s.length) (0x46 : UInt8) ++ s = List.replicate k 0x46 ++ 0x46 :: s := by
      rw [hk, List.replicate_succ']; simp
    rw [e]
    simp only [lastIndex_split (f_not_bcd h)]
    have hk8 : k ≠ 8 := by omega
    have : s.length ≤ 8 ∨ s.length % 2 = 0 := Or.inl (by omega)
    simp [hk8, this, List.drop_append]
  · have e0 : 8 - s.length = 0 := by omega
    rw [e0]
    simp only [List.replicate_zero, List.nil_append]
    by_cases hev : s.length % 2 = 0
    · rw [(str2Byte_flatMap (forall₂_bcd h) hev).1, lastIndex_none (f_not_bcd h)]
      simp [hev]
    · have h1 : ∀ c ∈ s.dropLast, bcdChar c := fun c hc => h c (List.dropLast_subset _ hc)
      rw [str2Byte_odd s (by omega)]
      rw [(str2Byte_flatMap (forall₂_bcd h1) (by simp; omega)).1, lastIndex_none (f_not_bcd h1)]
      have : ¬ (s.length ≤ 8 ∨ s.length % 2 = 0) := by omega
      simp [this]

theorem numberStr2BCD_length {s : Str} (h : ∀ c ∈ s, bcdChar c) (hl : 8 ≤ s.length)
    (hev : s.length % 2 = 0) : (numberStr2BCD s).length = s.length / 2 := by
  unfold numberStr2BCD
  have e0 : 8 - s.length = 0 := by omega
  rw [e0]
  simp only [List.replicate_zero, List.nil_append]
  exact (str2Byte_flatMap (forall₂_bcd h) hev).2

theorem str2Byte_hex2 (bs : List UInt8) : str2Byte (bs.flatMap hex2) = bs := by
  induction bs with
  | nil => rfl
  | cons b bs ih =>
    obtain ⟨x, y, h1, h2, h3⟩ := hex2_val b
    simp only [List.flatMap_cons, hex2, List.cons_append, List.nil_append, str2Byte, h1, h2, ih, h3]

theorem hex2_length (bs : List UInt8) : (bs.flatMap hex2).length = 2 * bs.length := by
  induction bs with
  | nil => rfl
  | cons b bs ih => simp [hex2, ih]; omega

/-- Reading then writing gives the same bytes if no nibble is F and there are at least four bytes. -/
theorem bcd_roundtrip_bytes (bs : List UInt8) (hF : (0x46 : UInt8) ∉ bs.flatMap hex2) (hl : 4 ≤ bs.length) :
    numberStr2BCD (bcd2NumberStr bs) = bs := by
  unfold bcd2NumberStr numberStr2BCD
  simp only [lastIndex_none hF]
  have : 8 - (bs.flatMap hex2).length = 0 := by rw [hex2_length]; omega
  simp only [this, List.replicate_zero, List.nil_append, str2Byte_hex2]

end JT808
