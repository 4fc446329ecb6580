import Verif.Model.Processor
import Verif.Spec.Code
/-
Decimal texts and the FNV hash.
-/
namespace JT808
open Spec

theorem isDigit_val {c : Char} (h : c.isDigit = true) : 0x30 ≤ c.toNat ∧ c.toNat ≤ 0x39 := by
  simp only [Char.isDigit, Bool.and_eq_true, decide_eq_true_eq] at h
  have h1 := h.1
  have h2 := h.2
  have e : c.toNat = c.val.toNat := rfl
  rw [e]
  rw [ge_iff_le, UInt32.le_iff_toNat_le] at h1
  rw [UInt32.le_iff_toNat_le] at h2
  exact ⟨h1, h2⟩

theorem decimal_digits (n : Nat) : AllDigits (decimal n) := by
  intro b hb
  unfold decimal at hb
  rw [List.mem_map] at hb
  obtain ⟨c, hc, rfl⟩ := hb
  have := isDigit_val (Nat.isDigit_of_mem_toDigits (by decide) (by decide) hc)
  simp only [UInt8.toNat_ofNat']
  omega

theorem decimal_length {n k : Nat} (h : n < 10 ^ k) (hk : 0 < k) : (decimal n).length ≤ k := by
  unfold decimal
  rw [List.length_map]
  exact (Nat.length_toDigits_le_iff (by decide) hk).2 h

theorem decimal_ne_nil (n : Nat) : decimal n ≠ [] := by
  unfold decimal
  intro h
  exact Nat.toDigits_ne_nil (List.map_eq_nil_iff.1 h)

theorem decimalValue_decimal (n : Nat) : decimalValue (decimal n) = n := by
  have key : ∀ (l : List Char) (v : Nat), (∀ c ∈ l, c.isDigit = true) →
      (l.map fun c => UInt8.ofNat c.toNat).foldl (fun v b => 10 * v + (b.toNat - 0x30)) v
        = Nat.ofDigitChars 10 l v := by
    intro l
    induction l with
    | nil => intro v _; rfl
    | cons c l ih =>
      intro v hl
      have hc := isDigit_val (hl c List.mem_cons_self)
      rw [List.map_cons, List.foldl_cons, ih _ (fun x hx => hl x (List.mem_cons_of_mem _ hx))]
      rw [Nat.ofDigitChars_cons]
      have : (UInt8.ofNat c.toNat).toNat = c.toNat := by
        rw [UInt8.toNat_ofNat']; omega
      rw [this]
      rfl
  unfold decimalValue decimal
  rw [key _ 0 (fun c hc => Nat.isDigit_of_mem_toDigits (by decide) (by decide) hc)]
  exact Nat.ofDigitChars_ten_toDigits

theorem decimal_injective {m n : Nat} (h : decimal m = decimal n) : m = n := by
  rw [← decimalValue_decimal m, h, decimalValue_decimal]

theorem fnv_step (a : UInt32) (b : UInt8) :
    ((a ^^^ b.toUInt32) * 16777619).toNat = (a.toNat ^^^ b.toNat) * 16777619 % 2 ^ 32 := by simp

theorem fnv_fold (s : Str) : ∀ a : UInt32, (s.foldl (fun h b => (h ^^^ b.toUInt32) * 16777619) a).toNat =
    s.foldl (fun acc b => (acc ^^^ b.toNat) * 16777619 % 2 ^ 32) a.toNat := by
  induction s with
  | nil => intro a; rfl
  | cons b s ih => intro a; rw [List.foldl_cons, List.foldl_cons, ih, fnv_step]

theorem fnv32_spec (s : Str) : (fnv32 s).toNat = fnv1a s := fnv_fold s 2166136261

theorem fnv32_lt (s : Str) : (fnv32 s).toNat < 2 ^ 32 := (fnv32 s).toNat_lt

end JT808
