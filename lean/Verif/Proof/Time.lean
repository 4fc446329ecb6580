import Verif.Proof.Bcd
import Verif.Spec.Calendar
/-
Helper lemmas about timestamps.
-/
namespace JT808
open Spec

def Civil.Valid (t : Civil) : Prop := validDateTime t.year t.month t.day t.hour t.minute t.second

def Civil.bytes (t : Civil) : List UInt8 := timeBytes t.year t.month t.day t.hour t.minute t.second

theorem isLeap_iff (y : Nat) : isLeap y = true ↔ leap y := by
  simp only [isLeap, leap, Bool.and_eq_true, Bool.or_eq_true, beq_iff_eq, bne_iff_ne]
  omega

theorem daysIn_eq (y m : Nat) (h1 : 1 ≤ m) (h2 : m ≤ 12) : daysIn m y = monthDays y m := by
  have hl := isLeap_iff y
  have : m = 1 ∨ m = 2 ∨ m = 3 ∨ m = 4 ∨ m = 5 ∨ m = 6 ∨ m = 7 ∨ m = 8 ∨ m = 9 ∨ m = 10 ∨ m = 11 ∨ m = 12 := by
    omega
  rcases this with rfl | rfl | rfl | rfl | rfl | rfl | rfl | rfl | rfl | rfl | rfl | rfl <;>
    simp [daysIn, monthDays, hl]

theorem isDigit_iff (c : UInt8) : isDigit c = true ↔ ∃ k, k < 10 ∧ c = 0x30 + UInt8.ofNat k := by
  have key : ∀ n, n < 256 → (isDigit (UInt8.ofNat n) = true ↔
      ∃ k, k < 10 ∧ UInt8.ofNat n = 0x30 + UInt8.ofNat k) := by decide +kernel
  exact forall_uint8 (P := fun c => isDigit c = true ↔ ∃ k, k < 10 ∧ c = 0x30 + UInt8.ofNat k) key c

theorem digitVal_digit (k : Nat) (h : k < 10) : digitVal (0x30 + UInt8.ofNat k) = k ∧
    isDigit (0x30 + UInt8.ofNat k) = true := by
  have : ∀ k, k < 10 → digitVal (0x30 + UInt8.ofNat k) = k ∧ isDigit (0x30 + UInt8.ofNat k) = true := by
    decide +kernel
  exact this k h

theorem dec2_of_digits {a b : UInt8} (ha : isDigit a = true) (hb : isDigit b = true) :
    digitVal a * 10 + digitVal b < 100 ∧ dec2 (digitVal a * 10 + digitVal b) = [a, b] := by
  obtain ⟨x, hx, rfl⟩ := (isDigit_iff a).mp ha
  obtain ⟨y, hy, rfl⟩ := (isDigit_iff b).mp hb
  rw [(digitVal_digit x hx).1, (digitVal_digit y hy).1]
  constructor
  · omega
  · unfold dec2
    have : (x * 10 + y) / 10 = x := by omega
    have : (x * 10 + y) % 10 = y := by omega
    simp [*]

theorem dec2_digits {n : Nat} (h : n < 100) : ∃ a b, dec2 n = [a, b] ∧ isDigit a = true ∧ isDigit b = true ∧
    digitVal a * 10 + digitVal b = n := by
  refine ⟨_, _, rfl, (digitVal_digit _ (by omega)).2, (digitVal_digit _ (by omega)).2, ?_⟩
  rw [(digitVal_digit _ (by omega)).1, (digitVal_digit _ (by omega)).1]
  omega

theorem getnum_dec2 (fixed : Bool) {n : Nat} (h : n < 100) (r : Str) :
    getnum fixed (dec2 n ++ r) = some (n, r) := by
  obtain ⟨a, b, e, ha, hb, hn⟩ := dec2_digits h
  rw [e]; simp [getnum, ha, hb, hn]

theorem parseYear_dec2 {n : Nat} (h : n < 100) (r : Str) :
    parseYear (dec2 n ++ r) = some ((if n ≥ 69 then 1900 + n else 2000 + n), r) := by
  obtain ⟨a, b, e, ha, hb, hn⟩ := dec2_digits h
  rw [e]; simp [parseYear, ha, hb, hn]

theorem monthDays_le (y m : Nat) : monthDays y m ≤ 31 := by
  have hm : m < 13 ∨ 13 ≤ m := by omega
  rcases hm with hm | hm
  · have : m = 0 ∨ m = 1 ∨ m = 2 ∨ m = 3 ∨ m = 4 ∨ m = 5 ∨ m = 6 ∨ m = 7 ∨ m = 8 ∨ m = 9 ∨ m = 10 ∨ m = 11
      ∨ m = 12 := by omega
    rcases this with rfl | rfl | rfl | rfl | rfl | rfl | rfl | rfl | rfl | rfl | rfl | rfl | rfl <;>
      simp [monthDays] <;> split <;> omega
  · simp [monthDays, List.getD, hm]

/-- Parsing what was formatted. -/
theorem timeParse_format (t : Civil) (hv : t.Valid) (hw : inWindow t.year) :
    timeParse (formatTime t) = some t := by
  obtain ⟨y, mo, d, h, mi, s⟩ := t
  obtain ⟨h1, h2, h3, h4, h5, h6, h7⟩ := hv
  simp only at h1 h2 h3 h4 h5 h6 h7 hw
  obtain ⟨w1, w2⟩ := hw
  have hd := monthDays_le y mo
  unfold timeParse formatTime
  simp only [List.append_assoc]
  rw [parseYear_dec2 (by omega)]
  have hy : (if y % 100 ≥ 69 then 1900 + y % 100 else 2000 + y % 100) = y := by
    split <;> omega
  simp only [hy]
  rw [getnum_dec2 true (by omega)]
  simp only
  rw [if_neg (by omega), getnum_dec2 true (by omega)]
  simp only
  rw [getnum_dec2 false (by omega)]
  simp only
  rw [if_neg (by omega), getnum_dec2 true (by omega)]
  simp only
  have := getnum_dec2 true (show s < 100 by omega) []
  rw [List.append_nil] at this
  rw [if_neg (by omega), this]
  simp only
  rw [if_neg (by omega), if_neg (by simp), if_neg]
  rw [daysIn_eq y mo h1 h2]; omega

theorem getnum_true_some {s r : Str} {n : Nat} (h : getnum true s = some (n, r)) :
    n < 100 ∧ s = dec2 n ++ r := by
  match s with
  | [] => simp [getnum] at h
  | [a] => simp [getnum] at h
  | a :: b :: t =>
    simp only [getnum] at h
    split at h
    · rename_i ha
      split at h
      · rename_i hb
        injection h with h; injection h with h1 h2; subst h1 h2
        obtain ⟨e1, e2⟩ := dec2_of_digits ha hb
        exact ⟨e1, by rw [e2]; rfl⟩
      · simp at h
    · cases h

theorem getnum_false_some {s r : Str} {n : Nat} (h : getnum false s = some (n, r)) :
    (n < 100 ∧ s = dec2 n ++ r) ∨ (r = [] ∨ ∃ b t, r = b :: t ∧ isDigit b = false) := by
  match s with
  | [] => simp [getnum] at h
  | [a] =>
    simp only [getnum] at h
    split at h
    · simp at h; right; left; exact h.2
    · cases h
  | a :: b :: t =>
    simp only [getnum] at h
    split at h
    · rename_i ha
      split at h
      · rename_i hb
        injection h with h; injection h with h1 h2; subst h1 h2
        obtain ⟨e1, e2⟩ := dec2_of_digits ha hb
        left; exact ⟨e1, by rw [e2]; rfl⟩
      · rename_i hb
        simp at h
        right; right; exact ⟨b, t, h.2.symm, by simpa using hb⟩
    · cases h

theorem parseYear_some {s r : Str} {y : Nat} (h : parseYear s = some (y, r)) :
    inWindow y ∧ s = dec2 (y % 100) ++ r := by
  match s with
  | [] => simp [parseYear] at h
  | [a] => simp [parseYear] at h
  | a :: b :: t =>
    simp only [parseYear] at h
    split at h
    · rename_i hab
      simp only [Bool.and_eq_true] at hab
      obtain ⟨e1, e2⟩ := dec2_of_digits hab.1 hab.2
      injection h with h; injection h with h1 h2; subst h2
      have hy : y % 100 = digitVal a * 10 + digitVal b := by split at h1 <;> omega
      refine ⟨?_, by rw [hy, e2]; rfl⟩
      constructor <;> (split at h1 <;> omega)
    · cases h

/-- Whatever is accepted is the text of a calendar date. -/
theorem timeParse_some {s : Str} {t : Civil} (h : timeParse s = some t) :
    t.Valid ∧ inWindow t.year ∧ s = formatTime t := by
  unfold timeParse at h
  split at h
  · cases h
  · rename_i y s1 e1
    obtain ⟨w, p1⟩ := parseYear_some e1
    split at h
    · cases h
    · rename_i mo s2 e2
      obtain ⟨-, p2⟩ := getnum_true_some e2
      split at h
      · cases h
      · rename_i c2
        split at h
        · cases h
        · rename_i d s3 e3
          obtain ⟨-, p3⟩ := getnum_true_some e3
          split at h
          · cases h
          · rename_i hh s4 e4
            split at h
            · cases h
            · rename_i c4
              split at h
              · cases h
              · rename_i mi s5 e5
                obtain ⟨-, p5⟩ := getnum_true_some e5
                have p4 : s3 = dec2 hh ++ s4 := by
                  rcases getnum_false_some e4 with h4 | h4 | ⟨b, tl, h4, h4'⟩
                  · exact h4.2
                  · subst h4; simp [getnum] at e5
                  · subst h4
                    exfalso
                    cases tl with
                    | nil => simp [getnum] at e5
                    | cons c tl => simp [getnum, h4'] at e5
                split at h
                · cases h
                · rename_i c5
                  split at h
                  · cases h
                  · rename_i sec s6 e6
                    obtain ⟨-, p6⟩ := getnum_true_some e6
                    split at h
                    · cases h
                    · rename_i c6
                      split at h
                      · cases h
                      · rename_i c7
                        have c7 : s6 = [] := by simpa using c7
                        split at h
                        · cases h
                        · rename_i c8
                          injection h with h
                          subst h
                          have m1 : 1 ≤ mo := by omega
                          have m2 : mo ≤ 12 := by omega
                          rw [daysIn_eq y mo m1 m2] at c8
                          refine ⟨⟨m1, m2, ?_, ?_, ?_, ?_, ?_⟩, w, ?_⟩
                          · show 1 ≤ d; omega
                          · show d ≤ monthDays y mo; omega
                          · show hh < 24; omega
                          · show mi < 60; omega
                          · show sec < 60; omega
                          · subst c7
                            rw [p1, p2, p3, p4, p5, p6]
                            simp [formatTime]

theorem dec2_bcd {n : Nat} (h : n < 100) : (∀ c ∈ dec2 n, bcdChar c) ∧ str2Byte (dec2 n) = [bcdByte n] := by
  have : ∀ n, n < 100 → (∀ c ∈ dec2 n, bcdChar c) ∧ str2Byte (dec2 n) = [bcdByte n] := by decide +kernel
  exact this n h

theorem str2Byte_append2 {a b : UInt8} (s : Str) {x : UInt8} (h : str2Byte [a, b] = [x]) :
    str2Byte (a :: b :: s) = x :: str2Byte s := by
  simp only [str2Byte] at h ⊢
  cases ha : hexVal a with
  | none => simp [ha] at h
  | some u =>
    cases hb : hexVal b with
    | none => simp [ha, hb] at h
    | some v => simp [ha, hb] at h ⊢; exact h

theorem str2Byte_dec2 {n : Nat} (h : n < 100) (s : Str) :
    str2Byte (dec2 n ++ s) = bcdByte n :: str2Byte s :=
  str2Byte_append2 s (dec2_bcd h).2

theorem formatTime_length (t : Civil) : (formatTime t).length = 12 := rfl

theorem Civil.Valid.bounds {t : Civil} (hv : t.Valid) :
    t.month < 100 ∧ t.day < 100 ∧ t.hour < 100 ∧ t.minute < 100 ∧ t.second < 100 := by
  obtain ⟨h1, h2, h3, h4, h5, h6, h7⟩ := hv
  have := monthDays_le t.year t.month
  omega

theorem formatTime_bcd (t : Civil) (hv : t.Valid) : ∀ c ∈ formatTime t, bcdChar c := by
  obtain ⟨b1, b2, b3, b4, b5⟩ := hv.bounds
  intro c hc
  simp only [formatTime, List.mem_append] at hc
  rcases hc with ((((h | h) | h) | h) | h) | h
  · exact (dec2_bcd (by omega)).1 c h
  · exact (dec2_bcd b1).1 c h
  · exact (dec2_bcd b2).1 c h
  · exact (dec2_bcd b3).1 c h
  · exact (dec2_bcd b4).1 c h
  · exact (dec2_bcd b5).1 c h

theorem str2Byte_formatTime (t : Civil) (hv : t.Valid) : str2Byte (formatTime t) = t.bytes := by
  obtain ⟨b1, b2, b3, b4, b5⟩ := hv.bounds
  unfold formatTime
  simp only [List.append_assoc]
  rw [str2Byte_dec2 (by omega), str2Byte_dec2 b1, str2Byte_dec2 b2, str2Byte_dec2 b3, str2Byte_dec2 b4]
  have := str2Byte_dec2 b5 []
  rw [List.append_nil] at this
  rw [this]
  rfl

theorem numberStr2BCD_formatTime (t : Civil) (hv : t.Valid) : numberStr2BCD (formatTime t) = t.bytes := by
  unfold numberStr2BCD
  have : 8 - (formatTime t).length = 0 := by simp [formatTime_length]
  rw [this]
  simpa using str2Byte_formatTime t hv

theorem bcd2NumberStr_bytes (t : Civil) (hv : t.Valid) : bcd2NumberStr t.bytes = formatTime t := by
  have := bcd_roundtrip (formatTime_bcd t hv)
  rw [numberStr2BCD_formatTime t hv] at this
  simpa [formatTime_length] using this

theorem readsAt_time (i : Nat) (now t : Civil) (hv : t.Valid) (hw : inWindow t.year) :
    ReadsAt i (readTime now) t.bytes t := by
  have h := ReadsAt.map (f := parseTime now) (readsAt_bcd i 6 t.bytes rfl)
  rw [bcd2NumberStr_bytes t hv] at h
  have e : parseTime now (formatTime t) = t := by simp [parseTime, timeParse_format t hv hw]
  rw [e] at h
  exact h

end JT808
