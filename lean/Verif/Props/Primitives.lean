import Verif.Proof.Time
/-
C11-C13: integer, string, BCD and time fields.
-/
namespace JT808
open Spec

/-! ## C11 integer and byte fields -/

theorem C11_byte (pre post slack : List UInt8) (v : UInt8) :
    readByte ⟨writeByte pre v ++ post, slack⟩ pre.length = .ok (v, pre.length + 1) :=
  readsAt_byte _ v pre post slack rfl

theorem C11_word (pre post slack : List UInt8) (v : UInt16) :
    readWord ⟨writeWord pre v ++ post, slack⟩ pre.length = .ok (v, pre.length + 2) :=
  readsAt_word _ v pre post slack rfl

theorem C11_dword (pre post slack : List UInt8) (v : UInt32) :
    readDWord ⟨writeDWord pre v ++ post, slack⟩ pre.length = .ok (v, pre.length + 4) :=
  readsAt_dword _ v pre post slack rfl

theorem C11_bytes (pre post slack bs : List UInt8) :
    readBytes bs.length ⟨writeBytes pre bs ++ post, slack⟩ pre.length = .ok (bs, pre.length + bs.length) :=
  readsAt_bytes _ bs pre post slack rfl

theorem C11_string (pre post slack : List UInt8) (s : Str) :
    readString s.length ⟨writeString pre s ++ post, slack⟩ pre.length = .ok (s, pre.length + s.length) :=
  readsAt_bytes _ s pre post slack rfl

/-- WORD and DWORD are big-endian, two and four bytes, appended to what was there. -/
theorem C11_big_endian (pre : List UInt8) (w : UInt16) (d : UInt32) :
    (∃ a b, writeWord pre w = pre ++ [a, b] ∧ w.toNat = a.toNat * 256 + b.toNat) ∧
    (∃ a b c e, writeDWord pre d = pre ++ [a, b, c, e] ∧
      d.toNat = a.toNat * 256 ^ 3 + b.toNat * 256 ^ 2 + c.toNat * 256 + e.toNat) := by
  constructor
  · refine ⟨_, _, rfl, ?_⟩
    rw [← be16_toNat, put16_be16]
  · refine ⟨_, _, _, _, rfl, ?_⟩
    have := be32_toNat (d >>> 24).toUInt8 (d >>> 16).toUInt8 (d >>> 8).toUInt8 d.toUInt8
    rw [put32_be32] at this
    rw [this]

/-- A BYTE beyond the length is never read, whatever memory follows. -/
theorem C11_byte_bounded (s : Slice) (i : Nat) (h : s.data.length ≤ i) : readByte s i = .panic := by
  simp [readByte, Slice.index, List.getElem?_eq_none h]

/-- Multi-byte fields never reach beyond the capacity. -/
theorem C11_bytes_bounded (s : Slice) (i : Nat) (n : Int) (h : s.data.length + s.slack.length < i + n.toNat ∨ n < 0) :
    readBytes n s i = .panic := by
  have : ¬ (0 ≤ n ∧ i + n.toNat ≤ s.mem.length) := by simp [Slice.mem]; omega
  simp [readBytes, Slice.sub, this]

example : readWord ⟨writeWord [1, 2, 3] 0xABCD ++ [9], [0]⟩ 3 = .ok (0xABCD, 5) := by decide
example : readDWord ⟨writeDWord [7] 0xDEADBEEF ++ [9], []⟩ 1 = .ok (0xDEADBEEF, 5) := by decide
example : readByte ⟨[1, 2], [3]⟩ 2 = .panic := C11_byte_bounded _ _ (by decide)
example : readBytes 3 ⟨[1, 2], []⟩ 1 = .panic := C11_bytes_bounded _ _ _ (by decide)

/-! ## C12 BCD number strings -/

/-- A string of decimal digits. -/
def Digits (s : Str) : Prop := ∀ c ∈ s, 0x30 ≤ c ∧ c ≤ 0x39

theorem Digits.bcd {s : Str} (h : Digits s) : ∀ c ∈ s, bcdChar c := fun c hc => Or.inl (h c hc)

/-- C12 where it holds: up to eight digits, or an even number of digits.
Missing for the full C12: odd lengths from nine on, where it is false (next theorem). -/
theorem C12_bcd_partial (pre post slack : List UInt8) (s : Str) (hd : Digits s)
    (hl : s.length ≤ 8 ∨ s.length % 2 = 0) :
    ∃ bs : List UInt8, writeBCD pre s = pre ++ bs ∧
      readBCD bs.length ⟨writeBCD pre s ++ post, slack⟩ pre.length = .ok (s, pre.length + bs.length) := by
  refine ⟨numberStr2BCD s, rfl, ?_⟩
  have := readsAt_bcd pre.length (numberStr2BCD s).length (numberStr2BCD s) rfl pre post slack rfl
  rw [bcd_roundtrip hd.bcd, if_pos hl] at this
  exact this

/-- The opposite of C12: every digit string of odd length from nine on loses its last digit. -/
theorem C12_odd_length_loses_digit (pre post slack : List UInt8) (s : Str) (hd : Digits s)
    (h9 : 9 ≤ s.length) (ho : s.length % 2 = 1) :
    ∃ bs : List UInt8, writeBCD pre s = pre ++ bs ∧
      readBCD bs.length ⟨writeBCD pre s ++ post, slack⟩ pre.length = .ok (s.dropLast, pre.length + bs.length) ∧
      s.dropLast ≠ s := by
  refine ⟨numberStr2BCD s, rfl, ?_, ?_⟩
  · have := readsAt_bcd pre.length (numberStr2BCD s).length (numberStr2BCD s) rfl pre post slack rfl
    rw [bcd_roundtrip hd.bcd, if_neg (by omega)] at this
    exact this
  · intro h
    have := congrArg List.length h
    simp at this; omega

/-- The converse direction: six or ten bytes (or any four and more) without an F digit are reproduced. -/
theorem C12_bcd_bytes (bs : List UInt8) (hF : ∀ b ∈ bs, b / 16 ≠ 15 ∧ b % 16 ≠ 15) (hl : 4 ≤ bs.length) :
    writeBCD [] (bcd2NumberStr bs) = bs := by
  have key : ∀ n, n < 256 → (UInt8.ofNat n / 16 ≠ 15 ∧ UInt8.ofNat n % 16 ≠ 15) →
      (0x46 : UInt8) ∉ hex2 (UInt8.ofNat n) := by decide +kernel
  have key' := forall_uint8 (P := fun b => (b / 16 ≠ 15 ∧ b % 16 ≠ 15) → (0x46 : UInt8) ∉ hex2 b) key
  have : (0x46 : UInt8) ∉ bs.flatMap hex2 := by
    intro h
    obtain ⟨b, hb, h⟩ := List.mem_flatMap.mp h
    exact key' b (hF b hb) h
  simpa [writeBCD] using bcd_roundtrip_bytes bs this hl

example : bcd2NumberStr (numberStr2BCD [0x31, 0x33, 0x39]) = [0x31, 0x33, 0x39] := by decide
example : bcd2NumberStr (numberStr2BCD [0x31, 0x32, 0x33, 0x34, 0x35, 0x36, 0x37, 0x38, 0x39])
    = [0x31, 0x32, 0x33, 0x34, 0x35, 0x36, 0x37, 0x38] := by decide
example : Digits [0x31, 0x32, 0x33, 0x34, 0x35, 0x36, 0x37, 0x38, 0x39] := by unfold Digits; decide
example : writeBCD [] (bcd2NumberStr [0x01, 0x39, 0x12, 0x34]) = [0x01, 0x39, 0x12, 0x34] :=
  C12_bcd_bytes _ (by decide) (by decide)

/-! ## C13 timestamps -/

/-- A calendar date in the two-digit-year window is written as six BCD bytes and read back as itself. -/
theorem C13_time_roundtrip (pre post slack : List UInt8) (now t : Civil)
    (hv : validDateTime t.year t.month t.day t.hour t.minute t.second) (hw : inWindow t.year) :
    writeTime pre t = pre ++ timeBytes t.year t.month t.day t.hour t.minute t.second ∧
    readTime now ⟨writeTime pre t ++ post, slack⟩ pre.length = .ok (t, pre.length + 6) := by
  have h1 : writeTime pre t = pre ++ t.bytes := by
    rw [writeTime, writeBCD, numberStr2BCD_formatTime t hv]
  refine ⟨h1, ?_⟩
  rw [h1]
  exact readsAt_time pre.length now t hv hw pre post slack rfl

theorem lastIndex_some_lt {c : UInt8} {s : Str} {k : Nat} (h : lastIndex c s = some k) : k < s.length := by
  unfold lastIndex at h
  cases hf : s.reverse.findIdx? (· == c) with
  | none => simp [hf] at h
  | some j =>
    simp only [hf] at h
    injection h with h
    have : s ≠ [] := by intro h; subst h; simp at hf
    have : 0 < s.length := by simpa [List.length_pos_iff] using this
    omega

/-- Any six bytes: read as the calendar date they spell, or else as the current time. -/
theorem C13_time_read (pre bs post slack : List UInt8) (now : Civil) (hl : bs.length = 6) :
    ∃ t, readTime now ⟨pre ++ bs ++ post, slack⟩ pre.length = .ok (t, pre.length + 6) ∧
      ((validDateTime t.year t.month t.day t.hour t.minute t.second ∧ inWindow t.year ∧
          bs = timeBytes t.year t.month t.day t.hour t.minute t.second) ∨
       (t = now ∧ ∀ y mo d h mi s, validDateTime y mo d h mi s → inWindow y →
          bs ≠ timeBytes y mo d h mi s)) := by
  refine ⟨parseTime now (bcd2NumberStr bs), ?_, ?_⟩
  · have := ReadsAt.map (f := parseTime now) (readsAt_bcd pre.length 6 bs (by simp [hl])) pre post slack rfl
    rw [hl] at this; exact this
  · cases hp : timeParse (bcd2NumberStr bs) with
    | some t =>
      left
      simp only [parseTime, hp]
      obtain ⟨h1, h2, h3⟩ := timeParse_some hp
      refine ⟨h1, h2, ?_⟩
      have hlen : (bcd2NumberStr bs).length = 12 := by rw [h3]; rfl
      have hnum : bcd2NumberStr bs = bs.flatMap hex2 := by
        have hn := hex2_length bs
        simp only [bcd2NumberStr] at hlen ⊢
        cases hli : lastIndex 0x46 (bs.flatMap hex2) with
        | none => rfl
        | some k =>
          simp only [hli] at hlen
          split at hlen
          · simp at hlen
          · rw [List.length_drop, hn] at hlen; omega
      rw [hnum] at h3
      have := str2Byte_hex2 bs
      rw [h3, str2Byte_formatTime t h1] at this
      exact this.symm
    | none =>
      right
      refine ⟨by simp [parseTime, hp], ?_⟩
      intro y mo d h mi s hv hw hb
      have e := bcd2NumberStr_bytes ⟨y, mo, d, h, mi, s⟩ hv
      have hb' : bs = (⟨y, mo, d, h, mi, s⟩ : Civil).bytes := hb
      rw [hb', e, timeParse_format ⟨y, mo, d, h, mi, s⟩ hv hw] at hp
      cases hp

-- 2024-02-29 23:59:58
example : validDateTime 2024 2 29 23 59 58 ∧ inWindow 2024 := by unfold inWindow; decide
example : readTime ⟨0, 0, 0, 0, 0, 0⟩ ⟨writeTime [7] ⟨2024, 2, 29, 23, 59, 58⟩ ++ [9], []⟩ 1
    = .ok (⟨2024, 2, 29, 23, 59, 58⟩, 7) := by decide
-- 2023-02-29 is not a date, an F digit never is
example : readTime ⟨2020, 1, 1, 0, 0, 0⟩ ⟨[0x23, 0x02, 0x29, 0, 0, 0], []⟩ 0 = .ok (⟨2020, 1, 1, 0, 0, 0⟩, 6) := by decide
example : readTime ⟨2020, 1, 1, 0, 0, 0⟩ ⟨[0x23, 0xF2, 0x09, 0, 0, 0], []⟩ 0 = .ok (⟨2020, 1, 1, 0, 0, 0⟩, 6) := by decide

end JT808
