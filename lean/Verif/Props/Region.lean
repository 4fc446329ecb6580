import Verif.Model.Region
import Verif.Proof.Msgs
import Verif.Props.JsonGeo
import Verif.Proof.Demo
/-
C147: the region shown for a registration.
-/
namespace JT808
open Spec

/-- The codes of GB/T 2260: numbers of six digits, two for the province and four for the rest, each with one name. -/
structure Spec.Divisions where
  name : Nat → Option Str

/-- What is to be shown for a province and a city: the name of the division they say, if there is one. -/
def Spec.Divisions.shown (d : Spec.Divisions) (province city : Nat) : Str :=
  if province < 100 ∧ city < 10000 then (d.name (province * 10000 + city)).getD "NotFound".toUTF8.toList else "NotFound".toUTF8.toList

/-- A table holds the divisions: six digits and the name for each, nothing else. -/
def Spec.Divisions.InTable (d : Spec.Divisions) (t : RegionTable) : Prop :=
  (∀ k ∈ t.map (·.1), k.length = 6 ∧ AllDigits k) ∧ ∀ k, k.length = 6 → AllDigits k → t.lookup k = d.name (decimalValue k)

theorem decimal_length_ge {n k : Nat} (h : 10 ^ k ≤ n) : k < (decimal n).length := by
  unfold decimal
  rw [List.length_map]
  by_cases hk : k = 0
  · subst hk
    have := decimal_ne_nil n
    unfold decimal at this
    have : 0 < (Nat.toDigits 10 n).length := List.length_pos_iff.2 (by intro h; apply this; rw [h]; rfl)
    exact this
  · have := (Nat.length_toDigits_le_iff (n := n) (b := 10) (k := k) (by decide) (by omega))
    omega

theorem decimalPad_long {w n : Nat} (h : 10 ^ w ≤ n) : w < (decimalPad w n).length := by
  have := decimal_length_ge h
  unfold decimalPad
  rw [List.length_append]; omega

theorem decimalPad_ge (w n : Nat) : w ≤ (decimalPad w n).length := by
  unfold decimalPad
  rw [List.length_append, List.length_replicate]; omega

theorem lookup_none_of_key {t : RegionTable} {k : Str} (h : k ∉ t.map (·.1)) : t.lookup k = none := by
  induction t with
  | nil => rfl
  | cons x t ih =>
    obtain ⟨a, b⟩ := x
    simp only [List.map_cons, List.mem_cons, not_or] at h
    rw [List.lookup_cons, beq_false_of_ne h.1]
    exact ih h.2

theorem region_shown (d : Spec.Divisions) (t : RegionTable) (h : d.InTable t) (p c : Nat) :
    regionParse t (decimalPad 2 p ++ decimalPad 4 c) = d.shown p c := by
  have nf : codeNotFound = "NotFound".toUTF8.toList := by decide +kernel
  unfold Spec.Divisions.shown
  by_cases hr : p < 100 ∧ c < 10000
  · rw [if_pos hr]
    have l2 : (decimalPad 2 p).length = 2 := decimalPad_length (by decide) hr.1
    have l4 : (decimalPad 4 c).length = 4 := decimalPad_length (by decide) hr.2
    have hd : AllDigits (decimalPad 2 p ++ decimalPad 4 c) := by
      intro b hb
      rcases List.mem_append.1 hb with hb | hb
      · exact decimalPad_digits _ _ b hb
      · exact decimalPad_digits _ _ b hb
    unfold regionParse
    rw [h.2 _ (by rw [List.length_append, l2, l4]) hd, decimalValue_append, decimalValue_pad, decimalValue_pad, l4, ← nf]
    cases d.name (p * 10 ^ 4 + c) <;> rfl
  · rw [if_neg hr]
    have hl : 6 < (decimalPad 2 p ++ decimalPad 4 c).length := by
      rw [List.length_append]
      have g2 := decimalPad_ge 2 p
      have g4 := decimalPad_ge 4 c
      by_cases hp : p < 100
      · have := decimalPad_long (w := 4) (n := c) (by omega); omega
      · have := decimalPad_long (w := 2) (n := p) (by omega); omega
    unfold regionParse
    rw [lookup_none_of_key (by intro hm; have := (h.1 _ hm).1; omega)]
    exact nf

/-- C147: the region of a registration that was read is the name of the division its two codes say, and "NotFound"
exactly if there is none of that name; codes too large for the standard are never taken for those of a division. -/
theorem C147_region (env : Env) (d : Spec.Divisions) (t : RegionTable) (h : d.InTable t) (now : Civil) (hdr : Header)
    (body : Slice) (m : Register) (j : Nat)
    (hd : MType.t0100.decode (env.withRegions t) now hdr body 0 = .ok (.m0100 m, j)) :
    m.locationDesc = d.shown m.province.toNat m.city.toNat := by
  obtain ⟨r, i, e, hd⟩ := rd_bind_ok hd
  rw [rd_pure_eq] at hd; cases hd
  unfold Register.decode at e
  obtain ⟨a1, i1, e1, e⟩ := rd_bind_ok e
  obtain ⟨a2, i2, e2, e⟩ := rd_bind_ok e
  obtain ⟨w, i3, e3, e⟩ := rd_bind_ok e
  obtain ⟨a4, i4, e4, e⟩ := rd_bind_ok e
  obtain ⟨a5, i5, e5, e⟩ := rd_bind_ok e
  obtain ⟨a6, i6, e6, e⟩ := rd_bind_ok e
  obtain ⟨a7, i7, e7, e⟩ := rd_bind_ok e
  obtain ⟨a8, i8, e8, e⟩ := rd_bind_ok e
  obtain ⟨a9, i9, e9, e⟩ := rd_bind_ok e
  rw [rd_pure_eq] at e; cases e
  exact region_shown d t h _ _

/-- Handan and Fengxiang, the divisions of region_test.go. -/
def twoDivisions : RegionTable :=
  [([0x31, 0x33, 0x30, 0x34, 0x30, 0x30], "邯郸市".toUTF8.toList), ([0x36, 0x31, 0x30, 0x33, 0x32, 0x32], "凤翔县".toUTF8.toList)]

def twoNames : Spec.Divisions where
  name n := if n = 130400 then some "邯郸市".toUTF8.toList else if n = 610322 then some "凤翔县".toUTF8.toList else none

theorem digits_value_lt : ∀ (a : Str), AllDigits a → decimalValue a < 10 ^ a.length
  | [], _ => by decide
  | x :: a, h => by
    have ih := digits_value_lt a (fun c hc => h c (List.mem_cons_of_mem _ hc))
    have hx : [x] ++ a = x :: a := rfl
    have d := h x (List.mem_cons_self ..)
    have h1 : decimalValue [x] ≤ 9 := by simp only [decimalValue, List.foldl_cons, List.foldl_nil]; omega
    rw [← hx, decimalValue_append, hx, List.length_cons, Nat.pow_succ]
    have := Nat.mul_le_mul_right (10 ^ a.length) h1
    omega

theorem digits_inj : ∀ {a b : Str}, AllDigits a → AllDigits b → a.length = b.length → decimalValue a = decimalValue b → a = b
  | [], [], _, _, _, _ => rfl
  | [], _ :: _, _, _, h, _ => by simp at h
  | _ :: _, [], _, _, h, _ => by simp at h
  | x :: a, y :: b, ha, hb, hl, hv => by
    have hx : [x] ++ a = x :: a := rfl
    have hy : [y] ++ b = y :: b := rfl
    rw [← hx, ← hy, decimalValue_append, decimalValue_append] at hv
    have hl : a.length = b.length := by simpa using hl
    rw [hl] at hv
    have hav := digits_value_lt a (fun c hc => ha c (List.mem_cons_of_mem _ hc))
    have hbv := digits_value_lt b (fun c hc => hb c (List.mem_cons_of_mem _ hc))
    rw [hl] at hav
    have hp : 0 < 10 ^ b.length := Nat.pow_pos (by decide)
    have e1 : decimalValue [x] = decimalValue [y] := by
      have := congrArg (· / 10 ^ b.length) hv
      simp only [Nat.mul_comm _ (10 ^ b.length), Nat.mul_add_div hp, Nat.div_eq_of_lt hav, Nat.div_eq_of_lt hbv, Nat.add_zero] at this
      exact this
    have e2 : decimalValue a = decimalValue b := by rw [e1] at hv; omega
    rw [digits_inj (fun c hc => ha c (List.mem_cons_of_mem _ hc)) (fun c hc => hb c (List.mem_cons_of_mem _ hc)) hl e2]
    have d1 := ha x (List.mem_cons_self ..)
    have d2 := hb y (List.mem_cons_self ..)
    have : x = y := by
      simp only [decimalValue, List.foldl_cons, List.foldl_nil] at e1
      apply UInt8.toNat_inj.1
      omega
    rw [this]

theorem twoNames_in : twoNames.InTable twoDivisions := by
  refine ⟨?_, ?_⟩
  · intro k hk
    simp only [twoDivisions, List.map_cons, List.map_nil, List.mem_cons, List.not_mem_nil, or_false] at hk
    rcases hk with rfl | rfl
    · exact ⟨rfl, by unfold AllDigits; decide⟩
    · exact ⟨rfl, by unfold AllDigits; decide⟩
  · intro k hl hk
    show List.lookup k twoDivisions = if decimalValue k = 130400 then _ else if decimalValue k = 610322 then _ else _
    unfold twoDivisions
    have d1 : AllDigits [0x31, 0x33, 0x30, 0x34, 0x30, 0x30] := by unfold AllDigits; decide
    have d2 : AllDigits [0x36, 0x31, 0x30, 0x33, 0x32, 0x32] := by unfold AllDigits; decide
    by_cases h1 : decimalValue k = 130400
    · rw [digits_inj hk d1 hl (h1.trans (by decide))]
      rfl
    · rw [if_neg h1, List.lookup_cons, beq_false_of_ne (by intro e; apply h1; rw [e]; decide)]
      by_cases h2 : decimalValue k = 610322
      · rw [digits_inj hk d2 hl (h2.trans (by decide))]
        rfl
      · rw [if_neg h2, List.lookup_cons, beq_false_of_ne (by intro e; apply h2; rw [e]; decide)]
        rfl

/-- A registration from Handan (province 13, city 0400), and one whose codes, 130 and 400, written one after the other
without their widths would give the digits of its code. -/
example : twoNames.shown 13 400 = "邯郸市".toUTF8.toList ∧ twoNames.shown 130 400 = "NotFound".toUTF8.toList := by decide +kernel

/-- A registration from Handan. -/
def handanBody : Slice := ⟨({ demoRegMsg with province := 13, city := 400 } : Register).encode goEnv .v2013, []⟩

example : ∃ m j, MType.t0100.decode (goEnv.withRegions twoDivisions) ⟨2024, 2, 29, 12, 0, 0⟩ ((hdr2013 0x0100).withBodyLength 41)
      handanBody 0 = .ok (.m0100 m, j) ∧ m.locationDesc = "邯郸市".toUTF8.toList := by
  refine ⟨_, _, rfl, ?_⟩
  refine (C147_region goEnv twoNames twoDivisions twoNames_in ⟨2024, 2, 29, 12, 0, 0⟩ ((hdr2013 0x0100).withBodyLength 41)
    handanBody _ 41 rfl).trans ?_
  decide +kernel

/-- C147: the text that is looked up does not by itself tell the two codes: 12 and 34567, 123 and 4567 are written alike.
It is the length of the codes in the table that keeps them from being taken for a division. -/
theorem C147_text_ambiguous :
    decimalPad 2 12 ++ decimalPad 4 34567 = decimalPad 2 123 ++ decimalPad 4 4567 ∧
      ∃ t : RegionTable, regionParse t (decimalPad 2 12 ++ decimalPad 4 34567) ≠ codeNotFound :=
  ⟨by decide +kernel, [([0x31, 0x32, 0x33, 0x34, 0x35, 0x36, 0x37], [])], by decide +kernel⟩

end JT808
