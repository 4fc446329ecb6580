import Verif.Spec.Route
import Verif.Proof.Bcd
/-
Helper lemmas about routes.
-/
namespace JT808
open Spec

theorem hexVal_iff (c v : UInt8) : hexVal c = some v ↔ HexDigitOf c v := by
  have key : ∀ n, n < 256 → ∀ m, m < 16 → (decide (hexVal (UInt8.ofNat n) = some (UInt8.ofNat m)) =
      decide ([0x30, 0x31, 0x32, 0x33, 0x34, 0x35, 0x36, 0x37, 0x38, 0x39, 0x61, 0x62, 0x63, 0x64, 0x65, 0x66][m]? =
        some (UInt8.ofNat n) ∨ [0x30, 0x31, 0x32, 0x33, 0x34, 0x35, 0x36, 0x37, 0x38, 0x39, 0x41, 0x42, 0x43, 0x44, 0x45, 0x46][m]? =
        some (UInt8.ofNat n))) := by decide +kernel
  have small : ∀ n, n < 256 → (hexVal (UInt8.ofNat n)).all (fun v => decide (v < 16)) = true := by decide +kernel
  have e1 : "0123456789abcdef".toUTF8.toList =
      [0x30, 0x31, 0x32, 0x33, 0x34, 0x35, 0x36, 0x37, 0x38, 0x39, 0x61, 0x62, 0x63, 0x64, 0x65, 0x66] := by decide +kernel
  have e2 : "0123456789ABCDEF".toUTF8.toList =
      [0x30, 0x31, 0x32, 0x33, 0x34, 0x35, 0x36, 0x37, 0x38, 0x39, 0x41, 0x42, 0x43, 0x44, 0x45, 0x46] := by decide +kernel
  unfold HexDigitOf
  rw [e1, e2]
  constructor
  · intro h
    have h1 := small c.toNat c.toNat_lt
    simp only [UInt8.ofNat_toNat, h, Option.all_some, decide_eq_true_eq] at h1
    have h2 := key c.toNat c.toNat_lt v.toNat (UInt8.lt_iff_toNat_lt.1 h1)
    simp only [UInt8.ofNat_toNat] at h2
    exact ⟨h1, (decide_eq_decide.1 h2).1 h⟩
  · rintro ⟨h1, h⟩
    have h2 := key c.toNat c.toNat_lt v.toNat (UInt8.lt_iff_toNat_lt.1 h1)
    simp only [UInt8.ofNat_toNat] at h2
    exact (decide_eq_decide.1 h2).2 h

theorem mem_takeWhile_ne {x y : UInt8} {s : Str} (h : x ∈ s.takeWhile (· != y)) : x ≠ y ∧ x ∈ s := by
  induction s with
  | nil => cases h
  | cons c s ih =>
    rw [List.takeWhile_cons] at h
    by_cases hc : c = y
    · rw [if_neg (by simp [hc])] at h; cases h
    · rw [if_pos (by simp [hc])] at h
      rcases List.mem_cons.1 h with rfl | h
      · exact ⟨hc, by simp⟩
      · exact ⟨(ih h).1, by simp [(ih h).2]⟩

theorem dropWhile_ne_head {y x : UInt8} {s rest : Str} (h : s.dropWhile (· != y) = x :: rest) : x = y := by
  induction s with
  | nil => cases h
  | cons c s ih =>
    rw [List.dropWhile_cons] at h
    by_cases hc : c = y
    · rw [if_neg (by simp [hc])] at h; injection h with h; rw [← h, hc]
    · rw [if_pos (by simp [hc])] at h; exact ih h

/-- The two ways to begin. -/
theorem urlUnescape_cons {c : UInt8} (hc : c ≠ 0x25) (s : Str) : urlUnescape (c :: s) = (urlUnescape s).map (c :: ·) := by
  rw [urlUnescape.eq_def]
  split
  · rename_i h; cases h
  · rename_i h; injection h with h; exact absurd h hc
  · rename_i h; injection h with h; exact absurd h hc
  · rename_i h; injection h with h1 h2; subst h1 h2; rfl

theorem urlUnescape_writes {raw path : Str} (hv : ∀ c ∈ raw, Visible c) (hq : 0x3f ∉ raw) :
    urlUnescape raw = some path ↔ Writes raw path := by
  constructor
  · intro h
    induction hn : raw.length using Nat.strongRecOn generalizing raw path with
    | ind n ih =>
      subst hn
      match raw, h, hv, hq with
      | [], h, _, _ => cases h; exact .nil
      | c :: s, h, hv, hq =>
        by_cases hc : c = 0x25
        · subst hc
          match s, h, hv, hq with
          | [], h, _, _ => cases h
          | [_], h, _, _ => cases h
          | a :: b :: s, h, hv, hq =>
            simp only [urlUnescape] at h
            cases ha : hexVal a with
            | none => rw [ha] at h; cases h
            | some x =>
              cases hb : hexVal b with
              | none => rw [ha, hb] at h; cases h
              | some y =>
                cases hs : urlUnescape s with
                | none => rw [ha, hb, hs] at h; cases h
                | some t =>
                  rw [ha, hb, hs] at h
                  cases h
                  exact .escaped ((hexVal_iff _ _).1 ha) ((hexVal_iff _ _).1 hb)
                    (ih s.length (by simp; omega) (fun c h => hv c (by simp [h])) (fun h => hq (by simp [h])) hs rfl)
        · rw [urlUnescape_cons hc] at h
          cases hs : urlUnescape s with
          | none => rw [hs] at h; cases h
          | some t =>
            rw [hs] at h
            cases h
            exact .plain (hv c (by simp)) hc (fun h => hq (by simp [h]))
              (ih s.length (by simp) (fun c h => hv c (by simp [h])) (fun h => hq (by simp [h])) hs rfl)
  · intro h
    induction h with
    | nil => rfl
    | plain h1 h2 h3 _ ih =>
      rw [urlUnescape_cons h2, ih (fun c h => hv c (by simp [h])) (fun h => hq (by simp [h]))]
      rfl
    | escaped h1 h2 _ ih =>
      simp only [urlUnescape, (hexVal_iff _ _).2 h1, (hexVal_iff _ _).2 h2,
        ih (fun c h => hv c (by simp [h])) (fun h => hq (by simp [h]))]

theorem hexDigitOf_visible {a x : UInt8} (h : HexDigitOf a x) : Visible a ∧ a ≠ 0x3f := by
  have key : ∀ n, n < 256 → (hexVal (UInt8.ofNat n)).isSome = true →
      (0x20 ≤ UInt8.ofNat n ∧ UInt8.ofNat n ≠ 0x7f) ∧ UInt8.ofNat n ≠ 0x3f := by decide +kernel
  have := key a.toNat a.toNat_lt
  simp only [UInt8.ofNat_toNat] at this
  exact this (by rw [(hexVal_iff a x).2 h]; rfl)

theorem writes_visible {raw path : Str} (h : Writes raw path) : (∀ c ∈ raw, Visible c) ∧ 0x3f ∉ raw := by
  induction h with
  | nil => exact ⟨fun _ h => (by cases h), fun h => (by cases h)⟩
  | plain h1 h2 h3 _ ih =>
    refine ⟨fun c hc => ?_, fun hc => ?_⟩
    · rcases List.mem_cons.1 hc with rfl | hc
      · exact h1
      · exact ih.1 c hc
    · rcases List.mem_cons.1 hc with hc | hc
      · exact h3 hc.symm
      · exact ih.2 hc
  | escaped h1 h2 _ ih =>
    have k1 := hexDigitOf_visible h1
    have k2 := hexDigitOf_visible h2
    refine ⟨fun c hc => ?_, fun hc => ?_⟩
    · simp only [List.mem_cons] at hc
      rcases hc with rfl | rfl | rfl | hc
      · exact ⟨by decide, by decide⟩
      · exact k1.1
      · exact k2.1
      · exact ih.1 c hc
    · simp only [List.mem_cons] at hc
      rcases hc with hc | hc | hc | hc
      · cases hc
      · exact k1.2 hc.symm
      · exact k2.2 hc.symm
      · exact ih.2 hc

theorem visible_iff (c : UInt8) : (c < 0x20 || c == 0x7f) = false ↔ Visible c := by
  unfold Visible
  simp only [Bool.or_eq_false_iff, decide_eq_false_iff_not, beq_eq_false_iff_ne, ne_eq, UInt8.not_lt]

theorem takeWhile_append_stop {p : UInt8 → Bool} {a : Str} {x : UInt8} {b : Str} (ha : ∀ c ∈ a, p c = true) (hx : p x = false) :
    (a ++ x :: b).takeWhile p = a := by
  rw [List.takeWhile_append_of_pos ha]
  simp [hx]

theorem targetPath_iff (target path : Str) : targetPath target = some path ↔ IsTarget target path := by
  unfold targetPath
  by_cases hv : (target.any fun c => c < 0x20 || c == 0x7f) = true
  · rw [if_pos hv]
    simp only [reduceCtorEq, false_iff]
    rintro ⟨raw, hw, h⟩
    obtain ⟨c, hc, hx⟩ := List.any_eq_true.1 hv
    have k := writes_visible hw
    have : Visible c := by
      rcases h with rfl | ⟨q, rfl, hq⟩
      · exact k.1 c hc
      · simp only [List.mem_append, List.mem_cons] at hc
        rcases hc with hc | rfl | hc
        · exact k.1 c hc
        · exact ⟨by decide, by decide⟩
        · exact hq c hc
    rw [(visible_iff c).2 this] at hx
    cases hx
  · rw [if_neg hv]
    have hall : ∀ c ∈ target, Visible c := fun c hc => (visible_iff c).1 (Bool.eq_false_iff.2 fun h =>
      hv (List.any_eq_true.2 ⟨c, hc, h⟩))
    have hsplit := List.takeWhile_append_dropWhile (p := fun c : UInt8 => c != 0x3f) (l := target)
    have hraw : 0x3f ∉ target.takeWhile (· != 0x3f) := fun h => (mem_takeWhile_ne h).1 rfl
    have hvis : ∀ c ∈ target.takeWhile (· != 0x3f), Visible c := fun c h => hall c (mem_takeWhile_ne h).2
    rw [urlUnescape_writes hvis hraw]
    constructor
    · intro h
      refine ⟨_, h, ?_⟩
      cases hd : target.dropWhile (· != 0x3f) with
      | nil => left; rw [hd, List.append_nil] at hsplit; exact hsplit.symm
      | cons x q =>
        right
        have hx : x = 0x3f := dropWhile_ne_head hd
        rw [hd, hx] at hsplit
        exact ⟨q, hsplit.symm, fun c hc => hall c (by rw [← hsplit]; simp [hc])⟩
    · rintro ⟨raw, hw, h⟩
      have k := writes_visible hw
      have : target.takeWhile (· != 0x3f) = raw := by
        have hne : ∀ c ∈ raw, (c != 0x3f) = true := fun c hc => by
          rw [bne_iff_ne]; rintro rfl; exact k.2 hc
        rcases h with rfl | ⟨q, rfl, -⟩
        · have := List.takeWhile_append_of_pos (l₂ := []) hne
          simpa using this
        · exact takeWhile_append_stop hne (by decide)
      rw [this]; exact hw

/-! ## The tree -/

theorem find_static {k : Nat} {root : Bool} {pre : Str} {handler : Option Handler} {kids : List (UInt8 × Node)}
    {wild : Option Node} {path p q : Str} {h : Handler} :
    Node.find (k + 1) (.mk root false pre handler kids wild) path p = .at h q ↔
      (path = pre ∧ handler = some h ∧ p = q) ∨
      ∃ c rest, path = pre ++ c :: rest ∧
        ((∃ n, kids.lookup c = some n ∧ n.find k (c :: rest) p = .at h q) ∨
         (kids.lookup c = none ∧ ∃ n, wild = some n ∧ n.find k (c :: rest) p = .at h q)) := by
  rw [Node.find.eq_def]
  simp only [Bool.false_eq_true, if_false]
  by_cases hp : pre.isPrefixOf path = true
  · rw [if_pos hp]
    obtain ⟨r, rfl⟩ := List.isPrefixOf_iff_prefix.1 hp
    rw [List.drop_left]
    cases r with
    | nil =>
      simp only [List.append_nil, true_and]
      constructor
      · intro hx
        left
        cases handler with
        | some h' => simp only [Found.at.injEq] at hx; exact ⟨by rw [hx.1], hx.2⟩
        | none =>
          simp only at hx
          split at hx
          · cases hx
          · split at hx <;> cases hx
      · rintro (⟨rfl, rfl⟩ | ⟨c, rest, hx, -⟩)
        · rfl
        · have := congrArg List.length hx
          simp at this
    | cons c rest =>
      simp only
      have hne : pre ++ c :: rest ≠ pre := fun e => by
        have := congrArg List.length e
        simp at this
      simp only [hne, false_and, false_or]
      constructor
      · intro hx
        refine ⟨c, rest, rfl, ?_⟩
        cases hl : kids.lookup c with
        | some n => rw [hl] at hx; exact .inl ⟨n, rfl, hx⟩
        | none =>
          rw [hl] at hx
          simp only at hx
          cases wild with
          | some n => exact .inr ⟨rfl, n, rfl, hx⟩
          | none => cases hx
      · rintro ⟨c', rest', e, hx⟩
        obtain ⟨rfl, rfl⟩ := List.cons.inj (List.append_cancel_left e)
        rcases hx with ⟨n, h1, h2⟩ | ⟨h1, n, rfl, h2⟩
        · rw [h1]; exact h2
        · rw [h1]; exact h2
  · rw [if_neg hp]
    simp only [reduceCtorEq, false_iff]
    rintro (⟨rfl, -⟩ | ⟨c, rest, rfl, -⟩)
    · exact hp (List.isPrefixOf_iff_prefix.2 (List.prefix_refl _))
    · exact hp (List.isPrefixOf_iff_prefix.2 (List.prefix_append _ _))

theorem find_param {k : Nat} {root : Bool} {pre : Str} {x : UInt8} {n : Node} {wild : Option Node} {path p q : Str} {h : Handler} :
    Node.find (k + 1) (.mk root true pre none [(x, n)] wild) path p = .at h q ↔
      ∃ val rest, path = val ++ 0x2f :: rest ∧ 0x2f ∉ val ∧ n.find k (0x2f :: rest) val = .at h q := by
  rw [Node.find.eq_def]
  simp only [if_true]
  have hsplit := List.takeWhile_append_dropWhile (p := fun c : UInt8 => c != 0x2f) (l := path)
  have hraw : 0x2f ∉ path.takeWhile (· != 0x2f) := fun h => (mem_takeWhile_ne h).1 rfl
  constructor
  · intro hx
    cases hd : path.dropWhile (· != 0x2f) with
    | nil =>
      rw [hd] at hx
      obtain ⟨a, b, c, d, e, f⟩ := n
      cases hx
    | cons y rest =>
      rw [hd] at hx
      have hy : y = 0x2f := dropWhile_ne_head hd
      subst hy
      rw [hd] at hsplit
      exact ⟨_, rest, hsplit.symm, hraw, hx⟩
  · rintro ⟨val, rest, rfl, hv, hx⟩
    have hne : ∀ c ∈ val, (c != 0x2f) = true := fun c hc => by
      rw [bne_iff_ne]; rintro rfl; exact hv hc
    have h1 : (val ++ 0x2f :: rest).takeWhile (· != 0x2f) = val := takeWhile_append_stop hne (by decide)
    have h2 : (val ++ 0x2f :: rest).dropWhile (· != 0x2f) = 0x2f :: rest := by
      rw [List.dropWhile_append_of_pos hne]
      simp
    rw [h1, h2]
    exact hx

theorem find_leaf {k : Nat} {pre : Str} {handler h : Handler} {path p q : Str} :
    Node.find (k + 1) (.mk false false pre (some handler) [] none) path p = .at h q ↔ path = pre ∧ handler = h ∧ p = q := by
  rw [find_static]
  simp

end JT808
