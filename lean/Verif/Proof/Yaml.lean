import Verif.Spec.Yaml
/-
Lemmas for C135: the reader of configuration files.
-/
namespace JT808
open Spec

theorem unlines_cons (l : Str) {ls : List Str} (h : ls ≠ []) : unlines (l :: ls) = l ++ 0x0a :: unlines ls := by
  cases ls with
  | nil => exact absurd rfl h
  | cons a b => rfl

theorem textLines_ne (s : Str) : textLines s ≠ [] := by
  cases s with
  | nil => simp [textLines]
  | cons b s =>
    unfold textLines
    split
    · simp
    · split <;> simp

theorem textLines_one {l : Str} (h : 0x0a ∉ l) : textLines l = [l] := by
  induction l with
  | nil => rfl
  | cons b l ih =>
    simp only [List.mem_cons, not_or] at h
    unfold textLines
    rw [if_neg (fun x => h.1 x.symm), ih h.2]

theorem textLines_append {l s : Str} (h : 0x0a ∉ l) : textLines (l ++ 0x0a :: s) = l :: textLines s := by
  induction l with
  | nil => simp [textLines]
  | cons b l ih =>
    simp only [List.mem_cons, not_or] at h
    rw [List.cons_append]
    conv => lhs; unfold textLines
    rw [if_neg (fun x => h.1 x.symm), ih h.2]

theorem textLines_unlines {ls : List Str} (hn : ls ≠ []) (h : ∀ l ∈ ls, 0x0a ∉ l) : textLines (unlines ls) = ls := by
  induction ls with
  | nil => exact absurd rfl hn
  | cons l ls ih =>
    by_cases e : ls = []
    · subst e; exact textLines_one (h l List.mem_cons_self)
    · rw [unlines_cons _ e, textLines_append (h l List.mem_cons_self), ih e fun x hx => h x (List.mem_cons_of_mem _ hx)]

/-! ## Comments -/

theorem dropComment_spaces (sp : Bool) (k : Nat) (s : Str) :
    dropComment false sp (spaces k ++ s) = spaces k ++ dropComment false (decide (0 < k) || sp) s := by
  induction k generalizing sp with
  | zero => simp
  | succ k ih =>
    rw [spaces, List.replicate_succ, List.cons_append, dropComment, if_neg (by simp)]
    have := ih true
    simp only [Bool.or_true] at this
    simp [this]

theorem dropComment_plain {a : Str} (sp : Bool) (s : Str) (h : ∀ c ∈ a, c ≠ 0x23 ∧ c ≠ 0x22 ∧ c ≠ 0x20) (hn : a ≠ []) :
    dropComment false sp (a ++ s) = a ++ dropComment false false s := by
  induction a generalizing sp with
  | nil => exact absurd rfl hn
  | cons c a ih =>
    obtain ⟨h1, h2, h3⟩ := h c List.mem_cons_self
    rw [List.cons_append, dropComment, if_neg (fun x => h1 x.1), if_neg h2, show (c == 0x20) = false by simpa using h3]
    by_cases e : a = []
    · subst e; rfl
    · rw [ih _ (fun x hx => h x (List.mem_cons_of_mem _ hx)) e]; rfl

theorem dropComment_inside {a : Str} (sp : Bool) (s : Str) (h : 0x22 ∉ a) :
    dropComment true sp (a ++ 0x22 :: s) = a ++ 0x22 :: dropComment false false s := by
  induction a generalizing sp with
  | nil => rw [List.nil_append, dropComment, if_neg (by simp)]; rfl
  | cons c a ih =>
    simp only [List.mem_cons, not_or] at h
    rw [List.cons_append, dropComment, if_neg (by simp), if_neg (fun x => h.1 x.symm), ih _ h.2]; rfl

theorem dropComment_quoted {a : Str} (sp : Bool) (s : Str) (h : 0x22 ∉ a) :
    dropComment false sp (0x22 :: a ++ [0x22] ++ s) = 0x22 :: a ++ [0x22] ++ dropComment false false s := by
  rw [List.append_assoc, List.cons_append, dropComment, if_neg (by simp)]
  simp only [if_true, Bool.not_false]
  rw [show a ++ ([0x22] ++ s) = a ++ 0x22 :: s by rfl, dropComment_inside _ _ h]
  simp

theorem remark_gone {r : Str} (h : YamlRemark r) : ∃ k, dropComment false false r = spaces k := by
  cases h with
  | none k => have := dropComment_spaces false k []; simp only [List.append_nil, dropComment] at this; exact ⟨k, this⟩
  | comment k c hk =>
    refine ⟨k, ?_⟩
    rw [dropComment_spaces, dropComment, if_pos ⟨rfl, by simp [hk], rfl⟩, List.append_nil]

theorem empty_gone {l : Str} (h : YamlEmpty l) : trimEnd (dropComment false true l) = [] := by
  have hs : ∀ k, trimEnd (spaces k) = [] := fun k => by
    unfold trimEnd
    rw [List.reverse_replicate]
    simp
  cases h with
  | blank k =>
    have := dropComment_spaces true k []
    simp only [List.append_nil, dropComment] at this
    rw [this, hs]
  | comment k c => rw [dropComment_spaces, dropComment, if_pos ⟨rfl, by simp, rfl⟩, List.append_nil, hs]

theorem trimEnd_spaces {a : Str} {c : UInt8} (hc : c ≠ 0x20) (k : Nat) : trimEnd (a ++ c :: spaces k) = a ++ [c] := by
  unfold trimEnd
  have : (a ++ c :: spaces k).reverse = spaces k ++ c :: a.reverse := by simp [List.reverse_replicate]
  rw [this, List.dropWhile_append_of_pos (by simp), List.dropWhile_cons_of_neg (by simpa using hc)]
  simp

/-! ## Lines -/

theorem key_char {c : UInt8} (h : c ∈ "abcdefghijklmnopqrstuvwxyzABCDEFGHIJKLMNOPQRSTUVWXYZ".toUTF8.toList) :
    ((0x61 ≤ c && c ≤ 0x7a) || (0x41 ≤ c && c ≤ 0x5a)) = true ∧ c ≠ 0x23 ∧ c ≠ 0x22 ∧ c ≠ 0x20 := by
  have : ∀ c ∈ "abcdefghijklmnopqrstuvwxyzABCDEFGHIJKLMNOPQRSTUVWXYZ".toUTF8.toList,
      ((0x61 ≤ c && c ≤ 0x7a) || (0x41 ≤ c && c ≤ 0x5a)) = true ∧ c ≠ 0x23 ∧ c ≠ 0x22 ∧ c ≠ 0x20 := by decide +kernel
  exact this c h

theorem word_char {c : UInt8} (h : c ∈ "0123456789abcdefghijklmnopqrstuvwxyz".toUTF8.toList) :
    ((0x30 ≤ c && c ≤ 0x39) || (0x61 ≤ c && c ≤ 0x7a)) = true ∧ c ≠ 0x23 ∧ c ≠ 0x22 ∧ c ≠ 0x20 := by
  have : ∀ c ∈ "0123456789abcdefghijklmnopqrstuvwxyz".toUTF8.toList,
      ((0x30 ≤ c && c ≤ 0x39) || (0x61 ≤ c && c ≤ 0x7a)) = true ∧ c ≠ 0x23 ∧ c ≠ 0x22 ∧ c ≠ 0x20 := by decide +kernel
  exact this c h

/-- What is left of a line after its comment. -/
theorem line_kept {n : Nat} {key t r : Str} (hk : YamlKey key) (hr : YamlRemark r)
    (ht : t = [0x3a] ∨ ∃ v u, YamlScalar v u ∧ t = 0x3a :: 0x20 :: u) :
    trimEnd (dropComment false true (spaces n ++ key ++ t ++ r)) = spaces n ++ key ++ t := by
  obtain ⟨k, hk'⟩ := remark_gone hr
  rw [List.append_assoc, List.append_assoc, dropComment_spaces,
    dropComment_plain _ _ (fun c hc => (key_char (hk.2.1 c hc)).2) hk.1]
  rcases ht with rfl | ⟨v, u, hu, rfl⟩
  · rw [List.cons_append, dropComment, if_neg (by decide)]
    simp only [List.nil_append]
    rw [show (if (0x3a : UInt8) = 0x22 then !false else false) = false from rfl, show ((0x3a : UInt8) == 0x20) = false from rfl, hk',
      ← List.append_assoc]
    exact trimEnd_spaces (by decide) k
  · have e : dropComment false false (0x3a :: 0x20 :: u ++ r) = 0x3a :: 0x20 :: dropComment false true (u ++ r) := by
      rw [List.cons_append, dropComment, if_neg (by decide), List.cons_append, dropComment, if_neg (by decide)]
      rfl
    rw [e]
    cases hu with
    | @quoted s h1 h2 =>
      rw [dropComment_quoted _ _ h1, hk']
      have := trimEnd_spaces (a := spaces n ++ key ++ 0x3a :: 0x20 :: 0x22 :: s) (c := 0x22) (by decide) k
      simpa using this
    | plain h1 h2 =>
      rw [dropComment_plain _ _ (fun c hc => (word_char (h2 c hc)).2) h1, hk']
      obtain ⟨a, c, rfl⟩ : ∃ a c, u = a ++ [c] := ⟨u.dropLast, u.getLast h1, (List.dropLast_concat_getLast h1).symm⟩
      have := trimEnd_spaces (a := spaces n ++ key ++ 0x3a :: 0x20 :: a) (c := c) (word_char (h2 c (by simp))).2.2.2 k
      simpa using this

theorem takeWhile_upto {p : UInt8 → Bool} {a : Str} {c : UInt8} {s : Str} (h : ∀ x ∈ a, p x = true) (hc : p c = false) :
    (a ++ c :: s).takeWhile p = a := by
  rw [List.takeWhile_append_of_pos h, List.takeWhile_cons_of_neg (by simp [hc]), List.append_nil]

theorem scalar_read {v : Scalar} {t : Str} (h : YamlScalar v t) : readScalar t = some v := by
  cases h with
  | @quoted s h1 h2 =>
    have e : (s ++ [0x22]).takeWhile (· != (0x22 : UInt8)) = s :=
      takeWhile_upto (fun x hx => by simp; rintro rfl; exact h1 hx) (by rfl)
    show (if (s ++ [0x22]).drop ((s ++ [0x22]).takeWhile (· != (0x22 : UInt8))).length = [0x22] ∧
        0x5c ∉ (s ++ [0x22]).takeWhile (· != (0x22 : UInt8)) then
      some (Scalar.quoted ((s ++ [0x22]).takeWhile (· != (0x22 : UInt8)))) else none) = _
    rw [e]
    simp [h2]
  | plain h1 h2 =>
    unfold readScalar
    split
    · next rest => exact absurd rfl (word_char (h2 0x22 List.mem_cons_self)).2.2.1
    · rw [if_pos ⟨h1, List.all_eq_true.2 fun c hc => (word_char (h2 c hc)).1⟩]

theorem readLine_line {n : Nat} {key t : Str} (hk : YamlKey key) :
    readLine (spaces n ++ key ++ 0x3a :: t) =
      match (0x3a :: t : Str) with
      | [0x3a] => some (n, key, none)
      | 0x3a :: 0x20 :: v => (readScalar v).map fun v => (n, key, some v)
      | _ => none := by
  obtain ⟨hn, hk, -⟩ := hk
  have e1 : ((spaces n ++ key ++ 0x3a :: t).takeWhile (· == 0x20)) = spaces n := by
    rw [List.append_assoc, List.takeWhile_append_of_pos (by simp)]
    cases key with
    | nil => exact absurd rfl hn
    | cons c key =>
      rw [List.cons_append, List.takeWhile_cons_of_neg (by simpa using (key_char (hk c List.mem_cons_self)).2.2.2), List.append_nil]
  unfold readLine
  rw [e1]
  dsimp only
  have e2 : (spaces n ++ key ++ 0x3a :: t).drop (spaces n).length = key ++ 0x3a :: t := by
    rw [List.append_assoc, List.drop_left]
  rw [e2, takeWhile_upto (fun c hc => (key_char (hk c hc)).1) (by decide), List.drop_left]
  have e3 : (spaces n).length = n := by simp
  rw [e3]
  simp only [if_neg hn]
  cases t with
  | nil => rfl
  | cons c t =>
    by_cases hc : c = 0x20
    · subst hc; rfl
    · split <;> split <;> simp_all

/-! ## Blocks -/

theorem drop_inner {junk outer : List (Nat × Str)} {n : Nat} (hj : ∀ e ∈ junk, n ≤ e.1) (ho : ∀ e ∈ outer, e.1 < n) :
    (junk ++ outer).dropWhile (fun e => decide (n ≤ e.1)) = outer := by
  rw [List.dropWhile_append_of_pos (by simpa using hj)]
  cases outer with
  | nil => rfl
  | cons e o =>
    have := ho e List.mem_cons_self
    rw [List.dropWhile_cons_of_neg (by simp; omega)]

theorem block_read {n : Nat} {ls : List Str} {es : List (List Str × Scalar)} (h : YamlBlock n ls es)
    (junk outer : List (Nat × Str)) (hj : ∀ e ∈ junk, n ≤ e.1) (ho : ∀ e ∈ outer, e.1 < n) (rest : List Str) :
    ∃ junk', (∀ e ∈ junk', n ≤ e.1) ∧ readLines (junk ++ outer) (ls ++ rest) =
      (readLines (junk' ++ outer) rest).map fun r => es.map (fun e => (outer.reverse.map (·.2) ++ e.1, e.2)) ++ r := by
  induction h generalizing junk outer rest with
  | nil => exact ⟨junk, hj, by simp⟩
  | empty h1 _ ih =>
    obtain ⟨j, h2, h3⟩ := ih junk outer hj ho rest
    refine ⟨j, h2, ?_⟩
    rw [← h3, List.cons_append]
    conv => lhs; unfold readLines
    rw [if_pos (empty_gone h1)]
  | @value n key v t r ls es hk hv hr _ ih =>
    obtain ⟨j, h2, h3⟩ := ih [] outer (fun _ h => (by cases h)) ho rest
    refine ⟨j, h2, ?_⟩
    rw [List.cons_append]
    conv => lhs; unfold readLines
    have e := line_kept (n := n) hk hr (.inr ⟨v, t, hv, rfl⟩)
    rw [e, if_neg (by simp), readLine_line hk]
    simp only [scalar_read hv, Option.map_some]
    rw [drop_inner hj ho]
    rw [List.nil_append] at h3
    rw [h3]
    cases readLines (j ++ outer) rest <;> simp
  | @«section» n m key r ls ls' es es' hk hr hm _ _ ih1 ih2 =>
    obtain ⟨j1, a1, b1⟩ := ih1 [] ((n, key) :: outer) (fun _ h => (by cases h))
      (by intro e he; rcases List.mem_cons.1 he with rfl | he; exact hm; exact Nat.lt_trans (ho e he) hm) (ls' ++ rest)
    obtain ⟨j2, a2, b2⟩ := ih2 (j1 ++ [(n, key)]) outer
      (by intro e he; rcases List.mem_append.1 he with he | he
          · exact Nat.le_of_lt (Nat.lt_of_lt_of_le hm (a1 e he))
          · rw [List.mem_singleton.1 he]; exact Nat.le_refl _) ho rest
    refine ⟨j2, a2, ?_⟩
    rw [List.append_assoc, List.cons_append]
    conv => lhs; unfold readLines
    have e := line_kept (n := n) (t := [0x3a]) hk hr (.inl rfl)
    rw [List.append_assoc, List.append_assoc] at e
    rw [List.append_assoc]
    rw [show (0x3a :: r : Str) = [0x3a] ++ r from rfl, e, if_neg (by simp), ← List.append_assoc, readLine_line hk]
    simp only
    rw [drop_inner hj ho]
    rw [List.nil_append] at b1
    rw [List.append_assoc, b1]
    rw [show j1 ++ (n, key) :: outer = j1 ++ [(n, key)] ++ outer by simp, b2]
    cases readLines (j2 ++ outer) rest <;> simp [Function.comp_def]

end JT808
