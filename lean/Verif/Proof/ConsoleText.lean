import Verif.Model.ConsoleLog
import Verif.Spec.ConsoleLog
import Verif.Props.DebugLog
import Verif.Props.JsonGeo
/-
json.Marshal of a decoded value, strconv.Quote, and how they are read.
-/
namespace JT808
open Spec

theorem jchar_scalar {u : List UInt8} {n : Nat} (h : JChar u n) : Scalar n := by
  cases h with
  | plain h _ _ _ => exact h
  | short h =>
    have : ∀ p ∈ shortEscapes, p.2 < 0xD800 := by decide
    exact .inl (this _ h)
  | hex _ _ _ _ h => exact h

theorem jchars_scalar {s : List UInt8} {t : List Nat} (h : JChars s t) : ∀ n ∈ t, Scalar n := by
  induction h with
  | nil => intro n hn; cases hn
  | cons h _ ih =>
    intro n hn
    rcases List.mem_cons.1 hn with rfl | hn
    · exact jchar_scalar h
    · exact ih n hn

theorem jsonChars_utf8 {t : List Nat} (h : ∀ n ∈ t, Scalar n) :
    JChars (jsonCharsN (utf8Text t).length (utf8Text t)) t := by
  obtain ⟨t', h1, h2⟩ := jsonChars_seen (utf8Text t).length (utf8Text t) (Nat.le_refl _)
  rwa [seen_unique h1 (seen_utf8Text h)] at h2

/-- Members as they are printed, with what they denote. -/
inductive Printed : List (Str × Str) → List (List Nat × JVal) → Prop
  | nil : Printed [] []
  | cons {k : List Nat} {s : Str} {v : JVal} {es : List (Str × Str)} {ls : List (List Nat × JVal)} :
      (∀ n ∈ k, Scalar n) → JText s v → Printed es ls → Printed ((utf8Text k, s) :: es) ((k, v) :: ls)

theorem Printed.insert {k : List Nat} {s : Str} {v : JVal} (hk : ∀ n ∈ k, Scalar n) (hs : JText s v)
    {es : List (Str × Str)} {ls : List (List Nat × JVal)} (h : Printed es ls) :
    ∃ ms, ((k, v) :: ls).Perm ms ∧ Printed (insertName (utf8Text k, s) es) ms := by
  induction h with
  | nil => exact ⟨_, .refl _, .cons hk hs .nil⟩
  | @cons k' s' v' es ls hk' hs' h ih =>
    unfold insertName
    split
    · exact ⟨_, .refl _, .cons hk hs (.cons hk' hs' h)⟩
    · obtain ⟨ms, h1, h2⟩ := ih
      exact ⟨_, (List.Perm.swap _ _ _).trans (h1.cons _), .cons hk' hs' h2⟩

theorem Printed.sort {es : List (Str × Str)} {ls : List (List Nat × JVal)} (h : Printed es ls) :
    ∃ ms, ls.Perm ms ∧ Printed (sortNames es) ms := by
  induction h with
  | nil => exact ⟨[], .refl _, .nil⟩
  | cons hk hs _ ih =>
    obtain ⟨ms, h1, h2⟩ := ih
    obtain ⟨ms', h3, h4⟩ := h2.insert hk hs
    exact ⟨ms', (h1.cons _).trans h3, h4⟩

theorem Printed.members {es : List (Str × Str)} {ls : List (List Nat × JVal)} (h : Printed es ls) (hn : es ≠ []) :
    JMembers (jsonSep (es.map fun e => jsonString e.1 ++ 0x3a :: e.2)) ls := by
  induction h with
  | nil => exact absurd rfl hn
  | @cons k s v es ls hk hs h ih =>
    have hq : jsonString (utf8Text k) = quoted (jsonCharsN (utf8Text k).length (utf8Text k)) := rfl
    cases h with
    | nil =>
      show JMembers (jsonString (utf8Text k) ++ 0x3a :: s) _
      rw [hq]
      exact .one (jsonChars_utf8 hk) hs
    | @cons k' s' v' es ls hk' hs' h =>
      have := ih (by simp)
      have e : jsonSep (((utf8Text k, s) :: (utf8Text k', s') :: es).map fun e => jsonString e.1 ++ 0x3a :: e.2) =
          jsonString (utf8Text k) ++ 0x3a :: (s ++ 0x2c :: jsonSep (((utf8Text k', s') :: es).map fun e => jsonString e.1 ++ 0x3a :: e.2)) := by
        show (jsonString (utf8Text k) ++ 0x3a :: s) ++ 0x2c :: _ = _
        rw [List.append_assoc]; rfl
      rw [e, hq]
      exact .more (jsonChars_utf8 hk) hs this

theorem sortNames_ne {β : Type} {es : List (Str × β)} (h : es ≠ []) : sortNames es ≠ [] := by
  cases es with
  | nil => exact absurd rfl h
  | cons e es =>
    unfold sortNames
    cases sortNames es with
    | nil => simp [insertName]
    | cons x xs => unfold insertName; split <;> simp

theorem items_sep {s : Str} {v : JVal} {ss : List Str} {vs : List JVal} (h : JText s v) (hs : JItems (jsonSep ss) vs) (hn : ss ≠ []) :
    JItems (jsonSep (s :: ss)) (v :: vs) := by
  cases ss with
  | nil => exact absurd rfl hn
  | cons x xs => exact .more h hs

mutual

/-- A value that was read is printed as the same value. -/
theorem marshal_text : {s : List UInt8} → {v : JVal} → JText s v → ∃ w, SameVal v w ∧ JText (marshalVal v) w
  | _, _, .num _ _ _ => ⟨_, .refl _, by unfold marshalVal; exact jtext_decimal _⟩
  | _, _, @JText.dec s f _ _ _ hf hd => by
    have hp : 0 < f.length := by cases f with | nil => exact absurd rfl hf | cons _ _ => simp
    have hlt : decimalValue (s ++ f) % 10 ^ f.length < 10 ^ f.length := Nat.mod_lt _ (Nat.pow_pos (by omega))
    have hl := decimalPad_length hp hlt
    refine ⟨_, .refl _, ?_⟩
    unfold marshalVal
    have := JText.dec (decimal_ne_nil (decimalValue (s ++ f) / 10 ^ f.length)) (decimal_digits _) (decimal_head _)
      (f := decimalPad f.length (decimalValue (s ++ f) % 10 ^ f.length))
      (by intro h; rw [h] at hl; simp at hl; omega) (decimalPad_digits _ _)
    rw [decimalValue_append (decimal _), decimalValue_decimal, decimalValue_pad, hl,
      Nat.div_add_mod' (decimalValue (s ++ f)) (10 ^ f.length)] at this
    exact this
  | _, _, @JText.neg s _ _ _ => ⟨_, .refl _, by
      unfold marshalVal
      have := JText.neg (decimal_ne_nil _) (decimal_digits _) (decimal_head (decimalValue s))
      rw [decimalValue_decimal] at this
      exact this⟩
  | _, _, .yes => ⟨_, .refl _, by unfold marshalVal; exact jtext_bool true⟩
  | _, _, .no => ⟨_, .refl _, by unfold marshalVal; exact jtext_bool false⟩
  | _, _, .null => ⟨_, .refl _, by unfold marshalVal; exact .null⟩
  | _, _, .str h => ⟨_, .refl _, by unfold marshalVal; exact .str (jsonChars_utf8 (jchars_scalar h))⟩
  | _, _, .arr0 => ⟨_, .refl _, by unfold marshalVal marshalItems; exact .arr0⟩
  | _, _, .arr h => by
    obtain ⟨ws, h1, h2, _⟩ := marshal_items h
    exact ⟨_, .arr h1, by unfold marshalVal; exact .arr h2⟩
  | _, _, .obj0 => ⟨_, .refl _, by unfold marshalVal marshalMembers; exact .obj0⟩
  | _, _, .obj h => by
    obtain ⟨ls, h1, h2, h3⟩ := marshal_members h
    obtain ⟨ms, h4, h5⟩ := h2.sort
    exact ⟨_, .obj h1 h4, by unfold marshalVal; exact .obj (h5.members (sortNames_ne h3))⟩

theorem marshal_items : {s : List UInt8} → {vs : List JVal} → JItems s vs →
    ∃ ws, SameItems vs ws ∧ JItems (jsonSep (marshalItems vs)) ws ∧ marshalItems vs ≠ []
  | _, _, .one h => by
    obtain ⟨w, h1, h2⟩ := marshal_text h
    exact ⟨_, .cons h1 .nil, by unfold marshalItems marshalItems; exact .one h2, by unfold marshalItems; simp⟩
  | _, _, .more h hs => by
    obtain ⟨w, h1, h2⟩ := marshal_text h
    obtain ⟨ws, h3, h4, h5⟩ := marshal_items hs
    exact ⟨_, .cons h1 h3, by rw [marshalItems]; exact items_sep h2 h4 h5, by unfold marshalItems; simp⟩

theorem marshal_members : {s : List UInt8} → {kvs : List (List Nat × JVal)} → JMembers s kvs →
    ∃ ls, SameMembers kvs ls ∧ Printed (marshalMembers kvs) ls ∧ marshalMembers kvs ≠ []
  | _, _, .one hk h => by
    obtain ⟨w, h1, h2⟩ := marshal_text h
    exact ⟨_, .cons h1 .nil, by unfold marshalMembers marshalMembers; exact .cons (jchars_scalar hk) h2 .nil, by
      unfold marshalMembers; simp⟩
  | _, _, .more hk h hs => by
    obtain ⟨w, h1, h2⟩ := marshal_text h
    obtain ⟨ls, h3, h4, _⟩ := marshal_members hs
    exact ⟨_, .cons h1 h3, by unfold marshalMembers; exact .cons (jchars_scalar hk) h2 h4, by unfold marshalMembers; simp⟩

end

/-! ### strconv.Quote and its reading -/

theorem hexWorth_json (m : Nat) : hexWorth (jsonHex (UInt8.ofNat (m % 16))) = some (m % 16) := by
  have : ∀ k : Fin 16, hexWorth (jsonHex (UInt8.ofNat k.1)) = some k.1 := by decide
  exact this ⟨m % 16, Nat.mod_lt _ (by omega)⟩

theorem goLiteral_plain {b : UInt8} (h1 : b ≠ 0x22) (h2 : b ≠ 0x5c) (s : List UInt8) :
    goLiteral (b :: s) = (goLiteral s).map fun r => (b :: r.1, r.2) := by
  rw [goLiteral] <;> simp_all

theorem goLiteral_plains {u : List UInt8} (h : ∀ b ∈ u, b ≠ 0x22 ∧ b ≠ 0x5c) (s : List UInt8) :
    goLiteral (u ++ s) = (goLiteral s).map fun r => (u ++ r.1, r.2) := by
  induction u with
  | nil => simp
  | cons b u ih =>
    obtain ⟨h1, h2⟩ := h b List.mem_cons_self
    rw [List.cons_append, goLiteral_plain h1 h2, ih fun x hx => h x (List.mem_cons_of_mem _ hx)]
    cases goLiteral s <;> rfl

theorem goLiteral_short {e x : UInt8} (h : (e, x) ∈ goEscapes) (s : List UInt8) :
    goLiteral (0x5c :: e :: s) = (goLiteral s).map fun r => (x :: r.1, r.2) := by
  simp only [goEscapes, List.mem_cons, List.not_mem_nil, or_false, Prod.mk.injEq] at h
  rcases h with ⟨rfl, rfl⟩ | ⟨rfl, rfl⟩ | ⟨rfl, rfl⟩ | ⟨rfl, rfl⟩ | ⟨rfl, rfl⟩ | ⟨rfl, rfl⟩ | ⟨rfl, rfl⟩ | ⟨rfl, rfl⟩ | ⟨rfl, rfl⟩ <;>
  (cases hg : goLiteral s <;> simp [goLiteral, goEscapes, List.lookup, hg])

theorem utf8Of_safe {n : Nat} (hn : Scalar n) (h1 : n ≠ 0x22) (h2 : n ≠ 0x5c) : ∀ b ∈ utf8Of n, b ≠ 0x22 ∧ b ≠ 0x5c := by
  have key : ∀ (k a : Nat), 0x80 ≤ a → a < 256 → k = a → UInt8.ofNat k ≠ 0x22 ∧ UInt8.ofNat k ≠ 0x5c := by
    intro k a h h' e
    subst e
    constructor <;> (intro e; have := congrArg UInt8.toNat e; rw [UInt8.toNat_ofNat'] at this; simp at this; omega)
  intro b hb
  unfold Scalar at hn
  unfold utf8Of at hb
  split at hb
  · simp only [List.mem_singleton] at hb
    subst hb
    constructor <;> (intro e; have := congrArg UInt8.toNat e; rw [UInt8.toNat_ofNat'] at this; simp at this; omega)
  split at hb
  · simp only [List.mem_cons, List.not_mem_nil, or_false] at hb
    rcases hb with rfl | rfl <;> exact key _ _ (by omega) (by omega) rfl
  split at hb
  · simp only [List.mem_cons, List.not_mem_nil, or_false] at hb
    rcases hb with rfl | rfl | rfl <;> exact key _ _ (by omega) (by omega) rfl
  · simp only [List.mem_cons, List.not_mem_nil, or_false] at hb
    rcases hb with rfl | rfl | rfl | rfl <;> exact key _ _ (by omega) (by omega) rfl

theorem goLiteral_rune (pr : Nat → Bool) {n : Nat} (hn : Scalar n) (s : List UInt8) :
    goLiteral (quoteRune pr n ++ s) = (goLiteral s).map fun r => (utf8Of n ++ r.1, r.2) := by
  have one : n < 0x80 → utf8Of n = [UInt8.ofNat n] := fun h => by unfold utf8Of; rw [if_pos h]
  have hn' := hn
  unfold Scalar at hn'
  unfold quoteRune
  split
  · rename_i h
    rw [one (by omega)]
    rcases h with rfl | rfl <;> exact goLiteral_short (by decide) s
  rename_i h0
  have h0a : n ≠ 0x22 := fun h => h0 (.inl h)
  have h0b : n ≠ 0x5c := fun h => h0 (.inr h)
  split
  · exact goLiteral_plains (utf8Of_safe hn h0a h0b) s
  split
  · rename_i h; subst h; exact goLiteral_short (by decide) s
  split
  · rename_i h; subst h; exact goLiteral_short (by decide) s
  split
  · rename_i h; subst h; exact goLiteral_short (by decide) s
  split
  · rename_i h; subst h; exact goLiteral_short (by decide) s
  split
  · rename_i h; subst h; exact goLiteral_short (by decide) s
  split
  · rename_i h; subst h; exact goLiteral_short (by decide) s
  split
  · rename_i h; subst h; exact goLiteral_short (by decide) s
  split
  · rename_i h
    rw [one (by omega)]
    have e : hexNumber [jsonHex (UInt8.ofNat (n / 16 % 16)), jsonHex (UInt8.ofNat (n % 16))] = some n := by
      simp only [hexNumber, List.foldl_cons, List.foldl_nil, Option.bind_some, hexWorth_json, Option.map_some]
      congr 1; omega
    simp only [hexDigits, List.nil_append, List.cons_append]
    rw [goLiteral, e]
    cases goLiteral s <;> rfl
  split
  · have e : hexNumber [jsonHex (UInt8.ofNat (n / 16 / 16 / 16 % 16)), jsonHex (UInt8.ofNat (n / 16 / 16 % 16)),
        jsonHex (UInt8.ofNat (n / 16 % 16)), jsonHex (UInt8.ofNat (n % 16))] = some n := by
      simp only [hexNumber, List.foldl_cons, List.foldl_nil, Option.bind_some, hexWorth_json, Option.map_some]
      congr 1; omega
    simp only [hexDigits, List.nil_append, List.cons_append]
    rw [goLiteral, e]
    cases goLiteral s <;> rfl
  · have e : hexNumber [jsonHex (UInt8.ofNat (n / 16 / 16 / 16 / 16 / 16 / 16 / 16 % 16)),
        jsonHex (UInt8.ofNat (n / 16 / 16 / 16 / 16 / 16 / 16 % 16)), jsonHex (UInt8.ofNat (n / 16 / 16 / 16 / 16 / 16 % 16)),
        jsonHex (UInt8.ofNat (n / 16 / 16 / 16 / 16 % 16)),
        jsonHex (UInt8.ofNat (n / 16 / 16 / 16 % 16)), jsonHex (UInt8.ofNat (n / 16 / 16 % 16)),
        jsonHex (UInt8.ofNat (n / 16 % 16)), jsonHex (UInt8.ofNat (n % 16))] = some n := by
      simp only [hexNumber, List.foldl_cons, List.foldl_nil, Option.bind_some, hexWorth_json, Option.map_some]
      congr 1; omega
    simp only [hexDigits, List.nil_append, List.cons_append]
    rw [goLiteral, e]
    cases goLiteral s <;> rfl

/-- What is quoted is read back. -/
theorem goLiteral_quote (pr : Nat → Bool) {t : List Nat} (ht : ∀ n ∈ t, Scalar n) (s : List UInt8) :
    goLiteral (t.flatMap (quoteRune pr) ++ 0x22 :: s) = some (utf8Text t, s) := by
  induction t with
  | nil => simp [goLiteral, utf8Text]
  | cons n t ih =>
    rw [List.flatMap_cons, List.append_assoc, goLiteral_rune pr (ht n List.mem_cons_self),
      ih fun x hx => ht x (List.mem_cons_of_mem _ hx)]
    simp [utf8Text]

theorem jsonHex_high (b : UInt8) : 0x20 ≤ (jsonHex (UInt8.ofNat (b.toNat % 16))).toNat := by
  have : ∀ k : Fin 16, 0x20 ≤ (jsonHex (UInt8.ofNat k.1)).toNat := by decide
  exact this ⟨b.toNat % 16, Nat.mod_lt _ (by omega)⟩

theorem hexDigits_high (n k : Nat) : High (hexDigits n k) := by
  have key : ∀ k : Fin 16, 0x20 ≤ (jsonHex (UInt8.ofNat k.1)).toNat := by decide
  induction k generalizing n with
  | zero => exact .nil
  | succ k ih => exact (ih _).append (.cons (key ⟨n % 16, Nat.mod_lt _ (by omega)⟩) .nil)

theorem quoteRune_high (pr : Nat → Bool) {n : Nat} (hn : Scalar n) : High (quoteRune pr n) := by
  have two : ∀ b : UInt8, 0x20 ≤ b.toNat → High [0x5c, b] := fun b h => .cons (by decide) (.cons h .nil)
  unfold quoteRune
  split
  · rename_i h
    rcases h with rfl | rfl <;> exact two _ (by decide)
  split
  · rename_i h
    refine utf8Of_raised ?_ hn
    unfold isPrint at h
    split at h
    · simp at h; omega
    · omega
  repeat' split
  all_goals first
    | exact (two 0x61 (by decide)) | exact (two 0x62 (by decide)) | exact (two 0x66 (by decide)) | exact (two 0x6e (by decide))
    | exact (two 0x72 (by decide)) | exact (two 0x74 (by decide)) | exact (two 0x76 (by decide))
    | exact (two 0x78 (by decide)).append (hexDigits_high _ _) | exact (two 0x75 (by decide)).append (hexDigits_high _ _)
    | exact (two 0x55 (by decide)).append (hexDigits_high _ _)

theorem goQuote_high (pr : Nat → Bool) {t : List Nat} (ht : ∀ n ∈ t, Scalar n) : High (goQuote pr t) := by
  unfold goQuote
  refine .cons (by decide) (High.append ?_ (.cons (by decide) .nil))
  intro b hb
  obtain ⟨n, hn, hb⟩ := List.mem_flatMap.1 hb
  exact quoteRune_high pr (ht n hn) b hb

/-! ### Fields -/

/-- What may stand after a field: another one or the end. -/
def Apart (r : List UInt8) : Prop := r = [] ∨ r.head? = some 0x20

theorem word_plain {s : List UInt8} (h : ∀ b ∈ s, b ≠ 0x20 ∧ b ≠ 0x22) {r : List UInt8} (hr : Apart r) :
    wordIn (s ++ r) = some (s, r) := by
  have tk : ∀ s : List UInt8, (∀ b ∈ s, b ≠ 0x20 ∧ b ≠ 0x22) → (s ++ r).takeWhile (· ≠ 0x20) = s ∧ (s ++ r).dropWhile (· ≠ 0x20) = r := by
    intro s h
    induction s with
    | nil =>
      cases r with
      | nil => exact ⟨rfl, rfl⟩
      | cons b r =>
        have : b = 0x20 := by rcases hr with h | h <;> simp_all
        subst this
        simp
    | cons b s ih =>
      obtain ⟨h1, h2⟩ := ih fun x hx => h x (List.mem_cons_of_mem _ hx)
      have hb := (h b List.mem_cons_self).1
      simp_all
  obtain ⟨h1, h2⟩ := tk s h
  have : ∀ x, s ++ r ≠ 0x22 :: x := by
    intro x hx
    cases s with
    | nil =>
      rw [List.nil_append] at hx
      subst hx
      rcases hr with h | h <;> simp_all
    | cons b s =>
      injection hx with hx
      exact (h b List.mem_cons_self).2 hx
  rw [wordIn, h1, h2]
  exact this

theorem consoleValue_str (pr : Nat → Bool) (t : List Nat) :
    consoleValue pr (.str t) = if needsQuote (utf8Text t) then goQuote pr t else utf8Text t := rfl

theorem word_value (pr : Nat → Bool) {t : List Nat} (ht : ∀ n ∈ t, Scalar n) {r : List UInt8} (hr : Apart r) :
    wordIn (consoleValue pr (.str t) ++ r) = some (utf8Text t, r) := by
  rw [consoleValue_str]
  split
  · unfold goQuote
    rw [List.cons_append, List.cons_append, List.append_assoc]
    show goLiteral _ = _
    exact goLiteral_quote pr ht r
  · rename_i h
    refine word_plain (fun b hb => ?_) hr
    simp only [needsQuote, List.any_eq_true, not_exists, not_and] at h
    have := h b hb
    simp only [Bool.or_eq_true, decide_eq_true_eq, beq_iff_eq, not_or] at this
    exact ⟨this.1.1.2, this.2⟩

theorem value_high (pr : Nat → Bool) {t : List Nat} (ht : ∀ n ∈ t, Scalar n) : High (consoleValue pr (.str t)) := by
  rw [consoleValue_str]
  split
  · exact goQuote_high pr ht
  · rename_i h
    intro b hb
    simp only [needsQuote, List.any_eq_true, not_exists, not_and] at h
    have := h b hb
    simp only [Bool.or_eq_true, decide_eq_true_eq, beq_iff_eq, not_or] at this
    have := this.1.1.1.1
    simpa [UInt8.lt_iff_toNat_lt] using this

theorem word_number (n : Nat) {r : List UInt8} (hr : Apart r) : wordIn (decimal n ++ r) = some (decimal n, r) := by
  refine word_plain (fun b hb => ?_) hr
  have := decimal_digits n b hb
  constructor <;> (rintro rfl; revert this; decide)

theorem upTo_cut {b : UInt8} {s : List UInt8} (h : b ∉ s) (r : List UInt8) : upTo b (s ++ b :: r) = some (s, r) := by
  induction s with
  | nil => simp [upTo]
  | cons x s ih =>
    rw [List.cons_append, upTo, if_neg (fun e : x = b => h (e ▸ List.mem_cons_self)), ih fun e => h (List.mem_cons_of_mem _ e)]
    rfl

theorem after_cut (u r : List UInt8) : after u (u ++ r) = some r := by
  induction u with
  | nil => cases r <;> rfl
  | cons b u ih => simp [after, ih]

/-- A name that stands for a message. -/
def MsgName (name : Str) : Prop := name = utf8Text (chars "incoming") ∨ name = utf8Text (chars "outgoing")

/-- Fields that can be read: a message only at the end. Name, print and meaning. -/
inductive Readable : List (Str × Str × Str) → Prop
  | nil : Readable []
  | message {name s : Str} : MsgName name → (0x3d : UInt8) ∉ name → High name → High s → Readable [(name, s, s)]
  | word {name p s : Str} {fs : List (Str × Str × Str)} : ¬ MsgName name → (0x3d : UInt8) ∉ name → High name → High p →
      (∀ r, Apart r → wordIn (p ++ r) = some (s, r)) → Readable fs → Readable ((name, p, s) :: fs)

/-- The fields as printed. -/
def fieldsText (fs : List (Str × Str × Str)) : Str := fs.flatMap fun f => 0x20 :: f.1 ++ 0x3d :: f.2.1

theorem fieldsText_apart (fs : List (Str × Str × Str)) : Apart (fieldsText fs) := by
  cases fs with
  | nil => exact .inl rfl
  | cons f fs => exact .inr rfl

theorem Readable.read {fs : List (Str × Str × Str)} (h : Readable fs) : ∀ k, fs.length ≤ k →
    fieldsIn k (fieldsText fs) = some (fs.map fun f => (f.1, f.2.2)) := by
  induction h with
  | nil => intro k _; cases k <;> rfl
  | @message name s hm he _ _ =>
    intro k hk
    obtain ⟨k, rfl⟩ : ∃ j, k = j + 1 := ⟨k - 1, by simp at hk; omega⟩
    have e : fieldsText [(name, s, s)] = 0x20 :: (name ++ 0x3d :: s) := by simp [fieldsText]
    have hv : valueIn name s = some (s, []) := by unfold valueIn; exact if_pos hm
    rw [e, fieldsIn]
    have ha : after [0x20] (0x20 :: (name ++ 0x3d :: s)) = some (name ++ 0x3d :: s) := after_cut [0x20] _
    have hf : fieldsIn k [] = some [] := by cases k <;> rfl
    rw [ha, Option.bind_eq_bind, Option.bind_some, upTo_cut he, Option.bind_eq_bind, Option.bind_some]
    simp only [hv, Option.bind_eq_bind, Option.bind_some, hf]
    rfl
    simp
  | @word name p s fs hm he _ _ hw _ ih =>
    intro k hk
    obtain ⟨k, rfl⟩ : ∃ j, k = j + 1 := ⟨k - 1, by simp at hk; omega⟩
    have e : fieldsText ((name, p, s) :: fs) = 0x20 :: (name ++ 0x3d :: (p ++ fieldsText fs)) := by simp [fieldsText]
    have hv : valueIn name (p ++ fieldsText fs) = some (s, fieldsText fs) := by
      unfold valueIn; rw [if_neg (show ¬ (_ ∨ _) from hm)]; exact hw _ (fieldsText_apart fs)
    have ha : after [0x20] (0x20 :: (name ++ 0x3d :: (p ++ fieldsText fs))) = some (name ++ 0x3d :: (p ++ fieldsText fs)) :=
      after_cut [0x20] _
    rw [e, fieldsIn]
    rw [ha, Option.bind_eq_bind, Option.bind_some, upTo_cut he, Option.bind_eq_bind, Option.bind_some]
    simp only [hv, Option.bind_eq_bind, Option.bind_some, ih k (by simp at hk; omega)]
    rfl
    simp

theorem Readable.high {fs : List (Str × Str × Str)} (h : Readable fs) : High (fieldsText fs) := by
  induction h with
  | nil => exact .nil
  | message _ _ h1 h2 =>
    have := (High.cons (b := 0x20) (by decide) h1).append (.cons (b := 0x3d) (by decide) h2)
    simpa [fieldsText] using this
  | word _ _ h1 h2 _ _ ih =>
    have := ((High.cons (b := 0x20) (by decide) h1).append (.cons (b := 0x3d) (by decide) h2)).append ih
    simpa [fieldsText] using this

theorem fieldsText_length (fs : List (Str × Str × Str)) : fs.length ≤ (fieldsText fs).length := by
  induction fs with
  | nil => exact Nat.le_refl _
  | cons f fs ih => simp only [fieldsText, List.flatMap_cons, List.length_append, List.length_cons] at ih ⊢; omega

/-- A line is read as its parts. -/
theorem line_read {time lv c m : Str} {fs : List (Str × Str × Str)} (ht : (0x20 : UInt8) ∉ time)
    (hl : (0x20 : UInt8) ∉ lv) (h5 : lv.length ≤ 5) (hc : (0x20 : UInt8) ∉ c) (hm : (0x7c : UInt8) ∉ m) (hf : Readable fs) :
    lineIn (time ++ 0x20 :: ([0x7c, 0x20] ++ lv ++ List.replicate (6 - lv.length) 0x20 ++ [0x7c]) ++ 0x20 :: c ++ [0x20, 0x3e, 0x20] ++
      m ++ [0x20, 0x7c] ++ fieldsText fs) = some ⟨time, lv, c, m, fs.map fun f => (f.1, f.2.2)⟩ := by
  have e : time ++ 0x20 :: ([0x7c, 0x20] ++ lv ++ List.replicate (6 - lv.length) 0x20 ++ [0x7c]) ++ 0x20 :: c ++ [0x20, 0x3e, 0x20] ++
      m ++ [0x20, 0x7c] ++ fieldsText fs = time ++ 0x20 :: ([0x7c, 0x20] ++ (lv ++ 0x20 :: (List.replicate (5 - lv.length) 0x20 ++
        ([0x7c, 0x20] ++ (c ++ 0x20 :: ([0x3e, 0x20] ++ ((m ++ [0x20]) ++ 0x7c :: fieldsText fs))))))) := by
    rw [show 6 - lv.length = (5 - lv.length) + 1 by omega, List.replicate_succ]
    simp
  have dw : ∀ (k : Nat) (r : List UInt8), (List.replicate k 0x20 ++ ([0x7c, 0x20] ++ r)).dropWhile (· = 0x20) = [0x7c, 0x20] ++ r := by
    intro k r
    induction k with
    | zero => simp
    | succ k ih => simp [List.replicate_succ] at ih ⊢
  have hm' : (0x7c : UInt8) ∉ m ++ [0x20] := by
    intro h
    rcases List.mem_append.1 h with h | h
    · exact hm h
    · revert h; decide
  rw [e, lineIn, upTo_cut ht]
  simp only [Option.bind_eq_bind, Option.bind_some]
  rw [after_cut]
  simp only [Option.bind_some]
  rw [upTo_cut hl]
  simp only [Option.bind_some]
  rw [dw, after_cut]
  simp only [Option.bind_some]
  rw [upTo_cut hc]
  simp only [Option.bind_some]
  rw [after_cut]
  simp only [Option.bind_some]
  rw [upTo_cut hm']
  simp only [Option.bind_some]
  rw [hf.read _ (fieldsText_length fs)]
  simp

/-- The lines of a file made of lines. -/
theorem linesIn_cut {s : List UInt8} (h : High s) (acc r : List UInt8) : linesIn acc (s ++ 0x0a :: r) = (acc ++ s) :: linesIn [] r := by
  induction s generalizing acc with
  | nil => simp [linesIn]
  | cons b s ih =>
    have hb : b ≠ 0x0a := by
      have := h b List.mem_cons_self
      rintro rfl
      revert this; decide
    rw [List.cons_append, linesIn, if_neg hb, ih fun x hx => h x (List.mem_cons_of_mem _ hx), List.append_assoc]
    rfl

end JT808
