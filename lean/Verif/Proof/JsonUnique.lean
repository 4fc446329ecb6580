import Verif.Proof.Json
/-
A JSON text denotes one value.
-/
namespace JT808
open Spec

theorem utf8Of_head {n : Nat} {b : UInt8} {r r' : List UInt8} (hn : Scalar n) (h : utf8Of n ++ r = b :: r')
    (hb : b.toNat < 0x80) : n = b.toNat ∧ r = r' := by
  have e : utf8Of b.toNat = [b] := by
    unfold utf8Of; rw [if_pos hb, UInt8.ofNat_toNat]
  exact utf8Of_prefix hn (by unfold Scalar; omega) (h.trans (by rw [e]; rfl))

theorem shortEscapes_fun : ∀ p ∈ shortEscapes, ∀ q ∈ shortEscapes, p.1 = q.1 → p.2 = q.2 := by decide

theorem shortEscapes_u : ∀ p ∈ shortEscapes, p.1 ≠ 0x75 := by decide

theorem jchar_prefix {u u' r r' : List UInt8} {n n' : Nat} (h : JChar u n) (h' : JChar u' n') (e : u ++ r = u' ++ r') :
    n = n' ∧ r = r' ∧ u = u' := by
  have hbs : UInt8.toNat 0x5c = 0x5c := rfl
  cases h with
  | plain hn h1 h2 h3 =>
    cases h' with
    | plain hm _ _ _ =>
      obtain ⟨rfl, rfl⟩ := utf8Of_prefix hn hm e
      exact ⟨rfl, rfl, rfl⟩
    | short _ => exact absurd (utf8Of_head hn e (by decide)).1 h3
    | hex _ _ _ _ _ => exact absurd (utf8Of_head hn e (by decide)).1 h3
  | short hm =>
    cases h' with
    | plain hn _ _ h3 => exact absurd (utf8Of_head hn e.symm (by decide)).1 h3
    | short hm' =>
      simp only [List.cons_append, List.nil_append, List.cons.injEq, true_and] at e
      obtain ⟨rfl, rfl⟩ := e
      exact ⟨shortEscapes_fun _ hm _ hm' rfl, rfl, rfl⟩
    | hex _ _ _ _ _ =>
      simp only [List.cons_append, List.nil_append, List.cons.injEq, true_and] at e
      exact absurd e.1 (shortEscapes_u _ hm)
  | hex ha hb hc hd _ =>
    cases h' with
    | plain hn _ _ h3 => exact absurd (utf8Of_head hn e.symm (by decide)).1 h3
    | short hm =>
      simp only [List.cons_append, List.nil_append, List.cons.injEq, true_and] at e
      exact absurd e.1.symm (shortEscapes_u _ hm)
    | hex ha' hb' hc' hd' _ =>
      simp only [List.cons_append, List.nil_append, List.cons.injEq, true_and] at e
      obtain ⟨rfl, rfl, rfl, rfl, rfl⟩ := e
      rw [ha] at ha'; rw [hb] at hb'; rw [hc] at hc'; rw [hd] at hd'
      cases ha'; cases hb'; cases hc'; cases hd'
      exact ⟨rfl, rfl, rfl⟩

theorem jchar_not_quote {u r r' : List UInt8} {n : Nat} (h : JChar u n) : u ++ r ≠ 0x22 :: r' := by
  intro e
  cases h with
  | plain hn h1 h2 h3 => exact absurd (utf8Of_head hn e (by decide)).1 h2
  | short _ => simp at e
  | hex _ _ _ _ _ => simp at e

theorem jchars_prefix {s s' r r' : List UInt8} {t t' : List Nat} (h : JChars s t) (h' : JChars s' t')
    (e : s ++ 0x22 :: r = s' ++ 0x22 :: r') : t = t' ∧ r = r' ∧ s = s' := by
  induction h generalizing s' t' with
  | nil =>
    cases h' with
    | nil => exact ⟨rfl, List.cons.inj e |>.2, rfl⟩
    | cons hc _ => rw [List.append_assoc] at e; exact absurd e.symm (jchar_not_quote hc)
  | cons hc _ ih =>
    cases h' with
    | nil => rw [List.append_assoc] at e; exact absurd e (jchar_not_quote hc)
    | cons hc' ht' =>
      rw [List.append_assoc, List.append_assoc] at e
      obtain ⟨rfl, e2, rfl⟩ := jchar_prefix hc hc' e
      obtain ⟨rfl, rfl, rfl⟩ := ih ht' e2
      exact ⟨rfl, rfl, rfl⟩

/-- A decimal digit. -/
def IsDigit (b : UInt8) : Prop := 0x30 ≤ b.toNat ∧ b.toNat ≤ 0x39

/-- The text goes on with something that is not a digit, or ends. -/
def Halts (r : List UInt8) : Prop := ∀ b r', r = b :: r' → ¬ IsDigit b

/-- Nor with a point. -/
def Stops (r : List UInt8) : Prop := ∀ b r', r = b :: r' → ¬ IsDigit b ∧ b ≠ 0x2e

theorem Stops.halts {r : List UInt8} (h : Stops r) : Halts r := fun b r' e => (h b r' e).1

theorem halts_point {r : List UInt8} : Halts (0x2e :: r) := by
  intro b r' e
  injection e with e _
  subst e
  unfold IsDigit
  decide

theorem digits_prefix {s s' r r' : List UInt8} (h : AllDigits s) (h' : AllDigits s') (e : s ++ r = s' ++ r')
    (hr : Halts r) (hr' : Halts r') : s = s' ∧ r = r' := by
  induction s generalizing s' with
  | nil =>
    cases s' with
    | nil => exact ⟨rfl, e⟩
    | cons b s' => exact absurd (h' b List.mem_cons_self) (hr b _ e)
  | cons b s ih =>
    cases s' with
    | nil => exact absurd (h b List.mem_cons_self) (hr' b _ e.symm)
    | cons b' s' =>
      injection e with e1 e2
      obtain ⟨rfl, rfl⟩ := ih (fun x hx => h x (List.mem_cons_of_mem _ hx)) (fun x hx => h' x (List.mem_cons_of_mem _ hx)) e2
      exact ⟨by rw [e1], rfl⟩

theorem jtext_head {s : List UInt8} {v : JVal} (h : JText s v) :
    ∃ b s', s = b :: s' ∧ (IsDigit b ∨ b = 0x22 ∨ b = 0x5b ∨ b = 0x7b ∨ b = 0x2d ∨ b = 0x74 ∨ b = 0x66 ∨ b = 0x6e) := by
  cases h with
  | num h1 h2 _ =>
    cases s with
    | nil => exact absurd rfl h1
    | cons b s => exact ⟨b, s, rfl, .inl (h2 b List.mem_cons_self)⟩
  | @dec s f h1 h2 _ _ _ =>
    cases s with
    | nil => exact absurd rfl h1
    | cons b s => exact ⟨b, s ++ 0x2e :: f, rfl, .inl (h2 b List.mem_cons_self)⟩
  | neg _ _ _ => exact ⟨_, _, rfl, by simp⟩
  | yes => exact ⟨_, _, rfl, by simp⟩
  | no => exact ⟨_, _, rfl, by simp⟩
  | null => exact ⟨_, _, rfl, by simp⟩
  | str _ => exact ⟨_, _, rfl, by simp⟩
  | arr0 => exact ⟨_, _, rfl, by simp⟩
  | arr _ => exact ⟨_, _, rfl, by simp⟩
  | obj0 => exact ⟨_, _, rfl, by simp⟩
  | obj _ => exact ⟨_, _, rfl, by simp⟩

theorem jitems_head {s : List UInt8} {vs : List JVal} (h : JItems s vs) :
    ∃ b s', s = b :: s' ∧ (IsDigit b ∨ b = 0x22 ∨ b = 0x5b ∨ b = 0x7b ∨ b = 0x2d ∨ b = 0x74 ∨ b = 0x66 ∨ b = 0x6e) := by
  cases h with
  | one h => exact jtext_head h
  | more h _ =>
    obtain ⟨b, s', rfl, hb⟩ := jtext_head h
    exact ⟨b, _, rfl, hb⟩

theorem jitems_not_end {s r r' : List UInt8} {vs : List JVal} (h : JItems s vs) : s ++ r ≠ 0x5d :: r' := by
  obtain ⟨b, s', rfl, hb⟩ := jitems_head h
  intro e
  injection e with e _
  subst e
  unfold IsDigit at hb
  revert hb; decide

theorem jmembers_head {s : List UInt8} {kvs : List (List Nat × JVal)} (h : JMembers s kvs) : ∃ s', s = 0x22 :: s' := by
  cases h with
  | one _ _ => exact ⟨_, rfl⟩
  | more _ _ _ => exact ⟨_, rfl⟩

theorem jmembers_not_end {s r r' : List UInt8} {kvs : List (List Nat × JVal)} (h : JMembers s kvs) :
    s ++ r ≠ 0x7d :: r' := by
  obtain ⟨s', rfl⟩ := jmembers_head h
  intro e
  injection e with e _
  revert e; decide

theorem stops_cons {b : UInt8} {r : List UInt8} (h : ¬ IsDigit b ∧ b ≠ 0x2e) : Stops (b :: r) := by
  intro b' r' e
  injection e with e _
  rwa [← e]

theorem stops_comma {r : List UInt8} : Stops (0x2c :: r) := stops_cons (by unfold IsDigit; decide)
theorem stops_bracket {r : List UInt8} : Stops (0x5d :: r) := stops_cons (by unfold IsDigit; decide)
theorem stops_brace {r : List UInt8} : Stops (0x7d :: r) := stops_cons (by unfold IsDigit; decide)

/-- What is to be shown for values, lists and members at the front of a text. -/
def Uni (s : List UInt8) : Prop :=
  ∀ v s' v' r r', JText s v → JText s' v' → s ++ r = s' ++ r' → Stops r → Stops r' → v = v' ∧ r = r' ∧ s = s'

def UniItems (s : List UInt8) : Prop :=
  ∀ vs s' vs' r r', JItems s vs → JItems s' vs' → s ++ 0x5d :: r = s' ++ 0x5d :: r' → vs = vs' ∧ r = r' ∧ s = s'

def UniMembers (s : List UInt8) : Prop :=
  ∀ kvs s' kvs' r r', JMembers s kvs → JMembers s' kvs' → s ++ 0x7d :: r = s' ++ 0x7d :: r' → kvs = kvs' ∧ r = r' ∧ s = s'

theorem digit_ne {b : UInt8} (h : IsDigit b) : b ≠ 0x22 ∧ b ≠ 0x5b ∧ b ≠ 0x7b ∧ b ≠ 0x2d ∧ b ≠ 0x74 ∧ b ≠ 0x66 ∧ b ≠ 0x6e := by
  unfold IsDigit at h
  refine ⟨?_, ?_, ?_, ?_, ?_, ?_, ?_⟩ <;> rintro rfl <;> revert h <;> decide

theorem uni_num {s s' r r' : List UInt8} {v' : JVal} (h1 : s ≠ []) (h2 : AllDigits s) (h' : JText s' v')
    (e : s ++ r = s' ++ r') (hr : Stops r) (hr' : Stops r') :
    JVal.num (decimalValue s) = v' ∧ r = r' ∧ s = s' := by
  cases s with
  | nil => exact absurd rfl h1
  | cons b s =>
    have hd := digit_ne (h2 b List.mem_cons_self)
    cases h' with
    | num _ h3 _ =>
      obtain ⟨rfl, rfl⟩ := digits_prefix h2 h3 e hr.halts hr'.halts
      exact ⟨rfl, rfl, rfl⟩
    | dec _ h3 _ _ _ =>
      rw [List.append_assoc] at e
      obtain ⟨_, e2⟩ := digits_prefix h2 h3 e hr.halts halts_point
      exact absurd rfl (hr _ _ e2).2
    | str _ => exact absurd (List.cons.inj e).1 hd.1
    | arr0 => exact absurd (List.cons.inj e).1 hd.2.1
    | arr _ => exact absurd (List.cons.inj e).1 hd.2.1
    | obj0 => exact absurd (List.cons.inj e).1 hd.2.2.1
    | obj _ => exact absurd (List.cons.inj e).1 hd.2.2.1
    | neg _ _ _ => exact absurd (List.cons.inj e).1 hd.2.2.2.1
    | yes => exact absurd (List.cons.inj e).1 hd.2.2.2.2.1
    | no => exact absurd (List.cons.inj e).1 hd.2.2.2.2.2.1
    | null => exact absurd (List.cons.inj e).1 hd.2.2.2.2.2.2

theorem uni_dec {s f s' r r' : List UInt8} {v' : JVal} (h1 : s ≠ []) (h2 : AllDigits s) (hf : AllDigits f) (h' : JText s' v')
    (e : s ++ 0x2e :: f ++ r = s' ++ r') (hr : Stops r) (hr' : Stops r') :
    JVal.dec (decimalValue (s ++ f)) f.length = v' ∧ r = r' ∧ s ++ 0x2e :: f = s' := by
  cases s with
  | nil => exact absurd rfl h1
  | cons b s =>
    have hd := digit_ne (h2 b List.mem_cons_self)
    cases h' with
    | num _ h3 _ =>
      rw [List.append_assoc] at e
      obtain ⟨_, e2⟩ := digits_prefix h2 h3 e halts_point hr'.halts
      exact absurd rfl (hr' _ _ e2.symm).2
    | dec _ h3 _ _ h4 =>
      rw [List.append_assoc, List.append_assoc] at e
      obtain ⟨rfl, e2⟩ := digits_prefix h2 h3 e halts_point halts_point
      obtain ⟨rfl, rfl⟩ := digits_prefix hf h4 (List.cons.inj e2).2 hr.halts hr'.halts
      exact ⟨rfl, rfl, rfl⟩
    | str _ => exact absurd (List.cons.inj e).1 hd.1
    | arr0 => exact absurd (List.cons.inj e).1 hd.2.1
    | arr _ => exact absurd (List.cons.inj e).1 hd.2.1
    | obj0 => exact absurd (List.cons.inj e).1 hd.2.2.1
    | obj _ => exact absurd (List.cons.inj e).1 hd.2.2.1
    | neg _ _ _ => exact absurd (List.cons.inj e).1 hd.2.2.2.1
    | yes => exact absurd (List.cons.inj e).1 hd.2.2.2.2.1
    | no => exact absurd (List.cons.inj e).1 hd.2.2.2.2.2.1
    | null => exact absurd (List.cons.inj e).1 hd.2.2.2.2.2.2

theorem uni_step (s : List UInt8) (hi : ∀ s', s'.length < s.length → UniItems s' ∧ UniMembers s') : Uni s := by
  intro v s' v' r r' h h' e hr hr'
  have num' : ∀ {x : List UInt8} {w : JVal}, JText x w → x ++ r = s' ++ r' → s' ≠ [] → AllDigits s' →
      w = JVal.num (decimalValue s') ∧ r = r' ∧ x = s' := by
    intro x w hx ex h1 h2
    obtain ⟨a, b, c⟩ := uni_num h1 h2 hx ex.symm hr' hr
    exact ⟨a.symm, b.symm, c.symm⟩
  have dec' : ∀ {x y f : List UInt8} {w : JVal}, JText x w → x ++ r = y ++ 0x2e :: f ++ r' → y ≠ [] → AllDigits y →
      AllDigits f → w = JVal.dec (decimalValue (y ++ f)) f.length ∧ r = r' ∧ x = y ++ 0x2e :: f := by
    intro x y f w hx ex h1 h2 hf
    obtain ⟨a, b, c⟩ := uni_dec h1 h2 hf hx ex.symm hr' hr
    exact ⟨a.symm, b.symm, c.symm⟩
  cases h with
  | num h1 h2 _ => exact uni_num h1 h2 h' e hr hr'
  | dec h1 h2 _ _ hf => exact uni_dec h1 h2 hf h' e hr hr'
  | yes =>
    cases h' with
    | num h1 h2 _ => exact num' .yes e h1 h2
    | dec h1 h2 _ _ hf => exact dec' .yes e h1 h2 hf
    | yes => simpa using e
    | _ => simp [quoted] at e
  | no =>
    cases h' with
    | num h1 h2 _ => exact num' .no e h1 h2
    | dec h1 h2 _ _ hf => exact dec' .no e h1 h2 hf
    | no => simpa using e
    | _ => simp [quoted] at e
  | null =>
    cases h' with
    | num h1 h2 _ => exact num' .null e h1 h2
    | dec h1 h2 _ _ hf => exact dec' .null e h1 h2 hf
    | null => simpa using e
    | _ => simp [quoted] at e
  | neg h1 h2 h3 =>
    cases h' with
    | num k1 k2 _ => exact num' (.neg h1 h2 h3) e k1 k2
    | dec k1 k2 _ _ hf => exact dec' (.neg h1 h2 h3) e k1 k2 hf
    | neg _ k2 _ =>
      obtain ⟨rfl, rfl⟩ := digits_prefix h2 k2 (List.cons.inj e).2 hr.halts hr'.halts
      exact ⟨rfl, rfl, rfl⟩
    | _ => simp [quoted] at e
  | str ht =>
    cases h' with
    | num h1 h2 _ => exact num' (.str ht) e h1 h2
    | dec h1 h2 _ _ hf => exact dec' (.str ht) e h1 h2 hf
    | str ht' =>
      simp only [quoted, List.cons_append, List.append_assoc, List.cons.injEq, true_and, List.nil_append] at e
      obtain ⟨rfl, rfl, rfl⟩ := jchars_prefix ht ht' e
      exact ⟨rfl, rfl, rfl⟩
    | arr0 => simp [quoted] at e
    | arr _ => simp [quoted] at e
    | obj0 => simp [quoted] at e
    | obj _ => simp [quoted] at e
    | _ => simp [quoted] at e
  | arr0 =>
    cases h' with
    | num h1 h2 _ => exact num' .arr0 e h1 h2
    | dec h1 h2 _ _ hf => exact dec' .arr0 e h1 h2 hf
    | str _ => simp [quoted] at e
    | arr0 => simpa using e
    | arr hs =>
      simp only [List.cons_append, List.append_assoc, List.cons.injEq, true_and, List.nil_append] at e
      exact absurd e.symm (jitems_not_end hs)
    | obj0 => simp at e
    | obj _ => simp at e
    | _ => simp at e
  | @arr s1 vs hs1 =>
    cases h' with
    | num h1 h2 _ => exact num' (.arr hs1) e h1 h2
    | dec h1 h2 _ _ hf => exact dec' (.arr hs1) e h1 h2 hf
    | str _ => simp [quoted] at e
    | arr0 =>
      simp only [List.cons_append, List.append_assoc, List.cons.injEq, true_and, List.nil_append] at e
      exact absurd e (jitems_not_end hs1)
    | arr hs =>
      simp only [List.cons_append, List.append_assoc, List.cons.injEq, true_and, List.nil_append] at e
      obtain ⟨rfl, rfl, rfl⟩ := (hi s1 (by simp; omega)).1 _ _ _ _ _ hs1 hs e
      exact ⟨rfl, rfl, rfl⟩
    | obj0 => simp at e
    | obj _ => simp at e
    | _ => simp at e
  | obj0 =>
    cases h' with
    | num h1 h2 _ => exact num' .obj0 e h1 h2
    | dec h1 h2 _ _ hf => exact dec' .obj0 e h1 h2 hf
    | str _ => simp [quoted] at e
    | arr0 => simp at e
    | arr _ => simp at e
    | obj0 => simpa using e
    | obj hs =>
      simp only [List.cons_append, List.append_assoc, List.cons.injEq, true_and, List.nil_append] at e
      exact absurd e.symm (jmembers_not_end hs)
    | _ => simp at e
  | @obj s1 kvs hs1 =>
    cases h' with
    | num h1 h2 _ => exact num' (.obj hs1) e h1 h2
    | dec h1 h2 _ _ hf => exact dec' (.obj hs1) e h1 h2 hf
    | str _ => simp [quoted] at e
    | arr0 => simp at e
    | arr _ => simp at e
    | obj0 =>
      simp only [List.cons_append, List.append_assoc, List.cons.injEq, true_and, List.nil_append] at e
      exact absurd e (jmembers_not_end hs1)
    | obj hs =>
      simp only [List.cons_append, List.append_assoc, List.cons.injEq, true_and, List.nil_append] at e
      obtain ⟨rfl, rfl, rfl⟩ := (hi s1 (by simp; omega)).2 _ _ _ _ _ hs1 hs e
      exact ⟨rfl, rfl, rfl⟩
    | _ => simp at e

theorem uniItems_step (s : List UInt8) (hu : ∀ s', s'.length ≤ s.length → Uni s')
    (hi : ∀ s', s'.length < s.length → UniItems s') : UniItems s := by
  intro vs s' vs' r r' h h' e
  cases h with
  | one h1 =>
    cases h' with
    | one h2 =>
      obtain ⟨rfl, e2, rfl⟩ := hu _ (Nat.le_refl _) _ _ _ _ _ h1 h2 e stops_bracket stops_bracket
      exact ⟨rfl, (List.cons.inj e2).2, rfl⟩
    | more h2 _ =>
      rw [List.append_assoc] at e
      obtain ⟨_, e2, _⟩ := hu _ (Nat.le_refl _) _ _ _ _ _ h1 h2 e stops_bracket stops_comma
      simp at e2
  | more h1 h3 =>
    rw [List.append_assoc] at e
    cases h' with
    | one h2 =>
      obtain ⟨_, e2, _⟩ := hu _ (by simp) _ _ _ _ _ h1 h2 e stops_comma stops_bracket
      simp at e2
    | more h2 h4 =>
      rw [List.append_assoc] at e
      obtain ⟨rfl, e2, rfl⟩ := hu _ (by simp) _ _ _ _ _ h1 h2 e stops_comma stops_comma
      obtain ⟨rfl, rfl, rfl⟩ := hi _ (by simp; omega) _ _ _ _ _ h3 h4 (List.cons.inj e2).2
      exact ⟨rfl, rfl, rfl⟩

theorem uniMembers_step (s : List UInt8) (hu : ∀ s', s'.length ≤ s.length → Uni s')
    (hi : ∀ s', s'.length < s.length → UniMembers s') : UniMembers s := by
  intro vs s' vs' r r' h h' e
  cases h with
  | one k1 h1 =>
    cases h' with
    | one k2 h2 =>
      simp only [quoted, List.cons_append, List.append_assoc, List.cons.injEq, true_and, List.nil_append] at e
      obtain ⟨rfl, e1, rfl⟩ := jchars_prefix k1 k2 e
      obtain ⟨rfl, e2, rfl⟩ := hu _ (by simp; omega) _ _ _ _ _ h1 h2 (List.cons.inj e1).2 stops_brace stops_brace
      exact ⟨rfl, (List.cons.inj e2).2, rfl⟩
    | more k2 h2 _ =>
      simp only [quoted, List.cons_append, List.append_assoc, List.cons.injEq, true_and, List.nil_append] at e
      obtain ⟨rfl, e1, rfl⟩ := jchars_prefix k1 k2 e
      obtain ⟨_, e2, _⟩ := hu _ (by simp; omega) _ _ _ _ _ h1 h2 (List.cons.inj e1).2 stops_brace stops_comma
      simp at e2
  | more k1 h1 h3 =>
    cases h' with
    | one k2 h2 =>
      simp only [quoted, List.cons_append, List.append_assoc, List.cons.injEq, true_and, List.nil_append] at e
      obtain ⟨rfl, e1, rfl⟩ := jchars_prefix k1 k2 e
      obtain ⟨_, e2, _⟩ := hu _ (by simp; omega) _ _ _ _ _ h1 h2 (List.cons.inj e1).2 stops_comma stops_brace
      simp at e2
    | more k2 h2 h4 =>
      simp only [quoted, List.cons_append, List.append_assoc, List.cons.injEq, true_and, List.nil_append] at e
      obtain ⟨rfl, e1, rfl⟩ := jchars_prefix k1 k2 e
      obtain ⟨rfl, e2, rfl⟩ := hu _ (by simp; omega) _ _ _ _ _ h1 h2 (List.cons.inj e1).2 stops_comma stops_comma
      obtain ⟨rfl, rfl, rfl⟩ := hi _ (by simp; omega) _ _ _ _ _ h3 h4 (List.cons.inj e2).2
      exact ⟨rfl, rfl, rfl⟩

theorem uni_all (n : Nat) : ∀ s : List UInt8, s.length ≤ n → Uni s ∧ UniItems s ∧ UniMembers s := by
  induction n using Nat.strongRecOn with
  | _ n ih =>
    have hlt : ∀ s' : List UInt8, s'.length < n → Uni s' ∧ UniItems s' ∧ UniMembers s' :=
      fun s' h => ih s'.length h s' (Nat.le_refl _)
    have hu : ∀ s : List UInt8, s.length ≤ n → Uni s := by
      intro s hs
      exact uni_step s fun s' h' => (hlt s' (by omega)).2
    intro s hs
    exact ⟨hu s hs, uniItems_step s (fun s' h' => hu s' (by omega)) (fun s' h' => (hlt s' (by omega)).2.1),
      uniMembers_step s (fun s' h' => hu s' (by omega)) (fun s' h' => (hlt s' (by omega)).2.2)⟩

/-- A text denotes one value at most. -/
theorem jtext_unique {s : List UInt8} {v v' : JVal} (h : JText s v) (h' : JText s v') : v = v' := by
  have hs : Stops [] := by intro b r e; cases e
  exact ((uni_all s.length s (Nat.le_refl _)).1 v s v' [] [] h h' rfl hs hs).1

end JT808
