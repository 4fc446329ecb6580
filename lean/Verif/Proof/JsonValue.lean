import Verif.Proof.JsonRead
/-
Reading numbers, lists and objects.
-/
namespace JT808
open Spec

/-! ### Numbers -/

theorem jsonDigit_iff (b : UInt8) : jsonDigit b = true ↔ IsDigit b := by
  have e30 : UInt8.toNat 0x30 = 0x30 := rfl
  have e39 : UInt8.toNat 0x39 = 0x39 := rfl
  unfold jsonDigit IsDigit
  rw [Bool.and_eq_true, decide_eq_true_eq, decide_eq_true_eq, UInt8.le_iff_toNat_le, UInt8.le_iff_toNat_le, e30, e39]

theorem digitsVal_eq (s : Str) : digitsVal s = decimalValue s := rfl

/-- What follows does not go on with a digit, a point or an exponent. -/
def Parted (r : List UInt8) : Prop := ∀ b r', r = b :: r' → ¬ IsDigit b ∧ b ≠ 0x2e ∧ b ≠ 0x65 ∧ b ≠ 0x45

theorem Parted.halts {r : List UInt8} (h : Parted r) : Halts r := fun b r' e => (h b r' e).1

theorem takeWhile_digits {ds r : List UInt8} (h : AllDigits ds) (hr : Halts r) :
    (ds ++ r).takeWhile jsonDigit = ds ∧ (ds ++ r).dropWhile jsonDigit = r := by
  induction ds with
  | nil =>
    cases r with
    | nil => exact ⟨rfl, rfl⟩
    | cons b r =>
      have : jsonDigit b = false := Bool.eq_false_iff.2 fun hb => hr b r rfl ((jsonDigit_iff b).1 hb)
      simp [this]
  | cons b ds ih =>
    have hb : jsonDigit b = true := (jsonDigit_iff b).2 (h b List.mem_cons_self)
    have := ih fun x hx => h x (List.mem_cons_of_mem _ hx)
    simp [hb, this]

theorem readDigits_complete {ds r : List UInt8} (h0 : ds ≠ []) (h : AllDigits ds) (hr : Halts r) :
    readDigits (ds ++ r) = some (ds, r) := by
  obtain ⟨e1, e2⟩ := takeWhile_digits h hr
  unfold readDigits
  rw [e1, e2, if_neg h0]

theorem readDigits_sound {s ds r : Str} (h : readDigits s = some (ds, r)) : ds ≠ [] ∧ AllDigits ds ∧ s = ds ++ r := by
  unfold readDigits at h
  split at h
  · cases h
  · rename_i h0
    simp only [Option.some.injEq, Prod.mk.injEq] at h
    obtain ⟨rfl, rfl⟩ := h
    refine ⟨h0, ?_, List.takeWhile_append_dropWhile.symm⟩
    intro b hb
    have := List.all_takeWhile (p := jsonDigit) (l := s)
    exact (jsonDigit_iff b).1 (List.all_eq_true.1 this b hb)

theorem readWhole_complete {i r : List UInt8} (h : WholeText i) (hr : Halts r) : readWhole (i ++ r) = some (i, r) := by
  obtain ⟨h0, hd, hz⟩ := h
  cases i with
  | nil => exact absurd rfl h0
  | cons b i =>
    by_cases hb : b = 0x30
    · subst hb
      have := hz rfl
      obtain rfl : i = [] := List.eq_nil_of_length_eq_zero (by simpa using this)
      rfl
    · have e : readWhole (b :: i ++ r) = readDigits (b :: i ++ r) := by
        unfold readWhole
        split
        · rename_i he
          simp only [List.cons_append, List.cons.injEq] at he
          exact absurd he.1 hb
        · rfl
      rw [e]
      exact readDigits_complete (by simp) hd hr

theorem readWhole_sound {s i r : Str} (h : readWhole s = some (i, r)) : WholeText i ∧ s = i ++ r := by
  unfold readWhole at h
  split at h
  · simp only [Option.some.injEq, Prod.mk.injEq] at h
    obtain ⟨rfl, rfl⟩ := h
    refine ⟨⟨by simp, ?_, fun _ => rfl⟩, rfl⟩
    intro b hb
    rw [List.mem_singleton.1 hb]
    decide
  · rename_i hn
    obtain ⟨h0, hd, rfl⟩ := readDigits_sound h
    refine ⟨⟨h0, hd, ?_⟩, rfl⟩
    intro he
    cases i with
    | nil => exact absurd rfl h0
    | cons b i =>
      simp only [List.head?_cons, Option.some.injEq] at he
      subst he
      exact absurd rfl (hn _)

theorem readFraction_complete {fs f r : List UInt8} (h : FractionText fs f) (hr : Halts r)
    (hp : ∀ r', r ≠ 0x2e :: r') : readFraction (fs ++ r) = some (f, r) := by
  rcases h with ⟨rfl, rfl⟩ | ⟨rfl, h0, hd⟩
  · unfold readFraction
    split
    · rename_i he
      exact absurd he (hp _)
    · rfl
  · exact readDigits_complete h0 hd hr

theorem readFraction_sound {s f r : Str} (h : readFraction s = some (f, r)) : ∃ fs, FractionText fs f ∧ s = fs ++ r := by
  unfold readFraction at h
  split at h
  · obtain ⟨h0, hd, rfl⟩ := readDigits_sound h
    exact ⟨_, .inr ⟨rfl, h0, hd⟩, rfl⟩
  · simp only [Option.some.injEq, Prod.mk.injEq] at h
    obtain ⟨rfl, rfl⟩ := h
    exact ⟨[], .inl ⟨rfl, rfl⟩, rfl⟩

/-- The value of an exponent that was read. -/
def expValue : Option (Bool × Nat) → Int
  | none => 0
  | some (false, x) => x
  | some (true, x) => -(x : Int)

theorem digit_not_sign {ds : List UInt8} (h0 : ds ≠ []) (hd : AllDigits ds) (r : Str) :
    readSign (ds ++ r) = (false, ds ++ r) := by
  cases ds with
  | nil => exact absurd rfl h0
  | cons b ds =>
    have hb := hd b List.mem_cons_self
    unfold readSign
    split
    · rename_i he
      injection he with he _
      subst he
      exact absurd hb (by decide)
    · rename_i he
      injection he with he _
      subst he
      exact absurd hb (by decide)
    · rfl

theorem readExponent_complete {es r : List UInt8} {x : Int} (h : ExponentText es x) (hr : Parted r) :
    ∃ o, readExponent (es ++ r) = some (o, r) ∧ expValue o = x ∧ (o = none ↔ es = []) := by
  rcases h with ⟨rfl, rfl⟩ | ⟨e, ds, he, h0, hd, h⟩
  · refine ⟨none, ?_, rfl, by simp⟩
    cases r with
    | nil => rfl
    | cons b r =>
      have := hr b r rfl
      simp only [List.nil_append, readExponent]
      rw [if_neg (by simp [this.2.2.1, this.2.2.2])]
  · have hrd := readDigits_complete h0 hd hr.halts
    rcases h with ⟨h | h, rfl⟩ | ⟨h, rfl⟩
    · subst h
      refine ⟨some (false, decimalValue ds), ?_, rfl, by simp⟩
      simp only [List.cons_append, readExponent, digit_not_sign h0 hd, hrd]
      rw [if_pos he]; rfl
    · subst h
      refine ⟨some (false, decimalValue ds), ?_, rfl, by simp⟩
      have : readSign (0x2b :: (ds ++ r)) = (false, ds ++ r) := rfl
      simp only [List.cons_append, readExponent, this, hrd]
      rw [if_pos he]; rfl
    · subst h
      refine ⟨some (true, decimalValue ds), ?_, rfl, by simp⟩
      have : readSign (0x2d :: (ds ++ r)) = (true, ds ++ r) := rfl
      simp only [List.cons_append, readExponent, this, hrd]
      rw [if_pos he]; rfl

theorem readExponent_sound {s r : Str} {o : Option (Bool × Nat)} (h : readExponent s = some (o, r)) :
    ∃ es, ExponentText es (expValue o) ∧ s = es ++ r ∧ (o = none ↔ es = []) := by
  unfold readExponent at h
  split at h
  · simp only [Option.some.injEq, Prod.mk.injEq] at h
    obtain ⟨rfl, rfl⟩ := h
    exact ⟨[], .inl ⟨rfl, rfl⟩, rfl, by simp⟩
  · rename_i b s
    split at h
    · rename_i hb
      split at h
      · cases h
      · rename_i ds r' hd
        obtain ⟨h0, hdig, e⟩ := readDigits_sound hd
        simp only [Option.some.injEq, Prod.mk.injEq] at h
        obtain ⟨rfl, rfl⟩ := h
        have : (s = ds ++ r' ∨ s = 0x2b :: (ds ++ r')) ∧ (readSign s).1 = false ∨
            s = 0x2d :: (ds ++ r') ∧ (readSign s).1 = true := by
          unfold readSign at e ⊢
          split
          · rename_i s
            simp only at e
            exact .inl ⟨.inr (by rw [e]), rfl⟩
          · simp only at e
            exact .inr ⟨by rw [e], rfl⟩
          · simp only at e
            exact .inl ⟨.inl e, rfl⟩
        rcases this with ⟨hs | hs, hf⟩ | ⟨hs, hf⟩
        · refine ⟨b :: ds, .inr ⟨b, ds, hb, h0, hdig, .inl ⟨.inl rfl, ?_⟩⟩, by rw [hs]; rfl, by simp⟩
          rw [hf]; rfl
        · refine ⟨b :: 0x2b :: ds, .inr ⟨b, ds, hb, h0, hdig, .inl ⟨.inr rfl, ?_⟩⟩, by rw [hs]; rfl, by simp⟩
          rw [hf]; rfl
        · refine ⟨b :: 0x2d :: ds, .inr ⟨b, ds, hb, h0, hdig, .inr ⟨rfl, ?_⟩⟩, by rw [hs]; rfl, by simp⟩
          rw [hf]; rfl
    · simp only [Option.some.injEq, Prod.mk.injEq] at h
      obtain ⟨rfl, rfl⟩ := h
      exact ⟨[], .inl ⟨rfl, rfl⟩, rfl, by simp⟩

theorem floor_unique {w m p : Nat} (hp : 0 < p) : (w * p ≤ m ∧ m < (w + 1) * p) ↔ w = m / p := by
  constructor
  · rintro ⟨h1, h2⟩
    have a := (Nat.le_div_iff_mul_le hp).2 h1
    have b := (Nat.div_lt_iff_lt_mul hp).2 h2
    omega
  · rintro rfl
    exact ⟨Nat.div_mul_le_self m p, (Nat.div_lt_iff_lt_mul hp).1 (Nat.lt_succ_self _)⟩

/-- The whole part as `numberValue` computes it. -/
def wholeOf (m k : Nat) : Option (Bool × Nat) → Nat
  | some (false, x) => m * 10 ^ x / 10 ^ k
  | some (true, x) => m / 10 ^ (k + x)
  | none => m / 10 ^ k

theorem ten_pos (k : Nat) : 0 < 10 ^ k := Nat.pos_of_ne_zero (by simp)

theorem wholePart_iff (w m : Nat) (x : Int) :
    WholePart w m x ↔ w = if 0 ≤ x then m * 10 ^ x.toNat else m / 10 ^ (-x).toNat := by
  unfold WholePart
  by_cases hx : 0 ≤ x
  · rw [if_pos hx]
    exact ⟨fun h => h.1 hx, fun h => ⟨fun _ => h, fun hn => by omega⟩⟩
  · rw [if_neg hx]
    rw [← floor_unique (ten_pos _)]
    exact ⟨fun h => h.2 (by omega), fun h => ⟨fun hp => absurd hp hx, fun _ => h⟩⟩

theorem wholePart_wholeOf (w m k : Nat) (o : Option (Bool × Nat)) :
    WholePart w m (expValue o - k) ↔ w = wholeOf m k o := by
  rw [wholePart_iff]
  have back : ∀ n : Nat, (if 0 ≤ (-(n : Int)) then m * 10 ^ (-(n : Int)).toNat else m / 10 ^ (-(-(n : Int))).toNat) =
      m / 10 ^ n := by
    intro n
    by_cases hn : n = 0
    · subst hn; simp
    · rw [if_neg (by omega)]
      simp
  match o with
  | none =>
    have : expValue none - (k : Int) = -(k : Int) := by show (0 : Int) - k = _; omega
    rw [this, back]; rfl
  | some (true, x) =>
    have : expValue (some (true, x)) - (k : Int) = -((k + x : Nat) : Int) := by show -(x : Int) - k = _; omega
    rw [this, back]; rfl
  | some (false, x) =>
    show (w = if 0 ≤ (x : Int) - k then m * 10 ^ ((x : Int) - k).toNat else m / 10 ^ (-((x : Int) - k)).toNat) ↔
      w = m * 10 ^ x / 10 ^ k
    by_cases h : k ≤ x
    · rw [if_pos (by omega)]
      have e : ((x : Int) - k).toNat = x - k := by omega
      have : m * 10 ^ x / 10 ^ k = m * 10 ^ (x - k) := by
        have : x = (x - k) + k := by omega
        rw [this, Nat.pow_add, ← Nat.mul_assoc, Nat.mul_div_cancel _ (ten_pos k)]
        simp
      rw [e, this]
    · rw [if_neg (by omega)]
      have e : (-((x : Int) - k)).toNat = k - x := by omega
      have : m * 10 ^ x / 10 ^ k = m / 10 ^ (k - x) := by
        have : k = (k - x) + x := by omega
        rw [this, Nat.pow_add, Nat.mul_div_mul_right _ _ (ten_pos x)]
        simp
      rw [e, this]

theorem numberValue_eq (neg : Bool) (i f : Str) (o : Option (Bool × Nat)) :
    numberValue neg i f o = if neg = false ∧ f = [] ∧ o = none then .num (decimalValue i) else
      .frac (if neg then (2 ^ 64 - wholeOf (decimalValue (i ++ f)) f.length o % 2 ^ 64) % 2 ^ 64
        else wholeOf (decimalValue (i ++ f)) f.length o) := by
  unfold numberValue
  split
  · rfl
  · match o with
    | none => rfl
    | some (true, x) => rfl
    | some (false, x) => rfl

theorem signOf_whole {i : List UInt8} (h : WholeText i) (r : Str) : signOf (i ++ r) = (false, i ++ r) := by
  obtain ⟨h0, hd, _⟩ := h
  cases i with
  | nil => exact absurd rfl h0
  | cons b i =>
    unfold signOf
    split
    · rename_i he
      injection he with he _
      subst he
      exact absurd (hd _ List.mem_cons_self) (by decide)
    · rfl

theorem readParts_complete {i fs f es r : List UInt8} {x : Int} (hi : WholeText i) (hf : FractionText fs f)
    (he : ExponentText es x) (hr : Parted r) (neg : Bool) (s : Str)
    (hs : signOf s = (neg, i ++ fs ++ es ++ r)) :
    ∃ o, readNumber s = some (numberValue neg i f o, r) ∧ expValue o = x ∧ (o = none ↔ es = []) := by
  obtain ⟨o, ho, hx, hn⟩ := readExponent_complete he hr
  have hes : ∀ b r', es ++ r = b :: r' → ¬ IsDigit b ∧ b ≠ 0x2e := by
    intro b r' e
    rcases he with ⟨rfl, _⟩ | ⟨c, ds, hc, _, _, h⟩
    · have := hr b r' e
      exact ⟨this.1, this.2.1⟩
    · have : b = c := by
        rcases h with ⟨rfl | rfl, _⟩ | ⟨rfl, _⟩ <;> (injection e with e _; exact e.symm)
      subst this
      rcases hc with rfl | rfl <;> exact ⟨by unfold IsDigit; decide, by decide⟩
  have hfs : Halts (fs ++ (es ++ r)) := by
    intro b r' e
    rcases hf with ⟨rfl, _⟩ | ⟨rfl, _⟩
    · exact (hes b r' e).1
    · injection e with e _
      subst e; unfold IsDigit; decide
  refine ⟨o, ?_, hx, hn⟩
  unfold readNumber
  rw [hs]
  simp only [List.append_assoc]
  rw [readWhole_complete hi hfs]
  simp only
  rw [readFraction_complete hf (fun b r' e => (hes b r' e).1) (fun r' e => (hes _ r' e).2 rfl)]
  simp only
  rw [ho]

theorem readNumber_complete {s r : List UInt8} {j : Json} (h : NumberText s j) (hr : Parted r) :
    readNumber (s ++ r) = some (j, r) := by
  cases h with
  | whole hi =>
    obtain ⟨o, ho, _, hn⟩ := readParts_complete hi (.inl ⟨rfl, rfl⟩) (.inl ⟨rfl, rfl⟩) hr false (s ++ r)
      (by rw [signOf_whole hi]; simp)
    obtain rfl := hn.2 rfl
    rw [ho, numberValue_eq, if_pos ⟨rfl, rfl, rfl⟩]
  | @other neg i fs f es x w n hi hf he hsome hw hn =>
    have hs : signOf ((if neg then [0x2d] else []) ++ i ++ fs ++ es ++ r) = (neg, i ++ fs ++ es ++ r) := by
      cases neg with
      | true => rfl
      | false =>
        simp only [Bool.false_eq_true, if_false, List.nil_append, List.append_assoc]
        exact signOf_whole hi _
    obtain ⟨o, ho, hx, ho'⟩ := readParts_complete hi hf he hr neg _ hs
    rw [ho, numberValue_eq, if_neg]
    · rw [← hx] at hw
      have := (wholePart_wholeOf _ _ _ _).1 hw
      rw [← this]
      rcases hn with ⟨rfl, rfl⟩ | ⟨rfl, h1, h2⟩
      · rfl
      · have : (2 ^ 64 - w % 2 ^ 64) % 2 ^ 64 = n := by omega
        rw [if_pos rfl, this]
    · rintro ⟨rfl, rfl, h⟩
      rcases hsome with h' | h' | h'
      · cases h'
      · rcases hf with ⟨rfl, _⟩ | ⟨_, h0, _⟩
        · exact h' rfl
        · exact h0 rfl
      · exact h' (ho'.1 h)

theorem readNumber_sound {s r : Str} {j : Json} (h : readNumber s = some (j, r)) : ∃ t, NumberText t j ∧ s = t ++ r := by
  unfold readNumber at h
  split at h
  · cases h
  rename_i i s1 h1
  split at h
  · cases h
  rename_i f s2 h2
  split at h
  · cases h
  rename_i o s3 h3
  simp only [Option.some.injEq, Prod.mk.injEq] at h
  obtain ⟨rfl, rfl⟩ := h
  obtain ⟨hi, e1⟩ := readWhole_sound h1
  obtain ⟨fs, hf, rfl⟩ := readFraction_sound h2
  obtain ⟨es, he, rfl, ho⟩ := readExponent_sound h3
  have hs : s = (if (signOf s).1 then [0x2d] else []) ++ (signOf s).2 := by
    unfold signOf
    split <;> rfl
  generalize (signOf s).1 = neg at hs ⊢
  rw [e1] at hs
  rw [numberValue_eq]
  by_cases hc : neg = false ∧ f = [] ∧ o = none
  · rw [if_pos hc]
    obtain ⟨rfl, rfl, rfl⟩ := hc
    obtain rfl := ho.1 rfl
    obtain rfl : fs = [] := by
      rcases hf with ⟨rfl, _⟩ | ⟨_, h0, _⟩
      · rfl
      · exact absurd rfl h0
    exact ⟨i, .whole hi, by simpa using hs⟩
  · rw [if_neg hc]
    refine ⟨(if neg then [0x2d] else []) ++ i ++ fs ++ es,
      .other (w := wholeOf (decimalValue (i ++ f)) f.length o) hi hf he ?_ ((wholePart_wholeOf _ _ _ _).2 rfl) ?_,
      by rw [hs]; simp⟩
    · cases neg with
      | true => exact .inl rfl
      | false =>
        right
        by_cases h0 : fs = []
        · right
          intro hes
          subst h0
          apply hc
          refine ⟨rfl, ?_, ho.2 hes⟩
          rcases hf with ⟨_, h⟩ | ⟨h, _⟩
          · exact h
          · cases h
        · exact .inl h0
    · cases neg with
      | false => exact .inl ⟨rfl, rfl⟩
      | true =>
        right
        refine ⟨rfl, ?_, ?_⟩
        · rw [if_pos rfl]; omega
        · rw [if_pos rfl]; omega

/-! ### Words and texts -/

/-- A number goes on with whatever digits follow it. -/
def IsNumber (j : Json) : Prop := ∃ n, j = .num n ∨ j = .frac n

theorem number_isNumber {s : List UInt8} {j : Json} (h : NumberText s j) : IsNumber j := by
  cases h with
  | whole => exact ⟨_, .inl rfl⟩
  | other => exact ⟨_, .inr rfl⟩

theorem number_head {s : List UInt8} {j : Json} (h : NumberText s j) : ∃ b t, s = b :: t ∧ (IsDigit b ∨ b = 0x2d) := by
  have dig : ∀ i, WholeText i → ∀ t, ∃ b t', i ++ t = b :: t' ∧ (IsDigit b ∨ b = 0x2d) := by
    rintro i ⟨h0, hd, _⟩ t
    cases i with
    | nil => exact absurd rfl h0
    | cons b i => exact ⟨b, i ++ t, rfl, .inl (hd b List.mem_cons_self)⟩
  cases h with
  | whole hi => simpa using dig _ hi []
  | @other neg i fs f es x w n hi =>
    cases neg with
    | true => exact ⟨0x2d, i ++ fs ++ es, rfl, .inr rfl⟩
    | false =>
      have := dig i hi (fs ++ es)
      simpa using this

theorem readAtom_number {b : UInt8} (hb : IsDigit b ∨ b = 0x2d) (s : Str) : readAtom (b :: s) = readNumber (b :: s) := by
  have no : ∀ c : UInt8, ¬ (IsDigit c ∨ c = 0x2d) → b ≠ c := fun c hc e => hc (e ▸ hb)
  unfold readAtom
  split
  · rename_i he; injection he with he _
    exact absurd he (no _ (by unfold IsDigit; decide))
  · rename_i he; injection he with he _
    exact absurd he (no _ (by unfold IsDigit; decide))
  · rename_i he; injection he with he _
    exact absurd he (no _ (by unfold IsDigit; decide))
  · rename_i he; injection he with he _
    exact absurd he (no _ (by unfold IsDigit; decide))
  · rfl

theorem readAtom_complete {s r : List UInt8} {j : Json} (h : Atom LString s j) (hr : IsNumber j → Parted r) :
    readAtom (s ++ r) = some (j, r) := by
  cases h with
  | null => rfl
  | true => rfl
  | false => rfl
  | num h =>
    have := readNumber_complete h (hr (number_isNumber h))
    obtain ⟨b, t, rfl, hb⟩ := number_head h
    rw [List.cons_append, readAtom_number hb, ← List.cons_append, this]
  | @str s t h =>
    have := readStr_complete h r
    show readAtom (0x22 :: (s ++ [0x22] ++ r)) = _
    rw [List.append_assoc, List.singleton_append]
    unfold readAtom
    simp only [this]

theorem readAtom_sound {s r : Str} {j : Json} (h : readAtom s = some (j, r)) : ∃ t, Atom LString t j ∧ s = t ++ r := by
  unfold readAtom at h
  split at h
  · split at h
    · cases h
    · rename_i t r' ht
      simp only [Option.some.injEq, Prod.mk.injEq] at h
      obtain ⟨rfl, rfl⟩ := h
      obtain ⟨x, hx, rfl⟩ := readStr_sound ht
      exact ⟨_, .str hx, by simp [quoted]⟩
  · simp only [Option.some.injEq, Prod.mk.injEq] at h
    obtain ⟨rfl, rfl⟩ := h
    exact ⟨_, .null, rfl⟩
  · simp only [Option.some.injEq, Prod.mk.injEq] at h
    obtain ⟨rfl, rfl⟩ := h
    exact ⟨_, .true, rfl⟩
  · simp only [Option.some.injEq, Prod.mk.injEq] at h
    obtain ⟨rfl, rfl⟩ := h
    exact ⟨_, .false, rfl⟩
  · obtain ⟨t, ht, e⟩ := readNumber_sound h
    exact ⟨t, .num ht, e⟩

/-- A byte a value may begin with. -/
def Opens (b : UInt8) : Prop := jsonSpace b = false ∧ b ≠ 0x5d ∧ b ≠ 0x7d

theorem digit_opens {b : UInt8} (h : IsDigit b ∨ b = 0x2d) : Opens b ∧ b ≠ 0x5b ∧ b ≠ 0x7b := by
  have no : ∀ c : UInt8, ¬ (IsDigit c ∨ c = 0x2d) → b ≠ c := fun c hc e => hc (e ▸ h)
  refine ⟨⟨Bool.eq_false_iff.2 ?_, no _ ?_, no _ ?_⟩, no _ ?_, no _ ?_⟩
  · intro hs
    rcases (jsonSpace_iff b).1 hs with rfl | rfl | rfl | rfl <;> revert h <;> unfold IsDigit <;> decide
  all_goals (unfold IsDigit; decide)

theorem atom_head {S : List UInt8 → List UInt8 → Prop} {s : List UInt8} {j : Json} (h : Atom S s j) :
    ∃ b t, s = b :: t ∧ Opens b ∧ b ≠ 0x5b ∧ b ≠ 0x7b := by
  cases h with
  | null => exact ⟨_, _, rfl, by unfold Opens; decide, by decide, by decide⟩
  | true => exact ⟨_, _, rfl, by unfold Opens; decide, by decide, by decide⟩
  | false => exact ⟨_, _, rfl, by unfold Opens; decide, by decide, by decide⟩
  | num h =>
    obtain ⟨b, t, e, hb⟩ := number_head h
    exact ⟨b, t, e, digit_opens hb⟩
  | str => exact ⟨_, _, rfl, by unfold Opens; decide, by decide, by decide⟩

theorem denotes_head {S : List UInt8 → List UInt8 → Prop} {d : Nat} {s : List UInt8} {j : Json} (h : Denotes S d s j) :
    ∃ b t, s = b :: t ∧ Opens b := by
  have ho : Opens 0x5b := by unfold Opens; decide
  have ho' : Opens 0x7b := by unfold Opens; decide
  have at' : Atom S s j → ∃ b t, s = b :: t ∧ Opens b := fun h =>
    let ⟨b, t, e, hb, _⟩ := atom_head h
    ⟨b, t, e, hb⟩
  cases d with
  | zero => exact at' h
  | succ d =>
    rcases h with h | ⟨w, _, rfl, _⟩ | ⟨x, vs, _, rfl, _⟩ | ⟨w, _, rfl, _⟩ | ⟨x, vs, _, rfl, _⟩
    · exact at' h
    · exact ⟨_, _, rfl, ho⟩
    · exact ⟨_, _, rfl, ho⟩
    · exact ⟨_, _, rfl, ho'⟩
    · exact ⟨_, _, rfl, ho'⟩

/-! ### Lists and objects -/

/-- What follows an element: white space and a comma or a closing bracket. -/
def Closes (r : List UInt8) : Prop := ∃ w c r', Blank w ∧ (c = 0x2c ∨ c = 0x5d ∨ c = 0x7d) ∧ r = w ++ c :: r'

theorem Closes.parted {r : List UInt8} (h : Closes r) : Parted r := by
  obtain ⟨w, c, r', hw, hc, rfl⟩ := h
  intro b t e
  have key : b = 0x20 ∨ b = 0x09 ∨ b = 0x0a ∨ b = 0x0d ∨ b = 0x2c ∨ b = 0x5d ∨ b = 0x7d := by
    cases w with
    | nil =>
      injection e with e _
      subst e
      rcases hc with h | h | h <;> simp [h]
    | cons x w =>
      injection e with e _
      subst e
      rcases hw _ List.mem_cons_self with h | h | h | h <;> simp [h]
  rcases key with rfl | rfl | rfl | rfl | rfl | rfl | rfl <;>
    exact ⟨by unfold IsDigit; decide, by decide, by decide, by decide⟩

theorem separated_complete {β : Type} {close : UInt8} (hclose : close = 0x5d ∨ close = 0x7d)
    {R : List UInt8 → β → Prop} {rp : Str → Option (β × Str)}
    (hrp : ∀ s v, R s v → ∀ w r, Blank w → Closes r → rp (w ++ s ++ r) = some (v, r)) {x : List UInt8} {vs : List β}
    (h : Separated R x vs) (r : Str) : ∀ k, x.length < k → readSequence close rp k (x ++ close :: r) = some (vs, r) := by
  have hsp : jsonSpace close = false := by rcases hclose with rfl | rfl <;> decide
  have hne : close ≠ 0x2c := by rcases hclose with rfl | rfl <;> decide
  induction h with
  | @one w s w' v hw hs hw' =>
    intro k hk
    cases k with
    | zero => exact absurd hk (Nat.not_lt_zero _)
    | succ k =>
      have := hrp s v hs w (w' ++ close :: r) hw ⟨w', close, r, hw', .inr hclose, rfl⟩
      rw [List.append_assoc (w ++ s)]
      unfold readSequence
      simp only [this, skipSpace_blank hw', skipSpace_cons hsp]
      rw [if_neg hne, if_pos trivial]
  | @more w s w' s' v vs hw hs hw' _ ih =>
    intro k hk
    cases k with
    | zero => exact absurd hk (Nat.not_lt_zero _)
    | succ k =>
      have := hrp s v hs w (w' ++ 0x2c :: (s' ++ close :: r)) hw ⟨w', 0x2c, _, hw', .inl rfl, rfl⟩
      have e : w ++ s ++ w' ++ 0x2c :: s' ++ close :: r = w ++ s ++ (w' ++ 0x2c :: (s' ++ close :: r)) := by simp
      rw [e]
      unfold readSequence
      simp only [this, skipSpace_blank hw', skipSpace_cons (show jsonSpace 0x2c = false from rfl)]
      rw [if_pos trivial, ih k (by simp at hk; omega)]

theorem separated_sound {β : Type} {close : UInt8} {R : List UInt8 → β → Prop} {rp : Str → Option (β × Str)}
    (hrp : ∀ s v r, rp s = some (v, r) → ∃ w t, Blank w ∧ s = w ++ t ++ r ∧ R t v) :
    ∀ k s vs r, readSequence close rp k s = some (vs, r) → ∃ x, Separated R x vs ∧ s = x ++ close :: r := by
  intro k
  induction k with
  | zero => intro s vs r h; cases h
  | succ k ih =>
    intro s vs r h
    unfold readSequence at h
    split at h
    · cases h
    rename_i v s1 h1
    obtain ⟨w, t, hw, rfl, ht⟩ := hrp _ _ _ h1
    obtain ⟨w', hw', e'⟩ := skipSpace_split s1
    split at h
    · cases h
    rename_i c s2 h2
    rw [h2] at e'
    split at h
    · rename_i hc
      subst hc
      split at h
      · cases h
      rename_i vs' s3 h3
      simp only [Option.some.injEq, Prod.mk.injEq] at h
      obtain ⟨rfl, rfl⟩ := h
      obtain ⟨x, hx, rfl⟩ := ih _ _ _ h3
      exact ⟨_, .more hw ht hw' hx, by rw [e']; simp⟩
    · split at h
      · rename_i hc
        subst hc
        simp only [Option.some.injEq, Prod.mk.injEq] at h
        obtain ⟨rfl, rfl⟩ := h
        exact ⟨_, .one hw ht hw', by rw [e']; simp⟩
      · cases h

theorem member_complete {V : List UInt8 → Json → Prop} {rv : Str → Option (Json × Str)}
    (hrv : ∀ s v, V s v → ∀ w r, Blank w → Closes r → rv (w ++ s ++ r) = some (v, r)) (s : List UInt8) (m : Str × Json)
    (h : Member LString V s m) (w r : List UInt8) (hw : Blank w) (hr : Closes r) :
    readMember rv (w ++ s ++ r) = some (m, r) := by
  obtain ⟨k, w1, w2, v, hk, hw1, hw2, hv, rfl⟩ := h
  have e : w ++ (quoted k ++ w1 ++ 0x3a :: (w2 ++ v)) ++ r =
      w ++ (0x22 :: (k ++ 0x22 :: (w1 ++ 0x3a :: (w2 ++ v ++ r)))) := by simp [quoted]
  rw [e]
  unfold readMember
  rw [skipSpace_blank hw, skipSpace_cons (by decide)]
  simp only [readStr_complete hk]
  rw [skipSpace_blank hw1, skipSpace_cons (by decide)]
  simp only [hrv v _ hv w2 r hw2 hr]

theorem member_sound {V : List UInt8 → Json → Prop} {rv : Str → Option (Json × Str)}
    (hrv : ∀ s v r, rv s = some (v, r) → ∃ w t, Blank w ∧ s = w ++ t ++ r ∧ V t v) (s : Str) (m : Str × Json) (r : Str)
    (h : readMember rv s = some (m, r)) : ∃ w t, Blank w ∧ s = w ++ t ++ r ∧ Member LString V t m := by
  unfold readMember at h
  obtain ⟨w, hw, e⟩ := skipSpace_split s
  split at h
  · rename_i s1 h1
    rw [h1] at e
    split at h
    · cases h
    rename_i key s2 h2
    obtain ⟨k, hk, rfl⟩ := readStr_sound h2
    obtain ⟨w1, hw1, e1⟩ := skipSpace_split s2
    split at h
    · rename_i s3 h3
      rw [h3] at e1
      split at h
      · cases h
      rename_i j s4 h4
      simp only [Option.some.injEq, Prod.mk.injEq] at h
      obtain ⟨rfl, rfl⟩ := h
      obtain ⟨w2, t, hw2, rfl, ht⟩ := hrv _ _ _ h4
      refine ⟨w, quoted k ++ w1 ++ 0x3a :: (w2 ++ t), hw, ?_, k, w1, w2, t, hk, hw1, hw2, ht, rfl⟩
      rw [e, e1]
      simp [quoted]
    · cases h
  · cases h

theorem separated_head {β : Type} {R : List UInt8 → β → Prop} (hR : ∀ s v, R s v → ∃ b t, s = b :: t ∧ Opens b)
    {x : List UInt8} {vs : List β} (h : Separated R x vs) (r : Str) :
    ∃ b t, skipSpace (x ++ r) = b :: t ∧ b ≠ 0x5d ∧ b ≠ 0x7d := by
  cases h with
  | @one w s w' v hw hs hw' =>
    obtain ⟨b, t, rfl, ho, h1, h2⟩ := hR _ _ hs
    refine ⟨b, t ++ w' ++ r, ?_, h1, h2⟩
    have e : w ++ b :: t ++ w' ++ r = w ++ (b :: (t ++ w' ++ r)) := by simp
    rw [e, skipSpace_blank hw, skipSpace_cons ho]
  | @more w s w' s' v vs hw hs hw' _ =>
    obtain ⟨b, t, rfl, ho, h1, h2⟩ := hR _ _ hs
    refine ⟨b, t ++ w' ++ 0x2c :: s' ++ r, ?_, h1, h2⟩
    have e : w ++ b :: t ++ w' ++ 0x2c :: s' ++ r = w ++ (b :: (t ++ w' ++ 0x2c :: s' ++ r)) := by simp
    rw [e, skipSpace_blank hw, skipSpace_cons ho]

theorem member_head {S : List UInt8 → List UInt8 → Prop} {V : List UInt8 → Json → Prop} (s : List UInt8) (m : Str × Json)
    (h : Member S V s m) : ∃ b t, s = b :: t ∧ Opens b := by
  obtain ⟨k, w1, w2, v, _, _, _, _, rfl⟩ := h
  exact ⟨0x22, _, rfl, by unfold Opens; decide⟩

/-- How an opening bracket is read. -/
theorem readValue_list (d : Nat) {s : Str} {s' : Str} (h : skipSpace s = 0x5b :: s') :
    readValue (d + 1) s =
      match skipSpace s' with
      | 0x5d :: r => some (.arr [], r)
      | _ =>
        match readSequence 0x5d (readValue d) s'.length s' with
        | none => none
        | some (js, r) => some (.arr js, r) := by
  rw [readValue, h]
  rfl

/-- How an opening brace is read. -/
theorem readValue_object (d : Nat) {s : Str} {s' : Str} (h : skipSpace s = 0x7b :: s') :
    readValue (d + 1) s =
      match skipSpace s' with
      | 0x7d :: r => some (.obj [], r)
      | _ =>
        match readSequence 0x7d (readMember (readValue d)) s'.length s' with
        | none => none
        | some (ms, r) => some (.obj ms, r) := by
  rw [readValue, h]
  rfl

theorem readValue_atom (d : Nat) {s : Str} {b : UInt8} {s' : Str} (h : skipSpace s = b :: s') (h1 : b ≠ 0x5b) (h2 : b ≠ 0x7b) :
    readValue d s = readAtom (b :: s') := by
  cases d with
  | zero => rw [readValue, h]
  | succ d =>
    rw [readValue, h]
    split
    · rename_i he; injection he with he _; exact absurd he h1
    · rename_i he; injection he with he _; exact absurd he h2
    · rfl

/-- **Every text of the grammar is read as the value it denotes.** -/
theorem readValue_complete (d : Nat) : ∀ (s : List UInt8) (j : Json), Denotes LString d s j → ∀ w r, Blank w →
    (IsNumber j → Parted r) → readValue d (w ++ s ++ r) = some (j, r) := by
  have atom : ∀ d (s : List UInt8) (j : Json), Atom LString s j → ∀ w r, Blank w → (IsNumber j → Parted r) →
      readValue d (w ++ s ++ r) = some (j, r) := by
    intro d s j h w r hw hr
    have hc := readAtom_complete h hr
    obtain ⟨b, t, rfl, ho, h1, h2⟩ := atom_head h
    have : skipSpace (w ++ b :: t ++ r) = b :: (t ++ r) := by
      rw [List.append_assoc, skipSpace_blank hw, List.cons_append, skipSpace_cons ho.1]
    rw [readValue_atom d this h1 h2, ← List.cons_append, hc]
  induction d with
  | zero => exact atom 0
  | succ d ih =>
    intro s j h w r hw hr
    have ihc : ∀ s v, Denotes LString d s v → ∀ w r, Blank w → Closes r → readValue d (w ++ s ++ r) = some (v, r) :=
      fun s v h w r hw hr => ih s v h w r hw fun _ => hr.parted
    rcases h with h | ⟨w', hw', rfl, rfl⟩ | ⟨x, vs, hx, rfl, rfl⟩ | ⟨w', hw', rfl, rfl⟩ | ⟨x, ms, hx, rfl, rfl⟩
    · exact atom _ s j h w r hw hr
    · have : skipSpace (w ++ (0x5b :: w' ++ [0x5d]) ++ r) = 0x5b :: (w' ++ 0x5d :: r) := by
        rw [List.append_assoc, skipSpace_blank hw, List.cons_append, List.cons_append, skipSpace_cons (by decide)]
        simp
      rw [readValue_list d this, skipSpace_blank hw', skipSpace_cons (by decide)]
      rfl
    · have : skipSpace (w ++ (0x5b :: x ++ [0x5d]) ++ r) = 0x5b :: (x ++ 0x5d :: r) := by
        rw [List.append_assoc, skipSpace_blank hw, List.cons_append, List.cons_append, skipSpace_cons (by decide)]
        simp
      rw [readValue_list d this]
      obtain ⟨b, t, e, h1, _⟩ := separated_head (fun s v h => denotes_head h) hx (0x5d :: r)
      rw [e, separated_complete (.inl rfl) ihc hx r _ (by simp)]
      split
      · rename_i he; injection he with he _; exact absurd he h1
      · rfl
    · have : skipSpace (w ++ (0x7b :: w' ++ [0x7d]) ++ r) = 0x7b :: (w' ++ 0x7d :: r) := by
        rw [List.append_assoc, skipSpace_blank hw, List.cons_append, List.cons_append, skipSpace_cons (by decide)]
        simp
      rw [readValue_object d this, skipSpace_blank hw', skipSpace_cons (by decide)]
      rfl
    · have : skipSpace (w ++ (0x7b :: x ++ [0x7d]) ++ r) = 0x7b :: (x ++ 0x7d :: r) := by
        rw [List.append_assoc, skipSpace_blank hw, List.cons_append, List.cons_append, skipSpace_cons (by decide)]
        simp
      rw [readValue_object d this]
      obtain ⟨b, t, e, _, h1⟩ := separated_head member_head hx (0x7d :: r)
      rw [e, separated_complete (.inr rfl) (member_complete ihc) hx r _ (by simp)]
      split
      · rename_i he; injection he with he _; exact absurd he h1
      · rfl

/-- **Nothing else is read.** -/
theorem readValue_sound (d : Nat) : ∀ (s : Str) (j : Json) (r : Str), readValue d s = some (j, r) →
    ∃ w t, Blank w ∧ s = w ++ t ++ r ∧ Denotes LString d t j := by
  induction d with
  | zero =>
    intro s j r h
    obtain ⟨w, hw, e⟩ := skipSpace_split s
    obtain ⟨t, ht, e'⟩ := readAtom_sound h
    exact ⟨w, t, hw, by rw [List.append_assoc, ← e', ← e], ht⟩
  | succ d ih =>
    intro s j r h
    obtain ⟨w, hw, e⟩ := skipSpace_split s
    rw [readValue] at h
    split at h
    · rename_i s1 h1
      rw [h1] at e
      split at h
      · rename_i s2 h2
        simp only [Option.some.injEq, Prod.mk.injEq] at h
        obtain ⟨rfl, rfl⟩ := h
        obtain ⟨w', hw', e'⟩ := skipSpace_split s1
        rw [h2] at e'
        exact ⟨w, 0x5b :: w' ++ [0x5d], hw, by rw [e, e']; simp, .inr (.inl ⟨w', hw', rfl, rfl⟩)⟩
      · split at h
        · cases h
        rename_i js s3 h3
        simp only [Option.some.injEq, Prod.mk.injEq] at h
        obtain ⟨rfl, rfl⟩ := h
        obtain ⟨x, hx, rfl⟩ := separated_sound ih _ _ _ _ h3
        exact ⟨w, 0x5b :: x ++ [0x5d], hw, by rw [e]; simp, .inr (.inr (.inl ⟨x, js, hx, rfl, rfl⟩))⟩
    · rename_i s1 h1
      rw [h1] at e
      split at h
      · rename_i s2 h2
        simp only [Option.some.injEq, Prod.mk.injEq] at h
        obtain ⟨rfl, rfl⟩ := h
        obtain ⟨w', hw', e'⟩ := skipSpace_split s1
        rw [h2] at e'
        exact ⟨w, 0x7b :: w' ++ [0x7d], hw, by rw [e, e']; simp, .inr (.inr (.inr (.inl ⟨w', hw', rfl, rfl⟩)))⟩
      · split at h
        · cases h
        rename_i ms s3 h3
        simp only [Option.some.injEq, Prod.mk.injEq] at h
        obtain ⟨rfl, rfl⟩ := h
        obtain ⟨x, hx, rfl⟩ := separated_sound (member_sound ih) _ _ _ _ h3
        exact ⟨w, 0x7b :: x ++ [0x7d], hw, by rw [e]; simp, .inr (.inr (.inr (.inr ⟨x, ms, hx, rfl, rfl⟩)))⟩
    · obtain ⟨t, ht, e'⟩ := readAtom_sound h
      exact ⟨w, t, hw, by rw [List.append_assoc, ← e', ← e], .inl ht⟩

/-! ### The two grammars -/

theorem separated_mono {β : Type} {R R' : List UInt8 → β → Prop} (hR : ∀ s v, R s v → R' s v) {x : List UInt8} {vs : List β}
    (h : Separated R x vs) : Separated R' x vs := by
  induction h with
  | one hw hs hw' => exact .one hw (hR _ _ hs) hw'
  | more hw hs hw' _ ih => exact .more hw (hR _ _ hs) hw' ih

theorem atom_mono {S S' : List UInt8 → List UInt8 → Prop} (hS : ∀ s t, S s t → S' s t) {s : List UInt8} {j : Json}
    (h : Atom S s j) : Atom S' s j := by
  cases h with
  | null => exact .null
  | true => exact .true
  | false => exact .false
  | num h => exact .num h
  | str h => exact .str (hS _ _ h)

theorem denotes_mono {S S' : List UInt8 → List UInt8 → Prop} (hS : ∀ s t, S s t → S' s t) (d : Nat) :
    ∀ (s : List UInt8) (j : Json), Denotes S d s j → Denotes S' d s j := by
  induction d with
  | zero => intro s j h; exact atom_mono hS h
  | succ d ih =>
    intro s j h
    rcases h with h | h | ⟨x, vs, hx, h⟩ | h | ⟨x, ms, hx, h⟩
    · exact .inl (atom_mono hS h)
    · exact .inr (.inl h)
    · exact .inr (.inr (.inl ⟨x, vs, separated_mono ih hx, h⟩))
    · exact .inr (.inr (.inr (.inl h)))
    · refine .inr (.inr (.inr (.inr ⟨x, ms, separated_mono ?_ hx, h⟩)))
      rintro s m ⟨k, w, w', v, hk, hw, hw', hv, e⟩
      exact ⟨k, w, w', v, hS _ _ hk, hw, hw', ih _ _ hv, e⟩

end JT808
