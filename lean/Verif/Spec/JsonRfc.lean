import Verif.Spec.Json
import Verif.Model.Binding
/-
JSON texts, RFC 8259, with white space and all kinds of values.  (`Json` is only the type of the values.)
-/
namespace JT808.Spec

/-- White space, section 2. -/
def Blank (w : List UInt8) : Prop := ∀ b ∈ w, b = 0x20 ∨ b = 0x09 ∨ b = 0x0a ∨ b = 0x0d

/-- The whole part of a number, section 6: digits without leading zeros. -/
def WholeText (i : List UInt8) : Prop := i ≠ [] ∧ AllDigits i ∧ (i.head? = some 0x30 → i.length = 1)

/-- The part after the decimal point, with its digits `f`. -/
def FractionText (s f : List UInt8) : Prop := s = [] ∧ f = [] ∨ s = 0x2e :: f ∧ f ≠ [] ∧ AllDigits f

/-- The exponent and its value. -/
def ExponentText (s : List UInt8) (x : Int) : Prop :=
  s = [] ∧ x = 0 ∨
  ∃ e ds, (e = 0x65 ∨ e = 0x45) ∧ ds ≠ [] ∧ AllDigits ds ∧
    ((s = e :: ds ∨ s = e :: 0x2b :: ds) ∧ x = decimalValue ds ∨ s = e :: 0x2d :: ds ∧ x = -(decimalValue ds : Int))

/-- `w` is the whole part of `m * 10^x`. -/
def WholePart (w m : Nat) (x : Int) : Prop :=
  (0 ≤ x → w = m * 10 ^ x.toNat) ∧ (x < 0 → w * 10 ^ (-x).toNat ≤ m ∧ m < (w + 1) * 10 ^ (-x).toNat)

/-- A number, section 6.  Digits only are a whole number; of any other the whole part is taken, of a negative one modulo
2^64. -/
inductive NumberText : List UInt8 → Json → Prop
  | whole {i : List UInt8} : WholeText i → NumberText i (.num (decimalValue i))
  | other {neg : Bool} {i fs f es : List UInt8} {x : Int} {w n : Nat} : WholeText i → FractionText fs f →
      ExponentText es x → (neg = true ∨ fs ≠ [] ∨ es ≠ []) → WholePart w (decimalValue (i ++ f)) (x - f.length) →
      (neg = false ∧ n = w ∨ neg = true ∧ n < 2 ^ 64 ∧ (n + w) % 2 ^ 64 = 0) →
      NumberText ((if neg then [0x2d] else []) ++ i ++ fs ++ es) (.frac n)

/-- The escape of a number of 16 bits, section 7. -/
def HexEscape (u : List UInt8) (n : Nat) : Prop :=
  ∃ a b c d w x y z, u = [0x5c, 0x75, a, b, c, d] ∧ hexWorth a = some w ∧ hexWorth b = some x ∧ hexWorth c = some y ∧
    hexWorth d = some z ∧ n = ((w * 16 + x) * 16 + y) * 16 + z

/-- The character a surrogate pair stands for. -/
def paired (hi lo : Nat) : Nat := (hi - 0xD800) * 1024 + (lo - 0xDC00) + 0x10000

/-- One character between quotation marks: those of `JChar`, and characters beyond the basic plane as escapes of a surrogate
pair. -/
inductive RChar : List UInt8 → Nat → Prop
  | char {u : List UInt8} {n : Nat} : JChar u n → RChar u n
  | pair {u v : List UInt8} {hi lo : Nat} : HexEscape u hi → HexEscape v lo → 0xD800 ≤ hi → hi < 0xDC00 → 0xDC00 ≤ lo →
      lo < 0xE000 → RChar (u ++ v) (paired hi lo)

/-- The text between quotation marks, section 7, and the string it denotes, in UTF-8. -/
inductive RString : List UInt8 → List UInt8 → Prop
  | nil : RString [] []
  | cons {u s t : List UInt8} {n : Nat} : RChar u n → RString s t → RString (u ++ s) (utf8Of n ++ t)

/-- Texts that RFC 8259 leaves open or forbids and that are read nevertheless: besides characters, bytes that are no UTF-8 and
escapes of single surrogates, both taken for U+FFFD. -/
inductive LString : List UInt8 → List UInt8 → Prop
  | nil : LString [] []
  | cons {u s t : List UInt8} {n : Nat} : RChar u n → LString s t → LString (u ++ s) (utf8Of n ++ t)
  | bad {b : UInt8} {s t : List UInt8} : 0x80 ≤ b.toNat → (∀ n r, Scalar n → b :: s ≠ utf8Of n ++ r) → LString s t →
      LString (b :: s) (utf8Of 0xFFFD ++ t)
  | lone {u s t : List UInt8} {n : Nat} : HexEscape u n → 0xD800 ≤ n → n < 0xE000 →
      (n < 0xDC00 → ∀ v m r, HexEscape v m → 0xDC00 ≤ m → m < 0xE000 → s ≠ v ++ r) → LString s t →
      LString (u ++ s) (utf8Of 0xFFFD ++ t)

/-- One or more things separated by commas, sections 4 and 5, with white space. -/
inductive Separated {β : Type} (R : List UInt8 → β → Prop) : List UInt8 → List β → Prop
  | one {w s w' : List UInt8} {v : β} : Blank w → R s v → Blank w' → Separated R (w ++ s ++ w') [v]
  | more {w s w' s' : List UInt8} {v : β} {vs : List β} : Blank w → R s v → Blank w' → Separated R s' vs →
      Separated R (w ++ s ++ w' ++ 0x2c :: s') (v :: vs)

/-- A value that is neither a list nor an object; `S` says which texts between quotation marks there are. -/
inductive Atom (S : List UInt8 → List UInt8 → Prop) : List UInt8 → Json → Prop
  | null : Atom S [0x6e, 0x75, 0x6c, 0x6c] .null
  | true : Atom S [0x74, 0x72, 0x75, 0x65] (.bool true)
  | false : Atom S [0x66, 0x61, 0x6c, 0x73, 0x65] (.bool false)
  | num {s : List UInt8} {j : Json} : NumberText s j → Atom S s j
  | str {s t : List UInt8} : S s t → Atom S (quoted s) (.str t)

/-- A member of an object, section 4. -/
def Member (S : List UInt8 → List UInt8 → Prop) (V : List UInt8 → Json → Prop) (s : List UInt8) (m : Str × Json) : Prop :=
  ∃ k w w' v, S k m.1 ∧ Blank w ∧ Blank w' ∧ V v m.2 ∧ s = quoted k ++ w ++ 0x3a :: (w' ++ v)

/-- The text `s` denotes the value, with at most `d` lists and objects within each other. -/
def Denotes (S : List UInt8 → List UInt8 → Prop) : Nat → List UInt8 → Json → Prop
  | 0, s, j => Atom S s j
  | d + 1, s, j =>
    Atom S s j ∨
    (∃ w, Blank w ∧ s = 0x5b :: w ++ [0x5d] ∧ j = .arr []) ∨
    (∃ x vs, Separated (Denotes S d) x vs ∧ s = 0x5b :: x ++ [0x5d] ∧ j = .arr vs) ∨
    (∃ w, Blank w ∧ s = 0x7b :: w ++ [0x7d] ∧ j = .obj []) ∨
    (∃ x ms, Separated (Member S (Denotes S d)) x ms ∧ s = 0x7b :: x ++ [0x7d] ∧ j = .obj ms)

end JT808.Spec
