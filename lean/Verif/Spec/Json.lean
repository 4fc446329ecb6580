import Verif.Spec.Code
/-
JSON texts (RFC 8259) in UTF-8 (RFC 3629), as far as the HTTP interface writes them: no white space, no exponents. Characters are Unicode code points.
-/
namespace JT808.Spec

/-- The code points that are characters. -/
def Scalar (n : Nat) : Prop := n < 0xD800 ∨ 0xE000 ≤ n ∧ n < 0x110000

/-- Their encoding, RFC 3629 section 3. -/
def utf8Of (n : Nat) : List UInt8 :=
  if n < 0x80 then [UInt8.ofNat n]
  else if n < 0x800 then [UInt8.ofNat (0xC0 + n / 64), UInt8.ofNat (0x80 + n % 64)]
  else if n < 0x10000 then
    [UInt8.ofNat (0xE0 + n / 4096), UInt8.ofNat (0x80 + n / 64 % 64), UInt8.ofNat (0x80 + n % 64)]
  else
    [UInt8.ofNat (0xF0 + n / 262144), UInt8.ofNat (0x80 + n / 4096 % 64), UInt8.ofNat (0x80 + n / 64 % 64),
      UInt8.ofNat (0x80 + n % 64)]

/-- A text in UTF-8. -/
def utf8Text (t : List Nat) : List UInt8 := t.flatMap utf8Of

/-- The characters one sees in any bytes: those that are encoded, and U+FFFD for each byte with which no encoded character
begins. -/
inductive Seen : List UInt8 → List Nat → Prop
  | nil : Seen [] []
  | char {n : Nat} {s : List UInt8} {t : List Nat} : Scalar n → Seen s t → Seen (utf8Of n ++ s) (n :: t)
  | bad {b : UInt8} {s : List UInt8} {t : List Nat} :
      (∀ n r, Scalar n → b :: s ≠ utf8Of n ++ r) → Seen s t → Seen (b :: s) (0xFFFD :: t)

/-- The value of a hexadecimal digit. -/
def hexWorth (b : UInt8) : Option Nat :=
  if 0x30 ≤ b.toNat ∧ b.toNat ≤ 0x39 then some (b.toNat - 0x30)
  else if 0x61 ≤ b.toNat ∧ b.toNat ≤ 0x66 then some (b.toNat - 0x61 + 10)
  else if 0x41 ≤ b.toNat ∧ b.toNat ≤ 0x46 then some (b.toNat - 0x41 + 10)
  else none

/-- The escapes of two characters: the second character and what it stands for. -/
def shortEscapes : List (UInt8 × Nat) :=
  [(0x22, 0x22), (0x5c, 0x5c), (0x2f, 0x2f), (0x62, 8), (0x66, 12), (0x6e, 10), (0x72, 13), (0x74, 9)]

/-- One character within quotation marks: as it is, or escaped. (Escapes of surrogates are left out.) -/
inductive JChar : List UInt8 → Nat → Prop
  | plain {n : Nat} : Scalar n → 0x20 ≤ n → n ≠ 0x22 → n ≠ 0x5c → JChar (utf8Of n) n
  | short {e : UInt8} {n : Nat} : (e, n) ∈ shortEscapes → JChar [0x5c, e] n
  | hex {a b c d : UInt8} {w x y z : Nat} : hexWorth a = some w → hexWorth b = some x → hexWorth c = some y →
      hexWorth d = some z → Scalar (((w * 16 + x) * 16 + y) * 16 + z) →
      JChar [0x5c, 0x75, a, b, c, d] (((w * 16 + x) * 16 + y) * 16 + z)

/-- The characters between quotation marks. -/
inductive JChars : List UInt8 → List Nat → Prop
  | nil : JChars [] []
  | cons {u s : List UInt8} {n : Nat} {t : List Nat} : JChar u n → JChars s t → JChars (u ++ s) (n :: t)

/-- Values: whole numbers, numbers `a / 10^p` written with a point, whole numbers with a minus sign, truth values, null, texts,
lists and objects. -/
inductive JVal where
  | num (n : Nat)
  | dec (a p : Nat)
  | neg (n : Nat)
  | truth (b : Bool)
  | null
  | str (t : List Nat)
  | arr (vs : List JVal)
  | obj (kvs : List (List Nat × JVal))

/-- A text in quotation marks. -/
def quoted (s : List UInt8) : List UInt8 := 0x22 :: s ++ [0x22]

mutual

/-- The text `s` denotes the value. -/
inductive JText : List UInt8 → JVal → Prop
  | num {s : List UInt8} : s ≠ [] → AllDigits s → (s.head? = some 0x30 → s.length = 1) → JText s (.num (decimalValue s))
  | dec {s f : List UInt8} : s ≠ [] → AllDigits s → (s.head? = some 0x30 → s.length = 1) → f ≠ [] → AllDigits f →
      JText (s ++ 0x2e :: f) (.dec (decimalValue (s ++ f)) f.length)
  | neg {s : List UInt8} : s ≠ [] → AllDigits s → (s.head? = some 0x30 → s.length = 1) →
      JText (0x2d :: s) (.neg (decimalValue s))
  | yes : JText [0x74, 0x72, 0x75, 0x65] (.truth true)
  | no : JText [0x66, 0x61, 0x6c, 0x73, 0x65] (.truth false)
  | null : JText [0x6e, 0x75, 0x6c, 0x6c] .null
  | str {s : List UInt8} {t : List Nat} : JChars s t → JText (quoted s) (.str t)
  | arr0 : JText [0x5b, 0x5d] (.arr [])
  | arr {s : List UInt8} {vs : List JVal} : JItems s vs → JText (0x5b :: s ++ [0x5d]) (.arr vs)
  | obj0 : JText [0x7b, 0x7d] (.obj [])
  | obj {s : List UInt8} {kvs : List (List Nat × JVal)} : JMembers s kvs → JText (0x7b :: s ++ [0x7d]) (.obj kvs)

/-- One or more values, separated by commas. -/
inductive JItems : List UInt8 → List JVal → Prop
  | one {s : List UInt8} {v : JVal} : JText s v → JItems s [v]
  | more {s s' : List UInt8} {v : JVal} {vs : List JVal} : JText s v → JItems s' vs → JItems (s ++ 0x2c :: s') (v :: vs)

/-- One or more members of an object. -/
inductive JMembers : List UInt8 → List (List Nat × JVal) → Prop
  | one {k s : List UInt8} {t : List Nat} {v : JVal} : JChars k t → JText s v → JMembers (quoted k ++ 0x3a :: s) [(t, v)]
  | more {k s s' : List UInt8} {t : List Nat} {v : JVal} {kvs : List (List Nat × JVal)} : JChars k t → JText s v →
      JMembers s' kvs → JMembers (quoted k ++ 0x3a :: (s ++ 0x2c :: s')) ((t, v) :: kvs)

end

/-- A name as characters. -/
def chars (s : String) : List Nat := s.toList.map Char.toNat

end JT808.Spec
