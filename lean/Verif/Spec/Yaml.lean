import Verif.Model.Yaml
/-
How a configuration is written: the part of YAML 1.2 (block mappings of words, numbers and texts in double quotes, with comments)
that the files of the project use.  Nothing here is taken from the reader but the type of values.
-/
namespace JT808.Spec

/-- `k` spaces. -/
abbrev spaces (k : Nat) : List UInt8 := List.replicate k 0x20

/-- What may follow on a line: spaces, and after at least one of them a comment. -/
inductive YamlRemark : List UInt8 → Prop
  | none (k : Nat) : YamlRemark (spaces k)
  | comment (k : Nat) (c : List UInt8) : 0 < k → YamlRemark (spaces k ++ 0x23 :: c)

/-- A line that says nothing. -/
inductive YamlEmpty : List UInt8 → Prop
  | blank (k : Nat) : YamlEmpty (spaces k)
  | comment (k : Nat) (c : List UInt8) : YamlEmpty (spaces k ++ 0x23 :: c)

/-- The letter in lower case. -/
def lower (c : UInt8) : UInt8 :=
  match "ABCDEFGHIJKLMNOPQRSTUVWXYZ".toUTF8.toList.idxOf? c with
  | some i => ("abcdefghijklmnopqrstuvwxyz".toUTF8.toList[i]?).getD c
  | none => c

/-- A key: letters, but none of the three words that are no texts. -/
def YamlKey (k : List UInt8) : Prop :=
  k ≠ [] ∧ (∀ c ∈ k, c ∈ "abcdefghijklmnopqrstuvwxyzABCDEFGHIJKLMNOPQRSTUVWXYZ".toUTF8.toList) ∧
    k.map lower ∉ ["true", "false", "null"].map (·.toUTF8.toList)

/-- How a value is written. -/
inductive YamlScalar : Scalar → List UInt8 → Prop
  | quoted {s} : 0x22 ∉ s → 0x5c ∉ s → YamlScalar (.quoted s) (0x22 :: s ++ [0x22])
  | plain {s} : s ≠ [] → (∀ c ∈ s, c ∈ "0123456789abcdefghijklmnopqrstuvwxyz".toUTF8.toList) → YamlScalar (.plain s) s

/-- The lines of a mapping all of whose keys are indented by `n`, and the values in it with the keys that lead to them. -/
inductive YamlBlock : (n : Nat) → List (List UInt8) → List (List (List UInt8) × Scalar) → Prop
  | nil {n} : YamlBlock n [] []
  | empty {n l ls es} : YamlEmpty l → YamlBlock n ls es → YamlBlock n (l :: ls) es
  | value {n key v t r ls es} : YamlKey key → YamlScalar v t → YamlRemark r → YamlBlock n ls es →
      YamlBlock n ((spaces n ++ key ++ 0x3a :: 0x20 :: t ++ r) :: ls) (([key], v) :: es)
  | «section» {n m key r ls ls' es es'} : YamlKey key → YamlRemark r → n < m → YamlBlock m ls es → YamlBlock n ls' es' →
      YamlBlock n ((spaces n ++ key ++ 0x3a :: r) :: ls ++ ls') (es.map (fun e => (key :: e.1, e.2)) ++ es')

/-- Lines one after the other, as a text. -/
def unlines : List (List UInt8) → List UInt8
  | [] => []
  | [l] => l
  | l :: ls => l ++ 0x0a :: unlines ls

/-- The text says these settings. -/
def YamlSays (text : List UInt8) (es : List (List (List UInt8) × Scalar)) : Prop :=
  ∃ ls, ls ≠ [] ∧ (∀ l ∈ ls, 0x0a ∉ l) ∧ text = unlines ls ∧ YamlBlock 0 ls es

/-- The keys name the setting, in whatever case. -/
def NamesSetting (keys : List (List UInt8)) (path : List String) : Prop :=
  keys.map (·.map lower) = path.map (·.toUTF8.toList)

/-- No setting is given twice. -/
def OnceEach (es : List (List (List UInt8) × Scalar)) : Prop :=
  es.Pairwise fun a b => a.1.map (·.map lower) ≠ b.1.map (·.map lower)

/-- The value means this text: it is quoted; or it is a number without zeros in front, or a word that begins with a letter and
is not one of the three. -/
inductive MeansText : Scalar → List UInt8 → Prop
  | quoted {s} : MeansText (.quoted s) s
  | zero : MeansText (.plain [0x30]) [0x30]
  | number {c cs} : c ∈ "123456789".toUTF8.toList → (∀ d ∈ cs, d ∈ "0123456789".toUTF8.toList) → cs.length < 18 →
      MeansText (.plain (c :: cs)) (c :: cs)
  | word {c cs} : c ∈ "abcdefghijklmnopqrstuvwxyz".toUTF8.toList →
      (c :: cs) ∉ ["true", "false", "null"].map (·.toUTF8.toList) → MeansText (.plain (c :: cs)) (c :: cs)

/-- The value means yes or no: a truth value, in quotes also by the other names strconv.ParseBool documents, or a number. -/
inductive MeansFlag : Scalar → Bool → Prop
  | yes : MeansFlag (.plain "true".toUTF8.toList) true
  | no : MeansFlag (.plain "false".toUTF8.toList) false
  | quotedYes {s} : s ∈ ["1", "t", "T", "TRUE", "true", "True"].map (·.toUTF8.toList) → MeansFlag (.quoted s) true
  | quotedNo {s} : s ∈ ["0", "f", "F", "FALSE", "false", "False"].map (·.toUTF8.toList) → MeansFlag (.quoted s) false
  | some {n : Nat} : 0 < n → n < 2 ^ 63 → MeansFlag (.plain ((Nat.toDigits 10 n).map fun c => UInt8.ofNat c.toNat)) true
  | zero : MeansFlag (.plain [0x30]) false

/-- The value means this number: it is written in decimal digits, without zeros in front, and fits into 63 bits.  It may be in
quotes.  A truth value is one or zero. -/
inductive MeansNumber : Scalar → Nat → Prop
  | decimal {n : Nat} : n < 2 ^ 63 → MeansNumber (.plain ((Nat.toDigits 10 n).map fun c => UInt8.ofNat c.toNat)) n
  | quoted {n : Nat} : n < 2 ^ 63 → MeansNumber (.quoted ((Nat.toDigits 10 n).map fun c => UInt8.ofNat c.toNat)) n
  | yes : MeansNumber (.plain "true".toUTF8.toList) 1
  | no : MeansNumber (.plain "false".toUTF8.toList) 0

/-- What the settings say under a name: the one value given for it, or nothing. -/
inductive Setting (es : List (List (List UInt8) × Scalar)) (path : List String) : Option Scalar → Prop
  | given {keys v} : (keys, v) ∈ es → NamesSetting keys path → Setting es path (some v)
  | absent : (∀ keys v, (keys, v) ∈ es → ¬ NamesSetting keys path) → Setting es path none

end JT808.Spec
