/-
Regular expressions of the kind that occur in the configuration of the simulator: how they are written and what they match.
-/
namespace JT808.Spec

/-- An item of a class: a character or a range. -/
inductive ReItem where
  | one (c : UInt8)
  | range (a b : UInt8)

/-- A piece: a character, or a class and how often, in decimal digits. -/
inductive RePiece where
  | char (c : UInt8)
  | cls (items : List ReItem) (times : Option (List UInt8))

/-- Alternatives. -/
abbrev Re := List (List RePiece)

def ReItem.written : ReItem → List UInt8
  | .one c => [c]
  | .range a b => [a, 0x2d, b]

def RePiece.written : RePiece → List UInt8
  | .char c => [c]
  | .cls items none => 0x5b :: items.flatMap ReItem.written ++ [0x5d]
  | .cls items (some ds) => 0x5b :: items.flatMap ReItem.written ++ 0x5d :: 0x7b :: ds ++ [0x7d]

def Re.written : Re → List UInt8
  | [] => []
  | [a] => a.flatMap RePiece.written
  | a :: as => a.flatMap RePiece.written ++ 0x7c :: Re.written as

/-- The characters `\.+*?()|[]{}^$`, which mean something. -/
def reMeta : List UInt8 := [0x5c, 0x2e, 0x2b, 0x2a, 0x3f, 0x28, 0x29, 0x7c, 0x5b, 0x5d, 0x7b, 0x7d, 0x5e, 0x24]

/-- A character that may stand in a class: ASCII, without a meaning of its own, no hyphen. -/
def ClassChar (c : UInt8) : Prop := c ∉ reMeta ∧ c ≠ 0x2d ∧ c < 0x80

def ReItem.Good : ReItem → Prop
  | .one c => ClassChar c
  | .range a b => ClassChar a ∧ ClassChar b

def RePiece.Good : RePiece → Prop
  | .char c => c ∉ reMeta
  | .cls items times => items ≠ [] ∧ (∀ i ∈ items, i.Good) ∧ ∀ ds ∈ times, ds ≠ [] ∧ ∀ d ∈ ds, 0x30 ≤ d ∧ d ≤ 0x39

def Re.Good (r : Re) : Prop := r ≠ [] ∧ ∀ a ∈ r, ∀ p ∈ a, p.Good

def ReItem.Has (c : UInt8) : ReItem → Prop
  | .one a => c = a
  | .range a b => a ≤ c ∧ c ≤ b

/-- The number digits stand for. -/
def reNumber (ds : List UInt8) : Nat := ds.foldl (fun n d => n * 10 + (d.toNat - 0x30)) 0

def RePiece.Fits : RePiece → List UInt8 → Prop
  | .char c, t => t = [c]
  | .cls items times, t => t.length = (times.map reNumber).getD 1 ∧ ∀ c ∈ t, ∃ i ∈ items, i.Has c

/-- One piece after the other. -/
inductive SeqFits : List RePiece → List UInt8 → Prop
  | nil : SeqFits [] []
  | cons {p : RePiece} {ps : List RePiece} {s t : List UInt8} : p.Fits s → SeqFits ps t → SeqFits (p :: ps) (s ++ t)

/-- The texts an expression matches as a whole. -/
def Re.Fits (r : Re) (t : List UInt8) : Prop := ∃ a ∈ r, SeqFits a t

end JT808.Spec
