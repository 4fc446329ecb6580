import Verif.Go.Basic
import Verif.Spec.Body
/-
Specification of the terminal parameter table (JT/T 808 table "terminal parameter ids") by ranges, and of
updating; no reference to the model.
-/
namespace JT808.Spec

/-- Wire types of parameter values. -/
inductive PType where
  | byte | word | dword | bcd | string | gbk
  deriving DecidableEq, Repr

/-- The parameter ids of each wire type. -/
def paramIDs : PType → List Nat
  | .dword => List.range' 0x01 7 ++ [0x18, 0x19, 0x1B, 0x1C] ++ List.range' 0x20 3 ++ List.range' 0x27 3 ++
      List.range' 0x2C 5 ++ List.range' 0x45 3 ++ List.range' 0x50 11 ++ [0x64, 0x65] ++ List.range' 0x70 5 ++
      [0x80, 0x93, 0x95, 0x100, 0x102]
  | .word => [0x31] ++ List.range' 0x5B 4 ++ [0x81, 0x82, 0x101, 0x103]
  | .byte => [0x84] ++ List.range' 0x90 3 ++ [0x94]
  | .gbk => List.range' 0x10 8 ++ [0x1A, 0x1D] ++ List.range' 0x23 4 ++ List.range' 0x40 5 ++ [0x48, 0x49, 0x83]
  | .bcd => [0x32] ++ List.range' 0x75 3 ++ List.range' 0x79 4
  | .string => [0x110]

/-- A parameter item on the wire: id, length, value. -/
def paramItem (id : Nat) (value : List UInt8) : List UInt8 := dword id ++ [UInt8.ofNat value.length] ++ value

/-- A BCD value as the digits it shows: packed two per byte; shorter than eight digits, it is filled up in front to
eight with the filler nibble 15. -/
def bcdValue (digits : List Nat) : List UInt8 := packBcd (List.replicate (8 - digits.length) 15 ++ digits)

/-- Finite map from ids to values, as a function, after writing a list of (id, value) pairs in order: the last
one wins. -/
def lastValue {V : Type} (l : List (UInt32 × V)) (id : UInt32) : Option V :=
  match l with
  | [] => none
  | (k, v) :: rest =>
    match lastValue rest id with
    | some w => some w
    | none => if k = id then some v else none

/-- Ascending ids without repetition. -/
def StrictlyAscending : List UInt32 → Prop
  | [] => True
  | [_] => True
  | a :: b :: rest => a < b ∧ StrictlyAscending (b :: rest)

end JT808.Spec
