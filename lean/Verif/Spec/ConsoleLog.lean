import Verif.Spec.DebugLog
/-
How a log in text form is read: lines of `time | LEVEL | place > text | name=value name=value`, and what they should say.
-/
namespace JT808.Spec

/-- The lines of a file, each ended by a line feed; an unfinished last line does not count. -/
def linesIn : List UInt8 → List UInt8 → List (List UInt8)
  | _, [] => []
  | acc, b :: s => if b = 0x0a then acc :: linesIn [] s else linesIn (acc ++ [b]) s

/-- What a line is read as. -/
structure LogLine where
  time : List UInt8
  level : List UInt8
  place : List UInt8
  said : List UInt8
  fields : List (List UInt8 × List UInt8)
  deriving DecidableEq, Repr

/-- Up to the first byte `b`, which is dropped. -/
def upTo (b : UInt8) : List UInt8 → Option (List UInt8 × List UInt8)
  | [] => none
  | x :: s => if x = b then some ([], s) else (upTo b s).map fun p => (x :: p.1, p.2)

/-- What follows a given beginning. -/
def after : List UInt8 → List UInt8 → Option (List UInt8)
  | [], s => some s
  | _, [] => none
  | a :: u, b :: s => if a = b then after u s else none

/-- A number in hexadecimal. -/
def hexNumber (ds : List UInt8) : Option Nat :=
  ds.foldl (fun acc b => acc.bind fun n => (hexWorth b).map fun d => n * 16 + d) (some 0)

/-- Go's escapes of one letter: the letter and the byte. -/
def goEscapes : List (UInt8 × UInt8) :=
  [(0x22, 0x22), (0x5c, 0x5c), (0x61, 7), (0x62, 8), (0x66, 12), (0x6e, 10), (0x72, 13), (0x74, 9), (0x76, 11)]

/-- What stands between quotation marks, as the Go language reads it, up to the closing one: the bytes meant, and what follows. -/
def goLiteral : List UInt8 → Option (List UInt8 × List UInt8)
  | [] => none
  | 0x22 :: s => some ([], s)
  | 0x5c :: 0x78 :: a :: b :: s => do
    let n ← hexNumber [a, b]
    let r ← goLiteral s
    pure (UInt8.ofNat n :: r.1, r.2)
  | 0x5c :: 0x75 :: a :: b :: c :: d :: s => do
    let n ← hexNumber [a, b, c, d]
    let r ← goLiteral s
    pure (utf8Of n ++ r.1, r.2)
  | 0x5c :: 0x55 :: a :: b :: c :: d :: e :: f :: g :: h :: s => do
    let n ← hexNumber [a, b, c, d, e, f, g, h]
    let r ← goLiteral s
    pure (utf8Of n ++ r.1, r.2)
  | 0x5c :: e :: s => do
    let x ← goEscapes.lookup e
    let r ← goLiteral s
    pure (x :: r.1, r.2)
  | b :: s => (goLiteral s).map fun r => (b :: r.1, r.2)

/-- A value in quotation marks, or everything up to a space. -/
def wordIn : List UInt8 → Option (List UInt8 × List UInt8)
  | 0x22 :: s => goLiteral s
  | s => some (s.takeWhile (· ≠ 0x20), s.dropWhile (· ≠ 0x20))

/-- A value: a message is JSON up to the end of the line, anything else a word. -/
def valueIn (name s : List UInt8) : Option (List UInt8 × List UInt8) :=
  if name = utf8Text (chars "incoming") ∨ name = utf8Text (chars "outgoing") then some (s, []) else wordIn s

/-- The fields `name=value`, each after a space; `k` bounds their number. -/
def fieldsIn : Nat → List UInt8 → Option (List (List UInt8 × List UInt8))
  | _, [] => some []
  | 0, _ => none
  | k + 1, s => do
    let s ← after [0x20] s
    let (name, s) ← upTo 0x3d s
    let (value, s) ← valueIn name s
    let rest ← fieldsIn k s
    pure ((name, value) :: rest)

/-- A line. -/
def lineIn (s : List UInt8) : Option LogLine := do
  let (time, s) ← upTo 0x20 s
  let s ← after [0x7c, 0x20] s
  let (level, s) ← upTo 0x20 s
  let s ← after [0x7c, 0x20] (s.dropWhile (· = 0x20))
  let (place, s) ← upTo 0x20 s
  let s ← after [0x3e, 0x20] s
  let (said, s) ← upTo 0x7c s
  let fields ← fieldsIn s.length s
  pure ⟨time, level, place, said.dropLast, fields⟩

/-- The field of a line. -/
def LogLine.get (l : LogLine) (name : String) : Option (List UInt8) := l.fields.lookup (utf8Text (chars name))

/-- Bytes written with two digits each. -/
def unhexBytes (s : List UInt8) : Option (List UInt8) := unhex (s.map UInt8.toNat)

/-- A line that says a frame was received: the connection and the bytes. -/
def receivedOn (l : LogLine) : Option (List UInt8 × List UInt8) :=
  if l.said = utf8Text (chars "Received frame.") then do
    let id ← l.get "id"
    let f ← (l.get "frame_payload").bind unhexBytes
    pure (id, f)
  else none

/-- A line that says a frame was sent: the bytes. -/
def sentOn (l : LogLine) : Option (List UInt8) :=
  if l.said = utf8Text (chars "Sent frame.") then (l.get "frame_payload").bind unhexBytes else none

/-- The same with the addresses as one sees them, in UTF-8. -/
inductive ShownFrom : List (Str × List UInt8) → List (List UInt8 × List UInt8) → Prop
  | nil : ShownFrom [] []
  | cons {a : Str} {t : List Nat} {f : List UInt8} {xs ys} : Seen a t → ShownFrom xs ys →
      ShownFrom ((a, f) :: xs) ((utf8Text t, f) :: ys)

mutual

/-- The same value, the members of objects in any order. -/
inductive SameVal : JVal → JVal → Prop
  | refl (v : JVal) : SameVal v v
  | arr {vs ws : List JVal} : SameItems vs ws → SameVal (.arr vs) (.arr ws)
  | obj {kvs ls ms : List (List Nat × JVal)} : SameMembers kvs ls → ls.Perm ms → SameVal (.obj kvs) (.obj ms)

/-- The same values. -/
inductive SameItems : List JVal → List JVal → Prop
  | nil : SameItems [] []
  | cons {v w : JVal} {vs ws : List JVal} : SameVal v w → SameItems vs ws → SameItems (v :: vs) (w :: ws)

/-- The same members. -/
inductive SameMembers : List (List Nat × JVal) → List (List Nat × JVal) → Prop
  | nil : SameMembers [] []
  | cons {k : List Nat} {v w : JVal} {kvs ls : List (List Nat × JVal)} : SameVal v w → SameMembers kvs ls →
      SameMembers ((k, v) :: kvs) ((k, w) :: ls)

end

/-- A line about a message: which connection, the number of the message, the message as JSON under the name `dir`, the place in
the program and the text of the line. -/
def TextAbout (dir place said : String) (id : Str) (num : UInt16) (msg : JVal) (l : LogLine) : Prop :=
  l.level = utf8Text (chars "DEBUG") ∧ l.place = utf8Text (chars place) ∧ l.said = utf8Text (chars said) ∧
  (∃ t, Seen id t ∧ l.get "id" = some (utf8Text t)) ∧
  l.get "RawMsgID" = some (utf8Text (numberText num.toNat)) ∧
  ∃ s w, l.get dir = some s ∧ JText s w ∧ SameVal msg w

end JT808.Spec
