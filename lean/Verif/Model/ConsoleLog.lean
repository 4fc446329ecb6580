import Verif.Model.DebugLog
import Verif.Spec.Json
/-
The text form of the log, which the shipped configuration chooses (configs/default.yaml:4, logger.go:68-78): newConsoleWriter,
pkg/logger/logger.go:104-124, with the ConsoleWriter of zerolog v1.28.0, strconv.Quote and json.Marshal of a map. The writer
gets the JSON line and decodes it; what it decodes is taken as what the line denotes (Spec.JText).

zerolog is not in the sandbox; its ConsoleWriter is modelled from knowledge of that release.  Simplification: a time in RFC3339Nano is
parsed and formatted again in the same form and zone (logger.go:109 and 155), which is taken to change nothing.
-/
namespace JT808

/-- Lexicographic order of strings, as sort.Strings and json.Marshal use it (library code behind logger.go:106). -/
def strLe : Str → Str → Bool
  | [], _ => true
  | _ :: _, [] => false
  | a :: s, b :: t => a < b || (a == b && strLe s t)

/-- Insertion into a list sorted by name. -/
def insertName {β : Type} (e : Str × β) : List (Str × β) → List (Str × β)
  | [] => [e]
  | x :: xs => if strLe e.1 x.1 then e :: x :: xs else x :: insertName e xs

/-- sort.Strings of the names of a map, with what belongs to them (names are different). -/
def sortNames {β : Type} : List (Str × β) → List (Str × β)
  | [] => []
  | x :: xs => insertName x (sortNames xs)

mutual

/-- json.Marshal of what a decoder with UseNumber made of a value: numbers as they were written, names of objects sorted. -/
def marshalVal : Spec.JVal → Str
  | .num n => decimal n
  | .dec a p => decimal (a / 10 ^ p) ++ 0x2e :: decimalPad p (a % 10 ^ p)
  | .neg n => 0x2d :: decimal n
  | .truth b => jsonBool b
  | .null => jsonName "null"
  | .str t => jsonString (Spec.utf8Text t)
  | .arr vs => 0x5b :: jsonSep (marshalItems vs) ++ [0x5d]
  | .obj kvs => 0x7b :: jsonSep ((sortNames (marshalMembers kvs)).map fun e => jsonString e.1 ++ 0x3a :: e.2) ++ [0x7d]

/-- The elements of a list. -/
def marshalItems : List Spec.JVal → List Str
  | [] => []
  | v :: vs => marshalVal v :: marshalItems vs

/-- The members of an object, with names as Go strings. -/
def marshalMembers : List (List Nat × Spec.JVal) → List (Str × Str)
  | [] => []
  | kv :: kvs => (Spec.utf8Text kv.1, marshalVal kv.2) :: marshalMembers kvs

end

/-- needsQuote of zerolog's console.go. -/
def needsQuote (s : Str) : Bool := s.any fun b => b < 0x20 || 0x7e < b || b == 0x20 || b == 0x5c || b == 0x22

/-- Hexadecimal digits, most significant first. -/
def hexDigits (n : Nat) : Nat → Str
  | 0 => []
  | k + 1 => hexDigits (n / 16) k ++ [jsonHex (UInt8.ofNat (n % 16))]

/-- strconv.IsPrint; `printable` is what it says above 0x7f. -/
def isPrint (printable : Nat → Bool) (n : Nat) : Bool := if n < 0x80 then decide (0x20 ≤ n ∧ n < 0x7f) else printable n

/-- One character within strconv.Quote: appendEscapedRune. -/
def quoteRune (printable : Nat → Bool) (n : Nat) : Str :=
  if n = 0x22 ∨ n = 0x5c then [0x5c, UInt8.ofNat n]
  else if isPrint printable n then Spec.utf8Of n
  else if n = 7 then [0x5c, 0x61]
  else if n = 8 then [0x5c, 0x62]
  else if n = 12 then [0x5c, 0x66]
  else if n = 10 then [0x5c, 0x6e]
  else if n = 13 then [0x5c, 0x72]
  else if n = 9 then [0x5c, 0x74]
  else if n = 11 then [0x5c, 0x76]
  else if n < 0x20 ∨ n = 0x7f then [0x5c, 0x78] ++ hexDigits n 2
  else if n < 0x10000 then [0x5c, 0x75] ++ hexDigits n 4
  else [0x5c, 0x55] ++ hexDigits n 8

/-- strconv.Quote of a string that is UTF-8. -/
def goQuote (printable : Nat → Bool) (t : List Nat) : Str := 0x22 :: t.flatMap (quoteRune printable) ++ [0x22]

/-- A value as writeFields of zerolog's console.go prints it, with FormatFieldValue of logger.go:120-122 (and the one of errors, which
does the same without colours). -/
def consoleValue (printable : Nat → Bool) : Spec.JVal → Str
  | .str t => if needsQuote (Spec.utf8Text t) then goQuote printable t else Spec.utf8Text t
  | v => marshalVal v

/-- FormatLevel, logger.go:111-113: `strings.ToUpper(fmt.Sprintf("| %-6s|", level))`. -/
def consoleLevel (t : Str) : Str :=
  [0x7c, 0x20] ++ (t.map fun b => if 0x61 ≤ b ∧ b ≤ 0x7a then b - 0x20 else b) ++ List.replicate (6 - t.length) 0x20 ++ [0x7c]

/-- The names that are not among the fields: writeFields of zerolog's console.go with the names of logger.go:156-157. -/
def consoleParts : List Str := [jsonName "level", jsonName "time", jsonName "m", jsonName "c"]

/-- The fields of an event in the order of printing: sorted, an error first. -/
def consoleFields (kvs : List (List Nat × Spec.JVal)) : List (Str × Spec.JVal) :=
  let fs := sortNames ((kvs.map fun e => (Spec.utf8Text e.1, e.2)).filter fun e => !consoleParts.contains e.1)
  fs.filter (fun e => e.1 == jsonName "error") ++ fs.filter (fun e => e.1 != jsonName "error")

/-- A part that is a string; anything else is printed by other formatters and does not occur. -/
def partText (kvs : List (List Nat × Spec.JVal)) (name : String) : Str :=
  match List.lookup (jsonName name) (kvs.map fun e => ((Spec.utf8Text e.1, e.2) : Str × Spec.JVal)) with
  | some (Spec.JVal.str t) => Spec.utf8Text t
  | _ => []

/-- The line without its end: time, level, caller with ` >`, text with ` |` (logger.go:114-116), fields as `name=value`
(117-119). -/
def consoleText (printable : Nat → Bool) (kvs : List (List Nat × Spec.JVal)) : Str :=
  partText kvs "time" ++ 0x20 :: consoleLevel (partText kvs "level") ++ 0x20 :: partText kvs "c" ++ [0x20, 0x3e, 0x20] ++
    partText kvs "m" ++ [0x20, 0x7c] ++
    (consoleFields kvs).flatMap fun e => 0x20 :: e.1 ++ 0x3d :: consoleValue printable e.2

/-- (ConsoleWriter).Write: what is printed for a line that denotes this value. A line that is no object cannot be decoded and
nothing is printed. -/
def consoleLine (printable : Nat → Bool) : Spec.JVal → Str
  | .obj kvs => consoleText printable kvs ++ [0x0a]
  | _ => []

/-- The file in text form, by the values of the JSON lines. -/
def consoleFile (printable : Nat → Bool) (vs : List Spec.JVal) : Str := vs.flatMap (consoleLine printable)

/-- The line of a recovered panic, pkg/routines/safe.go:30-33, as JSON: `p` is the text of the panic, `stack` that of
debug.Stack(). -/
def panicLine (L : LogSetup) (time p stack : Str) : Str :=
  jsonStruct
    [("level", zeroString (jsonName "error")), ("c", zeroString (callerText (L.root ++ jsonName "/pkg/routines/safe.go") 32)),
     ("time", 0x22 :: time ++ [0x22]),
     ("m", zeroString (jsonName "err=" ++ p ++ jsonName ", stack=" ++ stack))] ++ [0x0a]

end JT808
