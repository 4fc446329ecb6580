import Verif.Model.Binding
import Verif.Model.JsonText
/-
How the bytes of a parameter-setting request become a JSON value: json.NewDecoder(body).Decode of the standard library, called
by gin's ShouldBind in internal/api/api.go:74.  The library first scans the text (scanner.go) and then decodes it
(decode.go); here both are done in one pass.
-/
namespace JT808

/-- isSpace of encoding/json, used by api.go:74. -/
def jsonSpace (b : UInt8) : Bool := b == 0x20 || b == 0x09 || b == 0x0d || b == 0x0a

/-- White space before a value or a punctuation mark is skipped. -/
def skipSpace (s : Str) : Str := s.dropWhile jsonSpace

/-- A hexadecimal digit, getu4 of encoding/json. -/
def jsonNibble (b : UInt8) : Option Nat :=
  if 0x30 ≤ b ∧ b ≤ 0x39 then some (b - 0x30).toNat
  else if 0x61 ≤ b ∧ b ≤ 0x66 then some ((b - 0x61).toNat + 10)
  else if 0x41 ≤ b ∧ b ≤ 0x46 then some ((b - 0x41).toNat + 10)
  else none

/-- getu4 of encoding/json, after the backslash and the u: the number and what follows. -/
def getu4 : Str → Option (Nat × Str)
  | a :: b :: c :: d :: s =>
    match jsonNibble a, jsonNibble b, jsonNibble c, jsonNibble d with
    | some w, some x, some y, some z => some (((w * 16 + x) * 16 + y) * 16 + z, s)
    | _, _, _, _ => none
  | _ => none

/-- utf8.EncodeRune, used when a string is decoded; surrogates become U+FFFD. -/
def putRune (n : Nat) : Str :=
  if n < 0x80 then [UInt8.ofNat n]
  else if n < 0x800 then [UInt8.ofNat (0xC0 + n / 64), UInt8.ofNat (0x80 + n % 64)]
  else if 0x10FFFF < n ∨ 0xD800 ≤ n ∧ n ≤ 0xDFFF then [0xEF, 0xBF, 0xBD]
  else if n < 0x10000 then
    [UInt8.ofNat (0xE0 + n / 4096), UInt8.ofNat (0x80 + n / 64 % 64), UInt8.ofNat (0x80 + n % 64)]
  else
    [UInt8.ofNat (0xF0 + n / 262144), UInt8.ofNat (0x80 + n / 4096 % 64), UInt8.ofNat (0x80 + n / 64 % 64),
      UInt8.ofNat (0x80 + n % 64)]

/-- The second half of a surrogate pair, unquote of encoding/json with utf16.DecodeRune: if `s` begins with the escape of a
low surrogate and `r` is a high one, the character and what follows. -/
def lowHalf (r : Nat) : Str → Option (Nat × Str)
  | 0x5c :: 0x75 :: s =>
    match getu4 s with
    | some (r2, s') =>
      if r < 0xDC00 ∧ 0xDC00 ≤ r2 ∧ r2 < 0xE000 then some ((r - 0xD800) * 1024 + (r2 - 0xDC00) + 0x10000, s') else none
    | none => none
  | _ => none

/-- What follows a backslash in a string, unquote of encoding/json: the bytes it stands for and the rest. -/
def readEscape : Str → Option (Str × Str)
  | [] => none
  | e :: s =>
    if e = 0x75 then
      match getu4 s with
      | none => none
      | some (r, s') =>
        if 0xD800 ≤ r ∧ r < 0xE000 then
          match lowHalf r s' with
          | some (n, s'') => some (putRune n, s'')
          | none => some (putRune 0xFFFD, s')
        else some (putRune r, s')
    else if e = 0x22 ∨ e = 0x5c ∨ e = 0x2f then some ([e], s)
    else if e = 0x62 then some ([0x08], s)
    else if e = 0x66 then some ([0x0c], s)
    else if e = 0x6e then some ([0x0a], s)
    else if e = 0x72 then some ([0x0d], s)
    else if e = 0x74 then some ([0x09], s)
    else none

/-- One character of a string, not a quotation mark: control characters are refused, bytes that are no UTF-8 are replaced by
U+FFFD. -/
def readChar : Str → Option (Str × Str)
  | [] => none
  | b :: s =>
    if b = 0x5c then readEscape s
    else if b < 0x20 then none
    else if b < 0x80 then some ([b], s)
    else
      match runeSize (b :: s) with
      | 0 => some (putRune 0xFFFD, s)
      | n + 1 => some ((b :: s).take (n + 1), (b :: s).drop (n + 1))

/-- The characters of a string up to the closing quotation mark; `k` bounds their number. -/
def readChars : Nat → Str → Option (Str × Str)
  | 0, _ => none
  | _, [] => none
  | k + 1, b :: s =>
    if b = 0x22 then some ([], s)
    else
      match readChar (b :: s) with
      | none => none
      | some (t, s') =>
        match readChars k s' with
        | none => none
        | some (t', s'') => some (t ++ t', s'')

/-- A string, after its opening quotation mark. -/
def readStr (s : Str) : Option (Str × Str) := readChars s.length s

/-- A digit. -/
def jsonDigit (b : UInt8) : Bool := 0x30 ≤ b && b ≤ 0x39

/-- The number written with some digits. -/
def digitsVal (s : Str) : Nat := s.foldl (fun v b => 10 * v + (b.toNat - 0x30)) 0

/-- One or more digits. -/
def readDigits (s : Str) : Option (Str × Str) :=
  if s.takeWhile jsonDigit = [] then none else some (s.takeWhile jsonDigit, s.dropWhile jsonDigit)

/-- The whole part of a number: a zero, or digits that do not begin with a zero (state1 and state0 of scanner.go). -/
def readWhole : Str → Option (Str × Str)
  | 0x30 :: s => some ([0x30], s)
  | s => readDigits s

/-- The decimal point and the digits after it (stateDot), if there is one. -/
def readFraction : Str → Option (Str × Str)
  | 0x2e :: s => readDigits s
  | s => some ([], s)

/-- The sign of an exponent: whether it is negative. -/
def readSign : Str → Bool × Str
  | 0x2b :: s => (false, s)
  | 0x2d :: s => (true, s)
  | s => (false, s)

/-- The exponent (stateE), if there is one: its sign and its size. -/
def readExponent : Str → Option (Option (Bool × Nat) × Str)
  | [] => some (none, [])
  | b :: s =>
    if b = 0x65 ∨ b = 0x45 then
      match readDigits (readSign s).2 with
      | none => none
      | some (ds, r) => some (some ((readSign s).1, digitsVal ds), r)
    else some (none, b :: s)

/-- The value of a number: digits only make a whole number; of every other number the whole part is kept, of a negative one
modulo 2^64 (see `Json`). -/
def numberValue (neg : Bool) (whole frac : Str) (exp : Option (Bool × Nat)) : Json :=
  if neg = false ∧ frac = [] ∧ exp = none then .num (digitsVal whole)
  else
    let m := digitsVal (whole ++ frac)
    let w := match exp with
      | some (false, x) => m * 10 ^ x / 10 ^ frac.length
      | some (true, x) => m / 10 ^ (frac.length + x)
      | none => m / 10 ^ frac.length
    .frac (if neg then (2 ^ 64 - w % 2 ^ 64) % 2 ^ 64 else w)

/-- The sign of a number and what follows it. -/
def signOf : Str → Bool × Str
  | 0x2d :: s => (true, s)
  | s => (false, s)

/-- A number, scanner.go of encoding/json. -/
def readNumber (s₀ : Str) : Option (Json × Str) :=
  match readWhole (signOf s₀).2 with
  | none => none
  | some (whole, s) =>
    match readFraction s with
    | none => none
    | some (frac, s) =>
      match readExponent s with
      | none => none
      | some (exp, s) => some (numberValue (signOf s₀).1 whole frac exp, s)

/-- A value that is neither a list nor an object. -/
def readAtom : Str → Option (Json × Str)
  | 0x22 :: s =>
    match readStr s with
    | none => none
    | some (t, s) => some (.str t, s)
  | 0x6e :: 0x75 :: 0x6c :: 0x6c :: s => some (.null, s)
  | 0x74 :: 0x72 :: 0x75 :: 0x65 :: s => some (.bool true, s)
  | 0x66 :: 0x61 :: 0x6c :: 0x73 :: 0x65 :: s => some (.bool false, s)
  | s => readNumber s

/-- The elements of a list or the members of an object, at least one, up to the closing bracket; `rp` reads one of them, `k`
bounds their number. -/
def readSequence {β : Type} (close : UInt8) (rp : Str → Option (β × Str)) : Nat → Str → Option (List β × Str)
  | 0, _ => none
  | k + 1, s =>
    match rp s with
    | none => none
    | some (v, s) =>
      match skipSpace s with
      | [] => none
      | c :: s =>
        if c = 0x2c then
          match readSequence close rp k s with
          | none => none
          | some (vs, s) => some (v :: vs, s)
        else if c = close then some ([v], s)
        else none

/-- A key and its value. -/
def readMember (rv : Str → Option (Json × Str)) (s : Str) : Option ((Str × Json) × Str) :=
  match skipSpace s with
  | 0x22 :: s =>
    match readStr s with
    | none => none
    | some (key, s) =>
      match skipSpace s with
      | 0x3a :: s =>
        match rv s with
        | none => none
        | some (j, s) => some ((key, j), s)
      | _ => none
  | _ => none

/-- A value with at most `d` lists and objects within each other, and what follows it. -/
def readValue : Nat → Str → Option (Json × Str)
  | 0, s => readAtom (skipSpace s)
  | d + 1, s =>
    match skipSpace s with
    | 0x5b :: s =>
      match skipSpace s with
      | 0x5d :: s => some (.arr [], s)
      | _ =>
        match readSequence 0x5d (readValue d) s.length s with
        | none => none
        | some (js, s) => some (.arr js, s)
    | 0x7b :: s =>
      match skipSpace s with
      | 0x7d :: s => some (.obj [], s)
      | _ =>
        match readSequence 0x7d (readMember (readValue d)) s.length s with
        | none => none
        | some (ms, s) => some (.obj ms, s)
    | s => readAtom s

/-- maxNestingDepth of encoding/json. -/
def maxNesting : Nat := 10000

/-- The body of a request with the content type application/json, api.go:74: the first value in it; the decoder does not look
at what follows. -/
def Body.ofText (s : Str) : Body :=
  match readValue maxNesting s with
  | some (j, _) => .json j
  | none => .broken

end JT808
