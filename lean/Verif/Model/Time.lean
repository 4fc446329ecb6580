import Verif.Model.Hex
/-
Timestamps: internal/codec/hex/hex.go:178-208 and the part of Go's time.Parse that the layout
"060102150405" exercises.
-/
namespace JT808

/-- The civil fields of a `time.Time`, as `FormatTime` reads them (location and fractions dropped). -/
structure Civil where
  year : Nat
  month : Nat
  day : Nat
  hour : Nat
  minute : Nat
  second : Nat
  deriving DecidableEq, Repr

/-- `time.isDigit` on an optional character. -/
def isDigit (c : UInt8) : Bool := 0x30 ≤ c && c ≤ 0x39

/-- The value of a decimal digit, as in Go's time.getnum. -/
def digitVal (c : UInt8) : Nat := c.toNat - 0x30

/-- Go 1.19 time.Parse, `case stdYear`: two characters through `atoi`; 69..99 is 19xx.  (`atoi` would also
take a sign; strings that come out of `bcd2NumberStr` hold only 0-9A-E, so signs are not modelled.) -/
def parseYear : Str → Option (Nat × Str)
  | a :: b :: rest =>
    if isDigit a && isDigit b then
      let y := digitVal a * 10 + digitVal b
      some ((if y ≥ 69 then 1900 + y else 2000 + y), rest)
    else none
  | _ => none

/-- Go 1.19 time.getnum. -/
def getnum (fixed : Bool) : Str → Option (Nat × Str)
  | [] => none
  | [a] => if isDigit a then (if fixed then none else some (digitVal a, [])) else none
  | a :: b :: rest =>
    if isDigit a then
      if isDigit b then some (digitVal a * 10 + digitVal b, rest)
      else if fixed then none else some (digitVal a, b :: rest)
    else none

/-- Go time.isLeap -/
def isLeap (y : Nat) : Bool := y % 4 == 0 && (y % 100 != 0 || y % 400 == 0)

/-- Go time.daysIn -/
def daysIn (m y : Nat) : Nat :=
  if m = 2 then (if isLeap y then 29 else 28)
  else if m = 4 ∨ m = 6 ∨ m = 9 ∨ m = 11 then 30 else 31

/-- `time.Parse("060102150405", s)` (hex.go:19, 191); `none` is a parse error.  Range checks as in Go:
month and clock fields when read, day at the end, leftover text is an error.  (Fractional seconds need a
'.' or ',' which a BCD string cannot contain.) -/
def timeParse (s : Str) : Option Civil :=
  match parseYear s with
  | none => none
  | some (year, s1) =>
  match getnum true s1 with
  | none => none
  | some (month, s2) =>
  if month = 0 ∨ 12 < month then none else
  match getnum true s2 with
  | none => none
  | some (day, s3) =>
  match getnum false s3 with
  | none => none
  | some (hour, s4) =>
  if 24 ≤ hour then none else
  match getnum true s4 with
  | none => none
  | some (minute, s5) =>
  if 60 ≤ minute then none else
  match getnum true s5 with
  | none => none
  | some (second, s6) =>
  if 60 ≤ second then none else
  if s6 ≠ [] then none else
  if day < 1 ∨ daysIn month year < day then none else
  some ⟨year, month, day, hour, minute, second⟩

/-- ParseTime, internal/codec/hex/hex.go:190-197; `now` is `time.Now()`. -/
def parseTime (now : Civil) (s : Str) : Civil :=
  match timeParse s with
  | some t => t
  | none => now

/-- `fmt.Sprintf("%02d", n)` for `n < 100`. -/
def dec2 (n : Nat) : Str := [0x30 + UInt8.ofNat (n / 10), 0x30 + UInt8.ofNat (n % 10)]

/-- FormatTime, internal/codec/hex/hex.go:199-208. -/
def formatTime (t : Civil) : Str :=
  dec2 (t.year % 100) ++ dec2 t.month ++ dec2 t.day ++ dec2 t.hour ++ dec2 t.minute ++ dec2 t.second

/-- ReadTime, internal/codec/hex/hex.go:179-183. -/
def readTime (now : Civil) : Rd Civil := do
  let s ← readBCD 6
  pure (parseTime now s)

/-- WriteTime, internal/codec/hex/hex.go:186-188. -/
def writeTime (pkt : List UInt8) (t : Civil) : List UInt8 := writeBCD pkt (formatTime t)

end JT808
