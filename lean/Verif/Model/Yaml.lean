import Verif.Model.Startup
import Verif.Model.Datagen
/-
Reading the two configuration files of the project: what viper, yaml and mapstructure (internal/config/config.go:143-178) make
of a text, and what the patterns in it mean to regen (test/datagen/datagen.go:17-20).  The libraries are not in the sandbox.
Only the part of YAML and of regular expressions that occurs in configs/default.yaml and test/client/configs/default.yaml is
read; of anything else the reader makes nothing.
-/
namespace JT808

/-- A value: a text in double quotes or a word. -/
inductive Scalar where
  | quoted (s : Str)
  | plain (s : Str)
  deriving DecidableEq

/-- The lines of a text. -/
def textLines : Str → List Str
  | [] => [[]]
  | b :: bs =>
    if b = 0x0a then [] :: textLines bs
    else
      match textLines bs with
      | [] => [[b]]
      | l :: ls => (b :: l) :: ls

/-- A line without its comment: `#` begins one at the start of the line or after a space, outside quotes. -/
def dropComment : (inQuotes afterSpace : Bool) → Str → Str
  | _, _, [] => []
  | q, sp, b :: bs =>
    if b = 0x23 ∧ sp = true ∧ q = false then []
    else b :: dropComment (if b = 0x22 then !q else q) (b == 0x20) bs

/-- A text without the spaces at its end. -/
def trimEnd (s : Str) : Str := (s.reverse.dropWhile (· == 0x20)).reverse

/-- A word or a quoted text without escapes. -/
def readScalar (s : Str) : Option Scalar :=
  match s with
  | 0x22 :: rest =>
    let body := rest.takeWhile (· != 0x22)
    if rest.drop body.length = [0x22] ∧ 0x5c ∉ body then some (.quoted body) else none
  | _ => if s ≠ [] ∧ s.all (fun b => (0x30 ≤ b && b ≤ 0x39) || (0x61 ≤ b && b ≤ 0x7a)) = true then some (.plain s) else none

/-- A line that is not empty: how far it is indented, its key, and its value if it has one. -/
def readLine (s : Str) : Option (Nat × Str × Option Scalar) :=
  let ind := (s.takeWhile (· == 0x20)).length
  let body := s.drop ind
  let key := body.takeWhile fun b => (0x61 ≤ b && b ≤ 0x7a) || (0x41 ≤ b && b ≤ 0x5a)
  match body.drop key.length with
  | [0x3a] => if key = [] then none else some (ind, key, none)
  | 0x3a :: 0x20 :: v => if key = [] then none else (readScalar v).map fun v => (ind, key, some v)
  | _ => none

/-- The values of a file, each under the keys that lead to it, in the order of the file; `stack` are the keys around the line,
the innermost first, with their indentation.  Siblings that are not indented alike and a key that comes twice are
not noticed; neither occurs. A section without values is null, as if it were not there. -/
def readLines : List (Nat × Str) → List Str → Option (List (List Str × Scalar))
  | _, [] => some []
  | stack, l :: ls =>
    if trimEnd (dropComment false true l) = [] then readLines stack ls
    else
      match readLine (trimEnd (dropComment false true l)) with
      | none => none
      | some (ind, key, v) =>
        let outer := stack.dropWhile fun e => ind ≤ e.1
        match v with
        | none => readLines ((ind, key) :: outer) ls
        | some v => (readLines outer ls).map fun es => ((outer.reverse.map (·.2) ++ [key], v) :: es)

/-- The values of a file. -/
abbrev YamlFile := List (List Str × Scalar)

def readYaml (text : Str) : Option YamlFile := readLines [] (textLines text)

/-- The value under keys given in lower case: viper makes the keys of a file lower case, and mapstructure compares them with the
names of the fields without regard to case. -/
def YamlFile.at (y : YamlFile) (path : List String) : Option Scalar :=
  (y.find? fun e => e.1.map lowerKey = path.map jsonName).map (·.2)

/-- What yaml.v3 takes a value for when no type is asked for. -/
inductive YVal where
  | str (s : Str)
  | int (n : Nat)
  | bool (b : Bool)
  | nil
  deriving DecidableEq

/-- A quoted value is a text; of words `true`, `false` and `null` are no texts, and digits are a number.  Nothing is made of
numbers with a zero in front (octal), of those beyond int64, and of other words that begin with a digit (0x1f, 1e5). -/
def Scalar.resolve : Scalar → Option YVal
  | .quoted s => some (.str s)
  | .plain s =>
    if s = jsonName "true" then some (.bool true)
    else if s = jsonName "false" then some (.bool false)
    else if s = jsonName "null" then some .nil
    else
      match s with
      | [] => none
      | c :: cs =>
        if 0x30 ≤ c ∧ c ≤ 0x39 then
          match atoiDigits 0 (c :: cs) with
          | some n => if (c = 0x30 → cs = []) ∧ n < 2 ^ 63 then some (.int n) else none
          | none => none
        else some (.str (c :: cs))

/-- Whether the file has a section: the pointer to the struct is nil otherwise. -/
def YamlFile.has (y : YamlFile) (path : List String) : Bool :=
  y.any fun e => decide (path.map jsonName <+: e.1.map lowerKey ∧ path.length < e.1.length)

/-- The value under keys; null is as good as none (AllSettings of viper leaves it out). -/
def YamlFile.val (y : YamlFile) (path : List String) : Option YVal :=
  match y.at path with
  | none => some .nil
  | some v => v.resolve

/-- A field of type string, empty if the file does not have it.  viper lets mapstructure convert (WeaklyTypedInput). -/
def YamlFile.text (y : YamlFile) (path : List String) : Option Str :=
  (y.val path).map fun
    | .str s => s
    | .int n => decimal n
    | .bool b => if b then [0x31] else [0x30]
    | .nil => []

/-- strconv.ParseBool, and the empty text. -/
def parseBool (s : Str) : Option Bool :=
  if s ∈ ["1", "t", "T", "true", "TRUE", "True"].map jsonName then some true
  else if s ∈ ["", "0", "f", "F", "false", "FALSE", "False"].map jsonName then some false
  else none

/-- A field of type bool. -/
def YamlFile.flag (y : YamlFile) (path : List String) : Option Bool :=
  (y.val path).bind fun
    | .str s => parseBool s
    | .int n => some (n != 0)
    | .bool b => some b
    | .nil => some false

/-- A field of type int.  Of texts only digits without a zero in front, and the empty one, are read. -/
def YamlFile.num (y : YamlFile) (path : List String) : Option Nat :=
  (y.val path).bind fun
    | .str [] => some 0
    | .str s =>
      match (Scalar.plain s).resolve with
      | some (.int n) => some n
      | _ => none
    | .int n => some n
    | .bool b => some (if b then 1 else 0)
    | .nil => some 0

/-- The sections: a value in place of one is an error, except null. -/
def sectionPaths : List (List String) :=
  [["log"], ["server"], ["server", "port"], ["server", "banner"], ["client"], ["client", "conn"], ["client", "device"],
    ["client", "devicegeo"], ["client", "devicegeo", "geo"], ["client", "devicegeo", "location"], ["client", "devicegeo", "drive"],
    ["client", "deviceparams"]]

/-- The other fields of type string, config.go:39, 63, 75-127: what they are does not matter to the start, but it has to be
readable. -/
def otherTexts : List (List String) :=
  [["log", "logfile"], ["client", "name"]] ++
  ["idreg", "imeireg", "phonereg", "platereg", "protocolversion", "transproto", "provinceidreg", "cityidreg",
    "platecolorreg"].map (["client", "device", ·]) ++
  ["accstatusreg", "locationstatusreg", "latitudetypereg", "longitudetypereg", "operatingstatusreg", "geoencryptionstatusreg",
    "loadstatusreg", "fuelsystemstatusreg", "alternatorsystemstatusreg", "doorlockedstatusreg", "frontdoorstatusreg",
    "middoorstatusreg", "backdoorstatusreg", "driverdoorstatusreg", "customdoorstatusreg", "gpslocationstatusreg",
    "beidoulocationstatusreg", "glonasslocationstatusreg", "galileolocationstatusreg",
    "drivingstatusreg"].map (["client", "devicegeo", "geo", ·]) ++
  ["latitudereg", "longitudereg", "altitudereg"].map (["client", "devicegeo", "location", ·]) ++
  ["speedreg", "directionreg"].map (["client", "devicegeo", "drive", ·])

/-- The other fields of type int, config.go:40-42, 82, 89. -/
def otherNumbers : List (List String) :=
  [["log", "maxsizeofrolling"], ["log", "maxbackupsofrolling"], ["log", "maxageofrolling"], ["client", "device", "keepalive"],
    ["client", "devicegeo", "locationreportinterval"]]

/-- A text of ASCII characters as a string. -/
def asString (s : Str) : String := String.ofList (s.map fun b => Char.ofNat b.toNat)

/-- config.go:33-43. -/
def YamlFile.log (y : YamlFile) : Option (Option Startup.LogConf) :=
  if y.has ["log"] then do
    let console ← y.flag ["log", "consoleenable"]
    let file ← y.flag ["log", "fileenable"]
    let json ← y.flag ["log", "printasjson"]
    let level ← y.text ["log", "loglevel"]
    let dir ← y.text ["log", "logdirectory"]
    return some ⟨console, file, json, asString level, asString dir⟩
  else some none

/-- config.go:51-55. -/
def YamlFile.port (y : YamlFile) : Option (Option Startup.PortConf) :=
  if y.has ["server", "port"] then do
    let tcp ← y.text ["server", "port", "tcpport"]
    let udp ← y.text ["server", "port", "udpport"]
    let http ← y.text ["server", "port", "httpport"]
    return some ⟨asString tcp, asString udp, asString http⟩
  else some none

/-- config.go:57-60. -/
def YamlFile.banner (y : YamlFile) : Option (Option Startup.BannerConf) :=
  if y.has ["server", "banner"] then do
    let enable ← y.flag ["server", "banner", "enable"]
    let path ← y.text ["server", "banner", "bannerpath"]
    return some ⟨enable, asString path⟩
  else some none

/-- config.go:45-49. -/
def YamlFile.server (y : YamlFile) : Option (Option Startup.ServerConf) :=
  if y.has ["server"] then do
    let name ← y.text ["server", "name"]
    let port ← y.port
    let banner ← y.banner
    return some ⟨asString name, port, banner⟩
  else some none

/-- config.go:62-73, 88-93. A negative number does not occur in the files. -/
def YamlFile.client (y : YamlFile) : Option (Option Startup.ClientConf) :=
  if y.has ["client"] then do
    let addr ← y.text ["client", "conn", "remoteaddr"]
    let count ← y.num ["client", "concurrency"]
    return some
      { conn := if y.has ["client", "conn"] then some (asString addr) else none
        concurrency := count
        device := y.has ["client", "device"]
        deviceGeo :=
          if y.has ["client", "devicegeo"] then
            some ⟨y.has ["client", "devicegeo", "geo"], y.has ["client", "devicegeo", "location"],
              y.has ["client", "devicegeo", "drive"]⟩
          else none }
  else some none

/-- Config, config.go:132-136. -/
def YamlFile.conf (y : YamlFile) : Option Startup.Conf :=
  if (sectionPaths.all fun p => y.val p == some .nil) = true ∧ (otherTexts.all fun p => (y.text p).isSome) = true ∧
      (otherNumbers.all fun p => (y.num p).isSome) = true then do
    let log ← y.log
    let server ← y.server
    let client ← y.client
    return ⟨log, server, client⟩
  else none

/-- A configuration file, config.go:159-173; a text or a value that nothing is made of (see above) counts as unreadable. -/
def contentOf (text : Str) : Startup.Content :=
  match (readYaml text).bind (·.conf) with
  | some c => .conf c
  | none => .unreadable

/-- The characters of a class: single ones and ranges. -/
def classChars : Str → Option (List UInt8)
  | [] => some []
  | a :: 0x2d :: b :: rest =>
    (classChars rest).map fun cs => (List.range (b.toNat + 1 - a.toNat)).map (fun i => UInt8.ofNat (a.toNat + i)) ++ cs
  | a :: rest => (classChars rest).map fun cs => a :: cs

/-- The characters that mean something in a regular expression. -/
def isMeta (b : UInt8) : Bool :=
  (jsonName "\\.+*?()|[]{}^$").contains b

/-- The pieces of an alternative: fixed text, or a class and how often. -/
def readPieces : Nat → Str → Option (List Pattern)
  | _, [] => some []
  | 0, _ :: _ => none
  | fuel + 1, b :: bs =>
    if b = 0x5b then
      let body := bs.takeWhile (· != 0x5d)
      match classChars body, bs.drop body.length with
      | some cls, 0x5d :: rest =>
        match rest with
        | 0x7b :: more =>
          let digits := more.takeWhile (· != 0x7d)
          match atoiDigits 0 digits, more.drop digits.length with
          | some n, 0x7d :: rest => if digits = [] then none else (readPieces fuel rest).map fun ps => .chars cls n :: ps
          | _, _ => none
        | _ => (readPieces fuel rest).map fun ps => .chars cls 1 :: ps
      | _, _ => none
    else
      let lit := (b :: bs).takeWhile fun b => !isMeta b
      if lit = [] then none else (readPieces fuel ((b :: bs).drop lit.length)).map fun ps => .fixed lit :: ps

/-- One after the other. -/
def joinPieces : List Pattern → Pattern
  | [] => .fixed []
  | [p] => p
  | p :: ps => .seq p (joinPieces ps)

/-- The alternatives of an expression. -/
def splitBar : Str → List Str
  | [] => [[]]
  | b :: bs =>
    if b = 0x7c then [] :: splitBar bs
    else
      match splitBar bs with
      | [] => [[b]]
      | s :: ss => (b :: s) :: ss

def readAlternatives : List Str → Option Pattern
  | [] => none
  | [s] => (readPieces (s.length + 1) s).map joinPieces
  | s :: ss => do
    let p ← readPieces (s.length + 1) s
    let q ← readAlternatives ss
    return .either (joinPieces p) q

/-- The pattern an expression stands for. -/
def readPattern (s : Str) : Option Pattern := readAlternatives (splitBar s)

/-- The switch of GenDevice, test/datagen/datagen.go:39-49; of any other text the model makes nothing. -/
def readVersion (s : Str) : Option Ver :=
  if s = jsonName "2019" then some .v2019
  else if s = jsonName "2013" then some .v2013
  else if s = jsonName "2011" then some .v2011
  else none

/-- The patterns of a section, with the keys as they are written. -/
def YamlFile.patterns (y : YamlFile) (path : List String) : Option (List (Str × Pattern)) :=
  (y.filter fun e => decide (e.1.dropLast.map lowerKey = path.map jsonName)).mapM fun e =>
    match e.1.getLast?, e.2 with
    | some key, .quoted s => (readPattern s).map fun p => (key, p)
    | _, _ => none

/-- The pattern under keys given in lower case. -/
def YamlFile.pattern (y : YamlFile) (path : List String) : Option Pattern := (y.text path).bind readPattern

/-- DeviceConf, config.go:75-86: the part from which a device is made. -/
def YamlFile.device (y : YamlFile) : Option DeviceConf := do
  let id ← y.pattern ["client", "device", "idreg"]
  let imei ← y.pattern ["client", "device", "imeireg"]
  let phone ← y.pattern ["client", "device", "phonereg"]
  let plate ← y.pattern ["client", "device", "platereg"]
  let ver ← (y.text ["client", "device", "protocolversion"]).bind readVersion
  return ⟨id, imei, phone, plate, ver⟩

end JT808
