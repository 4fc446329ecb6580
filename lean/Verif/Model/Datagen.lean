import Verif.Model.Pattern
import Verif.Model.Float
import Verif.Model.Binding
import Verif.Model.JsonText
/-
The numbers of the terminal simulator: test/datagen/datagen.go:22-28, 98-189, and the positions it starts from,
test/client/main.go:78-104.
-/
namespace JT808

/-- The loop of strconv.Atoi over the digits: the number so far, nothing after a byte that is no digit. -/
def atoiDigits (n : Nat) : Str → Option Nat
  | [] => some n
  | c :: cs => if 0x30 ≤ c ∧ c ≤ 0x39 then atoiDigits (n * 10 + (c.toNat - 0x30)) cs else none

/-- The sign strconv.Atoi allows. -/
def atoiSign : Str → Bool × Str
  | [] => (false, [])
  | c :: cs => if c = 0x2d then (true, cs) else if c = 0x2b then (false, cs) else (false, c :: cs)

/-- atoi, test/datagen/datagen.go:22-28: strconv.Atoi takes an optional sign and at least one digit and fails outside the
range of int64; 0 stands for every failure. -/
def atoi (s : Str) : Int :=
  if (atoiSign s).2 = [] then 0
  else
    match atoiDigits 0 (atoiSign s).2 with
    | none => 0
    | some n =>
      if (atoiSign s).1 then (if n ≤ 2 ^ 63 then -(n : Int) else 0) else (if n < 2 ^ 63 then n else 0)

/-- `byte(x)` of an int64, datagen.go:106, 113-132. -/
def lowByte (x : Int) : UInt8 := UInt8.ofNat (x % 256).toNat

/-- `uint16(x)` of an int64, datagen.go:101-102, 143, 147. -/
def lowWord (x : Int) : UInt16 := UInt16.ofNat (x % 65536).toNat

/-- A text generated from the pattern under each key of a section of the configuration (config.go:75-127), the key in lower
case; the pattern of a key that is missing is empty, and so is the text. -/
abbrev Texts := String → Str

/-- GenMsg0100, datagen.go:98-109. -/
def registerMsg (t : Texts) (d : Device) : Out :=
  clientRegister d (lowWord (atoi (t "provinceidreg"))) (lowWord (atoi (t "cityidreg"))) (lowByte (atoi (t "platecolorreg")))

/-- genGeoMeta, datagen.go:111-134, with the keys of config.go:96-115. -/
def genGeoMeta (t : Texts) : GeoMeta :=
  { acc := lowByte (atoi (t "accstatusreg"))
    located := lowByte (atoi (t "locationstatusreg"))
    latType := lowByte (atoi (t "latitudetypereg"))
    longType := lowByte (atoi (t "longitudetypereg"))
    operating := lowByte (atoi (t "operatingstatusreg"))
    geoEnc := lowByte (atoi (t "geoencryptionstatusreg"))
    load := lowByte (atoi (t "loadstatusreg"))
    fuel := lowByte (atoi (t "fuelsystemstatusreg"))
    alternator := lowByte (atoi (t "alternatorsystemstatusreg"))
    doorLocked := lowByte (atoi (t "doorlockedstatusreg"))
    frontDoor := lowByte (atoi (t "frontdoorstatusreg"))
    midDoor := lowByte (atoi (t "middoorstatusreg"))
    backDoor := lowByte (atoi (t "backdoorstatusreg"))
    driverDoor := lowByte (atoi (t "driverdoorstatusreg"))
    customDoor := lowByte (atoi (t "customdoorstatusreg"))
    gps := lowByte (atoi (t "gpslocationstatusreg"))
    beidou := lowByte (atoi (t "beidoulocationstatusreg"))
    glonass := lowByte (atoi (t "glonasslocationstatusreg"))
    galileo := lowByte (atoi (t "galileolocationstatusreg"))
    driving := lowByte (atoi (t "drivingstatusreg")) }

/-- What GenDeviceGeo fills in and GenMsg0200 reads again, datagen.go:136-152: latitude, longitude and speed are float64
made of an integer.  Simplification: for integers up to 2^53, which float64 represents exactly.  The status and the
direction of the stored position are never read. -/
structure SimGeo where
  lat : Int
  long : Int
  alt : UInt16
  speed : Int
  dir : UInt16
  deriving DecidableEq, Repr

/-- GenDeviceGeo, datagen.go:136-152, with the keys of config.go:119-127. -/
def genSimGeo (t : Texts) : SimGeo :=
  { lat := atoi (t "latitudereg"), long := atoi (t "longitudereg"), alt := lowWord (atoi (t "altitudereg"))
    speed := atoi (t "speedreg"), dir := lowWord (atoi (t "directionreg")) }

/-- A binary64 number `num / 2^k`. -/
structure S64 where
  num : Int
  k : Nat
  deriving DecidableEq, Repr

/-- `n / d` rounded to binary64 (see `f64div`); the sign does not matter to rounding. -/
def f64round (n : Int) (d : Nat) : S64 :=
  let x := f64div n.natAbs d
  ⟨if n < 0 then -(x.m : Int) else x.m, x.k⟩

/-- `x + y` of float64, datagen.go:156, 157, 159, 165, 166, 168. -/
def S64.add (x y : S64) : S64 := f64round (x.num * 2 ^ y.k + y.num * 2 ^ x.k) (2 ^ (x.k + y.k))

/-- `x * y` of float64 with a whole `y`, datagen.go:156, 157, 159, 165, 166, 168.  Simplification: no fused multiply-add,
which Go uses on some processors, not on amd64. -/
def S64.times (x : S64) (y : Nat) : S64 := f64round (x.num * y) (2 ^ x.k)

/-- `rand.Float64()`: `float64(r.Int63n(1<<53)) / (1<<53)`. -/
def randFloat (u : Fin (2 ^ 53)) : S64 := ⟨u.val, 53⟩

/-- The result of converting a float64 to an unsigned integer of so many bits: the fraction is dropped; Go leaves open what
happens to a value outside the range, which `wild` gives. -/
def S64.toUInt (wild : Int → Nat → Nat) (bits : Nat) (x : S64) : Nat :=
  let t := x.num.tdiv (2 ^ x.k)
  if 0 ≤ t ∧ t < 2 ^ bits then t.toNat else wild t bits % 2 ^ bits

/-- On amd64 the value is converted to a wider signed integer and cut. -/
def amd64Wild (t : Int) (bits : Nat) : Nat := (t % 2 ^ bits).toNat

/-- What GenMsg0200 draws, datagen.go:156-161, 171. -/
structure Dice where
  lat : Fin (2 ^ 53)
  long : Fin (2 ^ 53)
  alt : Fin 11
  speed : Fin (2 ^ 53)
  dir : Fin 360
  now : Civil

/-- `rand.Float64()*2 - 1`, datagen.go:156, 157. -/
def degreeOffset (u : Fin (2 ^ 53)) : S64 := ((randFloat u).times 2).add ⟨-1, 0⟩

/-- `rand.Float64()*20 - 10`, datagen.go:159. -/
def speedOffset (u : Fin (2 ^ 53)) : S64 := ((randFloat u).times 20).add ⟨-10, 0⟩

/-- GenMsg0200, datagen.go:155-171: the numbers `clientLocation` goes on with.  `t` are the texts of a new status. -/
def drawReport (wild : Int → Nat → Nat) (g : SimGeo) (t : Texts) (x : Dice) : LocDraw :=
  { geo := genGeoMeta t
    lat := UInt32.ofNat (((S64.mk g.lat 0).add (degreeOffset x.lat)).times locationAccuracy |>.toUInt wild 32)
    long := UInt32.ofNat (((S64.mk g.long 0).add (degreeOffset x.long)).times locationAccuracy |>.toUInt wild 32)
    alt := g.alt
    altOff := lowWord ((x.alt.val : Int) - 5)
    speed := UInt16.ofNat (((S64.mk g.speed 0).add (speedOffset x.speed)).times speedAccuracy |>.toUInt wild 16)
    dir := x.dir
    now := x.now }

/-- The rings of the simulator's process, internal/storage/geo_cache.go:34-51: one for each phone.  Simplification: those of
the server's frames that would write or delete there (location reports, deregistrations) are left out; the server sends none. -/
abbrev SimRings := AMap (Ring SimGeo)

/-- buildDeviceGeo, test/client/main.go:78-85. -/
def SimRings.build (rs : SimRings) (phone : Str) (g : SimGeo) : SimRings :=
  match ((rs.get phone).getD (Ring.new 100)).write (some g) with
  | .ok rb => rs.set phone rb
  | _ => rs

/-- The simulators of a process build their positions one after the other. -/
def SimRings.builds (rs : SimRings) : List (Str × SimGeo) → SimRings
  | [] => rs
  | b :: bs => (rs.build b.1 b.2).builds bs

/-- One round of reportLocation, test/client/main.go:91-98: the message sent, if there is a position
(GetGeoLatestByPhone, geo_cache.go:45-51). -/
def SimRings.report (wild : Int → Nat → Nat) (rs : SimRings) (d : Device) (t : Texts) (x : Dice) : Option Out :=
  match ((rs.get d.phone).getD (Ring.new 100)).latest with
  | .ok (some g) => some (clientLocation d (drawReport wild g t x))
  | _ => none

/-- `0|1` -/
def flagPattern : Pattern := .either (.fixed [0x30]) (.fixed [0x31])

/-- `[0-9]` -/
def digitPattern : Pattern := .chars digitClass 1

/-- test/client/configs/default.yaml:28-30, the numbers of the `device` section. -/
def shippedNumbers : List (String × Pattern) :=
  [("provinceIdReg", .chars digitClass 2), ("cityIdReg", .chars digitClass 4),
   ("plateColorReg", .chars [0x30, 0x31, 0x32, 0x33, 0x34, 0x35, 0x39] 1)]

/-- test/client/configs/default.yaml:33-60, with the keys as they are written there. -/
def shippedGeo : List (String × Pattern) :=
  [("accStatusReg", flagPattern), ("locationStatusReg", flagPattern), ("latitudeTypeReg", flagPattern),
   ("longitudeTypeReg", flagPattern), ("operatingStatusReg", flagPattern), ("geoEncryptionStatusReg", flagPattern),
   ("loadStatusReg", flagPattern), ("FuelSystemStatusReg", flagPattern), ("AlternatorSystemStatusReg", flagPattern),
   ("DoorLockedStatusReg", flagPattern), ("frontDoorStatusReg", flagPattern), ("midDoorStatusReg", flagPattern),
   ("backDoorStatusReg", flagPattern), ("driverDoorStatusReg", flagPattern), ("customDoorStatusReg", flagPattern),
   ("gpsLocationStatusReg", flagPattern), ("beidouLocationStatusReg", flagPattern),
   ("glonassLocationStatusReg", flagPattern), ("galileoLocationStatusReg", flagPattern), ("drivingStatusReg", flagPattern),
   ("latitudeReg", .either (.seq (.chars [0x30, 0x31, 0x32, 0x33, 0x34, 0x35, 0x36, 0x37, 0x38] 1) digitPattern)
      (.fixed [0x39, 0x30])),
   ("longitudeReg", .either (.chars digitClass 2) (.either
      (.seq (.fixed [0x31]) (.seq (.chars [0x30, 0x31, 0x32, 0x33, 0x34, 0x35, 0x36, 0x37] 1) digitPattern))
      (.fixed [0x31, 0x38, 0x30]))),
   ("altitudeReg", .chars digitClass 4), ("speedReg", .chars digitClass 2),
   ("directionReg", .either (.chars digitClass 2) (.either (.seq (.chars [0x31, 0x32] 1) (.chars digitClass 2))
      (.seq (.fixed [0x33]) (.seq (.chars [0x30, 0x31, 0x32, 0x33, 0x34, 0x35] 1) digitPattern))))]

/-- What a section has under a key given in lower case: viper makes the keys of the file lower case, and mapstructure
compares them with the names of the fields (config.go:75-127) without regard to case; the tags of the fields are not used. -/
def underKey (sec : List (String × Pattern)) (key : String) : Option Pattern :=
  (sec.find? fun e => lowerKey (jsonName e.1) = jsonName key).map (·.2)

/-- The texts that may be drawn from a section: the field of a key that is missing keeps the empty pattern, from which the
empty text is generated. -/
def Drawn (sec : List (String × Pattern)) (t : Texts) : Prop :=
  ∀ key, match underKey sec key with
    | some p => p.Makes (t key)
    | none => t key = []

end JT808
