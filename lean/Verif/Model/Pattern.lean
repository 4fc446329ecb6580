import Verif.Model.Client
/-
The configuration shipped with the terminal simulator, test/client/configs/default.yaml, and what
regen.Generate (test/datagen/datagen.go:17-20) may make of its patterns.
-/
namespace JT808

/-- The patterns of test/client/configs/default.yaml:19-60: a fixed text, a number of characters of a class, one pattern
after another, or one of two.  Simplification: only the forms that occur there. -/
inductive Pattern where
  | fixed (s : Str)
  | chars (cls : List UInt8) (n : Nat)
  | seq (a b : Pattern)
  | either (a b : Pattern)
  deriving DecidableEq

/-- matchTokenAndGen, test/datagen/datagen.go:17-20: regen.Generate returns some text that matches.  That the library
does is trusted. -/
def Pattern.Makes : Pattern → Str → Prop
  | .fixed t, s => s = t
  | .chars cls n, s => s.length = n ∧ ∀ c ∈ s, c ∈ cls
  | .seq a b, s => ∃ u v, s = u ++ v ∧ a.Makes u ∧ b.Makes v
  | .either a b, s => a.Makes s ∨ b.Makes s

/-- `[0-9]` -/
def digitClass : List UInt8 := [0x30, 0x31, 0x32, 0x33, 0x34, 0x35, 0x36, 0x37, 0x38, 0x39]

/-- The patterns a device is generated from, config.go:75-86. -/
structure DeviceConf where
  id : Pattern
  imei : Pattern
  phone : Pattern
  plate : Pattern
  ver : Ver
  deriving DecidableEq

/-- test/client/configs/default.yaml:19-25; the plate is the UTF-8 text of line 24. -/
def shippedConf : DeviceConf :=
  { id := .chars digitClass 7
    imei := .chars digitClass 15
    phone := .fixed [0x31, 0x33, 0x30, 0x31, 0x32, 0x33, 0x34, 0x35, 0x36, 0x37, 0x38]
    plate := .fixed [0xe4, 0xba, 0xac, 0x41, 0x31, 0x32, 0x33, 0x34, 0x35]
    ver := .v2019 }

/-- GenDevice, test/datagen/datagen.go:30-52: the four texts drawn from the patterns. -/
def DeviceConf.Draws (c : DeviceConf) (id plate phone imei : Str) : Prop :=
  c.id.Makes id ∧ c.plate.Makes plate ∧ c.phone.Makes phone ∧ c.imei.Makes imei

end JT808
