import Verif.Model.Geo
/-
The float64 fields of a stored position: internal/protocol/model/device.go:97-117.
-/
namespace JT808

/-- A non-negative binary64 number below 2^53, as `m / 2^k`. -/
structure F64 where
  m : Nat
  k : Nat
  deriving DecidableEq, Repr

/-- The same number. -/
def F64.Same (x y : F64) : Prop := x.m * 2 ^ y.k = y.m * 2 ^ x.k

instance (x y : F64) : Decidable (x.Same y) := inferInstanceAs (Decidable (_ = _))

/-- The exponent of the binary64 numbers around `n / d`: the smallest `k` with `2^52 ≤ n / d * 2^k`, and 1074 (that of the
subnormal numbers) if there is none up to that. -/
def f64exp (n d : Nat) : Nat → Nat
  | 0 => 0
  | fuel + 1 => if 2 ^ 52 * d ≤ n then 0 else f64exp (2 * n) d fuel + 1

/-- `n / d` rounded to binary64, to nearest, ties to even: what Go's `float64(n) / d` (device.go:104, 105, 115) and
strconv.ParseFloat of a decimal fraction give.  Simplification: for quotients below 2^53 only. -/
def f64div (n d : Nat) : F64 :=
  let k := f64exp n d 1074
  let q := n * 2 ^ k / d
  let r := n * 2 ^ k % d
  ⟨if 2 * r < d then q else if 2 * r = d ∧ q % 2 = 0 then q else q + 1, k⟩

/-- `uint8(b)`, `uint16(b)`, `uint32(b)` of a float64 in range, device_params.go:124, 135, 146: the fraction is dropped. -/
def F64.trunc (x : F64) : Nat := x.m / 2 ^ x.k

/-- LocationAccuracy, device.go:93. -/
def locationAccuracy : Nat := 1000000

/-- SpeedAccuracy, device.go:94. -/
def speedAccuracy : Nat := 10

/-- `l.Latitude`, device.go:104. -/
def DeviceGeo.latitude (g : DeviceGeo) : F64 := f64div g.lat.toNat locationAccuracy

/-- `l.Longitude`, device.go:105. -/
def DeviceGeo.longitude (g : DeviceGeo) : F64 := f64div g.long.toNat locationAccuracy

/-- `d.Speed`, device.go:115. -/
def DeviceGeo.kmh (g : DeviceGeo) : F64 := f64div g.speed.toNat speedAccuracy

end JT808
