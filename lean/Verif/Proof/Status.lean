import Verif.Model.Geo
import Verif.Spec.Status
import Verif.Proof.Header
/-
Helper lemmas for the location status word.
-/
namespace JT808
open Spec

theorem mask_shift32 (w : UInt32) (m k : UInt32) (lo n : Nat) (hk : k.toNat % 32 = lo)
    (hm : m.toNat = (2 ^ n - 1) <<< lo) (hn : n ≤ 8) :
    ((w &&& m) >>> k).toUInt8.toNat = bits w.toNat lo n := by
  simp only [UInt32.toNat_toUInt8, UInt32.toNat_shiftRight, UInt32.toNat_and, hk, hm, bits]
  have e : (w.toNat &&& (2 ^ n - 1) <<< lo) >>> lo = w.toNat / 2 ^ lo % 2 ^ n := by
    rw [Nat.shiftRight_and_distrib, Nat.shiftLeft_shiftRight, Nat.and_two_pow_sub_one_eq_mod,
      Nat.shiftRight_eq_div_pow]
  rw [e]
  apply Nat.mod_eq_of_lt
  have : 2 ^ n ≤ 2 ^ 8 := Nat.pow_le_pow_right (by omega) hn
  have := Nat.mod_lt (w.toNat / 2 ^ lo) (y := 2 ^ n) (Nat.two_pow_pos n)
  omega

theorem mask32 (w : UInt32) (m : UInt32) (n : Nat) (hm : m.toNat = 2 ^ n - 1) (hn : n ≤ 8) :
    (w &&& m).toUInt8.toNat = bits w.toNat 0 n := by
  have := mask_shift32 w m 0 0 n (by decide) (by simpa using hm) hn
  simpa using this

theorem GeoMeta.decode_toNat (w : UInt32) :
    (GeoMeta.decode w).acc.toNat = bits w.toNat 0 1 ∧
    (GeoMeta.decode w).located.toNat = bits w.toNat 1 1 ∧
    (GeoMeta.decode w).latType.toNat = bits w.toNat 2 1 ∧
    (GeoMeta.decode w).longType.toNat = bits w.toNat 3 1 ∧
    (GeoMeta.decode w).operating.toNat = bits w.toNat 4 1 ∧
    (GeoMeta.decode w).geoEnc.toNat = bits w.toNat 5 1 ∧
    (GeoMeta.decode w).load.toNat = bits w.toNat 8 2 ∧
    (GeoMeta.decode w).fuel.toNat = bits w.toNat 10 1 ∧
    (GeoMeta.decode w).alternator.toNat = bits w.toNat 11 1 ∧
    (GeoMeta.decode w).doorLocked.toNat = bits w.toNat 12 1 ∧
    (GeoMeta.decode w).frontDoor.toNat = bits w.toNat 13 1 ∧
    (GeoMeta.decode w).midDoor.toNat = bits w.toNat 14 1 ∧
    (GeoMeta.decode w).backDoor.toNat = bits w.toNat 15 1 ∧
    (GeoMeta.decode w).driverDoor.toNat = bits w.toNat 16 1 ∧
    (GeoMeta.decode w).customDoor.toNat = bits w.toNat 17 1 ∧
    (GeoMeta.decode w).gps.toNat = bits w.toNat 18 1 ∧
    (GeoMeta.decode w).beidou.toNat = bits w.toNat 19 1 ∧
    (GeoMeta.decode w).glonass.toNat = bits w.toNat 20 1 ∧
    (GeoMeta.decode w).galileo.toNat = bits w.toNat 21 1 ∧
    (GeoMeta.decode w).driving.toNat = bits w.toNat 22 1 :=
  ⟨mask32 w _ 1 (by decide) (by decide),
   mask_shift32 w _ _ 1 1 (by decide) (by decide) (by decide),
   mask_shift32 w _ _ 2 1 (by decide) (by decide) (by decide),
   mask_shift32 w _ _ 3 1 (by decide) (by decide) (by decide),
   mask_shift32 w _ _ 4 1 (by decide) (by decide) (by decide),
   mask_shift32 w _ _ 5 1 (by decide) (by decide) (by decide),
   mask_shift32 w _ _ 8 2 (by decide) (by decide) (by decide),
   mask_shift32 w _ _ 10 1 (by decide) (by decide) (by decide),
   mask_shift32 w _ _ 11 1 (by decide) (by decide) (by decide),
   mask_shift32 w _ _ 12 1 (by decide) (by decide) (by decide),
   mask_shift32 w _ _ 13 1 (by decide) (by decide) (by decide),
   mask_shift32 w _ _ 14 1 (by decide) (by decide) (by decide),
   mask_shift32 w _ _ 15 1 (by decide) (by decide) (by decide),
   mask_shift32 w _ _ 16 1 (by decide) (by decide) (by decide),
   mask_shift32 w _ _ 17 1 (by decide) (by decide) (by decide),
   mask_shift32 w _ _ 18 1 (by decide) (by decide) (by decide),
   mask_shift32 w _ _ 19 1 (by decide) (by decide) (by decide),
   mask_shift32 w _ _ 20 1 (by decide) (by decide) (by decide),
   mask_shift32 w _ _ 21 1 (by decide) (by decide) (by decide),
   mask_shift32 w _ _ 22 1 (by decide) (by decide) (by decide)⟩

theorem bits_split (w lo n m : Nat) : bits w lo (n + m) = bits w lo n + 2 ^ n * bits w (lo + n) m := by
  simp only [bits, Nat.pow_add, ← Nat.div_div_eq_div_mul]
  exact Nat.mod_mul

theorem bits_lt (w lo n : Nat) : bits w lo n < 2 ^ n := Nat.mod_lt _ (Nat.two_pow_pos n)

theorem add_shift32 {x : UInt32} {b : UInt8} {k : UInt32} {lo n top a : Nat}
    (hx : x.toNat = a ∧ a < 2 ^ top) (hb : b.toNat < 2 ^ n) (hk : k.toNat % 32 = lo) (ht : top ≤ lo)
    (hlo : lo + n ≤ 32) :
    (x + (b.toUInt32 <<< k)).toNat = a + 2 ^ lo * b.toNat ∧ a + 2 ^ lo * b.toNat < 2 ^ (lo + n) := by
  have h1 : a < 2 ^ lo := Nat.lt_of_lt_of_le hx.2 (Nat.pow_le_pow_right (by omega) ht)
  have h2 : a + 2 ^ lo * b.toNat < 2 ^ (lo + n) := by
    have : 2 ^ lo * (b.toNat + 1) ≤ 2 ^ lo * 2 ^ n := Nat.mul_le_mul_left _ hb
    rw [← Nat.pow_add, Nat.mul_add] at this
    omega
  have h3 : 2 ^ (lo + n) ≤ 2 ^ 32 := Nat.pow_le_pow_right (by omega) hlo
  refine ⟨?_, h2⟩
  simp only [UInt32.toNat_add, UInt32.toNat_shiftLeft, UInt8.toNat_toUInt32, hx.1, hk, Nat.shiftLeft_eq]
  rw [Nat.mul_comm _ (2 ^ lo), Nat.mod_eq_of_lt (a := 2 ^ lo * _) (by omega), Nat.mod_eq_of_lt (by omega)]

theorem GeoMeta.encode_toNat (g : GeoMeta)
    (h0 : g.acc.toNat < 2 ^ 1)
    (h1 : g.located.toNat < 2 ^ 1)
    (h2 : g.latType.toNat < 2 ^ 1)
    (h3 : g.longType.toNat < 2 ^ 1)
    (h4 : g.operating.toNat < 2 ^ 1)
    (h5 : g.geoEnc.toNat < 2 ^ 1)
    (h6 : g.load.toNat < 2 ^ 2)
    (h7 : g.fuel.toNat < 2 ^ 1)
    (h8 : g.alternator.toNat < 2 ^ 1)
    (h9 : g.doorLocked.toNat < 2 ^ 1)
    (h10 : g.frontDoor.toNat < 2 ^ 1)
    (h11 : g.midDoor.toNat < 2 ^ 1)
    (h12 : g.backDoor.toNat < 2 ^ 1)
    (h13 : g.driverDoor.toNat < 2 ^ 1)
    (h14 : g.customDoor.toNat < 2 ^ 1)
    (h15 : g.gps.toNat < 2 ^ 1)
    (h16 : g.beidou.toNat < 2 ^ 1)
    (h17 : g.glonass.toNat < 2 ^ 1)
    (h18 : g.galileo.toNat < 2 ^ 1)
    (h19 : g.driving.toNat < 2 ^ 1) :
    g.encode.toNat = g.acc.toNat
      + 2 ^ 1 * g.located.toNat
      + 2 ^ 2 * g.longType.toNat
      + 2 ^ 3 * g.latType.toNat
      + 2 ^ 4 * g.operating.toNat
      + 2 ^ 5 * g.geoEnc.toNat
      + 2 ^ 8 * g.load.toNat
      + 2 ^ 10 * g.fuel.toNat
      + 2 ^ 11 * g.alternator.toNat
      + 2 ^ 12 * g.doorLocked.toNat
      + 2 ^ 13 * g.frontDoor.toNat
      + 2 ^ 14 * g.midDoor.toNat
      + 2 ^ 15 * g.backDoor.toNat
      + 2 ^ 16 * g.driverDoor.toNat
      + 2 ^ 17 * g.customDoor.toNat
      + 2 ^ 18 * g.gps.toNat
      + 2 ^ 19 * g.beidou.toNat
      + 2 ^ 20 * g.glonass.toNat
      + 2 ^ 21 * g.galileo.toNat
      + 2 ^ 22 * g.driving.toNat := by
  have e0 : g.acc.toUInt32.toNat = g.acc.toNat ∧ g.acc.toNat < 2 ^ 1 := ⟨UInt8.toNat_toUInt32 _, h0⟩
  have e1 := add_shift32 e0 (b := g.located) (k := 1) (lo := 1) h1 (by decide) (by decide) (by decide)
  have e2 := add_shift32 e1 (b := g.longType) (k := 2) (lo := 2) h3 (by decide) (by decide) (by decide)
  have e3 := add_shift32 e2 (b := g.latType) (k := 3) (lo := 3) h2 (by decide) (by decide) (by decide)
  have e4 := add_shift32 e3 (b := g.operating) (k := 4) (lo := 4) h4 (by decide) (by decide) (by decide)
  have e5 := add_shift32 e4 (b := g.geoEnc) (k := 5) (lo := 5) h5 (by decide) (by decide) (by decide)
  have e6 := add_shift32 e5 (b := g.load) (k := 8) (lo := 8) h6 (by decide) (by decide) (by decide)
  have e7 := add_shift32 e6 (b := g.fuel) (k := 10) (lo := 10) h7 (by decide) (by decide) (by decide)
  have e8 := add_shift32 e7 (b := g.alternator) (k := 11) (lo := 11) h8 (by decide) (by decide) (by decide)
  have e9 := add_shift32 e8 (b := g.doorLocked) (k := 12) (lo := 12) h9 (by decide) (by decide) (by decide)
  have e10 := add_shift32 e9 (b := g.frontDoor) (k := 13) (lo := 13) h10 (by decide) (by decide) (by decide)
  have e11 := add_shift32 e10 (b := g.midDoor) (k := 14) (lo := 14) h11 (by decide) (by decide) (by decide)
  have e12 := add_shift32 e11 (b := g.backDoor) (k := 15) (lo := 15) h12 (by decide) (by decide) (by decide)
  have e13 := add_shift32 e12 (b := g.driverDoor) (k := 16) (lo := 16) h13 (by decide) (by decide) (by decide)
  have e14 := add_shift32 e13 (b := g.customDoor) (k := 17) (lo := 17) h14 (by decide) (by decide) (by decide)
  have e15 := add_shift32 e14 (b := g.gps) (k := 18) (lo := 18) h15 (by decide) (by decide) (by decide)
  have e16 := add_shift32 e15 (b := g.beidou) (k := 19) (lo := 19) h16 (by decide) (by decide) (by decide)
  have e17 := add_shift32 e16 (b := g.glonass) (k := 20) (lo := 20) h17 (by decide) (by decide) (by decide)
  have e18 := add_shift32 e17 (b := g.galileo) (k := 21) (lo := 21) h18 (by decide) (by decide) (by decide)
  have e19 := add_shift32 e18 (b := g.driving) (k := 22) (lo := 22) h19 (by decide) (by decide) (by decide)
  exact e19.1

theorem assigned_eq (w : Nat) :
    assignedStatus w = bits w 0 2 + 4 * bits w 2 1 + 8 * bits w 3 1 + 16 * bits w 4 2 + 256 * bits w 8 15 := by
  have s0 := bits_split w 0 2 4
  have s1 := bits_split w 2 1 3
  have s2 := bits_split w 3 1 2
  simp only [Nat.reduceAdd, Nat.reducePow] at *
  unfold assignedStatus
  omega

theorem assigned_swap (w : Nat) :
    assignedStatus (swapHemispheres w)
      = bits w 0 2 + 4 * bits w 3 1 + 8 * bits w 2 1 + 16 * bits w 4 2 + 256 * bits w 8 15 := by
  have s0 := bits_split w 4 2 26
  have s1 := bits_split w 6 2 24
  have s2 := bits_split w 8 15 9
  have b0 := bits_lt w 0 2
  have b2 := bits_lt w 2 1
  have b3 := bits_lt w 3 1
  have b4 := bits_lt w 4 2
  have b6 := bits_lt w 6 2
  have b8 := bits_lt w 8 15
  have b23 := bits_lt w 23 9
  simp only [Nat.reduceAdd, Nat.reducePow] at *
  unfold assignedStatus swapHemispheres
  generalize bits w 0 2 = x0 at *
  generalize bits w 2 1 = x2 at *
  generalize bits w 3 1 = x3 at *
  generalize bits w 4 2 = x4 at *
  generalize bits w 6 2 = x6 at *
  generalize bits w 8 15 = x8 at *
  generalize bits w 23 9 = x23 at *
  generalize bits w 4 28 = y4 at *
  generalize bits w 6 26 = y6 at *
  generalize bits w 8 24 = y8 at *
  unfold bits
  omega

end JT808
