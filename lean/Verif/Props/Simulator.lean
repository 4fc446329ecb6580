import Verif.Props.EndToEnd
import Verif.Props.Handlers
import Verif.Props.Status
/-
C82: location reports of the simulator, from the generator to the server's track.
-/
namespace JT808
open Spec

/-! ## C82 -/

/-- Every flag is 0 or 1, the load 0 to 3 (what the simulator's configuration generates). -/
structure GeoMeta.Flags (g : GeoMeta) : Prop where
  acc : g.acc.toNat < 2
  located : g.located.toNat < 2
  latType : g.latType.toNat < 2
  longType : g.longType.toNat < 2
  operating : g.operating.toNat < 2
  geoEnc : g.geoEnc.toNat < 2
  load : g.load.toNat < 4
  fuel : g.fuel.toNat < 2
  alternator : g.alternator.toNat < 2
  doorLocked : g.doorLocked.toNat < 2
  frontDoor : g.frontDoor.toNat < 2
  midDoor : g.midDoor.toNat < 2
  backDoor : g.backDoor.toNat < 2
  driverDoor : g.driverDoor.toNat < 2
  customDoor : g.customDoor.toNat < 2
  gps : g.gps.toNat < 2
  beidou : g.beidou.toNat < 2
  glonass : g.glonass.toNat < 2
  galileo : g.galileo.toNat < 2
  driving : g.driving.toNat < 2

/-- The same with the hemispheres exchanged. -/
def GeoMeta.mirrored (g : GeoMeta) : GeoMeta := { g with latType := g.longType, longType := g.latType }

theorem bits_mid {w lo x hi i k : Nat} (hw : w = lo + 2 ^ i * (x + 2 ^ k * hi)) (h1 : lo < 2 ^ i) (h2 : x < 2 ^ k) :
    bits w i k = x := by
  unfold bits
  rw [hw, Nat.add_mul_div_left _ _ (Nat.two_pow_pos i), Nat.div_eq_of_lt h1, Nat.zero_add, Nat.add_mul_mod_self_left,
    Nat.mod_eq_of_lt h2]

theorem decode_encode_mirrored {g : GeoMeta} (h : g.Flags) : GeoMeta.decode g.encode = g.mirrored := by
  have he := GeoMeta.encode_toNat g h.acc h.located h.latType h.longType h.operating h.geoEnc h.load h.fuel h.alternator
    h.doorLocked h.frontDoor h.midDoor h.backDoor h.driverDoor h.customDoor h.gps h.beidou h.glonass h.galileo h.driving
  obtain ⟨d0, d1, d2, d3, d4, d5, d6, d7, d8, d9, d10, d11, d12, d13, d14, d15, d16, d17, d18, d19⟩ :=
    GeoMeta.decode_toNat g.encode
  obtain ⟨b0, b1, b2, b3, b4, b5, b6, b7, b8, b9, b10, b11, b12, b13, b14, b15, b16, b17, b18, b19⟩ := h
  unfold GeoMeta.mirrored
  have ext : ∀ {a b : GeoMeta}, a.acc = b.acc → a.located = b.located → a.latType = b.latType → a.longType = b.longType →
      a.operating = b.operating → a.geoEnc = b.geoEnc → a.load = b.load → a.fuel = b.fuel → a.alternator = b.alternator →
      a.doorLocked = b.doorLocked → a.frontDoor = b.frontDoor → a.midDoor = b.midDoor → a.backDoor = b.backDoor →
      a.driverDoor = b.driverDoor → a.customDoor = b.customDoor → a.gps = b.gps → a.beidou = b.beidou →
      a.glonass = b.glonass → a.galileo = b.galileo → a.driving = b.driving → a = b := by
    intro a b
    cases a; cases b
    simp only
    intros
    simp only [*]
  apply ext <;> rw [← UInt8.toNat_inj]
  · rw [d0]
    refine bits_mid (x := g.acc.toNat) (lo := 0) (hi := 2 ^ 0 * g.located.toNat + 2 ^ 1 * g.longType.toNat + 2 ^ 2 * g.latType.toNat + 2 ^ 3 * g.operating.toNat + 2 ^ 4 * g.geoEnc.toNat + 2 ^ 7 * g.load.toNat + 2 ^ 9 * g.fuel.toNat + 2 ^ 10 * g.alternator.toNat + 2 ^ 11 * g.doorLocked.toNat + 2 ^ 12 * g.frontDoor.toNat + 2 ^ 13 * g.midDoor.toNat + 2 ^ 14 * g.backDoor.toNat + 2 ^ 15 * g.driverDoor.toNat + 2 ^ 16 * g.customDoor.toNat + 2 ^ 17 * g.gps.toNat + 2 ^ 18 * g.beidou.toNat + 2 ^ 19 * g.glonass.toNat + 2 ^ 20 * g.galileo.toNat + 2 ^ 21 * g.driving.toNat) ?_ ?_ ?_
    · rw [he]; clear he d0 d1 d2 d3 d4 d5 d6 d7 d8 d9 d10 d11 d12 d13 d14 d15 d16 d17 d18 d19; omega
    · clear he d0 d1 d2 d3 d4 d5 d6 d7 d8 d9 d10 d11 d12 d13 d14 d15 d16 d17 d18 d19; omega
    · assumption
  · rw [d1]
    refine bits_mid (x := g.located.toNat) (lo := 2 ^ 0 * g.acc.toNat) (hi := 2 ^ 0 * g.longType.toNat + 2 ^ 1 * g.latType.toNat + 2 ^ 2 * g.operating.toNat + 2 ^ 3 * g.geoEnc.toNat + 2 ^ 6 * g.load.toNat + 2 ^ 8 * g.fuel.toNat + 2 ^ 9 * g.alternator.toNat + 2 ^ 10 * g.doorLocked.toNat + 2 ^ 11 * g.frontDoor.toNat + 2 ^ 12 * g.midDoor.toNat + 2 ^ 13 * g.backDoor.toNat + 2 ^ 14 * g.driverDoor.toNat + 2 ^ 15 * g.customDoor.toNat + 2 ^ 16 * g.gps.toNat + 2 ^ 17 * g.beidou.toNat + 2 ^ 18 * g.glonass.toNat + 2 ^ 19 * g.galileo.toNat + 2 ^ 20 * g.driving.toNat) ?_ ?_ ?_
    · rw [he]; clear he d0 d1 d2 d3 d4 d5 d6 d7 d8 d9 d10 d11 d12 d13 d14 d15 d16 d17 d18 d19; omega
    · clear he d0 d1 d2 d3 d4 d5 d6 d7 d8 d9 d10 d11 d12 d13 d14 d15 d16 d17 d18 d19; omega
    · assumption
  · rw [d2]
    refine bits_mid (x := g.longType.toNat) (lo := 2 ^ 0 * g.acc.toNat + 2 ^ 1 * g.located.toNat) (hi := 2 ^ 0 * g.latType.toNat + 2 ^ 1 * g.operating.toNat + 2 ^ 2 * g.geoEnc.toNat + 2 ^ 5 * g.load.toNat + 2 ^ 7 * g.fuel.toNat + 2 ^ 8 * g.alternator.toNat + 2 ^ 9 * g.doorLocked.toNat + 2 ^ 10 * g.frontDoor.toNat + 2 ^ 11 * g.midDoor.toNat + 2 ^ 12 * g.backDoor.toNat + 2 ^ 13 * g.driverDoor.toNat + 2 ^ 14 * g.customDoor.toNat + 2 ^ 15 * g.gps.toNat + 2 ^ 16 * g.beidou.toNat + 2 ^ 17 * g.glonass.toNat + 2 ^ 18 * g.galileo.toNat + 2 ^ 19 * g.driving.toNat) ?_ ?_ ?_
    · rw [he]; clear he d0 d1 d2 d3 d4 d5 d6 d7 d8 d9 d10 d11 d12 d13 d14 d15 d16 d17 d18 d19; omega
    · clear he d0 d1 d2 d3 d4 d5 d6 d7 d8 d9 d10 d11 d12 d13 d14 d15 d16 d17 d18 d19; omega
    · assumption
  · rw [d3]
    refine bits_mid (x := g.latType.toNat) (lo := 2 ^ 0 * g.acc.toNat + 2 ^ 1 * g.located.toNat + 2 ^ 2 * g.longType.toNat) (hi := 2 ^ 0 * g.operating.toNat + 2 ^ 1 * g.geoEnc.toNat + 2 ^ 4 * g.load.toNat + 2 ^ 6 * g.fuel.toNat + 2 ^ 7 * g.alternator.toNat + 2 ^ 8 * g.doorLocked.toNat + 2 ^ 9 * g.frontDoor.toNat + 2 ^ 10 * g.midDoor.toNat + 2 ^ 11 * g.backDoor.toNat + 2 ^ 12 * g.driverDoor.toNat + 2 ^ 13 * g.customDoor.toNat + 2 ^ 14 * g.gps.toNat + 2 ^ 15 * g.beidou.toNat + 2 ^ 16 * g.glonass.toNat + 2 ^ 17 * g.galileo.toNat + 2 ^ 18 * g.driving.toNat) ?_ ?_ ?_
    · rw [he]; clear he d0 d1 d2 d3 d4 d5 d6 d7 d8 d9 d10 d11 d12 d13 d14 d15 d16 d17 d18 d19; omega
    · clear he d0 d1 d2 d3 d4 d5 d6 d7 d8 d9 d10 d11 d12 d13 d14 d15 d16 d17 d18 d19; omega
    · assumption
  · rw [d4]
    refine bits_mid (x := g.operating.toNat) (lo := 2 ^ 0 * g.acc.toNat + 2 ^ 1 * g.located.toNat + 2 ^ 2 * g.longType.toNat + 2 ^ 3 * g.latType.toNat) (hi := 2 ^ 0 * g.geoEnc.toNat + 2 ^ 3 * g.load.toNat + 2 ^ 5 * g.fuel.toNat + 2 ^ 6 * g.alternator.toNat + 2 ^ 7 * g.doorLocked.toNat + 2 ^ 8 * g.frontDoor.toNat + 2 ^ 9 * g.midDoor.toNat + 2 ^ 10 * g.backDoor.toNat + 2 ^ 11 * g.driverDoor.toNat + 2 ^ 12 * g.customDoor.toNat + 2 ^ 13 * g.gps.toNat + 2 ^ 14 * g.beidou.toNat + 2 ^ 15 * g.glonass.toNat + 2 ^ 16 * g.galileo.toNat + 2 ^ 17 * g.driving.toNat) ?_ ?_ ?_
    · rw [he]; clear he d0 d1 d2 d3 d4 d5 d6 d7 d8 d9 d10 d11 d12 d13 d14 d15 d16 d17 d18 d19; omega
    · clear he d0 d1 d2 d3 d4 d5 d6 d7 d8 d9 d10 d11 d12 d13 d14 d15 d16 d17 d18 d19; omega
    · assumption
  · rw [d5]
    refine bits_mid (x := g.geoEnc.toNat) (lo := 2 ^ 0 * g.acc.toNat + 2 ^ 1 * g.located.toNat + 2 ^ 2 * g.longType.toNat + 2 ^ 3 * g.latType.toNat + 2 ^ 4 * g.operating.toNat) (hi := 2 ^ 2 * g.load.toNat + 2 ^ 4 * g.fuel.toNat + 2 ^ 5 * g.alternator.toNat + 2 ^ 6 * g.doorLocked.toNat + 2 ^ 7 * g.frontDoor.toNat + 2 ^ 8 * g.midDoor.toNat + 2 ^ 9 * g.backDoor.toNat + 2 ^ 10 * g.driverDoor.toNat + 2 ^ 11 * g.customDoor.toNat + 2 ^ 12 * g.gps.toNat + 2 ^ 13 * g.beidou.toNat + 2 ^ 14 * g.glonass.toNat + 2 ^ 15 * g.galileo.toNat + 2 ^ 16 * g.driving.toNat) ?_ ?_ ?_
    · rw [he]; clear he d0 d1 d2 d3 d4 d5 d6 d7 d8 d9 d10 d11 d12 d13 d14 d15 d16 d17 d18 d19; omega
    · clear he d0 d1 d2 d3 d4 d5 d6 d7 d8 d9 d10 d11 d12 d13 d14 d15 d16 d17 d18 d19; omega
    · assumption
  · rw [d6]
    refine bits_mid (x := g.load.toNat) (lo := 2 ^ 0 * g.acc.toNat + 2 ^ 1 * g.located.toNat + 2 ^ 2 * g.longType.toNat + 2 ^ 3 * g.latType.toNat + 2 ^ 4 * g.operating.toNat + 2 ^ 5 * g.geoEnc.toNat) (hi := 2 ^ 0 * g.fuel.toNat + 2 ^ 1 * g.alternator.toNat + 2 ^ 2 * g.doorLocked.toNat + 2 ^ 3 * g.frontDoor.toNat + 2 ^ 4 * g.midDoor.toNat + 2 ^ 5 * g.backDoor.toNat + 2 ^ 6 * g.driverDoor.toNat + 2 ^ 7 * g.customDoor.toNat + 2 ^ 8 * g.gps.toNat + 2 ^ 9 * g.beidou.toNat + 2 ^ 10 * g.glonass.toNat + 2 ^ 11 * g.galileo.toNat + 2 ^ 12 * g.driving.toNat) ?_ ?_ ?_
    · rw [he]; clear he d0 d1 d2 d3 d4 d5 d6 d7 d8 d9 d10 d11 d12 d13 d14 d15 d16 d17 d18 d19; omega
    · clear he d0 d1 d2 d3 d4 d5 d6 d7 d8 d9 d10 d11 d12 d13 d14 d15 d16 d17 d18 d19; omega
    · assumption
  · rw [d7]
    refine bits_mid (x := g.fuel.toNat) (lo := 2 ^ 0 * g.acc.toNat + 2 ^ 1 * g.located.toNat + 2 ^ 2 * g.longType.toNat + 2 ^ 3 * g.latType.toNat + 2 ^ 4 * g.operating.toNat + 2 ^ 5 * g.geoEnc.toNat + 2 ^ 8 * g.load.toNat) (hi := 2 ^ 0 * g.alternator.toNat + 2 ^ 1 * g.doorLocked.toNat + 2 ^ 2 * g.frontDoor.toNat + 2 ^ 3 * g.midDoor.toNat + 2 ^ 4 * g.backDoor.toNat + 2 ^ 5 * g.driverDoor.toNat + 2 ^ 6 * g.customDoor.toNat + 2 ^ 7 * g.gps.toNat + 2 ^ 8 * g.beidou.toNat + 2 ^ 9 * g.glonass.toNat + 2 ^ 10 * g.galileo.toNat + 2 ^ 11 * g.driving.toNat) ?_ ?_ ?_
    · rw [he]; clear he d0 d1 d2 d3 d4 d5 d6 d7 d8 d9 d10 d11 d12 d13 d14 d15 d16 d17 d18 d19; omega
    · clear he d0 d1 d2 d3 d4 d5 d6 d7 d8 d9 d10 d11 d12 d13 d14 d15 d16 d17 d18 d19; omega
    · assumption
  · rw [d8]
    refine bits_mid (x := g.alternator.toNat) (lo := 2 ^ 0 * g.acc.toNat + 2 ^ 1 * g.located.toNat + 2 ^ 2 * g.longType.toNat + 2 ^ 3 * g.latType.toNat + 2 ^ 4 * g.operating.toNat + 2 ^ 5 * g.geoEnc.toNat + 2 ^ 8 * g.load.toNat + 2 ^ 10 * g.fuel.toNat) (hi := 2 ^ 0 * g.doorLocked.toNat + 2 ^ 1 * g.frontDoor.toNat + 2 ^ 2 * g.midDoor.toNat + 2 ^ 3 * g.backDoor.toNat + 2 ^ 4 * g.driverDoor.toNat + 2 ^ 5 * g.customDoor.toNat + 2 ^ 6 * g.gps.toNat + 2 ^ 7 * g.beidou.toNat + 2 ^ 8 * g.glonass.toNat + 2 ^ 9 * g.galileo.toNat + 2 ^ 10 * g.driving.toNat) ?_ ?_ ?_
    · rw [he]; clear he d0 d1 d2 d3 d4 d5 d6 d7 d8 d9 d10 d11 d12 d13 d14 d15 d16 d17 d18 d19; omega
    · clear he d0 d1 d2 d3 d4 d5 d6 d7 d8 d9 d10 d11 d12 d13 d14 d15 d16 d17 d18 d19; omega
    · assumption
  · rw [d9]
    refine bits_mid (x := g.doorLocked.toNat) (lo := 2 ^ 0 * g.acc.toNat + 2 ^ 1 * g.located.toNat + 2 ^ 2 * g.longType.toNat + 2 ^ 3 * g.latType.toNat + 2 ^ 4 * g.operating.toNat + 2 ^ 5 * g.geoEnc.toNat + 2 ^ 8 * g.load.toNat + 2 ^ 10 * g.fuel.toNat + 2 ^ 11 * g.alternator.toNat) (hi := 2 ^ 0 * g.frontDoor.toNat + 2 ^ 1 * g.midDoor.toNat + 2 ^ 2 * g.backDoor.toNat + 2 ^ 3 * g.driverDoor.toNat + 2 ^ 4 * g.customDoor.toNat + 2 ^ 5 * g.gps.toNat + 2 ^ 6 * g.beidou.toNat + 2 ^ 7 * g.glonass.toNat + 2 ^ 8 * g.galileo.toNat + 2 ^ 9 * g.driving.toNat) ?_ ?_ ?_
    · rw [he]; clear he d0 d1 d2 d3 d4 d5 d6 d7 d8 d9 d10 d11 d12 d13 d14 d15 d16 d17 d18 d19; omega
    · clear he d0 d1 d2 d3 d4 d5 d6 d7 d8 d9 d10 d11 d12 d13 d14 d15 d16 d17 d18 d19; omega
    · assumption
  · rw [d10]
    refine bits_mid (x := g.frontDoor.toNat) (lo := 2 ^ 0 * g.acc.toNat + 2 ^ 1 * g.located.toNat + 2 ^ 2 * g.longType.toNat + 2 ^ 3 * g.latType.toNat + 2 ^ 4 * g.operating.toNat + 2 ^ 5 * g.geoEnc.toNat + 2 ^ 8 * g.load.toNat + 2 ^ 10 * g.fuel.toNat + 2 ^ 11 * g.alternator.toNat + 2 ^ 12 * g.doorLocked.toNat) (hi := 2 ^ 0 * g.midDoor.toNat + 2 ^ 1 * g.backDoor.toNat + 2 ^ 2 * g.driverDoor.toNat + 2 ^ 3 * g.customDoor.toNat + 2 ^ 4 * g.gps.toNat + 2 ^ 5 * g.beidou.toNat + 2 ^ 6 * g.glonass.toNat + 2 ^ 7 * g.galileo.toNat + 2 ^ 8 * g.driving.toNat) ?_ ?_ ?_
    · rw [he]; clear he d0 d1 d2 d3 d4 d5 d6 d7 d8 d9 d10 d11 d12 d13 d14 d15 d16 d17 d18 d19; omega
    · clear he d0 d1 d2 d3 d4 d5 d6 d7 d8 d9 d10 d11 d12 d13 d14 d15 d16 d17 d18 d19; omega
    · assumption
  · rw [d11]
    refine bits_mid (x := g.midDoor.toNat) (lo := 2 ^ 0 * g.acc.toNat + 2 ^ 1 * g.located.toNat + 2 ^ 2 * g.longType.toNat + 2 ^ 3 * g.latType.toNat + 2 ^ 4 * g.operating.toNat + 2 ^ 5 * g.geoEnc.toNat + 2 ^ 8 * g.load.toNat + 2 ^ 10 * g.fuel.toNat + 2 ^ 11 * g.alternator.toNat + 2 ^ 12 * g.doorLocked.toNat + 2 ^ 13 * g.frontDoor.toNat) (hi := 2 ^ 0 * g.backDoor.toNat + 2 ^ 1 * g.driverDoor.toNat + 2 ^ 2 * g.customDoor.toNat + 2 ^ 3 * g.gps.toNat + 2 ^ 4 * g.beidou.toNat + 2 ^ 5 * g.glonass.toNat + 2 ^ 6 * g.galileo.toNat + 2 ^ 7 * g.driving.toNat) ?_ ?_ ?_
    · rw [he]; clear he d0 d1 d2 d3 d4 d5 d6 d7 d8 d9 d10 d11 d12 d13 d14 d15 d16 d17 d18 d19; omega
    · clear he d0 d1 d2 d3 d4 d5 d6 d7 d8 d9 d10 d11 d12 d13 d14 d15 d16 d17 d18 d19; omega
    · assumption
  · rw [d12]
    refine bits_mid (x := g.backDoor.toNat) (lo := 2 ^ 0 * g.acc.toNat + 2 ^ 1 * g.located.toNat + 2 ^ 2 * g.longType.toNat + 2 ^ 3 * g.latType.toNat + 2 ^ 4 * g.operating.toNat + 2 ^ 5 * g.geoEnc.toNat + 2 ^ 8 * g.load.toNat + 2 ^ 10 * g.fuel.toNat + 2 ^ 11 * g.alternator.toNat + 2 ^ 12 * g.doorLocked.toNat + 2 ^ 13 * g.frontDoor.toNat + 2 ^ 14 * g.midDoor.toNat) (hi := 2 ^ 0 * g.driverDoor.toNat + 2 ^ 1 * g.customDoor.toNat + 2 ^ 2 * g.gps.toNat + 2 ^ 3 * g.beidou.toNat + 2 ^ 4 * g.glonass.toNat + 2 ^ 5 * g.galileo.toNat + 2 ^ 6 * g.driving.toNat) ?_ ?_ ?_
    · rw [he]; clear he d0 d1 d2 d3 d4 d5 d6 d7 d8 d9 d10 d11 d12 d13 d14 d15 d16 d17 d18 d19; omega
    · clear he d0 d1 d2 d3 d4 d5 d6 d7 d8 d9 d10 d11 d12 d13 d14 d15 d16 d17 d18 d19; omega
    · assumption
  · rw [d13]
    refine bits_mid (x := g.driverDoor.toNat) (lo := 2 ^ 0 * g.acc.toNat + 2 ^ 1 * g.located.toNat + 2 ^ 2 * g.longType.toNat + 2 ^ 3 * g.latType.toNat + 2 ^ 4 * g.operating.toNat + 2 ^ 5 * g.geoEnc.toNat + 2 ^ 8 * g.load.toNat + 2 ^ 10 * g.fuel.toNat + 2 ^ 11 * g.alternator.toNat + 2 ^ 12 * g.doorLocked.toNat + 2 ^ 13 * g.frontDoor.toNat + 2 ^ 14 * g.midDoor.toNat + 2 ^ 15 * g.backDoor.toNat) (hi := 2 ^ 0 * g.customDoor.toNat + 2 ^ 1 * g.gps.toNat + 2 ^ 2 * g.beidou.toNat + 2 ^ 3 * g.glonass.toNat + 2 ^ 4 * g.galileo.toNat + 2 ^ 5 * g.driving.toNat) ?_ ?_ ?_
    · rw [he]; clear he d0 d1 d2 d3 d4 d5 d6 d7 d8 d9 d10 d11 d12 d13 d14 d15 d16 d17 d18 d19; omega
    · clear he d0 d1 d2 d3 d4 d5 d6 d7 d8 d9 d10 d11 d12 d13 d14 d15 d16 d17 d18 d19; omega
    · assumption
  · rw [d14]
    refine bits_mid (x := g.customDoor.toNat) (lo := 2 ^ 0 * g.acc.toNat + 2 ^ 1 * g.located.toNat + 2 ^ 2 * g.longType.toNat + 2 ^ 3 * g.latType.toNat + 2 ^ 4 * g.operating.toNat + 2 ^ 5 * g.geoEnc.toNat + 2 ^ 8 * g.load.toNat + 2 ^ 10 * g.fuel.toNat + 2 ^ 11 * g.alternator.toNat + 2 ^ 12 * g.doorLocked.toNat + 2 ^ 13 * g.frontDoor.toNat + 2 ^ 14 * g.midDoor.toNat + 2 ^ 15 * g.backDoor.toNat + 2 ^ 16 * g.driverDoor.toNat) (hi := 2 ^ 0 * g.gps.toNat + 2 ^ 1 * g.beidou.toNat + 2 ^ 2 * g.glonass.toNat + 2 ^ 3 * g.galileo.toNat + 2 ^ 4 * g.driving.toNat) ?_ ?_ ?_
    · rw [he]; clear he d0 d1 d2 d3 d4 d5 d6 d7 d8 d9 d10 d11 d12 d13 d14 d15 d16 d17 d18 d19; omega
    · clear he d0 d1 d2 d3 d4 d5 d6 d7 d8 d9 d10 d11 d12 d13 d14 d15 d16 d17 d18 d19; omega
    · assumption
  · rw [d15]
    refine bits_mid (x := g.gps.toNat) (lo := 2 ^ 0 * g.acc.toNat + 2 ^ 1 * g.located.toNat + 2 ^ 2 * g.longType.toNat + 2 ^ 3 * g.latType.toNat + 2 ^ 4 * g.operating.toNat + 2 ^ 5 * g.geoEnc.toNat + 2 ^ 8 * g.load.toNat + 2 ^ 10 * g.fuel.toNat + 2 ^ 11 * g.alternator.toNat + 2 ^ 12 * g.doorLocked.toNat + 2 ^ 13 * g.frontDoor.toNat + 2 ^ 14 * g.midDoor.toNat + 2 ^ 15 * g.backDoor.toNat + 2 ^ 16 * g.driverDoor.toNat + 2 ^ 17 * g.customDoor.toNat) (hi := 2 ^ 0 * g.beidou.toNat + 2 ^ 1 * g.glonass.toNat + 2 ^ 2 * g.galileo.toNat + 2 ^ 3 * g.driving.toNat) ?_ ?_ ?_
    · rw [he]; clear he d0 d1 d2 d3 d4 d5 d6 d7 d8 d9 d10 d11 d12 d13 d14 d15 d16 d17 d18 d19; omega
    · clear he d0 d1 d2 d3 d4 d5 d6 d7 d8 d9 d10 d11 d12 d13 d14 d15 d16 d17 d18 d19; omega
    · assumption
  · rw [d16]
    refine bits_mid (x := g.beidou.toNat) (lo := 2 ^ 0 * g.acc.toNat + 2 ^ 1 * g.located.toNat + 2 ^ 2 * g.longType.toNat + 2 ^ 3 * g.latType.toNat + 2 ^ 4 * g.operating.toNat + 2 ^ 5 * g.geoEnc.toNat + 2 ^ 8 * g.load.toNat + 2 ^ 10 * g.fuel.toNat + 2 ^ 11 * g.alternator.toNat + 2 ^ 12 * g.doorLocked.toNat + 2 ^ 13 * g.frontDoor.toNat + 2 ^ 14 * g.midDoor.toNat + 2 ^ 15 * g.backDoor.toNat + 2 ^ 16 * g.driverDoor.toNat + 2 ^ 17 * g.customDoor.toNat + 2 ^ 18 * g.gps.toNat) (hi := 2 ^ 0 * g.glonass.toNat + 2 ^ 1 * g.galileo.toNat + 2 ^ 2 * g.driving.toNat) ?_ ?_ ?_
    · rw [he]; clear he d0 d1 d2 d3 d4 d5 d6 d7 d8 d9 d10 d11 d12 d13 d14 d15 d16 d17 d18 d19; omega
    · clear he d0 d1 d2 d3 d4 d5 d6 d7 d8 d9 d10 d11 d12 d13 d14 d15 d16 d17 d18 d19; omega
    · assumption
  · rw [d17]
    refine bits_mid (x := g.glonass.toNat) (lo := 2 ^ 0 * g.acc.toNat + 2 ^ 1 * g.located.toNat + 2 ^ 2 * g.longType.toNat + 2 ^ 3 * g.latType.toNat + 2 ^ 4 * g.operating.toNat + 2 ^ 5 * g.geoEnc.toNat + 2 ^ 8 * g.load.toNat + 2 ^ 10 * g.fuel.toNat + 2 ^ 11 * g.alternator.toNat + 2 ^ 12 * g.doorLocked.toNat + 2 ^ 13 * g.frontDoor.toNat + 2 ^ 14 * g.midDoor.toNat + 2 ^ 15 * g.backDoor.toNat + 2 ^ 16 * g.driverDoor.toNat + 2 ^ 17 * g.customDoor.toNat + 2 ^ 18 * g.gps.toNat + 2 ^ 19 * g.beidou.toNat) (hi := 2 ^ 0 * g.galileo.toNat + 2 ^ 1 * g.driving.toNat) ?_ ?_ ?_
    · rw [he]; clear he d0 d1 d2 d3 d4 d5 d6 d7 d8 d9 d10 d11 d12 d13 d14 d15 d16 d17 d18 d19; omega
    · clear he d0 d1 d2 d3 d4 d5 d6 d7 d8 d9 d10 d11 d12 d13 d14 d15 d16 d17 d18 d19; omega
    · assumption
  · rw [d18]
    refine bits_mid (x := g.galileo.toNat) (lo := 2 ^ 0 * g.acc.toNat + 2 ^ 1 * g.located.toNat + 2 ^ 2 * g.longType.toNat + 2 ^ 3 * g.latType.toNat + 2 ^ 4 * g.operating.toNat + 2 ^ 5 * g.geoEnc.toNat + 2 ^ 8 * g.load.toNat + 2 ^ 10 * g.fuel.toNat + 2 ^ 11 * g.alternator.toNat + 2 ^ 12 * g.doorLocked.toNat + 2 ^ 13 * g.frontDoor.toNat + 2 ^ 14 * g.midDoor.toNat + 2 ^ 15 * g.backDoor.toNat + 2 ^ 16 * g.driverDoor.toNat + 2 ^ 17 * g.customDoor.toNat + 2 ^ 18 * g.gps.toNat + 2 ^ 19 * g.beidou.toNat + 2 ^ 20 * g.glonass.toNat) (hi := 2 ^ 0 * g.driving.toNat) ?_ ?_ ?_
    · rw [he]; clear he d0 d1 d2 d3 d4 d5 d6 d7 d8 d9 d10 d11 d12 d13 d14 d15 d16 d17 d18 d19; omega
    · clear he d0 d1 d2 d3 d4 d5 d6 d7 d8 d9 d10 d11 d12 d13 d14 d15 d16 d17 d18 d19; omega
    · assumption
  · rw [d19]
    refine bits_mid (x := g.driving.toNat) (lo := 2 ^ 0 * g.acc.toNat + 2 ^ 1 * g.located.toNat + 2 ^ 2 * g.longType.toNat + 2 ^ 3 * g.latType.toNat + 2 ^ 4 * g.operating.toNat + 2 ^ 5 * g.geoEnc.toNat + 2 ^ 8 * g.load.toNat + 2 ^ 10 * g.fuel.toNat + 2 ^ 11 * g.alternator.toNat + 2 ^ 12 * g.doorLocked.toNat + 2 ^ 13 * g.frontDoor.toNat + 2 ^ 14 * g.midDoor.toNat + 2 ^ 15 * g.backDoor.toNat + 2 ^ 16 * g.driverDoor.toNat + 2 ^ 17 * g.customDoor.toNat + 2 ^ 18 * g.gps.toNat + 2 ^ 19 * g.beidou.toNat + 2 ^ 20 * g.glonass.toNat + 2 ^ 21 * g.galileo.toNat) (hi := 0) ?_ ?_ ?_
    · rw [he]; clear he d0 d1 d2 d3 d4 d5 d6 d7 d8 d9 d10 d11 d12 d13 d14 d15 d16 d17 d18 d19; omega
    · clear he d0 d1 d2 d3 d4 d5 d6 d7 d8 d9 d10 d11 d12 d13 d14 d15 d16 d17 d18 d19; omega
    · assumption

/-- Whatever the generator draws, and whatever the conversion of the floating-point numbers gives, the report is in the
ranges of the protocol: latitude up to 90 degrees, longitude up to 180, altitude up to 5000 m, speed up to 300 km/h,
direction below 360 degrees. -/
theorem C82_ranges (d : Device) (x : LocDraw) : ∃ m, (clientLocation d x).2 = .m0200 m ∧
    m.lat.toNat ≤ 90 * 1000000 ∧ m.long.toNat ≤ 180 * 1000000 ∧ m.alt.toNat ≤ 5000 ∧ m.speed.toNat ≤ 300 * 10 ∧
    m.dir.toNat < 360 := by
  refine ⟨_, rfl, ?_, ?_, ?_, ?_, ?_⟩
  · simp only
    split
    · decide
    · rename_i h; rw [gt_iff_lt, UInt32.lt_iff_toNat_lt, Nat.not_lt] at h; exact h
  · simp only
    split
    · decide
    · rename_i h; rw [gt_iff_lt, UInt32.lt_iff_toNat_lt, Nat.not_lt] at h; exact h
  · simp only
    split
    · decide
    · rename_i h; rw [gt_iff_lt, UInt16.lt_iff_toNat_lt, Nat.not_lt] at h; exact h
  · simp only
    split
    · decide
    · rename_i h; rw [gt_iff_lt, UInt16.lt_iff_toNat_lt, Nat.not_lt] at h; exact h
  · have := x.dir.isLt
    simp only [UInt16.toNat_ofNat']
    omega

/-- `n` if it is at most `top`, else `dflt`. -/
def Spec.orElse (n top dflt : Nat) : Nat :=
  if n ≤ top then n else dflt

/-- What is drawn within the ranges is reported as it is. In place of anything else the report has 90 degrees north, 180
degrees east, 1000 m and 100 km/h. The altitude that counts is the sum in 16 bits. -/
theorem C82_replaced (d : Device) (x : LocDraw) : ∃ m, (clientLocation d x).2 = .m0200 m ∧
    m.lat.toNat = Spec.orElse x.lat.toNat (90 * 1000000) (90 * 1000000) ∧
    m.long.toNat = Spec.orElse x.long.toNat (180 * 1000000) (180 * 1000000) ∧
    m.alt.toNat = Spec.orElse ((x.alt.toNat + x.altOff.toNat) % 65536) 5000 1000 ∧
    m.speed.toNat = Spec.orElse x.speed.toNat (300 * 10) (100 * 10) ∧
    m.dir.toNat = x.dir.val := by
  refine ⟨_, rfl, ?_, ?_, ?_, ?_, ?_⟩ <;> simp only [Spec.orElse]
  · split <;> rename_i h <;> rw [gt_iff_lt, UInt32.lt_iff_toNat_lt] at h
    · change 90 * 1000000 < x.lat.toNat at h
      rw [if_neg (Nat.not_le.2 h)]; rfl
    · change ¬ 90 * 1000000 < x.lat.toNat at h
      rw [if_pos (Nat.not_lt.1 h)]
  · split <;> rename_i h <;> rw [gt_iff_lt, UInt32.lt_iff_toNat_lt] at h
    · change 180 * 1000000 < x.long.toNat at h
      rw [if_neg (Nat.not_le.2 h)]; rfl
    · change ¬ 180 * 1000000 < x.long.toNat at h
      rw [if_pos (Nat.not_lt.1 h)]
  · split <;> rename_i h <;> rw [gt_iff_lt, UInt16.lt_iff_toNat_lt, UInt16.toNat_add] at h
    · change 5000 < (x.alt.toNat + x.altOff.toNat) % 65536 at h
      rw [if_neg (Nat.not_le.2 h)]; rfl
    · change ¬ 5000 < (x.alt.toNat + x.altOff.toNat) % 65536 at h
      rw [if_pos (Nat.not_lt.1 h), UInt16.toNat_add]
  · split <;> rename_i h <;> rw [gt_iff_lt, UInt16.lt_iff_toNat_lt] at h
    · change 300 * 10 < x.speed.toNat at h
      rw [if_neg (Nat.not_le.2 h)]; rfl
    · change ¬ 300 * 10 < x.speed.toNat at h
      rw [if_pos (Nat.not_lt.1 h)]
  · have := x.dir.isLt
    simp only [UInt16.toNat_ofNat']
    omega

/-- An altitude of 2 m and an offset of -5 m: the sum wraps around and 1000 m are reported. -/
example : Spec.orElse ((2 + (65536 - 5)) % 65536) 5000 1000 = 1000 := by decide

/-- A draw that is in range already. -/
structure LocDraw.InRange (x : LocDraw) : Prop where
  flags : x.geo.Flags
  lat : x.lat.toNat ≤ 90 * 1000000
  long : x.long.toNat ≤ 180 * 1000000
  alt : (x.alt.toNat + x.altOff.toNat) % 65536 ≤ 5000
  speed : x.speed.toNat ≤ 300 * 10
  now : x.now.InRange

/-- What a server that knows the phone makes of a report of the simulator: it answers with result 0, and the newest entry
of the track is the drawn position, speed, direction and time, with the status flags as drawn except that the hemispheres
are exchanged.  Missing for the full C82: the hemispheres. -/
theorem C82_recorded_partial (env : Env) (clk : Clock) (c : Conn) (st : Store) (hr : Reachable env st) (d d' : Device)
    (hd : st.look d.phone = some d') (hp : PhoneWF (if d.ver = .v2019 then .v2019 else .v2013) d.phone) (x : LocDraw)
    (hx : x.InRange) :
    ∃ frame st' rb' h, Out.encode env (clientLocation d x) = .ok frame ∧ h.phone = d.phone ∧ h.serial = 1 ∧
      st.handleFrame env clk c frame = (st', .reply (generalReply h 0)) ∧
      ((st.geos.get d.phone).getD (Ring.new 100)).write (some
        { phone := d.phone, geo := x.geo.mirrored, lat := x.lat, long := x.long, alt := x.alt + x.altOff,
          speed := x.speed, dir := UInt16.ofNat x.dir.val, time := x.now }) = .ok rb' ∧
      st'.geos.get d.phone = some rb' := by
  have hw := clientHeader_wf 0x0200 d hp
  have ht : TimeStr (formatTime x.now) := ⟨formatTime_length _, formatTime_bcd _ hx.now.1⟩
  have hphone : (clientHeader 0x0200 d).phone = d.phone := by unfold clientHeader; split <;> rfl
  have hserial : (clientHeader 0x0200 d).serial = 1 := by unfold clientHeader; split <;> rfl
  have hid : MType.ofID (clientHeader 0x0200 d).msgID = some .t0200 := by unfold clientHeader; split <;> rfl
  have hnf : (clientHeader 0x0200 d).isFragmented = false := by unfold clientHeader; split <;> rfl
  have e1 : ¬ x.lat > 90000000 := by rw [gt_iff_lt, UInt32.lt_iff_toNat_lt, Nat.not_lt]; exact hx.lat
  have e2 : ¬ x.long > 180000000 := by rw [gt_iff_lt, UInt32.lt_iff_toNat_lt, Nat.not_lt]; exact hx.long
  have e3 : ¬ x.alt + x.altOff > 5000 := by
    rw [gt_iff_lt, UInt16.lt_iff_toNat_lt, Nat.not_lt, UInt16.toNat_add]
    exact hx.alt
  have e4 : ¬ x.speed > 3000 := by rw [gt_iff_lt, UInt16.lt_iff_toNat_lt, Nat.not_lt]; exact hx.speed
  have em : (clientLocation d x).2 = .m0200 ⟨1024, x.geo.encode, x.lat, x.long, x.alt + x.altOff, x.speed,
      UInt16.ofNat x.dir.val, formatTime x.now⟩ := by
    unfold clientLocation
    simp only
    rw [if_neg e1, if_neg e2, if_neg e3, if_neg e4]
  have hcar := C19_location env _ hw ⟨1024, x.geo.encode, x.lat, x.long, x.alt + x.altOff, x.speed,
      UInt16.ofNat x.dir.val, formatTime x.now⟩ ht
  have hhold := hcar.holds clk.civil hnf .t0200 .m0200 hid (fun _ => rfl)
  obtain ⟨st', rb', h1, h2, h3, -⟩ := C39_location_recorded env clk c st hr _ _ _ hhold d' (by
    show st.look (clientHeader 0x0200 d).phone = some d'
    rw [hphone]; exact hd)
  have hph : ∀ n, (Header.withBodyLength (clientHeader 0x0200 d) n).phone = d.phone := fun _ => hphone
  refine ⟨_, st', rb', _, ?_, hph _, hserial, h1, ?_, ?_⟩
  · have : clientLocation d x = (clientHeader 0x0200 d, (clientLocation d x).2) := rfl
    rw [this, em]
    rfl
  · rw [hph] at h2
    have hparse : parseTime clk.civil (formatTime x.now) = x.now := by
      unfold parseTime; rw [timeParse_format _ hx.now.1 hx.now.2]
    simp only [decode_encode_mirrored hx.flags, hparse] at h2
    exact h2
  · have := h3 d.phone
    rw [if_pos (hph _).symm] at this
    exact this

/-- The same for any draw: what is stored is what the report says (see C82_replaced). Missing for the full C82: the
hemispheres. -/
theorem C82_any_recorded_partial (env : Env) (clk : Clock) (c : Conn) (st : Store) (hr : Reachable env st) (d d' : Device)
    (hd : st.look d.phone = some d') (hp : PhoneWF (if d.ver = .v2019 then .v2019 else .v2013) d.phone) (x : LocDraw)
    (hf : x.geo.Flags) (hn : x.now.InRange) :
    ∃ m frame st' rb' h, (clientLocation d x).2 = .m0200 m ∧ Out.encode env (clientLocation d x) = .ok frame ∧
      h.phone = d.phone ∧ h.serial = 1 ∧ st.handleFrame env clk c frame = (st', .reply (generalReply h 0)) ∧
      ((st.geos.get d.phone).getD (Ring.new 100)).write (some
        { phone := d.phone, geo := x.geo.mirrored, lat := m.lat, long := m.long, alt := m.alt,
          speed := m.speed, dir := m.dir, time := x.now }) = .ok rb' ∧
      st'.geos.get d.phone = some rb' := by
  obtain ⟨m, hm, r1, r2, r3, r4, -⟩ := C82_ranges d x
  let y : LocDraw := { x with lat := m.lat, long := m.long, alt := m.alt, altOff := 0, speed := m.speed }
  have hy : y.InRange := ⟨hf, r1, r2, by
    show (m.alt.toNat + 0) % 65536 ≤ 5000
    omega, r4, hn⟩
  have e : clientLocation d y = clientLocation d x := by
    unfold clientLocation at hm ⊢
    simp only [Msg.m0200.injEq] at hm
    have c1 := congrArg LocMsg.lat hm
    have c2 := congrArg LocMsg.long hm
    have c3 := congrArg LocMsg.alt hm
    have c4 := congrArg LocMsg.speed hm
    simp only at c1 c2 c3 c4
    have e1 : ¬ y.lat > 90000000 := by rw [gt_iff_lt, UInt32.lt_iff_toNat_lt, Nat.not_lt]; exact r1
    have e2 : ¬ y.long > 180000000 := by rw [gt_iff_lt, UInt32.lt_iff_toNat_lt, Nat.not_lt]; exact r2
    have e3 : ¬ y.alt + y.altOff > 5000 := by
      rw [gt_iff_lt, UInt16.lt_iff_toNat_lt, Nat.not_lt, UInt16.toNat_add]
      exact hy.alt
    have e4 : ¬ y.speed > 3000 := by rw [gt_iff_lt, UInt16.lt_iff_toNat_lt, Nat.not_lt]; exact r4
    simp only
    rw [if_neg e1, if_neg e2, if_neg e3, if_neg e4, c1, c2, c3, c4, show y.alt + y.altOff = m.alt from by
      show m.alt + 0 = m.alt
      simp]
  obtain ⟨frame, st', rb', h, h1, h2, h3, h4, h5, h6⟩ := C82_recorded_partial env clk c st hr d d' hd hp y hy
  rw [e] at h1
  refine ⟨m, frame, st', rb', h, hm, h1, h2, h3, h4, ?_, h6⟩
  have ea : y.alt + y.altOff = m.alt := by show m.alt + 0 = m.alt; simp
  have ed : UInt16.ofNat y.dir.val = m.dir := by
    unfold clientLocation at hm
    simp only [Msg.m0200.injEq] at hm
    exact congrArg LocMsg.dir hm
  rw [ea, ed] at h5
  exact h5

/-- A terminal in the southern hemisphere, east of Greenwich. -/
def southDraw : LocDraw :=
  ⟨{ GeoMeta.decode 3 with latType := 1 }, 33860000, 151210000, 40, 3, 600, 90, ⟨2024, 2, 29, 23, 59, 58⟩⟩
/-- The simulator's device with the phone of the demonstration terminal. -/
def simDevice : Device := genDevice .v2013 [0x69] [0x41] (hdr2013 0).phone [] 20000 demoC
example : southDraw.InRange :=
  ⟨by constructor <;> decide, by decide, by decide, by decide, by decide,
    by simp only [southDraw, Civil.InRange, Civil.Valid, inWindow]; decide⟩
example : PhoneWF .v2013 simDevice.phone ∧ simDevice.phone = (hdr2013 0).phone ∧
    (demoSys.st.look simDevice.phone).isSome := by
  refine ⟨?_, ?_, ?_⟩
  · refine ⟨?_, ?_⟩ <;> decide
  · decide
  · decide +kernel

/-- The opposite of C82: a terminal simulated in the south-east is shown by the server in the north-west. -/
theorem C82_mirrored : ∃ frame, Out.encode goEnv (clientLocation simDevice southDraw) = .ok frame ∧
    (southDraw.geo.latType, southDraw.geo.longType) = (1, 0) ∧
    (((demoSys.st.serveFrame goEnv (demoClk 2000) demoC none frame).1.apiGeo simDevice.phone).2.2).map
      (fun x => (x.2.geo.latType, x.2.geo.longType, x.2.lat, x.2.long)) = some (0, 1, 33860000, 151210000) := by
  refine ⟨_, rfl, rfl, ?_⟩
  decide +kernel

end JT808
