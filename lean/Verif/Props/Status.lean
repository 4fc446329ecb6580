import Verif.Proof.Status
/-
C21, C22: the location status word.
-/
namespace JT808
open Spec

/-! ## C21 decoding -/

/-- Every field is the run of bits the protocol assigns to it. -/
theorem C21_status_bits (w : UInt32) :
    (GeoMeta.decode w).acc.toNat = bits w.toNat 0 1 ∧
    (GeoMeta.decode w).located.toNat = bits w.toNat 1 1 ∧
    (GeoMeta.decode w).latType.toNat = bits w.toNat 2 1 ∧
    (GeoMeta.decode w).longType.toNat = bits w.toNat 3 1 ∧
    (GeoMeta.decode w).operating.toNat = bits w.toNat 4 1 ∧
    (GeoMeta.decode w).geoEnc.toNat = bits w.toNat 5 1 ∧
    (GeoMeta.decode w).load.toNat = bits w.toNat 8 2 ∧
    (GeoMeta.decode w).fuel.toNat = bits w.toNat 10 1 ∧
    (GeoMeta.decode w).alternator.toNat = bits w.toNat 11 1 ∧
    (GeoMeta.decode w).doorLocked.toNat = bits w.toNat 12 1 ∧
    (GeoMeta.decode w).frontDoor.toNat = bits w.toNat 13 1 ∧
    (GeoMeta.decode w).midDoor.toNat = bits w.toNat 14 1 ∧
    (GeoMeta.decode w).backDoor.toNat = bits w.toNat 15 1 ∧
    (GeoMeta.decode w).driverDoor.toNat = bits w.toNat 16 1 ∧
    (GeoMeta.decode w).customDoor.toNat = bits w.toNat 17 1 ∧
    (GeoMeta.decode w).gps.toNat = bits w.toNat 18 1 ∧
    (GeoMeta.decode w).beidou.toNat = bits w.toNat 19 1 ∧
    (GeoMeta.decode w).glonass.toNat = bits w.toNat 20 1 ∧
    (GeoMeta.decode w).galileo.toNat = bits w.toNat 21 1 ∧
    (GeoMeta.decode w).driving.toNat = bits w.toNat 22 1 :=
  GeoMeta.decode_toNat w

/-- A stored location carries the status of its report. -/
theorem C21_stored_status (now : Civil) (phone : Str) (m : LocMsg) :
    (DeviceGeo.decode now phone m).geo.acc.toNat = bits m.status.toNat 0 1 ∧
    (DeviceGeo.decode now phone m).geo.located.toNat = bits m.status.toNat 1 1 :=
  ⟨(GeoMeta.decode_toNat m.status).1, (GeoMeta.decode_toNat m.status).2.1⟩

-- ACC on, located, south, east, half loaded, driving
example : GeoMeta.decode 0x00400107 = ⟨1, 1, 1, 0, 0, 0, 1, 0, 0, 0, 0, 0, 0, 0, 0, 0, 0, 0, 0, 1⟩ := by decide

/-! ## C22 encoding -/

/-- Encoding decoded status gives the assigned bits with the two hemisphere bits exchanged. -/
theorem C22_encode_swaps (w : UInt32) :
    (GeoMeta.decode w).encode.toNat = assignedStatus (swapHemispheres w.toNat) := by
  have hd := GeoMeta.decode_toNat w
  obtain ⟨d0, d1, d2, d3, d4, d5, d6, d7, d8, d9, d10, d11, d12, d13, d14, d15, d16, d17, d18, d19⟩ := hd
  rw [GeoMeta.encode_toNat (GeoMeta.decode w)
    (d0 ▸ bits_lt w.toNat 0 1)
    (d1 ▸ bits_lt w.toNat 1 1)
    (d2 ▸ bits_lt w.toNat 2 1)
    (d3 ▸ bits_lt w.toNat 3 1)
    (d4 ▸ bits_lt w.toNat 4 1)
    (d5 ▸ bits_lt w.toNat 5 1)
    (d6 ▸ bits_lt w.toNat 8 2)
    (d7 ▸ bits_lt w.toNat 10 1)
    (d8 ▸ bits_lt w.toNat 11 1)
    (d9 ▸ bits_lt w.toNat 12 1)
    (d10 ▸ bits_lt w.toNat 13 1)
    (d11 ▸ bits_lt w.toNat 14 1)
    (d12 ▸ bits_lt w.toNat 15 1)
    (d13 ▸ bits_lt w.toNat 16 1)
    (d14 ▸ bits_lt w.toNat 17 1)
    (d15 ▸ bits_lt w.toNat 18 1)
    (d16 ▸ bits_lt w.toNat 19 1)
    (d17 ▸ bits_lt w.toNat 20 1)
    (d18 ▸ bits_lt w.toNat 21 1)
    (d19 ▸ bits_lt w.toNat 22 1)]
  rw [d0, d1, d2, d3, d4, d5, d6, d7, d8, d9, d10, d11, d12, d13, d14, d15, d16, d17, d18, d19]
  unfold assignedStatus swapHemispheres
  have s0 := bits_split w.toNat 0 1 1
  have s1 := bits_split w.toNat 4 1 27
  have s2 := bits_split w.toNat 5 1 26
  have s3 := bits_split w.toNat 6 2 24
  have s4 := bits_split w.toNat 8 15 9
  have t0 := bits_split w.toNat 8 2 13
  have t1 := bits_split w.toNat 10 1 12
  have t2 := bits_split w.toNat 11 1 11
  have t3 := bits_split w.toNat 12 1 10
  have t4 := bits_split w.toNat 13 1 9
  have t5 := bits_split w.toNat 14 1 8
  have t6 := bits_split w.toNat 15 1 7
  have t7 := bits_split w.toNat 16 1 6
  have t8 := bits_split w.toNat 17 1 5
  have t9 := bits_split w.toNat 18 1 4
  have t10 := bits_split w.toNat 19 1 3
  have t11 := bits_split w.toNat 20 1 2
  have t12 := bits_split w.toNat 21 1 1
  have b6 := bits_lt w.toNat 6 2
  have b15 := bits_lt w.toNat 8 15
  have b23 := bits_lt w.toNat 23 9
  have c0 := bits_lt w.toNat 0 1
  have c1 := bits_lt w.toNat 1 1
  have c2 := bits_lt w.toNat 2 1
  have c3 := bits_lt w.toNat 3 1
  have c4 := bits_lt w.toNat 4 1
  have c5 := bits_lt w.toNat 5 1
  simp only [Nat.reduceAdd, Nat.reducePow] at *
  generalize bits w.toNat 8 15 = m at *
  generalize bits w.toNat 0 1 = x0_1 at *
  generalize bits w.toNat 1 1 = x1_1 at *
  generalize bits w.toNat 2 1 = x2_1 at *
  generalize bits w.toNat 3 1 = x3_1 at *
  generalize bits w.toNat 4 1 = x4_1 at *
  generalize bits w.toNat 5 1 = x5_1 at *
  generalize bits w.toNat 6 2 = x6_2 at *
  generalize bits w.toNat 23 9 = x23_9 at *
  generalize bits w.toNat 0 2 = x0_2 at *
  generalize bits w.toNat 4 28 = x4_28 at *
  generalize bits w.toNat 5 27 = x5_27 at *
  generalize bits w.toNat 6 26 = x6_26 at *
  generalize bits w.toNat 8 24 = x8_24 at *
  have key : bits (x0_2 + 4 * x3_1 + 8 * x2_1 + 16 * x4_28) 0 6 = x0_1 + 2 * x1_1 + 4 * x3_1 + 8 * x2_1 + 16 * x4_1 + 32 * x5_1 := by
    unfold bits; omega
  have key2 : bits (x0_2 + 4 * x3_1 + 8 * x2_1 + 16 * x4_28) 8 15 = m := by
    unfold bits; omega
  rw [key, key2]
  omega

/-- C22 holds exactly for the words whose two hemisphere bits agree.  Missing for the full C22: the other half of
the words, where it is false. -/
theorem C22_inverse_iff_partial (w : UInt32) :
    (GeoMeta.decode w).encode.toNat = assignedStatus w.toNat ↔ bits w.toNat 2 1 = bits w.toNat 3 1 := by
  rw [C22_encode_swaps, assigned_swap, assigned_eq]
  omega

/-- A southern, eastern position is re-encoded as northern and western. -/
theorem C22_not_inverse : (GeoMeta.decode 0x00000007).encode = 0x0000000b := by decide

/-- Exactly the hemispheres are exchanged by an encode and a decode. -/
theorem C22_hemispheres_exchanged (w : UInt32) :
    (GeoMeta.decode (GeoMeta.decode w).encode).latType = (GeoMeta.decode w).longType ∧
    (GeoMeta.decode (GeoMeta.decode w).encode).longType = (GeoMeta.decode w).latType ∧
    (GeoMeta.decode (GeoMeta.decode w).encode).acc = (GeoMeta.decode w).acc := by
  have h := C22_encode_swaps w
  obtain ⟨a1, -, a3, a4, -⟩ := GeoMeta.decode_toNat w
  obtain ⟨b1, -, b3, b4, -⟩ := GeoMeta.decode_toNat (GeoMeta.decode w).encode
  rw [h, assigned_swap] at b1 b3 b4
  have h0 := bits_lt w.toNat 0 2
  have h2 := bits_lt w.toNat 2 1
  have h3 := bits_lt w.toNat 3 1
  have s := bits_split w.toNat 0 1 1
  have s1 := bits_lt w.toNat 0 1
  simp only [Nat.reduceAdd, Nat.reducePow] at *
  generalize bits w.toNat 0 2 = x0 at *
  generalize bits w.toNat 0 1 = x01 at *
  generalize bits w.toNat 1 1 = x11 at *
  generalize bits w.toNat 2 1 = x2 at *
  generalize bits w.toNat 3 1 = x3 at *
  generalize bits w.toNat 4 2 = x4 at *
  generalize bits w.toNat 8 15 = x8 at *
  refine ⟨UInt8.toNat_inj.mp ?_, UInt8.toNat_inj.mp ?_, UInt8.toNat_inj.mp ?_⟩
  · rw [b3, a4]; unfold bits; omega
  · rw [b4, a3]; unfold bits; omega
  · rw [b1, a1]; unfold bits; omega

example : bits (0x0000000f : UInt32).toNat 2 1 = bits (0x0000000f : UInt32).toNat 3 1 := by decide

end JT808
