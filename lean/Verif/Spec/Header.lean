/-
Specification of the JT/T 808 message header, written from the protocol text on natural numbers; no
reference to the model.
-/
namespace JT808.Spec

/-- Bits `lo .. lo+n-1` of `w`. -/
def bits (w lo n : Nat) : Nat := w / 2 ^ lo % 2 ^ n

/-- Big-endian WORD. -/
def word (n : Nat) : List UInt8 := [UInt8.ofNat (n / 256), UInt8.ofNat (n % 256)]

/-- Body attribute word: length 0-9, encryption 10-12, fragmented 13, version 14, reserved 15. -/
def attrWord (len enc fragmented version reserved : Nat) : Nat :=
  len + 2 ^ 10 * enc + 2 ^ 13 * fragmented + 2 ^ 14 * version + 2 ^ 15 * reserved

/-- Two decimal digits per byte. -/
def packBcd : List Nat → List UInt8
  | a :: b :: rest => UInt8.ofNat (a * 16 + b) :: packBcd rest
  | _ => []

/-- Length of the header in front of the body. -/
def headerLen (v2019 fragmented : Bool) : Nat :=
  (if v2019 then 17 else 12) + (if fragmented then 4 else 0)

/-- The bytes of a header.  `phone`: 12 digits (2013 layout, `pv = none`) or 20 digits (2019 layout,
`pv = some protocolVersion`); `frag`: total and index of the fragment. -/
def headerBytes (id attr : Nat) (pv : Option Nat) (phone : List Nat) (serial : Nat)
    (frag : Option (Nat × Nat)) : List UInt8 :=
  word id ++ word attr ++ (match pv with | some v => [UInt8.ofNat v] | none => []) ++
    packBcd phone ++ word serial ++ (match frag with | some (t, i) => word t ++ word i | none => [])

end JT808.Spec
