/-
Specification of the wire framing, written from the protocol text: no reference to the model.
-/
namespace JT808.Spec

/-- A frame: delimiter, content without delimiter, delimiter. -/
def Delimited (f : List UInt8) : Prop := ∃ mid, (0x7e : UInt8) ∉ mid ∧ f = 0x7e :: (mid ++ [0x7e])

/-- Byte stuffing of one byte. -/
def stuff (b : UInt8) : List UInt8 :=
  if b = 0x7e then [0x7d, 0x02] else if b = 0x7d then [0x7d, 0x01] else [b]

/-- The frame of a packet. -/
def frameOf (p : List UInt8) : List UInt8 := [0x7e] ++ p.flatMap stuff ++ [0x7e]

/-- Exclusive or of all bytes, right to left. -/
def xorSum : List UInt8 → UInt8
  | [] => 0
  | b :: bs => b ^^^ xorSum bs

/-- A stream built of noise-preceded frames and a tail. -/
def streamOf (items : List (List UInt8 × List UInt8)) (tail : List UInt8) : List UInt8 :=
  items.flatMap (fun it => it.1 ++ it.2) ++ tail

end JT808.Spec
