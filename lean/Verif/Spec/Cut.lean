import Verif.Spec.Framing
/-
How a stream of bytes with failed reads in it is to be cut into frames.
-/
namespace JT808.Spec

/-- `Cut s out`: the bytes and failures `s` consist of the frames and failures `out`, with noise before the frames, and a
rest that is not a frame. -/
inductive Cut {ε : Type} : List (UInt8 ⊕ ε) → List (List UInt8 ⊕ ε) → Prop where
  /-- Nothing more to deliver: at most one delimiter is left. -/
  | rest (tail : List UInt8) (h : tail.count 0x7e ≤ 1) : Cut (tail.map .inl) []
  /-- A frame. -/
  | frame (noise f : List UInt8) (s : List (UInt8 ⊕ ε)) (out : List (List UInt8 ⊕ ε)) (hn : (0x7e : UInt8) ∉ noise)
      (hf : Delimited f) (h : Cut s out) : Cut ((noise ++ f).map .inl ++ s) (.inl f :: out)
  /-- A failure, which loses the frame begun before it. -/
  | fail (tail : List UInt8) (e : ε) (s : List (UInt8 ⊕ ε)) (out : List (List UInt8 ⊕ ε)) (ht : tail.count 0x7e ≤ 1)
      (h : Cut s out) : Cut (tail.map .inl ++ .inr e :: s) (.inr e :: out)

end JT808.Spec
