/-
Specification of the ring buffer as a log of writes; no reference to the model.
-/
namespace JT808.Spec

/-- The operations used on a ring. -/
inductive RingOp (α : Type) where
  | write (v : α)
  | read

/-- The values written, in order. -/
def writesOf {α : Type} : List (RingOp α) → List α
  | [] => []
  | .write v :: rest => v :: writesOf rest
  | .read :: rest => writesOf rest

/-- The number of reads. -/
def readsOf {α : Type} : List (RingOp α) → Nat
  | [] => 0
  | .write _ :: rest => readsOf rest
  | .read :: rest => readsOf rest + 1

end JT808.Spec
