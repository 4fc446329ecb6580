import Verif.Go.Basic
/-
pkg/container/ring_buffer.go
-/
namespace JT808

/-- RingBuffer, ring_buffer.go:12-17.  `none` is a nil element.  Simplification: `Size` and the positions are
natural numbers; they stay below `Size ≤ 2^31-1`, so the int32 arithmetic cannot overflow.  The atomic loads and
stores are plain here: see Verif/Model/Conc.lean for concurrent use. -/
structure Ring (α : Type) where
  size : Nat
  cont : List (Option α)
  reader : Nat
  writer : Nat
  deriving DecidableEq, Repr

variable {α : Type}

/-- NewRingBuffer, ring_buffer.go:21-28. -/
def Ring.new (size : Nat) : Ring α := ⟨size, List.replicate size none, 0, 0⟩

/-- `r.Container[i]`: panics outside the array. -/
def Ring.at (r : Ring α) (i : Nat) : Res (Option α) :=
  match r.cont[i]? with
  | some v => .ok v
  | none => .panic

/-- Write, ring_buffer.go:31-36. -/
def Ring.write (r : Ring α) (v : Option α) : Res (Ring α) :=
  if r.writer < r.cont.length then
    .ok { r with cont := r.cont.set r.writer v, writer := (r.writer + 1) % r.size }
  else .panic

/-- seekReader(1), ring_buffer.go:40-44. -/
def Ring.seek1 (r : Ring α) : Ring α := { r with reader := (r.reader + 1) % r.size }

/-- Read, ring_buffer.go:47-50. -/
def Ring.read (r : Ring α) : Res (Option α × Ring α) :=
  match r.at r.reader with
  | .ok v => .ok (v, r.seek1)
  | .err e => .err e
  | .panic => .panic

/-- Latest, ring_buffer.go:53-58. -/
def Ring.latest (r : Ring α) : Res (Option α) :=
  if r.writer = 0 then .ok none else r.at ((r.writer - 1) % r.size)

/-- Oldest, ring_buffer.go:61-63. -/
def Ring.oldest (r : Ring α) : Res (Option α) := r.at r.writer

/-- Overwrite, ring_buffer.go:66-68. -/
def Ring.overwrite (r : Ring α) (v : Option α) : Res (Ring α) :=
  if r.writer < r.cont.length then .ok { r with cont := r.cont.set r.writer v } else .panic

end JT808
