import Verif.Model.Ring
/-
Concurrent calls of RingBuffer.Write, pkg/container/ring_buffer.go.  The ring of a terminal is shared by every
goroutine that handles a location report of that terminal: GetGeoRingByPhone (internal/storage/geo_cache.go:34-43)
returns the same pointer to all of them and its mutex is released before Write is called
(internal/protocol/msg_processor.go:370-373).
-/
namespace JT808

variable {α : Type}

/-- Where a call of Write is, ring_buffer.go:31-36: before the load of `Writer` (line 32), before the assignment to
`Container[current]` (line 33), before the store of `Writer` (line 35), returned, or stopped by an index out of range.
Simplification: sequentially consistent memory; the assignment of an interface value to a slot is one step. -/
inductive RingPc (α : Type) where
  | load (v : α)
  | put (v : α) (current : Nat)
  | store (current : Nat)
  | done
  | panicked
  deriving DecidableEq, Repr

/-- The ring and the calls of Write made so far. -/
structure RingSys (α : Type) where
  ring : Ring α
  calls : List (RingPc α)
  deriving DecidableEq, Repr

/-- One step of one call, ring_buffer.go:32, 33 and 34-35. -/
def RingPc.next (r : Ring α) : RingPc α → Ring α × RingPc α
  | .load v => (r, .put v r.writer)
  | .put v current =>
    if current < r.cont.length then ({ r with cont := r.cont.set current (some v) }, .store current) else (r, .panicked)
  | .store current => ({ r with writer := (current + 1) % r.size }, .done)
  | .done => (r, .done)
  | .panicked => (r, .panicked)

/-- Start a call of Write, or let a call make one step. -/
inductive RingEv (α : Type) where
  | call (v : α)
  | run (i : Nat)
  deriving DecidableEq, Repr

/-- The steps of concurrent callers of Write, ring_buffer.go:31-36. -/
def RingSys.step (s : RingSys α) : RingEv α → RingSys α
  | .call v => { s with calls := s.calls ++ [.load v] }
  | .run i =>
    match s.calls[i]? with
    | none => s
    | some pc => ⟨(pc.next s.ring).1, s.calls.set i (pc.next s.ring).2⟩

/-- A schedule of the callers. -/
def RingSys.run (s : RingSys α) (evs : List (RingEv α)) : RingSys α := evs.foldl RingSys.step s

/-- A new ring without callers, ring_buffer.go:21-28; the server uses size 100 (geo_cache.go:12,40). -/
def RingSys.start (n : Nat) : RingSys α := ⟨Ring.new n, []⟩

end JT808
