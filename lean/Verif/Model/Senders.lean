import Verif.Model.Frame
/-
Several goroutines sending on one connection: the goroutine that serves it and every HTTP request (tcp_server.go:111-135),
or the goroutines of a simulator (test/client/main.go:133-156).  Each makes its own pipeline and frame handler for the same
connection (pipeline.go:17-23, frame_handler.go:31-38), and Send takes no lock.
-/
namespace JT808

/-- The bytes on the wire, and what each goroutine still has to send; the head of a list is the part of a frame that is
still to be written. -/
structure Wire where
  out : List UInt8
  todo : Nat → List (List UInt8)

/-- One call of `conn.Write` in the loop of Send (frame_handler.go:94-105) by goroutine `i`, with its answer.  A call of
Write is one step, because a network connection of the standard library lets one Write through at a time; after an error
Send gives up its frame. -/
def Wire.step (w : Wire) (ev : Nat × WriteResp) : Wire :=
  match w.todo ev.1 with
  | [] => w
  | p :: ps =>
    ⟨w.out ++ p.take ev.2.n, fun j => if j = ev.1 then
      (if ev.2.err ≠ none ∨ ev.2.n ≥ p.length then ps else p.drop ev.2.n :: ps) else w.todo j⟩

/-- Any order of calls. -/
def Wire.run (w : Wire) (evs : List (Nat × WriteResp)) : Wire := evs.foldl Wire.step w

/-- Goroutines that send the given frames. -/
def Wire.start (frames : Nat → List (List UInt8)) : Wire := ⟨[], frames⟩

end JT808
