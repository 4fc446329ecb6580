import Verif.Model.Lines
/-
The goroutines of Verif/Model/Lines.lean on connections that break: from some moment on no more bytes come (the peer is gone,
or read deadlines pass), or writing fails, or both.  tcp_server.go:85-110, frame_handler.go:46-86, 88-105.
-/
namespace JT808

/-- A connection and how it is broken.  `mute` if writing fails: with whether the error of Write is one that ends serve
(net.ErrClosed or io.ErrClosedPipe, tcp_server.go:103-104; after others, as a reset by the peer, serve goes on,
tcp_server.go:105-107), and how many bytes of the frame the next Write has written before it fails (frame_handler.go:94-97);
those after it write nothing.  `deaf` if nothing comes any more, so that Read waits, or returns an error
(frame_handler.go:53-56), with which serve ends, or which it gets again and again (tcp_server.go:96-107): in all cases it
handles nothing more. -/
structure Cable where
  line : Line
  mute : Option (Bool × Nat)
  deaf : Bool

/-- What happens: a goroutine makes a step at a time, or a connection breaks. -/
inductive CableEv where
  | step (i : Nat) (clk : Clock)
  | mute (i : Nat) (ends : Bool) (part : Nat)
  | deaf (i : Nat)

/-- One step of a goroutine, as `Line.next`, with a connection that may be broken: frame_handler.go:88-105 for the answer that
cannot be written, the error of which serve gets from pipeline.go:101-107; frame_handler.go:51-56 for the read that fails. -/
def Cable.next (env : Env) (clk : Clock) (st : Store) (w : Cable) : Store × Cable :=
  if w.line.ended then (st, w) else
  match w.line.cur, w.mute with
  | some (t, .ret (.ok (some o))), some (ends, part) =>
    match Out.encode env o with
    | .ok f => (st, { w with line := { w.line with cur := none, done := w.line.done ++ [(t, .ok (some o))],
                                                   output := w.line.output ++ f.take part, ended := ends },
                             mute := some (ends, 0) })
    | _ => ((w.line.next env clk st).1, { w with line := (w.line.next env clk st).2 })
  | none, _ => if w.deaf then (st, w) else ((w.line.next env clk st).1, { w with line := (w.line.next env clk st).2 })
  | _, _ => ((w.line.next env clk st).1, { w with line := (w.line.next env clk st).2 })

/-- The store and the goroutines with their connections. -/
structure CableSys where
  st : Store
  ws : List Cable

/-- One event.  A connection that is broken stays so (the first error of Write is the one it keeps). -/
def CableSys.step (env : Env) (s : CableSys) : CableEv → CableSys
  | .step i clk => match s.ws[i]? with
    | none => s
    | some w => ⟨(w.next env clk s.st).1, s.ws.set i (w.next env clk s.st).2⟩
  | .mute i ends part => match s.ws[i]? with
    | none => s
    | some w => ⟨s.st, s.ws.set i { w with mute := some (w.mute.getD (ends, part)) }⟩
  | .deaf i => match s.ws[i]? with
    | none => s
    | some w => ⟨s.st, s.ws.set i { w with deaf := true }⟩

/-- A schedule, tcp_server.go:51 for each connection. -/
def CableSys.run (env : Env) (s : CableSys) (evs : List CableEv) : CableSys := evs.foldl (CableSys.step env) s

/-- Connections, and checks, that are not broken yet, tcp_server.go:41-57. -/
def CableSys.sound (s : LSys) : CableSys := ⟨s.st, s.ls.map fun l => ⟨l, none, false⟩⟩

end JT808
