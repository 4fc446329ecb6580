import Verif.Model.Server
import Verif.Model.Frame
/-
internal/server/tcp_server.go:85-110 with internal/protocol/frame_handler.go:46-86: the server reading bytes.  In
Verif/Model/Server.lean a whole frame is one event; here every byte is one, and the bytes of different connections come
in any order.
-/
namespace JT808

/-- The process with the loop variables of the Recv call that every serve loop is blocked in (frame_handler.go:47-48). -/
structure ByteSys where
  sys : Sys
  recv : Conn → RecvSt

/-- The variables of a new call of Recv, frame_handler.go:47-48. -/
def RecvSt.fresh : RecvSt := ⟨false, []⟩

/-- A server that has just been started. -/
def ByteSys.start : ByteSys := ⟨Sys.start, fun _ => RecvSt.fresh⟩

/-- What can happen: a serve loop reads a byte, its read fails, or anything else. -/
inductive BEv where
  /-- `fh.rbuf.Read(readBuf)` returns the byte `b`, frame_handler.go:52; the clock while the frame is handled, should
  this byte complete one, and what writing the reply would return. -/
  | byte (clk : Clock) (c : Conn) (b : UInt8) (werr : Option Err)
  /-- The read fails, frame_handler.go:53-55. -/
  | fail (c : Conn) (e : Err)
  /-- Any other event of Verif/Model/Server.lean. -/
  | other (e : Ev)

/-- `w.recv` with the variables of one connection replaced. -/
def ByteSys.setRecv (w : ByteSys) (c : Conn) (r : RecvSt) : ByteSys :=
  { w with recv := fun x => if x = c then r else w.recv x }

/-- Frames and failed reads, which come about through bytes here. -/
def Ev.isRead : Ev → Bool
  | .frame .. | .readErr .. => true
  | _ => false

/-- One event.  When Recv returns, with a frame or with an error, the next pass of the loop in serve calls it anew
(tcp_server.go:90-108).  Reads of connections that are not served change nothing but the unused `recv`. -/
def ByteSys.step (env : Env) (w : ByteSys) : BEv → ByteSys × Obs
  | .byte clk c b werr =>
    match recvStep (w.recv c) b with
    | .inl f =>
      let (s, o) := w.sys.step env (.frame clk c f werr)
      ({ w.setRecv c RecvSt.fresh with sys := s }, o)
    | .inr r => (w.setRecv c r, Obs.none)
  | .fail c e =>
    let (s, o) := w.sys.step env (.readErr c e)
    ({ w.setRecv c RecvSt.fresh with sys := s }, o)
  | .other e =>
    if e.isRead then (w, Obs.none)
    else
      let (s, o) := w.sys.step env e
      ({ w with sys := s }, o)

/-- A history. -/
def ByteSys.run (env : Env) (w : ByteSys) : List BEv → ByteSys × List Obs
  | [] => (w, [])
  | e :: es =>
    let (w', o) := w.step env e
    let (w'', os) := w'.run env es
    (w'', o :: os)

end JT808
