import Verif.Model.Bytes
import Verif.Model.Answer
/-
The server as it is seen from outside: bytes on connections and requests to the HTTP API (main.go:36-53,
internal/server/tcp_server.go:85-110, internal/api/api.go:20-92).
-/
namespace JT808

/-- What reaches the server: a byte or a failed read on a connection, a request, or an event that is neither (a connection is
accepted, a keepalive job runs). -/
inductive WEv where
  | byte (clk : Clock) (c : Conn) (b : UInt8) (werr : Option Err)
  | fail (c : Conn) (e : Err)
  | accept (addr : Str)
  | job (clk : Clock) (phone : Str)
  | request (r : Request) (werr : Option Err)

/-- What leaves it: a frame on a connection, a connection closed, the status of an answer (`Obs`), and the body of the answer,
where the operation wrote it. -/
structure WOut where
  obs : Obs
  body : Option Str

/-- One event.  Requests are handled by gin in goroutines of their own, api.go:20; here each is one step. -/
def ByteSys.outside (env : Env) (wr : Writing) (w : ByteSys) : WEv → ByteSys × WOut
  | .byte clk c b werr => let (w', o) := w.step env (.byte clk c b werr); (w', ⟨o, none⟩)
  | .fail c e => let (w', o) := w.step env (.fail c e); (w', ⟨o, none⟩)
  | .accept addr => let (w', o) := w.step env (.other (.accept addr)); (w', ⟨o, none⟩)
  | .job clk phone => let (w', o) := w.step env (.other (.check clk phone)); (w', ⟨o, none⟩)
  | .request r werr =>
    let (s, o) := w.sys.request env r werr
    ({ w with sys := s }, ⟨o, (w.sys.answer env wr r werr).map (·.2)⟩)

/-- A history. -/
def ByteSys.runOutside (env : Env) (wr : Writing) (w : ByteSys) : List WEv → ByteSys × List WOut
  | [] => (w, [])
  | e :: es =>
    let (w', o) := w.outside env wr e
    let (w'', os) := w'.runOutside env wr es
    (w'', o :: os)

end JT808
