import Verif.Model.Server
/-
internal/server/tcp_server.go:86-110: when the loop of serve gets round to a frame.
-/
namespace JT808

/-- Whether a pass of the loop of serve ends with `time.Sleep(1 * time.Second)`, tcp_server.go:94-107: ProcessConnRead
returned an error, and not one of those that end the loop.  `werr` is what writing the reply returns. -/
def Store.pauses (env : Env) (clk : Clock) (c : Conn) (werr : Option Err) (st : Store) (frame : List UInt8) : Bool :=
  match (st.handleFrame env clk c frame).2, werr with
  | .failed e, _ => !e.endsServe
  | .reply _, some e => !e.endsServe
  | _, _ => false

/-- How long a pass keeps the loop from reading on, in milliseconds, tcp_server.go:94-107.  The time taken by the handlers
themselves is left out. -/
def Store.pause (env : Env) (clk : Clock) (c : Conn) (werr : Option Err) (st : Store) (frame : List UInt8) : Nat :=
  if st.pauses env clk c werr frame then 1000 else 0

/-- One frame of a connection: when its last byte arrived, when the loop took it up, and whether the pass ended with the
pause. -/
structure Pass where
  arrived : Nat
  begun : Nat
  paused : Bool
  deriving DecidableEq, Repr

/-- The histories in which the frames `due` (each with the time of its arrival) are what the terminal at the other end of
`c` sends, and the loop of serve (tcp_server.go:86-110) takes up each of them when it has arrived and the loop is not
asleep; `busy` is when it wakes up.  Everything else happens in between at any time.  Reads on the connection do not fail. -/
inductive Paced (env : Env) (c : Conn) : Sys → Nat → List (Nat × List UInt8) → List Ev → List Pass → Prop
  | done (s : Sys) (busy : Nat) (due : List (Nat × List UInt8)) : Paced env c s busy due [] []
  | pass {s : Sys} {busy : Nat} {due : List (Nat × List UInt8)} {evs : List Ev} {log : List Pass} {a : Nat}
      {clk : Clock} {f : List UInt8} {werr : Option Err} (hl : c ∈ s.live) (ht : clk.ms = max a busy)
      (next : Paced env c (s.step env (.frame clk c f werr)).1 (clk.ms + s.st.pause env clk c werr f) due evs log) :
      Paced env c s busy ((a, f) :: due) (.frame clk c f werr :: evs) (⟨a, clk.ms, s.st.pauses env clk c werr f⟩ :: log)
  | other {s : Sys} {busy : Nat} {due : List (Nat × List UInt8)} {evs : List Ev} {log : List Pass} {e : Ev}
      (hf : ∀ clk f werr, e ≠ .frame clk c f werr) (hr : ∀ err, e ≠ .readErr c err)
      (next : Paced env c (s.step env e).1 busy due evs log) : Paced env c s busy due (e :: evs) log

end JT808
