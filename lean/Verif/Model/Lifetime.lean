import Verif.Model.Server
/-
internal/server/tcp_server.go: Listen, Start and Stop around the rest of the server.
-/
namespace JT808

/-- The server with its listening sockets. `field` is the member listener of TCPServer, tcp_server.go:20, as the number of
a socket. Sockets are numbered as they are opened, `closed` lists those that were closed. `loops` has the socket at which
each running loop of Start waits. -/
structure Host where
  field : Option Nat
  opened : Nat
  closed : List Nat
  loops : List Nat
  sys : Sys

/-- NewTCPServer, tcp_server.go:26-31. -/
def Host.new (sys : Sys) : Host := ⟨none, 0, [], [], sys⟩

/-- What can happen: the three methods are called (`listen` with whether the port could be had), Accept returns a connection
or an error to the `i`-th loop, or anything else happens in the server. -/
inductive HEv where
  | listen (ok : Bool)
  | start
  | stop
  | arrive (i : Nat) (addr : Str)
  | acceptErr (i : Nat)
  | ev (e : Ev)

/-- The loop goes back to line 45 and reads the member again. The member is never nil after the loop has begun. -/
def Host.again (h : Host) (i l : Nat) : Host :=
  { h with loops := h.loops.set i (h.field.getD l) }

/-- Listen, tcp_server.go:33-41: the member is set when the socket could be opened; a socket it held before stays open.
Start, 43-53: one round of the loop per `arrive` or `acceptErr`; a call without a listener panics at once, which ends the
goroutine (GoSafe in main.go:47). Stop, 55-57: closes the socket the member holds; without one it panics, and nothing
changes. Accept returns no connections from a closed socket. The connections handed out by the kernel are the only ones:
an `ev` that is an accept is ignored. -/
def Host.step (env : Env) (h : Host) : HEv → Host × Obs
  | .listen true => ({ h with field := some h.opened, opened := h.opened + 1 }, Obs.none)
  | .listen false => (h, Obs.none)
  | .start =>
    match h.field with
    | none => (h, Obs.none)
    | some l => ({ h with loops := h.loops ++ [l] }, Obs.none)
  | .stop =>
    match h.field with
    | none => (h, Obs.none)
    | some l => ({ h with closed := l :: h.closed }, Obs.none)
  | .arrive i addr =>
    match h.loops[i]? with
    | none => (h, Obs.none)
    | some l =>
      if l ∈ h.closed then (h, Obs.none)
      else
        let (s, o) := h.sys.step env (.accept addr)
        ({ h with sys := s }.again i l, o)
  | .acceptErr i =>
    match h.loops[i]? with
    | none => (h, Obs.none)
    | some l => (h.again i l, Obs.none)
  | .ev (.accept _) => (h, Obs.none)
  | .ev e =>
    let (s, o) := h.sys.step env e
    ({ h with sys := s }, o)

/-- A history. -/
def Host.run (env : Env) (h : Host) : List HEv → Host × List Obs
  | [] => (h, [])
  | e :: es =>
    let (h', o) := h.step env e
    let (h'', os) := h'.run env es
    (h'', o :: os)

end JT808
