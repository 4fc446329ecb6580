import Verif.Model.Breaks
import Verif.Model.Commands
/-
The whole process from bytes to bytes: the goroutines of connections that may break (Verif/Model/Breaks.lean), beside the
parameter requests of the HTTP API (Verif/Model/Commands.lean), connections that are accepted and connections that end.
-/
namespace JT808

/-- What can happen. -/
inductive HubEv where
  /-- A step of a connection or check, or a connection breaks. -/
  | cable (e : CableEv)
  /-- accept of a connection, tcp_server.go:66-79.  The goroutine of a connection that is not accepted yet is one that has made
  no step yet. -/
  | accept (c : Conn)
  /-- remove, when a serve loop has ended, tcp_server.go:92-93 and 81-90.  It may come at any moment here. -/
  | gone (c : Conn)
  /-- A parameter request arrives, api.go:52-92. -/
  | request (q : Req)
  /-- A step of a request, with what a write would return. -/
  | go (i : Nat) (werr : Option Err)

/-- The store, the connections and checks, the requests in the order in which they came, and what requests have written, with
the number of the request.  Simplification: in which order the answers on a connection (`Line.output`) and what requests write
on it are on the wire is left out (Verif/Model/Senders.lean has writes side by side). -/
structure HubSys where
  st : Store
  ws : List Cable
  reqs : List (Req × ReqPc)
  sent : List (Nat × Conn × List UInt8)

/-- One event, tcp_server.go:41-136, api.go:52-92. -/
def HubSys.step (env : Env) (s : HubSys) : HubEv → HubSys
  | .cable e => { s with st := ((CableSys.mk s.st s.ws).step env e).st, ws := ((CableSys.mk s.st s.ws).step env e).ws }
  | .accept c => { s with st := s.st.storeSession c }
  | .gone c => { s with st := s.st.remove c }
  | .request q => { s with reqs := s.reqs ++ [(q, .lookup)] }
  | .go i werr =>
    match s.reqs[i]? with
    | none => s
    | some (q, pc) =>
      let r := q.next env werr s.st pc
      { s with st := r.1, reqs := s.reqs.set i (q, r.2.1), sent := s.sent ++ (r.2.2.map fun x => (i, x)).toList }

/-- A schedule, tcp_server.go:41-57 and api.go:52-92. -/
def HubSys.run (env : Env) (s : HubSys) (evs : List HubEv) : HubSys := evs.foldl (HubSys.step env) s

/-- Connections that are not broken, and no requests yet, tcp_server.go:41-57. -/
def HubSys.sound (s : LSys) : HubSys := ⟨s.st, (CableSys.sound s).ws, [], []⟩

end JT808
