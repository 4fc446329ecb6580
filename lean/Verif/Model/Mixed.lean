import Verif.Model.Hub
/-
The goroutines of Verif/Model/Lines.lean when fragments come too: they go through the segment cache, which all connections
share (packet_codec.go:69-74), and all but the last are acknowledged with a number of the session (msg_processor.go:165-174,
213-231).  Beside them the parameter requests of Verif/Model/Commands.lean, and connections that come and go.
-/
namespace JT808

/-- A frame the header of which says that it is a fragment, packet_codec.go:69. -/
def isFragment (env : Env) (frame : List UInt8) : Bool :=
  match decodeFrame env frame with
  | .ok pd => pd.header.isFragmented
  | _ => false

/-- What serve does with a fragment: packet_codec.go:69-74, msg_processor.go:141-174, 213-231, pipeline.go:68-107,
tcp_server.go:96-109.  The last fragment begins the handling of the message that is decoded from its own body (as C52 has
it).  Simplification: to cache a fragment and to acknowledge it is one step. -/
def Line.fragment (env : Env) (clk : Clock) (st : Store) (l : Line) (rest f : List UInt8) : Store × Line :=
  let l := { l with input := rest, recv := RecvSt.fresh }
  match st.decodePacket env f with
  | (st, .err e) => (st, { l with ended := e.endsServe })
  | (st, .panic) => (st, { l with ended := true })
  | (st, .ok pd) =>
    match MType.ofID pd.header.msgID with
    | none => (st, l)
    | some t =>
      if pd.segCompleted then
        match t.decode env clk.civil pd.header pd.body 0 with
        | .err e => (st, { l with ended := e.endsServe })
        | .panic => (st, { l with ended := true })
        | .ok (m, _) => (st, { l with cur := some (.msg l.conn pd.header m, (Task.msg l.conn pd.header m).prog env) })
      else
        ((st.processSegment pd.header).1,
          { l with output := l.output ++ (putsOut env (st.processSegment pd.header).2).1
                   ended := (putsOut env (st.processSegment pd.header).2).2 })

/-- One step of a goroutine, as `Line.next`, with fragments: frame_handler.go:46-86, pipeline.go:68-107. -/
def Line.nextFrag (env : Env) (clk : Clock) (st : Store) (l : Line) : Store × Line :=
  if l.ended || l.cur.isSome || !l.todo.isEmpty then l.next env clk st else
  match l.input with
  | [] => l.next env clk st
  | b :: rest =>
    match recvStep l.recv b with
    | .inr _ => l.next env clk st
    | .inl f => if isFragment env f then l.fragment env clk st rest f else l.next env clk st

/-- What can happen: a step of a connection or check, and the rest as in `HubEv`. -/
inductive MixEv where
  | step (i : Nat) (clk : Clock)
  | accept (c : Conn)
  | gone (c : Conn)
  | request (q : Req)
  | go (i : Nat) (werr : Option Err)

/-- The store, the connections and checks, the requests and what they have written, as in `HubSys`. -/
structure MixSys where
  st : Store
  ls : List Line
  reqs : List (Req × ReqPc)
  sent : List (Nat × Conn × List UInt8)

/-- One event, tcp_server.go:41-136, api.go:52-92. -/
def MixSys.step (env : Env) (s : MixSys) : MixEv → MixSys
  | .step i clk => match s.ls[i]? with
    | none => s
    | some l => { s with st := (l.nextFrag env clk s.st).1, ls := s.ls.set i (l.nextFrag env clk s.st).2 }
  | .accept c => { s with st := s.st.storeSession c }
  | .gone c => { s with st := s.st.remove c }
  | .request q => { s with reqs := s.reqs ++ [(q, .lookup)] }
  | .go i werr =>
    match s.reqs[i]? with
    | none => s
    | some (q, pc) =>
      let r := q.next env werr s.st pc
      { s with st := r.1, reqs := s.reqs.set i (q, r.2.1), sent := s.sent ++ (r.2.2.map fun x => (i, x)).toList }

/-- A schedule, tcp_server.go:41-57 and api.go:52-92. -/
def MixSys.run (env : Env) (s : MixSys) (evs : List MixEv) : MixSys := evs.foldl (MixSys.step env) s

end JT808
