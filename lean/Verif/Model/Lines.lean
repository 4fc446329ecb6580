import Verif.Model.Workers
import Verif.Model.Bytes
/-
The goroutines of Verif/Model/Workers.lean with the bytes they read and write: serve (tcp_server.go:85-110) reads its
connection byte by byte (frame_handler.go:46-86), decodes what it has read (pipeline.go:68-76, packet_codec.go:48-79,
msg_processor.go:141-163), handles the message in atomic steps and writes the answer (pipeline.go:83-107).
-/
namespace JT808

/-- What serve makes of a received frame before the handler is called: a message to handle, nothing (an error that does not
end serve, tcp_server.go:96-109), or its end (`none`).  packet_codec.go:48-79, msg_processor.go:141-163.  Fragments, which
go through the shared segment cache (packet_codec.go:69-74) and are acknowledged with a number of the session
(msg_processor.go:165-174), are not in this model: serve is taken to end, and theorems are about streams without them. -/
def received (env : Env) (now : Civil) (c : Conn) (frame : List UInt8) : Option (Option Task) :=
  match decodeFrame env frame with
  | .err e => if e.endsServe then none else some none
  | .panic => none
  | .ok pd =>
    if pd.header.isFragmented then none
    else match MType.ofID pd.header.msgID with
      | none => some none
      | some t =>
        match t.decode env now pd.header pd.body 0 with
        | .err e => if e.endsServe then none else some none
        | .panic => none
        | .ok (m, _) => some (some (.msg c pd.header m))

/-- What the result of a handler puts on the wire, and whether serve ends: pipeline.go:83-107, tcp_server.go:96-109.  Write
errors are left out. -/
def putsOut (env : Env) : Res (Option Out) → List UInt8 × Bool
  | .ok none => ([], false)
  | .ok (some o) =>
    match Out.encode env o with
    | .ok f => (f, false)
    | .err e => ([], e.endsServe)
    | .panic => ([], true)
  | .err e => ([], e.endsServe)
  | .panic => ([], true)

/-- A goroutine: serve of a connection, with the bytes that are still to come, the variables of Recv, the message at hand
and what it has written; or a keepalive check, which reads nothing. -/
structure Line where
  conn : Conn
  todo : List Task
  input : List UInt8
  recv : RecvSt
  cur : Option (Task × Prog)
  done : List (Task × Res (Option Out))
  output : List UInt8
  ended : Bool

/-- A connection on which these bytes will arrive, tcp_server.go:51. -/
def Line.open (c : Conn) (bytes : List UInt8) : Line := ⟨c, [], bytes, RecvSt.fresh, none, [], [], false⟩

/-- A keepalive check, keepalive.go:31-40; it has no connection.  A panic, which would end the process (C46), ends only this
goroutine here: the theorems are about what happens as long as the process lives. -/
def Line.check (phone : Str) : Line := ⟨⟨0, []⟩, [.check phone], [], RecvSt.fresh, none, [], [], false⟩

/-- One step of a goroutine: read a byte (frame_handler.go:52-68; without bytes it waits), begin with a message when a
frame is complete, go on with it, or answer it. -/
def Line.next (env : Env) (clk : Clock) (st : Store) (l : Line) : Store × Line :=
  if l.ended then (st, l) else
  match l.cur with
  | some (t, .step f k) => (f clk st, { l with cur := some (t, k clk st) })
  | some (t, .ret r) =>
    (st, { l with cur := none, done := l.done ++ [(t, r)], output := l.output ++ (putsOut env r).1, ended := (putsOut env r).2 })
  | none =>
    match l.todo with
    | t :: ts => (st, { l with todo := ts, cur := some (t, t.prog env) })
    | [] =>
      match l.input with
      | [] => (st, l)
      | b :: rest =>
        match recvStep l.recv b with
        | .inr r => (st, { l with input := rest, recv := r })
        | .inl f =>
          match received env clk.civil l.conn f with
          | none => (st, { l with input := rest, recv := RecvSt.fresh, ended := true })
          | some none => (st, { l with input := rest, recv := RecvSt.fresh })
          | some (some t) => (st, { l with input := rest, recv := RecvSt.fresh, cur := some (t, t.prog env) })

/-- The store and the goroutines. -/
structure LSys where
  st : Store
  ls : List Line

/-- The goroutine with the given number makes a step at the given time. -/
def LSys.step (env : Env) (s : LSys) (e : Nat × Clock) : LSys :=
  match s.ls[e.1]? with
  | none => s
  | some l => ⟨(l.next env e.2 s.st).1, s.ls.set e.1 (l.next env e.2 s.st).2⟩

/-- A schedule. -/
def LSys.run (env : Env) (s : LSys) (evs : List (Nat × Clock)) : LSys := evs.foldl (LSys.step env) s

end JT808
