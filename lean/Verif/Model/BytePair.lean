import Verif.Model.Pair
import Verif.Model.Bytes
/-
The conversation of Verif/Model/Pair.lean with the bytes that travel: each side reads them one at a time
(frame_handler.go:46-86) and writes whole frames (frame_handler.go:88-108).
-/
namespace JT808

/-- As `Pair`, but `up` and `down` are the bytes under way, and `sRecv` and `cRecv` are the variables of the Recv call that
serve (tcp_server.go:94) and (*TCPClient).Start (tcp_client.go:46) are in. -/
structure BPair where
  server : Sys
  sc : Conn
  client : Store
  cc : Conn
  phone : Str
  up : List UInt8
  down : List UInt8
  sRecv : RecvSt
  cRecv : RecvSt
  began : Bool
  stopped : Bool
  sent : Nat
  got : Nat

/-- What can happen next: as `PairEv`, with single bytes being read. -/
inductive BPairEv where
  | serverByte (clk : Clock)
  | clientByte (clk : Clock)
  | notice
  | beat
  | locate (x : LocDraw)
  | other (e : Ev)

/-- (*TCPClient).Send, tcp_client.go:67-84, on a connection that takes everything in one call of Write (a call that takes
only a part is followed by another one, C07; two goroutines that do so at a time are the subject of C91). -/
def BPair.put (env : Env) (p : BPair) (o : Out) : BPair :=
  match Out.encode env o with
  | .ok f => { p with up := p.up ++ f, sent := p.sent + 1 }
  | _ => p

/-- What the server writes to this connection. -/
def BPair.sentDown (p : BPair) (o : Obs) : List UInt8 :=
  match o.sent with
  | some (c, f) => if c = p.sc then f else []
  | none => []

/-- One step, as `Pair.step`. -/
def BPair.step (env : Env) (p : BPair) : BPairEv → BPair
  | .serverByte clk =>
    match p.up with
    | [] => p
    | b :: rest =>
      match recvStep p.sRecv b with
      | .inr r => { p with up := rest, sRecv := r }
      | .inl f =>
        let (s, o) := p.server.step env (.frame clk p.sc f none)
        { p with server := s, up := rest, sRecv := RecvSt.fresh, down := p.down ++ p.sentDown o }
  | .clientByte clk =>
    if p.stopped then p
    else
      match p.down with
      | [] => p
      | b :: rest =>
        match recvStep p.cRecv b with
        | .inr r => { p with down := rest, cRecv := r }
        | .inl f =>
          let p := { p with down := rest, cRecv := RecvSt.fresh, got := p.got + 1 }
          match p.client.handleFrame env clk p.cc f with
          | (st, .silent) => { p with client := st }
          | (st, .reply r) => { p with client := st, up := p.up ++ r, sent := p.sent + 1 }
          | (st, .failed e) => { p with client := st, stopped := e.endsClient }
          | (st, .panicked) => { p with client := st, stopped := true }
  | .notice =>
    match p.client.devByPhone p.phone with
    | some r => if (p.client.heap r).status = .online then { p with began := true } else p
    | none => p
  | .beat =>
    if p.began then
      match p.client.devByPhone p.phone with
      | some r => p.put env (clientBeat (p.client.heap r))
      | none => p
    else p
  | .locate x =>
    if p.began then
      match p.client.devByPhone p.phone with
      | some r => p.put env (clientLocation (p.client.heap r) x)
      | none => p
    else p
  | .other e =>
    let (s, o) := p.server.step env e
    { p with server := s, down := p.down ++ p.sentDown o }

/-- A conversation. -/
def BPair.run (env : Env) (p : BPair) (evs : List BPairEv) : BPair := evs.foldl (BPair.step env) p

/-- dialAndSend up to the registration, test/client/main.go:106-136, as `Pair.start`. -/
def BPair.start (env : Env) (s : Sys) (addr : Str) (client : Store) (cc : Conn) (d : Device) (province city : UInt16)
    (color : UInt8) : BPair :=
  BPair.put env
    ⟨(s.step env (.accept addr)).1, ⟨s.accepted, addr⟩, client.buildDevice d, cc, d.phone, [], [], RecvSt.fresh,
      RecvSt.fresh, false, false, 0, 0⟩
    (clientRegister d province city color)

end JT808
