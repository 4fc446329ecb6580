import Verif.Model.Client
import Verif.Model.Server
/-
The server and one simulated terminal talking to each other: test/client/main.go, internal/client/tcp_client.go and
internal/server/tcp_server.go with a connection between them.
-/
namespace JT808

/-- The server, the simulator's process, and the connection between them.  `sc` and `cc` are the connection as the two
sides see it; `up` and `down` are the frames under way in the two directions (a stream of frames is read frame by frame,
C03 and C60, so the byte streams are kept as lists of frames); `phone` is the DevicePhoneCtxKey of main.go:130,
`began` says that the status checker has released the two sending goroutines (main.go:138-148), `stopped` that
(*TCPClient).Start has returned.  `sent` and `got` count the frames the simulator has sent and received; no code depends
on them. -/
structure Pair where
  server : Sys
  sc : Conn
  client : Store
  cc : Conn
  phone : Str
  up : List (List UInt8)
  down : List (List UInt8)
  began : Bool
  stopped : Bool
  sent : Nat
  got : Nat

/-- What can happen next: the server reads a frame of the simulator, the simulator reads a frame of the server, the
status checker looks at the device, one of the sending goroutines makes a round, or something else happens to the
server. -/
inductive PairEv where
  | serverReads (clk : Clock)
  | clientReads (clk : Clock)
  | notice
  | beat
  | locate (x : LocDraw)
  | other (e : Ev)

/-- The errors that end (*TCPClient).Start, tcp_client.go:54-59. -/
def Err.endsClient : Err → Bool
  | .eof | .closed | .activeClose => true
  | _ => false

/-- (*TCPClient).Send, tcp_client.go:67-84, on a connection that takes everything. -/
def Pair.put (env : Env) (p : Pair) (o : Out) : Pair :=
  match Out.encode env o with
  | .ok f => { p with up := p.up ++ [f], sent := p.sent + 1 }
  | _ => p

/-- What the server sends on this connection. -/
def Pair.sentDown (p : Pair) (o : Obs) : List (List UInt8) :=
  match o.sent with
  | some (c, f) => if c = p.sc then [f] else []
  | none => []

/-- One step.  The two sending goroutines look the device up before each round; keepalive (main.go:63-76) does it only
once, which makes no difference because neither phone nor version of the device ever change.  A device that is gone
would end the simulator (main.go:46-54), which is left out here and shown not to happen. -/
def Pair.step (env : Env) (p : Pair) : PairEv → Pair
  | .serverReads clk =>
    match p.up with
    | [] => p
    | f :: rest =>
      let (s, o) := p.server.step env (.frame clk p.sc f none)
      { p with server := s, up := rest, down := p.down ++ p.sentDown o }
  | .clientReads clk =>
    if p.stopped then p
    else
      match p.down with
      | [] => p
      | f :: rest =>
        match p.client.handleFrame env clk p.cc f with
        | (st, .silent) => { p with client := st, down := rest, got := p.got + 1 }
        | (st, .reply r) => { p with client := st, down := rest, got := p.got + 1, up := p.up ++ [r], sent := p.sent + 1 }
        | (st, .failed e) => { p with client := st, down := rest, got := p.got + 1, stopped := e.endsClient }
        | (st, .panicked) => { p with client := st, down := rest, got := p.got + 1, stopped := true }
  | .notice =>
    match p.client.devByPhone p.phone with
    | some r => if (p.client.heap r).status = .online then { p with began := true } else p
    | none => p
  | .beat =>
    if p.began then
      match p.client.devByPhone p.phone with
      | some r => p.put env (clientBeat (p.client.heap r))
      | none => p
    else p
  | .locate x =>
    if p.began then
      match p.client.devByPhone p.phone with
      | some r => p.put env (clientLocation (p.client.heap r) x)
      | none => p
    else p
  | .other e =>
    let (s, o) := p.server.step env e
    { p with server := s, down := p.down ++ p.sentDown o }

/-- A conversation. -/
def Pair.run (env : Env) (p : Pair) (evs : List PairEv) : Pair := evs.foldl (Pair.step env) p

/-- dialAndSend, test/client/main.go:106-161, up to the registration (line 136): the server has accepted the connection
from `addr`, the simulator has cached its device and sent the registration.  buildDeviceGeo writes a position for
GenMsg0200, which is part of the argument of `locate`. -/
def Pair.start (env : Env) (s : Sys) (addr : Str) (client : Store) (cc : Conn) (d : Device) (province city : UInt16)
    (color : UInt8) : Pair :=
  Pair.put env
    ⟨(s.step env (.accept addr)).1, ⟨s.accepted, addr⟩, client.buildDevice d, cc, d.phone, [], [], false, false, 0, 0⟩
    (clientRegister d province city color)

/-- Several simulators in one process, test/client/main.go:163-181: one server, one process with its stores, and for each
simulator its connection (the `server` and `client` of the pairs are not used).  `dev` is the device each simulator was
given. -/
structure Fleet where
  server : Sys
  client : Store
  count : Nat
  sim : Nat → Pair
  dev : Nat → Device

/-- Simulator `i` and the server. -/
def Fleet.view (fl : Fleet) (i : Nat) : Pair := { fl.sim i with server := fl.server, client := fl.client }

/-- What a step of a pair is for the server. -/
def Pair.serverEv (p : Pair) : PairEv → Option Ev
  | .serverReads clk =>
    match p.up with
    | [] => none
    | f :: _ => some (.frame clk p.sc f none)
  | .other e => some e
  | _ => none

/-- What the other simulators see of something that happens to the server. -/
def Fleet.watch (env : Env) (fl : Fleet) (e : Option Ev) (j : Nat) : Pair :=
  match e with
  | some e => (fl.view j).step env (.other e)
  | none => fl.sim j

/-- A further simulator connects, something happens to simulator `i`, or something else happens to the server. -/
inductive FleetEv where
  | join (addr : Str) (cc : Conn) (d : Device) (province city : UInt16) (color : UInt8)
  | at (i : Nat) (e : PairEv)
  | world (e : Ev)

/-- One step of the fleet. -/
def Fleet.step (env : Env) (fl : Fleet) : FleetEv → Fleet
  | .join addr cc d province city color =>
    let p := Pair.start env fl.server addr fl.client cc d province city color
    ⟨p.server, p.client, fl.count + 1,
      fun j => if j = fl.count then p else fl.watch env (some (.accept addr)) j,
      fun j => if j = fl.count then d else fl.dev j⟩
  | .at i e =>
    let p := (fl.view i).step env e
    { fl with
      server := p.server, client := p.client
      sim := fun j => if j = i then p else fl.watch env ((fl.view i).serverEv e) j }
  | .world e =>
    { fl with server := (fl.server.step env e).1, sim := fl.watch env (some e) }

/-- A run of the fleet. -/
def Fleet.run (env : Env) (fl : Fleet) (evs : List FleetEv) : Fleet := evs.foldl (Fleet.step env) fl

/-- No simulators yet; `p` stands for the pairs that do not exist. -/
def Fleet.start (s : Sys) (p : Pair) : Fleet := ⟨s, Store.empty, 0, fun _ => p, fun _ => genDevice .v2013 [] [] [] [] 0 p.cc⟩

end JT808
