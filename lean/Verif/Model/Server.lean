import Verif.Model.Processor
import Verif.Model.Frame
/-
internal/protocol/keepalive.go, internal/server/tcp_server.go, internal/api/api.go: the server process as a transition
system.  Handlers run one at a time here; Verif/Model/Conc.lean has interleaved ones.
-/
namespace JT808

/-- checkDeviceKeepalive, keepalive.go:65-86.  For a missing device the job is cancelled and then the nil device is
dereferenced.  gron runs jobs on bare goroutines, so a panic here ends the process. -/
def Store.check (clk : Clock) (st : Store) (phone : Str) : Store × Res Unit :=
  match st.devByPhone phone with
  | none => (st.cancelJob phone, .panic)
  | some r =>
    let d := st.heap r
    if d.shouldTurnOffline clk.ms then
      ((st.setDev r d.lost).cacheDevice r, .ok ())
    else if d.shouldClear clk.ms then
      match d.conn with
      | none => (st, .panic)
      | some c => ((((st.closeConn c).delByPhone phone).delGeo phone).cancelJob phone, .ok ())
    else (st, .ok ())

/-- remove, tcp_server.go:74-83. -/
def Store.remove (st : Store) (c : Conn) : Store := (st.closeConn c).clearSession c.addr

/-- The errors that end serve, tcp_server.go:102-104. -/
def Err.endsServe : Err → Bool
  | .eof | .closed | .deviceNotFound => true
  | _ => false

/-- What one event puts on the wire (the connection and the frame), whether a serve loop ended, and the HTTP status if
there was a request. -/
structure Obs where
  sent : Option (Conn × List UInt8)
  ended : Bool
  http : Option Nat
  deriving DecidableEq, Repr

/-- One pass of the loop of serve for a received frame, tcp_server.go:90-108, pipeline.go:28-37, 101-107.  `werr` is
what writing the reply returns.  A panic unwinds through the deferred remove and is recovered by GoSafe
(pkg/routines/safe.go:11-34). -/
def Store.serveFrame (env : Env) (clk : Clock) (c : Conn) (werr : Option Err) (st : Store) (frame : List UInt8) :
    Store × Obs :=
  match st.handleFrame env clk c frame with
  | (st, .silent) => (st, ⟨none, false, none⟩)
  | (st, .reply f) =>
    match werr with
    | none => (st, ⟨some (c, f), false, none⟩)
    | some e => if e.endsServe then (st.remove c, ⟨none, true, none⟩) else (st, ⟨none, false, none⟩)
  | (st, .failed e) => if e.endsServe then (st.remove c, ⟨none, true, none⟩) else (st, ⟨none, false, none⟩)
  | (st, .panicked) => (st.remove c, ⟨none, true, none⟩)

/-- One pass of the loop of serve when Recv fails with `e`. -/
def Store.serveErr (c : Conn) (st : Store) (e : Err) : Store × Obs :=
  if e.endsServe then (st.remove c, ⟨none, true, none⟩) else (st, ⟨none, false, none⟩)

/-- (*TCPServer).Send, tcp_server.go:112-136.  A panic of the encoder goes to the caller. -/
def Store.serverSend (env : Env) (werr : Option Err) (st : Store) (id : Str) (o : Out) :
    Store × Res (Option (Conn × List UInt8)) :=
  match st.session id with
  | none => (st, .ok none)
  | some c =>
    match Out.encode env o with
    | .panic => (st, .panic)
    | .err _ => (st, .ok none)
    | .ok f =>
      match werr with
      | none => (st, .ok (some (c, f)))
      | some .closed => (st.remove c, .ok none)
      | some _ => (st, .ok none)

/-- GET /device, api.go:24-26: the listing and the status. -/
def Store.apiList (st : Store) : List Device × Nat := (st.listDevice, 200)

/-- GET /device/:phone/geo, api.go:28-50: the device and its location, if any was written.  Without a location the
handler returns without writing anything, which gin answers with an empty 200. -/
def Store.apiGeo (st : Store) (phone : Str) : Store × Nat × Option (Device × DeviceGeo) :=
  match st.devByPhone phone with
  | none => (st, 400, none)
  | some r =>
    match st.geoLatest phone with
    | (st, .ok g) => (st, 200, some (st.heap r, g))
    | (st, .err _) => (st, 200, none)
    | (st, .panic) => (st, 500, none)

/-- The common tail of GET and PUT /device/:phone/params, api.go:58-67 and 81-91: look up the session, build the header,
send.  Without a session 400 is written, but the handler goes on and dereferences the nil session.  The panic is
recovered by gin. `code` is the status written before, if any. -/
def Store.apiSend (env : Env) (werr : Option Err) (st : Store) (r : Ref) (code : Option Nat) (id : UInt16) (m : Msg) :
    Store × Obs :=
  let d := st.heap r
  match st.session d.sessionID with
  | none => (st, ⟨none, false, some (code.getD 400)⟩)
  | some c =>
    let (st, n) := st.takeSerial c
    match st.serverSend env werr c.addr (genMsgHeader d.phone d.ver d.protoVer id n, m) with
    | (st, .ok s) => (st, ⟨s, false, some (code.getD 200)⟩)
    | (st, .err _) => (st, ⟨none, false, some (code.getD 200)⟩)
    | (st, .panic) => (st, ⟨none, false, some (code.getD 500)⟩)

/-- GET /device/:phone/params, api.go:52-69. -/
def Store.apiQuery (env : Env) (werr : Option Err) (st : Store) (phone : Str) : Store × Obs :=
  match st.devByPhone phone with
  | none => (st, ⟨none, false, some 400⟩)
  | some r => st.apiSend env werr r none 0x8104 .m8104

/-- PUT /device/:phone/params, api.go:71-92.  `bound` is what gin's ShouldBind left in `params`, `bad` whether it
returned an error; the handler goes on after an error. -/
def Store.apiSet (env : Env) (werr : Option Err) (st : Store) (phone : Str) (bound : DeviceParams) (bad : Bool) :
    Store × Obs :=
  let code := if bad then some 400 else none
  match st.devByPhone phone with
  | none => (st, ⟨none, false, some 400⟩)
  | some r => st.apiSend env werr r code 0x8103 (.m8103 ⟨0, bound⟩)

/-- The process: its stores, the connections with a running serve loop, the number of connections accepted so far, and
whether a keepalive check has crashed it. -/
structure Sys where
  st : Store
  live : List Conn
  accepted : Nat
  crashed : Bool

/-- A server that has just been started. -/
def Sys.start : Sys := ⟨Store.empty, [], 0, false⟩

/-- What can happen to the process. -/
inductive Ev where
  /-- Accept, tcp_server.go:45-50: a connection from `addr`. -/
  | accept (addr : Str)
  /-- A frame received on a connection, and what writing the reply would return. -/
  | frame (clk : Clock) (c : Conn) (bytes : List UInt8) (werr : Option Err)
  /-- Recv on a connection fails. -/
  | readErr (c : Conn) (e : Err)
  /-- A keepalive job runs. -/
  | check (clk : Clock) (phone : Str)
  /-- GET /device -/
  | httpList
  /-- GET /device/:phone/geo -/
  | httpGeo (phone : Str)
  /-- GET /device/:phone/params -/
  | httpQuery (phone : Str) (werr : Option Err)
  /-- PUT /device/:phone/params -/
  | httpSet (phone : Str) (bound : DeviceParams) (bad : Bool) (werr : Option Err)

/-- Nothing to see. -/
def Obs.none : Obs := ⟨Option.none, false, Option.none⟩

/-- One event.  Events that cannot happen (frames of connections not served, checks without a job, anything after a
crash) change nothing. -/
def Sys.step (env : Env) (s : Sys) (e : Ev) : Sys × Obs :=
  if s.crashed then (s, Obs.none)
  else
    match e with
    | .accept addr =>
      let c : Conn := ⟨s.accepted, addr⟩
      ({ s with st := s.st.storeSession c, live := c :: s.live, accepted := s.accepted + 1 }, Obs.none)
    | .frame clk c bytes werr =>
      if c ∈ s.live then
        let (st, o) := s.st.serveFrame env clk c werr bytes
        ({ s with st := st, live := if o.ended then s.live.filter (· ≠ c) else s.live }, o)
      else (s, Obs.none)
    | .readErr c e =>
      if c ∈ s.live then
        let (st, o) := s.st.serveErr c e
        ({ s with st := st, live := if o.ended then s.live.filter (· ≠ c) else s.live }, o)
      else (s, Obs.none)
    | .check clk phone =>
      if phone ∈ s.st.jobs then
        let (st, r) := s.st.check clk phone
        ({ s with st := st, crashed := r == .panic }, Obs.none)
      else (s, Obs.none)
    | .httpList => (s, ⟨none, false, some s.st.apiList.2⟩)
    | .httpGeo phone =>
      let (st, code, _) := s.st.apiGeo phone
      ({ s with st := st }, ⟨none, false, some code⟩)
    | .httpQuery phone werr =>
      let (st, o) := s.st.apiQuery env werr phone
      ({ s with st := st }, o)
    | .httpSet phone bound bad werr =>
      let (st, o) := s.st.apiSet env werr phone bound bad
      ({ s with st := st }, o)

/-- A history: the state after it and what was observed at each event. -/
def Sys.run (env : Env) (s : Sys) : List Ev → Sys × List Obs
  | [] => (s, [])
  | e :: es =>
    let (s', o) := s.step env e
    let (s'', os) := s'.run env es
    (s'', o :: os)

end JT808
