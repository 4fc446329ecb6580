import Verif.Model.Conc
/-
GET and PUT /device/:phone/params (api.go:52-92) as goroutines of their own, beside the handlers and keepalive checks of
Verif/Model/Conc.lean, new connections and connections that end.

gin runs every request on a goroutine of net/http.  A call of a cache method is one step, as in Verif/Model/Conc.lean.
Simplifications: GetNextSerialNum is one step here (its own steps are `SerialSys` in Verif/Model/Conc.lean); the three
fields of the device that GenMsgHeader reads are read in one step; encoding and writing the frame is one step
(Verif/Model/Senders.lean has writes side by side).
-/
namespace JT808

/-- A parameter request: GET, api.go:52-53, or PUT, api.go:71-76, where `bound` is what ShouldBind left in `params` and
`bad` whether it returned an error. -/
inductive Req where
  | query (phone : Str)
  | set (phone : Str) (bound : DeviceParams) (bad : Bool)

/-- `phone := c.Param("phone")`, api.go:53 and 72. -/
def Req.phone : Req → Str
  | .query p => p
  | .set p _ _ => p

/-- The message id handed to GenMsgHeader, api.go:63 and 86. -/
def Req.id : Req → UInt16
  | .query _ => 0x8104
  | .set .. => 0x8103

/-- The message, api.go:64-66 and 87-90. -/
def Req.msg : Req → Msg
  | .query _ => .m8104
  | .set _ bound _ => .m8103 ⟨0, bound⟩

/-- The status written before the device is looked up, api.go:74-76. -/
def Req.code : Req → Option Nat
  | .query _ => none
  | .set _ _ bad => if bad then some 400 else none

/-- Where the goroutine of a request is. -/
inductive ReqPc where
  /-- Before GetDeviceByPhone, api.go:54 and 77. -/
  | lookup
  /-- Before `device.SessionID` is read, api.go:59 and 82. -/
  | sid (r : Ref)
  /-- Before GetSession, api.go:59 and 82. -/
  | sess (r : Ref) (a : Str)
  /-- Before GetNextSerialNum, api.go:63 and 86. -/
  | serial (r : Ref) (c : Conn)
  /-- Before GenMsgHeader reads the device, header.go:208-221. -/
  | header (r : Ref) (c : Conn) (n : UInt16)
  /-- Before the GetSession of Send, tcp_server.go:114. -/
  | send (c : Conn) (o : Out)
  /-- Before ProcessConnWrite, tcp_server.go:120-125. -/
  | write (c : Conn) (o : Out)
  /-- Answered with this status. -/
  | done (code : Nat)

/-- One step of the goroutine of a request: the store, where it is then, and what it wrote to which connection.
api.go:52-92, (*TCPServer).Send tcp_server.go:112-136.  `werr` is what the write would return. -/
def Req.next (env : Env) (werr : Option Err) (q : Req) (st : Store) : ReqPc → Store × ReqPc × Option (Conn × List UInt8)
  | .lookup =>
    match st.devByPhone q.phone with
    | none => (st, .done 400, none)
    | some r => (st, .sid r, none)
  | .sid r => (st, .sess r (st.heap r).sessionID, none)
  | .sess r a =>
    match st.session a with
    | none => (st, .done (q.code.getD 400), none)
    | some c => (st, .serial r c, none)
  | .serial r c => ((st.takeSerial c).1, .header r c (st.takeSerial c).2, none)
  | .header r c n =>
    (st, .send c (genMsgHeader (st.heap r).phone (st.heap r).ver (st.heap r).protoVer q.id n, q.msg), none)
  | .send c o =>
    match st.session c.addr with
    | none => (st, .done (q.code.getD 200), none)
    | some c' => (st, .write c' o, none)
  | .write c o =>
    match Out.encode env o with
    | .panic => (st, .done (q.code.getD 500), none)
    | .err _ => (st, .done (q.code.getD 200), none)
    | .ok f =>
      match werr with
      | none => (st, .done (q.code.getD 200), some (c, f))
      | some .closed => (st.remove c, .done (q.code.getD 200), none)
      | some _ => (st, .done (q.code.getD 200), none)
  | .done code => (st, .done code, none)

/-- The process: the handlers and checks with the caches, the connections accepted so far, the requests in the order in
which they came, and what requests have written, with the number of the request. -/
structure XSys where
  cs : CSys
  conns : List Conn
  reqs : List (Req × ReqPc)
  sent : List (Nat × Conn × List UInt8)

/-- What can happen. -/
inductive XEv where
  /-- accept, tcp_server.go:66-79. -/
  | accept (addr : Str)
  /-- The serve loop of a connection ends, tcp_server.go:92-93 and 81-90. -/
  | gone (c : Conn)
  /-- A message was decoded, or a keepalive check is due. -/
  | task (t : Task)
  /-- A step of a handler or check. -/
  | run (i : Nat) (clk : Clock)
  /-- A parameter request arrives. -/
  | request (q : Req)
  /-- A step of a request. -/
  | go (i : Nat) (werr : Option Err)

/-- A message comes from a connection that was accepted, tcp_server.go:51-55. -/
def XSys.may (s : XSys) : Task → Bool
  | .msg c _ _ => decide (c ∈ s.conns)
  | .check _ => true

/-- The interleaving semantics. -/
def XSys.step (env : Env) (s : XSys) : XEv → XSys
  | .accept addr =>
    { s with cs := { s.cs with st := s.cs.st.storeSession ⟨s.conns.length, addr⟩ }
             conns := s.conns ++ [⟨s.conns.length, addr⟩] }
  | .gone c => if c ∈ s.conns then { s with cs := { s.cs with st := s.cs.st.remove c } } else s
  | .task t => if s.may t then { s with cs := s.cs.step env (.spawn t) } else s
  | .run i clk => { s with cs := s.cs.step env (.run i clk) }
  | .request q => { s with reqs := s.reqs ++ [(q, .lookup)] }
  | .go i werr =>
    match s.reqs[i]? with
    | none => s
    | some (q, pc) =>
      let r := q.next env werr s.cs.st pc
      { s with cs := { s.cs with st := r.1 }, reqs := s.reqs.set i (q, r.2.1)
               sent := s.sent ++ (r.2.2.map fun x => (i, x)).toList }

/-- A schedule. -/
def XSys.run (env : Env) (s : XSys) (evs : List XEv) : XSys := evs.foldl (XSys.step env) s

/-- A process at start. -/
def XSys.start : XSys := ⟨CSys.start, [], [], []⟩

end JT808
