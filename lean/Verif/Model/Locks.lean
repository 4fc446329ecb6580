/-
Which mutex is taken where: the goroutines of the server as sequences of taking and releasing the six mutexes of the
process and of operations on the network.

Left out: what is computed in between, the mutexes inside the libraries (gin, gron, zerolog, net), and sync.Once (its
function returns without waiting for anybody, session_cache.go:28-35).  Closing a connection does not wait for the peer.
-/
namespace JT808.Locks

/-- tcp_server.go:23, session_cache.go:20, device_cache.go:17, geo_cache.go:18, param_cache.go:15, segment_cache.go:12. -/
inductive Mutex where
  | server | sessions | devices | geos | params | segments
deriving DecidableEq

/-- What a goroutine does next.  `net` is a read, a write or an accept: it takes as long as the peer likes. -/
inductive Op where
  | lock (m : Mutex) | unlock (m : Mutex) | net
deriving DecidableEq

/-- A method that begins with `mutex.Lock(); defer mutex.Unlock()` and calls nothing that waits: all methods of
device_cache.go:38-103 but ListDevice, geo_cache.go:34-57, param_cache.go:31-54, session_cache.go:48-73,
segment_cache.go:28-45 (a panic in CacheSegment also releases the mutex). -/
def method (m : Mutex) : List Op := [.lock m, .unlock m]

/-- accept, tcp_server.go:60-72. -/
def accept : List Op := .lock .server :: (method .sessions ++ [.unlock .server])

/-- remove, tcp_server.go:74-83. -/
def remove : List Op := .lock .server :: (method .sessions ++ [.unlock .server])

/-- What becomes of a packet, with the branches taken. -/
inductive Handling where
  | ignored
  | fragment (known : Bool)
  | m0002 (known : Bool)
  | m0003 (known : Bool)
  | m0100 (plateTaken phoneTaken : Bool)
  | m0102 (known : Bool)
  | m0200 (known accOff : Bool)
  | m8001 (success known offline : Bool)
  | m8100
  | m8103
  | m8104 (known : Bool)

/-- processSegmentPacket and the process functions, msg_processor.go:213-487.  Those of the other types touch no cache. -/
def Handling.ops : Handling → List Op
  | .ignored => []
  | .fragment known => method .devices ++ if known then method .sessions else []
  | .m0002 known => method .devices ++ if known then method .devices else []
  | .m0003 known => method .devices ++ if known then method .devices else []
  | .m0100 plateTaken phoneTaken =>
    method .devices ++ if plateTaken then [] else
      method .devices ++ if phoneTaken then [] else method .devices ++ method .devices
  | .m0102 known => method .devices ++ if known then method .devices else []
  | .m0200 known accOff =>
    method .devices ++ if known then (if accOff then method .devices else []) ++ method .geos else []
  | .m8001 success known offline =>
    if success then method .devices ++ (if known && offline then method .devices else []) else []
  | .m8100 => method .devices
  | .m8103 => method .params ++ method .params
  | .m8104 known => method .params ++ if known then [] else method .params

/-- (*TCPServer).Send, tcp_server.go:112-136. -/
def send (found closed : Bool) : List Op :=
  method .sessions ++ if found then .net :: (if closed then remove else []) else []

/-- What a keepalive check finds, keepalive.go:65-87. -/
inductive Checking where
  | nothing | expired | cleared

/-- The pieces the goroutines are made of. -/
inductive Piece where
  /-- one turn of Start, tcp_server.go:43-53 -/
  | accepting
  /-- one pass of the loop of serve, tcp_server.go:90-108, pipeline.go:28-108: read, decode, process, and write if there
  is an answer -/
  | pass (fragmented : Bool) (h : Handling) (answered : Bool)
  /-- the end of serve, tcp_server.go:87: reading failed, or processing, or writing -/
  | ending (processed : Option (Bool × Handling × Bool))
  /-- CheckDeviceJob.Run, keepalive.go:58-87 -/
  | check (c : Checking)
  /-- GET /device, api.go:24-26 -/
  | httpList
  /-- GET /device/:phone/geo, api.go:28-50 -/
  | httpGeo (known : Bool)
  /-- GET and PUT /device/:phone/params, api.go:52-92: `session` tells whether the session was found, `found` whether
  Send found it again -/
  | httpParams (known session found closed : Bool)

/-- A frame that was read: CacheSegment for a fragment (packet_codec.go:69-72), the handling, the write. -/
def frame (fragmented : Bool) (h : Handling) (answered : Bool) : List Op :=
  .net :: ((if fragmented then method .segments else []) ++ h.ops ++ if answered then [.net] else [])

/-- What the pieces do; an HTTP request is read before and its answer written after. -/
def Piece.ops : Piece → List Op
  | .accepting => .net :: accept
  | .pass fragmented h answered => frame fragmented h answered
  | .ending none => .net :: remove
  | .ending (some (fragmented, h, answered)) => frame fragmented h answered ++ remove
  | .check .nothing => method .devices
  | .check .expired => method .devices ++ method .devices
  | .check .cleared => method .devices ++ method .devices ++ method .geos
  | .httpList => [.net, .net]
  | .httpGeo known => .net :: (method .devices ++ (if known then method .geos else []) ++ [.net])
  | .httpParams known session found closed =>
    .net :: (method .devices ++ (if known then method .sessions ++ (if session then send found closed else []) else [])
      ++ [.net])

/-- Who holds each mutex, and what each goroutine still has to do. -/
structure State where
  holder : Mutex → Option Nat
  todo : Nat → List Op

/-- Any number of goroutines, each going through its pieces. -/
def State.start (pieces : Nat → List Piece) : State := ⟨fun _ => none, fun i => (pieces i).flatMap Piece.ops⟩

/-- Goroutine `i` goes on, unless it has ended or the mutex it wants is held. -/
def State.step (s : State) (i : Nat) : State :=
  match s.todo i with
  | [] => s
  | .net :: rest => { s with todo := fun j => if j = i then rest else s.todo j }
  | .lock m :: rest =>
    if s.holder m = none then
      { holder := fun n => if n = m then some i else s.holder n, todo := fun j => if j = i then rest else s.todo j }
    else s
  | .unlock m :: rest =>
    { holder := fun n => if n = m then none else s.holder n, todo := fun j => if j = i then rest else s.todo j }

/-- Any order of steps. -/
def State.run (s : State) (order : List Nat) : State := order.foldl State.step s

end JT808.Locks
