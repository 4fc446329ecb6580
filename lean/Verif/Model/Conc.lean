import Verif.Model.Server
/-
The message handlers and the keepalive check as programs of atomic steps, run by any number of goroutines in any order
(msg_processor.go, keepalive.go, session.go).

Every call of a cache method is one step, because it holds the mutex of its cache (device_cache.go, geo_cache.go,
param_cache.go).  Every read or write of a field of a shared device is one step.  Simplifications: steps are sequentially
consistent (the Go memory model promises less for the unsynchronised fields of model.Device); getting the location ring
and writing to it (msg_processor.go:369-371) is one step; ListDevice (device_cache.go:34-36), which takes no lock, is not
modelled here.
-/
namespace JT808

/-- What is left of a goroutine: its result, or a step on the shared store and how it goes on, depending on the clock
and on the store before the step. -/
inductive Prog where
  | ret (r : Res (Option Out))
  | step (f : Clock → Store → Store) (k : Clock → Store → Prog)

/-- `cache.GetDeviceByPhone(phone)`, device_cache.go:52-59. -/
def Prog.get (phone : Str) (k : Option Ref → Prog) : Prog := .step (fun _ st => st) (fun _ st => k (st.devByPhone phone))

/-- An assignment to fields of the device `r`. -/
def Prog.put (r : Ref) (g : Clock → Device → Device) (next : Prog) : Prog :=
  .step (fun clk st => st.setDev r (g clk (st.heap r))) (fun _ _ => next)

/-- A call of a cache method or of the timer. -/
def Prog.upd (f : Store → Store) (next : Prog) : Prog := .step (fun _ st => f st) (fun _ _ => next)

/-- A read of shared memory. -/
def Prog.read {α : Type} (g : Clock → Store → α) (k : α → Prog) : Prog :=
  .step (fun _ st => st) (fun clk st => k (g clk st))

/-- processMsg0002, msg_processor.go:234-247. -/
def prog0002 (h : Header) : Prog :=
  .get h.phone fun
    | none => .ret (.err .deviceNotFound)
    | some r => .put r (fun clk d => { d with last := clk.ms }) <|
        .upd (·.cacheDevice r) (.ret (.ok (some (gen8001 h 0))))

/-- processMsg0003, msg_processor.go:250-264. -/
def prog0003 (h : Header) : Prog :=
  .get h.phone fun
    | none => .ret (.err .deviceNotFound)
    | some r => .upd (fun st => st.cancelJob (st.heap r).phone) <|
        .upd (fun st => st.delByPhone (st.heap r).phone) (.ret (.ok (some (gen8001 h 0))))

/-- KeepaliveTimer.Register, keepalive.go:31-40. -/
def progTimer (phone : Str) (next : Prog) : Prog :=
  .get phone fun
    | none => next
    | some _ => .upd (fun st => { st with jobs := st.jobs ++ [phone] }) next

/-- processMsg0100, msg_processor.go:267-293. -/
def prog0100 (c : Conn) (h : Header) (m : Register) : Prog :=
  .read (fun _ st => st.hasPlate m.plate) fun b =>
    if b then .ret (.ok (some (gen8100 h 1 placeholderCode))) else
      .read (fun _ st => st.hasPhone h.phone) fun b =>
        if b then .ret (.ok (some (gen8100 h 3 placeholderCode))) else
          .step (fun clk st => (st.alloc (Device.new clk c h m)).1) fun clk st =>
            .upd (·.cacheDevice st.next) <|
              progTimer h.phone (.ret (.ok (some (gen8100 h 0 (Device.new clk c h m).code))))

/-- processMsg0102, msg_processor.go:296-326. -/
def prog0102 (h : Header) (m : AuthMsg) : Prog :=
  .get h.phone fun
    | none => .ret (.err .deviceNotFound)
    | some r => .read (fun _ st => (st.heap r).code) fun code =>
        if m.code ≠ code then
          .upd (fun st => st.cancelJob (st.heap r).phone) <|
            .upd (fun st => st.delByPhone (st.heap r).phone) (.ret (.ok (some (gen8001 h 1))))
        else
          .put r (fun _ d => { d with status := .online }) <| .put r (fun clk d => { d with last := clk.ms }) <|
            .put r (fun _ d => { d with authCode := m.code }) <| .put r (fun _ d => { d with imei := m.imei }) <|
              .put r (fun _ d => { d with software := m.software }) <|
                .upd (·.cacheDevice r) (.ret (.ok (some (gen8001 h 0))))

/-- The location part of processMsg0200, msg_processor.go:369-373. -/
def progGeo (h : Header) (r : Ref) (dg : DeviceGeo) : Prog :=
  .step (fun _ st => (st.writeGeo (st.heap r).phone dg).1) fun _ st =>
    match (st.writeGeo (st.heap r).phone dg).2 with
    | .ok _ => .ret (.ok (some (gen8001 h 0)))
    | .err e => .ret (.err e)
    | .panic => .ret .panic

/-- processMsg0200, msg_processor.go:346-374. -/
def prog0200 (h : Header) (m : LocMsg) : Prog :=
  .get h.phone fun
    | none => .ret (.err .deviceNotFound)
    | some r => .read (fun clk st => DeviceGeo.decode clk.civil (st.heap r).phone m) fun dg =>
        if dg.geo.acc = 0 then
          .put r (fun _ d => { d with status := .sleeping }) <| .put r (fun clk d => { d with last := clk.ms }) <|
            .upd (·.cacheDevice r) (progGeo h r dg)
        else progGeo h r dg

/-- processMsg8001, msg_processor.go:376-397. -/
def prog8001 (h : Header) (m : GeneralAck) : Prog :=
  if m.result = 0 then
    .get h.phone fun
      | none => .ret (.err .activeClose)
      | some r => .read (fun _ st => (st.heap r).status) fun s =>
          if s ≠ .offline then .ret (.ok none)
          else .put r (fun _ d => { d with status := .online }) <| .put r (fun clk d => { d with last := clk.ms }) <|
            .upd (·.cacheDevice r) (.ret (.ok none))
  else .ret (.ok none)

/-- processMsg8100, msg_processor.go:400-414. -/
def prog8100 (h : Header) (m : RegisterAck) : Prog :=
  .get h.phone fun
    | none => .ret (.err .activeClose)
    | some r => .read (fun _ st => (st.heap r).imei) fun imei => .read (fun _ st => (st.heap r).software) fun sw =>
        .ret (.ok (some (gen0102 h m imei sw)))

/-- processMsg8103, msg_processor.go:417-429. -/
def prog8103 (h : Header) (m : SetParams) : Prog :=
  .read (fun _ st => st.paramsOf h.phone) fun old =>
    .upd (·.cacheParams (match old with | none => m.params | some old => old.update id m.params)) <|
      .ret (.ok (some (gen0001 h)))

/-- processMsg8104, msg_processor.go:432-485. -/
def prog8104 (env : Env) (h : Header) : Prog :=
  .read (fun _ st => st.paramsOf h.phone) fun
    | some p => .ret (.ok (some (gen0104 h p)))
    | none =>
      match fixedDecode env h.phone with
      | .ok (p, _) => .upd (·.cacheParams p) (.ret (.ok (some (gen0104 h p))))
      | .err e => .ret (.err e)
      | .panic => .ret .panic

/-- The tests of checkDeviceKeepalive read the status and then the time, device.go:58-66. -/
def progExpired (r : Ref) (yes no : Prog) : Prog :=
  .read (fun clk st => decide (clk.ms > (st.heap r).keepalive + (st.heap r).last)) fun b => if b then yes else no

/-- `else if d.ShouldClear()` of checkDeviceKeepalive, keepalive.go:79-85. -/
def progClear (phone : Str) (r : Ref) : Prog :=
  .read (fun _ st => (st.heap r).status) fun s =>
    if s = .offline then
      progExpired r
        (.read (fun _ st => (st.heap r).conn) fun
          | none => .ret .panic
          | some c => .upd (·.closeConn c) <| .upd (·.delByPhone phone) <| .upd (·.delGeo phone) <|
              .upd (·.cancelJob phone) (.ret (.ok none)))
        (.ret (.ok none))
    else .ret (.ok none)

/-- checkDeviceKeepalive with a device, keepalive.go:74-85. -/
def progFound (phone : Str) (r : Ref) : Prog :=
  .read (fun _ st => (st.heap r).status) fun s =>
    if s ≠ .offline then
      progExpired r (.put r (fun _ d => { d with status := .offline }) (.upd (·.cacheDevice r) (.ret (.ok none))))
        (progClear phone r)
    else progClear phone r

/-- checkDeviceKeepalive, keepalive.go:65-86. -/
def progCheck (phone : Str) : Prog :=
  .get phone fun
    | none => .upd (·.cancelJob phone) (.ret .panic)
    | some r => progFound phone r

/-- What a goroutine is started for: a decoded message on a connection (tcp_server.go:51, one goroutine per connection)
or a keepalive check (gron starts one per due job). -/
inductive Task where
  | msg (c : Conn) (h : Header) (m : Msg)
  | check (phone : Str)
  deriving DecidableEq, Repr

/-- The handler table, msg_processor.go:39-202; 0001, 0104, 1205 and 9205 touch nothing shared. -/
def Task.prog (env : Env) : Task → Prog
  | .msg _ h .m0002 => prog0002 h
  | .msg _ h .m0003 => prog0003 h
  | .msg c h (.m0100 m) => prog0100 c h m
  | .msg _ h (.m0102 m) => prog0102 h m
  | .msg _ h (.m0200 m) => prog0200 h m
  | .msg _ h (.m8001 m) => prog8001 h m
  | .msg _ h (.m8100 m) => prog8100 h m
  | .msg _ h (.m8103 m) => prog8103 h m
  | .msg _ h .m8104 => prog8104 env h
  | .msg _ h (.m9205 m) => .ret (.ok (some (gen1205 h m)))
  | .msg _ _ _ => .ret (.ok none)
  | .check phone => progCheck phone

/-- The store and the goroutines, each with what it was started for. -/
structure CSys where
  st : Store
  threads : List (Task × Prog)

/-- Start a goroutine (a check only if its job is registered), or let the goroutine with the given number make one step
at the given time. -/
inductive CEv where
  | spawn (t : Task)
  | run (i : Nat) (clk : Clock)

/-- One step of the goroutine `p`. -/
def Prog.next (p : Prog) (clk : Clock) (st : Store) : Store × Prog :=
  match p with
  | .ret r => (st, .ret r)
  | .step f k => (f clk st, k clk st)

/-- gron runs only jobs in its table (keepalive.go:31-44); a connection's goroutine handles whatever was decoded
(tcp_server.go:51, 85-108). -/
def Task.allowed (t : Task) (st : Store) : Bool :=
  match t with
  | .check phone => decide (phone ∈ st.jobs)
  | .msg .. => true

/-- The interleaving semantics. -/
def CSys.step (env : Env) (s : CSys) : CEv → CSys
  | .spawn t => if t.allowed s.st then { s with threads := s.threads ++ [(t, t.prog env)] } else s
  | .run i clk =>
    match s.threads[i]? with
    | none => s
    | some (t, p) =>
      let r := p.next clk s.st
      ⟨r.1, s.threads.set i (t, r.2)⟩

/-- A schedule. -/
def CSys.run (env : Env) (s : CSys) (evs : List CEv) : CSys := evs.foldl (CSys.step env) s

/-- A process at start: empty caches (device_cache.go:23-32 and its siblings), no goroutine. -/
def CSys.start : CSys := ⟨Store.empty, []⟩

/-- A goroutine run to its end without interruption at one moment. -/
def Prog.alone (clk : Clock) : Prog → Store → Store × Res (Option Out)
  | .ret r, st => (st, r)
  | .step f k, st => (k clk st).alone clk (f clk st)

/-- A keepalive check has dereferenced a nil pointer; gron runs it on a bare goroutine, so the process ends. -/
def CSys.crashed (s : CSys) : Bool :=
  s.threads.any fun t =>
    match t with
    | (.check _, .ret .panic) => true
    | _ => false

/-! ### Session serial numbers -/

/-- Where a call of GetNextSerialNum is, session.go:45-52: before AddUint32, before StoreUint32, before reading the
field again, returned. -/
inductive SerialPc where
  | add
  | store
  | reread
  | done (n : UInt16)
  deriving DecidableEq, Repr

/-- The counter and the calls. -/
structure SerialSys where
  counter : UInt32
  calls : List SerialPc
  deriving DecidableEq, Repr

/-- One step of one call, session.go:46-51. -/
def SerialPc.next (counter : UInt32) : SerialPc → UInt32 × SerialPc
  | .add => if counter + 1 ≤ 0xffff then (counter + 1, .done (counter + 1).toUInt16) else (counter + 1, .store)
  | .store => (0, .reread)
  | .reread => (counter, .done counter.toUInt16)
  | .done n => (counter, .done n)

/-- Start a call, or let a call make one step. -/
inductive SerialEv where
  | call
  | run (i : Nat)
  deriving DecidableEq, Repr

/-- The steps of concurrent callers of GetNextSerialNum, session.go:45-52. -/
def SerialSys.step (s : SerialSys) : SerialEv → SerialSys
  | .call => { s with calls := s.calls ++ [.add] }
  | .run i =>
    match s.calls[i]? with
    | none => s
    | some pc => ⟨(pc.next s.counter).1, s.calls.set i (pc.next s.counter).2⟩

/-- A schedule of the callers. -/
def SerialSys.run (s : SerialSys) (evs : List SerialEv) : SerialSys := evs.foldl SerialSys.step s

/-- A new session, session.go:40-43. -/
def SerialSys.start : SerialSys := ⟨0, []⟩

/-- The numbers returned so far. -/
def SerialSys.returned (s : SerialSys) : List UInt16 :=
  s.calls.filterMap fun
    | .done n => some n
    | _ => none

end JT808
