import Verif.Model.Pair
/-
The process of the simulator as a whole: test/client/main.go:106-181, internal/client/tcp_client.go.
-/
namespace JT808

/-- How far a simulator has come: connected (main.go:122), its device built and its registration sent (line 136), or with
its two sending goroutines released (lines 144, 153, 157).  `stuck` is a simulator whose status checker found no device,
dereferenced nil and was recovered by GoSafe: the sending goroutines wait for ever (lines 138-149). -/
inductive SimPhase where
  | connected | waiting | sending | stuck
deriving DecidableEq

/-- One simulator: its connection, the phone of its device once that is built, whether (*TCPClient).Start still runs. -/
structure SimRun where
  cc : Conn
  phone : Str
  phase : SimPhase
  reading : Bool

/-- Why a process ended: main returned (main.go:180), `os.Exit(1)` of dialAndSend (line 117), `log.Fatal` of getDevice
(line 51), or a panic that nothing recovers (a keepalive job). -/
inductive SimExit where
  | finished | dial | fatal | crash
deriving DecidableEq

/-- The process: its stores, the simulators still to be dialled, the number of failed attempts for the current one, the
simulators, and how it ended if it has. -/
structure SimProc where
  st : Store
  todo : Nat
  fails : Nat
  sims : List SimRun
  exit : Option SimExit

/-- `cliWg.Wait()` returns when every simulator has been dialled and every Start has returned, main.go:173-180. -/
def SimProc.settle (p : SimProc) : SimProc :=
  if p.exit = none ∧ p.todo = 0 ∧ (p.sims.all fun s => !s.reading) = true then { p with exit := some .finished } else p

/-- main up to its loop, main.go:163-176, with `concurrency` simulators (a negative number makes cliWg.Add panic, which
is left out). -/
def SimProc.start (concurrency : Nat) : SimProc := SimProc.settle ⟨Store.empty, concurrency, 0, [], none⟩

/-- What can happen: an attempt to dial fails or succeeds, the device of simulator `i` is built and its registration sent
(main.go:128-136 as one step: nobody removes the device in between), it receives a frame (and
writing the answer may fail), receiving fails, its status checker makes a round, the keepalive goroutine starts, the
location goroutine makes a round, a keepalive job runs. -/
inductive SimEv where
  | dialFails
  | dialled (cc : Conn)
  | build (i : Nat) (d : Device)
  | frame (i : Nat) (clk : Clock) (bytes : List UInt8) (werr : Option Err)
  | readFails (i : Nat) (e : Err)
  | look (i : Nat)
  | beats (i : Nat)
  | locates (i : Nat)
  | job (clk : Clock) (phone : Str)

/-- Does the loop of (*TCPClient).Start go on, tcp_client.go:46-60?  A panic ends it and is recovered. -/
def Outcome.clientGoesOn (werr : Option Err) : Outcome → Bool
  | .silent => true
  | .reply _ => match werr with | none => true | some e => !e.endsClient
  | .failed e => !e.endsClient
  | .panicked => false

/-- getDevice, test/client/main.go:46-54, for a sending goroutine of simulator `s`. -/
def SimProc.getDevice (p : SimProc) (s : SimRun) : SimProc :=
  if s.phase = .sending then
    match p.st.devByPhone s.phone with
    | some _ => p
    | none => { p with exit := some .fatal }
  else p

/-- One step.  dialAndSend runs in main, one simulator after the other, with up to seven attempts each
(main.go:109-121).  What is sent and the positions are left out: they have no effect on the process. -/
def SimProc.step (env : Env) (p : SimProc) (e : SimEv) : SimProc :=
  if p.exit ≠ none then p
  else
    match e with
    | .dialFails =>
      if p.todo = 0 then p
      else if p.fails + 1 > 6 then { p with exit := some .dial }
      else { p with fails := p.fails + 1 }
    | .dialled cc =>
      if p.todo = 0 then p
      else { p with todo := p.todo - 1, fails := 0, sims := p.sims ++ [⟨cc, [], .connected, true⟩] }
    | .build i d =>
      match p.sims[i]? with
      | some s =>
        if s.phase = .connected then
          { p with st := p.st.buildDevice d, sims := p.sims.set i { s with phone := d.phone, phase := .waiting } }
        else p
      | none => p
    | .frame i clk bytes werr =>
      match p.sims[i]? with
      | some s =>
        if s.reading then
          let (st, o) := p.st.handleFrame env clk s.cc bytes
          SimProc.settle { p with st := st, sims := p.sims.set i { s with reading := o.clientGoesOn werr } }
        else p
      | none => p
    | .readFails i e =>
      match p.sims[i]? with
      | some s =>
        if s.reading then SimProc.settle { p with sims := p.sims.set i { s with reading := !e.endsClient } } else p
      | none => p
    | .look i =>
      match p.sims[i]? with
      | some s =>
        if s.phase = .waiting then
          match p.st.devByPhone s.phone with
          | none => { p with sims := p.sims.set i { s with phase := .stuck } }
          | some r =>
            if (p.st.heap r).status = .online then { p with sims := p.sims.set i { s with phase := .sending } } else p
        else p
      | none => p
    | .beats i =>
      match p.sims[i]? with
      | some s => p.getDevice s
      | none => p
    | .locates i =>
      match p.sims[i]? with
      | some s => p.getDevice s
      | none => p
    | .job clk phone =>
      if phone ∈ p.st.jobs then
        match p.st.check clk phone with
        | (st, .ok _) => { p with st := st }
        | (st, _) => { p with st := st, exit := some .crash }
      else p

/-- A run of the process. -/
def SimProc.run (env : Env) (p : SimProc) (evs : List SimEv) : SimProc := evs.foldl (SimProc.step env) p

end JT808
