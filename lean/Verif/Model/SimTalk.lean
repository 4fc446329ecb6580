import Verif.Model.SimProcess
/-
What a simulator sends, and when: test/client/main.go:56-74, 86-104, 128-158, internal/client/tcp_client.go:46-60.
-/
namespace JT808

/-- A message of a simulator: its registration (main.go:56-60), the answer to a frame (tcp_client.go:50, pipeline.go:88-99),
the heartbeat with which keepalive begins (main.go:62-74; the later ones follow it, without another look at the cache), a
position (main.go:86-104).  Only the answer keeps its bytes. -/
inductive SimSent where
  | register
  | answer (bytes : List UInt8)
  | beat
  | locate
deriving DecidableEq

/-- Does simulator `s` have a device to speak for?  getDevice of a sending goroutine, main.go:46-54. -/
def SimProc.speaks (p : SimProc) (s : SimRun) : Bool :=
  decide (s.phase = .sending) && (p.st.devByPhone s.phone).isSome

/-- What an event makes a simulator send, by the number of the simulator.  That a position is sent only if the ring of
the phone holds one is left out (main.go:93): a `locate` is at most sent.  A send that fails is left out too, except for
an answer. -/
def SimProc.sends (env : Env) (p : SimProc) (e : SimEv) : Option (Nat × SimSent) :=
  if p.exit ≠ none then none
  else
    match e with
    | .build i _ =>
      match p.sims[i]? with
      | some s => if s.phase = .connected then some (i, .register) else none
      | none => none
    | .frame i clk bytes werr =>
      match p.sims[i]? with
      | some s =>
        if s.reading then
          match (p.st.handleFrame env clk s.cc bytes).2, werr with
          | .reply b, none => some (i, .answer b)
          | _, _ => none
        else none
      | none => none
    | .beats i =>
      match p.sims[i]? with
      | some s => if p.speaks s then some (i, .beat) else none
      | none => none
    | .locates i =>
      match p.sims[i]? with
      | some s => if p.speaks s then some (i, .locate) else none
      | none => none
    | _ => none

/-- All that is sent during a run, main.go:106-158. -/
def SimProc.log (env : Env) (p : SimProc) : List SimEv → List (Nat × SimSent)
  | [] => []
  | e :: evs => (p.sends env e).toList ++ (p.step env e).log env evs

end JT808
