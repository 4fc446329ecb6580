/-
How the caches come into being: the functions that hand out the singletons (GetDeviceCache, GetGeoCache,
GetDeviceParamsCache, getSegmentCache, getSessionCache, NewKeepaliveTimer, NewJT808PacketCodec and
NewJT808MsgProcessor) called by any number of goroutines.

Left out: weak memory. Every read sees the last write; the Go memory model guarantees it for what sync.Once separates.
-/
namespace JT808.Once

/-- Where a goroutine stands in session_cache.go:27-36 and in sync.Once.Do, which is
`if o.done == 0 { o.m.Lock(); defer o.m.Unlock(); if o.done == 0 { defer o.done.Store(1); f() } }`. -/
inductive Pc where
  | idle    -- not in the function
  | lock    -- has read done == 0 and wants the mutex
  | held    -- has the mutex and is about to read done again
  | make    -- about to make the cache, session_cache.go:29-32
  | spawn   -- about to start the monitor, session_cache.go:33
  | finish  -- about to set done
  | unlock  -- about to release the mutex
  | ret     -- about to read the variable and return it, session_cache.go:35
deriving DecidableEq, Repr

/-- `cell` is the variable (sessionCacheSingleton), `made` how many caches were made (they are named 0, 1, ...), `n` how many
goroutines there are, `got` who was handed out what. -/
structure State where
  done : Bool
  owner : Option Nat
  cell : Option Nat
  made : Nat
  n : Nat
  pcs : Nat → Pc
  got : List (Nat × Option Nat)

/-- Before the first call, with `n` goroutines. -/
def State.start (n : Nat) : State := ⟨false, none, none, 0, n, fun _ => .idle, []⟩

/-- Goroutine `i` goes on at `pc`. -/
def State.at (s : State) (i : Nat) (pc : Pc) : State := { s with pcs := fun j => if j = i then pc else s.pcs j }

/-- The next step of goroutine `i`; `none` if it has to wait. `monitors` says whether the function starts a goroutine that
calls it again (session_cache.go:33 does by GoSafe, safe.go:11-13; the others do not). -/
def State.step (monitors : Bool) (s : State) (i : Nat) : Option State :=
  if i < s.n then
    match s.pcs i with
    | .idle => some (s.at i (if s.done then .ret else .lock))
    | .lock => if s.owner = none then some { s.at i .held with owner := some i } else none
    | .held => some (s.at i (if s.done then .unlock else .make))
    | .make => some { s.at i .spawn with cell := some s.made, made := s.made + 1 }
    | .spawn => some { s.at i .finish with n := if monitors then s.n + 1 else s.n }
    | .finish => some { s.at i .unlock with done := true }
    | .unlock => some { s.at i .ret with owner := none }
    | .ret => some { s.at i .idle with got := s.got ++ [(i, s.cell)] }
  else none

/-- Something happens: goroutine `i` gets the processor, or somebody starts another goroutine that will call the function. -/
inductive Ev where
  | go (i : Nat)
  | fork

/-- A goroutine that has to wait, waits. -/
def State.next (monitors : Bool) (s : State) : Ev → State
  | .go i => (s.step monitors i).getD s
  | .fork => { s with n := s.n + 1 }

def State.run (monitors : Bool) (s : State) (evs : List Ev) : State := evs.foldl (State.next monitors) s

end JT808.Once
