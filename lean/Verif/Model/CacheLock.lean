/-
internal/storage/device_cache.go: the methods of DeviceCache as sequences of accesses to its mutex and its two maps, run by
any number of goroutines in any order.

Go's maps detect unsynchronised use: a write to a map marks it for the duration of the write, and a read, an iteration
step or another write that sees the mark ends the process with a fatal error, which `recover` does not catch.  What the
maps contain is left out; whether a deletion finds its device is a parameter.
-/
namespace JT808.CacheLock

/-- The two maps, device_cache.go:15-16. -/
inductive Which where
  | plate | phone
deriving DecidableEq

/-- One access of a goroutine: taking and releasing the mutex, looking up a key, entering and leaving the runtime's code
for assigning or deleting a key, one step of an iteration. -/
inductive Op where
  | lock | unlock
  | read (w : Which)
  | enter (w : Which) | leave (w : Which)
  | iter (w : Which)
deriving DecidableEq

/-- The methods of DeviceCache, device_cache.go:34-103. -/
inductive Method where
  | list (steps : Nat)
  | getByPlate | getByPhone | hasPlate | hasPhone
  | cache
  | delByPlate (found : Bool) | delByPhone (found : Bool)

/-- A map assignment or a `delete`. -/
def write (w : Which) : List Op := [.enter w, .leave w]

/-- What a method does.  ListDevice (34-36) takes no lock, and `maps.Values` makes one step more than there are devices;
the lookups (38-66), cacheDevice (68-77) and delDevice (79-103) run under the mutex. -/
def Method.ops : Method → List Op
  | .list n => List.replicate (n + 1) (.iter .phone)
  | .getByPlate | .hasPlate => [.lock, .read .plate, .unlock]
  | .getByPhone | .hasPhone => [.lock, .read .phone, .unlock]
  | .cache => .lock :: (write .plate ++ write .phone ++ [.unlock])
  | .delByPlate found => .lock :: .read .plate :: ((if found then write .plate ++ write .phone else []) ++ [.unlock])
  | .delByPhone found => .lock :: .read .phone :: ((if found then write .plate ++ write .phone else []) ++ [.unlock])

/-- The shared state: the mutex of device_cache.go:17, the marks of the two maps, and whether the runtime has ended the
process. -/
structure State where
  locked : Bool
  marked : Which → Bool
  fatal : Bool
  /-- what each goroutine still has to do -/
  todo : Nat → List Op

/-- All goroutines at the start of their calls; a goroutine calls the methods of its list one after the other. -/
def State.start (calls : Nat → List Method) : State := ⟨false, fun _ => false, false, fun i => (calls i).flatMap Method.ops⟩

/-- Goroutine `i` may go on: it has something to do and is not waiting for the mutex. -/
def State.ready (s : State) (i : Nat) : Bool :=
  match s.todo i with
  | [] => false
  | .lock :: _ => !s.locked
  | _ => true

/-- The goroutine `i` does its next access; nothing happens while it waits or after the end of the process. -/
def State.step (s : State) (i : Nat) : State :=
  if s.fatal || !s.ready i then s
  else
    match s.todo i with
    | [] => s
    | op :: rest =>
      let s' := { s with todo := fun j => if j = i then rest else s.todo j }
      match op with
      | .lock => { s' with locked := true }
      | .unlock => { s' with locked := false }
      | .read w | .iter w => if s.marked w then { s' with fatal := true } else s'
      | .enter w => if s.marked w then { s' with fatal := true } else { s' with marked := fun v => if v = w then true else s.marked v }
      | .leave w => { s' with marked := fun v => if v = w then false else s.marked v }

/-- Any order of steps. -/
def State.run (s : State) (order : List Nat) : State := order.foldl State.step s

end JT808.CacheLock
