import Verif.Model.Conc
/-
The goroutines of the server: one for each connection, which handles its messages one after another (tcp_server.go:46-56,
87-110), and one for each keepalive check.
-/
namespace JT808

/-- A goroutine: the messages it still has to handle, the one it is at, and those it has handled with their results. -/
structure Worker where
  todo : List Task
  cur : Option (Task × Prog)
  done : List (Task × Res (Option Out))

/-- Whether serve goes on after a message, tcp_server.go:96-109: not after an error that ends it, nor after a panic, which
unwinds to GoSafe (pkg/routines/safe.go:11-34).  A write error of the reply is not among these results. -/
def goesOn : Res (Option Out) → Bool
  | .ok _ => true
  | .err e => !e.endsServe
  | .panic => false

/-- One step of a goroutine: take up the next message, go on with the one at hand, or finish it.  What the end of serve
does to the connection (remove, tcp_server.go:74-83) is left out: it touches neither devices, locations, parameters nor
jobs. -/
def Worker.next (env : Env) (clk : Clock) (st : Store) (w : Worker) : Store × Worker :=
  match w.cur with
  | none => match w.todo with
    | [] => (st, w)
    | t :: ts => (st, ⟨ts, some (t, t.prog env), w.done⟩)
  | some (t, .ret r) => (st, ⟨if goesOn r then w.todo else [], none, w.done ++ [(t, r)]⟩)
  | some (t, .step f k) => (f clk st, { w with cur := some (t, k clk st) })

/-- The store and the goroutines. -/
structure WSys where
  st : Store
  ws : List Worker

/-- The goroutine with the given number makes a step at the given time. -/
def WSys.step (env : Env) (s : WSys) (e : Nat × Clock) : WSys :=
  match s.ws[e.1]? with
  | none => s
  | some w => ⟨(w.next env e.2 s.st).1, s.ws.set e.1 (w.next env e.2 s.st).2⟩

/-- A schedule. -/
def WSys.run (env : Env) (s : WSys) (evs : List (Nat × Clock)) : WSys := evs.foldl (WSys.step env) s

/-- Goroutines that are about to begin (tcp_server.go:51), with what they will be given to handle. -/
def WSys.begin (st : Store) (jobs : List (List Task)) : WSys := ⟨st, jobs.map fun ts => ⟨ts, none, []⟩⟩

end JT808
