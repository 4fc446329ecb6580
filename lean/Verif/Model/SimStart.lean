import Verif.Model.Startup
/-
test/client/main.go:106-181: what becomes of the process of the simulator when it is started.

What its terminals do once they are connected is in Model/SimProcess.lean; here only whether they come to register. The
configuration is that of Model/Startup.lean.
-/
namespace JT808.Startup

/-- Whether an attempt to dial succeeds: the address, the terminal and the attempt, both counted from 1 and 0 as in the code
(main.go:109, 176). -/
abbrev Reach := String → Nat → Nat → Bool

/-- How the dialling of one terminal ends. -/
inductive Dialled where
  | ok | exit1 | crash
deriving DecidableEq

/-- The loop of dialAndSend, main.go:109-121, with Dial, tcp_client.go:24-38; `left` attempts are left after this one, which is
the one with the number `retryMaxCnt + 1 - left`.  The pause between the attempts is left out. -/
def dial (w : World) (reach : Reach) (c : LogConf) (addr : String) (i : Nat) : Nat → List Said × Dialled
  | 0 =>
    if reach addr i 7 then
      let (s, ok) := c.write w .debug "Dialed to server"
      (s, if ok then .ok else .crash)
    else
      let (s, ok) := c.write w .error "Fail to dial to the tcp addr, exit"
      (s, if ok then .exit1 else .crash)
  | left + 1 =>
    if reach addr i (6 - left) then
      let (s, ok) := c.write w .debug "Dialed to server"
      (s, if ok then .ok else .crash)
    else
      let (s, ok) := c.write w .error "Fail to dial to the tcp addr, retry"
      if ok then
        let (s', d) := dial w reach c addr i left
        (s ++ s', d)
      else (s, .crash)

/-- What becomes of a connected terminal: it sends its registration, or its goroutine ends before that. -/
inductive Course where
  | registers | dead
deriving DecidableEq

/-- How it ends: a panic that nobody recovers, os.Exit(1), main returns, or so many terminals are connected; then what the
goroutine of each of them logs of a panic, and its course. -/
inductive SimFate where
  | crash
  | exit1
  | returned
  | connected (n : Nat) (said : List Said) (course : Course)
deriving DecidableEq

/-- The goroutine of a terminal up to its registration, main.go:127-136: GenDevice reads the section `device` (datagen.go:30-38),
GenDeviceGeo those of `deviceGeo` (datagen.go:111-150); a section that is not there is a nil pointer.  GoSafe recovers the panic
and logs it (safe.go:25-34); if that panics too, nobody recovers it.  `none` is that.  Debug events are left out. -/
def terminalCourse (w : World) (c : LogConf) (cl : ClientConf) : Option (List Said × Course) :=
  if cl.device = true ∧ cl.deviceGeo = some ⟨true, true, true⟩ then some ([], .registers)
  else
    let (s, ok) := c.write w .error "err=runtime error: invalid memory address or nil pointer dereference"
    if ok then some (s, .dead) else none

/-- The loop of main, main.go:176-178, from terminal `i` on with `left` terminals to come.  A terminal whose goroutine crashes the
process does so before the next one is dialled here. -/
def dialAll (w : World) (reach : Reach) (c : LogConf) (cl : ClientConf) (i : Nat) : Nat → List Said × Dialled
  | 0 => ([], .ok)
  | left + 1 =>
    match cl.conn with
    | none => ([], .crash)
    | some addr =>
      let (s, d) := dial w reach c addr i 6
      if d = .ok then
        if (terminalCourse w c cl).isSome then
          let (s', d) := dialAll w reach c cl (i + 1) left
          (s ++ s', d)
        else (s, .crash)
      else (s, d)

/-- main, main.go:163-181, of a process started with `-c path`.  A negative number makes cliWg.Add panic. -/
def simMain (w : World) (reach : Reach) (path : String) : List Said × SimFate :=
  let hello := [.printed ("Start with configuration " ++ path)]
  match (Loaded.start.load w path).2 with
  | none => (hello, .crash)
  | some conf =>
    match conf.log with
    | none => (hello, .crash)
    | some c =>
      let (s, ok) := c.write w .info "logging configured"
      if ok then
        match conf.client with
        | none => (hello ++ s, .crash)
        | some cl =>
          if cl.concurrency < 0 then (hello ++ s, .crash)
          else if cl.concurrency = 0 then (hello ++ s, .returned)
          else
            let (s', d) := dialAll w reach c cl 0 cl.concurrency.toNat
            (hello ++ s ++ s',
              match d, terminalCourse w c cl with
              | .ok, some (t, course) => .connected cl.concurrency.toNat t course
              | .exit1, _ => .exit1
              | _, _ => .crash)
      else (hello ++ s, .crash)

end JT808.Startup
