import Verif.Model.Server
/-
The server over several lives of its process.
-/
namespace JT808

/-- An event of the process, or its end and a new start. -/
inductive LEv where
  | ev (e : Ev)
  | restart

/-- One event.  A new start is main of main.go:17-52: nothing of an earlier process is read again.  The caches are variables
of the process, made on first use (device_cache.go:25-34, geo_cache.go:24-32, param_cache.go:21-29, session_cache.go:16-36,
segment_cache.go:18-26), the only file ever written is the log, and the connections end with the process. -/
def Sys.live1 (env : Env) (s : Sys) : LEv → Sys × Obs
  | .ev e => s.step env e
  | .restart => (Sys.start, Obs.none)

/-- A history over several lives. -/
def Sys.lives (env : Env) (s : Sys) : List LEv → Sys × List Obs
  | [] => (s, [])
  | e :: es =>
    let (s', o) := s.live1 env e
    let (s'', os) := s'.lives env es
    (s'', o :: os)

end JT808
