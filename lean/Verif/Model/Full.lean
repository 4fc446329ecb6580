import Verif.Model.Mixed
/-
All of Verif/Model/Hub.lean and Verif/Model/Mixed.lean together: connections that may break, with fragments, with the parameter
requests of the HTTP API, and connections that come and go.
-/
namespace JT808

/-- One step of a goroutine, as `Cable.next`, with fragments: frame_handler.go:46-105, pipeline.go:68-107.  If writing fails, so
it does for the acknowledgement of a fragment as for any answer. -/
def Cable.nextFrag (env : Env) (clk : Clock) (st : Store) (w : Cable) : Store × Cable :=
  if w.line.ended || w.line.cur.isSome || w.deaf then w.next env clk st else
  let r := w.line.nextFrag env clk st
  match w.mute with
  | none => (r.1, { w with line := r.2 })
  | some (ends, part) =>
    if r.2.output = w.line.output then (r.1, { w with line := r.2 })
    else (r.1, { w with line := { r.2 with output := w.line.output ++ (r.2.output.drop w.line.output.length).take part, ended := ends }
                        mute := some (ends, 0) })

/-- One event, as `HubSys.step`, with fragments: tcp_server.go:41-136, api.go:52-92. -/
def HubSys.stepFrag (env : Env) (s : HubSys) : HubEv → HubSys
  | .cable (.step i clk) => match s.ws[i]? with
    | none => s
    | some w => { s with st := (w.nextFrag env clk s.st).1, ws := s.ws.set i (w.nextFrag env clk s.st).2 }
  | e => s.step env e

/-- A schedule, tcp_server.go:41-57 and api.go:52-92. -/
def HubSys.runFrag (env : Env) (s : HubSys) (evs : List HubEv) : HubSys := evs.foldl (HubSys.stepFrag env) s

end JT808
