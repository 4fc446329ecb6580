import Verif.Model.Route
import Verif.Model.JsonGeo
/-
The answers of the HTTP API with their bodies: internal/api/api.go:24-92.
-/
namespace JT808

/-- What the answers contain and the model leaves to the libraries: the digits strconv chooses for a float64, the instants
and the times of positions as time.Time's MarshalJSON writes them (without quotation marks), and the text of the error of
ShouldBind for a body. -/
structure Writing where
  fmt : F64 → Nat × Int
  instant : Nat → Str
  time : Civil → Str
  bindErr : Str → Str

/-- `gin.H{"err": err.Error()}` as c.JSON writes it, api.go:33, 56, 61, 75, 79, 84. -/
def errBody (text : Str) : Str := jsonStruct [("err", jsonString text)]

/-- ErrDeviceNotFound and ErrSessionClosed, device_cache.go:12, session_cache.go:14. -/
def notFoundText : Str := jsonName "device not found"
def closedText : Str := jsonName "session closed"

/-- What GET /device/:phone/geo writes, api.go:28-50: one write of c.JSON, or none if there is no position (lines 43-46).  The
error of mapstructure (lines 38-42) does not occur. -/
def Store.geoWrites (w : Writing) (st : Store) (phone : Str) : List Str :=
  match st.devByPhone phone with
  | none => [errBody notFoundText]
  | some _ =>
    match (st.apiGeo phone).2.2 with
    | some (d, g) => [geoBody w.fmt w.time d g]
    | none => []

/-- What both operations on /device/:phone/params write once they look for the terminal, api.go:54-68 and 77-91: after a
missing session the handler goes on and panics; the recovery of gin adds nothing to the body. -/
def Store.sendWrites (st : Store) (phone : Str) : List Str :=
  match st.devByPhone phone with
  | none => [errBody notFoundText]
  | some r =>
    match st.session (st.heap r).sessionID with
    | none => [errBody closedText]
    | some _ => []

/-- The calls of c.JSON in the course of a request, api.go:24-92; ShouldBind comes first, and its error does not end the
handler (lines 74-76). -/
def Store.writes (w : Writing) (st : Store) (r : Request) (phone : Str) : Handler → List Str
  | .list => [st.listBody w.instant]
  | .geo => st.geoWrites w phone
  | .query => st.sendWrites phone
  | .set => (if r.body.bad then [errBody (w.bindErr r.text)] else []) ++ st.sendWrites phone

/-- The answer to a request for an operation: the status of Verif/Model/Server.lean, and the writes one after the other (a
second call of c.JSON appends to the first).  The answers of gin and net/http themselves are left out. -/
def Sys.answer (env : Env) (w : Writing) (s : Sys) (r : Request) (werr : Option Err) : Option (Nat × Str) :=
  match route r.method r.target with
  | .op h phone => (s.request env r werr).2.http.map fun code => (code, (s.st.writes w r phone h).flatten)
  | .status _ => none

end JT808
