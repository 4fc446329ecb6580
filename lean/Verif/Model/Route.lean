import Verif.Model.Server
import Verif.Model.JsonRead
/-
How an HTTP request becomes one of the operations of internal/api/api.go: net/url reads the target of the request line, the tree
of routes of gin 1.9.1 (tree.go, getValue) finds the function, c.Param("phone") is the part of the path between two slashes.
Both libraries are used with their defaults (api.go:20): the path is unescaped before it is compared, redirects for a slash
too many are on, answers 405 are off.
Left out: targets that do not begin with a slash, methods spelt in lower case, the Host line, the access log of gin.
-/
namespace JT808

/-- net/url, unescape of a path: a percent sign must be followed by two hexadecimal digits; a plus sign stays. -/
def urlUnescape : Str → Option Str
  | [] => some []
  | 0x25 :: a :: b :: s =>
    match hexVal a, hexVal b, urlUnescape s with
    | some x, some y, some t => some ((x * 16 + y) :: t)
    | _, _, _ => none
  | 0x25 :: _ => none
  | c :: s => (urlUnescape s).map (c :: ·)

/-- net/url, ParseRequestURI: no control characters; the query is cut off. -/
def targetPath (target : Str) : Option Str :=
  if target.any fun c => c < 0x20 || c == 0x7f then none
  else urlUnescape (target.takeWhile (· != 0x3f))

/-- What a route leads to, api.go:24, 28, 52, 72. -/
inductive Handler where
  | list | geo | query | set
deriving DecidableEq

/-- A node of gin's tree of routes: a piece of path that is compared or, if `param`, stands for a piece without a slash; the
function if a route ends here; children by their first byte; a child that is a parameter. -/
inductive Node where
  | mk (root param : Bool) (path : Str) (handler : Option Handler) (kids : List (UInt8 × Node)) (wild : Option Node)

/-- What is found: a function with the piece of path the parameter stands for, or none, perhaps with the advice to try with or
without a slash at the end. -/
inductive Found where
  | at (h : Handler) (param : Str)
  | none (tsr : Bool)
deriving DecidableEq

/-- getValue, tree.go.  `k` bounds the steps (one per level of the tree).  A parameter's only child is compared whatever its
first byte. Going back to skipped nodes is left out: no node of these trees has both a parameter and other children. -/
def Node.find : Nat → Node → Str → Str → Found
  | 0, _, _, _ => .none false
  | k + 1, .mk root isParam prefix' handler kids wild, path, p =>
    if isParam then
      let val := path.takeWhile (· != 0x2f)
      match path.dropWhile (· != 0x2f) with
      | [] =>
        match handler with
        | some h => .at h val
        | Option.none =>
          match kids with
          | [(_, .mk _ _ q h qs _)] =>
            .none (q == [0x2f] && h.isSome || q == [] && qs.map (·.1) == [0x2f])
          | _ => .none false
      | rest =>
        match kids with
        | (_, n) :: _ => n.find k rest val
        | [] => .none (rest.length == 1)
    else if prefix'.isPrefixOf path then
      match path.drop prefix'.length with
      | [] =>
        match handler with
        | some h => .at h p
        | Option.none =>
          if path = [0x2f] ∧ ¬ root then .none true
          else
            match kids.lookup 0x2f with
            | some (.mk _ _ q h _ _) => .none (q.length == 1 && h.isSome)
            | Option.none => .none false
      | c :: rest =>
        match kids.lookup c with
        | some n => n.find k (c :: rest) p
        | Option.none =>
          match wild with
          | some n => n.find k (c :: rest) p
          | Option.none => .none (c :: rest == [0x2f] && handler.isSome)
    else
      .none (path == [0x2f] ||
        prefix'.length == path.length + 1 && prefix' == path ++ [0x2f] && handler.isSome)

/-- The tree of GET, api.go:24, 28, 52: /device, /device/:phone/geo, /device/:phone/params. -/
def getTree : Node :=
  .mk true false [0x2f, 0x64, 0x65, 0x76, 0x69, 0x63, 0x65] (some .list)
    [(0x2f, .mk false false [0x2f] none []
      (some (.mk false true [] none
        [(0x2f, .mk false false [0x2f] none
          [(0x67, .mk false false [0x67, 0x65, 0x6f] (some .geo) [] none),
           (0x70, .mk false false [0x70, 0x61, 0x72, 0x61, 0x6d, 0x73] (some .query) [] none)] none)] none)))] none

/-- The tree of PUT, api.go:72: /device/:phone/params. -/
def putTree : Node :=
  .mk true false [0x2f, 0x64, 0x65, 0x76, 0x69, 0x63, 0x65, 0x2f] none []
    (some (.mk false true [] none
      [(0x2f, .mk false false [0x2f, 0x70, 0x61, 0x72, 0x61, 0x6d, 0x73] (some .set) [] none)] none))

/-- The methods of a request line. -/
inductive HttpMethod where
  | get | put | head | post | patch | delete | options | connect | trace
deriving DecidableEq

/-- A request: the target of the request line, whether the content type is application/json, and the body. -/
structure Request where
  method : HttpMethod
  target : Str
  json : Bool
  text : Str

/-- What becomes of a request. -/
inductive Routed where
  | op (h : Handler) (phone : Str)
  | status (code : Nat)
deriving DecidableEq

/-- handleHTTPRequest of gin.go, and net/http before it, which answers 400 to a target it cannot read. -/
def route (method : HttpMethod) (target : Str) : Routed :=
  match targetPath target with
  | none => .status 400
  | some path =>
    let tree := match method with
      | .get => some getTree
      | .put => some putTree
      | _ => none
    match tree with
    | none => .status 404
    | some t =>
      match t.find 8 path [] with
      | .at h phone => .op h phone
      | .none tsr => .status (if tsr ∧ path ≠ [0x2f] then (if method = .get then 301 else 307) else 404)

/-- ShouldBind, api.go:74: the body by its content type. -/
def Request.body (r : Request) : Body := if r.json then Body.ofText r.text else .form

/-- A request to the server, api.go:20-91: the operation, or an answer that is gin's own. -/
def Sys.request (env : Env) (s : Sys) (r : Request) (werr : Option Err) : Sys × Obs :=
  if s.crashed then (s, Obs.none)
  else match route r.method r.target with
  | .op .list _ => s.step env .httpList
  | .op .geo phone => s.step env (.httpGeo phone)
  | .op .query phone => s.step env (.httpQuery phone werr)
  | .op .set phone => s.step env (.httpSet phone r.body.bound r.body.bad werr)
  | .status code => (s, ⟨none, false, some code⟩)

end JT808
