import Verif.Model.Server
/-
internal/server/tcp_server.go: the loop of serve over what arrives on one connection.
-/
namespace JT808

/-- The first passes of the loop of serve, tcp_server.go:90-108, with nothing else happening in between: one pass for
each element of the list, which holds the clock during the pass and what writing a reply would return.  `e` is what the
connection returns after the last byte of the stream.  The pause of one second after an error (106) is left out. -/
def Store.serve (env : Env) (e : Err) (c : Conn) : List (Clock × Option Err) → Store → List UInt8 → Store × List Obs
  | [], st, _ => (st, [])
  | p :: ps, st, stream =>
    match recv e stream with
    | (.ok f, rest) =>
      let r := st.serveFrame env p.1 c p.2 f
      if r.2.ended then (r.1, [r.2])
      else
        let t := Store.serve env e c ps r.1 rest
        (t.1, r.2 :: t.2)
    | (.err e', rest) =>
      let r := st.serveErr c e'
      if r.2.ended then (r.1, [r.2])
      else
        let t := Store.serve env e c ps r.1 rest
        (t.1, r.2 :: t.2)
    | (.panic, _) => (st.remove c, [⟨none, true, none⟩])

end JT808
