import Verif.Model.Server
/-
The number of connections in the log.
-/
namespace JT808

/-- countSession, internal/storage/session_cache.go:75-78, which monitorSessionCnt (38-45) logs as total_conn_cnt every ten
seconds.  The map is read without its lock there; the model takes the read as one step. -/
def Store.countSession (st : Store) : Nat := st.sessions.length

end JT808
