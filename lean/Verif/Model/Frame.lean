import Verif.Go.Basic
/-
internal/protocol/frame_handler.go
-/
namespace JT808

/-- Loop variables of Recv: `inMessage` and `buf`, internal/protocol/frame_handler.go:47-48. -/
structure RecvSt where
  inMsg : Bool
  buf : List UInt8
  deriving DecidableEq, Repr

/-- One iteration of the loop in Recv after a byte was read, internal/protocol/frame_handler.go:56-68:
either the loop is left (`inl frame`) or goes on (`inr`). -/
def recvStep (st : RecvSt) (b : UInt8) : (List UInt8) ⊕ RecvSt :=
  if b = 0x7e then
    if st.inMsg then .inl (st.buf ++ [b]) else .inr ⟨!st.inMsg, st.buf ++ [b]⟩
  else
    if st.inMsg then .inr ⟨st.inMsg, st.buf ++ [b]⟩ else .inr st

/-- The loop of Recv over the bytes still to come; `e` is what the connection returns after the last
byte.  Returns the result and the unread bytes. -/
def recvLoop (e : Err) (st : RecvSt) : List UInt8 → Res (List UInt8) × List UInt8
  | [] => (.err e, [])
  | b :: rest =>
    match recvStep st b with
    | .inl f => (.ok f, rest)
    | .inr st' => recvLoop e st' rest

/-- (*JT808FrameHandler).Recv, internal/protocol/frame_handler.go:46-86.  `len(buf) == 0` (line 71) cannot
hold after the loop; debug logging is left out. -/
def recv (e : Err) (stream : List UInt8) : Res (List UInt8) × List UInt8 :=
  recvLoop e ⟨false, []⟩ stream

/-- A connection read through `bufio.Reader` (frame_handler.go:39-44): what is buffered, and the results of
the coming `conn.Read` calls (each non-error read is one chunk; `[]` is a read returning `0, nil`), then `e`. -/
structure BufRd where
  buf : List UInt8
  chunks : List (List UInt8)
  deriving DecidableEq, Repr

/-- The inner part of the loop of Recv as long as bytes are buffered. -/
def recvBuf (st : RecvSt) (stale : UInt8) :
    List UInt8 → ((List UInt8) × List UInt8) ⊕ (RecvSt × UInt8)
  | [] => .inr (st, stale)
  | b :: rest =>
    match recvStep st b with
    | .inl f => .inl (f, rest)
    | .inr st' => recvBuf st' b rest

/-- Recv over chunked reads.  `stale` is the content of `readBuf[0]`: frame_handler.go:52 ignores the count
returned by Read, so a read of `0, nil` makes the loop handle the previous byte again (initially 0). -/
def recvChunksLoop (e : Err) (st : RecvSt) (stale : UInt8) :
    List (List UInt8) → Res (List UInt8) × BufRd
  | [] => (.err e, ⟨[], []⟩)
  | c :: cs =>
    match (if c = [] then recvBuf st stale [stale] else recvBuf st stale c) with
    | .inl (f, rest) => (.ok f, ⟨rest, cs⟩)
    | .inr (st', stale') => recvChunksLoop e st' stale' cs

/-- Recv on a buffered connection; `readBuf` is fresh (zero) on each call, frame_handler.go:49. -/
def recvChunks (e : Err) (r : BufRd) : Res (List UInt8) × BufRd :=
  match recvBuf ⟨false, []⟩ 0 r.buf with
  | .inl (f, rest) => (.ok f, ⟨rest, r.chunks⟩)
  | .inr (st, stale) => recvChunksLoop e st stale r.chunks

/-- What one `conn.Write(p)` answers: a count and possibly an error. -/
structure WriteResp where
  n : Nat
  err : Option Err
  deriving DecidableEq, Repr

/-- How Send ended: returned nil, returned an error, or still waiting for the script to continue. -/
inductive SendEnd where
  | done | failed (e : Err) | pending
  deriving DecidableEq, Repr

/-- The loop of Send, internal/protocol/frame_handler.go:94-105, against a script of answers.  The first
component is what reached the wire: a write answering `n` has put `p[:n]` there (io.Writer contract). -/
def sendLoop (p : List UInt8) : List WriteResp → List UInt8 × SendEnd
  | [] => ([], .pending)
  | r :: rs =>
    match r.err with
    | some e => (p.take r.n, .failed e)
    | none =>
      if r.n ≥ p.length then (p, .done)
      else
        let (w, en) := sendLoop (p.drop r.n) rs
        (p.take r.n ++ w, en)

/-- (*JT808FrameHandler).Send, internal/protocol/frame_handler.go:88-109: an empty payload is skipped. -/
def send (p : List UInt8) (script : List WriteResp) : List UInt8 × SendEnd :=
  if p.length = 0 then ([], .done) else sendLoop p script

end JT808
