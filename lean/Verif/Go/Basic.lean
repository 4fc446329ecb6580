/-
Go semantics used by the model: byte strings, error values, panics, and slices with spare capacity.
-/
namespace JT808

/-- Go `string` and the contents of a `[]byte`, byte for byte. -/
abbrev Str := List UInt8

/-- Error values that callers tell apart with `errors.Is`.
`eof`, `closed`, `io`: what a `net.Conn` returns (io.EOF, net.ErrClosed/io.ErrClosedPipe, anything else).
Others: internal/protocol/packet_codec.go:20-24, internal/protocol/model/header.go:9-12,
internal/protocol/model/msg.go:14-18, internal/protocol/msg_processor.go:22-26,
internal/protocol/model/device_params.go:13-17, internal/storage/device_cache.go:12,
internal/storage/geo_cache.go:14, internal/storage/param_cache.go:11, internal/storage/session_cache.go:14.
`errors.Wrap` keeps the identity seen by `errors.Is`, so wrapping is not modelled. -/
inductive Err where
  | eof | closed | io
  | emptyPacket | verifyFailed | encodeType
  | decodeHeader | encodeHeader
  | decodeMsg | encodeMsg | genOutgoing
  | msgIDNotSupported | notAuthorized | activeClose
  | paramIDNotSupported
  | deviceNotFound | gisNotFound | paramsNotFound | sessionClosed
  deriving DecidableEq, Repr

/-- Outcome of a Go call: a value, an `error` return, or a run-time panic. -/
inductive Res (α : Type) where
  | ok (a : α)
  | err (e : Err)
  | panic
  deriving DecidableEq, Repr

namespace Res

def bind {α β : Type} : Res α → (α → Res β) → Res β
  | ok a, f => f a
  | err e, _ => err e
  | panic, _ => panic

instance : Monad Res where
  pure := ok
  bind := bind

@[simp] theorem pure_eq {α : Type} (a : α) : (pure a : Res α) = ok a := rfl
@[simp] theorem ok_bind {α β : Type} (a : α) (f : α → Res β) : (ok a >>= f) = f a := rfl
@[simp] theorem err_bind {α β : Type} (e : Err) (f : α → Res β) : ((err e : Res α) >>= f) = err e := rfl
@[simp] theorem panic_bind {α β : Type} (f : α → Res β) : ((panic : Res α) >>= f) = panic := rfl

def isOk {α : Type} : Res α → Bool
  | ok _ => true
  | _ => false

end Res

/-- A Go `[]byte`: `data` is `b[:len(b)]`; `slack` is the memory between `len(b)` and `cap(b)`. -/
structure Slice where
  data : List UInt8
  slack : List UInt8
  deriving DecidableEq, Repr

namespace Slice

/-- `len(b)` -/
def len (s : Slice) : Nat := s.data.length

/-- The whole backing memory up to `cap(b)`. -/
def mem (s : Slice) : List UInt8 := s.data ++ s.slack

/-- `b[i]`: Go checks the index against `len(b)`. -/
def index (s : Slice) (i : Nat) : Res UInt8 :=
  match s.data[i]? with
  | some b => .ok b
  | none => .panic

/-- The bytes of `b[lo : lo+n]`: Go checks the bounds of a slice expression against `cap(b)`,
and panics on a negative length (`n` is a Go `int`). -/
def sub (s : Slice) (lo : Nat) (n : Int) : Res (List UInt8) :=
  if 0 ≤ n ∧ lo + n.toNat ≤ s.mem.length then .ok ((s.mem.drop lo).take n.toNat) else .panic

/-- `b[lo:]`: the upper bound defaults to `len(b)`, so `lo` is checked against `len(b)`. -/
def from' (s : Slice) (lo : Nat) : Res Slice :=
  if lo ≤ s.data.length then .ok ⟨s.data.drop lo, s.slack⟩ else .panic

end Slice

/-- Readers: Go functions of shape `func(pkt []byte, idx *int) T`. -/
def Rd (α : Type) : Type := Slice → Nat → Res (α × Nat)

namespace Rd

def bind {α β : Type} (r : Rd α) (f : α → Rd β) : Rd β := fun s i =>
  match r s i with
  | .ok (a, j) => f a s j
  | .err e => .err e
  | .panic => .panic

instance : Monad Rd where
  pure a := fun _ i => .ok (a, i)
  bind := bind

/-- The current value of `*idx`. -/
def getIdx : Rd Nat := fun _ i => .ok (i, i)

/-- Return with an error from inside a decoder. -/
def fail {α : Type} (e : Err) : Rd α := fun _ _ => .err e

/-- A run-time panic inside a decoder. -/
def panic {α : Type} : Rd α := fun _ _ => .panic

end Rd

/-- What the model leaves open: how much spare capacity repeated one-byte `append` leaves behind a
slice of a given length (Go runtime `growslice`; the spare bytes are zeroed), the GBK converters of
golang.org/x/text (`none` = conversion error) and the GB2260 name table (internal/codec/region/region.go:18-27). -/
structure Env where
  grow : Nat → Nat
  gbkDec : Str → Option Str
  gbkEnc : Str → Option Str
  region : Str → Str

/-- The spare capacity Go 1.19 leaves after building a slice of `n ≤ 512` bytes by one-byte appends
(capacities 8, 16, ..., 512).  Used only in concrete examples; theorems take any `Env`. -/
def goGrow (n : Nat) : Nat :=
  if n = 0 then 0 else if n ≤ 8 then 8 - n else if n ≤ 16 then 16 - n else if n ≤ 32 then 32 - n
  else if n ≤ 64 then 64 - n else if n ≤ 128 then 128 - n else if n ≤ 256 then 256 - n else 512 - n

/-- A concrete environment for examples: Go's growth, and text conversion on ASCII only, where GBK and
UTF-8 agree. -/
def goEnv : Env :=
  { grow := goGrow
    gbkDec := fun s => some s
    gbkEnc := fun s => some s
    region := fun _ => [] }

end JT808
