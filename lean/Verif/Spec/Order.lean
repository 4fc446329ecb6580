import Verif.Model.Server
import Verif.Spec.Observe
/-
When two things that happen to a server have nothing to do with each other.
-/
namespace JT808.Spec
open JT808

/-- The phone an event is about. -/
def evPhone (env : Env) : Ev → Option Str
  | .frame _ _ f _ => match decodeFrame env f with
    | .ok pd => some pd.header.phone
    | _ => none
  | .check _ p | .httpGeo p | .httpQuery p _ | .httpSet p _ _ _ => some p
  | .accept _ | .readErr .. | .httpList => none

/-- The peer whose connection an event is on. -/
def evAddr : Ev → Option Str
  | .accept a => some a
  | .frame _ c _ _ | .readErr c _ => some c.addr
  | _ => none

/-- The plate an event wants to register. -/
def asksFor (env : Env) : Ev → Option Str
  | .frame clk _ f _ => match decodeFrame env f with
    | .ok pd => match MType.ofID pd.header.msgID with
      | some t => match t.decode env clk.civil pd.header pd.body 0 with
        | .ok (.m0100 m, _) => some m.plate
        | _ => none
      | none => none
    | _ => none
  | _ => none

/-- The peer an event may send a message of its own to, which takes a serial number: an HTTP call for parameters and a
fragment, to the connection the terminal has registered on.  `shown` is what the server shows of a phone. -/
def writesTo (env : Env) (shown : Str → Option Device) : Ev → Option Str
  | .frame _ _ f _ => match decodeFrame env f with
    | .ok pd => if pd.header.isFragmented then (shown pd.header.phone).map (·.sessionID) else none
    | _ => none
  | .httpQuery p _ | .httpSet p _ _ _ => (shown p).map (·.sessionID)
  | _ => none

/-- The first event takes nothing from the second: no phone, no connection, no plate wanted or held, no peer written to. -/
structure Clear (env : Env) (shown : Str → Option Device) (e e' : Ev) : Prop where
  phone : ∀ p, evPhone env e = some p → evPhone env e' ≠ some p
  addr : ∀ a, evAddr e = some a → evAddr e' ≠ some a
  plate : ∀ q, asksFor env e = some q → asksFor env e' ≠ some q ∧
    ∀ p d, evPhone env e' = some p → shown p = some d → d.plate ≠ q
  writes : ∀ a, writesTo env shown e = some a → evAddr e' ≠ some a ∧ writesTo env shown e' ≠ some a

/-- Two events that have nothing to do with each other.  Two new connections do: they are numbered in order. -/
structure Apart (env : Env) (shown : Str → Option Device) (e e' : Ev) : Prop where
  left : Clear env shown e e'
  right : Clear env shown e' e
  notBoth : ∀ a a', e = .accept a → e' ≠ .accept a'

end JT808.Spec
