import Verif.Spec.Answer
import Verif.Spec.Route
import Verif.Props.Bytes
import Verif.Props.Route
import Verif.Model.Outside
/-
The server seen from outside, as a relation between what reaches it and what leaves it, in terms of the reference server
(Verif/Spec/Reference.lean).
-/
namespace JT808.Spec
open JT808

/-- What is read on connection `c`. -/
def readOn (c : Conn) : WEv → Option (UInt8 ⊕ Err)
  | .byte _ c' b _ => if c' = c then some (.inl b) else none
  | .fail c' e => if c' = c then some (.inr e) else none
  | _ => none

/-- What leaves a server whose book is `b` at an event, and what the event is for the book.  `writing` says how the times are
written and what the complaint about a body is. -/
inductive Shows (env : Env) (instant : Nat → List Nat) (time : Civil → List Nat) (complaint : Str → List Nat) (b : Book) :
    WEv → Option Ev → WOut → Prop
  | within {clk c x werr} : Shows env instant time complaint b (.byte clk c x werr) none ⟨Obs.none, none⟩
  | frame {clk c x werr} (f : List UInt8) : Shows env instant time complaint b (.byte clk c x werr) (some (.frame clk c f werr))
      ⟨(b.step env (.frame clk c f werr)).2, none⟩
  | fail {c e} : Shows env instant time complaint b (.fail c e) (some (.readErr c e)) ⟨(b.step env (.readErr c e)).2, none⟩
  | accept {addr} : Shows env instant time complaint b (.accept addr) (some (.accept addr)) ⟨(b.step env (.accept addr)).2, none⟩
  | job {clk p} : Shows env instant time complaint b (.job clk p) (some (.check clk p)) ⟨(b.step env (.check clk p)).2, none⟩
  | asked {r werr path h p vs} {body : Str} {code : Nat} : IsTarget r.target path → AsksFor r.method path h p →
      Tells instant time b p (if r.body.bad then some (complaint r.text) else none) h vs → Texts body vs →
      (b.step env (h.event r werr p)).2.http = some code →
      Shows env instant time complaint b (.request r werr) (some (h.event r werr p)) ⟨(b.step env (h.event r werr p)).2, some body⟩
  | astray {r werr} {code : Nat} : (∀ path h p, IsTarget r.target path → ¬ AsksFor r.method path h p) → code ∈ [400, 404, 301, 307] →
      Shows env instant time complaint b (.request r werr) none ⟨⟨none, false, some code⟩, none⟩

/-- A whole history: what reached the server, what left it, and the events it consists of for the book.  At any time the
frames so far are those the bytes so far consist of. -/
inductive Behaves (env : Env) (instant : Nat → List Nat) (time : Civil → List Nat) (complaint : Str → List Nat) :
    List WEv → List WOut → List Ev → Prop
  | start : Behaves env instant time complaint [] [] []
  | step {evs outs fs e x o} : Behaves env instant time complaint evs outs fs →
      Shows env instant time complaint (Book.start.run env fs).1 e x o →
      (∀ c, Cut ((evs ++ [e]).filterMap (readOn c)) ((fs ++ x.toList).filterMap (Ev.readOn c))) →
      Behaves env instant time complaint (evs ++ [e]) (outs ++ [o]) (fs ++ x.toList)

end JT808.Spec
