import Verif.Model.Server
/-
Several customers on one server: each has phones, plates and addresses of its own.
-/
namespace JT808
open JT808

/-- The terminals of one customer: their phones, their plates, and the addresses they connect from. -/
structure Spec.Group where
  phone : List UInt8 → Bool
  plate : List UInt8 → Bool
  addr : List UInt8 → Bool

/-- What the customer takes part in: frames and failures of its connections, checks of and requests about its phones.
New connections are kept whoever opens them, because they are numbered. -/
def Ev.within (g : Spec.Group) : Ev → Bool
  | .accept _ => true
  | .frame _ c _ _ => g.addr c.addr
  | .readErr c _ => g.addr c.addr
  | .check _ p => g.phone p
  | .httpList => true
  | .httpGeo p => g.phone p
  | .httpQuery p _ => g.phone p
  | .httpSet p _ _ _ => g.phone p

/-- Every frame speaks for a phone of the customer exactly when it comes from one of its addresses, and so for the
plates in registrations. -/
def Ev.apart (env : Env) (g : Spec.Group) : Ev → Prop
  | .frame clk c bytes _ => ∀ pd, decodeFrame env bytes = .ok pd → g.phone pd.header.phone = g.addr c.addr ∧
      ∀ (t : MType) (m : Register) (j : Nat), MType.ofID pd.header.msgID = some t →
        t.decode env clk.civil pd.header pd.body 0 = .ok (.m0100 m, j) → g.plate m.plate = g.addr c.addr
  | _ => True

/-- What is observed at the customer's events. -/
def Spec.Group.sees (env : Env) (g : Spec.Group) (s : Sys) (evs : List Ev) : List Obs :=
  ((evs.zip (s.run env evs).2).filter fun x => x.1.within g).map (·.2)

end JT808
