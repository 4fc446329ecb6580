import Verif.Spec.Reference
import Verif.Props.JsonText
import Verif.Props.JsonGeo
import Verif.Model.Route
/-
What the HTTP API has to say, in terms of the reference server (Verif/Spec/Reference.lean) and of JSON values.
-/
namespace JT808.Spec
open JT808

/-- An object with a complaint. -/
def errValue (t : List Nat) : JVal := .obj [(chars "err", .str t)]

/-- What is said before something is sent to a terminal. -/
inductive Heard (b : Book) (p : Str) : List JVal → Prop
  | unknown : b.terminal p = none → Heard b p [errValue (chars "device not found")]
  | lost {t : Terminal} : b.terminal p = some t → b.line t.conn.addr = none → Heard b p [errValue (chars "session closed")]
  | there {t : Terminal} {c : Conn} : b.terminal p = some t → b.line t.conn.addr = some c → Heard b p []

/-- What an operation says for a terminal, as JSON values one after the other: `complaint` is the complaint about the body of
the request, if there is one. -/
inductive Tells (instant : Nat → List Nat) (time : Civil → List Nat) (b : Book) (p : Str) (complaint : Option (List Nat)) :
    Handler → List JVal → Prop
  | list {ds : List Device} {vs : List JVal} : ds.Perm b.listing → ListedAll instant ds vs → Tells instant time b p complaint .list [.arr vs]
  | noTerminal : b.terminal p = none → Tells instant time b p complaint .geo [errValue (chars "device not found")]
  | noPosition {t : Terminal} : b.terminal p = some t → (b.reports p).length % 100 = 0 → Tells instant time b p complaint .geo []
  | position {t : Terminal} {now : Civil} {m : LocMsg} {pos v : JVal} : b.terminal p = some t → (b.reports p).length % 100 ≠ 0 →
      (b.reports p).getLast? = some (DeviceGeo.decode now p m) → Positioned time now p m pos → Answered (t.device p) pos v →
      Tells instant time b p complaint .geo [v]
  | query {vs : List JVal} : Heard b p vs → Tells instant time b p complaint .query vs
  | set {vs : List JVal} : Heard b p vs → Tells instant time b p complaint .set ((complaint.map errValue).toList ++ vs)

/-- Texts of JSON values one after the other. -/
inductive Texts : List UInt8 → List JVal → Prop
  | nil : Texts [] []
  | cons {s r : List UInt8} {v : JVal} {vs : List JVal} : JText s v → Texts r vs → Texts (s ++ r) (v :: vs)

end JT808.Spec
