import Verif.Spec.Code
/-
What the server is for a terminal: one table from phone numbers to registered terminals, and the answer to each message.
No indexes, no heap, no connections.
-/
namespace JT808.Spec
open JT808

inductive Presence where
  | offline | online | sleeping
  deriving DecidableEq, Repr

/-- A registered terminal: its device id and plate, the address it registered from, when it was last heard of, and
whether it counts as present. -/
structure Entry where
  id : List UInt8
  plate : List UInt8
  origin : List UInt8
  heard : Nat
  presence : Presence
  deriving DecidableEq, Repr

/-- Registered terminals by phone number. -/
abbrev Registry := List UInt8 → Option Entry

/-- Nobody is registered. -/
def Registry.none : Registry := fun _ => Option.none

/-- The registry with one phone changed. -/
def Registry.put (t : Registry) (phone : List UInt8) (e : Option Entry) : Registry :=
  fun q => if q = phone then e else t q

/-- Somebody has this plate. -/
def Registry.hasPlate (t : Registry) (plate : List UInt8) : Prop := ∃ p e, t p = some e ∧ e.plate = plate

/-- The code a terminal has to show: the decimal text of the hash of its identity. -/
def codeText (id plate phone : List UInt8) : List UInt8 :=
  (Nat.toDigits 10 (fnv1a (identityText id plate phone))).map fun c => UInt8.ofNat c.toNat

/-- What a message asks of the registry. -/
inductive Ask where
  | register (id plate : List UInt8)
  | authenticate (code : List UInt8)
  | heartbeat
  | leave
  | report (accOff : Bool)
  | acknowledge (ok : Bool)
  | other

/-- What the server answers: a general reply with a result, a registration reply with a result and a code, nothing, or
nothing and the end of the connection. -/
inductive Said where
  | general (result : Nat)
  | registration (result : Nat) (code : Option (List UInt8))
  | nothing
  | goodbye

/-- One message of the terminal `phone`, from address `addr` at time `now`. -/
inductive Registry.Hears (t : Registry) (now : Nat) (addr phone : List UInt8) : Ask → Said → Registry → Prop
  | plateTaken {id plate} : t.hasPlate plate →
      Hears t now addr phone (.register id plate) (.registration 1 Option.none) t
  | phoneTaken {id plate e} : ¬ t.hasPlate plate → t phone = some e →
      Hears t now addr phone (.register id plate) (.registration 3 Option.none) t
  | registered {id plate} : ¬ t.hasPlate plate → t phone = Option.none →
      Hears t now addr phone (.register id plate) (.registration 0 (some (codeText id plate phone)))
        (t.put phone (some ⟨id, plate, addr, now, .offline⟩))
  | unknown {ask} : t phone = Option.none →
      (ask = .heartbeat ∨ ask = .leave ∨ (∃ code, ask = .authenticate code) ∨ ∃ off, ask = .report off) →
      Hears t now addr phone ask .goodbye t
  | rightCode {e} : t phone = some e →
      Hears t now addr phone (.authenticate (codeText e.id e.plate phone)) (.general 0)
        (t.put phone (some { e with presence := .online, heard := now }))
  | wrongCode {e code} : t phone = some e → code ≠ codeText e.id e.plate phone →
      Hears t now addr phone (.authenticate code) (.general 1) (t.put phone Option.none)
  | beat {e} : t phone = some e →
      Hears t now addr phone .heartbeat (.general 0) (t.put phone (some { e with heard := now }))
  | left {e} : t phone = some e → Hears t now addr phone .leave (.general 0) (t.put phone Option.none)
  | driving {e} : t phone = some e → Hears t now addr phone (.report false) (.general 0) t
  | parked {e} : t phone = some e →
      Hears t now addr phone (.report true) (.general 0)
        (t.put phone (some { e with presence := .sleeping, heard := now }))
  | woken {e} : t phone = some e → e.presence = .offline →
      Hears t now addr phone (.acknowledge true) .nothing
        (t.put phone (some { e with presence := .online, heard := now }))
  | acknowledged {ok} : (ok = false ∨ ∃ e, t phone = some e ∧ e.presence ≠ .offline) →
      Hears t now addr phone (.acknowledge ok) .nothing t
  | acknowledgedUnknown : t phone = Option.none → Hears t now addr phone (.acknowledge true) .nothing t
  | irrelevant {said} : Hears t now addr phone .other said t

/-- One keepalive check of `phone`. -/
inductive Registry.Checks (t : Registry) (now : Nat) (phone : List UInt8) : Registry → Prop
  | unknown : t phone = Option.none → Checks t now phone t
  | recent {e} : t phone = some e → now ≤ e.heard + 60000 → Checks t now phone t
  | lost {e} : t phone = some e → e.heard + 60000 < now → e.presence ≠ .offline →
      Checks t now phone (t.put phone (some { e with presence := .offline }))
  | cleared {e} : t phone = some e → e.heard + 60000 < now → e.presence = .offline →
      Checks t now phone (t.put phone Option.none)

/-- The tables that come about by messages and checks, starting from nobody. -/
inductive Registry.Arises : Registry → Prop
  | start : Arises Registry.none
  | heard {t t' now addr phone ask said} : Arises t → Registry.Hears t now addr phone ask said t' → Arises t'
  | checked {t t' now phone} : Arises t → Registry.Checks t now phone t' → Arises t'

/-- No two phones have the same plate. -/
def Registry.OnePlate (t : Registry) : Prop :=
  ∀ p p' e e', t p = some e → t p' = some e' → e.plate = e'.plate → p = p'

end JT808.Spec
