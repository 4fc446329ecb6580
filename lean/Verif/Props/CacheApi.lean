import Verif.Proof.Demo
/-
C112: the device cache as a set of devices with two keys.
-/
namespace JT808

namespace Spec

/-- The three operations that change the device cache. -/
inductive CacheCall where
  | put (r : Ref)
  | dropPlate (plate : Str)
  | dropPhone (phone : Str)

/-- The set of devices a user of the cache has in mind. -/
def CacheCall.onSet (dev : Ref → Device) (s : Ref → Prop) : CacheCall → Ref → Prop
  | .put r => fun x => x = r ∨ s x
  | .dropPlate p => fun x => s x ∧ (dev x).plate ≠ p
  | .dropPhone p => fun x => s x ∧ (dev x).phone ≠ p

/-- The set after some calls. -/
def keptBy (dev : Ref → Device) (s : Ref → Prop) : List CacheCall → Ref → Prop
  | [] => s
  | c :: cs => keptBy dev (c.onSet dev s) cs

/-- No device is put beside another one with its plate or phone. -/
def NoOverwrite (dev : Ref → Device) (s : Ref → Prop) : List CacheCall → Prop
  | [] => True
  | c :: cs => (∀ r, c = .put r → ∀ x, s x → (dev x).plate = (dev r).plate ∨ (dev x).phone = (dev r).phone → x = r) ∧
      NoOverwrite dev (c.onSet dev s) cs

/-- The call as the cache carries it out. -/
def CacheCall.on (st : Store) : CacheCall → Store
  | .put r => st.cacheDevice r
  | .dropPlate p => st.delByPlate p
  | .dropPhone p => st.delByPhone p

end Spec

open Spec

/-- The cache holds the set `s`. -/
structure CacheHolds (st : Store) (s : Ref → Prop) : Prop where
  phone : ∀ p r, st.devByPhone p = some r ↔ s r ∧ (st.heap r).phone = p
  plate : ∀ p r, st.devByPlate p = some r ↔ s r ∧ (st.heap r).plate = p

theorem CacheHolds.call {st : Store} {s : Ref → Prop} (h : CacheHolds st s) (c : CacheCall)
    (hn : ∀ r, c = .put r → ∀ x, s x → (st.heap x).plate = (st.heap r).plate ∨ (st.heap x).phone = (st.heap r).phone → x = r) :
    CacheHolds (c.on st) (c.onSet st.heap s) ∧ (c.on st).heap = st.heap := by
  have h1 := h.phone
  have h2 := h.plate
  simp only [Store.devByPhone, Store.devByPlate] at h1 h2
  cases c with
  | put r =>
    have hn := hn r rfl
    refine ⟨⟨fun p x => ?_, fun p x => ?_⟩, rfl⟩
    · simp only [CacheCall.on, CacheCall.onSet, Store.devByPhone, Store.cacheDevice, AMap.get_set]
      by_cases hp : p = (st.heap r).phone
      · rw [if_pos hp]
        constructor
        · rintro ⟨⟩; exact ⟨.inl rfl, hp.symm⟩
        · rintro ⟨rfl | hx, e⟩
          · rfl
          · rw [hn x hx (.inr (by rw [e, hp]))]
      · rw [if_neg hp, h1]
        constructor
        · rintro ⟨a, b⟩; exact ⟨.inr a, b⟩
        · rintro ⟨rfl | hx, e⟩
          · exact absurd e.symm hp
          · exact ⟨hx, e⟩
    · simp only [CacheCall.on, CacheCall.onSet, Store.devByPlate, Store.cacheDevice, AMap.get_set]
      by_cases hp : p = (st.heap r).plate
      · rw [if_pos hp]
        constructor
        · rintro ⟨⟩; exact ⟨.inl rfl, hp.symm⟩
        · rintro ⟨rfl | hx, e⟩
          · rfl
          · rw [hn x hx (.inl (by rw [e, hp]))]
      · rw [if_neg hp, h2]
        constructor
        · rintro ⟨a, b⟩; exact ⟨.inr a, b⟩
        · rintro ⟨rfl | hx, e⟩
          · exact absurd e.symm hp
          · exact ⟨hx, e⟩
  | dropPlate q =>
    simp only [CacheCall.on, CacheCall.onSet, Store.delByPlate]
    cases hg : st.byPlate.get q with
    | none =>
      have hno : ∀ x, s x → (st.heap x).plate ≠ q := by
        intro x hx e
        have := (h2 q x).2 ⟨hx, e⟩
        rw [hg] at this; cases this
      refine ⟨⟨fun p x => ?_, fun p x => ?_⟩, rfl⟩
      · rw [Store.devByPhone, h1]; exact ⟨fun a => ⟨⟨a.1, hno _ a.1⟩, a.2⟩, fun a => ⟨a.1.1, a.2⟩⟩
      · rw [Store.devByPlate, h2]; exact ⟨fun a => ⟨⟨a.1, hno _ a.1⟩, a.2⟩, fun a => ⟨a.1.1, a.2⟩⟩
    | some r =>
      obtain ⟨hr, hq⟩ := (h2 q r).1 hg
      have same : ∀ x, s x → ((st.heap x).plate = q ↔ x = r) := by
        intro x hx
        constructor
        · intro e
          have := (h2 q x).2 ⟨hx, e⟩
          rw [hg] at this; injection this with this; exact this.symm
        · rintro rfl; exact hq
      have same' : ∀ x, s x → ((st.heap x).phone = (st.heap r).phone ↔ x = r) := by
        intro x hx
        constructor
        · intro e
          have a := (h1 _ x).2 ⟨hx, e⟩
          have b := (h1 _ r).2 ⟨hr, rfl⟩
          rw [a] at b; injection b
        · rintro rfl; rfl
      refine ⟨⟨fun p x => ?_, fun p x => ?_⟩, rfl⟩
      · simp only [Store.devByPhone, AMap.get_del]
        by_cases hp : p = (st.heap r).phone
        · rw [if_pos hp]
          constructor
          · rintro ⟨⟩
          · rintro ⟨⟨hx, hne⟩, e⟩
            exact absurd ((same x hx).2 ((same' x hx).1 (by rw [e, hp]))) hne
        · rw [if_neg hp, h1]
          constructor
          · rintro ⟨hx, e⟩
            refine ⟨⟨hx, fun hh => hp ?_⟩, e⟩
            rw [← e, (same x hx).1 hh]
          · rintro ⟨⟨hx, -⟩, e⟩; exact ⟨hx, e⟩
      · simp only [Store.devByPlate, AMap.get_del]
        by_cases hp : p = (st.heap r).plate
        · rw [if_pos hp]
          constructor
          · rintro ⟨⟩
          · rintro ⟨⟨hx, hne⟩, e⟩
            exact absurd (by rw [e, hp, hq]) hne
        · rw [if_neg hp, h2]
          constructor
          · rintro ⟨hx, e⟩
            refine ⟨⟨hx, fun hh => hp ?_⟩, e⟩
            rw [← e, hh, hq]
          · rintro ⟨⟨hx, -⟩, e⟩; exact ⟨hx, e⟩
  | dropPhone q =>
    simp only [CacheCall.on, CacheCall.onSet, Store.delByPhone]
    cases hg : st.byPhone.get q with
    | none =>
      have hno : ∀ x, s x → (st.heap x).phone ≠ q := by
        intro x hx e
        have := (h1 q x).2 ⟨hx, e⟩
        rw [hg] at this; cases this
      refine ⟨⟨fun p x => ?_, fun p x => ?_⟩, rfl⟩
      · rw [Store.devByPhone, h1]; exact ⟨fun a => ⟨⟨a.1, hno _ a.1⟩, a.2⟩, fun a => ⟨a.1.1, a.2⟩⟩
      · rw [Store.devByPlate, h2]; exact ⟨fun a => ⟨⟨a.1, hno _ a.1⟩, a.2⟩, fun a => ⟨a.1.1, a.2⟩⟩
    | some r =>
      obtain ⟨hr, hq⟩ := (h1 q r).1 hg
      have same : ∀ x, s x → ((st.heap x).phone = q ↔ x = r) := by
        intro x hx
        constructor
        · intro e
          have := (h1 q x).2 ⟨hx, e⟩
          rw [hg] at this; injection this with this; exact this.symm
        · rintro rfl; exact hq
      have same' : ∀ x, s x → ((st.heap x).plate = (st.heap r).plate ↔ x = r) := by
        intro x hx
        constructor
        · intro e
          have a := (h2 _ x).2 ⟨hx, e⟩
          have b := (h2 _ r).2 ⟨hr, rfl⟩
          rw [a] at b; injection b
        · rintro rfl; rfl
      refine ⟨⟨fun p x => ?_, fun p x => ?_⟩, rfl⟩
      · simp only [Store.devByPhone, AMap.get_del]
        by_cases hp : p = (st.heap r).phone
        · rw [if_pos hp]
          constructor
          · rintro ⟨⟩
          · rintro ⟨⟨hx, hne⟩, e⟩
            exact absurd (by rw [e, hp, hq]) hne
        · rw [if_neg hp, h1]
          constructor
          · rintro ⟨hx, e⟩
            refine ⟨⟨hx, fun hh => hp ?_⟩, e⟩
            rw [← e, hh, hq]
          · rintro ⟨⟨hx, -⟩, e⟩; exact ⟨hx, e⟩
      · simp only [Store.devByPlate, AMap.get_del]
        by_cases hp : p = (st.heap r).plate
        · rw [if_pos hp]
          constructor
          · rintro ⟨⟩
          · rintro ⟨⟨hx, hne⟩, e⟩
            exact absurd ((same x hx).2 ((same' x hx).1 (by rw [e, hp]))) hne
        · rw [if_neg hp, h2]
          constructor
          · rintro ⟨hx, e⟩
            refine ⟨⟨hx, fun hh => hp ?_⟩, e⟩
            rw [← e, (same x hx).1 hh]
          · rintro ⟨⟨hx, -⟩, e⟩; exact ⟨hx, e⟩

theorem CacheHolds.calls {st : Store} {s : Ref → Prop} (h : CacheHolds st s) (cs : List CacheCall)
    (hn : NoOverwrite st.heap s cs) : CacheHolds (cs.foldl CacheCall.on st) (keptBy st.heap s cs) ∧
      (cs.foldl CacheCall.on st).heap = st.heap := by
  induction cs generalizing st s with
  | nil => exact ⟨h, rfl⟩
  | cons c cs ih =>
    obtain ⟨a, b⟩ := h.call c hn.1
    have := ih (st := c.on st) a (by rw [b]; exact hn.2)
    rw [b] at this
    exact this

/-- What holds of C112: calls that never put a device beside another one with its plate or phone.  A device is found under
its phone, and under its plate, exactly when it is in the set; under anything else nothing is found.
Missing: C112_overwrite. -/
theorem C112_cache_partial (dev : Ref → Device) (cs : List CacheCall) (hn : NoOverwrite dev (fun _ => False) cs) :
    let st := cs.foldl CacheCall.on { Store.empty with heap := dev }
    (∀ p r, st.devByPhone p = some r ↔ keptBy dev (fun _ => False) cs r ∧ (dev r).phone = p) ∧
    (∀ p r, st.devByPlate p = some r ↔ keptBy dev (fun _ => False) cs r ∧ (dev r).plate = p) := by
  intro st
  have h0 : CacheHolds { Store.empty with heap := dev } (fun _ => False) :=
    ⟨fun p r => by simp [Store.devByPhone, Store.empty], fun p r => by simp [Store.devByPlate, Store.empty]⟩
  obtain ⟨a, b⟩ := h0.calls cs hn
  refine ⟨fun p r => ?_, fun p r => ?_⟩
  · rw [a.phone, b]
  · rw [a.plate, b]

/-- The opposite of C112: a device is put over another one with the same phone and a different plate.  Deleting by phone
then leaves the first one behind under its plate, a plate that stays taken; deleting by the first one's plate deletes the
second one's phone and keeps its plate. -/
theorem C112_overwrite (st : Store) (a b : Ref) (hp : (st.heap a).phone = (st.heap b).phone)
    (hq : (st.heap a).plate ≠ (st.heap b).plate) :
    (let after := [CacheCall.put a, .put b, .dropPhone (st.heap b).phone].foldl CacheCall.on st
     after.devByPhone (st.heap b).phone = none ∧ after.devByPlate (st.heap b).plate = none ∧
     after.devByPlate (st.heap a).plate = some a) ∧
    (let after := [CacheCall.put a, .put b, .dropPlate (st.heap a).plate].foldl CacheCall.on st
     after.devByPhone (st.heap b).phone = none ∧ after.devByPlate (st.heap b).plate = some b ∧
     after.devByPlate (st.heap a).plate = none) := by
  constructor
  · simp [CacheCall.on, Store.cacheDevice, Store.delByPhone, Store.devByPhone, Store.devByPlate, AMap.get_set, AMap.get_del,
      hq]
  · simp [CacheCall.on, Store.cacheDevice, Store.delByPlate, Store.devByPhone, Store.devByPlate, AMap.get_set, AMap.get_del,
      hq, hp, Ne.symm hq]

/-- Three devices of different plates and phones come and go. -/
example : let dev : Ref → Device := fun r => { Device.zero with plate := [0x41 + UInt8.ofNat r], phone := [0x31 + UInt8.ofNat r] }
    let cs := [CacheCall.put 0, .put 1, .put 0, .dropPlate [0x42], .put 2, .dropPhone [0x31], .dropPhone [0x39]]
    NoOverwrite dev (fun _ => False) cs ∧
    (cs.foldl CacheCall.on { Store.empty with heap := dev }).byPhone.map (·.2) = [2] := by
  refine ⟨?_, by decide +kernel⟩
  simp [NoOverwrite, CacheCall.onSet]

example : ∃ (st : Store) (a b : Ref), (st.heap a).phone = (st.heap b).phone ∧ (st.heap a).plate ≠ (st.heap b).plate :=
  ⟨{ Store.empty with heap := fun r => if r = 0 then { Device.zero with plate := [0x41] } else Device.zero }, 0, 1,
    by decide, by decide⟩

end JT808
