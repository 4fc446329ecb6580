import Verif.Props.Workers
/-
The sequential server and a terminal that registers, authenticates and then sends heartbeats and positions.
-/
namespace JT808
open Spec

theorem alone_inv {Q : Store → Res (Option Out) → Prop} {N : Device → Prop} {p : Str} (clk : Clock) (q : Prog) (st : Store)
    (hs : q.Safe Q N p st) (h : CInv st) : CInv (q.alone clk st).1 := by
  induction q generalizing st with
  | ret r => exact h
  | step f k ih =>
    obtain ⟨-, b, c⟩ := hs clk st (Grows.refl _) h
    exact ih clk st _ c b

theorem handled_inv {env : Env} {clk : Clock} {st : Store} (t : Task) (h : CInv st) : CInv (handled env clk st t).1 := by
  rw [← alone_handled]
  exact alone_inv clk _ st (task_safe env t st) h

theorem inOrder_append (env : Env) (l l' : List (Task × Clock)) (st : Store) :
    (inOrder env st (l ++ l')).2 = (inOrder env st l).2 ++ (inOrder env (inOrder env st l).1 l').2 := by
  induction l generalizing st with
  | nil => rfl
  | cons x l ih => simp only [List.cons_append, inOrder, ih]

theorem inOrder_length (env : Env) (l : List (Task × Clock)) (st : Store) : (inOrder env st l).2.length = l.length := by
  induction l generalizing st with
  | nil => rfl
  | cons x l ih => simp only [inOrder, List.length_cons, ih]

/-- A phone is registered, with such a record, found by its plate as well. -/
def Has (P : Device → Prop) (p : Str) (st : Store) : Prop :=
  ∃ r, st.devByPhone p = some r ∧ st.devByPlate (st.heap r).plate = some r ∧ P (st.heap r)

variable {P Q : Device → Prop} {p : Str} {st : Store}

theorem has_put {r : Ref} {d : Device} (hp : P d) (hd : d.phone = p) : Has P p ((st.setDev r d).cacheDevice r) := by
  refine ⟨r, ?_, ?_, ?_⟩
  · simp only [Store.devByPhone, Store.cacheDevice, Store.setDev, if_true, hd, AMap.get_set_self]
  · simp only [Store.devByPlate, Store.cacheDevice, Store.setDev, if_true, AMap.get_set_self]
  · simp only [Store.cacheDevice, Store.setDev, if_true]; exact hp

/-- A heartbeat. -/
theorem seq_beat {env : Env} {clk : Clock} {c : Conn} {h : Header} (hi : CInv st) (hh : Has P h.phone st)
    (hP : ∀ d, P d → P (d.seen clk)) :
    (handled env clk st (.msg c h .m0002)).2 = .ok (some (gen8001 h 0)) ∧
      Has P h.phone (handled env clk st (.msg c h .m0002)).1 := by
  obtain ⟨r, h1, hl, h2⟩ := hh
  simp only [handled, Store.handle, process0002, h1]
  exact ⟨trivial, has_put (hP _ h2) (hi.phoneOK _ _ h1).2⟩

/-- A position. -/
theorem seq_loc {env : Env} {clk : Clock} {c : Conn} {h : Header} {m : LocMsg} (hi : CInv st) (hh : Has P h.phone st)
    (hP : ∀ d, P d → P (d.asleep clk)) :
    (handled env clk st (.msg c h (.m0200 m))).2 = .ok (some (gen8001 h 0)) ∧
      Has P h.phone (handled env clk st (.msg c h (.m0200 m))).1 := by
  obtain ⟨r, h1, hl, h2⟩ := hh
  have key : ∀ st' : Store, (∀ p rb, st'.geos.get p = some rb → RingOK rb) → Has P h.phone st' → ∀ dg : DeviceGeo,
      (match st'.writeGeo (st'.heap r).phone dg with
        | (st, .ok _) => (st, .ok (some (gen8001 h 0)))
        | (st, .err e) => (st, .err e)
        | (st, .panic) => (st, .panic) : Store × Res (Option Out)).2 = .ok (some (gen8001 h 0)) ∧
      Has P h.phone (match st'.writeGeo (st'.heap r).phone dg with
        | (st, .ok _) => (st, .ok (some (gen8001 h 0)))
        | (st, .err e) => (st, .err e)
        | (st, .panic) => (st, .panic) : Store × Res (Option Out)).1 := by
    intro st' hr hh dg
    obtain ⟨rb, rb', -, -, -, e⟩ := Store.writeGeo_ok hr (st'.heap r).phone dg
    simp only [e]
    obtain ⟨r', a, b, b'⟩ := hh
    exact ⟨trivial, r', a, b, b'⟩
  simp only [handled, Store.handle, process0200, h1]
  by_cases ha : (DeviceGeo.decode clk.civil (st.heap r).phone m).geo.acc = 0
  · simp only [ha, if_true]
    exact key ((st.setDev r ((st.heap r).asleep clk)).cacheDevice r) hi.rings (has_put (hP _ h2) (hi.phoneOK _ _ h1).2) _
  · simp only [ha, if_false]
    exact key _ hi.rings ⟨r, h1, hl, h2⟩ _

/-- A registration of a phone and a plate that are not taken. -/
theorem seq_register {env : Env} {clk : Clock} {c : Conn} {h : Header} {m : Register} (h1 : st.devByPhone h.phone = none)
    (h2 : st.devByPlate m.plate = none) (hP : P (Device.new clk c h m)) :
    (handled env clk st (.msg c h (.m0100 m))).2 = .ok (some (gen8100 h 0 (authCodeOf m.deviceID m.plate h.phone))) ∧
      Has P h.phone (handled env clk st (.msg c h (.m0100 m))).1 := by
  have e1 : st.hasPlate m.plate = false := by rw [Store.hasPlate, h2]; rfl
  have e2 : st.hasPhone h.phone = false := by rw [Store.hasPhone, h1]; rfl
  simp only [handled, Store.handle, process0100, e1, e2, Bool.false_eq_true, if_false]
  refine ⟨rfl, ?_⟩
  have hn : (Device.new clk c h m).phone = h.phone := rfl
  have key : Has P h.phone ((st.alloc (Device.new clk c h m)).1.cacheDevice (st.alloc (Device.new clk c h m)).2) := by
    refine ⟨st.next, ?_, ?_, ?_⟩
    · simp only [Store.devByPhone, Store.cacheDevice, Store.alloc, if_true, hn, AMap.get_set_self]
    · simp only [Store.devByPlate, Store.cacheDevice, Store.alloc, if_true, AMap.get_set_self]
    · simp only [Store.cacheDevice, Store.alloc, if_true]; exact hP
  obtain ⟨r, a, b, b'⟩ := key
  refine ⟨r, ?_, ?_, ?_⟩
  · simp only [hn, Store.registerJob, a]; exact a
  · simp only [hn, Store.registerJob, a]; exact b
  · simp only [hn, Store.registerJob, a]; exact b'

/-- An authentication with the right code. -/
theorem seq_auth {env : Env} {clk : Clock} {c : Conn} {h : Header} {m : AuthMsg} (hi : CInv st) (hh : Has P h.phone st)
    (hc : ∀ d, P d → d.phone = h.phone → d.code = m.code) (hP : ∀ d, P d → Q (d.authed clk m)) :
    (handled env clk st (.msg c h (.m0102 m))).2 = .ok (some (gen8001 h 0)) ∧
      Has Q h.phone (handled env clk st (.msg c h (.m0102 m))).1 := by
  obtain ⟨r, h1, hl, h2⟩ := hh
  have hp := (hi.phoneOK _ _ h1).2
  have e : ¬ (m.code ≠ (st.heap r).code) := fun hne => hne (hc _ h2 hp).symm
  simp only [handled, Store.handle, process0102, h1, e, if_false]
  exact ⟨trivial, has_put (hP _ h2) hp⟩

end JT808
