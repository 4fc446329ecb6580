import Verif.Model.SimProcess
import Verif.Proof.Interleave
import Verif.Proof.Devices
/-
The process of the simulator.
-/
namespace JT808
open Spec

/-- Each device is cached under its own phone. -/
def Keyed (st : Store) : Prop := ∀ q r, st.byPhone.get q = some r → (st.heap r).phone = q ∧ r < st.next

theorem keyed_empty : Keyed Store.empty := by intro q r h; cases h

theorem Keyed.of_same {st st' : Store} (h : Keyed st) (h1 : st'.byPhone = st.byPhone) (h2 : st'.heap = st.heap)
    (h3 : st'.next = st.next) : Keyed st' := by
  intro q r hr; rw [h2, h3]; rw [h1] at hr; exact h q r hr

theorem Keyed.touch {st : Store} (h : Keyed st) {q : Str} {r : Ref} (hr : st.byPhone.get q = some r) {d : Device}
    (hd : d.phone = (st.heap r).phone) : Keyed ((st.setDev r d).cacheDevice r) := by
  obtain ⟨h1, h2⟩ := h q r hr
  intro q' r' hr'
  simp only [Store.cacheDevice, Store.setDev, if_true, AMap.get_set] at hr' ⊢
  rw [hd, h1] at hr'
  split at hr'
  · next hq => injection hr' with hr'; subst hr'; subst hq; simp [hd, h1, h2]
  · obtain ⟨a, b⟩ := h q' r' hr'
    by_cases hx : r' = r
    · subst hx; simp [hd, a, b]
    · simp [hx, a, b]

theorem touch_keeps {st : Store} {r : Ref} {d : Device} {p : Str} (h : (st.byPhone.get p).isSome = true) :
    (((st.setDev r d).cacheDevice r).byPhone.get p).isSome = true := by
  simp only [Store.cacheDevice, Store.setDev, AMap.get_set, if_true]
  by_cases hp : p = d.phone
  · rw [if_pos hp]; rfl
  · rw [if_neg hp]; exact h

theorem Keyed.drop {st : Store} (h : Keyed st) (p : Str) : Keyed (st.delByPhone p) := by
  unfold Store.delByPhone
  cases hr : st.byPhone.get p with
  | none => exact h
  | some r =>
    intro q r' hq
    simp only [AMap.get_del] at hq
    split at hq
    · cases hq
    · exact h q r' hq

theorem Keyed.put {st : Store} (h : Keyed st) (d : Device) : Keyed ((st.alloc d).1.cacheDevice (st.alloc d).2) := by
  intro q r hr
  simp only [Store.alloc, Store.cacheDevice, if_true, AMap.get_set] at hr ⊢
  split at hr
  · next hq =>
    injection hr with hr; subst hr
    simp only [if_true]
    exact ⟨hq.symm, Nat.lt_succ_self _⟩
  · obtain ⟨a, b⟩ := h q r hr
    rw [if_neg (Nat.ne_of_lt b)]
    exact ⟨a, Nat.lt_succ_of_lt b⟩

theorem put_keeps {st : Store} {d : Device} {p : Str} (h : (st.byPhone.get p).isSome = true) :
    (((st.alloc d).1.cacheDevice (st.alloc d).2).byPhone.get p).isSome = true := by
  simp only [Store.cacheDevice, Store.alloc, AMap.get_set, if_true]
  by_cases hp : p = d.phone
  · rw [if_pos hp]; rfl
  · rw [if_neg hp]; exact h

theorem put_has (st : Store) (d : Device) :
    (((st.alloc d).1.cacheDevice (st.alloc d).2).byPhone.get d.phone).isSome = true := by
  simp [Store.cacheDevice, Store.alloc, AMap.get_set]

theorem process8104_core (env : Env) (st : Store) (h : Header) :
    (process8104 env st h).1.byPhone = st.byPhone ∧ (process8104 env st h).1.heap = st.heap ∧
    (process8104 env st h).1.next = st.next ∧ (process8104 env st h).1.jobs = st.jobs := by
  unfold process8104
  cases st.paramsOf h.phone with
  | some p => exact ⟨rfl, rfl, rfl, rfl⟩
  | none =>
    dsimp only
    cases fixedDecode env h.phone <;> exact ⟨rfl, rfl, rfl, rfl⟩

/-- The messages of a terminal that start and end a registration. -/
def Spec.Signing : Msg → Bool
  | .m0003 => true
  | .m0100 _ => true
  | .m0102 _ => true
  | _ => false

/-- What a handler keeps. -/
structure Keeps (st st' : Store) : Prop where
  keyed : Keyed st → Keyed st'
  has : ∀ p, (st.byPhone.get p).isSome = true → (st'.byPhone.get p).isSome = true
  jobs : st'.jobs = st.jobs

theorem Keeps.same {st st' : Store} (h1 : st'.byPhone = st.byPhone) (h2 : st'.heap = st.heap) (h3 : st'.next = st.next)
    (h4 : st'.jobs = st.jobs) : Keeps st st' :=
  ⟨fun h => h.of_same h1 h2 h3, fun p h => by rw [h1]; exact h, h4⟩

theorem Keeps.trans {a b c : Store} (h : Keeps a b) (k : Keeps b c) : Keeps a c :=
  ⟨fun x => k.keyed (h.keyed x), fun p x => k.has p (h.has p x), k.jobs.trans h.jobs⟩

theorem Keeps.touch {st : Store} {q : Str} {r : Ref} (hr : st.byPhone.get q = some r) {d : Device}
    (hd : d.phone = (st.heap r).phone) : Keeps st ((st.setDev r d).cacheDevice r) :=
  ⟨fun h => h.touch hr hd, fun _ h => touch_keeps h, rfl⟩

theorem handle_keeps (env : Env) (clk : Clock) (c : Conn) (st : Store) (h : Header) (m : Msg) (hm : Spec.Signing m = false) :
    Keeps st (st.handle env clk c h m).1 := by
  have refl : Keeps st st := .same rfl rfl rfl rfl
  cases m with
  | m0003 => cases hm
  | m0100 m => cases hm
  | m0102 m => cases hm
  | m0001 m => exact refl
  | m0104 m => exact refl
  | m1205 m => exact refl
  | m9205 m => exact refl
  | m0002 =>
    simp only [Store.handle, process0002, Store.devByPhone]
    cases hr : st.byPhone.get h.phone with
    | none => exact refl
    | some r => exact .touch hr rfl
  | m0200 m =>
    simp only [Store.handle, process0200, Store.devByPhone]
    cases hr : st.byPhone.get h.phone with
    | none => exact refl
    | some r =>
      dsimp only
      have key : ∀ (st1 : Store) (dg : DeviceGeo), Keeps st st1 → Keeps st (match st1.writeGeo (st1.heap r).phone dg with
          | (st, .ok _) => (st, (.ok (some (gen8001 h 0)) : Res (Option Out)))
          | (st, .err e) => (st, .err e)
          | (st, .panic) => (st, .panic)).1 := by
        intro st1 dg hk
        have hc := writeGeo_rest st1 (st1.heap r).phone dg
        cases hw : st1.writeGeo (st1.heap r).phone dg with
        | mk st2 res =>
          rw [hw] at hc
          have := hk.trans (Keeps.same hc.1 hc.2.1 hc.2.2.1 hc.2.2.2)
          cases res <;> exact this
      apply key
      split
      · exact .touch hr rfl
      · exact refl
  | m8001 m =>
    simp only [Store.handle, process8001, Store.devByPhone]
    split
    · cases hr : st.byPhone.get h.phone with
      | none => exact refl
      | some r =>
        dsimp only
        split
        · exact refl
        · exact .touch hr rfl
    · exact refl
  | m8100 m =>
    simp only [Store.handle, process8100, Store.devByPhone]
    cases hr : st.byPhone.get h.phone <;> exact refl
  | m8103 m => exact .same rfl rfl rfl rfl
  | m8104 =>
    obtain ⟨a, b, c, d⟩ := process8104_core env st h
    exact .same a b c d

theorem handle_keyed (env : Env) (clk : Clock) (c : Conn) (st : Store) (h : Header) (m : Msg) (hk : Keyed st) :
    Keyed (st.handle env clk c h m).1 := by
  cases hm : Spec.Signing m with
  | false => exact (handle_keeps env clk c st h m hm).keyed hk
  | true =>
    cases m <;> (try (exact absurd hm Bool.false_ne_true))
    case m0003 =>
      simp only [Store.handle, process0003, Store.devByPhone]
      cases hr : st.byPhone.get h.phone with
      | none => exact hk
      | some r => exact Keyed.drop (st := st.cancelJob _) (hk.of_same rfl rfl rfl) _
    case m0100 m =>
      simp only [Store.handle, process0100]
      split
      · exact hk
      · split
        · exact hk
        · dsimp only
          have hp := hk.put (Device.new clk c h m)
          unfold Store.registerJob
          split
          · exact hp
          · exact hp.of_same rfl rfl rfl
    case m0102 m =>
      simp only [Store.handle, process0102, Store.devByPhone]
      cases hr : st.byPhone.get h.phone with
      | none => exact hk
      | some r =>
        dsimp only
        split
        · exact Keyed.drop (st := st.cancelJob _) (hk.of_same rfl rfl rfl) _
        · exact hk.touch hr rfl

theorem handleFrame_keeps (env : Env) (clk : Clock) (c : Conn) (st : Store) (f : List UInt8)
    (hn : ∀ h m, Delivers env clk.civil st f h m → Spec.Signing m = false) : Keeps st (st.handleFrame env clk c f).1 := by
  by_cases hd : ∃ h m, Delivers env clk.civil st f h m
  · obtain ⟨h, m, hd⟩ := hd
    obtain ⟨sg, e⟩ := hd.handle c
    rw [e, finish_fst]
    have := handle_keeps env clk c { st with segs := sg } h m (hn h m hd)
    exact Keeps.trans (b := { st with segs := sg }) (.same rfl rfl rfl rfl) this
  · obtain ⟨sg, sr, e⟩ := handleFrame_none (env := env) (clk := clk) (c := c) (st := st) (frame := f)
      (fun h m hx => hd ⟨h, m, hx⟩)
    rw [e]
    exact .same rfl rfl rfl rfl

theorem handleFrame_keyed (env : Env) (clk : Clock) (c : Conn) (st : Store) (f : List UInt8) (hk : Keyed st) :
    Keyed (st.handleFrame env clk c f).1 := by
  by_cases hd : ∃ h m, Delivers env clk.civil st f h m
  · obtain ⟨h, m, hd⟩ := hd
    obtain ⟨sg, e⟩ := hd.handle c
    rw [e, finish_fst]
    exact handle_keyed env clk c { st with segs := sg } h m (hk.of_same rfl rfl rfl)
  · obtain ⟨sg, sr, e⟩ := handleFrame_none (env := env) (clk := clk) (c := c) (st := st) (frame := f)
      (fun h m hx => hd ⟨h, m, hx⟩)
    rw [e]
    exact hk.of_same rfl rfl rfl

theorem check_keyed (clk : Clock) (st : Store) (p : Str) (hk : Keyed st) : Keyed (st.check clk p).1 := by
  unfold Store.check Store.devByPhone
  cases hr : st.byPhone.get p with
  | none => exact hk.of_same rfl rfl rfl
  | some r =>
    dsimp only
    split
    · exact hk.touch hr rfl
    · split
      · cases hc : (st.heap r).conn with
        | none => exact hk
        | some c =>
          have : Keyed ((st.closeConn c).delByPhone p) := Keyed.drop (st := st.closeConn c) (hk.of_same rfl rfl rfl) p
          exact this.of_same rfl rfl rfl
      · exact hk

theorem settle_st (p : SimProc) : p.settle.st = p.st ∧ p.settle.sims = p.sims ∧ p.settle.todo = p.todo ∧
    p.settle.fails = p.fails := by
  unfold SimProc.settle; split <;> exact ⟨rfl, rfl, rfl, rfl⟩

theorem getDevice_st (p : SimProc) (s : SimRun) : (p.getDevice s).st = p.st ∧ (p.getDevice s).sims = p.sims ∧
    (p.getDevice s).todo = p.todo ∧ (p.getDevice s).fails = p.fails := by
  unfold SimProc.getDevice; split
  · split <;> exact ⟨rfl, rfl, rfl, rfl⟩
  · exact ⟨rfl, rfl, rfl, rfl⟩

end JT808
