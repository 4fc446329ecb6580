import Verif.Model.Conc
import Verif.Proof.Store
/-
The step programs of Verif/Model/Conc.lean: run alone they are the sequential handlers; interleaved they keep the two
indexes of the device cache filed under the right keys.
-/
namespace JT808

theorem setDev_setDev (st : Store) (r : Ref) (a b : Device) : (st.setDev r a).setDev r b = st.setDev r b := by
  unfold Store.setDev
  congr 1
  funext x
  simp only
  split <;> rfl

theorem setDev_heap (st : Store) (r : Ref) (a : Device) : (st.setDev r a).heap r = a := by simp [Store.setDev]

/-- Run without interruption, a handler's program is the handler. -/
theorem alone_handle (env : Env) (clk : Clock) (c : Conn) (st : Store) (h : Header) (m : Msg) :
    ((Task.msg c h m).prog env).alone clk st = st.handle env clk c h m := by
  cases m with
  | m0001 => rfl
  | m0104 => rfl
  | m1205 => rfl
  | m9205 => rfl
  | m0002 =>
    simp only [Task.prog, prog0002, Store.handle, process0002, Prog.get, Prog.alone]
    cases st.devByPhone h.phone <;> rfl
  | m0003 =>
    simp only [Task.prog, prog0003, Store.handle, process0003, Prog.get, Prog.alone]
    cases st.devByPhone h.phone <;> rfl
  | m0100 m =>
    simp only [Task.prog, prog0100, Store.handle, process0100, Prog.read, Prog.alone]
    split
    · rfl
    · simp only [Prog.alone]
      split
      · rfl
      · simp only [Prog.alone, Prog.upd, progTimer, Prog.get, Store.registerJob]
        have : (Device.new clk c h m).phone = h.phone := rfl
        rw [this]
        have : (st.alloc (Device.new clk c h m)).2 = st.next := rfl
        rw [this]
        cases (((st.alloc (Device.new clk c h m)).1.cacheDevice st.next).devByPhone h.phone) <;> rfl
  | m0102 m =>
    simp only [Task.prog, prog0102, Store.handle, process0102, Prog.get, Prog.alone]
    cases st.devByPhone h.phone with
    | none => rfl
    | some r =>
      simp only [Prog.read, Prog.alone]
      split
      · rfl
      · simp only [Prog.put, Prog.upd, Prog.alone, setDev_setDev, setDev_heap]; rfl
  | m0200 m =>
    simp only [Task.prog, prog0200, Store.handle, process0200, Prog.get, Prog.alone]
    cases st.devByPhone h.phone with
    | none => rfl
    | some r =>
      simp only [Prog.read, Prog.alone]
      have key : ∀ (st : Store) dg, (progGeo h r dg).alone clk st =
          match st.writeGeo (st.heap r).phone dg with
          | (st, .ok _) => (st, .ok (some (gen8001 h 0)))
          | (st, .err e) => (st, .err e)
          | (st, .panic) => (st, .panic) := by
        intro st dg
        simp only [progGeo, Prog.alone]
        cases st.writeGeo (st.heap r).phone dg with
        | mk a b => cases b <;> rfl
      split
      · simp only [Prog.put, Prog.upd, Prog.alone, setDev_setDev, setDev_heap, key]
        rfl
      · rw [key]; rfl
  | m8001 m =>
    simp only [Task.prog, prog8001, Store.handle, process8001]
    split
    · simp only [Prog.get, Prog.alone]
      cases st.devByPhone h.phone with
      | none => rfl
      | some r =>
        simp only [Prog.read, Prog.alone]
        split
        · rfl
        · simp only [Prog.put, Prog.upd, Prog.alone, setDev_setDev, setDev_heap]; rfl
    · rfl
  | m8100 m =>
    simp only [Task.prog, prog8100, Store.handle, process8100, Prog.get, Prog.alone]
    cases st.devByPhone h.phone <;> rfl
  | m8103 m =>
    simp only [Task.prog, prog8103, Store.handle, process8103, Prog.read, Prog.upd, Prog.alone]
    cases st.paramsOf h.phone <;> rfl
  | m8104 =>
    simp only [Task.prog, prog8104, Store.handle, process8104, Prog.read, Prog.alone]
    cases st.paramsOf h.phone with
    | some p => rfl
    | none =>
      simp only
      cases fixedDecode env h.phone with
      | ok p => rfl
      | err e => rfl
      | panic => rfl

/-- The result of a check as that of a program. -/
def checkResult : Res Unit → Res (Option Out)
  | .ok _ => .ok none
  | .err e => .err e
  | .panic => .panic

/-- Run without interruption, the check's program is the check. -/
theorem alone_check (env : Env) (clk : Clock) (st : Store) (phone : Str) :
    ((Task.check phone).prog env).alone clk st = ((st.check clk phone).1, checkResult (st.check clk phone).2) := by
  simp only [Task.prog, progCheck, Store.check, Prog.get, Prog.alone]
  cases st.devByPhone phone with
  | none => rfl
  | some r =>
    simp only [progFound, progClear, Prog.read, Prog.alone]
    by_cases hs : (st.heap r).status = .offline
    · rw [if_neg (by simp [hs])]
      have h1 : (st.heap r).shouldTurnOffline clk.ms = false := by simp [Device.shouldTurnOffline, hs]
      simp only [Prog.alone, progExpired, Prog.read, h1, Bool.false_eq_true, if_false]
      rw [if_pos hs]
      simp only [Prog.alone]
      by_cases ht : clk.ms > (st.heap r).keepalive + (st.heap r).last
      · have h2 : (st.heap r).shouldClear clk.ms = true := by simp [Device.shouldClear, hs, ht]
        rw [if_pos (by simpa using ht)]
        simp only [h2, if_true, Prog.alone]
        cases (st.heap r).conn <;> rfl
      · have h2 : (st.heap r).shouldClear clk.ms = false := by simp [Device.shouldClear, hs]; omega
        rw [if_neg (by simpa using ht)]
        simp only [h2, Bool.false_eq_true, if_false, Prog.alone]; rfl
    · rw [if_pos hs]
      simp only [progExpired, Prog.read, Prog.alone]
      by_cases ht : clk.ms > (st.heap r).keepalive + (st.heap r).last
      · have h1 : (st.heap r).shouldTurnOffline clk.ms = true := by simp [Device.shouldTurnOffline, hs, ht]
        rw [if_pos (by simpa using ht)]
        simp only [h1, if_true]
        rfl
      · have h1 : (st.heap r).shouldTurnOffline clk.ms = false := by simp [Device.shouldTurnOffline, hs]; omega
        have h2 : (st.heap r).shouldClear clk.ms = false := by simp [Device.shouldClear, hs]
        rw [if_neg (by simpa using ht)]
        simp only [h1, h2, Bool.false_eq_true, if_false, Prog.alone]
        rw [if_neg hs]
        rfl

/-! ### What holds in every interleaving -/

/-- Both indexes are filed under the right keys and nothing a handler relies on is missing. -/
structure CInv (st : Store) : Prop where
  phoneOK : ∀ p r, st.byPhone.get p = some r → r < st.next ∧ (st.heap r).phone = p
  plateOK : ∀ q r, st.byPlate.get q = some r → r < st.next ∧ (st.heap r).plate = q
  conn : ∀ r, r < st.next → (st.heap r).conn.isSome
  rings : ∀ p rb, st.geos.get p = some rb → RingOK rb
  params : ∀ p q, st.params.get p = some q → q.phone = p

theorem CInv.empty : CInv Store.empty where
  phoneOK := by intro p r h; cases h
  plateOK := by intro p r h; cases h
  conn := by intro r h; exact absurd h (Nat.not_lt_zero _)
  rings := by intro p r h; cases h
  params := by intro p r h; cases h

theorem StoreInv.toCInv {st : Store} (h : StoreInv st) (hc : ∀ r, r < st.next → (st.heap r).conn.isSome) : CInv st :=
  ⟨fun p r hr => ⟨(h.phoneOK p r hr).1, (h.phoneOK p r hr).2.1⟩,
   fun p r hr => ⟨(h.plateOK p r hr).1, (h.plateOK p r hr).2.1⟩, hc, h.rings, fun p q hq => (h.params p q hq).1⟩

/-- Devices are created and keep their identity. -/
structure Grows (st st' : Store) : Prop where
  next : st.next ≤ st'.next
  ident : ∀ r, r < st.next → SameIdent (st.heap r) (st'.heap r)

theorem Grows.refl (st : Store) : Grows st st := ⟨Nat.le_refl _, fun _ _ => SameIdent.refl _⟩

theorem Grows.trans {a b c : Store} (h : Grows a b) (h' : Grows b c) : Grows a c :=
  ⟨Nat.le_trans h.next h'.next, fun r hr => (h.ident r hr).trans (h'.ident r (Nat.lt_of_lt_of_le hr h.next))⟩

/-- What a goroutine for the phone `p` may do: nothing to the device, the index entry, the locations or the keepalive
jobs of another phone.  Devices it creates satisfy `N`. -/
structure Own (N : Device → Prop) (p : Str) (st st' : Store) : Prop extends Grows st st' where
  fresh : ∀ r, st.next ≤ r → r < st'.next → N (st'.heap r)
  index : ∀ q, q ≠ p → st'.byPhone.get q = st.byPhone.get q
  dev : ∀ r, r < st.next → (st.heap r).phone ≠ p → st'.heap r = st.heap r
  geos : ∀ q, q ≠ p → st'.geos.get q = st.geos.get q
  jobs : ∀ q, q ≠ p → st'.jobs.count q = st.jobs.count q

theorem Own.refl (N : Device → Prop) (p : Str) (st : Store) : Own N p st st :=
  ⟨Grows.refl _, fun _ h h' => absurd h' (Nat.not_lt.2 h), fun _ _ => rfl, fun _ _ _ => rfl, fun _ _ => rfl, fun _ _ => rfl⟩

/-- A goroutine for phone `p` that keeps to `Own`, whatever the others do in between, and ends with `Q`. -/
def Prog.Safe (Q : Store → Res (Option Out) → Prop) (N : Device → Prop) (p : Str) : Store → Prog → Prop
  | st, .ret r => ∀ st', Grows st st' → Q st' r
  | st, .step f k => ∀ clk st', Grows st st' → CInv st' →
      Own N p st' (f clk st') ∧ CInv (f clk st') ∧ Prog.Safe Q N p (f clk st') (k clk st')

theorem Prog.Safe.mono {Q : Store → Res (Option Out) → Prop} {N : Device → Prop} {p : Str} {st st' : Store} (hg : Grows st st') :
    ∀ {q : Prog}, q.Safe Q N p st → q.Safe Q N p st'
  | .ret _, h => fun st2 h2 => h st2 (hg.trans h2)
  | .step _ _, h => fun clk st2 h2 hi => h clk st2 (hg.trans h2) hi

variable {Q : Store → Res (Option Out) → Prop} {N : Device → Prop} {p : Str} {st : Store}

/-- A device pointer held by a goroutine. -/
def Held (p : Str) (st : Store) (r : Ref) : Prop := r < st.next ∧ (st.heap r).phone = p

theorem Held.mono {r : Ref} {st' : Store} (h : Held p st r) (hg : Grows st st') : Held p st' r :=
  ⟨Nat.lt_of_lt_of_le h.1 hg.next, (hg.ident r h.1).phone.trans h.2⟩

theorem safe_read {α : Type} (g : Clock → Store → α) (k : α → Prog)
    (h : ∀ clk, ∀ st', Grows st st' → CInv st' → (k (g clk st')).Safe Q N p st') : (Prog.read g k).Safe Q N p st :=
  fun clk st' hg hi => ⟨Own.refl _ _ _, hi, h clk st' hg hi⟩

theorem safe_get (ph : Str) (k : Option Ref → Prog)
    (h0 : ∀ st', Grows st st' → CInv st' → st'.devByPhone ph = none → (k none).Safe Q N p st')
    (h1 : ∀ r, ∀ st', Grows st st' → CInv st' → st'.devByPhone ph = some r → Held ph st' r → (k (some r)).Safe Q N p st') :
    (Prog.get ph k).Safe Q N p st := by
  intro clk st' hg hi
  refine ⟨Own.refl _ _ _, hi, ?_⟩
  cases hd : st'.devByPhone ph with
  | none => simp only [hd]; exact h0 st' hg hi hd
  | some r => simp only [hd]; exact h1 r st' hg hi hd (hi.phoneOK _ _ hd)

theorem safe_put {r : Ref} (g : Clock → Device → Device) (next : Prog) (hr : Held p st r)
    (hs : ∀ clk d, SameIdent d (g clk d)) (h : ∀ st', Grows st st' → CInv st' → next.Safe Q N p st') :
    (Prog.put r g next).Safe Q N p st := by
  intro clk st' hg hi
  have hr' := hr.mono hg
  have hid : ∀ x, SameIdent (st'.heap x) ((st'.setDev r (g clk (st'.heap r))).heap x) :=
    SameIdent.setDev (hs clk (st'.heap r))
  have hgr : Grows st' (st'.setDev r (g clk (st'.heap r))) := ⟨Nat.le_refl _, fun x _ => hid x⟩
  have hi' : CInv (st'.setDev r (g clk (st'.heap r))) :=
    ⟨fun q x hx => ⟨(hi.phoneOK q x hx).1, (hid x).phone.trans (hi.phoneOK q x hx).2⟩,
     fun q x hx => ⟨(hi.plateOK q x hx).1, (hid x).plate.trans (hi.plateOK q x hx).2⟩,
     fun x hx => by rw [(hid x).conn]; exact hi.conn x hx, hi.rings, hi.params⟩
  refine ⟨⟨hgr, fun _ h h' => absurd h' (Nat.not_lt.2 h), fun _ _ => rfl, fun x _ hx => ?_, fun _ _ => rfl, fun _ _ => rfl⟩, hi', h _ (hg.trans hgr) hi'⟩
  by_cases hxr : x = r
  · subst hxr; exact absurd hr'.2 hx
  · exact Store.setDev_heap_ne _ _ hxr

/-- A step that leaves devices alone. -/
theorem safe_upd (f : Store → Store) (next : Prog)
    (hf : ∀ st', Grows st st' → CInv st' → (f st').next = st'.next ∧ (f st').heap = st'.heap ∧ CInv (f st') ∧
      (∀ q, q ≠ p → (f st').byPhone.get q = st'.byPhone.get q) ∧ (∀ q, q ≠ p → (f st').geos.get q = st'.geos.get q) ∧
      ∀ q, q ≠ p → (f st').jobs.count q = st'.jobs.count q)
    (h : ∀ st', Grows st st' → CInv st' → next.Safe Q N p st') : (Prog.upd f next).Safe Q N p st := by
  intro clk st' hg hi
  obtain ⟨e1, e2, e3, e4, e5, e6⟩ := hf st' hg hi
  have hgr : Grows st' (f st') := ⟨Nat.le_of_eq e1.symm, fun x _ => by rw [e2]; exact SameIdent.refl _⟩
  exact ⟨⟨hgr, fun _ h h' => absurd (e1 ▸ h') (Nat.not_lt.2 h), e4, fun x _ _ => by rw [e2], e5, e6⟩, e3, h _ (hg.trans hgr) e3⟩

theorem safe_cache {r : Ref} (next : Prog) (hr : Held p st r) (h : ∀ st', Grows st st' → CInv st' → next.Safe Q N p st') :
    (Prog.upd (·.cacheDevice r) next).Safe Q N p st := by
  refine safe_upd _ _ (fun st' hg hi => ?_) h
  have hr' := hr.mono hg
  refine ⟨rfl, rfl, ⟨fun q x hx => ?_, fun q x hx => ?_, hi.conn, hi.rings, hi.params⟩, fun q hq => ?_, fun _ _ => rfl,
    fun _ _ => rfl⟩
  · simp only [Store.cacheDevice, AMap.get_set] at hx
    split at hx
    · rename_i hq; cases hx; exact ⟨hr'.1, hq.symm⟩
    · exact hi.phoneOK q x hx
  · simp only [Store.cacheDevice, AMap.get_set] at hx
    split at hx
    · rename_i hq; cases hx; exact ⟨hr'.1, hq.symm⟩
    · exact hi.plateOK q x hx
  · simp only [Store.cacheDevice, AMap.get_set, hr'.2]
    rw [if_neg hq]

theorem CInv.del {st : Store} (hi : CInv st) (p q : Str) :
    CInv { st with byPlate := st.byPlate.del q, byPhone := st.byPhone.del p } := by
  refine ⟨fun a x hx => ?_, fun a x hx => ?_, hi.conn, hi.rings, hi.params⟩
  · simp only [AMap.get_del] at hx
    split at hx
    · cases hx
    · exact hi.phoneOK a x hx
  · simp only [AMap.get_del] at hx
    split at hx
    · cases hx
    · exact hi.plateOK a x hx

theorem del_facts {st' : Store} (hi : CInv st') (ph : Str) (hph : ph = p) :
    (st'.delByPhone ph).next = st'.next ∧ (st'.delByPhone ph).heap = st'.heap ∧ CInv (st'.delByPhone ph) ∧
      (∀ q, q ≠ p → (st'.delByPhone ph).byPhone.get q = st'.byPhone.get q) ∧
      (∀ q, q ≠ p → (st'.delByPhone ph).geos.get q = st'.geos.get q) ∧
      ∀ q, q ≠ p → (st'.delByPhone ph).jobs.count q = st'.jobs.count q := by
  subst hph
  cases hd : st'.byPhone.get ph with
  | none =>
    have e : st'.delByPhone ph = st' := by unfold Store.delByPhone; rw [hd]
    rw [e]; exact ⟨rfl, rfl, hi, fun _ _ => rfl, fun _ _ => rfl, fun _ _ => rfl⟩
  | some r =>
    obtain ⟨-, hp⟩ := hi.phoneOK _ _ hd
    rw [Store.delByPhone_eq hd hp]
    refine ⟨rfl, rfl, hi.del _ _, fun q hq => ?_, fun _ _ => rfl, fun _ _ => rfl⟩
    exact AMap.get_del_ne _ hq

theorem cancel_count (js : List Str) {p q : Str} (h : q ≠ p) :
    (js.filter (fun x => decide (x ≠ p))).count q = js.count q := by
  rw [List.count_filter]
  simpa using h

theorem cancel_facts {st' : Store} (hi : CInv st') (ph : Str) (hph : ph = p) :
    (st'.cancelJob ph).next = st'.next ∧ (st'.cancelJob ph).heap = st'.heap ∧ CInv (st'.cancelJob ph) ∧
      (∀ q, q ≠ p → (st'.cancelJob ph).byPhone.get q = st'.byPhone.get q) ∧
      (∀ q, q ≠ p → (st'.cancelJob ph).geos.get q = st'.geos.get q) ∧
      ∀ q, q ≠ p → (st'.cancelJob ph).jobs.count q = st'.jobs.count q := by
  subst hph
  exact ⟨rfl, rfl, ⟨hi.phoneOK, hi.plateOK, hi.conn, hi.rings, hi.params⟩, fun _ _ => rfl, fun _ _ => rfl,
    fun q hq => cancel_count _ hq⟩

/-- Cancelling the job and deleting the device. -/
theorem safe_drop {r : Ref} (next : Prog) (hr : Held p st r) (h : ∀ st', Grows st st' → CInv st' → next.Safe Q N p st') :
    (Prog.upd (fun st => st.cancelJob (st.heap r).phone) <|
      .upd (fun st => st.delByPhone (st.heap r).phone) next).Safe Q N p st :=
  safe_upd _ _ (fun _ hg hi => cancel_facts hi _ (hr.mono hg).2) fun _ hg _ =>
    safe_upd _ _ (fun _ hg' hi => del_facts hi _ ((hr.mono hg).mono hg').2) fun _ hg' hi => h _ (hg.trans hg') hi

theorem safe_ret {r : Res (Option Out)} (h : ∀ st', Grows st st' → Q st' r) : (Prog.ret r).Safe Q N p st := h

/-! ### The handlers -/

/-- The phone a goroutine works for. -/
def Task.phone : Task → Str
  | .msg _ h _ => h.phone
  | .check phone => phone

/-- What devices a goroutine creates. -/
def Task.Makes (t : Task) (d : Device) : Prop :=
  match t with
  | .msg c h (.m0100 m) => d.phone = h.phone ∧ d.plate = m.plate ∧ d.id = m.deviceID ∧ d.conn = some c ∧
      d.sessionID = c.addr ∧ d.ver = h.attr.verDesc ∧ d.protoVer = h.protoVer ∧ d.keepalive = 60000
  | _ => False

/-- What is known when a goroutine has returned. -/
def Task.Post (env : Env) (t : Task) (st : Store) (r : Res (Option Out)) : Prop :=
  match t with
  | .msg c h (.m0100 m) => r ≠ .panic ∧ ∀ code, r = .ok (some (gen8100 h 0 code)) →
      ∃ x, Held h.phone st x ∧ (st.heap x).plate = m.plate ∧ (st.heap x).id = m.deviceID ∧ (st.heap x).conn = some c ∧
        (st.heap x).code = code
  | .msg _ h (.m0102 m) => r ≠ .panic ∧ (r = .ok (some (gen8001 h 0)) →
      ∃ x, Held h.phone st x ∧ (st.heap x).code = m.code)
  | .msg _ h .m8104 => r = .panic → fixedDecode env h.phone = .panic
  | .msg _ _ _ => r ≠ .panic
  | .check _ => True

theorem SameIdent.code {d d' : Device} (h : SameIdent d d') : d'.code = d.code := by
  unfold Device.code; rw [h.id, h.plate, h.phone]

theorem gen8100_injective {h : Header} {r r' : UInt8} {code code' : Str} (e : gen8100 h r code = gen8100 h r' code') :
    r = r' ∧ code = code' := by
  simp only [gen8100, Prod.mk.injEq, Msg.m8100.injEq, RegisterAck.mk.injEq] at e
  exact ⟨e.2.2.1, e.2.2.2⟩

theorem gen8001_injective {h : Header} {r r' : UInt8} (e : gen8001 h r = gen8001 h r') : r = r' := by
  simp only [gen8001, Prod.mk.injEq, Msg.m8001.injEq, GeneralAck.mk.injEq] at e
  exact e.2.2.2

theorem safe0002 (h : Header) (hQ : ∀ st r, r ≠ .panic → Q st r) : (prog0002 h).Safe Q N h.phone st := by
  refine safe_get _ _ (fun st' _ _ _ => safe_ret fun _ _ => hQ _ _ (by simp)) (fun r st' _ _ _ hr => ?_)
  refine safe_put _ _ hr (fun _ _ => ⟨rfl, rfl, rfl, rfl, rfl, rfl, rfl, rfl⟩) fun st2 hg _ => ?_
  exact safe_cache _ (hr.mono hg) fun _ _ _ => safe_ret fun _ _ => hQ _ _ (by simp)

theorem safe0003 (h : Header) (hQ : ∀ st r, r ≠ .panic → Q st r) : (prog0003 h).Safe Q N h.phone st := by
  refine safe_get _ _ (fun st' _ _ _ => safe_ret fun _ _ => hQ _ _ (by simp)) (fun r st' _ _ _ hr => ?_)
  exact safe_drop _ hr fun _ _ _ => safe_ret fun _ _ => hQ _ _ (by simp)

theorem safeTimer (ph : Str) (next : Prog) (h : ∀ st', Grows st st' → CInv st' → next.Safe Q N ph st') :
    (progTimer ph next).Safe Q N ph st := by
  refine safe_get _ _ (fun st' hg hi _ => h st' hg hi) (fun r st' hg _ _ hr => ?_)
  refine safe_upd _ _ (fun st2 _ hi => ⟨rfl, rfl, ⟨hi.phoneOK, hi.plateOK, hi.conn, hi.rings, hi.params⟩,
    fun _ _ => rfl, fun _ _ => rfl, fun q hq => ?_⟩) fun st2 hg' hi => h st2 (hg.trans hg') hi
  simp only [List.count_append]
  have : List.count q [ph] = 0 := by rw [List.count_eq_zero]; simpa using hq
  omega

theorem alloc_facts {st' : Store} (hi : CInv st') (d : Device) (hc : d.conn.isSome) (hN : N d) :
    Own N p st' (st'.alloc d).1 ∧ CInv (st'.alloc d).1 ∧ (st'.alloc d).1.heap st'.next = d := by
  have hne : ∀ {r}, r < st'.next → (st'.alloc d).1.heap r = st'.heap r := by
    intro r hr; simp only [Store.alloc]; rw [if_neg (Nat.ne_of_lt hr)]
  refine ⟨⟨⟨by simp [Store.alloc], fun r hr => by rw [hne hr]; exact SameIdent.refl _⟩, fun r h h' => ?_, fun _ _ => rfl,
    fun r hr _ => hne hr, fun _ _ => rfl, fun _ _ => rfl⟩, ⟨fun q r hr => ?_, fun q r hr => ?_, fun r hr => ?_, hi.rings,
    hi.params⟩, by simp [Store.alloc]⟩
  · have : r = st'.next := Nat.le_antisymm (Nat.le_of_lt_succ h') h
    subst this
    simpa [Store.alloc] using hN
  · obtain ⟨a, b⟩ := hi.phoneOK q r hr
    exact ⟨Nat.lt_succ_of_lt a, by rw [hne a]; exact b⟩
  · obtain ⟨a, b⟩ := hi.plateOK q r hr
    exact ⟨Nat.lt_succ_of_lt a, by rw [hne a]; exact b⟩
  · by_cases hx : r = st'.next
    · simp only [Store.alloc, hx, if_true]; exact hc
    · have : r < st'.next := Nat.lt_of_le_of_ne (Nat.le_of_lt_succ hr) hx
      rw [hne this]; exact hi.conn r this

theorem safe0100 (env : Env) (c : Conn) (h : Header) (m : Register) :
    (prog0100 c h m).Safe ((Task.msg c h (.m0100 m)).Post env) (Task.msg c h (.m0100 m)).Makes h.phone st := by
  have refused : ∀ (a : UInt8) (st : Store), a ≠ 0 →
      (Prog.ret (.ok (some (gen8100 h a placeholderCode)))).Safe ((Task.msg c h (.m0100 m)).Post env) (Task.msg c h (.m0100 m)).Makes h.phone st := by
    intro a st ha
    refine safe_ret fun _ _ => ⟨by simp, fun code e => ?_⟩
    simp only [Res.ok.injEq, Option.some.injEq] at e
    exact absurd (gen8100_injective e).1 ha
  refine safe_read _ _ fun clk st1 _ _ => ?_
  split
  · exact refused 1 st1 (by decide)
  · refine safe_read _ _ fun clk st2 _ _ => ?_
    split
    · exact refused 3 st2 (by decide)
    · intro clk st3 _ hi3
      obtain ⟨a1, a2, a3⟩ := alloc_facts (p := h.phone) (N := (Task.msg c h (.m0100 m)).Makes) hi3
        (Device.new clk c h m) rfl ⟨rfl, rfl, rfl, rfl, rfl, rfl, rfl, rfl⟩
      have hr : Held h.phone (st3.alloc (Device.new clk c h m)).1 st3.next :=
        ⟨by simp [Store.alloc], by rw [a3]; rfl⟩
      refine ⟨a1, a2, safe_cache _ hr fun st4 hg4 _ => safeTimer _ _ fun st5 hg5 _ => safe_ret fun st6 hg6 => ?_⟩
      refine ⟨by simp, fun code e => ?_⟩
      simp only [Res.ok.injEq, Option.some.injEq] at e
      have hg := (hg4.trans hg5).trans hg6
      have hid := hg.ident st3.next hr.1
      rw [a3] at hid
      exact ⟨st3.next, hr.mono hg, hid.plate, hid.id, hid.conn, by rw [hid.code]; exact (gen8100_injective e).2⟩

theorem safe0102 (env : Env) (c : Conn) (h : Header) (m : AuthMsg) :
    (prog0102 h m).Safe ((Task.msg c h (.m0102 m)).Post env) N h.phone st := by
  refine safe_get _ _ (fun st' _ _ _ => safe_ret fun _ _ => ⟨by simp, fun e => by simp at e⟩)
    (fun r st1 _ _ _ hr => ?_)
  refine safe_read _ _ fun clk st2 hg2 hi2 => ?_
  have hr2 := hr.mono hg2
  split
  · refine safe_drop _ hr2 fun _ _ _ => safe_ret fun _ _ => ⟨by simp, fun e => ?_⟩
    simp only [Res.ok.injEq, Option.some.injEq] at e
    exact absurd (gen8001_injective e) (by decide)
  · rename_i hc
    have hcode : m.code = (st2.heap r).code := by simpa using hc
    refine safe_put _ _ hr2 (fun _ _ => ⟨rfl, rfl, rfl, rfl, rfl, rfl, rfl, rfl⟩) fun st3 hg3 _ => ?_
    refine safe_put _ _ (hr2.mono hg3) (fun _ _ => ⟨rfl, rfl, rfl, rfl, rfl, rfl, rfl, rfl⟩) fun st4 hg4 _ => ?_
    refine safe_put _ _ ((hr2.mono hg3).mono hg4) (fun _ _ => ⟨rfl, rfl, rfl, rfl, rfl, rfl, rfl, rfl⟩)
      fun st5 hg5 _ => ?_
    refine safe_put _ _ (((hr2.mono hg3).mono hg4).mono hg5) (fun _ _ => ⟨rfl, rfl, rfl, rfl, rfl, rfl, rfl, rfl⟩)
      fun st6 hg6 _ => ?_
    refine safe_put _ _ ((((hr2.mono hg3).mono hg4).mono hg5).mono hg6)
      (fun _ _ => ⟨rfl, rfl, rfl, rfl, rfl, rfl, rfl, rfl⟩) fun st7 hg7 _ => ?_
    refine safe_cache _ (((((hr2.mono hg3).mono hg4).mono hg5).mono hg6).mono hg7) fun st8 hg8 _ => ?_
    refine safe_ret fun st9 hg9 => ⟨by simp, fun _ => ?_⟩
    have hg := (((((hg3.trans hg4).trans hg5).trans hg6).trans hg7).trans hg8).trans hg9
    exact ⟨r, hr2.mono hg, by rw [(hg.ident r hr2.1).code, hcode]⟩

theorem safeGeo (h : Header) {r : Ref} (hr : Held h.phone st r) (dg : DeviceGeo)
    (hQ : ∀ st r, r ≠ .panic → Q st r) : (progGeo h r dg).Safe Q N h.phone st := by
  intro clk st' hg hi
  have hr' := hr.mono hg
  obtain ⟨rb, rb', -, -, ok', e⟩ := Store.writeGeo_ok hi.rings h.phone dg
  simp only [hr'.2, e]
  refine ⟨⟨⟨Nat.le_refl _, fun _ _ => SameIdent.refl _⟩, fun _ h h' => absurd h' (Nat.not_lt.2 h), fun _ _ => rfl,
    fun _ _ _ => rfl, fun q hq => ?_, fun _ _ => rfl⟩,
    ⟨hi.phoneOK, hi.plateOK, hi.conn, fun q x hx => ?_, hi.params⟩, safe_ret fun _ _ => hQ _ _ (by simp)⟩
  · exact AMap.get_set_ne _ _ hq
  · simp only [AMap.get_set] at hx
    split at hx
    · cases hx; exact ok'
    · exact hi.rings q x hx

theorem safe0200 (h : Header) (m : LocMsg) (hQ : ∀ st r, r ≠ .panic → Q st r) : (prog0200 h m).Safe Q N h.phone st := by
  refine safe_get _ _ (fun st' _ _ _ => safe_ret fun _ _ => hQ _ _ (by simp)) (fun r st' _ _ _ hr => ?_)
  refine safe_read _ _ fun clk st2 hg2 _ => ?_
  have hr2 := hr.mono hg2
  split
  · refine safe_put _ _ hr2 (fun _ _ => ⟨rfl, rfl, rfl, rfl, rfl, rfl, rfl, rfl⟩) fun st3 hg3 _ => ?_
    refine safe_put _ _ (hr2.mono hg3) (fun _ _ => ⟨rfl, rfl, rfl, rfl, rfl, rfl, rfl, rfl⟩) fun st4 hg4 _ => ?_
    exact safe_cache _ ((hr2.mono hg3).mono hg4) fun st5 hg5 _ => safeGeo h (((hr2.mono hg3).mono hg4).mono hg5) _ hQ
  · exact safeGeo h hr2 _ hQ

theorem safe8001 (h : Header) (m : GeneralAck) (hQ : ∀ st r, r ≠ .panic → Q st r) :
    (prog8001 h m).Safe Q N h.phone st := by
  unfold prog8001
  split
  · refine safe_get _ _ (fun st' _ _ _ => safe_ret fun _ _ => hQ _ _ (by simp)) (fun r st' _ _ _ hr => ?_)
    refine safe_read _ _ fun clk st2 hg2 _ => ?_
    have hr2 := hr.mono hg2
    split
    · exact safe_ret fun _ _ => hQ _ _ (by simp)
    · refine safe_put _ _ hr2 (fun _ _ => ⟨rfl, rfl, rfl, rfl, rfl, rfl, rfl, rfl⟩) fun st3 hg3 _ => ?_
      refine safe_put _ _ (hr2.mono hg3) (fun _ _ => ⟨rfl, rfl, rfl, rfl, rfl, rfl, rfl, rfl⟩) fun st4 hg4 _ => ?_
      exact safe_cache _ ((hr2.mono hg3).mono hg4) fun st5 hg5 _ => safe_ret fun _ _ => hQ _ _ (by simp)
  · exact safe_ret fun _ _ => hQ _ _ (by simp)

theorem safe8100 (h : Header) (m : RegisterAck) (hQ : ∀ st r, r ≠ .panic → Q st r) :
    (prog8100 h m).Safe Q N h.phone st := by
  refine safe_get _ _ (fun st' _ _ _ => safe_ret fun _ _ => hQ _ _ (by simp)) (fun r st' _ _ _ _ => ?_)
  exact safe_read _ _ fun _ _ _ _ => safe_read _ _ fun _ _ _ _ => safe_ret fun _ _ => hQ _ _ (by simp)

theorem safe_params (q : DeviceParams) (next : Prog) (h : ∀ st', Grows st st' → CInv st' → next.Safe Q N p st') :
    (Prog.upd (·.cacheParams q) next).Safe Q N p st := by
  refine safe_upd _ _ (fun st2 _ hi => ⟨rfl, rfl, ⟨hi.phoneOK, hi.plateOK, hi.conn, hi.rings, fun a b hx => ?_⟩,
    fun _ _ => rfl, fun _ _ => rfl, fun _ _ => rfl⟩) h
  simp only [Store.cacheParams, AMap.get_set] at hx
  split at hx
  · rename_i ha; cases hx; exact ha.symm
  · exact hi.params a b hx

theorem safe8103 (h : Header) (m : SetParams) (hQ : ∀ st r, r ≠ .panic → Q st r) :
    (prog8103 h m).Safe Q N h.phone st :=
  safe_read _ _ fun _ _ _ _ => safe_params _ _ fun _ _ _ => safe_ret fun _ _ => hQ _ _ (by simp)

theorem safe8104 (env : Env) (h : Header) (hQ : ∀ st r, (r = .panic → fixedDecode env h.phone = .panic) → Q st r) :
    (prog8104 env h).Safe Q N h.phone st := by
  refine safe_read _ _ fun clk st' _ _ => ?_
  cases st'.paramsOf h.phone with
  | some q => exact safe_ret fun _ _ => hQ _ _ (by simp)
  | none =>
    simp only
    cases hf : fixedDecode env h.phone with
    | ok q => exact safe_params _ _ fun _ _ _ => safe_ret fun _ _ => hQ _ _ (by simp)
    | err e => exact safe_ret fun _ _ => hQ _ _ (by simp)
    | panic => exact safe_ret fun _ _ => hQ _ _ (fun _ => hf)

theorem safeExpired {r : Ref} (yes no : Prog) (h1 : ∀ st', Grows st st' → CInv st' → yes.Safe Q N p st')
    (h2 : ∀ st', Grows st st' → CInv st' → no.Safe Q N p st') : (progExpired r yes no).Safe Q N p st := by
  refine safe_read _ _ fun clk st' hg hi => ?_
  split
  · exact h1 st' hg hi
  · exact h2 st' hg hi

/-- What a check does once it has found its device: it does not panic. -/
theorem safeFound {r : Ref} (phone : Str) (hQ : ∀ st r, r ≠ .panic → Q st r) (hr : Held phone st r)  :
    (progFound phone r).Safe Q N phone st := by
  have ok : ∀ st : Store, (Prog.ret (.ok none)).Safe Q N phone st := fun _ => safe_ret fun _ _ => hQ _ _ (by simp)
  have clear : ∀ st', Grows st st' → CInv st' → (progClear phone r).Safe Q N phone st' := by
    intro st1 hg1 _
    refine safe_read _ _ fun clk st2 hg2 _ => ?_
    split
    · refine safeExpired _ _ (fun st3 hg3 _ => ?_) fun _ _ _ => ok _
      refine safe_read _ _ fun clk st4 hg4 hi4 => ?_
      have hr4 := hr.mono (((hg1.trans hg2).trans hg3).trans hg4)
      have hc := hi4.conn r hr4.1
      cases hcn : (st4.heap r).conn with
      | none => rw [hcn] at hc; cases hc
      | some c =>
        refine safe_upd _ _ (fun st5 _ hi => ⟨rfl, rfl, ⟨hi.phoneOK, hi.plateOK, hi.conn, hi.rings, hi.params⟩,
          fun _ _ => rfl, fun _ _ => rfl, fun _ _ => rfl⟩) fun st5 _ _ => ?_
        refine safe_upd _ _ (fun st6 _ hi => del_facts hi phone rfl) fun st6 _ _ => ?_
        refine safe_upd _ _ (fun st7 _ hi => ⟨rfl, rfl, ⟨hi.phoneOK, hi.plateOK, hi.conn, fun q x hx => ?_, hi.params⟩,
          fun _ _ => rfl, fun q hq => AMap.get_del_ne _ hq, fun _ _ => rfl⟩) fun st7 _ _ => ?_
        · simp only [Store.delGeo, AMap.get_del] at hx
          split at hx
          · cases hx
          · exact hi.rings q x hx
        · exact safe_upd _ _ (fun st8 _ hi => cancel_facts hi phone rfl) fun _ _ _ => ok _
    · exact ok _
  refine safe_read _ _ fun clk st' hg hi => ?_
  split
  · refine safeExpired _ _ (fun st2 hg2 _ => ?_) fun st2 hg2 hi2 => clear st2 (hg.trans hg2) hi2
    have hr2 := hr.mono (hg.trans hg2)
    refine safe_put _ _ hr2 (fun _ _ => ⟨rfl, rfl, rfl, rfl, rfl, rfl, rfl, rfl⟩) fun st3 hg3 _ => ?_
    exact safe_cache _ (hr2.mono hg3) fun _ _ _ => ok _
  · exact clear st' hg hi

theorem safeCheck (phone : Str) (hQ : ∀ st r, Q st r) : (progCheck phone).Safe Q N phone st := by
  refine safe_get _ _ (fun st' _ _ _ => ?_) (fun r st' _ _ _ hr => safeFound phone (fun _ _ _ => hQ _ _) hr)
  exact safe_upd _ _ (fun _ _ hi => cancel_facts hi phone rfl) fun _ _ _ => safe_ret fun _ _ => hQ _ _

/-- Every goroutine keeps to its own phone and ends as described, whatever runs besides it. -/
theorem task_safe (env : Env) (t : Task) (st : Store) : (t.prog env).Safe (t.Post env) t.Makes t.phone st := by
  cases t with
  | check phone => exact safeCheck phone fun _ _ => trivial
  | msg c h m =>
    cases m with
    | m0001 m => exact safe_ret fun _ _ => by simp [Task.Post]
    | m0104 m => exact safe_ret fun _ _ => by simp [Task.Post]
    | m1205 m => exact safe_ret fun _ _ => by simp [Task.Post]
    | m9205 m => exact safe_ret fun _ _ => by simp [Task.Post]
    | m0002 => exact safe0002 h fun _ _ hr => hr
    | m0003 => exact safe0003 h fun _ _ hr => hr
    | m0100 m => exact safe0100 env c h m
    | m0102 m => exact safe0102 env c h m
    | m0200 m => exact safe0200 h m fun _ _ hr => hr
    | m8001 m => exact safe8001 h m fun _ _ hr => hr
    | m8100 m => exact safe8100 h m fun _ _ hr => hr
    | m8103 m => exact safe8103 h m fun _ _ hr => hr
    | m8104 => exact safe8104 env h fun _ _ hr => hr

/-- Every interleaving keeps the invariant, and every goroutine is safe in it. -/
structure CSys.OK (env : Env) (s : CSys) : Prop where
  inv : CInv s.st
  safe : ∀ (i : Nat) (t : Task) (q : Prog), s.threads[i]? = some (t, q) → q.Safe (t.Post env) t.Makes t.phone s.st

theorem ok_step {env : Env} {s : CSys} (h : s.OK env) (e : CEv) :
    (s.step env e).OK env ∧ Grows s.st (s.step env e).st := by
  cases e with
  | spawn t =>
    simp only [CSys.step]
    split
    · refine ⟨⟨h.inv, fun i t' q hq => ?_⟩, Grows.refl _⟩
      simp only [List.getElem?_append] at hq
      split at hq
      · exact h.safe i t' q hq
      · rw [List.getElem?_singleton] at hq
        split at hq
        · cases hq; exact task_safe env _ _
        · cases hq
    · exact ⟨h, Grows.refl _⟩
  | run i clk =>
    simp only [CSys.step]
    cases hi : s.threads[i]? with
    | none => exact ⟨h, Grows.refl _⟩
    | some tp =>
      obtain ⟨t, q⟩ := tp
      have hs := h.safe i t q hi
      simp only
      have key : CInv (q.next clk s.st).1 ∧ Grows s.st (q.next clk s.st).1 ∧
          (q.next clk s.st).2.Safe (t.Post env) t.Makes t.phone (q.next clk s.st).1 := by
        cases q with
        | ret r => exact ⟨h.inv, Grows.refl _, hs⟩
        | step f k =>
          obtain ⟨a, b, c⟩ := hs clk s.st (Grows.refl _) h.inv
          exact ⟨b, a.toGrows, c⟩
      refine ⟨⟨key.1, fun j t' q' hj => ?_⟩, key.2.1⟩
      simp only [List.getElem?_set] at hj
      split at hj
      · split at hj
        · cases hj; exact key.2.2
        · cases hj
      · exact (h.safe j t' q' hj).mono key.2.1

theorem ok_run {env : Env} {s : CSys} (h : s.OK env) (evs : List CEv) :
    (s.run env evs).OK env ∧ Grows s.st (s.run env evs).st := by
  induction evs generalizing s with
  | nil => exact ⟨h, Grows.refl _⟩
  | cons e evs ih =>
    obtain ⟨a, b⟩ := ok_step h e
    obtain ⟨c, d⟩ := ih a
    exact ⟨c, b.trans d⟩

theorem ok_start (env : Env) : CSys.start.OK env := ⟨CInv.empty, fun i t q h => by simp [CSys.start] at h⟩

theorem ok_fresh (env : Env) {st : Store} (h : CInv st) : CSys.OK env ⟨st, []⟩ := ⟨h, fun i t q h => by simp at h⟩

end JT808
