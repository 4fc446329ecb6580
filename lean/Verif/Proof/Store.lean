import Verif.Model.Server
import Verif.Proof.Typed
/-
Lemmas about the maps and the primitive store operations.
-/
namespace JT808
variable {β : Type}

theorem AMap.get_cons (e : Str × β) (m : AMap β) (k : Str) :
    AMap.get (e :: m) k = if k = e.1 then some e.2 else AMap.get m k := by
  unfold AMap.get
  rw [List.lookup_cons]
  by_cases h : k = e.1
  · simp [h]
  · rw [if_neg h]
    have : (k == e.1) = false := by simpa using h
    rw [this]

@[simp] theorem AMap.get_nil (k : Str) : AMap.get ([] : AMap β) k = none := rfl

theorem AMap.get_set (m : AMap β) (k : Str) (v : β) (k' : Str) :
    (m.set k v).get k' = if k' = k then some v else m.get k' := by
  induction m with
  | nil => simp [AMap.set, AMap.get_cons]
  | cons e m ih =>
    unfold AMap.set
    by_cases h : e.1 = k
    · rw [if_pos h]; simp only [AMap.get_cons]; subst h
      by_cases h2 : k' = e.1 <;> simp [h2]
    · rw [if_neg h]; simp only [AMap.get_cons, ih]
      by_cases h2 : k' = e.1
      · subst h2; simp [h]
      · simp [h2]

theorem AMap.get_set_self (m : AMap β) (k : Str) (v : β) : (m.set k v).get k = some v := by
  simp [AMap.get_set]

theorem AMap.get_set_ne (m : AMap β) {k k' : Str} (v : β) (h : k' ≠ k) : (m.set k v).get k' = m.get k' := by
  simp [AMap.get_set, h]

theorem AMap.set_same {m : AMap β} {k : Str} {v : β} (h : m.get k = some v) : m.set k v = m := by
  induction m with
  | nil => simp at h
  | cons e m ih =>
    rw [AMap.get_cons] at h
    unfold AMap.set
    by_cases h2 : k = e.1
    · rw [if_pos h2] at h; injection h with h
      rw [if_pos h2.symm, h2, ← h]
    · rw [if_neg h2] at h
      rw [if_neg (fun x => h2 x.symm), ih h]

theorem AMap.get_del (m : AMap β) (k k' : Str) : (m.del k).get k' = if k' = k then none else m.get k' := by
  unfold AMap.del
  induction m with
  | nil => simp
  | cons e m ih =>
    by_cases h : e.1 = k
    · rw [List.filter_cons_of_neg (by simpa using h), ih, AMap.get_cons]
      by_cases h2 : k' = k
      · simp [h2]
      · simp [h2, h]
    · rw [List.filter_cons_of_pos (by simpa using h), AMap.get_cons, AMap.get_cons, ih]
      by_cases h2 : k' = e.1
      · subst h2; simp [h]
      · simp [h2]

theorem AMap.get_del_ne (m : AMap β) {k k' : Str} (h : k' ≠ k) : (m.del k).get k' = m.get k' := by
  simp [AMap.get_del, h]

theorem AMap.get_del_self (m : AMap β) (k : Str) : (m.del k).get k = none := by simp [AMap.get_del]

/-- The keys, in order. -/
def AMap.keys (m : AMap β) : List Str := m.map (·.1)

theorem AMap.get_none_iff (m : AMap β) (k : Str) : m.get k = none ↔ k ∉ m.keys := by
  induction m with
  | nil => simp [AMap.keys]
  | cons e m ih =>
    rw [AMap.get_cons]
    by_cases h : k = e.1
    · simp [h, AMap.keys]
    · rw [if_neg h, ih]; simp [AMap.keys, h]

theorem AMap.keys_set_of_some {m : AMap β} {k : Str} {v : β} (h : (m.get k).isSome) : (m.set k v).keys = m.keys := by
  induction m with
  | nil => simp at h
  | cons e m ih =>
    rw [AMap.get_cons] at h
    unfold AMap.set
    by_cases h2 : e.1 = k
    · rw [if_pos h2]; simp [AMap.keys, h2]
    · rw [if_neg h2]
      rw [if_neg (fun x => h2 x.symm)] at h
      have := ih h
      simp only [AMap.keys, List.map_cons] at this ⊢
      rw [this]

theorem AMap.keys_set_of_none {m : AMap β} {k : Str} {v : β} (h : m.get k = none) : (m.set k v).keys = m.keys ++ [k] := by
  induction m with
  | nil => simp [AMap.set, AMap.keys]
  | cons e m ih =>
    rw [AMap.get_cons] at h
    unfold AMap.set
    by_cases h2 : e.1 = k
    · rw [if_pos h2.symm] at h; cases h
    · rw [if_neg h2]
      rw [if_neg (fun x => h2 x.symm)] at h
      have := ih h
      simp only [AMap.keys, List.map_cons] at this ⊢
      rw [this]; rfl

theorem AMap.nodup_set {m : AMap β} (k : Str) (v : β) (h : m.keys.Nodup) : (m.set k v).keys.Nodup := by
  cases hg : m.get k with
  | some w => rw [AMap.keys_set_of_some (by simp [hg])]; exact h
  | none =>
    rw [AMap.keys_set_of_none hg]
    rw [List.nodup_append]
    refine ⟨h, by simp, ?_⟩
    intro a ha b hb
    simp at hb; subst hb
    intro hab; subst hab
    exact (AMap.get_none_iff m a).1 hg ha

theorem AMap.nodup_del {m : AMap β} (k : Str) (h : m.keys.Nodup) : (m.del k).keys.Nodup := by
  unfold AMap.del AMap.keys at *
  exact List.Nodup.sublist (List.Sublist.map _ List.filter_sublist) h

theorem AMap.mem_iff_get {m : AMap β} (h : m.keys.Nodup) (k : Str) (v : β) : (k, v) ∈ m ↔ m.get k = some v := by
  induction m with
  | nil => simp
  | cons e m ih =>
    have hn : (AMap.keys m).Nodup := by unfold AMap.keys at h ⊢; exact (List.nodup_cons.1 h).2
    have he : e.1 ∉ AMap.keys m := by unfold AMap.keys at h ⊢; exact (List.nodup_cons.1 h).1
    rw [AMap.get_cons, List.mem_cons, ih hn]
    by_cases h2 : k = e.1
    · rw [if_pos h2]
      constructor
      · rintro (h3 | h3)
        · rw [← h3]
        · exfalso
          have := (AMap.get_none_iff m k).2 (h2 ▸ he)
          rw [this] at h3; cases h3
      · intro h3; injection h3 with h3; left; rw [h2, ← h3]
    · rw [if_neg h2]
      constructor
      · rintro (h3 | h3)
        · exact absurd (by rw [← h3]) h2
        · exact h3
      · intro h3; right; exact h3

/-! ### Store operations -/

theorem Store.setDev_heap_self (st : Store) (r : Ref) (d : Device) : (st.setDev r d).heap r = d := by simp [Store.setDev]

theorem Store.setDev_heap_ne (st : Store) {r x : Ref} (d : Device) (h : x ≠ r) : (st.setDev r d).heap x = st.heap x := by
  simp [Store.setDev, h]

theorem Store.setDev_same (st : Store) (r : Ref) : st.setDev r (st.heap r) = st := by
  unfold Store.setDev
  have : (fun x => if x = r then st.heap r else st.heap x) = st.heap := by
    funext x; by_cases h : x = r <;> simp [h]
  rw [this]

/-- Caching a device that is already under its plate and phone changes nothing. -/
theorem Store.cacheDevice_same {st : Store} {r : Ref} (h1 : st.byPlate.get (st.heap r).plate = some r)
    (h2 : st.byPhone.get (st.heap r).phone = some r) : st.cacheDevice r = st := by
  unfold Store.cacheDevice
  rw [AMap.set_same h1, AMap.set_same h2]

/-- What stays of a ring in the location cache. -/
structure RingOK (rb : Ring DeviceGeo) : Prop where
  size : rb.size = ringCapacity
  len : rb.cont.length = ringCapacity
  wr : rb.writer < ringCapacity

theorem RingOK.new : RingOK (Ring.new ringCapacity) := ⟨rfl, by simp [Ring.new], by simp [Ring.new, ringCapacity]⟩

theorem RingOK.write {rb : Ring DeviceGeo} (h : RingOK rb) (v : Option DeviceGeo) :
    ∃ rb', rb.write v = .ok rb' ∧ RingOK rb' := by
  refine ⟨_, if_pos (by rw [h.len]; exact h.wr), ?_, ?_, ?_⟩
  · exact h.size
  · simpa using h.len
  · show (rb.writer + 1) % rb.size < _
    rw [h.size]; exact Nat.mod_lt _ (by decide)

theorem RingOK.latest {rb : Ring DeviceGeo} (h : RingOK rb) : ∃ v, rb.latest = .ok v := by
  unfold Ring.latest
  by_cases h0 : rb.writer = 0
  · exact ⟨none, if_pos h0⟩
  · rw [if_neg h0]
    have hlt : (rb.writer - 1) % rb.size < rb.cont.length := by
      rw [h.size, h.len]; exact Nat.mod_lt _ (by decide)
    refine ⟨rb.cont[(rb.writer - 1) % rb.size], ?_⟩
    unfold Ring.at
    rw [List.getElem?_eq_getElem hlt]

/-- The invariant of the stores. -/
structure StoreInv (st : Store) : Prop where
  phoneOK : ∀ p r, st.byPhone.get p = some r →
    r < st.next ∧ (st.heap r).phone = p ∧ st.byPlate.get (st.heap r).plate = some r
  plateOK : ∀ q r, st.byPlate.get q = some r →
    r < st.next ∧ (st.heap r).plate = q ∧ st.byPhone.get (st.heap r).phone = some r
  nodupPhone : st.byPhone.keys.Nodup
  nodupPlate : st.byPlate.keys.Nodup
  jobsNodup : st.jobs.Nodup
  jobs : ∀ p, p ∈ st.jobs ↔ (st.byPhone.get p).isSome
  conn : ∀ p r, st.byPhone.get p = some r → (st.heap r).conn.isSome
  keep : ∀ p r, st.byPhone.get p = some r → (st.heap r).keepalive = 60000
  rings : ∀ p rb, st.geos.get p = some rb → RingOK rb
  params : ∀ p q, st.params.get p = some q → q.phone = p ∧ q.Typed

theorem StoreInv.empty : StoreInv Store.empty where
  phoneOK := by intro p r h; cases h
  plateOK := by intro p r h; cases h
  nodupPhone := List.nodup_nil
  nodupPlate := List.nodup_nil
  jobsNodup := List.nodup_nil
  jobs := by intro p; simp [Store.empty]
  conn := by intro p r h; cases h
  keep := by intro p r h; cases h
  rings := by intro p r h; cases h
  params := by intro p r h; cases h

/-- Two stores with the same devices, jobs and locations. -/
structure SameDev (st st' : Store) : Prop where
  heap : st'.heap = st.heap
  next : st'.next = st.next
  byPlate : st'.byPlate = st.byPlate
  byPhone : st'.byPhone = st.byPhone
  jobs : st'.jobs = st.jobs

theorem SameDev.refl (st : Store) : SameDev st st := ⟨rfl, rfl, rfl, rfl, rfl⟩

theorem SameDev.trans {a b c : Store} (h : SameDev a b) (h' : SameDev b c) : SameDev a c :=
  ⟨h'.heap.trans h.heap, h'.next.trans h.next, h'.byPlate.trans h.byPlate, h'.byPhone.trans h.byPhone,
   h'.jobs.trans h.jobs⟩

theorem StoreInv.of_same {st st' : Store} (h : StoreInv st) (e : SameDev st st')
    (hr : ∀ p rb, st'.geos.get p = some rb → RingOK rb) (hq : ∀ p q, st'.params.get p = some q → q.phone = p ∧ q.Typed) :
    StoreInv st' where
  phoneOK := by rw [e.heap, e.next, e.byPlate, e.byPhone]; exact h.phoneOK
  plateOK := by rw [e.heap, e.next, e.byPlate, e.byPhone]; exact h.plateOK
  nodupPhone := by rw [e.byPhone]; exact h.nodupPhone
  nodupPlate := by rw [e.byPlate]; exact h.nodupPlate
  jobsNodup := by rw [e.jobs]; exact h.jobsNodup
  jobs := by rw [e.jobs, e.byPhone]; exact h.jobs
  conn := by rw [e.heap, e.byPhone]; exact h.conn
  keep := by rw [e.heap, e.byPhone]; exact h.keep
  rings := hr
  params := hq

/-- Same identity: what no handler changes in a device once it is created. -/
structure SameIdent (d d' : Device) : Prop where
  id : d'.id = d.id
  plate : d'.plate = d.plate
  phone : d'.phone = d.phone
  sessionID : d'.sessionID = d.sessionID
  conn : d'.conn = d.conn
  keepalive : d'.keepalive = d.keepalive
  ver : d'.ver = d.ver
  protoVer : d'.protoVer = d.protoVer

theorem SameIdent.refl (d : Device) : SameIdent d d := ⟨rfl, rfl, rfl, rfl, rfl, rfl, rfl, rfl⟩

theorem SameIdent.trans {a b c : Device} (h : SameIdent a b) (h' : SameIdent b c) : SameIdent a c :=
  ⟨h'.id.trans h.id, h'.plate.trans h.plate, h'.phone.trans h.phone, h'.sessionID.trans h.sessionID,
   h'.conn.trans h.conn, h'.keepalive.trans h.keepalive, h'.ver.trans h.ver, h'.protoVer.trans h.protoVer⟩

theorem SameIdent.setDev {st : Store} {r : Ref} {d : Device} (h : SameIdent (st.heap r) d) (x : Ref) :
    SameIdent (st.heap x) ((st.setDev r d).heap x) := by
  by_cases hx : x = r
  · subst hx; rw [Store.setDev_heap_self]; exact h
  · rw [Store.setDev_heap_ne _ _ hx]; exact SameIdent.refl _

theorem StoreInv.setDev {st : Store} (h : StoreInv st) {r : Ref} {d : Device} (hs : SameIdent (st.heap r) d) :
    StoreInv (st.setDev r d) where
  phoneOK := by
    intro p x hx
    obtain ⟨a, b, c⟩ := h.phoneOK p x hx
    have := hs.setDev x
    exact ⟨a, this.phone.trans b, by rw [this.plate]; exact c⟩
  plateOK := by
    intro p x hx
    obtain ⟨a, b, c⟩ := h.plateOK p x hx
    have := hs.setDev x
    exact ⟨a, this.plate.trans b, by rw [this.phone]; exact c⟩
  nodupPhone := h.nodupPhone
  nodupPlate := h.nodupPlate
  jobsNodup := h.jobsNodup
  jobs := h.jobs
  conn := by intro p x hx; rw [(hs.setDev x).conn]; exact h.conn p x hx
  keep := by intro p x hx; rw [(hs.setDev x).keepalive]; exact h.keep p x hx
  rings := h.rings
  params := h.params

/-- Changing a registered device and caching it again. -/
theorem StoreInv.touch {st : Store} (h : StoreInv st) {p : Str} {r : Ref} (hr : st.byPhone.get p = some r) {d : Device}
    (hs : SameIdent (st.heap r) d) : (st.setDev r d).cacheDevice r = st.setDev r d := by
  obtain ⟨-, b, c⟩ := h.phoneOK p r hr
  have := hs.setDev r
  refine Store.cacheDevice_same ?_ ?_
  · rw [this.plate]; exact c
  · rw [this.phone, b]; exact hr

theorem Store.delByPhone_eq {st : Store} {p : Str} {r : Ref} (hr : st.byPhone.get p = some r)
    (hp : (st.heap r).phone = p) :
    st.delByPhone p = { st with byPlate := st.byPlate.del (st.heap r).plate, byPhone := st.byPhone.del p } := by
  unfold Store.delByPhone
  rw [hr]; simp only [hp]

/-- Removing a registered device together with its job. -/
theorem StoreInv.drop {st : Store} (h : StoreInv st) {p : Str} {r : Ref} (hr : st.byPhone.get p = some r) :
    StoreInv ((st.cancelJob p).delByPhone p) := by
  obtain ⟨hlt, hp, hq⟩ := h.phoneOK p r hr
  have he : (st.cancelJob p).delByPhone p =
      { st.cancelJob p with byPlate := st.byPlate.del (st.heap r).plate, byPhone := st.byPhone.del p } :=
    Store.delByPhone_eq (st := st.cancelJob p) hr hp
  rw [he]
  refine ⟨?_, ?_, AMap.nodup_del _ h.nodupPhone, AMap.nodup_del _ h.nodupPlate, ?_, ?_, ?_, ?_, h.rings, h.params⟩
  · intro p' x hx
    simp only [Store.cancelJob] at hx ⊢
    rw [AMap.get_del] at hx
    by_cases hpp : p' = p
    · rw [if_pos hpp] at hx; cases hx
    · rw [if_neg hpp] at hx
      obtain ⟨a, b, c⟩ := h.phoneOK p' x hx
      refine ⟨a, b, ?_⟩
      rw [AMap.get_del_ne _ ?_]
      · exact c
      · intro hpl
        rw [hpl, hq] at c; injection c with c; subst c
        rw [hp] at b; exact hpp b.symm
  · intro q x hx
    simp only [Store.cancelJob] at hx ⊢
    rw [AMap.get_del] at hx
    by_cases hqq : q = (st.heap r).plate
    · rw [if_pos hqq] at hx; cases hx
    · rw [if_neg hqq] at hx
      obtain ⟨a, b, c⟩ := h.plateOK q x hx
      refine ⟨a, b, ?_⟩
      rw [AMap.get_del_ne _ ?_]
      · exact c
      · intro hph
        rw [hph, hr] at c; injection c with c; subst c
        exact hqq b.symm
  · exact List.Nodup.sublist List.filter_sublist h.jobsNodup
  · intro p'
    simp only [Store.cancelJob, List.mem_filter, AMap.get_del, h.jobs]
    by_cases hpp : p' = p
    · simp [hpp]
    · simp [hpp]
  · intro p' x hx
    simp only [Store.cancelJob] at hx ⊢
    rw [AMap.get_del] at hx
    by_cases hpp : p' = p
    · rw [if_pos hpp] at hx; cases hx
    · rw [if_neg hpp] at hx; exact h.conn p' x hx
  · intro p' x hx
    simp only [Store.cancelJob] at hx ⊢
    rw [AMap.get_del] at hx
    by_cases hpp : p' = p
    · rw [if_pos hpp] at hx; cases hx
    · rw [if_neg hpp] at hx; exact h.keep p' x hx

/-- The store after a successful registration. -/
def Store.register (st : Store) (d : Device) : Store :=
  { st with heap := fun x => if x = st.next then d else st.heap x
            next := st.next + 1
            byPlate := st.byPlate.set d.plate st.next
            byPhone := st.byPhone.set d.phone st.next
            jobs := st.jobs ++ [d.phone] }

theorem Store.register_eq (st : Store) (d : Device) :
    ((st.alloc d).1.cacheDevice (st.alloc d).2).registerJob d.phone = st.register d := by
  unfold Store.registerJob Store.devByPhone Store.cacheDevice Store.alloc
  simp [AMap.get_set_self, Store.register]

theorem StoreInv.register {st : Store} (h : StoreInv st) {d : Device} (hq : st.byPlate.get d.plate = none)
    (hp : st.byPhone.get d.phone = none) (hc : d.conn.isSome) (hk : d.keepalive = 60000) :
    StoreInv (st.register d) where
  phoneOK := by
    intro p r hr
    simp only [Store.register] at hr ⊢
    rw [AMap.get_set] at hr
    by_cases hpp : p = d.phone
    · rw [if_pos hpp] at hr; injection hr with hr; subst hr
      refine ⟨Nat.lt_succ_self _, by simp [hpp], by simp [AMap.get_set]⟩
    · rw [if_neg hpp] at hr
      obtain ⟨a, b, c⟩ := h.phoneOK p r hr
      have hne : r ≠ st.next := Nat.ne_of_lt a
      refine ⟨Nat.lt_succ_of_lt a, by simp [hne, b], ?_⟩
      simp only [hne, if_false]
      rw [AMap.get_set_ne _ _ ?_]
      · exact c
      · intro hpl; rw [hpl, hq] at c; cases c
  plateOK := by
    intro q r hr
    simp only [Store.register] at hr ⊢
    rw [AMap.get_set] at hr
    by_cases hqq : q = d.plate
    · rw [if_pos hqq] at hr; injection hr with hr; subst hr
      refine ⟨Nat.lt_succ_self _, by simp [hqq], by simp [AMap.get_set]⟩
    · rw [if_neg hqq] at hr
      obtain ⟨a, b, c⟩ := h.plateOK q r hr
      have hne : r ≠ st.next := Nat.ne_of_lt a
      refine ⟨Nat.lt_succ_of_lt a, by simp [hne, b], ?_⟩
      simp only [hne, if_false]
      rw [AMap.get_set_ne _ _ ?_]
      · exact c
      · intro hpl; rw [hpl, hp] at c; cases c
  nodupPhone := AMap.nodup_set _ _ h.nodupPhone
  nodupPlate := AMap.nodup_set _ _ h.nodupPlate
  jobsNodup := by
    simp only [Store.register]
    rw [List.nodup_append]
    refine ⟨h.jobsNodup, by simp, ?_⟩
    intro a ha b hb
    simp at hb; subst hb
    intro hab; subst hab
    have := (h.jobs _).1 ha
    rw [hp] at this; cases this
  jobs := by
    intro p
    simp only [Store.register, List.mem_append, List.mem_singleton, AMap.get_set, h.jobs]
    by_cases hpp : p = d.phone <;> simp [hpp]
  conn := by
    intro p r hr
    simp only [Store.register] at hr ⊢
    rw [AMap.get_set] at hr
    by_cases hpp : p = d.phone
    · rw [if_pos hpp] at hr; injection hr with hr; subst hr; simp [hc]
    · rw [if_neg hpp] at hr
      have hne : r ≠ st.next := Nat.ne_of_lt (h.phoneOK p r hr).1
      simp only [hne, if_false]; exact h.conn p r hr
  keep := by
    intro p r hr
    simp only [Store.register] at hr ⊢
    rw [AMap.get_set] at hr
    by_cases hpp : p = d.phone
    · rw [if_pos hpp] at hr; injection hr with hr; subst hr; simp [hk]
    · rw [if_neg hpp] at hr
      have hne : r ≠ st.next := Nat.ne_of_lt (h.phoneOK p r hr).1
      simp only [hne, if_false]; exact h.keep p r hr
  rings := h.rings
  params := h.params

theorem Store.geoRing_ok {st : Store} (h : ∀ p rb, st.geos.get p = some rb → RingOK rb) (phone : Str) :
    RingOK (st.geoRing phone).2 ∧ SameDev st (st.geoRing phone).1 ∧
      (∀ p rb, (st.geoRing phone).1.geos.get p = some rb → RingOK rb) := by
  unfold Store.geoRing
  cases hg : st.geos.get phone with
  | some rb => exact ⟨h _ _ hg, SameDev.refl _, h⟩
  | none =>
    refine ⟨RingOK.new, ⟨rfl, rfl, rfl, rfl, rfl⟩, ?_⟩
    intro p rb hp
    simp only at hp
    rw [AMap.get_set] at hp
    by_cases hpp : p = phone
    · rw [if_pos hpp] at hp; injection hp with hp; subst hp; exact RingOK.new
    · rw [if_neg hpp] at hp; exact h _ _ hp

/-- Writing a location never fails. -/
theorem Store.writeGeo_ok {st : Store} (h : ∀ p rb, st.geos.get p = some rb → RingOK rb) (phone : Str)
    (dg : DeviceGeo) :
    ∃ rb rb', (st.geos.get phone).getD (Ring.new ringCapacity) = rb ∧ rb.write (some dg) = .ok rb' ∧ RingOK rb' ∧
      st.writeGeo phone dg = ({ st with geos := st.geos.set phone rb' }, .ok ()) := by
  cases hg : st.geos.get phone with
  | some rb =>
    obtain ⟨rb', e1, e2⟩ := (h _ _ hg).write (some dg)
    refine ⟨rb, rb', rfl, e1, e2, ?_⟩
    unfold Store.writeGeo Store.geoRing
    simp [hg, e1]
  | none =>
    obtain ⟨rb', e1, e2⟩ := RingOK.new.write (some dg)
    refine ⟨_, rb', rfl, e1, e2, ?_⟩
    unfold Store.writeGeo Store.geoRing
    simp only [hg, e1]
    have : ∀ (m : AMap (Ring DeviceGeo)) (a b : Ring DeviceGeo), (m.set phone a).set phone b = m.set phone b := by
      intro m a b
      induction m with
      | nil => simp [AMap.set]
      | cons e m ih =>
        by_cases hk : e.1 = phone
        · simp [AMap.set, hk]
        · simp [AMap.set, hk, ih]
    rw [this]

end JT808
