import Verif.Props.Total
/-
For C164: what the sequential server answers to the frames of a terminal does not depend on the clock, on the connection, or
on anything else the server knows.
-/
namespace JT808
open Spec

/-! ### Decoding -/

/-- Two readers that fail alike and move the cursor alike. -/
def RdSim {α β : Type} (a : Rd α) (b : Rd β) : Prop := ∀ s i,
  (∃ x y k, a s i = .ok (x, k) ∧ b s i = .ok (y, k)) ∨ (∃ e, a s i = .err e ∧ b s i = .err e) ∨ (a s i = .panic ∧ b s i = .panic)

theorem rdSim_refl {α : Type} (a : Rd α) : RdSim a a := by
  intro s i
  cases h : a s i with
  | ok x => exact .inl ⟨x.1, x.1, x.2, rfl, rfl⟩
  | err e => exact .inr (.inl ⟨e, rfl, rfl⟩)
  | panic => exact .inr (.inr ⟨rfl, rfl⟩)

theorem rdSim_pure {α β : Type} (x : α) (y : β) : RdSim (pure x : Rd α) (pure y : Rd β) := fun _ i => .inl ⟨x, y, i, rfl, rfl⟩

theorem rdSim_bind {α β α' β' : Type} {a : Rd α} {b : Rd β} {k : α → Rd α'} {k' : β → Rd β'} (h : RdSim a b)
    (hk : ∀ x y, RdSim (k x) (k' y)) : RdSim (a >>= k) (b >>= k') := by
  intro s i
  rw [rd_bind_eq, rd_bind_eq]
  rcases h s i with ⟨x, y, j, h1, h2⟩ | ⟨e, h1, h2⟩ | ⟨h1, h2⟩ <;> rw [h1, h2]
  · exact hk x y s j
  · exact .inr (.inl ⟨e, rfl, rfl⟩)
  · exact .inr (.inr ⟨rfl, rfl⟩)

theorem readTime_sim (now now' : Civil) : RdSim (readTime now) (readTime now') :=
  rdSim_bind (rdSim_refl _) fun _ _ => rdSim_pure _ _

theorem media_sim (now now' : Civil) : RdSim (MediaQuery.decode now) (MediaQuery.decode now') :=
  rdSim_bind (rdSim_refl _) fun _ _ => rdSim_bind (readTime_sim _ _) fun _ _ => rdSim_bind (readTime_sim _ _) fun _ _ =>
    rdSim_bind (rdSim_refl _) fun _ _ => rdSim_bind (rdSim_refl _) fun _ _ => rdSim_bind (rdSim_refl _) fun _ _ =>
      rdSim_bind (rdSim_refl _) fun _ _ => rdSim_bind (rdSim_refl _) fun _ _ => rdSim_pure _ _

theorem onRest_sim {α β : Type} {a : Rd α} {b : Rd β} (h : RdSim a b) : RdSim (Rd.onRest a) (Rd.onRest b) := by
  intro s i
  unfold Rd.onRest
  cases s.from' i with
  | err e => exact .inr (.inl ⟨e, rfl, rfl⟩)
  | panic => exact .inr (.inr ⟨rfl, rfl⟩)
  | ok s' =>
    rcases h s' 0 with ⟨x, y, j, h1, h2⟩ | ⟨e, h1, h2⟩ | ⟨h1, h2⟩ <;> simp only [h1, h2]
    · exact .inl ⟨x, y, i + j, rfl, rfl⟩
    · exact .inr (.inl ⟨e, rfl, rfl⟩)
    · exact .inr (.inr ⟨trivial, trivial⟩)

theorem medialist_sim (now now' : Civil) : RdSim (MediaList.decode now) (MediaList.decode now') :=
  rdSim_bind (rdSim_refl _) fun _ _ => rdSim_bind (rdSim_refl _) fun _ _ => rdSim_bind (onRest_sim (rdSim_bind (media_sim _ _)
    fun _ _ => rdSim_bind (rdSim_refl _) fun _ _ => rdSim_pure _ _)) fun _ _ => rdSim_pure _ _

/-! ### What the server knows of a terminal -/

namespace Spec

/-- Two records of a device that differ at most in the connection and in the time it was last heard of. -/
structure Alike (d d' : Device) : Prop where
  id : d.id = d'.id
  plate : d.plate = d'.plate
  phone : d.phone = d'.phone
  keepalive : d.keepalive = d'.keepalive
  status : d.status = d'.status
  ver : d.ver = d'.ver
  protoVer : d.protoVer = d'.protoVer
  authCode : d.authCode = d'.authCode
  imei : d.imei = d'.imei
  software : d.software = d'.software

/-- Two servers know the same of a phone: neither has a device for it, or both have and their records are alike. -/
def LooksAlike (p : Str) (st st' : Store) : Prop :=
  (st.look p = none ∧ st'.look p = none) ∨ ∃ d d', st.look p = some d ∧ st'.look p = some d' ∧ Alike d d'

end Spec

theorem Spec.Alike.code {d d' : Device} (h : Alike d d') : d.code = d'.code := by
  unfold Device.code; rw [h.id, h.plate, h.phone]

/-- What two servers must agree on. -/
structure View (p : Str) (P : Str → Prop) (st st' : Store) : Prop where
  dev : (st.devByPhone p = none ∧ st'.devByPhone p = none) ∨ ∃ r r', st.devByPhone p = some r ∧ st'.devByPhone p = some r' ∧
    Alike (st.heap r) (st'.heap r') ∧ (st.heap r).phone = p
  plates : ∀ pl, P pl → st.hasPlate pl = st'.hasPlate pl
  params : st.paramsOf p = st'.paramsOf p
  rings : ∀ q rb, st.geos.get q = some rb → RingOK rb
  rings' : ∀ q rb, st'.geos.get q = some rb → RingOK rb

variable {env : Env} {p : Str} {P : Str → Prop} {st st' : Store}

theorem View.looks (h : View p P st st') : LooksAlike p st st' := by
  rcases h.dev with ⟨a, b⟩ | ⟨r, r', a, b, c, -⟩
  · left; simp [Store.look, a, b]
  · right; exact ⟨_, _, by simp [Store.look, a], by simp [Store.look, b], c⟩

/-- Nothing of it changes with the sessions, the jobs and the connections. -/
theorem View.same (h : View p P st st') {s s' : Store} (h1 : s.heap = st.heap) (h2 : s.byPhone = st.byPhone)
    (h3 : s.byPlate = st.byPlate) (h4 : s.params = st.params) (h5 : s.geos = st.geos) (k1 : s'.heap = st'.heap)
    (k2 : s'.byPhone = st'.byPhone) (k3 : s'.byPlate = st'.byPlate) (k4 : s'.params = st'.params) (k5 : s'.geos = st'.geos) :
    View p P s s' := by
  obtain ⟨a, b, c, d, e⟩ := h
  refine ⟨?_, ?_, ?_, ?_, ?_⟩
  · simpa only [Store.devByPhone, h1, h2, k1, k2] using a
  · simpa only [Store.hasPlate, Store.devByPlate, h3, k3] using b
  · simpa only [Store.paramsOf, h4, k4] using c
  · simpa only [h5] using d
  · simpa only [k5] using e

theorem View.remove (h : View p P st st') (c c' : Conn) : View p P (st.remove c) (st'.remove c') :=
  h.same rfl rfl rfl rfl rfl rfl rfl rfl rfl rfl

/-- A device is changed and cached again. -/
theorem View.put (h : View p P st st') (r r' : Ref) {d d' : Device} (hd : Alike d d') (hp : d.phone = p) :
    View p P ((st.setDev r d).cacheDevice r) ((st'.setDev r' d').cacheDevice r') := by
  refine ⟨.inr ⟨r, r', ?_, ?_, ?_, ?_⟩, fun pl hpl => ?_, h.params, h.rings, h.rings'⟩
  · simp [Store.devByPhone, Store.cacheDevice, Store.setDev, hp, AMap.get_set_self]
  · simp [Store.devByPhone, Store.cacheDevice, Store.setDev, ← hd.phone, hp, AMap.get_set_self]
  · simpa [Store.cacheDevice, Store.setDev] using hd
  · simpa [Store.cacheDevice, Store.setDev] using hp
  · have := h.plates pl hpl
    simp only [Store.hasPlate, Store.devByPlate, Store.cacheDevice, Store.setDev, if_true, AMap.get_set, hd.plate] at this ⊢
    split
    · rfl
    · exact this

/-- A device is forgotten. -/
theorem View.gone (h : View p P st st') {r r' : Ref} (hr : st.devByPhone p = some r) (hr' : st'.devByPhone p = some r')
    (hd : Alike (st.heap r) (st'.heap r')) (hp : (st.heap r).phone = p) :
    View p P ((st.cancelJob p).delByPhone p) ((st'.cancelJob p).delByPhone p) := by
  have e : (st.cancelJob p).delByPhone p = { st.cancelJob p with byPlate := st.byPlate.del (st.heap r).plate, byPhone := st.byPhone.del p } := by
    unfold Store.delByPhone
    have : (st.cancelJob p).byPhone.get p = some r := hr
    rw [this]
    show { st.cancelJob p with byPlate := st.byPlate.del (st.heap r).plate, byPhone := st.byPhone.del (st.heap r).phone } = _
    rw [hp]
  have e' : (st'.cancelJob p).delByPhone p = { st'.cancelJob p with byPlate := st'.byPlate.del (st.heap r).plate, byPhone := st'.byPhone.del p } := by
    unfold Store.delByPhone
    have : (st'.cancelJob p).byPhone.get p = some r' := hr'
    rw [this]
    show { st'.cancelJob p with byPlate := st'.byPlate.del (st'.heap r').plate, byPhone := st'.byPhone.del (st'.heap r').phone } = _
    rw [← hd.phone, hp, hd.plate]
  rw [e, e']
  refine ⟨.inl ⟨?_, ?_⟩, fun pl hpl => ?_, h.params, h.rings, h.rings'⟩
  · simp [Store.devByPhone, AMap.get_del_self]
  · simp [Store.devByPhone, AMap.get_del_self]
  · have := h.plates pl hpl
    simp only [Store.hasPlate, Store.devByPlate, AMap.get_del] at this ⊢
    split
    · rfl
    · exact this

theorem View.cacheParams (h : View p P st st') (q : DeviceParams) : View p P (st.cacheParams q) (st'.cacheParams q) := by
  refine ⟨h.dev, h.plates, ?_, h.rings, h.rings'⟩
  have := h.params
  simp only [Store.paramsOf, Store.cacheParams, AMap.get_set] at this ⊢
  rw [this]

theorem View.writeGeo (h : View p P st st') (q q' : Str) (g g' : DeviceGeo) :
    View p P (st.writeGeo q g).1 (st'.writeGeo q' g').1 ∧ (st.writeGeo q g).2 = .ok () ∧ (st'.writeGeo q' g').2 = .ok () := by
  obtain ⟨_, rb, -, -, h1, h2⟩ := Store.writeGeo_ok h.rings q g
  obtain ⟨_, rb', -, -, h1', h2'⟩ := Store.writeGeo_ok h.rings' q' g'
  rw [h2, h2']
  refine ⟨⟨h.dev, h.plates, h.params, fun x y hx => ?_, fun x y hx => ?_⟩, rfl, rfl⟩
  · simp only [AMap.get_set] at hx
    split at hx
    · cases hx; exact h1
    · exact h.rings _ _ hx
  · simp only [AMap.get_set] at hx
    split at hx
    · cases hx; exact h1'
    · exact h.rings' _ _ hx

/-- A message is handled alike. -/
theorem View.handle (h : View p P st st') (clk clk' : Clock) (c c' : Conn) (hd : Header) (hp : hd.phone = p) (m : Msg)
    (hm : ∀ g, m = .m0100 g → P g.plate) :
    (st.handle env clk c hd m).2 = (st'.handle env clk' c' hd m).2 ∧
      View p P (st.handle env clk c hd m).1 (st'.handle env clk' c' hd m).1 := by
  subst hp
  cases m with
  | m0001 _ => exact ⟨rfl, h⟩
  | m0104 _ => exact ⟨by trivial, h⟩
  | m1205 _ => exact ⟨by trivial, h⟩
  | m9205 _ => exact ⟨by trivial, h⟩
  | m0002 =>
    simp only [Store.handle, process0002]
    rcases h.dev with ⟨a, b⟩ | ⟨r, r', a, b, e, hph⟩
    · simp only [a, b]; exact ⟨by trivial, h⟩
    · simp only [a, b]
      exact ⟨by trivial, h.put r r' ⟨e.id, e.plate, e.phone, e.keepalive, e.status, e.ver, e.protoVer, e.authCode, e.imei, e.software⟩ hph⟩
  | m0003 =>
    simp only [Store.handle, process0003]
    rcases h.dev with ⟨a, b⟩ | ⟨r, r', a, b, e, hph⟩
    · simp only [a, b]; exact ⟨by trivial, h⟩
    · simp only [a, b, ← e.phone, hph]
      exact ⟨by trivial, h.gone a b e hph⟩
  | m0100 g =>
    simp only [Store.handle, process0100]
    rw [h.plates _ (hm g rfl)]
    split
    · exact ⟨by trivial, h⟩
    · rename_i hpl
      rcases h.dev with ⟨a, b⟩ | ⟨r, r', a, b, e, hph⟩
      · simp only [Store.hasPhone, a, b, Option.isSome_none, Bool.false_eq_true, if_false]
        have key : View hd.phone P ((st.alloc (Device.new clk c hd g)).1.cacheDevice st.next)
            ((st'.alloc (Device.new clk' c' hd g)).1.cacheDevice st'.next) := by
          refine ⟨.inr ⟨st.next, st'.next, ?_, ?_, ?_, ?_⟩, fun pl hpl => ?_, h.params, h.rings, h.rings'⟩
          · simp [Store.devByPhone, Store.cacheDevice, Store.alloc, Device.new, AMap.get_set_self]
          · simp [Store.devByPhone, Store.cacheDevice, Store.alloc, Device.new, AMap.get_set_self]
          · simp only [Store.cacheDevice, Store.alloc, if_true]
            exact ⟨rfl, rfl, rfl, rfl, rfl, rfl, rfl, rfl, rfl, rfl⟩
          · simp [Store.cacheDevice, Store.alloc, Device.new]
          · have := h.plates pl hpl
            simp only [Store.hasPlate, Store.devByPlate, Store.cacheDevice, Store.alloc, if_true, Device.new, AMap.get_set] at this ⊢
            split
            · rfl
            · exact this
        have job : ∀ s : Store, (s.registerJob hd.phone).heap = s.heap ∧ (s.registerJob hd.phone).byPhone = s.byPhone ∧
            (s.registerJob hd.phone).byPlate = s.byPlate ∧ (s.registerJob hd.phone).params = s.params ∧
            (s.registerJob hd.phone).geos = s.geos := by
          intro s; unfold Store.registerJob; split <;> exact ⟨rfl, rfl, rfl, rfl, rfl⟩
        refine ⟨rfl, ?_⟩
        obtain ⟨a1, a2, a3, a4, a5⟩ := job ((st.alloc (Device.new clk c hd g)).1.cacheDevice st.next)
        obtain ⟨b1, b2, b3, b4, b5⟩ := job ((st'.alloc (Device.new clk' c' hd g)).1.cacheDevice st'.next)
        exact key.same a1 a2 a3 a4 a5 b1 b2 b3 b4 b5
      · simp only [Store.hasPhone, a, b, Option.isSome_some, if_true]
        exact ⟨by trivial, h⟩
  | m0102 g =>
    simp only [Store.handle, process0102]
    rcases h.dev with ⟨a, b⟩ | ⟨r, r', a, b, e, hph⟩
    · simp only [a, b]; exact ⟨by trivial, h⟩
    · simp only [a, b, ← e.phone, hph, ← e.code]
      split
      · exact ⟨by trivial, h.gone a b e hph⟩
      · exact ⟨by trivial, h.put r r' ⟨e.id, e.plate, e.phone, e.keepalive, rfl, e.ver, e.protoVer, rfl, rfl, rfl⟩ hph⟩
  | m0200 g =>
    simp only [Store.handle, process0200]
    rcases h.dev with ⟨a, b⟩ | ⟨r, r', a, b, e, hph⟩
    · simp only [a, b]; exact ⟨by trivial, h⟩
    · simp only [a, b]
      have hacc : (DeviceGeo.decode clk.civil (st.heap r).phone g).geo.acc = (DeviceGeo.decode clk'.civil (st'.heap r').phone g).geo.acc := rfl
      have fin : ∀ (s s' : Store), View hd.phone P s s' → ∀ q q' dg dg',
          (match s.writeGeo q dg with
            | (st, .ok _) => (st, Res.ok (some (gen8001 hd 0)))
            | (st, .err e) => (st, .err e)
            | (st, .panic) => (st, .panic)).2 = (match s'.writeGeo q' dg' with
            | (st, .ok _) => (st, Res.ok (some (gen8001 hd 0)))
            | (st, .err e) => (st, .err e)
            | (st, .panic) => (st, .panic)).2 ∧ View hd.phone P (match s.writeGeo q dg with
            | (st, .ok _) => (st, Res.ok (some (gen8001 hd 0)))
            | (st, .err e) => (st, .err e)
            | (st, .panic) => (st, .panic)).1 (match s'.writeGeo q' dg' with
            | (st, .ok _) => (st, Res.ok (some (gen8001 hd 0)))
            | (st, .err e) => (st, .err e)
            | (st, .panic) => (st, .panic)).1 := by
        intro s s' hs q q' dg dg'
        obtain ⟨h1, h2, h3⟩ := hs.writeGeo q q' dg dg'
        have e1 : s.writeGeo q dg = ((s.writeGeo q dg).1, .ok ()) := by rw [← h2]
        have e2 : s'.writeGeo q' dg' = ((s'.writeGeo q' dg').1, .ok ()) := by rw [← h3]
        rw [e1, e2]
        exact ⟨by trivial, h1⟩
      by_cases hz : (DeviceGeo.decode clk.civil (st.heap r).phone g).geo.acc = 0
      · rw [if_pos hz, if_pos (hacc.symm.trans hz)]
        exact fin _ _ (h.put r r' (d := (st.heap r).asleep clk) (d' := (st'.heap r').asleep clk') ⟨e.id, e.plate, e.phone, e.keepalive, rfl, e.ver, e.protoVer, e.authCode, e.imei, e.software⟩ hph) _ _ _ _
      · rw [if_neg hz, if_neg fun h => hz (hacc.trans h)]
        exact fin _ _ h _ _ _ _
  | m8001 g =>
    simp only [Store.handle, process8001]
    split
    · rcases h.dev with ⟨a, b⟩ | ⟨r, r', a, b, e, hph⟩
      · simp only [a, b]; exact ⟨by trivial, h⟩
      · simp only [a, b, ← e.status]
        split
        · exact ⟨by trivial, h⟩
        · exact ⟨by trivial, h.put r r' ⟨e.id, e.plate, e.phone, e.keepalive, rfl, e.ver, e.protoVer, e.authCode, e.imei, e.software⟩ hph⟩
    · exact ⟨by trivial, h⟩
  | m8100 g =>
    simp only [Store.handle, process8100]
    rcases h.dev with ⟨a, b⟩ | ⟨r, r', a, b, e, hph⟩
    · simp only [a, b]; exact ⟨by trivial, h⟩
    · simp only [a, b, e.imei, e.software]; exact ⟨by first | rfl | trivial, h⟩
  | m8103 g =>
    simp only [Store.handle, process8103, h.params]
    exact ⟨by first | rfl | trivial, h.cacheParams _⟩
  | m8104 =>
    simp only [Store.handle, process8104, h.params]
    cases st'.paramsOf hd.phone with
    | some q => exact ⟨by trivial, h⟩
    | none =>
      simp only
      cases fixedDecode env hd.phone with
      | ok q => exact ⟨by trivial, h.cacheParams _⟩
      | err e => exact ⟨by trivial, h⟩
      | panic => exact ⟨by trivial, h⟩

/-- A frame is answered alike. -/
theorem View.serveFrame (h : View p P st st') (clk clk' : Clock) (c c' : Conn) {f : List UInt8} (hw : Whole env f)
    (hf : ∀ now hd m, Holds env now f hd m → hd.phone = p ∧ (∀ g, m = .m0100 g → P g.plate) ∧ ∀ q, m ≠ .m9205 q) :
    (st.serveFrame env clk c none f).2.bytes = (st'.serveFrame env clk' c' none f).2.bytes ∧
      (st.serveFrame env clk c none f).2.ended = (st'.serveFrame env clk' c' none f).2.ended ∧
      View p P (st.serveFrame env clk c none f).1 (st'.serveFrame env clk' c' none f).1 := by
  have stop : ∀ {clk : Clock} {c : Conn}, received env clk.civil c f = none → ∀ st : Store,
      st.serveFrame env clk c none f = (st.remove c, ⟨none, true, none⟩) := fun h st => received_stop hw h st
  have same : (∀ m q, (∃ now, Holds env now f q m) → Holds env clk.civil f q m ∧ Holds env clk'.civil f q m ∨ ∃ x, m = .m1205 x) ∧
      ((received env clk.civil c f = none ∧ received env clk'.civil c' f = none) ∨
      (received env clk.civil c f = some none ∧ received env clk'.civil c' f = some none) ∨
      ∃ hd m m', received env clk.civil c f = some (some (.msg c hd m)) ∧
        received env clk'.civil c' f = some (some (.msg c' hd m')) ∧ (m = m' ∨ ((∃ x, m = .m1205 x) ∧ ∃ x, m' = .m1205 x) ∨
          ∃ x, m = .m9205 x)) := by
    have other : ∀ (t : MType) (hd : Header) (now now' : Civil), t ≠ .t1205 → t ≠ .t9205 → t.decode env now hd = t.decode env now' hd := by
      intro t hd now now' h1 h2
      cases t with
      | t1205 => exact absurd rfl h1
      | t9205 => exact absurd rfl h2
      | _ => rfl
    constructor
    · rintro m q ⟨now, hh⟩
      obtain ⟨pd, t, k, e1, e2, e3, e4, e5⟩ := id hh
      by_cases h1 : t = .t1205
      · subst h1
        right
        unfold MType.decode at e5
        obtain ⟨a, k, h1, h2⟩ := rd_bind_ok e5
        injection h2 with h2; injection h2 with h2 _
        exact ⟨a, h2.symm⟩
      · by_cases h2 : t = .t9205
        · subst h2
          unfold MType.decode at e5
          obtain ⟨a, k, h1, h2⟩ := rd_bind_ok e5
          injection h2 with h2; injection h2 with h2 _
          exact absurd h2.symm ((hf now q m hh).2.2 a)
        · left
          exact ⟨⟨pd, t, k, e1, e2, e3, e4, by rw [other t q _ now h1 h2]; exact e5⟩,
            ⟨pd, t, k, e1, e2, e3, e4, by rw [other t q _ now h1 h2]; exact e5⟩⟩
    · unfold received
      cases hdf : decodeFrame env f with
      | err e => simp only; split <;> simp
      | panic => simp
      | ok pd =>
        simp only [hw pd hdf, Bool.false_eq_true, if_false]
        cases ht : MType.ofID pd.header.msgID with
        | none => simp
        | some t =>
          simp only
          by_cases h1 : t = .t1205
          · subst h1
            have : RdSim (MType.decode env clk.civil pd.header .t1205) (MType.decode env clk'.civil pd.header .t1205) :=
              rdSim_bind (medialist_sim _ _) fun _ _ => rdSim_pure _ _
            have hm : ∀ {now : Civil} {m : Msg} {k : Nat}, MType.decode env now pd.header .t1205 pd.body 0 = .ok (m, k) → ∃ x, m = .m1205 x := by
              intro now m k e5
              unfold MType.decode at e5
              obtain ⟨a, k, h1, h2⟩ := rd_bind_ok e5
              injection h2 with h2; injection h2 with h2 _
              exact ⟨a, h2.symm⟩
            rcases this pd.body 0 with ⟨x, y, k, g1, g2⟩ | ⟨e, g1, g2⟩ | ⟨g1, g2⟩ <;> simp only [g1, g2]
            · exact .inr (.inr ⟨_, _, _, rfl, rfl, .inr (.inl ⟨hm g1, hm g2⟩)⟩)
            · split <;> simp
            · simp
          · by_cases h2 : t = .t9205
            · subst h2
              have : RdSim (MType.decode env clk.civil pd.header .t9205) (MType.decode env clk'.civil pd.header .t9205) :=
                rdSim_bind (media_sim _ _) fun _ _ => rdSim_pure _ _
              have hm : ∀ {now : Civil} {m : Msg} {k : Nat}, MType.decode env now pd.header .t9205 pd.body 0 = .ok (m, k) → ∃ x, m = .m9205 x := by
                intro now m k e5
                unfold MType.decode at e5
                obtain ⟨a, k, h1, h2⟩ := rd_bind_ok e5
                injection h2 with h2; injection h2 with h2 _
                exact ⟨a, h2.symm⟩
              rcases this pd.body 0 with ⟨x, y, k, g1, g2⟩ | ⟨e, g1, g2⟩ | ⟨g1, g2⟩ <;> simp only [g1, g2]
              · exact .inr (.inr ⟨_, _, _, rfl, rfl, .inr (.inr (hm g1))⟩)
              · split <;> simp
              · simp
            · rw [other t _ clk.civil clk'.civil h1 h2]
              cases t.decode env clk'.civil pd.header pd.body 0 with
              | err e => simp only; split <;> simp
              | panic => simp
              | ok x => exact .inr (.inr ⟨_, _, _, rfl, rfl, .inl rfl⟩)
  rcases same.2 with ⟨h1, h2⟩ | ⟨h1, h2⟩ | ⟨hd, m, m', h1, h2, h3⟩
  · rw [stop h1, stop h2]; exact ⟨rfl, rfl, h.remove c c'⟩
  · rw [received_skip h1, received_skip h2]; exact ⟨rfl, rfl, h⟩
  · obtain ⟨_, _, e1, hh⟩ := received_iff.1 h1
    cases e1
    obtain ⟨_, _, e2, hh'⟩ := received_iff.1 h2
    cases e2
    obtain ⟨q1, q2, q3⟩ := hf _ _ _ hh
    have key : (st.handle env clk c hd m).2 = (st'.handle env clk' c' hd m').2 ∧
        View p P (st.handle env clk c hd m).1 (st'.handle env clk' c' hd m').1 := by
      rcases h3 with rfl | ⟨⟨x, rfl⟩, y, rfl⟩ | ⟨x, rfl⟩
      · exact h.handle clk clk' c c' hd q1 m q2
      · exact ⟨rfl, h⟩
      · exact absurd rfl (q3 x)
    obtain ⟨a1, a2, a3⟩ := finish_serve (st' := (st.handle env clk c hd m).1) (r := (st.handle env clk c hd m).2) (hh.handle c st)
    obtain ⟨b1, b2, b3⟩ := finish_serve (st' := (st'.handle env clk' c' hd m').1) (r := (st'.handle env clk' c' hd m').2) (hh'.handle c' st')
    rw [a1, a2, a3, b1, b2, b3, key.1]
    refine ⟨rfl, rfl, ?_⟩
    split
    · exact key.2.remove c c'
    · exact key.2

/-- All frames are. -/
theorem View.serves (frames : List (List UInt8)) (clks clks' : List Clock) (c c' : Conn) (h : View p P st st')
    (hlen : clks.length = frames.length) (hlen' : clks'.length = frames.length)
    (hf : ∀ f ∈ frames, Whole env f ∧ ∀ now hd m, Holds env now f hd m →
      hd.phone = p ∧ (∀ g, m = .m0100 g → P g.plate) ∧ ∀ q, m ≠ .m9205 q) :
    (serves env c st (frames.zip clks)).2 = (serves env c' st' (frames.zip clks')).2 ∧
      View p P (serves env c st (frames.zip clks)).1 (serves env c' st' (frames.zip clks')).1 := by
  induction frames generalizing clks clks' st st' with
  | nil => exact ⟨rfl, h⟩
  | cons f frames ih =>
    cases clks with
    | nil => cases hlen
    | cons k clks =>
      cases clks' with
      | nil => cases hlen'
      | cons k' clks' =>
        obtain ⟨g1, g2⟩ := hf f List.mem_cons_self
        obtain ⟨a1, a2, a3⟩ := h.serveFrame k k' c c' g1 g2
        obtain ⟨b1, b2⟩ := ih clks clks' a3 (Nat.succ.inj hlen) (Nat.succ.inj hlen') fun f' hf' => hf f' (List.mem_cons_of_mem _ hf')
        simp only [List.zip_cons_cons, Spec.serves, a2]
        split
        · exact ⟨by rw [a1], a3⟩
        · exact ⟨by rw [a1, b1], b2⟩

end JT808
