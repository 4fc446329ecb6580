import Verif.Proof.Demo
/-
C31, C32, C45, C62: the registry of terminals.
-/
namespace JT808
open Spec

/-! ## C31 the two indexes -/

/-- After any history, whatever a lookup by phone returns has that phone and is found under its plate too, as the same
object, and the other way round. -/
theorem C31_indexes_agree (env : Env) (st : Store) (h : Reachable env st) :
    (∀ p r, st.devByPhone p = some r → (st.heap r).phone = p ∧ st.devByPlate (st.heap r).plate = some r) ∧
    (∀ q r, st.devByPlate q = some r → (st.heap r).plate = q ∧ st.devByPhone (st.heap r).phone = some r) :=
  ⟨fun p r hr => (h.inv.phoneOK p r hr).2, fun q r hr => (h.inv.plateOK q r hr).2⟩

/-- No two registered terminals share a plate. -/
theorem C31_plates_unique (env : Env) (st : Store) (h : Reachable env st) (p p' : Str) (d d' : Device)
    (h1 : st.look p = some d) (h2 : st.look p' = some d') (hq : d.plate = d'.plate) : p = p' := by
  obtain ⟨r, hr, rfl⟩ := Store.look_some.1 h1
  obtain ⟨r', hr', rfl⟩ := Store.look_some.1 h2
  obtain ⟨-, a, b⟩ := h.inv.phoneOK _ _ hr
  obtain ⟨-, a', b'⟩ := h.inv.phoneOK _ _ hr'
  rw [hq, b'] at b; injection b with b; subst b
  exact a.symm.trans a'

/-- A terminal is found by phone iff it is found by plate. -/
theorem C31_same_devices (env : Env) (st : Store) (h : Reachable env st) (d : Device) :
    (∃ p, st.look p = some d) ↔ ∃ q, st.lookPlate q = some d := by
  constructor
  · rintro ⟨p, hp⟩
    obtain ⟨r, hr, rfl⟩ := Store.look_some.1 hp
    exact ⟨_, Store.lookPlate_some.2 ⟨r, (h.inv.phoneOK _ _ hr).2.2, rfl⟩⟩
  · rintro ⟨q, hq⟩
    obtain ⟨r, hr, rfl⟩ := Store.lookPlate_some.1 hq
    exact ⟨_, Store.look_some.2 ⟨r, (h.inv.plateOK _ _ hr).2.2, rfl⟩⟩

example : Reachable goEnv demoSys.st ∧ (demoSys.st.look (hdr2013 0).phone).isSome ∧
    demoSys.st.lookPlate demoRegMsg.plate = demoSys.st.look (hdr2013 0).phone :=
  ⟨demo_reachable, by decide +kernel, by decide +kernel⟩

/-! ## C32 registration -/

/-- What a registration leaves alone besides the registry. -/
structure SameRest (st st' : Store) : Prop where
  geos : st'.geos = st.geos
  params : st'.params = st.params
  segs : st'.segs = st.segs
  sessions : st'.sessions = st.sessions
  serial : st'.serial = st.serial
  closed : st'.closed = st.closed

/-- A registration for a plate that is taken is refused with result 1 and changes nothing at all. -/
theorem C32_plate_taken (env : Env) (clk : Clock) (c : Conn) (st : Store) (frame : List UInt8) (h : Header) (m : Register)
    (hh : Holds env clk.civil frame h (.m0100 m)) (ht : (st.lookPlate m.plate).isSome) :
    st.handleFrame env clk c frame = (st, .reply (registerReply h 1 placeholderCode)) := by
  rw [hh.handle]
  simp only [Store.handle, process0100]
  have : st.hasPlate m.plate = true := by
    unfold Store.hasPlate; unfold Store.lookPlate at ht; simpa using ht
  rw [if_pos this]
  exact finish_gen8100 env st h 1 _

/-- A registration for a free plate and a phone that is taken is refused with result 3 and changes nothing at all. -/
theorem C32_phone_taken (env : Env) (clk : Clock) (c : Conn) (st : Store) (frame : List UInt8) (h : Header) (m : Register)
    (hh : Holds env clk.civil frame h (.m0100 m)) (hf : st.lookPlate m.plate = none) (ht : (st.look h.phone).isSome) :
    st.handleFrame env clk c frame = (st, .reply (registerReply h 3 placeholderCode)) := by
  rw [hh.handle]
  simp only [Store.handle, process0100]
  have h1 : ¬ (st.hasPlate m.plate = true) := by
    unfold Store.hasPlate; unfold Store.lookPlate at hf; simp at hf; simp [hf]
  have h2 : st.hasPhone h.phone = true := by
    unfold Store.hasPhone; unfold Store.look at ht; simpa using ht
  rw [if_neg h1, if_pos h2]
  exact finish_gen8100 env st h 3 _

/-- A registration for a free plate and a free phone succeeds with result 0: the terminal is stored offline under this
phone and plate, owned by this connection; nobody else's entry changes. -/
theorem C32_free (env : Env) (clk : Clock) (c : Conn) (st : Store) (hr : Reachable env st) (frame : List UInt8)
    (h : Header) (m : Register) (hh : Holds env clk.civil frame h (.m0100 m)) (hf : st.lookPlate m.plate = none)
    (hp : st.look h.phone = none) :
    ∃ st' code d, st.handleFrame env clk c frame = (st', .reply (registerReply h 0 code)) ∧
      (∀ p, st'.look p = if p = h.phone then some d else st.look p) ∧
      (∀ q, st'.lookPlate q = if q = m.plate then some d else st.lookPlate q) ∧
      d.phone = h.phone ∧ d.plate = m.plate ∧ d.id = m.deviceID ∧ d.status = .offline ∧ d.last = clk.ms ∧
      d.conn = some c ∧ d.sessionID = c.addr ∧ d.ver = h.attr.verDesc ∧ d.protoVer = h.protoVer ∧
      SameRest st st' := by
  have h1 : ¬ (st.hasPlate m.plate = true) := by
    unfold Store.hasPlate; unfold Store.lookPlate at hf; simp at hf; simp [hf]
  have h2 : ¬ (st.hasPhone h.phone = true) := by
    unfold Store.hasPhone; unfold Store.look at hp; simp at hp; simp [hp]
  refine ⟨st.register (Device.new clk c h m), (Device.new clk c h m).code, Device.new clk c h m, ?_, ?_, ?_, rfl, rfl, rfl,
    rfl, rfl, rfl, rfl, rfl, rfl, ⟨rfl, rfl, rfl, rfl, rfl, rfl⟩⟩
  · rw [hh.handle]
    simp only [Store.handle, process0100]
    rw [if_neg h1, if_neg h2]
    rw [Store.register_eq]
    exact finish_gen8100 env _ h 0 _
  · exact look_register hr.inv _
  · exact lookPlate_register hr.inv _

/-- So a registration takes effect exactly if both are free. -/
theorem C32_success_iff (env : Env) (clk : Clock) (c : Conn) (st : Store) (hr : Reachable env st) (frame : List UInt8)
    (h : Header) (m : Register) (hh : Holds env clk.civil frame h (.m0100 m)) :
    ((st.handleFrame env clk c frame).1.look h.phone ≠ st.look h.phone ↔
      st.lookPlate m.plate = none ∧ st.look h.phone = none) := by
  cases hf : st.lookPlate m.plate with
  | some d => rw [C32_plate_taken env clk c st frame h m hh (by simp [hf])]; simp
  | none =>
    cases hp : st.look h.phone with
    | some d => rw [C32_phone_taken env clk c st frame h m hh hf (by simp [hp])]; simp [hp]
    | none =>
      obtain ⟨st', code, d, e1, e2, -⟩ := C32_free env clk c st hr frame h m hh hf hp
      rw [e1]; simp [e2]

-- free, plate taken, phone taken: all three occur
example : Holds goEnv (demoClk 1000).civil demoReg ((hdr2013 0x0100).withBodyLength 41) (.m0100 demoRegMsg) ∧
    Store.empty.lookPlate demoRegMsg.plate = none ∧ Store.empty.look (hdr2013 0).phone = none ∧
    Reachable goEnv Store.empty := ⟨demoReg_holds _, rfl, rfl, ⟨[], rfl⟩⟩
example : (demoSys.st.lookPlate demoRegMsg.plate).isSome := by decide +kernel
example : demoSys.st.lookPlate [0x42] = none ∧ (demoSys.st.look (hdr2013 0).phone).isSome := by decide +kernel

/-! ## C45 keepalive jobs -/

/-- After any history every registered phone has exactly one keepalive job and every job is of a registered phone. -/
theorem C45_jobs (env : Env) (st : Store) (h : Reachable env st) :
    (∀ p, (st.look p).isSome → st.jobs.count p = 1) ∧ (∀ p, p ∈ st.jobs → (st.look p).isSome) := by
  have hi := h.inv
  have key : ∀ p, (st.look p).isSome ↔ (st.byPhone.get p).isSome := by
    intro p; unfold Store.look Store.devByPhone; simp
  refine ⟨?_, ?_⟩
  · intro p hp
    rw [hi.jobsNodup.count, if_pos ((hi.jobs p).2 ((key p).1 hp))]
  · intro p hp
    exact (key p).2 ((hi.jobs p).1 hp)

example : demoSys.st.jobs = [(hdr2013 0).phone] := by decide +kernel

/-! ## C62 the listing -/

/-- The listing has each registered terminal exactly once and nothing else: no phone appears twice, and a device is
listed iff a lookup of its phone returns it. -/
theorem C62_listing (env : Env) (st : Store) (h : Reachable env st) :
    (st.apiList.1.map (·.phone)).Nodup ∧ ∀ d, d ∈ st.apiList.1 ↔ st.look d.phone = some d := by
  have hi := h.inv
  unfold Store.apiList
  simp only
  have hm : st.listDevice.map (·.phone) = st.byPhone.keys := by
    unfold Store.listDevice AMap.keys
    rw [List.map_map]
    apply List.map_congr_left
    intro e he
    have := (AMap.mem_iff_get hi.nodupPhone e.1 e.2).1 he
    exact (hi.phoneOK _ _ this).2.1
  refine ⟨by rw [hm]; exact hi.nodupPhone, ?_⟩
  intro d
  unfold Store.listDevice
  rw [List.mem_map]
  constructor
  · rintro ⟨e, he, rfl⟩
    have := (AMap.mem_iff_get hi.nodupPhone e.1 e.2).1 he
    exact Store.look_some.2 ⟨e.2, by rw [(hi.phoneOK _ _ this).2.1]; exact this, rfl⟩
  · intro hd
    obtain ⟨r, hr, he⟩ := Store.look_some.1 hd
    exact ⟨(d.phone, r), (AMap.mem_iff_get hi.nodupPhone _ _).2 hr, he⟩

/-- The listing is as long as the number of registered phones. -/
theorem C62_length (env : Env) (st : Store) (h : Reachable env st) : st.apiList.1.length = st.jobs.length := by
  have hi := h.inv
  unfold Store.apiList
  simp only
  have h1 : st.listDevice.length = st.byPhone.keys.length := by simp [Store.listDevice, AMap.keys]
  have h2 : ∀ p, p ∈ st.byPhone.keys ↔ p ∈ st.jobs := by
    intro p
    rw [hi.jobs p]
    have := AMap.get_none_iff st.byPhone p
    cases hx : st.byPhone.get p with
    | none => rw [hx] at this; simp [this.1 rfl]
    | some r => rw [hx] at this; simpa using (fun hn => by cases this.2 hn : ¬ p ∉ st.byPhone.keys)
  rw [h1]
  apply Nat.le_antisymm
  · exact hi.nodupPhone.length_le_of_subset (fun p hp => (h2 p).1 hp)
  · exact hi.jobsNodup.length_le_of_subset (fun p hp => (h2 p).2 hp)

example : demoSys.st.apiList.1.length = 1 ∧ demoSys.st.apiList.2 = 200 := by decide +kernel

end JT808
