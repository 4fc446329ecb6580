import Verif.Props.Replies
import Verif.Props.Params
/-
C26: set-parameters followed by query-parameters, as the message processor answers them.
-/
namespace JT808
open Spec

theorem handle_8103 {env : Env} {clk : Clock} (c : Conn) (st : Store) {frame : List UInt8} {h : Header} {m : SetParams}
    (hh : Holds env clk.civil frame h (.m8103 m)) :
    st.handleFrame env clk c frame =
      ({ st with params := st.params.set h.phone (match st.params.get h.phone with
          | none => m.params
          | some old => old.update id m.params) },
        .reply (answer h 0x0001 (ackBody h.serial.toNat h.msgID.toNat 0))) ∨
    (∃ old, st.params.get h.phone = some old ∧ old.phone ≠ h.phone) := by
  have hph : m.params.phone = h.phone := by
    obtain ⟨pd, t, j, -, -, -, -, e⟩ := hh
    exact (decode_8103_phone e).1
  cases ho : st.params.get h.phone with
  | none =>
    left
    rw [hh.handle]
    simp only [Store.handle, process8103, Store.paramsOf, ho, Store.cacheParams, hph]
    exact finish_gen0001 env _ h
  | some old =>
    by_cases hx : old.phone = h.phone
    · left
      rw [hh.handle]
      have hu : (old.update id m.params).phone = h.phone := hx
      simp only [Store.handle, process8103, Store.paramsOf, ho, Store.cacheParams, hu]
      exact finish_gen0001 env _ h
    · exact Or.inr ⟨old, rfl, hx⟩

/-- A query is answered with the stored parameters, if they can be encoded, and changes nothing. -/
theorem handle_8104 {env : Env} {clk : Clock} (c : Conn) (st : Store) {frame : List UInt8} {h : Header}
    (hh : Holds env clk.civil frame h .m8104) {p : DeviceParams} (hp : st.params.get h.phone = some p)
    {body : List UInt8} (hb : ParamsMsg.encode env ⟨h.serial, 0, some p⟩ = .ok body) :
    st.handleFrame env clk c frame = (st, .reply (answer h 0x0104 body)) := by
  rw [hh.handle]
  simp only [Store.handle, process8104, Store.paramsOf, hp, finish, gen0104, Out.encode, Msg.encodeBody, hb]
  rfl

/-- What the terminal keeps for an id after a set message, given what it kept before (`none`: it kept nothing at
all). -/
def keptAfterSet (old : Option (List ParamData)) (new : List ParamData) (i : UInt32) : Option ParamData :=
  match old with
  | none => valueOf new i
  | some o => if (valueOf o i).isSome then (match valueOf new i with | some q => some q | none => valueOf o i) else none

theorem valueOf_cons (p : ParamData) (l : List ParamData) (i : UInt32) :
    valueOf (p :: l) i = (valueOf l i).or (if p.id = i then some p else none) := by
  simp only [valueOf, List.map_cons, lastValue]
  cases lastValue (l.map fun p => (p.id, p)) i <;> rfl

theorem valueOf_some_mem {l : List ParamData} {i : UInt32} {q : ParamData} (h : valueOf l i = some q) : q ∈ l ∧ q.id = i := by
  have hid : q.id = i := lastValue_id h
  refine ⟨?_, hid⟩
  induction l with
  | nil => cases h
  | cons p l ih =>
    rw [valueOf_cons] at h
    cases hl : valueOf l i with
    | some w => rw [hl] at h; cases h; exact List.mem_cons_of_mem _ (ih hl)
    | none =>
      rw [hl] at h
      simp only [Option.none_or] at h
      split at h
      · cases h; exact List.mem_cons_self
      · cases h

/-- In a list with distinct ids the value of an id is its only item. -/
theorem valueOf_distinct {l : List ParamData} (hd : l.Pairwise (fun a b => a.id < b.id)) {q : ParamData} (hq : q ∈ l) :
    valueOf l q.id = some q := by
  induction l with
  | nil => cases hq
  | cons p l ih =>
    rw [valueOf_cons]
    obtain ⟨h1, h2⟩ := List.pairwise_cons.1 hd
    rcases List.mem_cons.1 hq with rfl | hq
    · cases hl : valueOf l q.id with
      | none => simp
      | some w =>
        obtain ⟨hm, hi⟩ := valueOf_some_mem hl
        have := h1 w hm
        rw [hi] at this
        exact absurd this (UInt32.lt_irrefl _)
    · rw [ih h2 hq]; rfl

theorem valueOf_update (o new : DeviceParams) (i : UInt32) :
    valueOf (o.update id new).params i = keptAfterSet (some o.params) new.params i := by
  have hC := fun x => C25_update id (fun _ _ => Iff.rfl) (fun _ h => h) o new x
  have hmem : ∀ q, q.id = i → (q ∈ (o.update id new).params ↔ keptAfterSet (some o.params) new.params i = some q) := by
    intro q hq
    rw [(hC q).2.1, hq]
    unfold keptAfterSet
    simp only
    by_cases hs : (valueOf o.params i).isSome = true
    · rw [if_pos hs]
      cases hn : valueOf new.params i with
      | none => simp [hs]
      | some w => simp [hs]
    · rw [if_neg hs]; simp [hs]
  cases hk : keptAfterSet (some o.params) new.params i with
  | some q =>
    have hqi : q.id = i := by
      unfold keptAfterSet at hk
      simp only at hk
      split at hk
      · cases hn : valueOf new.params i with
        | none => rw [hn] at hk; exact (valueOf_some_mem hk).2
        | some w => rw [hn] at hk; cases hk; exact (valueOf_some_mem hn).2
      · cases hk
    have hq := (hmem q hqi).2 hk
    rw [← hqi]
    exact valueOf_distinct (hC q).1 hq
  | none =>
    cases hv : valueOf (o.update id new).params i with
    | none => rfl
    | some q =>
      obtain ⟨hm, hi⟩ := valueOf_some_mem hv
      rw [(hmem q hi).1 hm] at hk
      cases hk

/-- A set message is acknowledged with success, and the next query of that phone is answered with a list in which
every id has the value `keptAfterSet` says: on a terminal without stored parameters everything that was set; otherwise
the new values of the ids it had before, and nothing else.
Missing for C26: ids the terminal did not have; they are dropped (next theorem). -/
theorem C26_set_then_query_partial (env : Env) (clk clk' : Clock) (c c' : Conn) (st : Store) (hr : Reachable env st)
    (frame frame' : List UInt8) (h h' : Header) (m : SetParams) (hh : Holds env clk.civil frame h (.m8103 m))
    (hh' : Holds env clk'.civil frame' h' .m8104) (hp : h'.phone = h.phone) :
    ∃ st' p body, st.handleFrame env clk c frame =
        (st', .reply (answer h 0x0001 (ackBody h.serial.toNat h.msgID.toNat 0))) ∧
      (∀ i, valueOf p.params i = keptAfterSet ((st.params.get h.phone).map (·.params)) m.params.params i) ∧
      p.phone = h.phone ∧
      ParamsMsg.encode env ⟨h'.serial, 0, some p⟩ = .ok body ∧
      st'.handleFrame env clk' c' frame' = (st', .reply (answer h' 0x0104 body)) := by
  have hph : m.params.phone = h.phone := by
    obtain ⟨pd, t, j, -, -, -, -, e⟩ := hh
    exact (decode_8103_phone e).1
  have htyped : m.params.Typed := by
    obtain ⟨pd, t, j, -, -, -, -, e⟩ := hh
    exact (decode_8103_phone e).2
  rcases handle_8103 c st hh with e | ⟨old, ho, hne⟩
  · have henc : ∃ bs, (match st.params.get h.phone with
          | none => m.params
          | some old => old.update id m.params).encode env = .ok bs := by
      cases ho : st.params.get h.phone with
      | none => exact htyped.encode
      | some old => exact ((hr.inv.params _ _ ho).2.update htyped).encode
    obtain ⟨bs, hbs⟩ := henc
    have hb : ParamsMsg.encode env ⟨h'.serial, 0, some (match st.params.get h.phone with
          | none => m.params
          | some old => old.update id m.params)⟩ = .ok (writeBytes (writeWord [] h'.serial) bs) := by
      unfold ParamsMsg.encode; simp only [hbs]
    refine ⟨_, _, _, e, ?_, ?_, hb, handle_8104 c' _ hh' (by
      rw [hp]; exact AMap.get_set_self _ _ _) hb⟩
    · intro i
      cases ho : st.params.get h.phone with
      | none => rfl
      | some old => exact valueOf_update old m.params i
    · cases ho : st.params.get h.phone with
      | none => exact hph
      | some old => exact (hr.inv.params h.phone old ho).1
  · exact absurd (hr.inv.params _ _ ho).1 hne

/-- The opposite of C26: an id that a terminal with stored parameters did not have is acknowledged with success and
missing from every later report, whatever value was set. -/
theorem C26_new_id_dropped (env : Env) (clk clk' : Clock) (c c' : Conn) (st : Store) (hr : Reachable env st)
    (frame frame' : List UInt8) (h h' : Header) (m : SetParams) (hh : Holds env clk.civil frame h (.m8103 m))
    (hh' : Holds env clk'.civil frame' h' .m8104) (hp : h'.phone = h.phone) (old : DeviceParams)
    (ho : st.params.get h.phone = some old) (q : ParamData) (_ : q ∈ m.params.params)
    (hn : ∀ x ∈ old.params, x.id ≠ q.id) :
    ∃ st' p body, st.handleFrame env clk c frame =
        (st', .reply (answer h 0x0001 (ackBody h.serial.toNat h.msgID.toNat 0))) ∧
      (∀ x ∈ p.params, x.id ≠ q.id) ∧
      ParamsMsg.encode env ⟨h'.serial, 0, some p⟩ = .ok body ∧
      st'.handleFrame env clk' c' frame' = (st', .reply (answer h' 0x0104 body)) := by
  obtain ⟨st', p, body, e1, e2, -, e3, e4⟩ := C26_set_then_query_partial env clk clk' c c' st hr frame frame' h h' m hh hh' hp
  refine ⟨st', p, body, e1, ?_, e3, e4⟩
  intro x hx hxq
  have hv : valueOf p.params q.id = none := by
    rw [e2, ho]
    simp only [Option.map_some, keptAfterSet]
    rw [if_neg]
    intro hs
    obtain ⟨w, hw⟩ := Option.isSome_iff_exists.1 hs
    obtain ⟨h1, h2⟩ := valueOf_some_mem hw
    exact hn w h1 h2
  have hex : ∀ l : List ParamData, x ∈ l → (valueOf l x.id).isSome = true := by
    intro l hl
    induction l with
    | nil => cases hl
    | cons y l ih =>
      rw [valueOf_cons]
      rcases List.mem_cons.1 hl with rfl | hl
      · cases valueOf l x.id <;> simp
      · obtain ⟨w, hw⟩ := Option.isSome_iff_exists.1 (ih hl)
        rw [hw]; rfl
  have := hex _ hx
  rw [hxq, hv] at this
  cases this

/-- Set the heartbeat interval, then the TCP timeout, then query: both are acknowledged, only the first is
reported. -/
def setFrame (serial : UInt16) (body : List UInt8) : List UInt8 := msgFrame { hdr2013 0x8103 with serial := serial } body
def queryFrame : List UInt8 := msgFrame (hdr2013 0x8104) []
def setOne : List UInt8 := [1, 0,0,0,1, 4, 0,0,0,30]
def setTwo : List UInt8 := [1, 0,0,0,2, 4, 0,0,0,5]

theorem C26_new_id_dropped_witness :
    let s1 := Store.empty.handleFrame goEnv (demoClk 0) demoC (setFrame 1 setOne)
    let s2 := s1.1.handleFrame goEnv (demoClk 0) demoC (setFrame 2 setTwo)
    s1.2 = .reply (answer (Header.withBodyLength { hdr2013 0x8103 with serial := 1 } 10) 1 (ackBody 1 0x8103 0)) ∧
    s2.2 = .reply (answer (Header.withBodyLength { hdr2013 0x8103 with serial := 2 } 10) 1 (ackBody 2 0x8103 0)) ∧
    (s2.1.handleFrame goEnv (demoClk 0) demoC queryFrame).2 =
      .reply (answer (hdr2013 0x8104) 0x0104 (word 7 ++ [1, 0,0,0,1, 4, 0,0,0,30])) := by
  refine ⟨?_, ?_, ?_⟩ <;> decide +kernel

example : Holds goEnv (demoClk 0).civil (setFrame 2 setTwo) (Header.withBodyLength { hdr2013 0x8103 with serial := 2 } 10)
    (.m8103 ⟨1, ⟨(hdr2013 0).phone, 1, [⟨2, 4, .dword 5⟩]⟩⟩) := ⟨_, .t8103, _, rfl, rfl, rfl, rfl, rfl⟩
example : Holds goEnv (demoClk 0).civil queryFrame (hdr2013 0x8104) .m8104 := ⟨_, .t8104, _, rfl, rfl, rfl, rfl, rfl⟩
-- replacing a known id works
example : keptAfterSet (some [⟨1, 4, .dword 30⟩]) [⟨1, 4, .dword 60⟩, ⟨2, 4, .dword 5⟩] 1 = some ⟨1, 4, .dword 60⟩ := by decide

end JT808
