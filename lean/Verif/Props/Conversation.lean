import Verif.Proof.Pair
import Verif.Props.Simulator
/-
C87: the simulator and the server keep talking.
-/
namespace JT808
open Spec

/-- The registration of a simulator that has a plate (or is a 2019 one), as it is read. -/
theorem register_says (env : Env) (v : Ver) (c : Conn) (id plate phone imei g : Str) (keepalive : Nat)
    (province city : UInt16) (color : UInt8) (hid : ∀ c ∈ id, c ≠ 0) (henc : env.gbkEnc plate = some g)
    (hdec : env.gbkDec g = some plate) (hne : v ≠ .v2019 → g ≠ []) (hg : g.length ≤ 947)
    (hpc : ∀ c ∈ phone, bcdChar c) (hpl : phone.length ≤ if v = .v2019 then 20 else 12) :
    ∃ f h m, Out.encode env (clientRegister (genDevice v id plate phone imei keepalive c) province city color) = .ok f ∧
      (∀ now, Holds env now f h (.m0100 m)) ∧ h.WF ∧ h.phone = (genDevice v id plate phone imei keepalive c).phone ∧
      m = Register.received env (cutRegister (if v = .v2019 then .v2019 else .v2013) province city id color plate) := by
  generalize hd : genDevice v id plate phone imei keepalive c = d
  have hdv : d.ver = v := by rw [← hd]; rfl
  have hph : PhoneWF (if v = .v2019 then .v2019 else .v2013) d.phone := by
    rw [← hd]; exact fillDevicePhone_wf hpc hpl
  have hw : (clientHeader 0x0100 d).WF := clientHeader_wf _ _ (by rw [hdv]; exact hph)
  have hreg : clientRegister d province city color =
      (clientHeader 0x0100 d, .m0100 ⟨province, city, clientMaker, clientMaker, id, color, plate, []⟩) := by rw [← hd]; rfl
  have hp1 : ∀ n, ((clientHeader 0x0100 d).withBodyLength n).phone = d.phone := by
    intro n; unfold clientHeader; split <;> rfl
  have hfr : (clientHeader 0x0100 d).isFragmented = false := by unfold clientHeader; split <;> rfl
  have hmi : (clientHeader 0x0100 d).msgID = 0x0100 := by unfold clientHeader; split <;> rfl
  have ht : MType.ofID (clientHeader 0x0100 d).msgID = some .t0100 := by rw [hmi]; rfl
  rw [hreg]
  by_cases hv : v = .v2019
  · have hvd : (clientHeader 0x0100 d).attr.verDesc = .v2019 := by unfold clientHeader; rw [if_pos (hdv.trans hv)]
    have f1 := take_fits 11 _ clientMaker_nonzero
    have f2 := take_fits 30 _ clientMaker_nonzero
    have f3 := take_fits 30 _ hid
    have hc := C20_register_2019 env _ hw hvd (cutRegister .v2019 province city id color plate) g henc hdec hg f1 f2 f3
    have hl : ((cutRegister .v2019 province city id color plate).encode env .v2019).length = 76 + g.length :=
      Register.encode_length env .v2019 _ g henc f1 f2 f3
    refine ⟨_, _, _, ?_, fun now => hc.holds now hfr .t0100 .m0100 ht (fun _ => rfl), ?_, hp1 _, (if_pos hv).symm ▸ rfl⟩
    · simp only [Out.encode, Msg.encodeBody, hvd, cutRegister_encode]
    · exact Header.withBodyLength_wf hw _ (by rw [hvd]; omega)
  · have hvd : (clientHeader 0x0100 d).attr.verDesc = .v2013 := by unfold clientHeader; rw [if_neg (by rw [hdv]; exact hv)]
    have f1 := take_fits 5 _ clientMaker_nonzero
    have f2 := take_fits 20 _ clientMaker_nonzero
    have f3 := take_fits 7 _ hid
    have hc := C20_register_2013_partial env _ hw hvd (cutRegister .v2013 province city id color plate) g henc hdec
      (hne hv) hg f1 f2 f3
    have hl : ((cutRegister .v2013 province city id color plate).encode env .v2013).length = 37 + g.length :=
      Register.encode_length env .v2013 _ g henc f1 f2 f3
    refine ⟨_, _, _, ?_, fun now => hc.holds now hfr .t0100 .m0100 ht (fun _ => rfl), ?_, hp1 _, (if_neg hv).symm ▸ rfl⟩
    · simp only [Out.encode, Msg.encodeBody, hvd, cutRegister_encode]
    · exact Header.withBodyLength_wf hw _ (by rw [hvd]; omega)

/-- The registration of a simulator that has a plate (or is a 2019 one) is a registration of its phone and plate. -/
theorem register_holds (env : Env) (v : Ver) (c : Conn) (id plate phone imei g : Str) (keepalive : Nat)
    (province city : UInt16) (color : UInt8) (hid : ∀ c ∈ id, c ≠ 0) (henc : env.gbkEnc plate = some g)
    (hdec : env.gbkDec g = some plate) (hne : v ≠ .v2019 → g ≠ []) (hg : g.length ≤ 947)
    (hpc : ∀ c ∈ phone, bcdChar c) (hpl : phone.length ≤ if v = .v2019 then 20 else 12) :
    ∃ f h m, Out.encode env (clientRegister (genDevice v id plate phone imei keepalive c) province city color) = .ok f ∧
      (∀ now, Holds env now f h (.m0100 m)) ∧ h.WF ∧ h.phone = (genDevice v id plate phone imei keepalive c).phone ∧
      m.plate = plate := by
  obtain ⟨f, h, m, e1, e2, e3, e4, e5⟩ := register_says env v c id plate phone imei g keepalive province city color hid henc
    hdec hne hg hpc hpl
  exact ⟨f, h, m, e1, e2, e3, e4, by rw [e5]; rfl⟩

/-- The simulator connects to a server on which its phone and plate are free. -/
structure Spec.Ready (env : Env) (s : Sys) (v : Ver) (id plate phone imei : Str) : Prop where
  reach : ∃ evs, s = (Sys.start.run env evs).1
  okId : ∀ c ∈ id, c ≠ 0
  okPlate : ∃ g, env.gbkEnc plate = some g ∧ env.gbkDec g = some plate ∧ g.length ≤ 947 ∧ (v ≠ .v2019 → g ≠ [])
  digits : ∀ c ∈ phone, bcdChar c
  len : phone.length ≤ if v = .v2019 then 20 else 12
  okImei : imei.length ≤ 15
  freePlate : ∀ p d, s.st.look p = some d → d.plate ≠ plate
  freePhone : s.st.look (fillDevicePhone phone (if v = .v2019 then 20 else 12)) = none

theorem start_talk {env : Env} {s : Sys} {v : Ver} {id plate phone imei : Str}
    (hr : Spec.Ready env s v id plate phone imei) (addr : Str) (client : Store) (cc : Conn) (keepalive : Nat)
    (province city : UInt16) (color : UInt8) :
    Talk env plate client.next
      (Pair.start env s addr client cc (genDevice v id plate phone imei keepalive cc) province city color) 4 := by
  obtain ⟨g, g1, g2, g3, g4⟩ := hr.okPlate
  obtain ⟨f, h, m, e1, e2, e3, e4, e5⟩ := register_holds env v cc id plate phone imei g keepalive province city color hr.okId
    g1 g2 g4 g3 hr.digits hr.len
  obtain ⟨evs, he⟩ := hr.reach
  have hi := reachable_inv env evs
  have hc := reachable_conn env evs
  rw [← he] at hi hc
  have hb := buildDevice_get client (genDevice v id plate phone imei keepalive cc)
  have hstep : (s.step env (.accept addr)).1 =
      { s with st := s.st.storeSession ⟨s.accepted, addr⟩, live := ⟨s.accepted, addr⟩ :: s.live, accepted := s.accepted + 1 } := by
    simp only [Sys.step, hi.2]; rfl
  have hlook : ∀ p, (s.st.storeSession ⟨s.accepted, addr⟩).look p = s.st.look p := fun p => rfl
  unfold Pair.start Pair.put
  simp only [e1, List.nil_append]
  refine ⟨⟨⟨evs ++ [.accept addr], ?_⟩, ?_, ?_, ?_⟩, ⟨hb.1, ?_, ?_, ?_, ?_⟩, rfl, rfl, ?_⟩
  · rw [run_snoc, ← he]
  · rw [hstep]; exact List.mem_cons_self
  · rw [hstep]; exact hc.open_ _ (Nat.le_refl _)
  · intro p d c' _ hl hd hid
    rw [hstep] at hl
    have := hc.devs p d c' hl hd
    simp only at hid; omega
  · rw [hb.2]
  · rw [hb.2]; exact hr.okImei
  · rw [hb.2]; exact clientSoftware_fits
  · rw [hb.2]; exact fillDevicePhone_wf hr.digits hr.len
  · refine .registering f h m rfl rfl rfl ?_ ?_ ?_ e2 e3 e4 e5
    · rw [hb.2]; rfl
    · rw [hstep]; exact hr.freePhone
    · rw [hstep]
      have := (taken_false hi.1 plate).2 hr.freePlate
      exact this

/-- Schedules in which nothing interferes. -/
inductive Spec.Schedule (env : Env) (plate : Str) : Pair → List PairEv → Prop
  | nil (p : Pair) : Schedule env plate p []
  | cons (p : Pair) (e : PairEv) (es : List PairEv) : p.Allows env plate e → Schedule env plate (p.step env e) es →
      Schedule env plate p (e :: es)

theorem talk_run {env : Env} {plate : Str} {r : Ref} {p : Pair} {n : Nat} (h : Talk env plate r p n) {es : List PairEv}
    (hs : Spec.Schedule env plate p es) : ∃ n', Talk env plate r (p.run env es) n' := by
  induction hs generalizing n with
  | nil p => exact ⟨n, h⟩
  | cons p e es ha _ ih =>
    obtain ⟨n', h'⟩ := h.step e ha
    exact ih h'

theorem run_phone (env : Env) (p : Pair) (es : List PairEv) : (p.run env es).phone = p.phone ∧ (p.run env es).sc = p.sc := by
  induction es generalizing p with
  | nil => exact ⟨rfl, rfl⟩
  | cons e es ih =>
    have : (p.step env e).phone = p.phone ∧ (p.step env e).sc = p.sc := by
      have hput : ∀ o, (p.put env o).phone = p.phone ∧ (p.put env o).sc = p.sc := by
        intro o; unfold Pair.put; split <;> exact ⟨rfl, rfl⟩
      cases e <;> simp only [Pair.step]
      case serverReads clk => split <;> exact ⟨rfl, rfl⟩
      case clientReads clk =>
        split
        · exact ⟨rfl, rfl⟩
        · split
          · exact ⟨rfl, rfl⟩
          · split <;> exact ⟨rfl, rfl⟩
      case notice =>
        split
        · split <;> exact ⟨rfl, rfl⟩
        · exact ⟨rfl, rfl⟩
      case beat =>
        split
        · split
          · exact hput _
          · exact ⟨rfl, rfl⟩
        · exact ⟨rfl, rfl⟩
      case locate x =>
        split
        · split
          · exact hput _
          · exact ⟨rfl, rfl⟩
        · exact ⟨rfl, rfl⟩
      case other e => exact ⟨trivial, trivial⟩
    have h2 := ih (p.step env e)
    exact ⟨h2.1.trans this.1, h2.2.trans this.2⟩

/-- The conversation goes well so far: the simulator has not stopped, the server serves the connection and has not closed
it, every frame of the simulator is under way, being answered, or answered by exactly one frame, and if nothing is under
way the simulator is online and the server has it registered on this connection with its plate, and not offline. -/
structure Spec.GoesWell (phone plate : Str) (c : Conn) (p : Pair) : Prop where
  going : p.stopped = false
  served : c ∈ p.server.live
  opened : p.server.st.closed c.id = false
  answers : p.sent = p.got + p.up.length + p.down.length
  quiet : p.up = [] → p.down = [] → (p.client.look phone).map (·.status) = some .online ∧
    ∃ d, p.server.st.look phone = some d ∧ d.plate = plate ∧ d.conn = some c ∧ d.status ≠ .offline

theorem Talk.goesWell {env : Env} {plate : Str} {r : Ref} {p : Pair} {n : Nat} (h : Talk env plate r p n) :
    Spec.GoesWell p.phone plate p.sc p := by
  refine ⟨h.going, h.hosts.live, h.hosts.opened, h.count, ?_⟩
  intro hu hd
  cases h.phase with
  | registering f hd m hup => rw [hu] at hup; cases hup
  | registered hd' d hup hdown => rw [hd] at hdown; cases hdown
  | authenticating f hd a d hup => rw [hu] at hup; cases hup
  | authenticated f d hup hdown => rw [hd] at hdown; cases hdown
  | talking d hup hdown hon hk hno =>
    refine ⟨?_, d, hk.1, hk.2.1, hk.2.2, hno⟩
    simp [Store.look, Store.devByPhone, h.plays.get, hon]

/-- Whatever is under way gets answered. -/
theorem Talk.drains {env : Env} {plate : Str} {r : Ref} (clk : Clock) : ∀ (n : Nat) {p : Pair}, Talk env plate r p n →
    ∃ es, es.length = n ∧ (∀ e ∈ es, e = .serverReads clk ∨ e = .clientReads clk) ∧
      (p.run env es).up = [] ∧ (p.run env es).down = [] := by
  intro n
  induction n with
  | zero =>
    intro p h
    refine ⟨[], rfl, (fun e he => by cases he), ?_⟩
    have : 2 * p.up.length + p.down.length = 0 := by
      generalize hn : 0 = n at h
      cases h.phase with
      | registering => cases hn
      | registered => cases hn
      | authenticating => cases hn
      | authenticated => cases hn
      | talking => omega
    exact ⟨List.length_eq_zero_iff.1 (by show p.up.length = 0; omega), List.length_eq_zero_iff.1 (by show p.down.length = 0; omega)⟩
  | succ n ih =>
    intro p h
    have hne : p.up ≠ [] ∨ p.down ≠ [] := by
      by_cases hu : p.up = []
      · right
        intro hd
        generalize hn : n + 1 = k at h
        cases h.phase with
        | registering f hd m hup => rw [hu] at hup; cases hup
        | registered hd' d hup hdown => rw [hd] at hdown; cases hdown
        | authenticating f hd a d hup => rw [hu] at hup; cases hup
        | authenticated f d hup hdown => rw [hd] at hdown; cases hdown
        | talking => simp [hu, hd] at hn
      · exact .inl hu
    rcases hne with hu | hd
    · obtain ⟨n', h', hn⟩ := h.serverReads clk
      have : n' = n := by have := hn hu; omega
      subst this
      obtain ⟨es, e1, e2, e3⟩ := ih h'
      exact ⟨.serverReads clk :: es, by simp [e1], by
        intro e he
        rcases List.mem_cons.1 he with rfl | he
        · exact .inl rfl
        · exact e2 e he, e3⟩
    · obtain ⟨n', h', hn⟩ := h.clientReads clk
      have : n' = n := by have := hn hd; omega
      subst this
      obtain ⟨es, e1, e2, e3⟩ := ih h'
      exact ⟨.clientReads clk :: es, by simp [e1], by
        intro e he
        rcases List.mem_cons.1 he with rfl | he
        · exact .inr rfl
        · exact e2 e he, e3⟩

/-- A simulator that finds its phone and plate free and the server talk without end: however reading, sending, and the
server's other business are interleaved, the conversation goes well. -/
theorem C87_conversation (env : Env) (s : Sys) (v : Ver) (id plate phone imei : Str)
    (hr : Spec.Ready env s v id plate phone imei) (addr : Str) (client : Store) (cc : Conn) (keepalive : Nat)
    (province city : UInt16) (color : UInt8) (es : List PairEv)
    (hs : Spec.Schedule env plate
      (Pair.start env s addr client cc (genDevice v id plate phone imei keepalive cc) province city color) es) :
    Spec.GoesWell (fillDevicePhone phone (if v = .v2019 then 20 else 12)) plate ⟨s.accepted, addr⟩
      ((Pair.start env s addr client cc (genDevice v id plate phone imei keepalive cc) province city color).run env es) := by
  have h0 := start_talk hr addr client cc keepalive province city color
  obtain ⟨n, h⟩ := talk_run h0 hs
  have key := h.goesWell
  have hp := run_phone env
    (Pair.start env s addr client cc (genDevice v id plate phone imei keepalive cc) province city color) es
  have hput : ∀ (q : Pair) o, (q.put env o).phone = q.phone ∧ (q.put env o).sc = q.sc := by
    intro q o; unfold Pair.put; split <;> exact ⟨rfl, rfl⟩
  rw [hp.1, hp.2] at key
  unfold Pair.start at key ⊢
  rw [(hput _ _).1, (hput _ _).2] at key
  exact key

/-- At any moment, a finite number of reads later everything the simulator has sent is answered, and both sides show the
terminal as registered and present. -/
theorem C87_settles (env : Env) (s : Sys) (v : Ver) (id plate phone imei : Str)
    (hr : Spec.Ready env s v id plate phone imei) (addr : Str) (client : Store) (cc : Conn) (keepalive : Nat)
    (province city : UInt16) (color : UInt8) (es : List PairEv)
    (hs : Spec.Schedule env plate
      (Pair.start env s addr client cc (genDevice v id plate phone imei keepalive cc) province city color) es)
    (clk : Clock) :
    ∃ rs, (∀ e ∈ rs, e = .serverReads clk ∨ e = .clientReads clk) ∧
      let p := (Pair.start env s addr client cc (genDevice v id plate phone imei keepalive cc) province city color).run env
        (es ++ rs)
      p.up = [] ∧ p.down = [] ∧ p.got = p.sent ∧
      (p.client.look (fillDevicePhone phone (if v = .v2019 then 20 else 12))).map (·.status) = some .online ∧
      ∃ d, p.server.st.look (fillDevicePhone phone (if v = .v2019 then 20 else 12)) = some d ∧ d.plate = plate ∧
        d.conn = some ⟨s.accepted, addr⟩ ∧ d.status ≠ .offline := by
  have h0 := start_talk hr addr client cc keepalive province city color
  obtain ⟨n, h⟩ := talk_run h0 hs
  obtain ⟨rs, -, h2, h3, h4⟩ := h.drains clk
  have hsch : ∀ (q : Pair) (rs : List PairEv), (∀ e ∈ rs, e = .serverReads clk ∨ e = .clientReads clk) →
      Spec.Schedule env plate q rs := by
    intro q rs
    induction rs generalizing q with
    | nil => intro _; exact .nil q
    | cons e rs ih =>
      intro he
      refine .cons q e rs ?_ (ih _ (fun e' h' => he e' (List.mem_cons_of_mem _ h')))
      rcases he e List.mem_cons_self with rfl | rfl <;> trivial
  have happ : ∀ (q : Pair) (xs ys : List PairEv), Spec.Schedule env plate q xs → Spec.Schedule env plate (q.run env xs) ys →
      Spec.Schedule env plate q (xs ++ ys) := by
    intro q xs ys hx hy
    induction hx with
    | nil q => exact hy
    | cons q e es ha _ ih => exact .cons q e _ ha (ih hy)
  have hw := C87_conversation env s v id plate phone imei hr addr client cc keepalive province city color (es ++ rs)
    (happ _ _ _ hs (hsch _ _ h2))
  refine ⟨rs, h2, ?_⟩
  have happrun : ∀ q : Pair, q.run env (es ++ rs) = (q.run env es).run env rs := fun q => List.foldl_append ..
  rw [← happrun] at h3 h4
  refine ⟨h3, h4, ?_, hw.quiet h3 h4⟩
  have := hw.answers
  rw [h3, h4] at this
  simpa using this.symm

/-! A 2013 simulator with plate B1 comes to a server that already has a terminal; the two send a heartbeat and a location
report while another connection is accepted and its first bytes are garbage. -/

def convDevice : Device := genDevice .v2013 [0x69, 0x64] [0x42, 0x31] (digitStr [1, 3, 9, 1, 2, 3, 4, 5, 6, 7, 8]) [] 30000 demoC
def convStart : Pair := Pair.start goEnv demoSys [0x39] Store.empty demoC convDevice 31 115 1
def convEvs : List PairEv :=
  [.beat, .serverReads (demoClk 1), .clientReads (demoClk 2), .notice, .other (.accept [0x38]), .serverReads (demoClk 3),
   .clientReads (demoClk 4), .notice, .beat, .locate southDraw,
   .other (.frame (demoClk 5) ⟨demoSys.accepted + 1, [0x38]⟩ [0x7e, 0x01, 0x7e] none), .serverReads (demoClk 6), .beat,
   .clientReads (demoClk 7), .serverReads (demoClk 8), .serverReads (demoClk 9), .clientReads (demoClk 10)]

theorem convReady : Spec.Ready goEnv demoSys .v2013 [0x69, 0x64] [0x42, 0x31] (digitStr [1, 3, 9, 1, 2, 3, 4, 5, 6, 7, 8]) [] where
  reach := ⟨demoEvs, rfl⟩
  okId := by decide
  okPlate := ⟨[0x42, 0x31], by decide, by decide, by decide, fun _ => by decide⟩
  digits := by decide
  len := by decide
  okImei := by decide
  freePlate := (taken_false (reachable_inv goEnv demoEvs).1 _).1 (by decide +kernel)
  freePhone := by decide +kernel

example : (convStart.run goEnv convEvs).sent = 5 ∧ (convStart.run goEnv convEvs).got = 4 ∧
    (convStart.run goEnv convEvs).up = [] ∧ (convStart.run goEnv convEvs).down.length = 1 ∧
    (convStart.run goEnv convEvs).server.live.length = demoSys.live.length + 2 := by decide +kernel

theorem convEvs_schedule : Spec.Schedule goEnv [0x42, 0x31] convStart convEvs := by
  unfold convEvs
  iterate 4 refine .cons _ _ _ trivial ?_
  refine .cons _ _ _ (by exact trivial) ?_
  iterate 4 refine .cons _ _ _ trivial ?_
  refine .cons _ _ _ (by exact by simp only [Pair.Allows, southDraw, Civil.Valid]; decide) ?_
  refine .cons _ _ _ ⟨by decide +kernel, by decide +kernel, fun hn => ?_⟩ ?_
  · exact absurd hn (by decide +kernel)
  iterate 6 refine .cons _ _ _ trivial ?_
  exact .nil _

end JT808
