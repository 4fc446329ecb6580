import Verif.Proof.Fleet
/-
C88: any number of simulators.
-/
namespace JT808
open Spec

/-- Schedules of the fleet in which nothing interferes from outside. -/
inductive Spec.FleetSchedule (env : Env) : Fleet → List FleetEv → Prop
  | nil (fl : Fleet) : FleetSchedule env fl []
  | cons (fl : Fleet) (e : FleetEv) (es : List FleetEv) : fl.Allows env e → FleetSchedule env (fl.step env e) es →
      FleetSchedule env fl (e :: es)

theorem fleet_run {env : Env} {ref : Nat → Ref} {fl : Fleet} (h : FleetTalk env ref fl) {es : List FleetEv}
    (hs : Spec.FleetSchedule env fl es) : ∃ ref', FleetTalk env ref' (fl.run env es) := by
  induction hs generalizing ref with
  | nil fl => exact ⟨ref, h⟩
  | cons fl e es ha _ ih =>
    obtain ⟨ref', h'⟩ := h.step e ha
    exact ih h'

/-- Simulators with different phones and plates do not disturb each other: each of them, at every moment of every run,
has a conversation that goes well. -/
theorem C88_fleet (env : Env) (s : Sys) (hs : ∃ evs, s = (Sys.start.run env evs).1) (p : Pair) (es : List FleetEv)
    (hes : Spec.FleetSchedule env (Fleet.start s p) es) (i : Nat) (hi : i < ((Fleet.start s p).run env es).count) :
    let fl := (Fleet.start s p).run env es
    Spec.GoesWell (fl.dev i).phone (fl.dev i).plate (fl.sim i).sc (fl.view i) := by
  have h0 : FleetTalk env (fun _ => 0) (Fleet.start s p) :=
    ⟨fun i hi => absurd hi (Nat.not_lt_zero i), fun i hi => absurd hi (Nat.not_lt_zero i),
      fun i hi => absurd hi (Nat.not_lt_zero i), fun i hi => absurd hi (Nat.not_lt_zero i),
      fun i hi => absurd hi (Nat.not_lt_zero i), fun i hi => absurd hi (Nat.not_lt_zero i), hs⟩
  obtain ⟨ref, h⟩ := fleet_run h0 hes
  obtain ⟨n, ht⟩ := h.talk i hi
  have := ht.goesWell
  show Spec.GoesWell _ _ _ _
  rw [← h.phone i hi]
  exact this

/-- Different simulators end up with different connections and terminals: when nothing is under way the server lists all
of them. -/
theorem C88_all_listed (env : Env) (s : Sys) (hs : ∃ evs, s = (Sys.start.run env evs).1) (p : Pair) (es : List FleetEv)
    (hes : Spec.FleetSchedule env (Fleet.start s p) es)
    (hq : ∀ i < ((Fleet.start s p).run env es).count,
      (((Fleet.start s p).run env es).sim i).up = [] ∧ (((Fleet.start s p).run env es).sim i).down = []) :
    let fl := (Fleet.start s p).run env es
    (∀ i < fl.count, ∃ d, fl.server.st.look (fl.dev i).phone = some d ∧ d.plate = (fl.dev i).plate ∧
      d.conn = some (fl.sim i).sc) ∧
    ∀ i < fl.count, ∀ j < fl.count, i ≠ j → (fl.dev i).phone ≠ (fl.dev j).phone ∧ (fl.sim i).sc ≠ (fl.sim j).sc := by
  have h0 : FleetTalk env (fun _ => 0) (Fleet.start s p) :=
    ⟨fun i hi => absurd hi (Nat.not_lt_zero i), fun i hi => absurd hi (Nat.not_lt_zero i),
      fun i hi => absurd hi (Nat.not_lt_zero i), fun i hi => absurd hi (Nat.not_lt_zero i),
      fun i hi => absurd hi (Nat.not_lt_zero i), fun i hi => absurd hi (Nat.not_lt_zero i), hs⟩
  obtain ⟨ref, h⟩ := fleet_run h0 hes
  refine ⟨?_, fun i hi j hj hij => ⟨h.phones i hi j hj hij, h.conns i hi j hj hij⟩⟩
  intro i hi
  obtain ⟨-, d, h1, h2, h3, -⟩ := (C88_fleet env s hs p es hes i hi).quiet (hq i hi).1 (hq i hi).2
  exact ⟨d, h1, h2, h3⟩

/-! Two simulators, a 2013 and a 2019 one, on a server that already has a terminal; the second joins while the first is
being registered. -/

def fleetA : Device := genDevice .v2013 [0x69, 0x64] [0x42, 0x31] (digitStr [1, 3, 9, 1, 2, 3, 4, 5, 6, 7, 8]) [] 30000 demoC
def fleetB : Device := genDevice .v2019 [0x69, 0x65] [0x42, 0x32] (digitStr [1, 3, 9, 1, 2, 3, 4, 5, 6, 7, 9]) [] 30000 demoC'
def fleetEvs : List FleetEv :=
  [.join [0x39] demoC fleetA 31 115 1, .at 0 (.serverReads (demoClk 1)), .join [0x38] demoC' fleetB 31 115 1,
   .at 1 (.serverReads (demoClk 2)), .at 0 (.clientReads (demoClk 3)), .at 1 (.clientReads (demoClk 4)),
   .at 1 (.serverReads (demoClk 5)), .at 0 (.serverReads (demoClk 6)), .at 0 (.clientReads (demoClk 7)),
   .at 1 (.clientReads (demoClk 8)), .at 1 .notice, .at 1 .beat, .at 0 .notice, .at 0 .beat,
   .at 0 (.serverReads (demoClk 9)), .at 1 (.serverReads (demoClk 10)), .at 1 (.clientReads (demoClk 11)),
   .at 0 (.clientReads (demoClk 12))]
def fleetStart : Fleet := Fleet.start demoSys convStart

theorem demoSys_reach : ∃ evs, demoSys = (Sys.start.run goEnv evs).1 := ⟨demoEvs, rfl⟩

example : (fleetStart.run goEnv fleetEvs).count = 2 ∧
    ((fleetStart.run goEnv fleetEvs).sim 0).up = [] ∧ ((fleetStart.run goEnv fleetEvs).sim 0).down = [] ∧
    ((fleetStart.run goEnv fleetEvs).sim 1).up = [] ∧ ((fleetStart.run goEnv fleetEvs).sim 1).down = [] ∧
    ((fleetStart.run goEnv fleetEvs).sim 0).got = 3 ∧ ((fleetStart.run goEnv fleetEvs).sim 1).got = 3 := by decide +kernel

theorem fleetEvs_schedule : Spec.FleetSchedule goEnv fleetStart fleetEvs := by
  have at_ok : ∀ (fl : Fleet) i e, i < fl.count → (∀ x, e ≠ .locate x) → (∀ x, e ≠ .other x) → fl.Allows goEnv (.at i e) :=
    fun fl i e h1 h2 h3 => ⟨h1, fun x hx => absurd hx (h2 x), h3⟩
  have e0 : fleetStart.server = demoSys := by simp only [fleetStart, Fleet.start]
  have h0 : FleetTalk goEnv (fun _ => 0) fleetStart :=
    ⟨fun i hi => absurd hi (Nat.not_lt_zero i), fun i hi => absurd hi (Nat.not_lt_zero i),
      fun i hi => absurd hi (Nat.not_lt_zero i), fun i hi => absurd hi (Nat.not_lt_zero i),
      fun i hi => absurd hi (Nat.not_lt_zero i), fun i hi => absurd hi (Nat.not_lt_zero i), e0 ▸ demoSys_reach⟩
  have g0 : demoSys.st.taken [0x42, 0x31] = false := by decide +kernel
  have g1 : ∀ p d, demoSys.st.look p = some d → d.plate ≠ [0x42, 0x31] :=
    (taken_false (by obtain ⟨evs, he⟩ := demoSys_reach; rw [he]; exact (reachable_inv goEnv evs).1) _).1 g0
  have g2 : demoSys.st.look (fillDevicePhone (digitStr [1, 3, 9, 1, 2, 3, 4, 5, 6, 7, 8]) 12) = none := by decide +kernel
  have a1 : fleetStart.Allows goEnv (.join [0x39] demoC fleetA 31 115 1) := by
    refine ⟨.v2013, _, _, _, _, _, rfl, ?_, ?_⟩
    · rw [e0]
      exact {
        reach := demoSys_reach
        okId := by decide
        okPlate := ⟨[0x42, 0x31], by decide, by decide, by decide, fun _ => by decide⟩
        digits := by decide
        len := by decide
        okImei := by decide
        freePlate := g1
        freePhone := g2 }
    · intro i hi; exact absurd hi (Nat.not_lt_zero i)
  obtain ⟨r1, h1⟩ := h0.step _ a1
  have a2 : (fleetStart.step goEnv (.join [0x39] demoC fleetA 31 115 1)).Allows goEnv (.at 0 (.serverReads (demoClk 1))) :=
    at_ok _ _ _ (by decide +kernel) (by simp) (by simp)
  obtain ⟨r2, h2⟩ := h1.step _ a2
  have f1 : ((fleetStart.step goEnv (.join [0x39] demoC fleetA 31 115 1)).step goEnv
    (.at 0 (.serverReads (demoClk 1)))).server.st.taken [0x42, 0x32] = false := by decide +kernel
  have f2 : ((fleetStart.step goEnv (.join [0x39] demoC fleetA 31 115 1)).step goEnv
    (.at 0 (.serverReads (demoClk 1)))).server.st.look
      (fillDevicePhone (digitStr [1, 3, 9, 1, 2, 3, 4, 5, 6, 7, 9]) 20) = none := by decide +kernel
  have f3 : fleetA.phone ≠ fleetB.phone ∧ fleetA.plate ≠ fleetB.plate := by decide +kernel
  have a3 : ((fleetStart.step goEnv (.join [0x39] demoC fleetA 31 115 1)).step goEnv
      (.at 0 (.serverReads (demoClk 1)))).Allows goEnv (.join [0x38] demoC' fleetB 31 115 1) := by
    refine ⟨.v2019, _, _, _, _, _, rfl, ?_, ?_⟩
    · exact {
        reach := h2.reach
        okId := by decide
        okPlate := ⟨[0x42, 0x32], by decide, by decide, by decide, fun _ => by decide⟩
        digits := by decide
        len := by decide
        okImei := by decide
        freePlate := (taken_false (by obtain ⟨evs, he⟩ := h2.reach; rw [he]; exact (reachable_inv goEnv evs).1) _).1 f1
        freePhone := f2 }
    · intro i hi
      have : i = 0 := Nat.lt_one_iff.1 hi
      subst this
      exact f3
  refine .cons _ _ _ a1 (.cons _ _ _ a2 (.cons _ _ _ a3 ?_))
  have rest : ∀ (es : List (Nat × PairEv)) (fl : Fleet), fl.count = 2 →
      (∀ x ∈ es, x.1 < 2 ∧ (∀ y, x.2 ≠ .locate y) ∧ ∀ y, x.2 ≠ .other y) →
      Spec.FleetSchedule goEnv fl (es.map (fun x => .at x.1 x.2)) := by
    intro es
    induction es with
    | nil => intro fl _ _; exact .nil _
    | cons x es ih =>
      intro fl hc hx
      have hxx := hx x List.mem_cons_self
      exact .cons _ _ _ (at_ok _ _ _ (by rw [hc]; exact hxx.1) hxx.2.1 hxx.2.2)
        (ih _ hc (fun y hy => hx y (List.mem_cons_of_mem _ hy)))
  exact rest [(1, .serverReads (demoClk 2)), (0, .clientReads (demoClk 3)), (1, .clientReads (demoClk 4)),
    (1, .serverReads (demoClk 5)), (0, .serverReads (demoClk 6)), (0, .clientReads (demoClk 7)),
    (1, .clientReads (demoClk 8)), (1, .notice), (1, .beat), (0, .notice), (0, .beat), (0, .serverReads (demoClk 9)),
    (1, .serverReads (demoClk 10)), (1, .clientReads (demoClk 11)), (0, .clientReads (demoClk 12))] _ rfl (by simp)

end JT808
