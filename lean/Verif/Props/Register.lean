import Verif.Proof.Register
import Verif.Proof.Silence
import Verif.Props.OneByOne
/-
C152: registrations among other goroutines are handled as by the sequential server, if nobody else has the plate.
-/
namespace JT808
open Spec

namespace Spec

/-- The plate a message registers with. -/
def plateOf : Task → Option Str
  | .msg _ _ (.m0100 m) => some m.plate
  | _ => none

/-- No other terminal has registered, or registers, with a plate with which `p` registers. -/
def OwnPlates (before : List CEv) (tasks : List Task) (p : Str) : Prop :=
  ∀ t t', (.spawn t ∈ before ∨ t ∈ tasks) → t' ∈ tasks → t.phone ≠ p → t'.phone = p →
    ∀ pl, plateOf t' = some pl → plateOf t ≠ some pl

end Spec

/-- Every goroutine was started. -/
theorem spawned_run {env : Env} (evs : List CEv) (s : CSys) (i : Nat) (t : Task) (q : Prog)
    (h : (s.run env evs).threads[i]? = some (t, q)) : .spawn t ∈ evs ∨ ∃ q', s.threads[i]? = some (t, q') := by
  induction evs generalizing s with
  | nil => exact Or.inr ⟨q, h⟩
  | cons e evs ih =>
    rcases ih (s.step env e) h with h | ⟨q', h⟩
    · exact Or.inl (List.mem_cons_of_mem _ h)
    · cases e with
      | spawn u =>
        simp only [CSys.step] at h
        split at h
        · rw [List.getElem?_append] at h
          split at h
          · exact Or.inr ⟨q', h⟩
          · rw [List.getElem?_singleton] at h
            split at h
            · cases h; exact Or.inl List.mem_cons_self
            · cases h
        · exact Or.inr ⟨q', h⟩
      | run j clk =>
        have hn := names_step (env := env) (s := s) j clk i
        rw [h] at hn
        cases hs : s.threads[i]? with
        | none => rw [hs] at hn; cases hn
        | some x =>
          rw [hs] at hn
          obtain ⟨t', q''⟩ := x
          cases hn
          exact Or.inr ⟨q'', rfl⟩

theorem makes_plate {t : Task} {d : Device} (h : t.Makes d) : plateOf t = some d.plate := by
  cases t with
  | check ph => exact absurd h (by simp [Task.Makes])
  | msg c hd m =>
    cases m with
    | m0100 m => exact congrArg some h.2.1.symm
    | _ => exact absurd h (by simp [Task.Makes])

/-- The goroutines of phone `p`, of whatever kind, do among any others what they do by themselves. -/
theorem C152_no_interference (env : Env) (before : List CEv) (tasks : List Task) (evs : List CEv) (p : Str)
    (hev : ∀ e ∈ evs, ∃ i clk, e = .run i clk) (hadd : ∀ t ∈ tasks, t.Addressed) (hpl : OwnPlates before tasks p) :
    let s0 : CSys := ⟨(CSys.start.run env before).st, tasks.map fun t => (t, t.prog env)⟩
    let full := s0.run env evs
    let own := s0.run env (evs.filter (CEv.concerns s0 p))
    full.st.look p = own.st.look p ∧
      (∀ t ∈ tasks, t.phone = p → ∀ pl, plateOf t = some pl → full.st.lookPlate pl = own.st.lookPlate pl) ∧
      full.st.geos.get p = own.st.geos.get p ∧ full.st.jobs.count p = own.st.jobs.count p ∧
      full.st.paramsOf p = own.st.paramsOf p ∧
      ∀ (i : Nat) (t : Task) (r : Res (Option Out)), full.threads[i]? = some (t, .ret r) → t.phone = p →
        own.threads[i]? = some (t, .ret r) := by
  intro s0 full own
  let P : Str → Prop := fun pl => ∃ t ∈ tasks, t.phone = p ∧ plateOf t = some pl
  have hinv : CInv s0.st := (ok_run (ok_start env) before).1.inv
  have hth : ∀ (i : Nat) (t : Task) (q : Prog), s0.threads[i]? = some (t, q) → t ∈ tasks ∧ q = t.prog env := by
    intro i t q hi
    simp only [s0, List.getElem?_map, Option.map_eq_some_iff] at hi
    obtain ⟨t', h1, h2⟩ := hi
    cases h2
    exact ⟨List.mem_of_getElem? h1, rfl⟩
  have hok : s0.OK env := by
    refine ⟨hinv, fun i t q hi => ?_⟩
    obtain ⟨-, rfl⟩ := hth i t q hi
    exact task_safe env _ _
  have hborn : ∀ r, r < s0.st.next → ∃ t, CEv.spawn t ∈ before ∧ t.Makes (s0.st.heap r) := by
    intro r hr
    obtain ⟨i, t, q, hi, hm⟩ := born_run (ok_start env) born_start before r hr
    rcases spawned_run before CSys.start i t q hi with h | ⟨q', h⟩
    · exact ⟨t, h, hm⟩
    · cases h
  have hdev : ∀ r, r < s0.st.next → (s0.st.heap r).phone ≠ p → ¬ P (s0.st.heap r).plate := by
    rintro r hr hph ⟨t', ht', hp', hpl'⟩
    obtain ⟨t, ht, hm⟩ := hborn r hr
    exact hpl t t' (Or.inl ht) ht' (by rw [← makes_phone hm]; exact hph) hp' _ hpl' (makes_plate hm)
  have happ : PlatesApart p P s0 := by
    refine ⟨hdev, fun i t q hi hp d hm => ?_, fun i t q hi => ?_⟩
    · rintro ⟨t', ht', hp', hpl'⟩
      exact hpl t t' (Or.inr (hth i t q hi).1) ht' hp hp' _ hpl' (makes_plate hm)
    · obtain ⟨h1, rfl⟩ := hth i t q hi
      exact keeps_task env t (hadd t h1) _
  have refl : ∀ x : Option Ref, (∀ r, x = some r → r < s0.st.next ∧ (s0.st.heap r).phone = p) →
      OptRel (fun r r' => r = r' ∧ r < s0.st.next ∧ (s0.st.heap r).phone = p) x x
    | none, _ => trivial
    | some r, h => ⟨rfl, h r rfl⟩
  have hcouple : Couple p P (fun r r' => r = r' ∧ r < s0.st.next ∧ (s0.st.heap r).phone = p) s0 s0 := by
    refine ⟨⟨refl _ fun r hr => hinv.phoneOK p r hr, fun pl hP => refl _ fun r hr => ?_, ?_, ?_, ?_, ?_, rfl, rfl, rfl⟩,
      fun _ => rfl, fun i t q hi hp => ⟨q, hi, ?_⟩⟩
    · obtain ⟨h1, h2⟩ := hinv.plateOK pl r hr
      refine ⟨h1, Decidable.byContradiction fun h3 => hdev r h1 h3 ?_⟩
      rw [h2]; exact hP
    · rintro r r' ⟨rfl, -⟩; rfl
    · exact fun r r' h => h.2.2
    · rintro r r' ⟨rfl, h, -⟩; exact ⟨h, h⟩
    · rintro r r' s s' ⟨rfl, -⟩ ⟨rfl, -⟩; exact Iff.rfl
    · obtain ⟨h1, rfl⟩ := hth i t q hi
      subst hp
      refine sim_task env t ?_
      cases t with
      | check ph => trivial
      | msg c hd m => cases m <;> first | exact ⟨_, h1, rfl, rfl⟩ | trivial
  obtain ⟨ρ, -, h⟩ := couple_run hok (fun _ => rfl) happ hcouple evs hev
  have hopt : ∀ {x y : Option Ref}, OptRel ρ x y → x.map full.st.heap = y.map own.st.heap := by
    intro x y hxy
    match x, y, hxy with
    | none, none, _ => rfl
    | some r, some r', hr => exact congrArg some (h.stores.heap r r' hr)
  refine ⟨hopt h.stores.index, fun t ht hp pl hpl => hopt (h.stores.plates pl ⟨t, ht, hp, hpl⟩), h.stores.geos, h.stores.jobs,
    h.stores.params, fun i t r hi hp => ?_⟩
  obtain ⟨q', h1, h2⟩ := h.same i t _ hi hp
  cases (show q' = .ret r from h2)
  exact h1

/-- C152: start any goroutines from any store reached by interleaved goroutines and let them run in any order.  If those
of phone `p`, of whatever kind, take turns, each returning before the next one begins, while the goroutines of other phones
may make steps at any moment, and if no other terminal has ever registered with a plate with which `p` registers, then the
device under its number and under such a plate, its locations, its jobs, its parameters and all results of `p`'s goroutines
are those of the sequential server handling `p`'s turns one after another, and nothing else. -/
theorem C152_one_by_one (env : Env) (before : List CEv) (tasks : List Task) (evs : List CEv) (p : Str)
    (hev : ∀ e ∈ evs, ∃ i clk, e = .run i clk) (hadd : ∀ t ∈ tasks, t.Addressed) (hpl : OwnPlates before tasks p)
    (us : List Turn) (hd : (us.map (·.who)).Nodup) (hp : ∀ u ∈ us, ∃ t, tasks[u.who]? = some t ∧ t.phone = p)
    (hus : evs.filter (CEv.concerns ⟨(CSys.start.run env before).st, tasks.map fun t => (t, t.prog env)⟩ p) = turnSteps us)
    (hdone : ∀ u ∈ us, ∃ r,
      ((CSys.mk (CSys.start.run env before).st (tasks.map fun t => (t, t.prog env))).run env evs).returns u.who r) :
    let st0 := (CSys.start.run env before).st
    let full := (CSys.mk st0 (tasks.map fun t => (t, t.prog env))).run env evs
    let seq := oneByOne env tasks st0 us
    full.st.look p = seq.look p ∧
    (∀ t ∈ tasks, t.phone = p → ∀ pl, plateOf t = some pl → full.st.lookPlate pl = seq.lookPlate pl) ∧
    full.st.geos.get p = seq.geos.get p ∧ full.st.jobs.count p = seq.jobs.count p ∧ full.st.paramsOf p = seq.paramsOf p ∧
    ∀ (k : Nat) (u : Turn) (t : Task), us[k]? = some u → tasks[u.who]? = some t →
      full.returns u.who (handled env u.clk (oneByOne env tasks st0 (us.take k)) t).2 := by
  intro st0 full seq
  obtain ⟨a1, a0, a2, a3, a5, a4⟩ := C152_no_interference env before tasks evs p hev hadd hpl
  rw [hus] at a0 a1 a2 a3 a4 a5
  have own : ∀ u ∈ us, ∀ r, full.returns u.who r →
      ((CSys.mk st0 (tasks.map fun t => (t, t.prog env))).run env (turnSteps us)).returns u.who r := by
    rintro u hu r ⟨t, ht⟩
    obtain ⟨t', h1, h2⟩ := hp u hu
    have := names_run (env := env) evs (CSys.mk st0 (tasks.map fun t => (t, t.prog env))) hev u.who
    simp only [full] at ht
    rw [ht] at this
    simp only [Option.map_some, List.getElem?_map, h1] at this
    cases this
    exact ⟨t, a4 u.who t _ ht h2⟩
  obtain ⟨k1, k2⟩ := turns_run env tasks us (CSys.mk st0 (tasks.map fun t => (t, t.prog env))) hd
    (fun u hu => by
      obtain ⟨t, h1, -⟩ := hp u hu
      exact ⟨t, h1, by simp only [List.getElem?_map, h1]; rfl⟩)
    (fun u hu => by
      obtain ⟨r, hr⟩ := hdone u hu
      exact ⟨r, own u hu r hr⟩)
  refine ⟨?_, fun t ht hp pl hpl => ?_, ?_, ?_, ?_, fun k u t hk ht => ?_⟩
  · rw [a1]; exact congrArg (·.look p) k1
  · rw [a0 t ht hp pl hpl]; exact congrArg (·.lookPlate pl) k1
  · rw [a2]; exact congrArg (·.geos.get p) k1
  · rw [a3]; exact congrArg (·.jobs.count p) k1
  · rw [a5]; exact congrArg (·.paramsOf p) k1
  · have hu : u ∈ us := List.mem_of_getElem? hk
    obtain ⟨r, hr⟩ := hdone u hu
    obtain ⟨t1, e1⟩ := own u hu r hr
    obtain ⟨t2, e2⟩ := k2 k u t hk ht
    rw [e1] at e2
    cases e2
    exact hr

/-- Two terminals register at the same time, each with its own plate, and one of them then authenticates. -/
def joinTasks : List Task :=
  [.msg demoC (hdr2013 0x0100) (.m0100 demoRegMsg), .msg demoC' (hdr2019 0x0100) (.m0100 { demoRegMsg with plate := [0x42] }),
    .msg demoC (hdr2013 0x0102) (.m0102 ⟨0, demoCode, [], []⟩)]

def joinEvs : List CEv :=
  steps 0 2 (demoClk 20) ++ steps 1 4 (demoClk 20) ++ steps 0 4 (demoClk 20) ++ steps 2 3 (demoClk 30) ++
    steps 1 2 (demoClk 31) ++ steps 2 5 (demoClk 30)

def joinOrder : List Turn := [⟨0, demoClk 20, 6⟩, ⟨2, demoClk 30, 8⟩]

theorem join_own : OwnPlates [] joinTasks (hdr2013 0).phone := by
  intro t t' ht ht' hp hp' pl hpl
  simp only [List.not_mem_nil, false_or, joinTasks, List.mem_cons, or_false] at ht ht'
  rcases ht with rfl | rfl | rfl
  · exact absurd rfl hp
  · rcases ht' with rfl | rfl | rfl
    · cases hpl; decide
    · exact absurd hp' (by decide)
    · cases hpl
  · exact absurd rfl hp

example :
    (((CSys.mk (CSys.start.run goEnv []).st (joinTasks.map fun t => (t, t.prog goEnv))).run goEnv joinEvs).st.look
      (hdr2013 0).phone).map (fun d => (d.status, d.plate, d.last)) = some (.online, demoRegMsg.plate, 30) ∧
    ((CSys.mk (CSys.start.run goEnv []).st (joinTasks.map fun t => (t, t.prog goEnv))).run goEnv joinEvs).returns 0
      (.ok (some (gen8100 (hdr2013 0x0100) 0 demoCode))) := by
  have h := C152_one_by_one goEnv [] joinTasks joinEvs (hdr2013 0).phone (by
      intro e he
      simp only [joinEvs, steps, List.mem_append, List.mem_replicate] at he
      rcases he with ((((⟨_, rfl⟩ | ⟨_, rfl⟩) | ⟨_, rfl⟩) | ⟨_, rfl⟩) | ⟨_, rfl⟩) | ⟨_, rfl⟩ <;> exact ⟨_, _, rfl⟩)
    (by
      intro t ht
      simp only [joinTasks, List.mem_cons, List.not_mem_nil, or_false] at ht
      rcases ht with rfl | rfl | rfl <;> trivial) join_own joinOrder (by decide +kernel)
    (by
      intro u hu
      simp only [joinOrder, List.mem_cons, List.not_mem_nil, or_false] at hu
      rcases hu with rfl | rfl <;> exact ⟨_, rfl, rfl⟩)
    rfl
    (by
      intro u hu
      simp only [joinOrder, List.mem_cons, List.not_mem_nil, or_false] at hu
      rcases hu with rfl | rfl <;> exact returns_isRet (by decide +kernel))
  refine ⟨(congrArg (Option.map fun d : Device => (d.status, d.plate, d.last)) h.1).trans (by decide +kernel), ?_⟩
  exact h.2.2.2.2.2 0 _ _ rfl rfl

/-- Without the condition on the plates this is false: when another terminal registers with the same plate in between, the
registration that by itself succeeds is refused. -/
theorem C152_same_plate :
    let tasks : List Task := [.msg demoC (hdr2013 0x0100) (.m0100 demoRegMsg), .msg demoC' (hdr2019 0x0100) (.m0100 demoRegMsg)]
    let full := (CSys.mk Store.empty (tasks.map fun t => (t, t.prog goEnv))).run goEnv (steps 1 6 (demoClk 20) ++ steps 0 1 (demoClk 21))
    full.returns 0 (.ok (some (gen8100 (hdr2013 0x0100) 1 placeholderCode))) ∧ full.st.look (hdr2013 0).phone = none ∧
    (handled goEnv (demoClk 21) Store.empty (.msg demoC (hdr2013 0x0100) (.m0100 demoRegMsg))).2 =
      .ok (some (gen8100 (hdr2013 0x0100) 0 demoCode)) :=
  ⟨⟨_, rfl⟩, by decide +kernel, by decide +kernel⟩

end JT808
