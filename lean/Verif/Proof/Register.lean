import Verif.Proof.Interleave
import Verif.Proof.Effects
/-
Registrations in interleavings: two stores that hold the same devices of a phone at different addresses.
-/
namespace JT808

/-- Two lookups with corresponding results. -/
def OptRel (ρ : Ref → Ref → Prop) : Option Ref → Option Ref → Prop
  | none, none => True
  | some r, some r' => ρ r r'
  | _, _ => False

theorem OptRel.mono {ρ ρ' : Ref → Ref → Prop} (h : ∀ r r', ρ r r' → ρ' r r') : ∀ {x y}, OptRel ρ x y → OptRel ρ' x y
  | none, none, _ => trivial
  | some _, some _, e => h _ _ e

theorem OptRel.isSome {ρ : Ref → Ref → Prop} : ∀ {x y}, OptRel ρ x y → x.isSome = y.isSome
  | none, none, _ => rfl
  | some _, some _, _ => rfl

/-- The stores hold the same of phone `p` and of the plates `P`; `ρ` says which devices correspond. -/
structure Matches (p : Str) (P : Str → Prop) (ρ : Ref → Ref → Prop) (a b : Store) : Prop where
  index : OptRel ρ (a.byPhone.get p) (b.byPhone.get p)
  plates : ∀ pl, P pl → OptRel ρ (a.byPlate.get pl) (b.byPlate.get pl)
  heap : ∀ r r', ρ r r' → a.heap r = b.heap r'
  phone : ∀ r r', ρ r r' → (a.heap r).phone = p
  old : ∀ r r', ρ r r' → r < a.next ∧ r' < b.next
  inj : ∀ r r' s s', ρ r r' → ρ s s' → (r = s ↔ r' = s')
  geos : a.geos.get p = b.geos.get p
  jobs : a.jobs.count p = b.jobs.count p
  params : a.params.get p = b.params.get p

/-- Two goroutines that do the same to stores that match. -/
def Prog.Sim (p : Str) (P : Str → Prop) : (Ref → Ref → Prop) → Prog → Prog → Prop
  | _, .ret r, q' => q' = .ret r
  | ρ, .step f k, q' => ∃ f' k', q' = .step f' k' ∧ ∀ clk a b ρ', (∀ r r', ρ r r' → ρ' r r') → Matches p P ρ' a b →
      ∃ ρ'', (∀ r r', ρ' r r' → ρ'' r r') ∧ Matches p P ρ'' (f clk a) (f' clk b) ∧ Prog.Sim p P ρ'' (k clk a) (k' clk b)

variable {p : Str} {P : Str → Prop} {ρ : Ref → Ref → Prop}

theorem Prog.Sim.mono {ρ' : Ref → Ref → Prop} (hρ : ∀ r r', ρ r r' → ρ' r r') : ∀ {q q' : Prog}, q.Sim p P ρ q' → q.Sim p P ρ' q'
  | .ret _, _, h => h
  | .step _ _, _, h => by
    obtain ⟨f', k', e, h⟩ := h
    exact ⟨f', k', e, fun clk a b ρ2 h2 => h clk a b ρ2 fun r r' hr => h2 r r' (hρ r r' hr)⟩

theorem sim_ret (r : Res (Option Out)) : (Prog.ret r).Sim p P ρ (.ret r) := rfl

theorem sim_get (k k' : Option Ref → Prog) (h0 : (k none).Sim p P ρ (k' none))
    (h1 : ∀ (ρ' : Ref → Ref → Prop) r r', (∀ r r', ρ r r' → ρ' r r') → ρ' r r' → (k (some r)).Sim p P ρ' (k' (some r'))) :
    (Prog.get p k).Sim p P ρ (Prog.get p k') := by
  refine ⟨_, _, rfl, fun clk a b ρ' hρ hm => ⟨ρ', fun _ _ h => h, hm, ?_⟩⟩
  show (k (a.byPhone.get p)).Sim p P ρ' (k' (b.byPhone.get p))
  have hi := hm.index
  generalize a.byPhone.get p = x at hi
  generalize b.byPhone.get p = y at hi
  match x, y, hi with
  | none, none, _ => exact h0.mono hρ
  | some r, some r', hr => exact h1 ρ' r r' hρ hr

theorem sim_read {α : Type} (g g' : Clock → Store → α) (k k' : α → Prog)
    (hg : ∀ clk a b (ρ' : Ref → Ref → Prop), (∀ r r', ρ r r' → ρ' r r') → Matches p P ρ' a b → g clk a = g' clk b)
    (hk : ∀ x, (k x).Sim p P ρ (k' x)) : (Prog.read g k).Sim p P ρ (Prog.read g' k') := by
  refine ⟨_, _, rfl, fun clk a b ρ' hρ hm => ⟨ρ', fun _ _ h => h, hm, ?_⟩⟩
  show (k (g clk a)).Sim p P ρ' (k' (g' clk b))
  rw [hg clk a b ρ' hρ hm]
  exact (hk _).mono hρ

theorem sim_upd (f f' : Store → Store) (next next' : Prog)
    (hf : ∀ a b (ρ' : Ref → Ref → Prop), (∀ r r', ρ r r' → ρ' r r') → Matches p P ρ' a b → Matches p P ρ' (f a) (f' b))
    (hk : next.Sim p P ρ next') : (Prog.upd f next).Sim p P ρ (Prog.upd f' next') :=
  ⟨_, _, rfl, fun _ a b ρ' hρ hm => ⟨ρ', fun _ _ h => h, hf a b ρ' hρ hm, hk.mono hρ⟩⟩

theorem Matches.set {a b : Store} (hm : Matches p P ρ a b) {r r' : Ref} (hr : ρ r r') (d : Device) (hd : d.phone = p) :
    Matches p P ρ (a.setDev r d) (b.setDev r' d) := by
  refine ⟨hm.index, hm.plates, fun s s' hs => ?_, fun s s' hs => ?_, hm.old, hm.inj, hm.geos, hm.jobs, hm.params⟩
  · by_cases e : s = r
    · have e' := (hm.inj _ _ _ _ hs hr).1 e
      subst e e'
      simp [Store.setDev]
    · have e' : s' ≠ r' := fun h => e ((hm.inj _ _ _ _ hs hr).2 h)
      rw [Store.setDev_heap_ne _ _ e, Store.setDev_heap_ne _ _ e']
      exact hm.heap _ _ hs
  · by_cases e : s = r
    · subst e; simpa [Store.setDev] using hd
    · rw [Store.setDev_heap_ne _ _ e]; exact hm.phone _ _ hs

theorem sim_put {r r' : Ref} (hr : ρ r r') (g : Clock → Device → Device) (hg : ∀ clk d, (g clk d).phone = d.phone)
    (next next' : Prog) (hk : next.Sim p P ρ next') : (Prog.put r g next).Sim p P ρ (Prog.put r' g next') := by
  refine ⟨_, _, rfl, fun clk a b ρ' hρ hm => ⟨ρ', fun _ _ h => h, ?_, hk.mono hρ⟩⟩
  rw [← hm.heap r r' (hρ _ _ hr)]
  exact hm.set (hρ _ _ hr) _ ((hg _ _).trans (hm.phone _ _ (hρ _ _ hr)))

theorem Matches.cache {a b : Store} (hm : Matches p P ρ a b) {r r' : Ref} (hr : ρ r r') :
    Matches p P ρ (a.cacheDevice r) (b.cacheDevice r') := by
  have e := hm.heap _ _ hr
  refine ⟨?_, fun pl hpl => ?_, hm.heap, hm.phone, hm.old, hm.inj, hm.geos, hm.jobs, hm.params⟩
  · simp only [Store.cacheDevice, AMap.get_set, ← e]
    split
    · exact hr
    · exact hm.index
  · simp only [Store.cacheDevice, AMap.get_set, ← e]
    split
    · exact hr
    · exact hm.plates pl hpl

theorem sim_cache {r r' : Ref} (hr : ρ r r') (next next' : Prog) (hk : next.Sim p P ρ next') :
    (Prog.upd (·.cacheDevice r) next).Sim p P ρ (Prog.upd (·.cacheDevice r') next') :=
  sim_upd _ _ _ _ (fun _ _ _ hρ hm => hm.cache (hρ _ _ hr)) hk

theorem Matches.del {a b : Store} (hm : Matches p P ρ a b) : Matches p P ρ (a.delByPhone p) (b.delByPhone p) := by
  have hi := hm.index
  unfold Store.delByPhone
  cases ha : a.byPhone.get p with
  | none =>
    cases hb : b.byPhone.get p with
    | none => exact hm
    | some r' => rw [ha, hb] at hi; exact hi.elim
  | some r =>
    cases hb : b.byPhone.get p with
    | none => rw [ha, hb] at hi; exact hi.elim
    | some r' =>
      rw [ha, hb] at hi
      have hr : ρ r r' := hi
      have e := hm.heap _ _ hr
      refine ⟨?_, fun pl hpl => ?_, hm.heap, hm.phone, hm.old, hm.inj, hm.geos, hm.jobs, hm.params⟩
      · simp only [AMap.get_del, ← e]
        split
        · trivial
        · exact hm.index
      · simp only [AMap.get_del, ← e]
        split
        · trivial
        · exact hm.plates pl hpl

theorem Matches.cancel {a b : Store} (hm : Matches p P ρ a b) : Matches p P ρ (a.cancelJob p) (b.cancelJob p) :=
  ⟨hm.index, hm.plates, hm.heap, hm.phone, hm.old, hm.inj, hm.geos, by
    simp only [Store.cancelJob]; rw [count_cancel_self, count_cancel_self], hm.params⟩

theorem sim_drop {r r' : Ref} (hr : ρ r r') (next next' : Prog) (hk : next.Sim p P ρ next') :
    (Prog.upd (fun st => st.cancelJob (st.heap r).phone) <|
      .upd (fun st => st.delByPhone (st.heap r).phone) next).Sim p P ρ
    (Prog.upd (fun st => st.cancelJob (st.heap r').phone) <|
      .upd (fun st => st.delByPhone (st.heap r').phone) next') := by
  have ph : ∀ a b (ρ' : Ref → Ref → Prop), (∀ r r', ρ r r' → ρ' r r') → Matches p P ρ' a b →
      (a.heap r).phone = p ∧ (b.heap r').phone = p := fun a b ρ' hρ hm =>
    ⟨hm.phone _ _ (hρ _ _ hr), by rw [← hm.heap _ _ (hρ _ _ hr)]; exact hm.phone _ _ (hρ _ _ hr)⟩
  refine sim_upd _ _ _ _ (fun a b ρ' hρ hm => ?_) (sim_upd _ _ _ _ (fun a b ρ' hρ hm => ?_) hk)
  · obtain ⟨e1, e2⟩ := ph a b ρ' hρ hm
    simp only [e1, e2]; exact hm.cancel
  · obtain ⟨e1, e2⟩ := ph a b ρ' hρ hm
    simp only [e1, e2]; exact hm.del

theorem writeGeo_byPlate (st : Store) (p : Str) (dg : DeviceGeo) : (st.writeGeo p dg).1.byPlate = st.byPlate := by
  unfold Store.writeGeo Store.geoRing
  cases st.geos.get p with
  | none =>
    simp only
    cases (Ring.new ringCapacity).write (some dg) <;> rfl
  | some rb =>
    simp only
    cases rb.write (some dg) <;> rfl

theorem writeGeo_params (st : Store) (p : Str) (dg : DeviceGeo) : (st.writeGeo p dg).1.params = st.params := by
  unfold Store.writeGeo Store.geoRing
  cases st.geos.get p with
  | none =>
    simp only
    cases (Ring.new ringCapacity).write (some dg) <;> rfl
  | some rb =>
    simp only
    cases rb.write (some dg) <;> rfl

theorem sim_geo {r r' : Ref} (hr : ρ r r') (h : Header) (dg : DeviceGeo) : (progGeo h r dg).Sim p P ρ (progGeo h r' dg) := by
  refine ⟨_, _, rfl, fun clk a b ρ' hρ hm => ?_⟩
  have e := hm.heap _ _ (hρ _ _ hr)
  have ep := hm.phone _ _ (hρ _ _ hr)
  have er : (a.writeGeo p dg).2 = (b.writeGeo p dg).2 := by rw [writeGeo_res, writeGeo_res, hm.geos]
  obtain ⟨a2, a1, a4, a5⟩ := writeGeo_rest a p dg
  obtain ⟨b2, b1, b4, b5⟩ := writeGeo_rest b p dg
  have a3 := writeGeo_byPlate a p dg
  have b3 := writeGeo_byPlate b p dg
  refine ⟨ρ', fun _ _ h => h, ?_, ?_⟩
  · show Matches p P ρ' (a.writeGeo (a.heap r).phone dg).1 (b.writeGeo (b.heap r').phone dg).1
    rw [← e, ep]
    refine ⟨?_, fun pl hpl => ?_, fun s s' hs => ?_, fun s s' hs => ?_, fun s s' hs => ?_, hm.inj, ?_, ?_, ?_⟩
    · rw [a2, b2]; exact hm.index
    · rw [a3, b3]; exact hm.plates pl hpl
    · rw [a1, b1]; exact hm.heap _ _ hs
    · rw [a1]; exact hm.phone _ _ hs
    · rw [a4, b4]; exact hm.old _ _ hs
    · rw [writeGeo_geos, writeGeo_geos, hm.geos]
    · rw [a5, b5]; exact hm.jobs
    · rw [writeGeo_params, writeGeo_params]; exact hm.params
  · show Prog.Sim p P ρ' (match (a.writeGeo (a.heap r).phone dg).2 with
      | .ok _ => Prog.ret (.ok (some (gen8001 h 0))) | .err e => .ret (.err e) | .panic => .ret .panic)
      (match (b.writeGeo (b.heap r').phone dg).2 with
      | .ok _ => Prog.ret (.ok (some (gen8001 h 0))) | .err e => .ret (.err e) | .panic => .ret .panic)
    rw [← e, ep, er]
    cases (b.writeGeo p dg).2 <;> rfl

theorem sim_expired {r r' : Ref} (hr : ρ r r') (yes yes' no no' : Prog) (h1 : yes.Sim p P ρ yes') (h2 : no.Sim p P ρ no') :
    (progExpired r yes no).Sim p P ρ (progExpired r' yes' no') := by
  refine sim_read _ _ _ _ (fun clk a b ρ' hρ hm => by rw [hm.heap _ _ (hρ _ _ hr)]) fun x => ?_
  split
  · exact h1
  · exact h2

theorem sim_clear {r r' : Ref} (hr : ρ r r') : (progClear p r).Sim p P ρ (progClear p r') := by
  refine sim_read _ _ _ _ (fun clk a b ρ' hρ hm => by rw [hm.heap _ _ (hρ _ _ hr)]) fun x => ?_
  split
  · refine sim_expired hr _ _ _ _ ?_ rfl
    refine sim_read (fun _ st => (st.heap r).conn) (fun _ st => (st.heap r').conn) _ _
      (fun clk a b ρ' hρ hm => by rw [hm.heap _ _ (hρ _ _ hr)]) fun x => ?_
    cases x with
    | none => rfl
    | some c =>
      refine sim_upd _ _ _ _ (fun a b ρ' hρ hm =>
        ⟨hm.index, hm.plates, hm.heap, hm.phone, hm.old, hm.inj, hm.geos, hm.jobs, hm.params⟩) ?_
      refine sim_upd _ _ _ _ (fun a b ρ' hρ hm => hm.del) ?_
      refine sim_upd _ _ _ _ (fun a b ρ' hρ hm => ⟨hm.index, hm.plates, hm.heap, hm.phone, hm.old, hm.inj, ?_, hm.jobs,
        hm.params⟩) ?_
      · simp only [Store.delGeo, AMap.get_del_self]
      · exact sim_upd _ _ _ _ (fun a b ρ' hρ hm => hm.cancel) rfl
  · rfl

theorem Matches.hasPlate {a b : Store} (hm : Matches p P ρ a b) {pl : Str} (h : P pl) : a.hasPlate pl = b.hasPlate pl :=
  (hm.plates pl h).isSome

theorem Matches.hasPhone {a b : Store} (hm : Matches p P ρ a b) : a.hasPhone p = b.hasPhone p := hm.index.isSome

/-- A new device is put at the two next free addresses. -/
theorem Matches.alloc {a b : Store} (hm : Matches p P ρ a b) (d : Device) (hd : d.phone = p) :
    Matches p P (fun r r' => ρ r r' ∨ (r = a.next ∧ r' = b.next)) (a.alloc d).1 (b.alloc d).1 := by
  have ha : ∀ r r', ρ r r' → (a.alloc d).1.heap r = a.heap r := by
    intro r r' h; simp only [Store.alloc]; rw [if_neg (Nat.ne_of_lt (hm.old _ _ h).1)]
  have hb : ∀ r r', ρ r r' → (b.alloc d).1.heap r' = b.heap r' := by
    intro r r' h; simp only [Store.alloc]; rw [if_neg (Nat.ne_of_lt (hm.old _ _ h).2)]
  refine ⟨hm.index.mono fun _ _ => .inl, fun pl hpl => (hm.plates pl hpl).mono fun _ _ => .inl, ?_, ?_, ?_, ?_, hm.geos, hm.jobs,
    hm.params⟩
  · rintro r r' (h | ⟨rfl, rfl⟩)
    · rw [ha _ _ h, hb _ _ h]; exact hm.heap _ _ h
    · simp [Store.alloc]
  · rintro r r' (h | ⟨rfl, rfl⟩)
    · rw [ha _ _ h]; exact hm.phone _ _ h
    · simpa [Store.alloc] using hd
  · rintro r r' (h | ⟨rfl, rfl⟩)
    · exact ⟨Nat.lt_succ_of_lt (hm.old _ _ h).1, Nat.lt_succ_of_lt (hm.old _ _ h).2⟩
    · exact ⟨Nat.lt_succ_self _, Nat.lt_succ_self _⟩
  · rintro r r' s s' (h | ⟨rfl, rfl⟩) (h' | ⟨rfl, rfl⟩)
    · exact hm.inj _ _ _ _ h h'
    · have := hm.old _ _ h
      exact ⟨fun e => absurd e (Nat.ne_of_lt this.1), fun e => absurd e (Nat.ne_of_lt this.2)⟩
    · have := hm.old _ _ h'
      exact ⟨fun e => absurd e.symm (Nat.ne_of_lt this.1), fun e => absurd e.symm (Nat.ne_of_lt this.2)⟩
    · simp

/-- The goroutines that concern only their own terminal and the plates `P`: all but registrations with other plates. -/
def Task.homely (P : Str → Prop) : Task → Prop
  | .msg _ _ (.m0100 m) => P m.plate
  | _ => True

theorem Matches.cacheParams {a b : Store} (hm : Matches p P ρ a b) (x : DeviceParams) :
    Matches p P ρ (a.cacheParams x) (b.cacheParams x) :=
  ⟨hm.index, hm.plates, hm.heap, hm.phone, hm.old, hm.inj, hm.geos, hm.jobs, by
    simp only [Store.cacheParams, AMap.get_set, hm.params]⟩

theorem sim_task (env : Env) (t : Task) (h : t.homely P) : (t.prog env).Sim t.phone P ρ (t.prog env) := by
  have rd : ∀ {α : Type} (p : Str) (ρ : Ref → Ref → Prop) (r r' : Ref) (_ : ρ r r') (g : Clock → Device → α) clk a b
      (ρ' : Ref → Ref → Prop), (∀ r r', ρ r r' → ρ' r r') → Matches p P ρ' a b → g clk (a.heap r) = g clk (b.heap r') :=
    fun p ρ r r' hr g clk a b ρ' hρ hm => by rw [hm.heap _ _ (hρ _ _ hr)]
  cases t with
  | check ph =>
    show (progCheck ph).Sim ph P ρ (progCheck ph)
    refine sim_get _ _ (sim_upd _ _ _ _ (fun _ _ _ _ hm => hm.cancel) rfl) fun ρ' r r' _ hr => ?_
    refine sim_read _ _ _ _ (rd ph ρ' r r' hr fun _ d => d.status) fun x => ?_
    split
    · refine sim_expired hr _ _ _ _ ?_ (sim_clear hr)
      refine sim_put hr _ (by intro _ _; rfl) _ _ ?_
      exact sim_cache hr _ _ (sim_ret _)
    · exact sim_clear hr
  | msg c hd m =>
    cases m with
    | m0001 m => rfl
    | m0104 m => rfl
    | m1205 m => rfl
    | m9205 m => rfl
    | m8103 m =>
      show (prog8103 hd m).Sim hd.phone P ρ (prog8103 hd m)
      refine sim_read _ _ _ _ (fun _ a b ρ' _ hm => hm.params) fun x => ?_
      exact sim_upd _ _ _ _ (fun a b ρ' _ hm => hm.cacheParams _) (sim_ret _)
    | m8104 =>
      show (prog8104 env hd).Sim hd.phone P ρ (prog8104 env hd)
      refine sim_read _ _ _ _ (fun _ a b ρ' _ hm => hm.params) fun x => ?_
      cases x with
      | some x => exact sim_ret _
      | none =>
        simp only
        cases fixedDecode env hd.phone with
        | ok x => exact sim_upd _ _ _ _ (fun a b ρ' _ hm => hm.cacheParams _) (sim_ret _)
        | err e => exact sim_ret _
        | panic => exact sim_ret _
    | m0002 =>
      show (prog0002 hd).Sim hd.phone P ρ (prog0002 hd)
      refine sim_get _ _ rfl fun ρ' r r' _ hr => ?_
      refine sim_put hr _ (by intro _ _; rfl) _ _ ?_
      exact sim_cache hr _ _ (sim_ret _)
    | m0003 =>
      show (prog0003 hd).Sim hd.phone P ρ (prog0003 hd)
      exact sim_get _ _ rfl fun ρ' r r' _ hr => sim_drop hr _ _ rfl
    | m0100 m =>
      show (prog0100 c hd m).Sim hd.phone P ρ (prog0100 c hd m)
      refine sim_read _ _ _ _ (fun _ a b ρ' _ hm => hm.hasPlate h) fun x => ?_
      split
      · rfl
      · refine sim_read _ _ _ _ (fun _ a b ρ' _ hm => hm.hasPhone) fun x => ?_
        split
        · rfl
        · refine ⟨_, _, rfl, fun clk a b ρ' hρ hm => ⟨_, fun _ _ h => .inl h, hm.alloc _ rfl, ?_⟩⟩
          refine sim_cache (.inr ⟨rfl, rfl⟩) _ _ ?_
          refine sim_get _ _ rfl fun ρ2 r r' _ hr => ?_
          refine sim_upd _ _ _ _ (fun a b ρ' hρ hm => ⟨hm.index, hm.plates, hm.heap, hm.phone, hm.old, hm.inj, hm.geos, ?_,
            hm.params⟩) rfl
          simp only [List.count_append, hm.jobs]
    | m0102 m =>
      show (prog0102 hd m).Sim hd.phone P ρ (prog0102 hd m)
      refine sim_get _ _ rfl fun ρ' r r' _ hr => ?_
      refine sim_read (fun _ st => (st.heap r).code) (fun _ st => (st.heap r').code) _ _ (rd hd.phone ρ' r r' hr fun _ d => d.code)
        fun x => ?_
      split
      · exact sim_drop hr _ _ rfl
      · refine sim_put hr _ (by intro _ _; rfl) _ _ ?_
        refine sim_put hr _ (by intro _ _; rfl) _ _ ?_
        refine sim_put hr _ (by intro _ _; rfl) _ _ ?_
        refine sim_put hr _ (by intro _ _; rfl) _ _ ?_
        refine sim_put hr _ (by intro _ _; rfl) _ _ ?_
        exact sim_cache hr _ _ (sim_ret _)
    | m0200 m =>
      show (prog0200 hd m).Sim hd.phone P ρ (prog0200 hd m)
      refine sim_get _ _ rfl fun ρ' r r' _ hr => ?_
      refine sim_read _ _ _ _ (rd hd.phone ρ' r r' hr fun clk d => DeviceGeo.decode clk.civil d.phone m) fun x => ?_
      split
      · refine sim_put hr _ (by intro _ _; rfl) _ _ ?_
        refine sim_put hr _ (by intro _ _; rfl) _ _ ?_
        exact sim_cache hr _ _ (sim_geo hr hd x)
      · exact sim_geo hr hd x
    | m8001 m =>
      show (prog8001 hd m).Sim hd.phone P ρ (prog8001 hd m)
      unfold prog8001
      split
      · refine sim_get _ _ rfl fun ρ' r r' _ hr => ?_
        refine sim_read _ _ _ _ (rd hd.phone ρ' r r' hr fun _ d => d.status) fun x => ?_
        split
        · rfl
        · refine sim_put hr _ (by intro _ _; rfl) _ _ ?_
          refine sim_put hr _ (by intro _ _; rfl) _ _ ?_
          exact sim_cache hr _ _ (sim_ret _)
      · rfl
    | m8100 m =>
      show (prog8100 hd m).Sim hd.phone P ρ (prog8100 hd m)
      refine sim_get _ _ rfl fun ρ' r r' _ hr => ?_
      exact sim_read _ _ _ _ (rd hd.phone ρ' r r' hr fun _ d => d.imei) fun x =>
        sim_read _ _ _ _ (rd hd.phone ρ' r r' hr fun _ d => d.software) fun y => rfl

/-! ### The plates of others -/

/-- A goroutine for phone `q` that touches no entry for a plate that no device of `q` has, and no parameters of others. -/
def Prog.Keeps (q : Str) : Store → Prog → Prop
  | _, .ret _ => True
  | st, .step f k => ∀ clk st', Grows st st' → CInv st' →
      (∀ pl, (∀ r, r < (f clk st').next → ((f clk st').heap r).phone = q → ((f clk st').heap r).plate ≠ pl) →
        (f clk st').byPlate.get pl = st'.byPlate.get pl) ∧
      (∀ p, p ≠ q → (f clk st').params.get p = st'.params.get p) ∧
      Prog.Keeps q (f clk st') (k clk st')

variable {q : Str} {st : Store}

theorem Prog.Keeps.mono {st' : Store} (hg : Grows st st') : ∀ {c : Prog}, c.Keeps q st → c.Keeps q st'
  | .ret _, _ => trivial
  | .step _ _, h => fun clk st2 h2 => h clk st2 (hg.trans h2)

theorem keeps_read {α : Type} (g : Clock → Store → α) (k : α → Prog)
    (h : ∀ x st', Grows st st' → (k x).Keeps q st') : (Prog.read g k).Keeps q st :=
  fun _ st' hg _ => ⟨fun _ _ => rfl, fun _ _ => rfl, h _ st' hg⟩

theorem keeps_get (k : Option Ref → Prog) (h0 : ∀ st', Grows st st' → (k none).Keeps q st')
    (h1 : ∀ r st', Grows st st' → Held q st' r → (k (some r)).Keeps q st') : (Prog.get q k).Keeps q st := by
  intro clk st' hg hi
  refine ⟨fun _ _ => rfl, fun _ _ => rfl, ?_⟩
  cases hd : st'.devByPhone q with
  | none => simp only [hd]; exact h0 st' hg
  | some r => simp only [hd]; exact h1 r st' hg (hi.phoneOK _ _ hd)

theorem keeps_upd (f : Store → Store) (next : Prog)
    (hf : ∀ st, (f st).byPlate = st.byPlate ∧ (f st).heap = st.heap ∧ (f st).next = st.next ∧ (f st).params = st.params)
    (h : ∀ st', Grows st st' → next.Keeps q st') : (Prog.upd f next).Keeps q st := by
  intro clk st' hg _
  obtain ⟨e1, e2, e3, e4⟩ := hf st'
  exact ⟨fun _ _ => by rw [e1], fun _ _ => by rw [e4], h _ (hg.trans ⟨Nat.le_of_eq e3.symm, fun r _ => by rw [e2]; exact SameIdent.refl _⟩)⟩

theorem keeps_put {r : Ref} (g : Clock → Device → Device) (next : Prog) (hs : ∀ clk d, SameIdent d (g clk d))
    (h : ∀ st', Grows st st' → next.Keeps q st') : (Prog.put r g next).Keeps q st :=
  fun clk st' hg _ => ⟨fun _ _ => rfl, fun _ _ => rfl, h _ (hg.trans ⟨Nat.le_refl _, fun x _ => SameIdent.setDev (hs clk (st'.heap r)) x⟩)⟩

theorem keeps_cache {r : Ref} (next : Prog) (hr : Held q st r) (h : ∀ st', Grows st st' → next.Keeps q st') :
    (Prog.upd (·.cacheDevice r) next).Keeps q st := by
  intro clk st' hg _
  refine ⟨fun pl hpl => ?_, fun _ _ => rfl, h _ (hg.trans ⟨Nat.le_refl _, fun _ _ => SameIdent.refl _⟩)⟩
  have hh := hr.mono hg
  have hne : (st'.heap r).plate ≠ pl := hpl r hh.1 hh.2
  simp only [Store.cacheDevice, AMap.get_set]
  rw [if_neg]
  first | exact hne | exact fun e => hne e.symm

theorem keeps_del (ph : Store → Str) (next : Prog) (hph : ∀ st', Grows st st' → ph st' = q)
    (h : ∀ st', Grows st st' → next.Keeps q st') :
    (Prog.upd (fun st => st.delByPhone (ph st)) next).Keeps q st := by
  intro clk st' hg hi
  rw [show (fun (_ : Clock) (st : Store) => st.delByPhone (ph st)) clk st' = st'.delByPhone q by simp only [hph st' hg]]
  unfold Store.delByPhone
  cases hd : st'.byPhone.get q with
  | none => exact ⟨fun _ _ => rfl, fun _ _ => rfl, h _ hg⟩
  | some r =>
    obtain ⟨h1, h2⟩ := hi.phoneOK _ _ hd
    refine ⟨fun pl hpl => ?_, fun _ _ => rfl, h _ (hg.trans ⟨Nat.le_refl _, fun _ _ => SameIdent.refl _⟩)⟩
    have hne : (st'.heap r).plate ≠ pl := hpl r h1 h2
    simp only [AMap.get_del]
    rw [if_neg]
    first | exact hne | exact fun e => hne e.symm

theorem keeps_drop {r : Ref} (next : Prog) (hr : Held q st r) (h : ∀ st', Grows st st' → next.Keeps q st') :
    (Prog.upd (fun st => st.cancelJob (st.heap r).phone) <|
      .upd (fun st => st.delByPhone (st.heap r).phone) next).Keeps q st :=
  keeps_upd _ _ (fun _ => ⟨rfl, rfl, rfl, rfl⟩) fun st1 h1 =>
    keeps_del (fun st => (st.heap r).phone) _ (fun st2 h2 => (hr.mono (h1.trans h2)).2) fun st3 h3 => h st3 (h1.trans h3)

theorem keeps_geo (h : Header) (r : Ref) (dg : DeviceGeo) : (progGeo h r dg).Keeps q st := by
  intro clk st' _ _
  refine ⟨fun pl _ => ?_, fun x _ => ?_, ?_⟩
  · show ((st'.writeGeo (st'.heap r).phone dg).1.byPlate).get pl = _
    rw [writeGeo_byPlate]
  · show ((st'.writeGeo (st'.heap r).phone dg).1.params).get x = _
    rw [writeGeo_params]
  · show Prog.Keeps q _ (match (st'.writeGeo (st'.heap r).phone dg).2 with
      | .ok _ => Prog.ret (.ok (some (gen8001 h 0))) | .err e => .ret (.err e) | .panic => .ret .panic)
    cases (st'.writeGeo (st'.heap r).phone dg).2 <;> trivial

theorem keeps_params (x : DeviceParams) (next : Prog) (hx : x.phone = q) (h : ∀ st', Grows st st' → next.Keeps q st') :
    (Prog.upd (·.cacheParams x) next).Keeps q st := by
  intro clk st' hg _
  refine ⟨fun _ _ => rfl, fun p hp => ?_, h _ (hg.trans ⟨Nat.le_refl _, fun _ _ => SameIdent.refl _⟩)⟩
  subst hx
  exact AMap.get_set_ne _ _ hp

/-- Parameters are set under the number in the header, as Decode makes the message. -/
def Task.Addressed : Task → Prop
  | .msg _ h (.m8103 m) => m.params.phone = h.phone
  | _ => True

theorem keeps_task (env : Env) (t : Task) (ht : t.Addressed) (st : Store) : (t.prog env).Keeps t.phone st := by
  cases t with
  | check ph =>
    have expired : ∀ r (yes no : Prog) st, (∀ st', Grows st st' → yes.Keeps ph st') → (∀ st', Grows st st' → no.Keeps ph st') →
        (progExpired r yes no).Keeps ph st := by
      intro r yes no st h1 h2
      refine keeps_read _ _ fun x st' hg => ?_
      split
      · exact h1 st' hg
      · exact h2 st' hg
    have clear : ∀ r st, (progClear ph r).Keeps ph st := by
      intro r st
      refine keeps_read _ _ fun x st1 _ => ?_
      split
      · refine expired _ _ _ _ (fun st2 _ => ?_) fun _ _ => trivial
        refine keeps_read (fun _ st => (st.heap r).conn) _ fun x st3 _ => ?_
        cases x with
        | none => trivial
        | some c =>
          refine keeps_upd _ _ (fun _ => ⟨rfl, rfl, rfl, rfl⟩) fun st4 _ => ?_
          refine keeps_del (fun _ => ph) _ (fun _ _ => rfl) fun st5 _ => ?_
          exact keeps_upd _ _ (fun _ => ⟨rfl, rfl, rfl, rfl⟩) fun st6 _ => keeps_upd _ _ (fun _ => ⟨rfl, rfl, rfl, rfl⟩) fun _ _ => trivial
      · trivial
    show (progCheck ph).Keeps ph st
    refine keeps_get _ (fun st1 _ => keeps_upd _ _ (fun _ => ⟨rfl, rfl, rfl, rfl⟩) fun _ _ => trivial) fun r st1 _ hr => ?_
    refine keeps_read _ _ fun x st2 h2 => ?_
    split
    · refine expired _ _ _ _ (fun st3 h3 => ?_) fun st3 _ => clear r st3
      refine keeps_put _ _ (fun _ _ => by constructor <;> rfl) fun st4 h4 => ?_
      exact keeps_cache _ (hr.mono (h2.trans (h3.trans h4))) fun _ _ => trivial
    · exact clear r st2
  | msg c h m =>
    cases m with
    | m0001 m => trivial
    | m0104 m => trivial
    | m1205 m => trivial
    | m9205 m => trivial
    | m0002 =>
      show (prog0002 h).Keeps h.phone st
      refine keeps_get _ (fun _ _ => trivial) fun r st1 _ hr => ?_
      refine keeps_put _ _ (fun _ _ => by constructor <;> rfl) fun st2 h2 => ?_
      exact keeps_cache _ (hr.mono h2) fun _ _ => trivial
    | m0003 =>
      show (prog0003 h).Keeps h.phone st
      exact keeps_get _ (fun _ _ => trivial) fun r st1 _ hr => keeps_drop _ hr fun _ _ => trivial
    | m0100 m =>
      show (prog0100 c h m).Keeps h.phone st
      refine keeps_read _ _ fun x st1 _ => ?_
      split
      · trivial
      · refine keeps_read _ _ fun x st2 _ => ?_
        split
        · trivial
        · intro clk st3 _ _
          refine ⟨fun _ _ => rfl, fun _ _ => rfl, ?_⟩
          refine keeps_cache _ ⟨by simp [Store.alloc], by simp [Store.alloc, Device.new]⟩ fun st4 _ => ?_
          exact keeps_get _ (fun _ _ => trivial) fun r st5 _ _ => keeps_upd _ _ (fun _ => ⟨rfl, rfl, rfl, rfl⟩) fun _ _ => trivial
    | m0102 m =>
      show (prog0102 h m).Keeps h.phone st
      refine keeps_get _ (fun _ _ => trivial) fun r st1 _ hr => ?_
      refine keeps_read (fun _ st => (st.heap r).code) _ fun x st2 h2 => ?_
      split
      · exact keeps_drop _ (hr.mono h2) fun _ _ => trivial
      · refine keeps_put _ _ (fun _ _ => by constructor <;> rfl) fun st3 h3 => ?_
        refine keeps_put _ _ (fun _ _ => by constructor <;> rfl) fun st4 h4 => ?_
        refine keeps_put _ _ (fun _ _ => by constructor <;> rfl) fun st5 h5 => ?_
        refine keeps_put _ _ (fun _ _ => by constructor <;> rfl) fun st6 h6 => ?_
        refine keeps_put _ _ (fun _ _ => by constructor <;> rfl) fun st7 h7 => ?_
        exact keeps_cache _ (hr.mono (h2.trans (h3.trans (h4.trans (h5.trans (h6.trans h7)))))) fun _ _ => trivial
    | m0200 m =>
      show (prog0200 h m).Keeps h.phone st
      refine keeps_get _ (fun _ _ => trivial) fun r st1 _ hr => ?_
      refine keeps_read _ _ fun x st2 h2 => ?_
      split
      · refine keeps_put _ _ (fun _ _ => by constructor <;> rfl) fun st3 h3 => ?_
        refine keeps_put _ _ (fun _ _ => by constructor <;> rfl) fun st4 h4 => ?_
        exact keeps_cache _ (hr.mono (h2.trans (h3.trans h4))) fun _ _ => keeps_geo h r x
      · exact keeps_geo h r x
    | m8001 m =>
      show (prog8001 h m).Keeps h.phone st
      unfold prog8001
      split
      · refine keeps_get _ (fun _ _ => trivial) fun r st1 _ hr => ?_
        refine keeps_read _ _ fun x st2 h2 => ?_
        split
        · trivial
        · refine keeps_put _ _ (fun _ _ => by constructor <;> rfl) fun st3 h3 => ?_
          refine keeps_put _ _ (fun _ _ => by constructor <;> rfl) fun st4 h4 => ?_
          exact keeps_cache _ (hr.mono (h2.trans (h3.trans h4))) fun _ _ => trivial
      · trivial
    | m8100 m =>
      show (prog8100 h m).Keeps h.phone st
      refine keeps_get _ (fun _ _ => trivial) fun r st1 _ hr => ?_
      exact keeps_read _ _ fun _ _ _ => keeps_read _ _ fun _ _ _ => trivial
    | m8103 m =>
      show (prog8103 h m).Keeps h.phone st
      intro clk st1 _ hi
      refine ⟨fun _ _ => rfl, fun _ _ => rfl, ?_⟩
      refine keeps_params _ _ ?_ fun _ _ => trivial
      show (match st1.paramsOf h.phone with | none => m.params | some old => old.update id m.params).phone = h.phone
      cases hp : st1.paramsOf h.phone with
      | none => exact ht
      | some old => exact (show (old.update id m.params).phone = old.phone from rfl).trans (hi.params _ _ hp)
    | m8104 =>
      show (prog8104 env h).Keeps h.phone st
      refine keeps_read _ _ fun x st1 _ => ?_
      cases x with
      | some x => trivial
      | none =>
        simp only
        cases hf : fixedDecode env h.phone with
        | ok x => exact keeps_params _ _ (fixedDecode_phone hf) fun _ _ => trivial
        | err e => trivial
        | panic => trivial

theorem Matches.foreign {a b a' : Store} {N : Device → Prop} (h : Matches p P ρ a b) (ho : Own N q a a') (hq : p ≠ q)
    (hp : ∀ pl, P pl → a'.byPlate.get pl = a.byPlate.get pl) (hpp : a'.params.get p = a.params.get p) :
    Matches p P ρ a' b := by
  have hh : ∀ r r', ρ r r' → a'.heap r = a.heap r := fun r r' hr =>
    ho.dev r (h.old _ _ hr).1 (by rw [h.phone _ _ hr]; exact hq)
  refine ⟨by rw [ho.index p hq]; exact h.index, fun pl hpl => by rw [hp pl hpl]; exact h.plates pl hpl, ?_, ?_, ?_, h.inj,
    (ho.geos p hq).trans h.geos, (ho.jobs p hq).trans h.jobs, hpp.trans h.params⟩
  · intro r r' hr; rw [hh _ _ hr]; exact h.heap _ _ hr
  · intro r r' hr; rw [hh _ _ hr]; exact h.phone _ _ hr
  · intro r r' hr; exact ⟨Nat.lt_of_lt_of_le (h.old _ _ hr).1 ho.next, (h.old _ _ hr).2⟩

/-! ### The system -/

/-- A system among others and the same by itself. -/
structure Couple (p : Str) (P : Str → Prop) (ρ : Ref → Ref → Prop) (s s' : CSys) : Prop where
  stores : Matches p P ρ s.st s'.st
  tasks : ∀ i : Nat, (s.threads[i]?).map (·.1) = (s'.threads[i]?).map (·.1)
  same : ∀ (i : Nat) (t : Task) (c : Prog), s.threads[i]? = some (t, c) → t.phone = p →
    ∃ c', s'.threads[i]? = some (t, c') ∧ c.Sim p P ρ c'

/-- The other terminals do not have the plates `P`. -/
structure PlatesApart (p : Str) (P : Str → Prop) (s : CSys) : Prop where
  devices : ∀ r, r < s.st.next → (s.st.heap r).phone ≠ p → ¬ P (s.st.heap r).plate
  makes : ∀ (i : Nat) (t : Task) (c : Prog), s.threads[i]? = some (t, c) → t.phone ≠ p → ∀ d, t.Makes d → ¬ P d.plate
  keeps : ∀ (i : Nat) (t : Task) (c : Prog), s.threads[i]? = some (t, c) → c.Keeps t.phone s.st

theorem makes_phone {t : Task} {d : Device} (h : t.Makes d) : d.phone = t.phone := by
  cases t with
  | check ph => exact absurd h (by simp [Task.Makes])
  | msg c hd m =>
    cases m with
    | m0100 m => exact h.1
    | _ => exact absurd h (by simp [Task.Makes])

theorem apart_run {env : Env} {s : CSys} (hs : s.OK env) (h : PlatesApart p P s) (i : Nat) (clk : Clock) :
    PlatesApart p P (s.step env (.run i clk)) ∧
    ∀ (t : Task) (c : Prog), s.threads[i]? = some (t, c) → t.phone ≠ p → (∀ pl, P pl →
      (c.next clk s.st).1.byPlate.get pl = s.st.byPlate.get pl) ∧ (c.next clk s.st).1.params.get p = s.st.params.get p := by
  have hg := (ok_step hs (.run i clk)).2
  cases hi : s.threads[i]? with
  | none => simp only [CSys.step, hi]; exact ⟨h, fun t c e => by cases e⟩
  | some tq =>
    obtain ⟨t, c⟩ := tq
    have hdev : ∀ r, r < (c.next clk s.st).1.next → ((c.next clk s.st).1.heap r).phone ≠ p →
        ¬ P ((c.next clk s.st).1.heap r).plate := by
      intro r hr hp
      cases c with
      | ret x => exact h.devices r hr hp
      | step f k =>
        obtain ⟨a, -, -⟩ := hs.safe i t _ hi clk s.st (Grows.refl _) hs.inv
        by_cases hold : r < s.st.next
        · have := a.ident r hold
          rw [show ((Prog.step f k).next clk s.st).1 = f clk s.st from rfl] at hp ⊢
          rw [this.plate]
          exact h.devices r hold (by rw [← this.phone]; exact hp)
        · have hm := a.fresh r (Nat.not_lt.1 hold) hr
          exact h.makes i t _ hi (by rw [← makes_phone hm]; exact hp) _ hm
    have hkeep : (c.next clk s.st).2.Keeps t.phone (c.next clk s.st).1 ∧ (t.phone ≠ p → (∀ pl, P pl →
        (c.next clk s.st).1.byPlate.get pl = s.st.byPlate.get pl) ∧ (c.next clk s.st).1.params.get p = s.st.params.get p) := by
      have hk := h.keeps i t c hi
      cases c with
      | ret x => exact ⟨trivial, fun _ => ⟨fun _ _ => rfl, rfl⟩⟩
      | step f k =>
        obtain ⟨a, a', b⟩ := hk clk s.st (Grows.refl _) hs.inv
        exact ⟨b, fun hp => ⟨fun pl hpl => a pl fun r hr hph e => hdev r hr (by
          show ((f clk s.st).heap r).phone ≠ p; rw [hph]; exact hp) (by
          show P ((f clk s.st).heap r).plate; rw [e]; exact hpl), a' p (Ne.symm hp)⟩⟩
    have hg' : Grows s.st (c.next clk s.st).1 := by simpa only [CSys.step, hi] using hg
    refine ⟨?_, fun t' c' e hp => by cases e; exact hkeep.2 hp⟩
    simp only [CSys.step, hi]
    refine ⟨hdev, fun j t' c' hj => ?_, fun j t' c' hj => ?_⟩
    · simp only [List.getElem?_set] at hj
      split at hj
      · split at hj
        · cases hj; exact h.makes i t c hi
        · cases hj
      · exact h.makes j t' c' hj
    · simp only [List.getElem?_set] at hj
      split at hj
      · split at hj
        · cases hj; exact hkeep.1
        · cases hj
      · exact (h.keeps j t' c' hj).mono hg'

theorem couple_run {env : Env} {s0 s s' : CSys} (hs : s.OK env)
    (h0 : ∀ i : Nat, (s.threads[i]?).map (·.1) = (s0.threads[i]?).map (·.1)) (ha : PlatesApart p P s) (h : Couple p P ρ s s')
    (evs : List CEv) (he : ∀ e ∈ evs, ∃ i clk, e = .run i clk) :
    ∃ ρ', (∀ r r', ρ r r' → ρ' r r') ∧ Couple p P ρ' (s.run env evs) (s'.run env (evs.filter (CEv.concerns s0 p))) := by
  induction evs generalizing s s' ρ with
  | nil => exact ⟨ρ, fun _ _ h => h, h⟩
  | cons e evs ih =>
    obtain ⟨i, clk, rfl⟩ := he e List.mem_cons_self
    have he' : ∀ e ∈ evs, ∃ i clk, e = .run i clk := fun e h => he e (List.mem_cons_of_mem _ h)
    have hs1 := (ok_step hs (.run i clk)).1
    obtain ⟨ha1, hpl⟩ := apart_run hs ha i clk
    rw [crun_cons]
    cases hi : s.threads[i]? with
    | none =>
      have hstep : s.step env (.run i clk) = s := by simp only [CSys.step, hi]
      have hc : CEv.concerns s0 p (.run i clk) = false := by
        have := h0 i
        rw [hi] at this
        cases hz : s0.threads[i]? with
        | none => simp only [CEv.concerns, hz]
        | some z => rw [hz] at this; cases this
      rw [hstep, List.filter_cons_of_neg (by rw [hc]; decide)]
      exact ih hs h0 ha h he'
    | some tp =>
      obtain ⟨t, c⟩ := tp
      have hlt : i < s.threads.length := (List.getElem?_eq_some_iff.1 hi).1
      have hstep : s.step env (.run i clk) = ⟨(c.next clk s.st).1, s.threads.set i (t, (c.next clk s.st).2)⟩ := by
        simp only [CSys.step, hi]
      have ht : ∀ j : Nat, ((s.threads.set i (t, (c.next clk s.st).2))[j]?).map (·.1) = (s.threads[j]?).map (·.1) := by
        intro j
        rw [List.getElem?_set]
        split
        · rename_i hij; subst hij; rw [hi]; rfl
        · rfl
      have hc : CEv.concerns s0 p (.run i clk) = decide (t.phone = p) := by
        have := h0 i
        rw [hi] at this
        cases hz : s0.threads[i]? with
        | none => rw [hz] at this; cases this
        | some z =>
          rw [hz] at this
          obtain ⟨zt, zq⟩ := z
          simp only [Option.map_some, Option.some.injEq] at this
          subst this
          simp only [CEv.concerns, hz]
      by_cases hp : t.phone = p
      · rw [List.filter_cons_of_pos (by rw [hc]; simpa using hp), crun_cons]
        obtain ⟨c', hi', hl⟩ := h.same i t c hi hp
        have hlt' : i < s'.threads.length := (List.getElem?_eq_some_iff.1 hi').1
        have hstep' : s'.step env (.run i clk) = ⟨(c'.next clk s'.st).1, s'.threads.set i (t, (c'.next clk s'.st).2)⟩ := by
          simp only [CSys.step, hi']
        obtain ⟨ρ1, hρ1, hm1, hsim⟩ : ∃ ρ1, (∀ r r', ρ r r' → ρ1 r r') ∧
            Matches p P ρ1 (c.next clk s.st).1 (c'.next clk s'.st).1 ∧
            (c.next clk s.st).2.Sim p P ρ1 (c'.next clk s'.st).2 := by
          cases c with
          | ret r => cases (show c' = .ret r from hl); exact ⟨ρ, fun _ _ h => h, h.stores, rfl⟩
          | step f k =>
            obtain ⟨f', k', e, hl⟩ := hl
            subst e
            exact hl clk _ _ ρ (fun _ _ h => h) h.stores
        have hcouple : Couple p P ρ1 (s.step env (.run i clk)) (s'.step env (.run i clk)) := by
          rw [hstep, hstep']
          refine ⟨hm1, fun j => ?_, fun j t' q' hj hp' => ?_⟩
          · have := h.tasks j
            rw [ht j]
            simp only [List.getElem?_set]
            split
            · rename_i hij; subst hij; rw [hi]; rfl
            · exact this
          · simp only [List.getElem?_set] at hj ⊢
            split at hj
            · rename_i hij
              subst hij
              cases hj
              rw [if_pos rfl, if_pos hlt']
              exact ⟨_, rfl, hsim⟩
            · rename_i hij
              rw [if_neg hij]
              obtain ⟨x, hx, hx'⟩ := h.same j t' q' hj hp'
              exact ⟨x, hx, hx'.mono hρ1⟩
        obtain ⟨ρ2, hρ2, hres⟩ := ih hs1 (fun j => by rw [hstep]; exact (ht j).trans (h0 j)) ha1 hcouple he'
        exact ⟨ρ2, fun r r' hr => hρ2 _ _ (hρ1 _ _ hr), hres⟩
      · rw [List.filter_cons_of_neg (by rw [hc]; simpa using hp)]
        refine ih hs1 (fun j => by rw [hstep]; exact (ht j).trans (h0 j)) ha1 ?_ he'
        rw [hstep]
        refine ⟨?_, fun j => (ht j).trans (h.tasks j), fun j t' q' hj hp' => ?_⟩
        · have hk := hpl t c hi hp
          cases c with
          | ret r => exact h.stores
          | step f k => exact h.stores.foreign (hs.safe i t _ hi clk s.st (Grows.refl _) hs.inv).1 (Ne.symm hp) hk.1 hk.2
        · simp only [List.getElem?_set] at hj
          split at hj
          · rename_i hij
            subst hij
            cases hj
            exact absurd hp' hp
          · exact h.same j t' q' hj hp'

end JT808
