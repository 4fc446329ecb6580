import Verif.Proof.Conc
/-
Whole runs of interleaved goroutines: what one goroutine's future is, where devices come from, when a terminal stays
absent, and which goroutines do not influence one another.
-/
namespace JT808

theorem crun_append (env : Env) (s : CSys) (a b : List CEv) : s.run env (a ++ b) = (s.run env a).run env b :=
  List.foldl_append

theorem crun_cons (env : Env) (s : CSys) (e : CEv) (b : List CEv) : s.run env (e :: b) = (s.step env e).run env b := rfl

/-- A goroutine keeps its number and its purpose. -/
theorem task_step {env : Env} {s : CSys} {i : Nat} {t : Task} {q : Prog} (h : s.threads[i]? = some (t, q)) (e : CEv) :
    ∃ q', (s.step env e).threads[i]? = some (t, q') := by
  have hlt : i < s.threads.length := by
    rcases Nat.lt_or_ge i s.threads.length with h' | h'
    · exact h'
    · rw [List.getElem?_eq_none h'] at h; cases h
  cases e with
  | spawn t' =>
    simp only [CSys.step]
    split
    · exact ⟨q, by simp only [List.getElem?_append_left hlt, h]⟩
    · exact ⟨q, h⟩
  | run j clk =>
    simp only [CSys.step]
    cases hj : s.threads[j]? with
    | none => exact ⟨q, h⟩
    | some tp =>
      simp only [List.getElem?_set]
      by_cases hij : j = i
      · subst hij
        rw [hj] at h
        cases h
        exact ⟨(q.next clk s.st).2, by rw [if_pos rfl, if_pos hlt]⟩
      · exact ⟨q, by rw [if_neg hij, h]⟩

/-- A property of one goroutine that its own steps keep, whatever the others do. -/
theorem safe_step {env : Env} {s : CSys} (hs : s.OK env) {i : Nat} {t : Task} {q : Prog}
    {Q : Store → Res (Option Out) → Prop} {N : Device → Prop} {p : Str} (h : s.threads[i]? = some (t, q))
    (hq : q.Safe Q N p s.st) (e : CEv) :
    ∃ q', (s.step env e).threads[i]? = some (t, q') ∧ q'.Safe Q N p (s.step env e).st := by
  have hg := (ok_step hs e).2
  have hlt : i < s.threads.length := by
    rcases Nat.lt_or_ge i s.threads.length with h' | h'
    · exact h'
    · rw [List.getElem?_eq_none h'] at h; cases h
  cases e with
  | spawn t' =>
    simp only [CSys.step]
    split
    · exact ⟨q, by simp only [List.getElem?_append_left hlt, h], hq⟩
    · exact ⟨q, h, hq⟩
  | run j clk =>
    simp only [CSys.step] at hg ⊢
    cases hj : s.threads[j]? with
    | none => exact ⟨q, h, hq⟩
    | some tp =>
      simp only [hj] at hg
      simp only [List.getElem?_set]
      by_cases hij : j = i
      · subst hij
        rw [hj] at h
        cases h
        refine ⟨(q.next clk s.st).2, by rw [if_pos rfl, if_pos hlt], ?_⟩
        cases q with
        | ret r => exact hq
        | step f k => exact (hq clk s.st (Grows.refl _) hs.inv).2.2
      · exact ⟨q, by rw [if_neg hij, h], hq.mono hg⟩

theorem safe_run {env : Env} {s : CSys} (hs : s.OK env) {i : Nat} {t : Task} {q : Prog}
    {Q : Store → Res (Option Out) → Prop} {N : Device → Prop} {p : Str} (h : s.threads[i]? = some (t, q))
    (hq : q.Safe Q N p s.st) (evs : List CEv) :
    ∃ q', (s.run env evs).threads[i]? = some (t, q') ∧ q'.Safe Q N p (s.run env evs).st := by
  induction evs generalizing s q with
  | nil => exact ⟨q, h, hq⟩
  | cons e evs ih =>
    obtain ⟨q', h', hq'⟩ := safe_step hs h hq e
    exact ih (ok_step hs e).1 h' hq'

/-- A goroutine that has returned stays so. -/
theorem returned_run {env : Env} {s : CSys} {i : Nat} {t : Task} {r : Res (Option Out)}
    (h : s.threads[i]? = some (t, .ret r)) (evs : List CEv) : (s.run env evs).threads[i]? = some (t, .ret r) := by
  induction evs generalizing s with
  | nil => exact h
  | cons e evs ih =>
    refine ih ?_
    have hlt : i < s.threads.length := by
      rcases Nat.lt_or_ge i s.threads.length with h' | h'
      · exact h'
      · rw [List.getElem?_eq_none h'] at h; cases h
    cases e with
    | spawn t' =>
      simp only [CSys.step]
      split
      · simp only [List.getElem?_append_left hlt, h]
      · exact h
    | run j clk =>
      simp only [CSys.step]
      cases hj : s.threads[j]? with
      | none => exact h
      | some tp =>
        simp only [List.getElem?_set]
        by_cases hij : j = i
        · subst hij
          rw [hj] at h
          cases h
          rw [if_pos rfl, if_pos hlt]; rfl
        · rw [if_neg hij, h]

/-! ### Where devices come from -/

/-- Every device was created by a registration goroutine. -/
def CSys.Born (s : CSys) : Prop :=
  ∀ r, r < s.st.next → ∃ (i : Nat) (t : Task) (q : Prog), s.threads[i]? = some (t, q) ∧ t.Makes (s.st.heap r)

theorem Makes_ident {t : Task} {d d' : Device} (h : t.Makes d) (hs : SameIdent d d') : t.Makes d' := by
  cases t with
  | check ph => exact h
  | msg c hd m =>
    cases m with
    | m0100 m => exact ⟨hs.phone.trans h.1, hs.plate.trans h.2.1, hs.id.trans h.2.2.1, hs.conn.trans h.2.2.2.1,
      hs.sessionID.trans h.2.2.2.2.1, hs.ver.trans h.2.2.2.2.2.1, hs.protoVer.trans h.2.2.2.2.2.2.1,
      hs.keepalive.trans h.2.2.2.2.2.2.2⟩
    | _ => exact h

theorem born_step {env : Env} {s : CSys} (hs : s.OK env) (h : s.Born) (e : CEv) : (s.step env e).Born := by
  have hg := (ok_step hs e).2
  intro r hr
  by_cases hold : r < s.st.next
  · obtain ⟨i, t, q, hi, hm⟩ := h r hold
    obtain ⟨q', hq'⟩ := task_step (env := env) hi e
    exact ⟨i, t, q', hq', Makes_ident hm (hg.ident r hold)⟩
  · cases e with
    | spawn t =>
      exfalso
      apply hold
      simp only [CSys.step] at hr
      split at hr
      · exact hr
      · exact hr
    | run i clk =>
      cases hi : s.threads[i]? with
      | none => simp only [CSys.step, hi] at hr; exact absurd hr hold
      | some tp =>
        obtain ⟨t, q⟩ := tp
        obtain ⟨q', hq'⟩ := task_step (env := env) hi (.run i clk)
        refine ⟨i, t, q', hq', ?_⟩
        simp only [CSys.step, hi] at hr ⊢
        have hsafe := hs.safe i t q hi
        cases q with
        | ret r' => exact absurd hr hold
        | step f k =>
          obtain ⟨a, -, -⟩ := hsafe clk s.st (Grows.refl _) hs.inv
          exact a.fresh r (Nat.not_lt.1 hold) hr

theorem born_run {env : Env} {s : CSys} (hs : s.OK env) (h : s.Born) (evs : List CEv) : (s.run env evs).Born := by
  induction evs generalizing s with
  | nil => exact h
  | cons e evs ih => exact ih (ok_step hs e).1 (born_step hs h e)

theorem born_start : CSys.start.Born := fun _ h => absurd h (Nat.not_lt_zero _)

/-! ### Staying absent -/

/-- A goroutine that does not make the phone `p` known. -/
def Prog.Quiet (p : Str) : Prog → Prop
  | .ret _ => True
  | .step f k => ∀ clk st, st.byPhone.get p = none → (f clk st).byPhone.get p = none ∧ Prog.Quiet p (k clk st)

/-- The task is a registration of the phone. -/
def Task.registers (p : Str) : Task → Prop
  | .msg _ h (.m0100 _) => h.phone = p
  | _ => False

theorem quiet_task (env : Env) (t : Task) (hn : ¬ t.registers t.phone) : (t.prog env).Quiet t.phone := by
  have g : ∀ (ph : Str) (k : Option Ref → Prog), (k none).Quiet ph → (Prog.get ph k).Quiet ph := by
    intro ph k h clk st hst
    refine ⟨hst, ?_⟩
    have : st.devByPhone ph = none := hst
    simp only [this]; exact h
  cases t with
  | check ph =>
    show (progCheck ph).Quiet ph
    exact g _ _ fun clk st hst => ⟨hst, trivial⟩
  | msg c h m =>
    cases m with
    | m0001 m => trivial
    | m0104 m => trivial
    | m1205 m => trivial
    | m9205 m => trivial
    | m0002 => show (prog0002 h).Quiet h.phone; exact g _ _ trivial
    | m0003 => show (prog0003 h).Quiet h.phone; exact g _ _ trivial
    | m0100 m => exact absurd rfl hn
    | m0102 m => show (prog0102 h m).Quiet h.phone; exact g _ _ trivial
    | m0200 m => show (prog0200 h m).Quiet h.phone; exact g _ _ trivial
    | m8001 m =>
      show (prog8001 h m).Quiet h.phone
      unfold prog8001
      split
      · exact g _ _ trivial
      · trivial
    | m8100 m => show (prog8100 h m).Quiet h.phone; exact g _ _ trivial
    | m8103 m => exact fun clk st hst => ⟨hst, fun clk st hst => ⟨hst, trivial⟩⟩
    | m8104 =>
      show (prog8104 env h).Quiet h.phone
      intro clk st hst
      refine ⟨hst, ?_⟩
      show Prog.Quiet h.phone (match st.paramsOf h.phone with | some p => _ | none => _)
      cases st.paramsOf h.phone with
      | some q => trivial
      | none =>
        cases fixedDecode env h.phone with
        | ok x => exact fun clk st hst => ⟨hst, trivial⟩
        | err e => trivial
        | panic => trivial

/-- The phone is unknown and no goroutine will make it known. -/
structure CSys.Gone (s : CSys) (p : Str) : Prop where
  none : s.st.byPhone.get p = none
  quiet : ∀ (i : Nat) (t : Task) (q : Prog), s.threads[i]? = some (t, q) → t.phone = p → Prog.Quiet p q

theorem gone_step {env : Env} {s : CSys} {p : Str} (hs : s.OK env) (h : s.Gone p) (e : CEv)
    (he : ∀ t, e = .spawn t → ¬ t.registers p) : (s.step env e).Gone p := by
  cases e with
  | spawn t =>
    simp only [CSys.step]
    split
    · refine ⟨h.none, fun i t' q hq hp => ?_⟩
      simp only [List.getElem?_append] at hq
      split at hq
      · exact h.quiet i t' q hq hp
      · rw [List.getElem?_singleton] at hq
        split at hq
        · cases hq
          have := he t rfl
          subst hp
          exact quiet_task env t this
        · cases hq
    · exact h
  | run i clk =>
    simp only [CSys.step]
    cases hi : s.threads[i]? with
    | none => exact h
    | some tp =>
      obtain ⟨t, q⟩ := tp
      simp only
      have key : (q.next clk s.st).1.byPhone.get p = none ∧ (t.phone = p → Prog.Quiet p (q.next clk s.st).2) := by
        cases q with
        | ret r => exact ⟨h.none, fun _ => trivial⟩
        | step f k =>
          by_cases hp : t.phone = p
          · have := h.quiet i t _ hi hp clk s.st h.none
            exact ⟨this.1, fun _ => this.2⟩
          · have := (hs.safe i t _ hi clk s.st (Grows.refl _) hs.inv).1.index p (Ne.symm hp)
            exact ⟨this.trans h.none, fun h' => absurd h' hp⟩
      refine ⟨key.1, fun j t' q' hj hp => ?_⟩
      simp only [List.getElem?_set] at hj
      split at hj
      · split at hj
        · cases hj; exact key.2 hp
        · cases hj
      · exact h.quiet j t' q' hj hp

theorem gone_run {env : Env} {s : CSys} {p : Str} (hs : s.OK env) (h : s.Gone p) (evs : List CEv)
    (he : ∀ t, .spawn t ∈ evs → ¬ t.registers p) : (s.run env evs).Gone p := by
  induction evs generalizing s with
  | nil => exact h
  | cons e evs ih =>
    exact ih (ok_step hs e).1 (gone_step hs h e fun t ht => he t (ht ▸ List.mem_cons_self))
      fun t ht => he t (List.mem_cons_of_mem _ ht)

/-! ### Goroutines of different terminals -/

/-- Two stores that agree on the phone `p`; `R` are the devices of `p`. -/
structure Agree (p : Str) (R : Ref → Prop) (a b : Store) : Prop where
  index : a.byPhone.get p = b.byPhone.get p
  mine : ∀ r, a.byPhone.get p = some r → R r
  heap : ∀ r, R r → a.heap r = b.heap r
  phone : ∀ r, R r → (a.heap r).phone = p
  old : ∀ r, R r → r < a.next ∧ r < b.next
  geos : a.geos.get p = b.geos.get p
  jobs : a.jobs.count p = b.jobs.count p

/-- A goroutine that only looks at and changes what belongs to `p`. -/
def Prog.Local (p : Str) (R : Ref → Prop) : Prog → Prop
  | .ret _ => True
  | .step f k => ∀ clk a b, Agree p R a b →
      Agree p R (f clk a) (f clk b) ∧ k clk a = k clk b ∧ Prog.Local p R (k clk a)

variable {p : Str} {R : Ref → Prop}

theorem local_ret (r : Res (Option Out)) : (Prog.ret r).Local p R := trivial

theorem local_get (k : Option Ref → Prog) (h0 : (k none).Local p R) (h1 : ∀ r, R r → (k (some r)).Local p R) :
    (Prog.get p k).Local p R := by
  intro clk a b h
  refine ⟨h, ?_, ?_⟩
  · show k (a.byPhone.get p) = k (b.byPhone.get p)
    rw [h.index]
  · show (k (a.byPhone.get p)).Local p R
    cases hr : a.byPhone.get p with
    | none => exact h0
    | some r => exact h1 r (h.mine r hr)

theorem local_read {α : Type} (g : Clock → Store → α) (k : α → Prog)
    (hg : ∀ clk a b, Agree p R a b → g clk a = g clk b) (h : ∀ x, (k x).Local p R) : (Prog.read g k).Local p R :=
  fun clk a b hab => ⟨hab, congrArg k (hg clk a b hab), h _⟩

theorem local_put {r : Ref} (hr : R r) (g : Clock → Device → Device) (hg : ∀ clk d, (g clk d).phone = d.phone) (next : Prog)
    (h : next.Local p R) : (Prog.put r g next).Local p R := by
  intro clk a b hab
  refine ⟨⟨hab.index, hab.mine, fun x hx => ?_, fun x hx => ?_, hab.old, hab.geos, hab.jobs⟩, rfl, h⟩
  · simp only [Store.setDev]
    split
    · rw [hab.heap r hr]
    · exact hab.heap x hx
  · simp only [Store.setDev]
    split
    · rw [hg]; exact hab.phone r hr
    · exact hab.phone x hx

theorem local_upd (f : Store → Store) (next : Prog) (hf : ∀ a b, Agree p R a b → Agree p R (f a) (f b))
    (h : next.Local p R) : (Prog.upd f next).Local p R :=
  fun _ a b hab => ⟨hf a b hab, rfl, h⟩

theorem Agree.cache {r : Ref} (hr : R r) {a b : Store} (h : Agree p R a b) : Agree p R (a.cacheDevice r) (b.cacheDevice r) := by
  have ea := h.phone r hr
  have eb : (b.heap r).phone = p := h.heap r hr ▸ ea
  refine ⟨?_, fun x hx => ?_, h.heap, h.phone, h.old, h.geos, h.jobs⟩
  · simp only [Store.cacheDevice, ea, eb, AMap.get_set_self]
  · simp only [Store.cacheDevice, ea, AMap.get_set_self] at hx
    cases hx; exact hr

theorem Agree.del {a b : Store} (h : Agree p R a b) : Agree p R (a.delByPhone p) (b.delByPhone p) := by
  cases ha : a.byPhone.get p with
  | none =>
    have hb : b.byPhone.get p = none := h.index ▸ ha
    have e1 : a.delByPhone p = a := by unfold Store.delByPhone; rw [ha]
    have e2 : b.delByPhone p = b := by unfold Store.delByPhone; rw [hb]
    rw [e1, e2]; exact h
  | some r =>
    have hb : b.byPhone.get p = some r := h.index ▸ ha
    have hR := h.mine r ha
    rw [Store.delByPhone_eq ha (h.phone r hR), Store.delByPhone_eq hb (h.heap r hR ▸ h.phone r hR)]
    refine ⟨?_, fun x hx => ?_, h.heap, h.phone, h.old, h.geos, h.jobs⟩
    · simp only [AMap.get_del_self]
    · simp only [AMap.get_del_self] at hx; cases hx

theorem count_cancel_self (js : List Str) (p : Str) : (js.filter (fun x => decide (x ≠ p))).count p = 0 := by
  rw [List.count_eq_zero]
  simp

theorem Agree.cancel {a b : Store} (h : Agree p R a b) : Agree p R (a.cancelJob p) (b.cancelJob p) :=
  ⟨h.index, h.mine, h.heap, h.phone, h.old, h.geos, (count_cancel_self _ _).trans (count_cancel_self _ _).symm⟩

theorem local_drop {r : Ref} (hr : R r) (next : Prog) (h : next.Local p R) :
    (Prog.upd (fun st => st.cancelJob (st.heap r).phone) <|
      .upd (fun st => st.delByPhone (st.heap r).phone) next).Local p R := by
  refine local_upd _ _ (fun a b hab => ?_) (local_upd _ _ (fun a b hab => ?_) h)
  · have ea := hab.phone r hr
    have eb : (b.heap r).phone = p := hab.heap r hr ▸ ea
    simp only [ea, eb]; exact hab.cancel
  · have ea := hab.phone r hr
    have eb : (b.heap r).phone = p := hab.heap r hr ▸ ea
    simp only [ea, eb]; exact hab.del

theorem writeGeo_res (st : Store) (p : Str) (dg : DeviceGeo) :
    (st.writeGeo p dg).2 = (match ((st.geos.get p).getD (Ring.new ringCapacity)).write (some dg) with
      | .ok _ => .ok () | .err e => .err e | .panic => .panic) := by
  unfold Store.writeGeo Store.geoRing
  cases hg : st.geos.get p with
  | none =>
    simp only [Option.getD]
    cases (Ring.new ringCapacity).write (some dg) <;> rfl
  | some rb =>
    simp only [Option.getD]
    cases rb.write (some dg) <;> rfl

theorem writeGeo_geos (st : Store) (p : Str) (dg : DeviceGeo) :
    ((st.writeGeo p dg).1.geos.get p) = (match ((st.geos.get p).getD (Ring.new ringCapacity)).write (some dg) with
      | .ok rb => some rb | _ => some ((st.geos.get p).getD (Ring.new ringCapacity))) := by
  unfold Store.writeGeo Store.geoRing
  cases hg : st.geos.get p with
  | none =>
    simp only [Option.getD]
    cases (Ring.new ringCapacity).write (some dg) <;> simp only [AMap.get_set_self]
  | some rb =>
    simp only [Option.getD]
    cases rb.write (some dg) <;> simp only [AMap.get_set_self, hg]

theorem writeGeo_rest (st : Store) (p : Str) (dg : DeviceGeo) :
    (st.writeGeo p dg).1.byPhone = st.byPhone ∧ (st.writeGeo p dg).1.heap = st.heap ∧
      (st.writeGeo p dg).1.next = st.next ∧ (st.writeGeo p dg).1.jobs = st.jobs := by
  unfold Store.writeGeo Store.geoRing
  cases st.geos.get p with
  | none =>
    simp only
    cases (Ring.new ringCapacity).write (some dg) <;> exact ⟨rfl, rfl, rfl, rfl⟩
  | some rb =>
    simp only
    cases rb.write (some dg) <;> exact ⟨rfl, rfl, rfl, rfl⟩

theorem local_geo {r : Ref} (hr : R r) (h : Header) (dg : DeviceGeo) : (progGeo h r dg).Local p R := by
  intro clk a b hab
  have ea := hab.phone r hr
  have eb : (b.heap r).phone = p := hab.heap r hr ▸ ea
  simp only [ea, eb]
  obtain ⟨a1, a2, a3, a4⟩ := writeGeo_rest a p dg
  obtain ⟨b1, b2, b3, b4⟩ := writeGeo_rest b p dg
  refine ⟨⟨?_, ?_, ?_, ?_, ?_, ?_, ?_⟩, ?_, ?_⟩
  · rw [a1, b1]; exact hab.index
  · rw [a1]; exact hab.mine
  · rw [a2, b2]; exact hab.heap
  · rw [a2]; exact hab.phone
  · rw [a3, b3]; exact hab.old
  · rw [writeGeo_geos, writeGeo_geos, hab.geos]
  · rw [a4, b4]; exact hab.jobs
  · rw [writeGeo_res, writeGeo_res, hab.geos]
  · cases (a.writeGeo p dg).2 <;> exact local_ret _

/-- The goroutines that only concern their own terminal: all but registrations, which look at the plates of others,
and the messages a terminal receives about its parameters. -/
def Task.isLocal : Task → Bool
  | .msg _ _ (.m0100 _) => false
  | .msg _ _ (.m8103 _) => false
  | .msg _ _ .m8104 => false
  | _ => true

theorem local_expired {r : Ref} (hr : R r) (yes no : Prog) (h1 : yes.Local p R) (h2 : no.Local p R) :
    (progExpired r yes no).Local p R := by
  refine local_read _ _ (fun clk a b hab => by rw [hab.heap r hr]) fun x => ?_
  split
  · exact h1
  · exact h2

theorem local_clear {r : Ref} (hr : R r) : (progClear p r).Local p R := by
  refine local_read _ _ (fun clk a b hab => by rw [hab.heap r hr]) fun x => ?_
  split
  · refine local_expired hr _ _ ?_ (local_ret _)
    refine local_read _ _ (fun clk a b hab => by rw [hab.heap r hr]) fun x => ?_
    cases x with
    | none => exact local_ret _
    | some c =>
      refine local_upd _ _ (fun a b hab => ?_) <| local_upd _ _ (fun a b hab => hab.del) <|
        local_upd _ _ (fun a b hab => ?_) <| local_upd _ _ (fun a b hab => hab.cancel) (local_ret _)
      · exact ⟨hab.index, hab.mine, hab.heap, hab.phone, hab.old, hab.geos, hab.jobs⟩
      · refine ⟨hab.index, hab.mine, hab.heap, hab.phone, hab.old, ?_, hab.jobs⟩
        simp only [Store.delGeo, AMap.get_del_self]
  · exact local_ret _

theorem local_task (env : Env) (t : Task) (h : t.isLocal = true) : (t.prog env).Local t.phone R := by
  cases t with
  | check ph =>
    show (progCheck ph).Local ph R
    refine local_get _ (local_upd _ _ (fun a b hab => hab.cancel) (local_ret _)) fun r hr => ?_
    refine local_read _ _ (fun clk a b hab => by rw [hab.heap r hr]) fun x => ?_
    split
    · exact local_expired hr _ _ (local_put hr _ (by intros; rfl) _ (local_upd _ _ (fun a b hab => hab.cache hr) (local_ret _)))
        (local_clear hr)
    · exact local_clear hr
  | msg c hd m =>
    cases m with
    | m0001 m => exact local_ret _
    | m0104 m => exact local_ret _
    | m1205 m => exact local_ret _
    | m9205 m => exact local_ret _
    | m0002 =>
      show (prog0002 hd).Local hd.phone R
      exact local_get _ (local_ret _) fun r hr => local_put hr _ (by intros; rfl) _
        (local_upd _ _ (fun a b hab => hab.cache hr) (local_ret _))
    | m0003 =>
      show (prog0003 hd).Local hd.phone R
      exact local_get _ (local_ret _) fun r hr => local_drop hr _ (local_ret _)
    | m0100 m => cases h
    | m0102 m =>
      show (prog0102 hd m).Local hd.phone R
      refine local_get _ (local_ret _) fun r hr => ?_
      refine local_read _ _ (fun clk a b hab => by rw [hab.heap r hr]) fun x => ?_
      split
      · exact local_drop hr _ (local_ret _)
      · exact local_put hr _ (by intros; rfl) _ <| local_put hr _ (by intros; rfl) _ <|
          local_put hr _ (by intros; rfl) _ <| local_put hr _ (by intros; rfl) _ <|
          local_put hr _ (by intros; rfl) _ <| local_upd _ _ (fun a b hab => hab.cache hr) (local_ret _)
    | m0200 m =>
      show (prog0200 hd m).Local hd.phone R
      refine local_get _ (local_ret _) fun r hr => ?_
      refine local_read _ _ (fun clk a b hab => by rw [hab.heap r hr]) fun x => ?_
      split
      · exact local_put hr _ (by intros; rfl) _ <| local_put hr _ (by intros; rfl) _ <|
          local_upd _ _ (fun a b hab => hab.cache hr) (local_geo hr _ _)
      · exact local_geo hr _ _
    | m8001 m =>
      show (prog8001 hd m).Local hd.phone R
      unfold prog8001
      split
      · refine local_get _ (local_ret _) fun r hr => ?_
        refine local_read _ _ (fun clk a b hab => by rw [hab.heap r hr]) fun x => ?_
        split
        · exact local_ret _
        · exact local_put hr _ (by intros; rfl) _ <| local_put hr _ (by intros; rfl) _ <|
            local_upd _ _ (fun a b hab => hab.cache hr) (local_ret _)
      · exact local_ret _
    | m8100 m =>
      show (prog8100 hd m).Local hd.phone R
      refine local_get _ (local_ret _) fun r hr => ?_
      refine local_read _ _ (fun clk a b hab => by rw [hab.heap r hr]) fun x => ?_
      exact local_read _ _ (fun clk a b hab => by rw [hab.heap r hr]) fun y => (local_ret _)
    | m8103 m => cases h
    | m8104 => cases h

/-- A step of a goroutine of another phone leaves the agreement as it is. -/
theorem Agree.foreign {a b a' : Store} {N : Device → Prop} {q : Str} (h : Agree p R a b) (ho : Own N q a a') (hq : p ≠ q) :
    Agree p R a' b := by
  have hh : ∀ r, R r → a'.heap r = a.heap r := fun r hr => ho.dev r (h.old r hr).1 (by rw [h.phone r hr]; exact hq)
  exact ⟨(ho.index p hq).trans h.index, fun r hr => h.mine r ((ho.index p hq) ▸ hr), fun r hr => (hh r hr).trans (h.heap r hr),
    fun r hr => by rw [hh r hr]; exact h.phone r hr,
    fun r hr => ⟨Nat.lt_of_lt_of_le (h.old r hr).1 ho.next, (h.old r hr).2⟩, (ho.geos p hq).trans h.geos,
    (ho.jobs p hq).trans h.jobs⟩

/-- The two systems agree on `p`: its goroutines stand at the same place. -/
structure Twin (p : Str) (R : Ref → Prop) (s s' : CSys) : Prop where
  agree : Agree p R s.st s'.st
  tasks : ∀ i : Nat, (s.threads[i]?).map (·.1) = (s'.threads[i]?).map (·.1)
  same : ∀ (i : Nat) (t : Task) (q : Prog), s.threads[i]? = some (t, q) → t.phone = p → s'.threads[i]? = some (t, q) ∧ q.Local p R

/-- The event is a step of a goroutine of `p`. -/
def CEv.concerns (s : CSys) (p : Str) : CEv → Bool
  | .spawn _ => false
  | .run i _ => match s.threads[i]? with
    | some (t, _) => decide (t.phone = p)
    | none => false

theorem twin_run {env : Env} {s0 s s' : CSys} (hs : s.OK env)
    (h0 : ∀ i : Nat, (s.threads[i]?).map (·.1) = (s0.threads[i]?).map (·.1)) (h : Twin p R s s')
    (evs : List CEv) (he : ∀ e ∈ evs, ∃ i clk, e = .run i clk) :
    Twin p R (s.run env evs) (s'.run env (evs.filter (CEv.concerns s0 p))) := by
  induction evs generalizing s s' with
  | nil => exact h
  | cons e evs ih =>
    obtain ⟨i, clk, rfl⟩ := he e List.mem_cons_self
    have he' : ∀ e ∈ evs, ∃ i clk, e = .run i clk := fun e h => he e (List.mem_cons_of_mem _ h)
    have hs1 := (ok_step hs (.run i clk)).1
    rw [crun_cons]
    cases hi : s.threads[i]? with
    | none =>
      have hstep : s.step env (.run i clk) = s := by simp only [CSys.step, hi]
      have hc : CEv.concerns s0 p (.run i clk) = false := by
        have := h0 i
        rw [hi] at this
        cases hz : s0.threads[i]? with
        | none => simp only [CEv.concerns, hz]
        | some z => rw [hz] at this; cases this
      rw [hstep, List.filter_cons_of_neg (by rw [hc]; decide)]
      exact ih hs h0 h he'
    | some tp =>
      obtain ⟨t, q⟩ := tp
      have hlt : i < s.threads.length := by
        rcases Nat.lt_or_ge i s.threads.length with h' | h'
        · exact h'
        · rw [List.getElem?_eq_none h'] at hi; cases hi
      have hstep : s.step env (.run i clk) = ⟨(q.next clk s.st).1, s.threads.set i (t, (q.next clk s.st).2)⟩ := by
        simp only [CSys.step, hi]
      have ht : ∀ j : Nat, ((s.threads.set i (t, (q.next clk s.st).2))[j]?).map (·.1) = (s.threads[j]?).map (·.1) := by
        intro j
        rw [List.getElem?_set]
        split
        · rename_i hij; subst hij; rw [hi]; rfl
        · rfl
      have hc : CEv.concerns s0 p (.run i clk) = decide (t.phone = p) := by
        have := h0 i
        rw [hi] at this
        cases hz : s0.threads[i]? with
        | none => rw [hz] at this; cases this
        | some z =>
          rw [hz] at this
          obtain ⟨zt, zq⟩ := z
          simp only [Option.map_some, Option.some.injEq] at this
          subst this
          simp only [CEv.concerns, hz]
      by_cases hp : t.phone = p
      · rw [List.filter_cons_of_pos (by rw [hc]; simpa using hp), crun_cons]
        obtain ⟨hi', hl⟩ := h.same i t q hi hp
        have hlt' : i < s'.threads.length := by
          rcases Nat.lt_or_ge i s'.threads.length with h' | h'
          · exact h'
          · rw [List.getElem?_eq_none h'] at hi'; cases hi'
        have hstep' : s'.step env (.run i clk) = ⟨(q.next clk s'.st).1, s'.threads.set i (t, (q.next clk s'.st).2)⟩ := by
          simp only [CSys.step, hi']
        refine ih hs1 (fun j => ?_) ?_ he'
        · rw [hstep]; exact (ht j).trans (h0 j)
        · rw [hstep, hstep']
          have key : Agree p R (q.next clk s.st).1 (q.next clk s'.st).1 ∧ (q.next clk s.st).2 = (q.next clk s'.st).2 ∧
              (q.next clk s.st).2.Local p R := by
            cases q with
            | ret r => exact ⟨h.agree, rfl, trivial⟩
            | step f k => exact hl clk _ _ h.agree
          refine ⟨key.1, fun j => ?_, fun j t' q' hj hp' => ?_⟩
          · have := h.tasks j
            rw [ht j]
            simp only [List.getElem?_set]
            split
            · rename_i hij; subst hij; rw [hi]; rfl
            · exact this
          · simp only [List.getElem?_set] at hj ⊢
            split at hj
            · rename_i hij
              subst hij
              cases hj
              rw [if_pos rfl, if_pos hlt', key.2.1]
              exact ⟨rfl, key.2.1 ▸ key.2.2⟩
            · rename_i hij
              rw [if_neg hij]
              exact h.same j t' q' hj hp'
      · rw [List.filter_cons_of_neg (by rw [hc]; simpa using hp)]
        refine ih hs1 (fun j => ?_) ?_ he'
        · rw [hstep]; exact (ht j).trans (h0 j)
        · rw [hstep]
          refine ⟨?_, fun j => (ht j).trans (h.tasks j), fun j t' q' hj hp' => ?_⟩
          · cases q with
            | ret r => exact h.agree
            | step f k => exact h.agree.foreign (hs.safe i t _ hi clk s.st (Grows.refl _) hs.inv).1 (Ne.symm hp)
          · simp only [List.getElem?_set] at hj
            split at hj
            · rename_i hij
              subst hij
              cases hj
              exact absurd hp' hp
            · exact h.same j t' q' hj hp'

/-! ### Serial numbers -/

/-- The counter after `n` calls, one after the other. -/
def serialAfter : Nat → UInt32
  | 0 => 0
  | n + 1 => (nextSerial (serialAfter n)).1

theorem nextSerial_toNat {c : UInt32} (h : c.toNat ≤ 65535) :
    (nextSerial c).1.toNat = (c.toNat + 1) % 65536 ∧ (nextSerial c).2.toNat = (c.toNat + 1) % 65536 := by
  unfold nextSerial
  have e : (c + 1).toNat = c.toNat + 1 := by
    rw [UInt32.toNat_add]; simp; omega
  by_cases hc : c.toNat = 65535
  · have : c = 65535 := by apply UInt32.toNat_inj.1; simpa using hc
    subst this
    decide
  · have hle : c + 1 ≤ 0xffff := by rw [UInt32.le_iff_toNat_le, e]; simp; omega
    simp only [hle, if_true]
    rw [UInt32.toNat_toUInt16, e]
    omega

theorem serialAfter_toNat (n : Nat) : (serialAfter n).toNat = n % 65536 := by
  induction n with
  | zero => rfl
  | succ n ih =>
    simp only [serialAfter]
    rw [(nextSerial_toNat (by rw [ih]; omega)).1, ih]
    omega

/-- The calls have not yet overflowed the counter. -/
structure SerialOK (s : SerialSys) : Prop where
  count : s.counter.toNat + s.calls.countP (· == .add) = s.calls.length
  pcs : ∀ (i : Nat) pc, s.calls[i]? = some pc → pc = .add ∨ ∃ n, pc = .done n ∧ 1 ≤ n.toNat ∧ n.toNat ≤ s.counter.toNat
  distinct : ∀ (i j : Nat) n, i ≠ j → s.calls[i]? = some (.done n) → s.calls[j]? = some (.done n) → False

theorem countP_set_add {l : List SerialPc} {i : Nat} {n : UInt16} (h : l[i]? = some .add) :
    (l.set i (.done n)).countP (· == .add) + 1 = l.countP (· == .add) := by
  induction l generalizing i with
  | nil => cases h
  | cons a l ih =>
    cases i with
    | zero =>
      simp only [List.getElem?_cons_zero, Option.some.injEq] at h
      subst h
      simp
    | succ i =>
      simp only [List.getElem?_cons_succ] at h
      simp only [List.set_cons_succ, List.countP_cons]
      have := ih h
      omega

theorem serial_step {s : SerialSys} (h : SerialOK s) (e : SerialEv) (hb : (s.step e).calls.length ≤ 65535) :
    SerialOK (s.step e) := by
  cases e with
  | call =>
    refine ⟨?_, fun i pc hi => ?_, fun i j n hij hi hj => ?_⟩
    · have := h.count
      simp only [SerialSys.step, List.countP_append, List.length_append]
      simp
      omega
    · simp only [SerialSys.step, List.getElem?_append] at hi
      split at hi
      · exact h.pcs i pc hi
      · rw [List.getElem?_singleton] at hi
        split at hi
        · cases hi; exact Or.inl rfl
        · cases hi
    · have aux : ∀ k : Nat, (s.calls ++ [SerialPc.add])[k]? = some (SerialPc.done n) → s.calls[k]? = some (SerialPc.done n) := by
        intro k hk
        rw [List.getElem?_append] at hk
        split at hk
        · exact hk
        · rw [List.getElem?_singleton] at hk
          split at hk <;> cases hk
      exact h.distinct i j n hij (aux i hi) (aux j hj)
  | run i =>
    cases hi : s.calls[i]? with
    | none =>
      have : s.step (.run i) = s := by simp only [SerialSys.step, hi]
      rw [this]; exact h
    | some pc =>
      have hlt : i < s.calls.length := by
        rcases Nat.lt_or_ge i s.calls.length with h' | h'
        · exact h'
        · rw [List.getElem?_eq_none h'] at hi; cases hi
      have hstep : s.step (.run i) = ⟨(pc.next s.counter).1, s.calls.set i (pc.next s.counter).2⟩ := by
        simp only [SerialSys.step, hi]
      rw [hstep] at hb ⊢
      simp only [List.length_set] at hb
      rcases h.pcs i pc hi with rfl | ⟨n, rfl, hn⟩
      · have hpos : 0 < s.calls.countP (· == .add) :=
          List.countP_pos_iff.2 ⟨_, List.mem_of_getElem? hi, rfl⟩
        have hc := h.count
        have e : (s.counter + 1).toNat = s.counter.toNat + 1 := by
          rw [UInt32.toNat_add]; simp; omega
        have hle : s.counter + 1 ≤ 0xffff := by rw [UInt32.le_iff_toNat_le, e]; simp; omega
        have e16 : (s.counter + 1).toUInt16.toNat = s.counter.toNat + 1 := by
          rw [UInt32.toNat_toUInt16, e]; omega
        have hnext : SerialPc.next s.counter .add = (s.counter + 1, .done (s.counter + 1).toUInt16) := by
          simp only [SerialPc.next, hle, if_true]
        rw [hnext]
        refine ⟨?_, fun j pc hj => ?_, fun j k n hjk hj hk => ?_⟩
        · have := countP_set_add (n := (s.counter + 1).toUInt16) hi
          simp only [List.length_set, e]
          omega
        · simp only [List.getElem?_set] at hj
          split at hj
          · cases hj
            exact Or.inr ⟨_, rfl, by rw [e16]; omega, by rw [e16]; simp only [e]; omega⟩
          · rcases h.pcs j pc hj with h' | ⟨m, h1, h2, h3⟩
            · exact Or.inl h'
            · exact Or.inr ⟨m, h1, h2, by simp only [e]; omega⟩
        · simp only [List.getElem?_set] at hj hk
          have old : ∀ (x : Nat) m, s.calls[x]? = some (.done m) → m.toNat ≤ s.counter.toNat := by
            intro x m hx
            rcases h.pcs x _ hx with h' | ⟨m', h1, h2, h3⟩
            · cases h'
            · cases h1; exact h3
          split at hj
          · cases hj
            rename_i hij
            rw [if_neg (by rintro rfl; exact hjk hij.symm)] at hk
            have := old k _ hk
            rw [e16] at this
            omega
          · split at hk
            · cases hk
              have := old j _ hj
              rw [e16] at this
              omega
            · exact h.distinct j k n hjk hj hk
      · have hset : s.calls.set i (SerialPc.done n) = s.calls := by
          apply List.ext_getElem?
          intro j
          rw [List.getElem?_set]
          split
          · rename_i hij; subst hij; rw [hi]
          · rfl
        simp only [SerialPc.next, hset]
        exact h

theorem serial_calls_mono (s : SerialSys) (e : SerialEv) : s.calls.length ≤ (s.step e).calls.length := by
  cases e with
  | call => simp [SerialSys.step]
  | run i =>
    simp only [SerialSys.step]
    split
    · exact Nat.le_refl _
    · simp

theorem serial_run_mono (s : SerialSys) (evs : List SerialEv) : s.calls.length ≤ (s.run evs).calls.length := by
  induction evs generalizing s with
  | nil => exact Nat.le_refl _
  | cons e evs ih => exact Nat.le_trans (serial_calls_mono s e) (ih _)

theorem serial_run {s : SerialSys} (h : SerialOK s) (evs : List SerialEv) (hb : (s.run evs).calls.length ≤ 65535) :
    SerialOK (s.run evs) := by
  induction evs generalizing s with
  | nil => exact h
  | cons e evs ih =>
    exact ih (serial_step h e (Nat.le_trans (serial_run_mono (s.step e) evs) hb)) hb

theorem serial_start : SerialOK SerialSys.start := ⟨rfl, fun i pc h => by simp [SerialSys.start] at h,
  fun i j n _ h => by simp [SerialSys.start] at h⟩

end JT808
