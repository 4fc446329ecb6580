import Verif.Proof.Interleave
/-
Connections that goroutines close, in interleavings.
-/
namespace JT808

/-- A goroutine each step of which closes connections that do not depend on the store, and opens none. -/
def Prog.Shuts : Prog → Prop
  | .ret _ => True
  | .step f k => ∀ clk, (∃ S : Nat → Bool, ∀ st n, (f clk st).closed n = (st.closed n || S n)) ∧ ∀ st, Prog.Shuts (k clk st)

theorem shuts_none (f : Clock → Store → Store) (k : Clock → Store → Prog) (hf : ∀ clk st, (f clk st).closed = st.closed)
    (hk : ∀ clk st, (k clk st).Shuts) : (Prog.step f k).Shuts :=
  fun clk => ⟨⟨fun _ => false, fun st n => by rw [hf, Bool.or_false]⟩, hk clk⟩

theorem shuts_read {α : Type} (g : Clock → Store → α) (k : α → Prog) (hk : ∀ a, (k a).Shuts) : (Prog.read g k).Shuts :=
  shuts_none _ _ (fun _ _ => rfl) fun _ _ => hk _

theorem shuts_get (ph : Str) (k : Option Ref → Prog) (h0 : (k none).Shuts) (h1 : ∀ r, (k (some r)).Shuts) :
    (Prog.get ph k).Shuts := by
  refine shuts_none _ _ (fun _ _ => rfl) fun _ st => ?_
  show (k (st.devByPhone ph)).Shuts
  cases st.devByPhone ph with
  | none => exact h0
  | some r => exact h1 r

theorem shuts_put (r : Ref) (g : Clock → Device → Device) (next : Prog) (hk : next.Shuts) : (Prog.put r g next).Shuts :=
  shuts_none _ _ (fun _ _ => rfl) fun _ _ => hk

theorem shuts_upd (f : Store → Store) (next : Prog) (hf : ∀ st, (f st).closed = st.closed) (hk : next.Shuts) :
    (Prog.upd f next).Shuts :=
  shuts_none _ _ (fun _ st => hf st) fun _ _ => hk

theorem delByPhone_closed (st : Store) (p : Str) : (st.delByPhone p).closed = st.closed := by
  unfold Store.delByPhone; split <;> rfl

theorem shuts_drop (r : Ref) (next : Prog) (hk : next.Shuts) :
    (Prog.upd (fun st => st.cancelJob (st.heap r).phone) <|
      .upd (fun st => st.delByPhone (st.heap r).phone) next).Shuts :=
  shuts_upd _ _ (fun _ => rfl) (shuts_upd _ _ (fun st => delByPhone_closed st _) hk)

theorem shuts_geo (h : Header) (r : Ref) (dg : DeviceGeo) : (progGeo h r dg).Shuts := by
  refine shuts_none _ _ (fun _ st => ?_) fun _ st => ?_
  · unfold Store.writeGeo Store.geoRing
    cases st.geos.get (st.heap r).phone with
    | none => simp only; cases (Ring.new ringCapacity).write (some dg) <;> rfl
    | some rb => simp only; cases rb.write (some dg) <;> rfl
  · cases (st.writeGeo (st.heap r).phone dg).2 <;> trivial

theorem shuts_close (c : Conn) (next : Prog) (hk : next.Shuts) : (Prog.upd (·.closeConn c) next).Shuts := by
  refine fun clk => ⟨⟨fun n => decide (n = c.id), fun st n => ?_⟩, fun _ => hk⟩
  simp only [Store.closeConn]
  by_cases h : n = c.id <;> simp [h]

/-- Handlers close nothing; a check closes the connection it has read. -/
theorem task_shuts (env : Env) (t : Task) : (t.prog env).Shuts := by
  cases t with
  | check ph =>
    have expired : ∀ r (yes no : Prog), yes.Shuts → no.Shuts → (progExpired r yes no).Shuts := by
      intro r yes no h1 h2
      refine shuts_read _ _ fun b => ?_
      split
      · exact h1
      · exact h2
    have clear : ∀ r, (progClear ph r).Shuts := by
      intro r
      refine shuts_read _ _ fun s => ?_
      split
      · refine expired _ _ _ (shuts_read _ _ fun cn => ?_) trivial
        cases cn with
        | none => trivial
        | some c =>
          exact shuts_close c _ (shuts_upd _ _ (fun st => delByPhone_closed st _) (shuts_upd _ _ (fun _ => rfl)
            (shuts_upd _ _ (fun _ => rfl) trivial)))
      · trivial
    show (progCheck ph).Shuts
    refine shuts_get _ _ (shuts_upd _ _ (fun _ => rfl) trivial) fun r => shuts_read _ _ fun s => ?_
    split
    · exact expired _ _ _ (shuts_put _ _ _ (shuts_upd _ _ (fun _ => rfl) trivial)) (clear r)
    · exact clear r
  | msg c h m =>
    cases m with
    | m0001 m => trivial
    | m0104 m => trivial
    | m1205 m => trivial
    | m9205 m => trivial
    | m0002 =>
      show (prog0002 h).Shuts
      exact shuts_get _ _ trivial fun r => shuts_put _ _ _ (shuts_upd _ _ (fun _ => rfl) trivial)
    | m0003 =>
      show (prog0003 h).Shuts
      exact shuts_get _ _ trivial fun r => shuts_drop r _ trivial
    | m0100 m =>
      show (prog0100 c h m).Shuts
      refine shuts_read _ _ fun b => ?_
      split
      · trivial
      · refine shuts_read _ _ fun b => ?_
        split
        · trivial
        · refine shuts_none _ _ (fun _ _ => rfl) fun clk st => shuts_upd _ _ (fun _ => rfl) ?_
          exact shuts_get _ _ trivial fun r => shuts_upd _ _ (fun _ => rfl) trivial
    | m0102 m =>
      show (prog0102 h m).Shuts
      refine shuts_get _ _ trivial fun r => shuts_read (fun _ st => (st.heap r).code) _ fun b => ?_
      split
      · exact shuts_drop r _ trivial
      · exact shuts_put _ _ _ (shuts_put _ _ _ (shuts_put _ _ _ (shuts_put _ _ _ (shuts_put _ _ _
          (shuts_upd _ _ (fun _ => rfl) trivial)))))
    | m0200 m =>
      show (prog0200 h m).Shuts
      refine shuts_get _ _ trivial fun r => shuts_read _ _ fun dg => ?_
      split
      · exact shuts_put _ _ _ (shuts_put _ _ _ (shuts_upd _ _ (fun _ => rfl) (shuts_geo h r dg)))
      · exact shuts_geo h r dg
    | m8001 m =>
      show (prog8001 h m).Shuts
      unfold prog8001
      split
      · refine shuts_get _ _ trivial fun r => shuts_read _ _ fun s => ?_
        split
        · trivial
        · exact shuts_put _ _ _ (shuts_put _ _ _ (shuts_upd _ _ (fun _ => rfl) trivial))
      · trivial
    | m8100 m =>
      show (prog8100 h m).Shuts
      exact shuts_get _ _ trivial fun r => shuts_read _ _ fun _ => shuts_read _ _ fun _ => trivial
    | m8103 m =>
      show (prog8103 h m).Shuts
      exact shuts_read _ _ fun _ => shuts_upd _ _ (fun _ => rfl) trivial
    | m8104 =>
      show (prog8104 env h).Shuts
      refine shuts_read _ _ fun q => ?_
      cases q with
      | some q => trivial
      | none =>
        simp only
        cases fixedDecode env h.phone with
        | ok x => exact shuts_upd _ _ (fun _ => rfl) trivial
        | err e => trivial
        | panic => trivial

/-- All goroutines are such. -/
def CSys.Shut (s : CSys) : Prop := ∀ (i : Nat) (t : Task) (q : Prog), s.threads[i]? = some (t, q) → q.Shuts

theorem shut_step {env : Env} {s : CSys} (h : s.Shut) (e : CEv) :
    (s.step env e).Shut ∧ ∀ n, s.st.closed n = true → (s.step env e).st.closed n = true := by
  cases e with
  | spawn t =>
    simp only [CSys.step]
    split
    · refine ⟨fun i t' q hq => ?_, fun _ hn => hn⟩
      simp only [List.getElem?_append] at hq
      split at hq
      · exact h i t' q hq
      · rw [List.getElem?_singleton] at hq
        split at hq
        · cases hq; exact task_shuts env _
        · cases hq
    · exact ⟨h, fun _ hn => hn⟩
  | run i clk =>
    simp only [CSys.step]
    cases hi : s.threads[i]? with
    | none => exact ⟨h, fun _ hn => hn⟩
    | some tq =>
      obtain ⟨t, q⟩ := tq
      simp only
      have key : (q.next clk s.st).2.Shuts ∧ ∀ n, s.st.closed n = true → (q.next clk s.st).1.closed n = true := by
        have hq := h i t q hi
        cases q with
        | ret r => exact ⟨trivial, fun _ hn => hn⟩
        | step f k =>
          obtain ⟨⟨S, hS⟩, hk⟩ := hq clk
          exact ⟨hk _, fun n hn => by show (f clk s.st).closed n = true; rw [hS, hn]; rfl⟩
      refine ⟨fun j t' q' hj => ?_, key.2⟩
      simp only [List.getElem?_set] at hj
      split at hj
      · split at hj
        · cases hj; exact key.1
        · cases hj
      · exact h j t' q' hj

theorem names_step {env : Env} {s : CSys} (i : Nat) (clk : Clock) (j : Nat) :
    ((s.step env (.run i clk)).threads[j]?).map (·.1) = (s.threads[j]?).map (·.1) := by
  simp only [CSys.step]
  cases hs : s.threads[i]? with
  | none => rfl
  | some x =>
    by_cases hij : i = j
    · subst hij
      have hlt := (List.getElem?_eq_some_iff.1 hs).1
      simp only [List.getElem?_set_self hlt, hs]; rfl
    · simp only [List.getElem?_set_ne hij]

theorem names_run {env : Env} (evs : List CEv) (s : CSys) (he : ∀ e ∈ evs, ∃ i clk, e = .run i clk) (j : Nat) :
    ((s.run env evs).threads[j]?).map (·.1) = (s.threads[j]?).map (·.1) := by
  induction evs generalizing s with
  | nil => rfl
  | cons e evs ih =>
    obtain ⟨i, clk, rfl⟩ := he e List.mem_cons_self
    exact (ih (s.step env (.run i clk)) (fun e h => he e (List.mem_cons_of_mem _ h))).trans (names_step i clk j)

variable {p : Str} {R : Ref → Prop}

/-- What the goroutines of `p` close when they run by themselves they close also among the others. -/
theorem closed_run {env : Env} {s0 s s' : CSys} (hs : s.OK env)
    (h0 : ∀ i : Nat, (s.threads[i]?).map (·.1) = (s0.threads[i]?).map (·.1)) (h : Twin p R s s') (hsh : s.Shut)
    (hc : ∀ n, s'.st.closed n = true → s.st.closed n = true)
    (evs : List CEv) (he : ∀ e ∈ evs, ∃ i clk, e = .run i clk) :
    ∀ n, (s'.run env (evs.filter (CEv.concerns s0 p))).st.closed n = true → (s.run env evs).st.closed n = true := by
  induction evs generalizing s s' with
  | nil => exact hc
  | cons e evs ih =>
    obtain ⟨i, clk, rfl⟩ := he e List.mem_cons_self
    have he' : ∀ e ∈ evs, ∃ i clk, e = .run i clk := fun e h => he e (List.mem_cons_of_mem _ h)
    have hone := twin_run (env := env) hs h0 h [.run i clk] (fun e h => ⟨i, clk, List.mem_singleton.1 h⟩)
    rw [show (CEv.run i clk :: evs).filter (CEv.concerns s0 p) =
      [CEv.run i clk].filter (CEv.concerns s0 p) ++ evs.filter (CEv.concerns s0 p) by
        rw [← List.filter_append]; rfl, crun_append, crun_cons]
    refine ih (ok_step hs (.run i clk)).1 (fun j => (names_step i clk j).trans (h0 j)) hone (shut_step hsh _).1 ?_ he'
    intro n hn
    by_cases hcon : CEv.concerns s0 p (.run i clk) = true
    · rw [List.filter_cons_of_pos hcon] at hn
      have hn' : (s'.step env (.run i clk)).st.closed n = true := hn
      cases hi : s.threads[i]? with
      | none =>
        have := h0 i
        rw [hi] at this
        cases hz : s0.threads[i]? with
        | none => simp [CEv.concerns, hz] at hcon
        | some z => rw [hz] at this; cases this
      | some tq =>
        obtain ⟨t, q⟩ := tq
        have hp : t.phone = p := by
          have := h0 i
          rw [hi] at this
          cases hz : s0.threads[i]? with
          | none => rw [hz] at this; cases this
          | some z =>
            rw [hz] at this
            obtain ⟨zt, zq⟩ := z
            simp only [Option.map_some, Option.some.injEq] at this
            subst this
            simpa [CEv.concerns, hz] using hcon
        have hi' := (h.same i t q hi hp).1
        simp only [CSys.step, hi'] at hn'
        simp only [CSys.step, hi]
        have hq := hsh i t q hi
        cases q with
        | ret r => exact hc n hn'
        | step f k =>
          obtain ⟨⟨S, hS⟩, -⟩ := hq clk
          have hn2 : (f clk s'.st).closed n = true := hn'
          show (f clk s.st).closed n = true
          rw [hS] at hn2 ⊢
          rcases Bool.or_eq_true_iff.1 hn2 with e | e
          · rw [hc n e]; rfl
          · rw [e, Bool.or_true]
    · rw [List.filter_cons_of_neg hcon] at hn
      exact (shut_step hsh _).2 n (hc n hn)

end JT808
