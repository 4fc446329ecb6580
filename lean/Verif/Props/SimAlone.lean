import Verif.Proof.SimAlone
/-
Simulated terminals of one process do not influence each other.
-/
namespace JT808
open Spec

/-- The events of a process that concern simulator `i`: its own, the attempts to dial and the keepalive jobs. -/
def Spec.Concerns (i : Nat) : SimEv → Bool
  | .dialFails => true
  | .dialled _ => true
  | .job _ _ => true
  | .build j _ => decide (j = i)
  | .frame j _ _ _ => decide (j = i)
  | .readFails j _ => decide (j = i)
  | .look j => decide (j = i)
  | .beats j => decide (j = i)
  | .locates j => decide (j = i)

/-- Simulator `i` has the phone `ph` and no other has, and each connection brings frames for its own terminal, of the kind a
platform sends. -/
def Spec.OwnPhone (env : Env) (i : Nat) (ph : Str) : SimEv → Prop
  | .build j d => d.phone = ph ↔ j = i
  | .frame j _ bytes _ => ∀ pd, decodeFrame env bytes = .ok pd → (pd.header.phone = ph ↔ j = i) ∧ Unsigned pd.header.msgID
  | _ => True

/-- The process and the process with simulator `i` alone. -/
structure Beside (i : Nat) (ph : Str) (p p' : SimProc) : Prop where
  cli : Cli p.st
  cli' : Cli p'.st
  same : SameTo ph p.st p'.st
  exit : p.exit = none
  exit' : p'.exit = none
  todo : p'.todo = p.todo
  fails : p'.fails = p.fails
  len : p'.sims.length = p.sims.length
  sim : p'.sims[i]? = p.sims[i]?
  idle : ∀ j, j ≠ i → ∀ s, p'.sims[j]? = some s → s.reading = true
  phone : ∀ s, p.sims[i]? = some s → s.phase ≠ .connected → s.phone = ph

theorem settle_stays {p : SimProc} (h : p.settle.exit = none) : p.settle = p := by
  unfold SimProc.settle at h ⊢
  split
  · next hx => rw [if_pos hx] at h; cases h
  · rfl

/-- If the process goes on, so does the one with simulator `i` alone. -/
theorem Beside.settles {i : Nat} {ph : Str} {p p' : SimProc} (h : Beside i ph p p') (hx : p.settle.exit = none) :
    Beside i ph p.settle p'.settle := by
  have e : p'.settle = p' := by
    unfold SimProc.settle
    rw [if_neg]
    rintro ⟨-, h2, h3⟩
    have : p.settle.exit = some .finished := by
      unfold SimProc.settle
      rw [if_pos]
      refine ⟨h.exit, by rw [← h.todo]; exact h2, ?_⟩
      rw [List.all_eq_true] at h3 ⊢
      intro s hs
      obtain ⟨j, hj⟩ := List.mem_iff_getElem?.1 hs
      by_cases hji : j = i
      · subst hji
        exact h3 s (List.mem_iff_getElem?.2 ⟨j, by rw [h.sim]; exact hj⟩)
      · have hlt : j < p'.sims.length := by
          rw [h.len]; exact (List.getElem?_eq_some_iff.1 hj).1
        have hg : p'.sims[j]? = some p'.sims[j] := List.getElem?_eq_getElem hlt
        have h4 := h.idle j hji _ hg
        have h5 := h3 _ (List.mem_iff_getElem?.2 ⟨j, hg⟩)
        rw [h4] at h5; cases h5
    rw [this] at hx; cases hx
  rw [e, settle_stays hx]; exact h

theorem set_other {l : List SimRun} {i j : Nat} (h : j ≠ i) (s : SimRun) : (l.set j s)[i]? = l[i]? := by
  rw [List.getElem?_set]; simp [h]

/-- A step of another simulator. -/
theorem beside_other {env : Env} {i : Nat} {ph : Str} {p p' : SimProc} (h : Beside i ph p p') (e : SimEv)
    (hc : Concerns i e = false) (ho : OwnPhone env i ph e) (hx : (p.step env e).exit = none) :
    Beside i ph (p.step env e) p' ∧ ∀ x, p.sends env e = some x → x.1 ≠ i := by
  have put : ∀ (st : Store) (j : Nat) (s : SimRun), j ≠ i → Cli st → SameTo ph p.st st →
      Beside i ph { p with st := st, sims := p.sims.set j s } p' := by
    intro st j s hj hc hs
    exact ⟨hc, h.cli', hs.symm.trans h.same, h.exit, h.exit', h.todo, h.fails,
      by rw [h.len]; simp, by rw [h.sim]; exact (set_other hj s).symm, h.idle,
      fun x hx => h.phone x (by rw [← hx]; exact (set_other hj s).symm)⟩
  have hn : ¬ (p.exit ≠ none) := fun x => x h.exit
  unfold SimProc.step at hx ⊢
  unfold SimProc.sends
  simp only [if_neg hn] at hx ⊢
  cases e with
  | dialFails => cases hc
  | dialled cc => cases hc
  | job clk q => cases hc
  | build j d =>
    have hj : j ≠ i := by simpa [Concerns] using hc
    dsimp only at hx ⊢
    cases hs : p.sims[j]? with
    | none => exact ⟨h, fun x hx => by cases hx⟩
    | some s =>
      rw [hs] at hx
      dsimp only at hx ⊢
      split
      · refine ⟨put _ _ _ hj (build_cli h.cli d) (build_elsewhere h.cli d fun e => hj (ho.1 e)), ?_⟩
        rintro x hx; cases hx; exact hj
      · exact ⟨h, fun x hx => by cases hx⟩
  | frame j clk bytes werr =>
    have hj : j ≠ i := by simpa [Concerns] using hc
    dsimp only at hx ⊢
    cases hs : p.sims[j]? with
    | none => exact ⟨h, fun x hx => by cases hx⟩
    | some s =>
      rw [hs] at hx
      dsimp only at hx ⊢
      split
      · next hrd =>
        rw [if_pos hrd] at hx
        constructor
        · have hb := put _ j { s with reading := (p.st.handleFrame env clk s.cc bytes).2.clientGoesOn werr } hj
            (simFrame_elsewhere env clk s.cc h.cli bytes ph fun pd hp => (ho pd hp).2).1
            ((simFrame_elsewhere env clk s.cc h.cli bytes ph fun pd hp => (ho pd hp).2).2
              fun pd hp e => hj ((ho pd hp).1.1 e))
          rw [settle_stays hx]
          exact hb
        · intro x hx
          split at hx
          · cases hx; exact hj
          · cases hx
      · exact ⟨h, fun x hx => by cases hx⟩
  | readFails j e =>
    have hj : j ≠ i := by simpa [Concerns] using hc
    dsimp only at hx ⊢
    refine ⟨?_, fun x hx => by cases hx⟩
    cases hs : p.sims[j]? with
    | none => exact h
    | some s =>
      rw [hs] at hx
      dsimp only at hx ⊢
      split
      · next hrd =>
        rw [if_pos hrd] at hx
        rw [settle_stays hx]
        exact put p.st j { s with reading := !e.endsClient } hj h.cli (.refl _ _)
      · exact h
  | look j =>
    have hj : j ≠ i := by simpa [Concerns] using hc
    dsimp only at hx ⊢
    refine ⟨?_, fun x hx => by cases hx⟩
    cases hs : p.sims[j]? with
    | none => exact h
    | some s =>
      dsimp only
      split
      · split
        · exact put p.st j { s with phase := .stuck } hj h.cli (.refl _ _)
        · split
          · exact put p.st j { s with phase := .sending } hj h.cli (.refl _ _)
          · exact h
      · exact h
  | beats j =>
    have hj : j ≠ i := by simpa [Concerns] using hc
    dsimp only at hx ⊢
    cases hs : p.sims[j]? with
    | none => exact ⟨h, fun x hx => by cases hx⟩
    | some s =>
      rw [hs] at hx
      dsimp only at hx ⊢
      constructor
      · unfold SimProc.getDevice at hx ⊢
        split
        · next hp =>
          rw [if_pos hp] at hx
          split
          · exact h
          · next hn => rw [hn] at hx; cases hx
        · exact h
      · intro x hx
        split at hx
        · cases hx; exact hj
        · cases hx
  | locates j =>
    have hj : j ≠ i := by simpa [Concerns] using hc
    dsimp only at hx ⊢
    cases hs : p.sims[j]? with
    | none => exact ⟨h, fun x hx => by cases hx⟩
    | some s =>
      rw [hs] at hx
      dsimp only at hx ⊢
      constructor
      · unfold SimProc.getDevice at hx ⊢
        split
        · next hp =>
          rw [if_pos hp] at hx
          split
          · exact h
          · next hn => rw [hn] at hx; cases hx
        · exact h
      · intro x hx
        split at hx
        · cases hx; exact hj
        · cases hx

theorem put_own {i : Nat} {ph : Str} {p p' : SimProc} (h : Beside i ph p p') {s0 : SimRun} (hs0 : p.sims[i]? = some s0)
    {st st' : Store} {s : SimRun} (hc : Cli st) (hc' : Cli st')
    (hs : SameTo ph st st') (hp : s.phase ≠ .connected → s.phone = ph) :
    Beside i ph { p with st := st, sims := p.sims.set i s } { p' with st := st', sims := p'.sims.set i s } := by
  have hi : i < p.sims.length := (List.getElem?_eq_some_iff.1 hs0).1
  have hi' : i < p'.sims.length := by rw [h.len]; exact hi
  refine ⟨hc, hc', hs, h.exit, h.exit', h.todo, h.fails, by simp [h.len], ?_, ?_, ?_⟩
  · simp [hi, hi']
  · intro j hj x hx
    refine h.idle j hj x ?_
    rw [← hx]; exact (set_other (Ne.symm hj) s).symm
  · intro x hx
    simp [hi] at hx
    subst hx; exact hp

/-- What a lookup by the own phone finds. -/
theorem SameTo.found {ph : Str} {st st' : Store} (h : SameTo ph st st') :
    (st.devByPhone ph = none ∧ st'.devByPhone ph = none) ∨
    ∃ r r', st.devByPhone ph = some r ∧ st'.devByPhone ph = some r' ∧ st'.heap r' = st.heap r := look_split h.look

/-- A step that concerns the simulator. -/
theorem beside_own {env : Env} {i : Nat} {ph : Str} {p p' : SimProc} (h : Beside i ph p p') (e : SimEv)
    (hc : Concerns i e = true) (ho : OwnPhone env i ph e) (hx : (p.step env e).exit = none) :
    Beside i ph (p.step env e) (p'.step env e) ∧ p'.sends env e = p.sends env e ∧
      ∀ x, p.sends env e = some x → x.1 = i := by
  have hn : ¬ (p.exit ≠ none) := fun x => x h.exit
  have hn' : ¬ (p'.exit ≠ none) := fun x => x h.exit'
  unfold SimProc.step at hx ⊢
  unfold SimProc.sends
  simp only [if_neg hn, if_neg hn'] at hx ⊢
  cases e with
  | dialFails =>
    dsimp only at hx ⊢
    rw [h.todo, h.fails]
    refine ⟨?_, rfl, fun x hx => by cases hx⟩
    split
    · exact h
    · next ht =>
      rw [if_neg ht] at hx
      split
      · next hf => rw [if_pos hf] at hx; cases hx
      · exact ⟨h.cli, h.cli', h.same, h.exit, h.exit', rfl, rfl, h.len, h.sim, h.idle, h.phone⟩
  | dialled cc =>
    dsimp only at hx ⊢
    rw [h.todo]
    refine ⟨?_, rfl, fun x hx => by cases hx⟩
    split
    · exact h
    · refine ⟨h.cli, h.cli', h.same, h.exit, h.exit', rfl, rfl, by simp [h.len], ?_, ?_, ?_⟩
      · simp only [List.getElem?_append, h.len, h.sim]
      · intro j hj s hs
        simp only [List.getElem?_append] at hs
        split at hs
        · exact h.idle j hj s hs
        · have := List.mem_iff_getElem?.2 ⟨_, hs⟩
          simp only [List.mem_singleton] at this
          rw [this]
      · intro s hs hp
        simp only [List.getElem?_append] at hs
        split at hs
        · exact h.phone s hs hp
        · have := List.mem_iff_getElem?.2 ⟨_, hs⟩
          simp only [List.mem_singleton] at this
          rw [this] at hp; exact absurd rfl hp
  | job clk q =>
    dsimp only at hx ⊢
    rw [h.cli.jobs, h.cli'.jobs]
    exact ⟨h, rfl, fun x hx => by cases hx⟩
  | build j d =>
    have hj : j = i := by simpa [Concerns] using hc
    subst hj
    have hd : d.phone = ph := ho.2 rfl
    dsimp only at hx ⊢
    rw [h.sim]
    cases hs : p.sims[j]? with
    | none => exact ⟨h, rfl, fun x hx => by cases hx⟩
    | some s =>
      dsimp only
      split
      · refine ⟨put_own h hs (build_cli h.cli d) (build_cli h.cli' d) ?_ (fun _ => hd), rfl, fun x hx => by cases hx; rfl⟩
        rw [← hd]; exact build_alike h.cli h.cli' d (by rw [hd]; exact h.same)
      · exact ⟨h, rfl, fun x hx => by cases hx⟩
  | frame j clk bytes werr =>
    have hj : j = i := by simpa [Concerns] using hc
    subst hj
    dsimp only at hx ⊢
    rw [h.sim]
    cases hs : p.sims[j]? with
    | none => exact ⟨h, rfl, fun x hx => by cases hx⟩
    | some s =>
      rw [hs] at hx
      dsimp only at hx ⊢
      split
      · next hrd =>
        rw [if_pos hrd] at hx
        obtain ⟨a, b⟩ := simFrame_alike env clk s.cc h.cli h.cli' bytes ph (fun pd hp => (ho pd hp).2)
          (fun pd hp => (ho pd hp).1.2 rfl) h.same
        have c1 := (simFrame_elsewhere env clk s.cc h.cli bytes ph fun pd hp => (ho pd hp).2).1
        have c2 := (simFrame_elsewhere env clk s.cc h.cli' bytes ph fun pd hp => (ho pd hp).2).1
        rw [a]
        refine ⟨(put_own h hs (s := { s with reading := (p.st.handleFrame env clk s.cc bytes).2.clientGoesOn werr }) c1 c2 b
          (h.phone s hs)).settles hx, rfl, ?_⟩
        intro x hx
        split at hx
        · cases hx; rfl
        · cases hx
      · exact ⟨h, rfl, fun x hx => by cases hx⟩
  | readFails j e =>
    have hj : j = i := by simpa [Concerns] using hc
    subst hj
    dsimp only at hx ⊢
    rw [h.sim]
    refine ⟨?_, rfl, fun x hx => by cases hx⟩
    cases hs : p.sims[j]? with
    | none => exact h
    | some s =>
      rw [hs] at hx
      dsimp only at hx ⊢
      split
      · next hrd =>
        rw [if_pos hrd] at hx
        exact (put_own h hs (s := { s with reading := !e.endsClient }) h.cli h.cli' h.same (h.phone s hs)).settles hx
      · exact h
  | look j =>
    have hj : j = i := by simpa [Concerns] using hc
    subst hj
    dsimp only at hx ⊢
    rw [h.sim]
    refine ⟨?_, rfl, fun x hx => by cases hx⟩
    cases hs : p.sims[j]? with
    | none => exact h
    | some s =>
      dsimp only
      split
      · next hw =>
        have hph := h.phone s hs (by rw [hw]; simp)
        rw [hph]
        rcases h.same.found with ⟨a, b⟩ | ⟨r, r', a, b, e⟩ <;> rw [a, b] <;> dsimp only
        · exact put_own h hs h.cli h.cli' h.same (fun _ => rfl)
        · rw [e]
          split
          · exact put_own h hs h.cli h.cli' h.same (fun _ => rfl)
          · exact h
      · exact h
  | beats j =>
    have hj : j = i := by simpa [Concerns] using hc
    subst hj
    dsimp only at hx ⊢
    rw [h.sim]
    cases hs : p.sims[j]? with
    | none => exact ⟨h, rfl, fun x hx => by cases hx⟩
    | some s =>
      rw [hs] at hx
      dsimp only at hx ⊢
      refine ⟨?_, ?_, ?_⟩
      · unfold SimProc.getDevice at hx ⊢
        split
        · next hw =>
          have hph := h.phone s hs (by rw [hw]; simp)
          rw [if_pos hw] at hx
          rw [hph] at hx ⊢
          rcases h.same.found with ⟨a, b⟩ | ⟨r, r', a, b, e⟩
          · rw [a] at hx; cases hx
          · rw [a, b]; exact h
        · exact h
      · unfold SimProc.speaks
        by_cases hw : s.phase = .sending
        · have hph := h.phone s hs (by rw [hw]; simp)
          rw [hph]
          rcases h.same.found with ⟨a, b⟩ | ⟨r, r', a, b, e⟩ <;> rw [a, b] <;> rfl
        · simp [hw]
      · intro x hx
        split at hx
        · cases hx; rfl
        · cases hx
  | locates j =>
    have hj : j = i := by simpa [Concerns] using hc
    subst hj
    dsimp only at hx ⊢
    rw [h.sim]
    cases hs : p.sims[j]? with
    | none => exact ⟨h, rfl, fun x hx => by cases hx⟩
    | some s =>
      rw [hs] at hx
      dsimp only at hx ⊢
      refine ⟨?_, ?_, ?_⟩
      · unfold SimProc.getDevice at hx ⊢
        split
        · next hw =>
          have hph := h.phone s hs (by rw [hw]; simp)
          rw [if_pos hw] at hx
          rw [hph] at hx ⊢
          rcases h.same.found with ⟨a, b⟩ | ⟨r, r', a, b, e⟩
          · rw [a] at hx; cases hx
          · rw [a, b]; exact h
        · exact h
      · unfold SimProc.speaks
        by_cases hw : s.phase = .sending
        · have hph := h.phone s hs (by rw [hw]; simp)
          rw [hph]
          rcases h.same.found with ⟨a, b⟩ | ⟨r, r', a, b, e⟩ <;> rw [a, b] <;> rfl
        · simp [hw]
      · intro x hx
        split at hx
        · cases hx; rfl
        · cases hx

theorem beside_run {env : Env} {i : Nat} {ph : Str} (evs : List SimEv) : ∀ {p p' : SimProc}, Beside i ph p p' →
    (∀ e ∈ evs, OwnPhone env i ph e) → (p.run env evs).exit = none →
    Beside i ph (p.run env evs) (p'.run env (evs.filter (Concerns i))) ∧
    (p.log env evs).filter (fun x => decide (x.1 = i)) = p'.log env (evs.filter (Concerns i)) := by
  induction evs with
  | nil => intro p p' h _ _; exact ⟨h, rfl⟩
  | cons e evs ih =>
    intro p p' h ho hx
    have hx1 : (p.step env e).exit = none := by
      cases hq : (p.step env e).exit with
      | none => rfl
      | some x =>
        have : p.run env (e :: evs) = (p.step env e).run env evs := rfl
        rw [this, run_exited (by rw [hq]; simp), hq] at hx; cases hx
    cases hc : Concerns i e with
    | true =>
      obtain ⟨a, b, c⟩ := beside_own h e hc (ho e List.mem_cons_self) hx1
      obtain ⟨x, y⟩ := ih a (fun e he => ho e (List.mem_cons_of_mem _ he)) hx
      rw [List.filter_cons_of_pos hc]
      refine ⟨x, ?_⟩
      show List.filter _ ((p.sends env e).toList ++ (p.step env e).log env evs) =
        (p'.sends env e).toList ++ (p'.step env e).log env _
      rw [List.filter_append, y, b]
      congr 1
      cases hs : p.sends env e with
      | none => rfl
      | some x => simp [c x hs]
    | false =>
      obtain ⟨a, c⟩ := beside_other h e hc (ho e List.mem_cons_self) hx1
      obtain ⟨x, y⟩ := ih a (fun e he => ho e (List.mem_cons_of_mem _ he)) hx
      rw [List.filter_cons_of_neg (by simp [hc])]
      refine ⟨x, ?_⟩
      show List.filter _ ((p.sends env e).toList ++ (p.step env e).log env evs) = _
      rw [List.filter_append, y]
      cases hs : p.sends env e with
      | none => rfl
      | some x => simp [c x hs]

/-- As long as the process runs, a simulator whose phone number is its own sends what it would send, and is in the state it
would be in, if the other simulators did nothing but connect. -/
theorem C140_alone_partial (env : Env) (n i : Nat) (ph : Str) (evs : List SimEv) (ho : ∀ e ∈ evs, OwnPhone env i ph e)
    (hx : ((SimProc.start n).run env evs).exit = none) :
    ((SimProc.start n).log env evs).filter (fun x => decide (x.1 = i)) = (SimProc.start n).log env (evs.filter (Concerns i)) ∧
    ((SimProc.start n).run env (evs.filter (Concerns i))).exit = none ∧
    ((SimProc.start n).run env (evs.filter (Concerns i))).sims[i]? = ((SimProc.start n).run env evs).sims[i]? ∧
    ((SimProc.start n).run env (evs.filter (Concerns i))).st.look ph = ((SimProc.start n).run env evs).st.look ph ∧
    ((SimProc.start n).run env (evs.filter (Concerns i))).st.params.get ph =
      ((SimProc.start n).run env evs).st.params.get ph := by
  have h0 : (SimProc.start n).exit = none := by
    cases hq : (SimProc.start n).exit with
    | none => rfl
    | some x => rw [run_exited (by rw [hq]; simp), hq] at hx; cases hx
  have hst : SimProc.start n = ⟨Store.empty, n, 0, [], none⟩ := settle_stays h0
  have hb : Beside i ph (SimProc.start n) (SimProc.start n) := by
    rw [hst]
    exact ⟨cli_empty, cli_empty, .refl _ _, rfl, rfl, rfl, rfl, rfl, rfl, (fun j _ s hs => by cases hs), fun s hs => by cases hs⟩
  obtain ⟨a, b⟩ := beside_run evs hb ho hx
  exact ⟨b, a.exit', a.sim, a.same.look, a.same.params⟩

/-- Two simulators that happened to draw the same phone number: the answer to the second one makes the first one send. -/
def twinSims : List SimEv :=
  [.dialled demoC, .build 0 (genDevice .v2013 [0x31] [0x41] (hdr2013 0).phone [] 20000 demoC), .dialled demoC',
   .build 1 (genDevice .v2013 [0x32] [0x42] (hdr2013 0).phone [] 20000 demoC'), .frame 1 (demoClk 5) (demoAck 0) none,
   .look 0, .beats 0]

/-- So simulators with the same number do influence each other. -/
theorem C140_shared_phone : ∃ (n i : Nat) (evs : List SimEv), ((SimProc.start n).run goEnv evs).exit = none ∧
    ((SimProc.start n).log goEnv evs).filter (fun x => decide (x.1 = i)) ≠
      (SimProc.start n).log goEnv (evs.filter (Concerns i)) :=
  ⟨2, 0, twinSims, by decide +kernel⟩

example : ((SimProc.start 2).log goEnv twinSims).filter (fun x => decide (x.1 = 0)) = [(0, .register), (0, .beat)] ∧
    (SimProc.start 2).log goEnv (twinSims.filter (Concerns 0)) = [(0, .register)] := by decide +kernel

/-- Two simulators with different numbers: the hypotheses of `C140_alone_partial` hold for the first and for the second. -/
theorem twoSims_own (i : Nat) (hi : i = 0 ∨ i = 1) (ph : Str)
    (hp : ph = if i = 0 then (hdr2013 0).phone else fillDevicePhone [0x37] 12) : ∀ e ∈ twoSims, OwnPhone goEnv i ph e := by
  have hd : ∀ pd, decodeFrame goEnv (demoAck 0) = .ok pd → pd.header.phone = (hdr2013 0).phone ∧ pd.header.msgID = 0x8001 := by
    intro pd h
    have : decodeFrame goEnv (demoAck 0) = .ok ⟨(hdr2013 0x8001).withBodyLength 5, _, _, _⟩ := rfl
    rw [this] at h
    cases h; exact ⟨rfl, rfl⟩
  subst hp
  intro e he
  simp only [twoSims, List.mem_cons, List.not_mem_nil, or_false] at he
  rcases he with rfl | rfl | rfl | rfl | rfl | rfl | rfl
  · trivial
  · rcases hi with rfl | rfl <;> (show _ ↔ _; decide +kernel)
  · trivial
  · rcases hi with rfl | rfl <;> (show _ ↔ _; decide +kernel)
  · intro pd h
    obtain ⟨a, b⟩ := hd pd h
    rw [a, b]
    refine ⟨?_, by decide, by decide, by decide⟩
    rcases hi with rfl | rfl <;> decide +kernel
  · trivial
  · trivial

example : ((SimProc.start 2).log goEnv twoSims).filter (fun x => decide (x.1 = 0)) =
    (SimProc.start 2).log goEnv (twoSims.filter (Concerns 0)) ∧
    (SimProc.start 2).log goEnv (twoSims.filter (Concerns 0)) = [(0, .register), (0, .locate)] :=
  ⟨(C140_alone_partial goEnv 2 0 _ twoSims (twoSims_own 0 (.inl rfl) _ rfl) twoSims_send.1).1, by decide +kernel⟩

end JT808
