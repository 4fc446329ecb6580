import Verif.Proof.SimProcess
import Verif.Proof.Tracks
import Verif.Proof.Demo
/-
C106: the simulators of one process.
-/
namespace JT808
open Spec

theorem simRun_snoc (env : Env) (p : SimProc) (evs : List SimEv) (e : SimEv) :
    p.run env (evs ++ [e]) = (p.run env evs).step env e := by simp [SimProc.run]

theorem step_exited {env : Env} {p : SimProc} (h : p.exit ≠ none) (e : SimEv) : p.step env e = p := by
  unfold SimProc.step; rw [if_pos h]

theorem run_exited {env : Env} {p : SimProc} (h : p.exit ≠ none) (evs : List SimEv) : p.run env evs = p := by
  induction evs with
  | nil => rfl
  | cons e evs ih => show (p.step env e).run env evs = p; rw [step_exited h]; exact ih

/-! ## What is said of a history -/

/-- The number of failed attempts to dial. -/
def Spec.failures (evs : List SimEv) : Nat := (evs.filter fun e => match e with | .dialFails => true | _ => false).length

/-- None of the attempts succeeds. -/
def Spec.NoneDialled (evs : List SimEv) : Prop := ∀ e ∈ evs, ∀ cc, e ≠ .dialled cc

theorem failures_append (a b : List SimEv) : Spec.failures (a ++ b) = Spec.failures a + Spec.failures b := by
  simp [Spec.failures]

/-! ## The steps one by one -/

theorem settle_busy {p : SimProc} (h : p.todo > 0) : p.settle = p := by
  unfold SimProc.settle; rw [if_neg]; rintro ⟨-, h2, -⟩; omega

/-- While simulators are to be dialled, an event that is no successful dial keeps the count. -/
theorem step_counts {env : Env} {p : SimProc} (hx : p.exit = none) (ht : p.todo > 0) {e : SimEv} (he : ∀ cc, e ≠ .dialled cc) :
    (p.step env e).exit ≠ none ∨ ((p.step env e).todo = p.todo ∧
      (p.step env e).fails = p.fails + Spec.failures [e] ∧ (p.step env e).fails ≤ max p.fails 6) := by
  have same : ∀ q : SimProc, q.todo = p.todo → q.fails = p.fails → q.exit ≠ none ∨ (q.todo = p.todo ∧ q.fails = p.fails + 0 ∧
      q.fails ≤ max p.fails 6) := fun q h1 h2 => .inr ⟨h1, h2, by omega⟩
  unfold SimProc.step
  rw [if_neg (by simp [hx])]
  cases e with
  | dialFails =>
    dsimp only
    rw [if_neg (by omega)]
    split
    · left; simp
    · right; refine ⟨rfl, rfl, ?_⟩
      show p.fails + 1 ≤ max p.fails 6; omega
  | dialled cc => exact absurd rfl (he cc)
  | build i d =>
    dsimp only
    cases p.sims[i]? with
    | none => exact same p rfl rfl
    | some s => dsimp only; split <;> exact same _ rfl rfl
  | frame i clk b w =>
    dsimp only
    cases p.sims[i]? with
    | none => exact same p rfl rfl
    | some s =>
      dsimp only
      split
      · exact same _ (settle_st _).2.2.1 (settle_st _).2.2.2
      · exact same _ rfl rfl
  | readFails i e =>
    dsimp only
    cases p.sims[i]? with
    | none => exact same p rfl rfl
    | some s =>
      dsimp only
      split
      · exact same _ (settle_st _).2.2.1 (settle_st _).2.2.2
      · exact same _ rfl rfl
  | look i =>
    dsimp only
    cases p.sims[i]? with
    | none => exact same p rfl rfl
    | some s =>
      dsimp only
      split
      · split
        · exact same _ rfl rfl
        · split <;> exact same _ rfl rfl
      · exact same _ rfl rfl
  | beats i =>
    dsimp only
    cases p.sims[i]? with
    | none => exact same p rfl rfl
    | some s => exact same _ (getDevice_st _ _).2.2.1 (getDevice_st _ _).2.2.2
  | locates i =>
    dsimp only
    cases p.sims[i]? with
    | none => exact same p rfl rfl
    | some s => exact same _ (getDevice_st _ _).2.2.1 (getDevice_st _ _).2.2.2
  | job clk q =>
    dsimp only
    split
    · cases p.st.check clk q with
      | mk st r => cases r <;> exact same _ rfl rfl
    · exact same p rfl rfl

/-! ## C106 -/

/-- The opposite of C106: when a simulator cannot connect seven times in a row, the whole process ends, whatever the
simulators that are connected are doing. -/
theorem C106_dial_ends_all (env : Env) (p : SimProc) (ht : p.todo > 0) (evs : List SimEv) (hn : Spec.NoneDialled evs)
    (hf : 7 ≤ Spec.failures evs) : (p.run env evs).exit ≠ none := by
  have key : ∀ (evs : List SimEv) (p : SimProc), p.todo > 0 → Spec.NoneDialled evs →
      (p.run env evs).exit ≠ none ∨ p.fails + Spec.failures evs ≤ max p.fails 6 := by
    intro evs
    induction evs with
    | nil => intro p _ _; right; show p.fails + 0 ≤ _; omega
    | cons e evs ih =>
      intro p ht hn
      by_cases hx : p.exit = none
      · have hn' : Spec.NoneDialled evs := fun e he => hn e (by simp [he])
        rcases step_counts (env := env) hx ht (hn e (by simp)) with h | ⟨h1, h2, h3⟩
        · left
          show ((p.step env e).run env evs).exit ≠ none
          rw [run_exited h]; exact h
        · rcases ih (p.step env e) (by omega) hn' with h | h
          · exact .inl h
          · right
            have : Spec.failures (e :: evs) = Spec.failures [e] + Spec.failures evs := failures_append [e] evs
            omega
      · left; rw [run_exited hx]; exact hx
  rcases key evs p ht hn with h | h
  · exact h
  · omega

/-- That is the only way in which failing to connect ends it. -/
theorem C106_dial_only (env : Env) (n : Nat) (evs : List SimEv)
    (h : ((SimProc.start n).run env evs).exit = some .dial) :
    ∃ a b c, evs = a ++ b ++ c ∧ Spec.NoneDialled b ∧ 7 ≤ Spec.failures b := by
  have key : ∀ evs, (((SimProc.start n).run env evs).exit = some .dial → ∃ a b c, evs = a ++ b ++ c ∧ Spec.NoneDialled b ∧
      7 ≤ Spec.failures b) ∧ (((SimProc.start n).run env evs).exit = none →
      (((SimProc.start n).run env evs).todo = 0 → ((SimProc.start n).run env evs).fails = 0) ∧
      ∃ a b, evs = a ++ b ∧ Spec.NoneDialled b ∧ ((SimProc.start n).run env evs).fails ≤ Spec.failures b) := by
    intro evs
    induction evs using snoc_ind with
    | h0 =>
      have hs : (SimProc.start n).exit ≠ some .dial ∧ (SimProc.start n).fails = 0 := by
        unfold SimProc.start SimProc.settle
        split <;> exact ⟨by simp, rfl⟩
      exact ⟨fun h => absurd h hs.1, fun _ => ⟨fun _ => hs.2, [], [], rfl, (fun e he => by cases he), by
        show (SimProc.start n).fails ≤ 0; omega⟩⟩
    | h1 evs e ih =>
      rw [simRun_snoc]
      obtain ⟨ih1, ih2⟩ := ih
      generalize (SimProc.start n).run env evs = p at *
      by_cases hx : p.exit = none
      · obtain ⟨hz, a, b, hab, hb, hf⟩ := ih2 hx
        have snoc : ∀ {e : SimEv}, (∀ cc, e ≠ .dialled cc) → Spec.NoneDialled (b ++ [e]) := by
          intro e he e' h'
          rcases List.mem_append.1 h' with h' | h'
          · exact hb e' h'
          · rw [List.mem_singleton.1 h']; exact he
        have hnc : Spec.failures (b ++ [e]) = Spec.failures b + Spec.failures [e] := failures_append b [e]
        -- an event that leaves the count alone
        have plain : ∀ q : SimProc, q.exit ≠ some .dial → q.todo = p.todo → q.fails = p.fails → (∀ cc, e ≠ .dialled cc) →
            (q.exit = some .dial → ∃ a b c, evs ++ [e] = a ++ b ++ c ∧ Spec.NoneDialled b ∧ 7 ≤ Spec.failures b) ∧
            (q.exit = none → (q.todo = 0 → q.fails = 0) ∧
              ∃ a b, evs ++ [e] = a ++ b ∧ Spec.NoneDialled b ∧ q.fails ≤ Spec.failures b) := by
          intro q h1 h0 h2 h3
          exact ⟨fun h => absurd h h1, fun _ => ⟨fun h => by rw [h2]; exact hz (h0 ▸ h), a, b ++ [e], by rw [hab]; simp, snoc h3,
            by omega⟩⟩
        have hne : p.exit ≠ some .dial := by rw [hx]; simp
        have setl : ∀ q : SimProc, q.exit = none → q.settle.exit ≠ some .dial := by
          intro q hq; unfold SimProc.settle; split
          · simp
          · rw [hq]; simp
        have getd : ∀ s, (p.getDevice s).exit ≠ some .dial := by
          intro s; unfold SimProc.getDevice; split
          · split
            · exact hne
            · simp
          · exact hne
        unfold SimProc.step
        rw [if_neg (by simp [hx])]
        cases e with
        | dialFails =>
          dsimp only
          split
          · exact plain p hne rfl rfl (by simp)
          · split
            · refine ⟨fun _ => ⟨a, b ++ [.dialFails], [], by rw [hab]; simp, snoc (by simp), ?_⟩, fun h => by cases h⟩
              rw [hnc]; show 7 ≤ Spec.failures b + 1; omega
            · next ht _ =>
              refine ⟨fun h => absurd h hne, fun _ => ⟨fun h => absurd h ht, a, b ++ [.dialFails], by rw [hab]; simp,
                snoc (by simp), ?_⟩⟩
              rw [hnc]; show p.fails + 1 ≤ Spec.failures b + 1; omega
        | dialled cc =>
          dsimp only
          split
          · next ht =>
            exact ⟨fun h => absurd h hne, fun _ => ⟨hz, evs ++ [.dialled cc], [], by simp, (fun e he => by cases he), by
              rw [hz ht]; exact Nat.zero_le _⟩⟩
          · exact ⟨fun h => absurd h hne, fun _ => ⟨fun _ => rfl, evs ++ [.dialled cc], [], by simp, (fun e he => by cases he),
              Nat.zero_le _⟩⟩
        | build i d =>
          dsimp only
          cases p.sims[i]? with
          | none => exact plain p hne rfl rfl (by simp)
          | some s => dsimp only; split <;> exact plain _ hne rfl rfl (by simp)
        | frame i clk by' w =>
          dsimp only
          cases p.sims[i]? with
          | none => exact plain p hne rfl rfl (by simp)
          | some s =>
            dsimp only
            split
            · exact plain _ (setl _ hx) (settle_st _).2.2.1 (settle_st _).2.2.2 (by simp)
            · exact plain _ hne rfl rfl (by simp)
        | readFails i e =>
          dsimp only
          cases p.sims[i]? with
          | none => exact plain p hne rfl rfl (by simp)
          | some s =>
            dsimp only
            split
            · exact plain _ (setl _ hx) (settle_st _).2.2.1 (settle_st _).2.2.2 (by simp)
            · exact plain _ hne rfl rfl (by simp)
        | look i =>
          dsimp only
          cases p.sims[i]? with
          | none => exact plain p hne rfl rfl (by simp)
          | some s =>
            dsimp only
            split
            · split
              · exact plain _ hne rfl rfl (by simp)
              · split <;> exact plain _ hne rfl rfl (by simp)
            · exact plain _ hne rfl rfl (by simp)
        | beats i =>
          dsimp only
          cases p.sims[i]? with
          | none => exact plain p hne rfl rfl (by simp)
          | some s => exact plain _ (getd s) (getDevice_st _ _).2.2.1 (getDevice_st _ _).2.2.2 (by simp)
        | locates i =>
          dsimp only
          cases p.sims[i]? with
          | none => exact plain p hne rfl rfl (by simp)
          | some s => exact plain _ (getd s) (getDevice_st _ _).2.2.1 (getDevice_st _ _).2.2.2 (by simp)
        | job clk q =>
          dsimp only
          split
          · cases p.st.check clk q with
            | mk st r => cases r <;> exact plain _ (by simp [hne]) rfl rfl (by simp)
          · exact plain p hne rfl rfl (by simp)
      · rw [step_exited hx]
        refine ⟨fun h => ?_, fun h => absurd h hx⟩
        obtain ⟨a, b, c, h1, h2, h3⟩ := ih1 h
        exact ⟨a, b, c ++ [e], by rw [h1]; simp, h2, h3⟩
  exact (key evs).1 h

/-- Six failures and a success leave it running, seven end it although a simulator is connected. -/
example : let six : List SimEv := List.replicate 6 .dialFails
    ((SimProc.start 2).run goEnv ([.dialled demoC] ++ six ++ [.dialled demoC'] ++ six)).exit = none ∧
    ((SimProc.start 3).run goEnv ([.dialled demoC] ++ six ++ [.dialled demoC'] ++ six)).exit = none ∧
    ((SimProc.start 3).run goEnv ([.dialled demoC] ++ six ++ [.dialled demoC'] ++ six ++ [.dialFails])).exit = some .dial ∧
    ((SimProc.start 3).run goEnv ([.dialled demoC] ++ six ++ [.dialled demoC'] ++ six ++ [.dialFails])).sims.map (·.reading) =
      [true, true] := by decide +kernel

/-! ### The simulators through a step -/

theorem set_sims {l : List SimRun} {i k : Nat} {s s' x : SimRun} (hi : l[i]? = some s) (hc : s'.cc = s.cc)
    (hr : s'.reading = true → s.reading = true) (hk : l[k]? = some x) :
    ∃ x', (l.set i s')[k]? = some x' ∧ x'.cc = x.cc ∧ (x'.reading = true → x.reading = true) := by
  by_cases h : i = k
  · subst h
    rw [hi] at hk; injection hk with hk; subst hk
    have hlt : i < l.length := by
      rcases Nat.lt_or_ge i l.length with h | h
      · exact h
      · rw [List.getElem?_eq_none h] at hi; cases hi
    exact ⟨s', by simp [hlt], hc, hr⟩
  · exact ⟨x, by rw [List.getElem?_set_ne h]; exact hk, rfl, id⟩

theorem step_sims (env : Env) (p : SimProc) (e : SimEv) :
    (∀ (k : Nat) (x : SimRun), p.sims[k]? = some x → ∃ x', (p.step env e).sims[k]? = some x' ∧ x'.cc = x.cc ∧
      (x'.reading = true → x.reading = true)) ∧
    (p.step env e).sims.length + (p.step env e).todo = p.sims.length + p.todo := by
  have same : ∀ q : SimProc, q.sims = p.sims → q.todo = p.todo →
      (∀ (k : Nat) (x : SimRun), p.sims[k]? = some x → ∃ x', q.sims[k]? = some x' ∧ x'.cc = x.cc ∧ (x'.reading = true → x.reading = true)) ∧
      q.sims.length + q.todo = p.sims.length + p.todo := by
    intro q h1 h2; rw [h1, h2]; exact ⟨fun k x h => ⟨x, h, rfl, id⟩, rfl⟩
  have one : ∀ (q : SimProc) (i : Nat) (s s' : SimRun), p.sims[i]? = some s → q.sims = p.sims.set i s' → q.todo = p.todo → s'.cc = s.cc →
      (s'.reading = true → s.reading = true) →
      (∀ (k : Nat) (x : SimRun), p.sims[k]? = some x → ∃ x', q.sims[k]? = some x' ∧ x'.cc = x.cc ∧ (x'.reading = true → x.reading = true)) ∧
      q.sims.length + q.todo = p.sims.length + p.todo := by
    intro q i s s' hi h1 h2 hc hr
    rw [h1, h2]
    exact ⟨fun k x h => set_sims hi hc hr h, by simp⟩
  unfold SimProc.step
  split
  · exact same p rfl rfl
  · cases e with
    | dialFails =>
      dsimp only
      split
      · exact same p rfl rfl
      · split <;> exact same _ rfl rfl
    | dialled cc =>
      dsimp only
      split
      · exact same p rfl rfl
      · next ht =>
        refine ⟨fun k x h => ⟨x, ?_, rfl, id⟩, ?_⟩
        · have : k < p.sims.length := by
            rcases Nat.lt_or_ge k p.sims.length with h' | h'
            · exact h'
            · rw [List.getElem?_eq_none h'] at h; cases h
          rw [List.getElem?_append_left this]; exact h
        · simp only [List.length_append, List.length_singleton]; omega
    | build i d =>
      dsimp only
      cases hi : p.sims[i]? with
      | none => exact same p rfl rfl
      | some s =>
        dsimp only
        split
        · exact one _ i s _ hi rfl rfl rfl id
        · exact same p rfl rfl
    | frame i clk b w =>
      dsimp only
      cases hi : p.sims[i]? with
      | none => exact same p rfl rfl
      | some s =>
        dsimp only
        split
        · next hr => exact one _ i s _ hi (settle_st _).2.1 (settle_st _).2.2.1 rfl (fun _ => hr)
        · exact same p rfl rfl
    | readFails i e =>
      dsimp only
      cases hi : p.sims[i]? with
      | none => exact same p rfl rfl
      | some s =>
        dsimp only
        split
        · next hr => exact one _ i s _ hi (settle_st _).2.1 (settle_st _).2.2.1 rfl (fun _ => hr)
        · exact same p rfl rfl
    | look i =>
      dsimp only
      cases hi : p.sims[i]? with
      | none => exact same p rfl rfl
      | some s =>
        dsimp only
        split
        · split
          · exact one _ i s _ hi rfl rfl rfl id
          · split
            · exact one _ i s _ hi rfl rfl rfl id
            · exact same p rfl rfl
        · exact same p rfl rfl
    | beats i =>
      dsimp only
      cases p.sims[i]? with
      | none => exact same p rfl rfl
      | some s => exact same _ (getDevice_st _ _).2.1 (getDevice_st _ _).2.2.1
    | locates i =>
      dsimp only
      cases p.sims[i]? with
      | none => exact same p rfl rfl
      | some s => exact same _ (getDevice_st _ _).2.1 (getDevice_st _ _).2.2.1
    | job clk q =>
      dsimp only
      split
      · cases p.st.check clk q with
        | mk st r => cases r <;> exact same _ rfl rfl
      · exact same p rfl rfl

/-- No simulator connects twice, and none is added for one that has stopped reading: there are never more connections than
the configured number, a simulator keeps its connection, and one that has stopped reading never reads again. -/
theorem C106_no_reconnect (env : Env) (n : Nat) (evs more : List SimEv) :
    ((SimProc.start n).run env evs).sims.length + ((SimProc.start n).run env evs).todo = n ∧
    ∀ (i : Nat) (s : SimRun), ((SimProc.start n).run env evs).sims[i]? = some s →
      ∃ s', ((SimProc.start n).run env (evs ++ more)).sims[i]? = some s' ∧ s'.cc = s.cc ∧
        (s'.reading = true → s.reading = true) := by
  constructor
  · induction evs using snoc_ind with
    | h0 =>
      show (SimProc.start n).sims.length + (SimProc.start n).todo = n
      unfold SimProc.start
      rw [(settle_st _).2.1, (settle_st _).2.2.1]
      exact Nat.zero_add n
    | h1 evs e ih => rw [simRun_snoc, (step_sims env _ e).2]; exact ih
  · intro i s hs
    induction more using snoc_ind with
    | h0 => rw [List.append_nil]; exact ⟨s, hs, rfl, id⟩
    | h1 more e ih =>
      obtain ⟨s', h1, h2, h3⟩ := ih
      rw [← List.append_assoc, simRun_snoc]
      obtain ⟨s'', k1, k2, k3⟩ := (step_sims env _ e).1 i s' h1
      exact ⟨s'', k1, k2.trans h2, fun h => h3 (k3 h)⟩

/-- The first fragment of any message makes a simulator deaf for good: it panics while reading it, never reads again, and
goes on in the phase it was in. -/
theorem C106_fragment_deafens (env : Env) (n : Nat) (evs more : List SimEv) (clk : Clock) (b : List UInt8) (werr : Option Err)
    (pd : Packet) (f : Frag) (hd : decodeFrame env b = .ok pd) (hf : pd.header.isFragmented = true)
    (hg : pd.header.frag = some f) (i : Nat) (s : SimRun)
    (hn : ((SimProc.start n).run env evs).st.segs.get (segKey pd.header.phone pd.header.msgID) = none)
    (hx : ((SimProc.start n).run env evs).exit = none)
    (hs : ((SimProc.start n).run env evs).sims[i]? = some s) (hr : s.reading = true) :
    ((SimProc.start n).run env (evs ++ [.frame i clk b werr])).sims[i]? = some { s with reading := false } ∧
    ∃ s', ((SimProc.start n).run env (evs ++ [.frame i clk b werr] ++ more)).sims[i]? = some s' ∧ s'.cc = s.cc ∧
      s'.reading = false := by
  have e1 : ((SimProc.start n).run env (evs ++ [.frame i clk b werr])).sims[i]? = some { s with reading := false } := by
    rw [simRun_snoc]
    generalize (SimProc.start n).run env evs = p at *
    have e : (p.st.handleFrame env clk s.cc b).2 = .panicked := by
      unfold Store.handleFrame Store.decodePacket
      rw [hd]
      simp only [hf, hg, if_true, Store.cacheSegment, Segment.ofPacket, hn]
    have hl : i < p.sims.length := by
      rcases Nat.lt_or_ge i p.sims.length with h | h
      · exact h
      · rw [List.getElem?_eq_none h] at hs; cases hs
    unfold SimProc.step
    rw [if_neg (by simp [hx])]
    simp only [hs, hr, if_true]
    rw [(settle_st _).2.1, e, List.getElem?_set_self hl]
    rfl
  refine ⟨e1, ?_⟩
  obtain ⟨s', h1, h2, h3⟩ := (C106_no_reconnect env n (evs ++ [.frame i clk b werr]) more).2 i _ e1
  refine ⟨s', h1, h2, ?_⟩
  cases hb : s'.reading with
  | false => rfl
  | true => cases h3 hb

/-- The process returns from main exactly when all simulators have been connected and all have stopped reading. -/
theorem C106_finished (env : Env) (n : Nat) (evs : List SimEv) :
    (((SimProc.start n).run env evs).exit = some .finished →
      ((SimProc.start n).run env evs).todo = 0 ∧ ∀ s ∈ ((SimProc.start n).run env evs).sims, s.reading = false) ∧
    (((SimProc.start n).run env evs).exit = none →
      ((SimProc.start n).run env evs).todo ≠ 0 ∨ ∃ s ∈ ((SimProc.start n).run env evs).sims, s.reading = true) := by
  have setl : ∀ q : SimProc, q.exit = none → (q.settle.exit = some .finished → q.settle.todo = 0 ∧ ∀ s ∈ q.settle.sims,
      s.reading = false) ∧ (q.settle.exit = none → q.settle.todo ≠ 0 ∨ ∃ s ∈ q.settle.sims, s.reading = true) := by
    intro q hq
    rw [(settle_st q).2.1, (settle_st q).2.2.1]
    unfold SimProc.settle
    by_cases hc : q.exit = none ∧ q.todo = 0 ∧ (q.sims.all fun s => !s.reading) = true
    · rw [if_pos hc]
      refine ⟨fun _ => ⟨hc.2.1, fun s hs => ?_⟩, fun h => by cases h⟩
      have := List.all_eq_true.1 hc.2.2 s hs
      simpa using this
    · rw [if_neg hc]
      refine ⟨fun h => (by rw [hq] at h; cases h), fun _ => ?_⟩
      by_cases ht : q.todo = 0
      · right
        have h3 : ¬ (q.sims.all fun s => !s.reading) = true := fun h => hc ⟨hq, ht, h⟩
        rw [List.all_eq_true] at h3
        simp only [Bool.not_eq_true', not_imp, Classical.not_forall] at h3
        obtain ⟨s, hs, hr⟩ := h3
        exact ⟨s, hs, by simpa using hr⟩
      · exact .inl ht
  induction evs using snoc_ind with
  | h0 => exact setl ⟨Store.empty, n, 0, [], none⟩ rfl
  | h1 evs e ih =>
    rw [simRun_snoc]
    generalize (SimProc.start n).run env evs = p at *
    by_cases hx : p.exit = none
    · have ih := ih.2 hx
      have nof : p.exit ≠ some .finished := by rw [hx]; simp
      -- the simulators still read as before
      have same : ∀ q : SimProc, q.exit ≠ some .finished → (q.todo = p.todo) → (∀ (i : Nat) (s : SimRun), p.sims[i]? = some s → ∃ s',
          q.sims[i]? = some s' ∧ s'.reading = s.reading) →
          (q.exit = some .finished → q.todo = 0 ∧ ∀ s ∈ q.sims, s.reading = false) ∧
          (q.exit = none → q.todo ≠ 0 ∨ ∃ s ∈ q.sims, s.reading = true) := by
        intro q h1 h2 h3
        refine ⟨fun h => absurd h h1, fun _ => ?_⟩
        rcases ih with h | ⟨s, hs, hr⟩
        · left; rw [h2]; exact h
        · right
          obtain ⟨i, hi⟩ := List.mem_iff_getElem?.1 hs
          obtain ⟨s', k1, k2⟩ := h3 i s hi
          exact ⟨s', List.mem_of_getElem? k1, k2.trans hr⟩
      have all : ∀ (i : Nat) (s : SimRun), p.sims[i]? = some s → ∃ s', p.sims[i]? = some s' ∧ s'.reading = s.reading :=
        fun i s h => ⟨s, h, rfl⟩
      have but : ∀ (i : Nat) (s s' : SimRun), p.sims[i]? = some s → s'.reading = s.reading → ∀ (k : Nat) (x : SimRun), p.sims[k]? = some x →
          ∃ x', (p.sims.set i s')[k]? = some x' ∧ x'.reading = x.reading := by
        intro i s s' hi hr k x hk
        by_cases h : i = k
        · subst h
          rw [hi] at hk; injection hk with hk; subst hk
          have hlt : i < p.sims.length := by
            rcases Nat.lt_or_ge i p.sims.length with h | h
            · exact h
            · rw [List.getElem?_eq_none h] at hi; cases hi
          exact ⟨s', by simp [hlt], hr⟩
        · exact ⟨x, by rw [List.getElem?_set_ne h]; exact hk, rfl⟩
      have getd : ∀ s, (p.getDevice s).exit ≠ some .finished := by
        intro s; unfold SimProc.getDevice; split
        · split
          · exact nof
          · simp
        · exact nof
      unfold SimProc.step
      rw [if_neg (by simp [hx])]
      cases e with
      | dialFails =>
        dsimp only
        split
        · exact same p nof rfl all
        · split
          · exact same _ (by simp) rfl all
          · exact same _ nof rfl all
      | dialled cc =>
        dsimp only
        split
        · exact same p nof rfl all
        · exact ⟨fun h => absurd h nof, fun _ => .inr ⟨⟨cc, [], .connected, true⟩, by simp, rfl⟩⟩
      | build i d =>
        dsimp only
        cases hi : p.sims[i]? with
        | none => exact same p nof rfl all
        | some s =>
          dsimp only
          split
          · exact same _ nof rfl (but i s _ hi rfl)
          · exact same p nof rfl all
      | frame i clk b w =>
        dsimp only
        cases hi : p.sims[i]? with
        | none => exact same p nof rfl all
        | some s =>
          dsimp only
          split
          · exact setl _ hx
          · exact same p nof rfl all
      | readFails i e =>
        dsimp only
        cases hi : p.sims[i]? with
        | none => exact same p nof rfl all
        | some s =>
          dsimp only
          split
          · exact setl _ hx
          · exact same p nof rfl all
      | look i =>
        dsimp only
        cases hi : p.sims[i]? with
        | none => exact same p nof rfl all
        | some s =>
          dsimp only
          split
          · split
            · exact same _ nof rfl (but i s _ hi rfl)
            · split
              · exact same _ nof rfl (but i s _ hi rfl)
              · exact same p nof rfl all
          · exact same p nof rfl all
      | beats i =>
        dsimp only
        cases p.sims[i]? with
        | none => exact same p nof rfl all
        | some s => exact same _ (getd s) (getDevice_st _ _).2.2.1 (by rw [(getDevice_st _ _).2.1]; exact all)
      | locates i =>
        dsimp only
        cases p.sims[i]? with
        | none => exact same p nof rfl all
        | some s => exact same _ (getd s) (getDevice_st _ _).2.2.1 (by rw [(getDevice_st _ _).2.1]; exact all)
      | job clk q =>
        dsimp only
        split
        · cases p.st.check clk q with
          | mk st r => cases r <;> exact same _ (by simp [nof]) rfl all
        · exact same p nof rfl all
    · rw [step_exited hx]; exact ih

/-- Two simulators: the process goes on until the second connection ends too. -/
example : ((SimProc.start 2).run goEnv [.dialled demoC, .dialled demoC', .readFails 0 .eof]).exit = none ∧
    ((SimProc.start 2).run goEnv [.dialled demoC, .dialled demoC', .readFails 0 .eof, .readFails 1 .eof]).exit =
      some .finished ∧ (SimProc.start 0).exit = some .finished := by decide +kernel

/-! ### A deregistration from the server -/

theorem sim_keyed (env : Env) (n : Nat) (evs : List SimEv) : Keyed ((SimProc.start n).run env evs).st := by
  induction evs using snoc_ind with
  | h0 =>
    show Keyed (SimProc.start n).st
    unfold SimProc.start; rw [(settle_st _).1]; exact keyed_empty
  | h1 evs e ih =>
    rw [simRun_snoc]
    generalize (SimProc.start n).run env evs = p at *
    unfold SimProc.step
    split
    · exact ih
    · cases e with
      | dialFails =>
        dsimp only
        split
        · exact ih
        · split <;> exact ih
      | dialled cc => dsimp only; split <;> exact ih
      | build i d =>
        dsimp only
        cases p.sims[i]? with
        | none => exact ih
        | some s =>
          dsimp only
          split
          · exact ih.put d
          · exact ih
      | frame i clk b w =>
        dsimp only
        cases p.sims[i]? with
        | none => exact ih
        | some s =>
          dsimp only
          split
          · rw [(settle_st _).1]; exact handleFrame_keyed env clk s.cc p.st b ih
          · exact ih
      | readFails i e =>
        dsimp only
        cases p.sims[i]? with
        | none => exact ih
        | some s =>
          dsimp only
          split
          · rw [(settle_st _).1]; exact ih
          · exact ih
      | look i =>
        dsimp only
        cases p.sims[i]? with
        | none => exact ih
        | some s =>
          dsimp only
          split
          · split
            · exact ih
            · split <;> exact ih
          · exact ih
      | beats i =>
        dsimp only
        cases p.sims[i]? with
        | none => exact ih
        | some s => rw [(getDevice_st _ _).1]; exact ih
      | locates i =>
        dsimp only
        cases p.sims[i]? with
        | none => exact ih
        | some s => rw [(getDevice_st _ _).1]; exact ih
      | job clk q =>
        dsimp only
        split
        · have hk := check_keyed clk p.st q ih
          cases hc : p.st.check clk q with
          | mk st r => rw [hc] at hk; cases r <;> exact hk
        · exact ih

/-- The opposite of C106 again: a deregistration with the phone of one simulator, sent by the server to any simulator,
ends the process at the next location report of that simulator, while all the others are reading. -/
theorem C106_deregistration_ends_all (env : Env) (n : Nat) (evs : List SimEv) (clk : Clock) (f : List UInt8) (h : Header)
    (hf : Holds env clk.civil f h .m0003) (i j : Nat) (s t : SimRun)
    (hx : ((SimProc.start n).run env evs).exit = none)
    (hs : ((SimProc.start n).run env evs).sims[i]? = some s) (hsend : s.phase = .sending) (hph : s.phone = h.phone)
    (ht : ((SimProc.start n).run env evs).sims[j]? = some t) (hread : t.reading = true) :
    ((SimProc.start n).run env (evs ++ [.frame j clk f none, .locates i])).exit = some .fatal ∧
    ((SimProc.start n).run env (evs ++ [.frame j clk f none, .locates i])).sims = ((SimProc.start n).run env evs).sims := by
  have hk := sim_keyed env n evs
  have e1 : (SimProc.start n).run env (evs ++ [.frame j clk f none, .locates i]) =
      (((SimProc.start n).run env evs).step env (.frame j clk f none)).step env (.locates i) := by
    simp [SimProc.run]
  rw [e1]
  generalize (SimProc.start n).run env evs = p at *
  have hjl : j < p.sims.length := by
    rcases Nat.lt_or_ge j p.sims.length with h | h
    · exact h
    · rw [List.getElem?_eq_none h] at ht; cases ht
  have hset : ∀ b, b = true → p.sims.set j { t with reading := b } = p.sims := by
    rintro b rfl
    have hte : ({ t with reading := true } : SimRun) = t := by cases t; simp at hread; simp [hread]
    rw [hte]
    refine List.ext_getElem? fun k => ?_
    by_cases hjk : j = k
    · subst hjk; rw [ht]; simp [hjl]
    · rw [List.getElem?_set_ne hjk]
  have hnset : ∀ q : SimProc, q.sims = p.sims → q.settle = q := by
    intro q hq
    unfold SimProc.settle; rw [if_neg]
    rintro ⟨-, -, h3⟩
    rw [hq] at h3
    have := List.all_eq_true.1 h3 t (List.mem_of_getElem? ht)
    rw [hread] at this; cases this
  have key : (p.st.handleFrame env clk t.cc f).2.clientGoesOn none = true ∧
      (p.st.handleFrame env clk t.cc f).1.byPhone.get h.phone = none := by
    rw [hf.handle]
    simp only [Store.handle, process0003, Store.devByPhone]
    cases hr : p.st.byPhone.get h.phone with
    | none => exact ⟨rfl, hr⟩
    | some r =>
      have hphone := (hk _ _ hr).1
      dsimp only
      constructor
      · simp only [finish]
        have : ∃ g, Out.encode env (gen8001 h 0) = .ok g := ⟨_, rfl⟩
        obtain ⟨g, hg⟩ := this
        rw [hg]; rfl
      · rw [finish_fst, hphone]
        show ((p.st.cancelJob h.phone).delByPhone h.phone).byPhone.get h.phone = none
        unfold Store.delByPhone Store.cancelJob
        simp only [hr, hphone, AMap.get_del_self]
  have hstep : p.step env (.frame j clk f none) = { p with st := (p.st.handleFrame env clk t.cc f).1 } := by
    unfold SimProc.step
    rw [if_neg (by simp [hx])]
    simp only [ht, hread, if_true]
    rw [hset _ key.1]
    exact hnset _ rfl
  rw [hstep]
  unfold SimProc.step
  simp only [hx, ne_eq, not_true_eq_false, if_false, hs, SimProc.getDevice, hsend, if_true, Store.devByPhone, hph, key.2]
  exact ⟨trivial, trivial⟩

/-! ### A server that only sends what platforms send -/

/-- In this run no simulator receives a registration, an authentication or a deregistration. -/
def Spec.PlatformRun (env : Env) (p : SimProc) : List SimEv → Prop
  | [] => True
  | e :: evs => (∀ i clk f w h m, e = .frame i clk f w → Delivers env clk.civil p.st f h m → Spec.Signing m = false) ∧
      Spec.PlatformRun env (p.step env e) evs

/-- C106, what does hold: as long as the server sends only what platforms send, whatever the contents, no simulator loses
its device, so that none ends the process or is stuck.  Missing: the other two messages, and failing to connect. -/
theorem C106_platform_partial (env : Env) (n : Nat) (evs : List SimEv) (hp : Spec.PlatformRun env (SimProc.start n) evs) :
    ((SimProc.start n).run env evs).exit ≠ some .fatal ∧ ((SimProc.start n).run env evs).exit ≠ some .crash ∧
    ∀ s ∈ ((SimProc.start n).run env evs).sims, s.phase ≠ .stuck := by
  have key : ∀ (evs : List SimEv) (p : SimProc), Spec.PlatformRun env p evs → p.st.jobs = [] → p.exit ≠ some .fatal →
      p.exit ≠ some .crash → (∀ s ∈ p.sims, s.phase ≠ .stuck ∧ (s.phase ≠ .connected →
        (p.st.byPhone.get s.phone).isSome = true)) →
      (p.run env evs).exit ≠ some .fatal ∧ (p.run env evs).exit ≠ some .crash ∧
      ∀ s ∈ (p.run env evs).sims, s.phase ≠ .stuck := by
    intro evs
    induction evs with
    | nil => intro p _ _ h1 h2 h3; exact ⟨h1, h2, fun s hs => (h3 s hs).1⟩
    | cons e evs ih =>
      intro p hpl hj hf hc hs
      show (((p.step env e).run env evs).exit ≠ _) ∧ _
      have hpl2 := hpl.2
      have hpl1 := hpl.1
      suffices H : (p.step env e).st.jobs = [] ∧ (p.step env e).exit ≠ some .fatal ∧ (p.step env e).exit ≠ some .crash ∧
          (∀ s ∈ (p.step env e).sims, s.phase ≠ .stuck ∧ (s.phase ≠ .connected →
            ((p.step env e).st.byPhone.get s.phone).isSome = true)) from
        ih _ hpl2 H.1 H.2.1 H.2.2.1 H.2.2.2
      clear hpl hpl2 ih
      have same : p.st.jobs = [] ∧ p.exit ≠ some .fatal ∧ p.exit ≠ some .crash ∧ (∀ s ∈ p.sims, s.phase ≠ .stuck ∧
          (s.phase ≠ .connected → (p.st.byPhone.get s.phone).isSome = true)) := ⟨hj, hf, hc, hs⟩
      have setl : ∀ q : SimProc, q.exit = none → q.settle.exit ≠ some .fatal ∧ q.settle.exit ≠ some .crash := by
        intro q hq; unfold SimProc.settle; split
        · exact ⟨by simp, by simp⟩
        · rw [hq]; exact ⟨by simp, by simp⟩
      have setF : ∀ q : SimProc, q.exit = none → q.settle.exit ≠ some .fatal := fun q hq => (setl q hq).1
      have setC : ∀ q : SimProc, q.exit = none → q.settle.exit ≠ some .crash := fun q hq => (setl q hq).2
      -- one simulator changed, its phone cached
      have upd : ∀ (st : Store) (i : Nat) (s' : SimRun), (∀ q, (p.st.byPhone.get q).isSome = true → (st.byPhone.get q).isSome = true) →
          s'.phase ≠ .stuck → (s'.phase ≠ .connected → (st.byPhone.get s'.phone).isSome = true) →
          ∀ x ∈ p.sims.set i s', x.phase ≠ .stuck ∧ (x.phase ≠ .connected → (st.byPhone.get x.phone).isSome = true) := by
        intro st i s' hk h1 h2 x hx
        rcases List.mem_or_eq_of_mem_set hx with h | h
        · exact ⟨(hs x h).1, fun hp => hk _ ((hs x h).2 hp)⟩
        · subst h; exact ⟨h1, h2⟩
      have getd : ∀ (i : Nat) (s : SimRun), p.sims[i]? = some s → p.exit = none → p.getDevice s = p := by
        intro i s hi hx
        unfold SimProc.getDevice
        split
        · next hph =>
          have := (hs s (List.mem_of_getElem? hi)).2 (by rw [hph]; simp)
          cases hd : p.st.devByPhone s.phone with
          | some r => rfl
          | none => rw [show p.st.byPhone.get s.phone = none from hd] at this; cases this
        · rfl
      unfold SimProc.step
      split
      · exact same
      · next hx =>
        have hx : p.exit = none := by simpa using hx
        cases e with
        | dialFails =>
          dsimp only
          split
          · exact same
          · split
            · exact ⟨hj, by simp, by simp, hs⟩
            · exact same
        | dialled cc =>
          dsimp only
          split
          · exact same
          · refine ⟨hj, hf, hc, fun s h => ?_⟩
            rcases List.mem_append.1 h with h | h
            · exact hs s h
            · rw [List.mem_singleton.1 h]; exact ⟨by simp, fun h => absurd rfl h⟩
        | build i d =>
          dsimp only
          cases hi : p.sims[i]? with
          | none => exact same
          | some s =>
            dsimp only
            split
            · exact ⟨hj, hf, hc, upd _ i _ (fun q h => put_keeps h) (by simp) (fun _ => put_has p.st d)⟩
            · exact same
        | frame i clk b w =>
          dsimp only
          cases hi : p.sims[i]? with
          | none => exact same
          | some s =>
            dsimp only
            split
            · have hk := handleFrame_keeps env clk s.cc p.st b (fun h m hd => hpl1 i clk b w h m rfl hd)
              have hss := hs s (List.mem_of_getElem? hi)
              refine ⟨?_, setF _ hx, setC _ hx, ?_⟩
              · rw [(settle_st _).1]; exact hk.jobs.trans hj
              · rw [(settle_st _).1, (settle_st _).2.1]
                exact upd _ i _ hk.has hss.1 (fun h => hk.has _ (hss.2 h))
            · exact same
        | readFails i e =>
          dsimp only
          cases hi : p.sims[i]? with
          | none => exact same
          | some s =>
            dsimp only
            split
            · have hss := hs s (List.mem_of_getElem? hi)
              refine ⟨?_, setF _ hx, setC _ hx, ?_⟩
              · rw [(settle_st _).1]; exact hj
              · rw [(settle_st _).1, (settle_st _).2.1]
                exact upd _ i _ (fun _ h => h) hss.1 hss.2
            · exact same
        | look i =>
          dsimp only
          cases hi : p.sims[i]? with
          | none => exact same
          | some s =>
            have hss := hs s (List.mem_of_getElem? hi)
            dsimp only
            split
            · next hw =>
              have hh := hss.2 (by rw [hw]; simp)
              cases hd : p.st.devByPhone s.phone with
              | none => rw [show p.st.byPhone.get s.phone = none from hd] at hh; cases hh
              | some r =>
                dsimp only
                split
                · exact ⟨hj, hf, hc, upd _ i _ (fun _ h => h) (by simp) (fun _ => hh)⟩
                · exact same
            · exact same
        | beats i =>
          dsimp only
          cases hi : p.sims[i]? with
          | none => exact same
          | some s => dsimp only; rw [getd i s hi hx]; exact same
        | locates i =>
          dsimp only
          cases hi : p.sims[i]? with
          | none => exact same
          | some s => dsimp only; rw [getd i s hi hx]; exact same
        | job clk q =>
          dsimp only
          rw [if_neg (by rw [hj]; simp)]
          exact same
  have hstart : (SimProc.start n).st = Store.empty ∧ (SimProc.start n).sims = [] := by
    unfold SimProc.start; rw [(settle_st _).1, (settle_st _).2.1]; exact ⟨rfl, rfl⟩
  refine key evs _ hp (by rw [hstart.1]; rfl) ?_ ?_ (by rw [hstart.2]; intro s hs; cases hs)
  all_goals (unfold SimProc.start SimProc.settle; split <;> simp)

/-! Two simulators, the first of which has the phone of the demonstration terminal, gets a positive general reply and
starts to send; then the server sends the second one a deregistration with that phone. -/

def twoSims : List SimEv :=
  [.dialled demoC, .build 0 (genDevice .v2013 [0x31] [0x41] (hdr2013 0).phone [] 20000 demoC), .dialled demoC',
   .build 1 (genDevice .v2013 [0x32] [0x42] [0x37] [] 20000 demoC'), .frame 0 (demoClk 5) (demoAck 0) none, .look 0, .locates 0]

theorem twoSims_send : ((SimProc.start 2).run goEnv twoSims).exit = none ∧
    ((SimProc.start 2).run goEnv twoSims).sims.map (fun s => (s.phone, s.phase, s.reading)) =
      [((hdr2013 0).phone, .sending, true), (fillDevicePhone [0x37] 12, .waiting, true)] := by decide +kernel

example : ((SimProc.start 2).run goEnv (twoSims ++ [.frame 1 (demoClk 9) demoBye none])).exit = none ∧
    ((SimProc.start 2).run goEnv (twoSims ++ [.frame 1 (demoClk 9) demoBye none, .locates 0])).exit = some .fatal := by
  decide +kernel

theorem demoAck_holds (now : Civil) :
    Holds goEnv now (demoAck 0) ((hdr2013 0x8001).withBodyLength 5) (.m8001 ⟨1, 0x0102, 0⟩) :=
  ⟨_, .t8001, _, rfl, rfl, rfl, rfl, rfl⟩

/-- The run up to there is one of a platform. -/
example : Spec.PlatformRun goEnv (SimProc.start 2) twoSims := by
  refine ⟨?_, ?_, ?_, ?_, ?_, ?_, ?_, trivial⟩ <;> intro i clk f w h m he hd <;> cases he
  have := (hd.unique ((demoAck_holds (demoClk 5).civil).delivers _)).2
  rw [this]; rfl

/-- A fragment for a simulator that is sending: it is deaf, and still sends. -/
def simFrag : List UInt8 := msgFrame { hdr2013 0x8100 with attr := ⟨0, 0, 1, 0, 0, .none, true, .v2013⟩, frag := some ⟨2, 1⟩ } [5]

example : ∃ pd f, decodeFrame goEnv simFrag = .ok pd ∧ pd.header.isFragmented = true ∧ pd.header.frag = some f ∧
    ((SimProc.start 2).run goEnv twoSims).st.segs.get (segKey pd.header.phone pd.header.msgID) = none :=
  ⟨_, _, rfl, rfl, rfl, by decide +kernel⟩
example : ((SimProc.start 2).run goEnv (twoSims ++ [.frame 0 (demoClk 9) simFrag none])).sims.map
    (fun s => (s.phase, s.reading)) = [(.sending, false), (.waiting, true)] := by decide +kernel

end JT808
