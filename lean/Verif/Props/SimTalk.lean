import Verif.Proof.SimTalk
import Verif.Props.SimProcess
/-
C130: a simulated terminal sends heartbeats and positions only after the server has accepted it.
-/
namespace JT808
open Spec

/-! ## What is said of a history -/

/-- During the events `evs` from `p` on, some simulator that reads is handed a message for `phone` that releases it. -/
def Spec.Released (env : Env) (p : SimProc) (evs : List SimEv) (phone : Str) : Prop :=
  ∃ a j clk f w b s h m, evs = a ++ .frame j clk f w :: b ∧ (p.run env a).exit = none ∧
    (p.run env a).sims[j]? = some s ∧ s.reading = true ∧ Delivers env clk.civil (p.run env a).st f h m ∧
    h.phone = phone ∧ Spec.Releases m = true

/-- The devices are as GenDevice makes them: offline. -/
def Spec.BuiltOffline (evs : List SimEv) : Prop := ∀ i d, SimEv.build i d ∈ evs → d.status = .offline

/-- What simulator `i` sends of its own accord. -/
def Spec.own (i : Nat) (l : List (Nat × SimSent)) : List SimSent :=
  (l.filter fun x => decide (x.1 = i) && (match x.2 with | .answer _ => false | _ => true)).map (·.2)

/-! ## Steps -/

theorem Spec.Released.snoc {env : Env} {p : SimProc} {evs : List SimEv} {phone : Str} (h : Spec.Released env p evs phone)
    (e : SimEv) : Spec.Released env p (evs ++ [e]) phone := by
  obtain ⟨a, j, clk, f, w, b, s, h', m, rfl, rest⟩ := h
  exact ⟨a, j, clk, f, w, b ++ [e], s, h', m, by simp, rest⟩

theorem set_get {α : Type} {l : List α} {i k : Nat} {x y z : α} (hx : l[i]? = some x) (h : (l.set i y)[k]? = some z) :
    (k = i ∧ z = y) ∨ (k ≠ i ∧ l[k]? = some z) := by
  rw [List.getElem?_set] at h
  have hi : i < l.length := (List.getElem?_eq_some_iff.1 hx).1
  by_cases hk : i = k
  · subst hk; rw [if_pos rfl, if_pos hi] at h; injection h with h; exact .inl ⟨rfl, h.symm⟩
  · rw [if_neg hk] at h; exact .inr ⟨fun x => hk x.symm, h⟩

/-- One step, for one simulator and its phone: what it was before, and what comes online.  `q` is any phone. -/
theorem step_sim {env : Env} {p : SimProc} (hk : Keyed p.st) (hx : p.exit = none) (e : SimEv) :
    Keyed (p.step env e).st ∧
    (∀ q, (∀ i d, e = .build i d → d.status ≠ .online) →
      (¬ ∃ j clk f w s h m, e = .frame j clk f w ∧ p.sims[j]? = some s ∧ s.reading = true ∧
        Delivers env clk.civil p.st f h m ∧ h.phone = q ∧ Spec.Releases m = true) →
      Spec.OnlineAt (p.step env e).st q → Spec.OnlineAt p.st q) ∧
    (∀ (k : Nat) (x : SimRun), (p.step env e).sims[k]? = some x → x.phase ≠ .connected →
      (∃ y, p.sims[k]? = some y ∧ y.phase ≠ .connected ∧ y.phone = x.phone ∧
        (x.phase = .sending → y.phase = .sending ∨ Spec.OnlineAt p.st x.phone)) ∨
      (∃ d y, e = .build k d ∧ p.sims[k]? = some y ∧ y.phase = .connected ∧ x.phone = d.phone ∧ x.phase = .waiting ∧
        (p.step env e).st = p.st.buildDevice d)) := by
  have old : ∀ (st' : Store) (q : SimProc), q.sims = p.sims → ∀ (k : Nat) (x : SimRun), q.sims[k]? = some x →
      x.phase ≠ .connected → (∃ y, p.sims[k]? = some y ∧ y.phase ≠ .connected ∧ y.phone = x.phone ∧
        (x.phase = .sending → y.phase = .sending ∨ Spec.OnlineAt p.st x.phone)) ∨
      (∃ d y, e = .build k d ∧ p.sims[k]? = some y ∧ y.phase = .connected ∧ x.phone = d.phone ∧ x.phase = .waiting ∧
        st' = p.st.buildDevice d) := by
    intro st' q hq k x h hc; rw [hq] at h; exact .inl ⟨x, h, hc, rfl, fun h => .inl h⟩
  have same : ∀ q : SimProc, q.sims = p.sims → q.st = p.st → Keyed q.st ∧ (∀ ph, (∀ i d, e = .build i d → d.status ≠ .online) →
      (¬ ∃ j clk f w s h m, e = .frame j clk f w ∧ p.sims[j]? = some s ∧ s.reading = true ∧
        Delivers env clk.civil p.st f h m ∧ h.phone = ph ∧ Spec.Releases m = true) →
      Spec.OnlineAt q.st ph → Spec.OnlineAt p.st ph) ∧
    (∀ (k : Nat) (x : SimRun), q.sims[k]? = some x → x.phase ≠ .connected →
      (∃ y, p.sims[k]? = some y ∧ y.phase ≠ .connected ∧ y.phone = x.phone ∧
        (x.phase = .sending → y.phase = .sending ∨ Spec.OnlineAt p.st x.phone)) ∨
      (∃ d y, e = .build k d ∧ p.sims[k]? = some y ∧ y.phase = .connected ∧ x.phone = d.phone ∧ x.phase = .waiting ∧
        q.st = p.st.buildDevice d)) := by
    intro q h1 h2
    refine ⟨by rw [h2]; exact hk, fun ph _ _ h => by rw [h2] at h; exact h, old _ q h1⟩
  unfold SimProc.step
  rw [if_neg (by simp [hx])]
  cases e with
  | dialFails =>
    dsimp only
    split
    · exact same _ rfl rfl
    · split <;> exact same _ rfl rfl
  | dialled cc =>
    dsimp only
    split
    · exact same _ rfl rfl
    · refine ⟨hk, fun ph _ _ h => h, fun k x h hc => ?_⟩
      dsimp only at h
      rw [List.getElem?_append] at h
      split at h
      · exact .inl ⟨x, h, hc, rfl, fun h => .inl h⟩
      · cases hn : k - p.sims.length with
        | zero => rw [hn] at h; injection h with h; subst h; exact absurd rfl hc
        | succ n => rw [hn] at h; cases h
  | build i d =>
    dsimp only
    cases hi : p.sims[i]? with
    | none => exact same _ rfl rfl
    | some s =>
      dsimp only
      split
      · next hc =>
        refine ⟨hk.put d, fun ph hb _ h => Rests.put (hb i d rfl) hk h, fun k x h hx' => ?_⟩
        rcases set_get hi h with ⟨rfl, rfl⟩ | ⟨hne, h⟩
        · exact .inr ⟨d, s, rfl, hi, hc, rfl, rfl, rfl⟩
        · exact .inl ⟨x, h, hx', rfl, fun h => .inl h⟩
      · exact same _ rfl rfl
  | frame i clk f w =>
    dsimp only
    cases hi : p.sims[i]? with
    | none => exact same _ rfl rfl
    | some s =>
      dsimp only
      split
      · next hr =>
        rw [(settle_st _).1, (settle_st _).2.1]
        refine ⟨handleFrame_keyed env clk s.cc p.st f hk, fun ph _ hn h => ?_, fun k x h hx' => ?_⟩
        · refine handleFrame_rests env clk s.cc p.st f ph (fun h' m hd hp => ?_) hk h
          cases hm : Spec.Releases m with
          | false => rfl
          | true => exact absurd ⟨i, clk, f, w, s, h', m, rfl, hi, hr, hd, hp, hm⟩ hn
        · rcases set_get hi h with ⟨rfl, rfl⟩ | ⟨hne, h⟩
          · exact .inl ⟨s, hi, hx', rfl, fun h => .inl h⟩
          · exact .inl ⟨x, h, hx', rfl, fun h => .inl h⟩
      · exact same _ rfl rfl
  | readFails i e =>
    dsimp only
    cases hi : p.sims[i]? with
    | none => exact same _ rfl rfl
    | some s =>
      dsimp only
      split
      · rw [(settle_st _).1, (settle_st _).2.1]
        refine ⟨hk, fun ph _ _ h => h, fun k x h hx' => ?_⟩
        rcases set_get hi h with ⟨rfl, rfl⟩ | ⟨hne, h⟩
        · exact .inl ⟨s, hi, hx', rfl, fun h => .inl h⟩
        · exact .inl ⟨x, h, hx', rfl, fun h => .inl h⟩
      · exact same _ rfl rfl
  | look i =>
    dsimp only
    cases hi : p.sims[i]? with
    | none => exact same _ rfl rfl
    | some s =>
      dsimp only
      split
      · next hw =>
        cases hd : p.st.devByPhone s.phone with
        | none =>
          refine ⟨hk, fun ph _ _ h => h, fun k x h hx' => ?_⟩
          rcases set_get hi h with ⟨rfl, rfl⟩ | ⟨hne, h⟩
          · exact .inl ⟨s, hi, by rw [hw]; simp, rfl, fun h => by cases h⟩
          · exact .inl ⟨x, h, hx', rfl, fun h => .inl h⟩
        | some r =>
          dsimp only
          split
          · next ho =>
            refine ⟨hk, fun ph _ _ h => h, fun k x h hx' => ?_⟩
            rcases set_get hi h with ⟨rfl, rfl⟩ | ⟨hne, h⟩
            · exact .inl ⟨s, hi, by rw [hw]; simp, rfl, fun _ => .inr ⟨r, hd, ho⟩⟩
            · exact .inl ⟨x, h, hx', rfl, fun h => .inl h⟩
          · exact same _ rfl rfl
      · exact same _ rfl rfl
  | beats i =>
    dsimp only
    cases hi : p.sims[i]? with
    | none => exact same _ rfl rfl
    | some s => exact same _ (getDevice_st p s).2.1 (getDevice_st p s).1
  | locates i =>
    dsimp only
    cases hi : p.sims[i]? with
    | none => exact same _ rfl rfl
    | some s => exact same _ (getDevice_st p s).2.1 (getDevice_st p s).1
  | job clk q =>
    dsimp only
    split
    · have h1 := check_keyed clk p.st q hk
      have h2 := fun ph => check_rests clk p.st q ph
      cases hc : p.st.check clk q with
      | mk st o =>
        rw [hc] at h1 h2
        cases o <;> exact ⟨h1, fun ph _ _ h => h2 ph hk h, old _ _ rfl⟩
    · exact same _ rfl rfl

theorem start_shape (n : Nat) : (SimProc.start n).st = Store.empty ∧ (SimProc.start n).sims = [] := by
  unfold SimProc.start; rw [(settle_st _).1, (settle_st _).2.1]; exact ⟨rfl, rfl⟩

theorem released_at {env : Env} {p : SimProc} {evs : List SimEv} {phone : Str} {j : Nat} {clk : Clock} {f : List UInt8}
    {w : Option Err} {s : SimRun} {h : Header} {m : Msg} (hx : (p.run env evs).exit = none)
    (h1 : (p.run env evs).sims[j]? = some s) (h2 : s.reading = true) (h3 : Delivers env clk.civil (p.run env evs).st f h m)
    (h4 : h.phone = phone) (h5 : Spec.Releases m = true) : Spec.Released env p (evs ++ [.frame j clk f w]) phone :=
  ⟨evs, j, clk, f, w, [], s, h, m, rfl, hx, h1, h2, h3, h4, h5⟩

/-- What is so at every moment: a simulator past its connection was built, and if its device is online or it sends, it has
been released since. -/
theorem sim_history (env : Env) (n : Nat) (evs : List SimEv) (hb : Spec.BuiltOffline evs) :
    Keyed ((SimProc.start n).run env evs).st ∧
    ∀ (i : Nat) (s : SimRun), ((SimProc.start n).run env evs).sims[i]? = some s → s.phase ≠ .connected →
      ∃ a d b y, evs = a ++ .build i d :: b ∧ d.phone = s.phone ∧ ((SimProc.start n).run env a).exit = none ∧
        ((SimProc.start n).run env a).sims[i]? = some y ∧ y.phase = .connected ∧
        ((Spec.OnlineAt ((SimProc.start n).run env evs).st s.phone ∨ s.phase = .sending) →
          Spec.Released env ((SimProc.start n).run env (a ++ [.build i d])) b s.phone) := by
  induction evs using snoc_ind with
  | h0 =>
    obtain ⟨h1, h2⟩ := start_shape n
    refine ⟨by show Keyed (SimProc.start n).st; rw [h1]; exact keyed_empty, fun i s h => ?_⟩
    have h : (SimProc.start n).sims[i]? = some s := h
    rw [h2] at h; cases h
  | h1 evs e ih =>
    obtain ⟨hk, ih⟩ := ih (fun i d h => hb i d (by simp [h]))
    rw [simRun_snoc]
    by_cases hx : ((SimProc.start n).run env evs).exit = none
    · obtain ⟨k1, k2, k3⟩ := step_sim (env := env) hk hx e
      refine ⟨k1, fun i s hs hc => ?_⟩
      have hoff : ∀ i d, e = .build i d → d.status ≠ .online := by
        rintro i d rfl; rw [hb i d (by simp)]; simp
      rcases k3 i s hs hc with ⟨y, y1, y2, y3, y4⟩ | ⟨d, y, rfl, y1, y2, y3, y4, y5⟩
      · obtain ⟨a, d, b, z, e1, e2, e3, e4, e5, e6⟩ := ih i y y1 y2
        refine ⟨a, d, b ++ [e], z, by rw [e1]; simp, e2.trans y3, e3, e4, e5, fun ho => ?_⟩
        rw [y3] at e6
        have hrun : ((SimProc.start n).run env (a ++ [.build i d])).run env b = (SimProc.start n).run env evs := by
          rw [e1]; simp [SimProc.run]
        by_cases hr : ∃ j clk f w s' h m, e = .frame j clk f w ∧ ((SimProc.start n).run env evs).sims[j]? = some s' ∧
            s'.reading = true ∧ Delivers env clk.civil ((SimProc.start n).run env evs).st f h m ∧ h.phone = s.phone ∧
            Spec.Releases m = true
        · obtain ⟨j, clk, f, w, s', h, m, rfl, q1, q2, q3, q4, q5⟩ := hr
          rw [← hrun] at hx q1 q3
          exact released_at hx q1 q2 q3 q4 q5
        · refine (e6 ?_).snoc e
          rcases ho with ho | ho
          · exact .inl (k2 s.phone hoff hr ho)
          · rcases y4 ho with h | h
            · exact .inr h
            · exact .inl h
      · refine ⟨evs, d, [], y, rfl, y3.symm, hx, y1, y2, fun ho => ?_⟩
        rcases ho with ho | ho
        · rw [y5, y3] at ho
          exact absurd ho (put_online (hoff i d rfl))
        · rw [y4] at ho; cases ho
    · rw [step_exited hx]
      refine ⟨hk, fun i s hs hc => ?_⟩
      obtain ⟨a, d, b, y, e1, e2, e3, e4, e5, e6⟩ := ih i s hs hc
      exact ⟨a, d, b ++ [e], y, by rw [e1]; simp, e2, e3, e4, e5, fun ho => (e6 ho).snoc e⟩

/-! ## C130 -/

/-- What an event may send. -/
theorem sends_cases {env : Env} {p : SimProc} {e : SimEv} {i : Nat} {x : SimSent} (h : p.sends env e = some (i, x)) :
    p.exit = none ∧ ((∃ d s, e = .build i d ∧ x = .register ∧ p.sims[i]? = some s ∧ s.phase = .connected) ∨
      (∃ b, x = .answer b) ∨
      ((x = .beat ∧ e = .beats i ∨ x = .locate ∧ e = .locates i) ∧ ∃ s, p.sims[i]? = some s ∧ s.phase = .sending)) := by
  unfold SimProc.sends at h
  split at h
  · cases h
  · next hx =>
    refine ⟨Decidable.byContradiction hx, ?_⟩
    cases e with
    | build k d =>
      dsimp only at h
      cases hk : p.sims[k]? with
      | none => rw [hk] at h; cases h
      | some s =>
        rw [hk] at h
        dsimp only at h
        split at h
        · next hc => cases h; exact .inl ⟨d, s, rfl, rfl, hk, hc⟩
        · cases h
    | frame k clk f w =>
      dsimp only at h
      cases hk : p.sims[k]? with
      | none => rw [hk] at h; cases h
      | some s =>
        rw [hk] at h
        dsimp only at h
        split at h
        · split at h
          · cases h; exact .inr (.inl ⟨_, rfl⟩)
          · cases h
        · cases h
    | beats k =>
      dsimp only at h
      cases hk : p.sims[k]? with
      | none => rw [hk] at h; cases h
      | some s =>
        rw [hk] at h
        dsimp only at h
        split at h
        · next hs =>
          cases h
          simp only [SimProc.speaks, Bool.and_eq_true, decide_eq_true_eq] at hs
          exact .inr (.inr ⟨.inl ⟨rfl, rfl⟩, s, hk, hs.1⟩)
        · cases h
    | locates k =>
      dsimp only at h
      cases hk : p.sims[k]? with
      | none => rw [hk] at h; cases h
      | some s =>
        rw [hk] at h
        dsimp only at h
        split at h
        · next hs =>
          cases h
          simp only [SimProc.speaks, Bool.and_eq_true, decide_eq_true_eq] at hs
          exact .inr (.inr ⟨.inr ⟨rfl, rfl⟩, s, hk, hs.1⟩)
        · cases h
    | dialFails => cases h
    | dialled cc => cases h
    | readFails i e => cases h
    | look i => cases h
    | job clk q => cases h

/-- C130, the part that holds.  A heartbeat or a position of a simulator comes after its registration, and between the two
some simulator of the process was handed a positive general reply for its phone.  Missing: that the reply answers anything
of this simulator, let alone its authentication (`C130_any_reply`, `C130_somebody_elses`). -/
theorem C130_waits_partial (env : Env) (n : Nat) (evs : List SimEv) (e : SimEv) (i : Nat) (x : SimSent)
    (hb : Spec.BuiltOffline evs) (hx : x = .beat ∨ x = .locate)
    (hs : ((SimProc.start n).run env evs).sends env e = some (i, x)) :
    ∃ a d b, evs = a ++ .build i d :: b ∧ ((SimProc.start n).run env a).sends env (.build i d) = some (i, .register) ∧
      Spec.Released env ((SimProc.start n).run env (a ++ [.build i d])) b d.phone := by
  obtain ⟨-, h⟩ := sends_cases hs
  rcases h with ⟨d, s, -, rfl, -, -⟩ | ⟨b, rfl⟩ | ⟨-, s, h1, h2⟩
  · rcases hx with hx | hx <;> cases hx
  · rcases hx with hx | hx <;> cases hx
  · obtain ⟨a, d, b, y, e1, e2, e3, e4, e5, e6⟩ := (sim_history env n evs hb).2 i s h1 (by rw [h2]; simp)
    refine ⟨a, d, b, e1, ?_, by rw [e2]; exact e6 (.inr h2)⟩
    unfold SimProc.sends
    rw [if_neg (by simp [e3])]
    dsimp only
    rw [e4]
    dsimp only
    rw [if_pos e5]

theorem log_snoc (env : Env) (p : SimProc) (evs : List SimEv) (e : SimEv) :
    p.log env (evs ++ [e]) = p.log env evs ++ ((p.run env evs).sends env e).toList := by
  induction evs generalizing p with
  | nil => simp [SimProc.log, SimProc.run]
  | cons e' evs ih =>
    show (p.sends env e').toList ++ (p.step env e').log env (evs ++ [e]) = _
    rw [ih]
    simp [SimProc.log, SimProc.run]

theorem own_snoc (i : Nat) (l : List (Nat × SimSent)) (o : Option (Nat × SimSent)) :
    Spec.own i (l ++ o.toList) = Spec.own i l ++ (match o with
      | some (j, x) => if j = i then (match x with | .answer _ => [] | x => [x]) else []
      | none => []) := by
  cases o with
  | none => simp
  | some y =>
    obtain ⟨j, x⟩ := y
    simp only [Option.toList, Spec.own, List.filter_append, List.map_append]
    congr 1
    by_cases hj : j = i
    · subst hj; cases x <;> simp
    · simp [hj]

theorem set_past {l : List SimRun} {i k : Nat} {s s' y : SimRun} (hi : l[i]? = some s) (hy : l[k]? = some y)
    (h : y.phase ≠ .connected) (h' : k = i → s'.phase ≠ .connected) :
    ∃ x, (l.set i s')[k]? = some x ∧ x.phase ≠ .connected := by
  rw [List.getElem?_set]
  have hl : i < l.length := (List.getElem?_eq_some_iff.1 hi).1
  by_cases hk : i = k
  · subst hk; rw [if_pos rfl, if_pos hl]; exact ⟨s', rfl, h' rfl⟩
  · rw [if_neg hk]; exact ⟨y, hy, h⟩

/-- A simulator that has been built is never unbuilt, and building is what takes it from its first phase. -/
theorem step_past {env : Env} {p : SimProc} (hx : p.exit = none) (e : SimEv) (k : Nat) (y : SimRun) (hy : p.sims[k]? = some y)
    (h : y.phase ≠ .connected ∨ ∃ d, e = .build k d) : ∃ x, (p.step env e).sims[k]? = some x ∧ x.phase ≠ .connected := by
  have plain : (¬ ∃ d, e = .build k d) → y.phase ≠ .connected := fun hn => h.elim id fun h => absurd h hn
  unfold SimProc.step
  rw [if_neg (by simp [hx])]
  cases e with
  | dialFails =>
    have := plain (by simp)
    dsimp only
    split
    · exact ⟨y, hy, this⟩
    · split <;> exact ⟨y, hy, this⟩
  | dialled cc =>
    have := plain (by simp)
    dsimp only
    split
    · exact ⟨y, hy, this⟩
    · refine ⟨y, ?_, this⟩
      dsimp only
      rw [List.getElem?_append_left (List.getElem?_eq_some_iff.1 hy).1]
      exact hy
  | build i d =>
    dsimp only
    cases hi : p.sims[i]? with
    | none =>
      refine ⟨y, hy, plain ?_⟩
      rintro ⟨d', hd⟩; cases hd; rw [hi] at hy; cases hy
    | some s =>
      dsimp only
      split
      · next hc =>
        dsimp only
        rw [List.getElem?_set]
        by_cases hk : i = k
        · subst hk
          rw [if_pos rfl, if_pos (List.getElem?_eq_some_iff.1 hi).1]
          exact ⟨_, rfl, by simp⟩
        · rw [if_neg hk]
          exact ⟨y, hy, plain (by rintro ⟨d', hd⟩; cases hd; exact hk rfl)⟩
      · next hc =>
        refine ⟨y, hy, ?_⟩
        by_cases hk : i = k
        · subst hk; rw [hi] at hy; cases hy; exact hc
        · exact plain (by rintro ⟨d', hd⟩; cases hd; exact hk rfl)
  | frame i clk f w =>
    have := plain (by simp)
    dsimp only
    cases hi : p.sims[i]? with
    | none => exact ⟨y, hy, this⟩
    | some s =>
      dsimp only
      split
      · rw [(settle_st _).2.1]
        exact set_past hi hy this (by rintro rfl; rw [hi] at hy; cases hy; exact this)
      · exact ⟨y, hy, this⟩
  | readFails i e =>
    have := plain (by simp)
    dsimp only
    cases hi : p.sims[i]? with
    | none => exact ⟨y, hy, this⟩
    | some s =>
      dsimp only
      split
      · rw [(settle_st _).2.1]
        exact set_past hi hy this (by rintro rfl; rw [hi] at hy; cases hy; exact this)
      · exact ⟨y, hy, this⟩
  | look i =>
    have := plain (by simp)
    dsimp only
    cases hi : p.sims[i]? with
    | none => exact ⟨y, hy, this⟩
    | some s =>
      dsimp only
      split
      · cases p.st.devByPhone s.phone with
        | none => exact set_past hi hy this (by simp)
        | some r =>
          dsimp only
          split
          · exact set_past hi hy this (by simp)
          · exact ⟨y, hy, this⟩
      · exact ⟨y, hy, this⟩
  | beats i =>
    have := plain (by simp)
    dsimp only
    cases hi : p.sims[i]? with
    | none => exact ⟨y, hy, this⟩
    | some s => dsimp only; rw [(getDevice_st p s).2.1]; exact ⟨y, hy, this⟩
  | locates i =>
    have := plain (by simp)
    dsimp only
    cases hi : p.sims[i]? with
    | none => exact ⟨y, hy, this⟩
    | some s => dsimp only; rw [(getDevice_st p s).2.1]; exact ⟨y, hy, this⟩
  | job clk q =>
    have := plain (by simp)
    dsimp only
    split
    · cases hc : p.st.check clk q with
      | mk st o => cases o <;> exact ⟨y, hy, this⟩
    · exact ⟨y, hy, this⟩

/-- What simulator `i` has sent of its own accord: nothing while it is not built, then one registration, then heartbeats
and positions. -/
theorem own_history (env : Env) (n : Nat) (evs : List SimEv) (i : Nat) :
    Keyed ((SimProc.start n).run env evs).st ∧
    ((Spec.own i ((SimProc.start n).log env evs) = [] ∧
      ∀ s, ((SimProc.start n).run env evs).sims[i]? = some s → s.phase = .connected) ∨
     ((∃ s, ((SimProc.start n).run env evs).sims[i]? = some s ∧ s.phase ≠ .connected) ∧
        ∃ l, Spec.own i ((SimProc.start n).log env evs) = .register :: l ∧ ∀ x ∈ l, x = .beat ∨ x = .locate)) := by
  induction evs using snoc_ind with
  | h0 =>
    obtain ⟨h1, h2⟩ := start_shape n
    refine ⟨by show Keyed (SimProc.start n).st; rw [h1]; exact keyed_empty, .inl ⟨rfl, fun s hs => ?_⟩⟩
    have hs : (SimProc.start n).sims[i]? = some s := hs
    rw [h2] at hs; cases hs
  | h1 evs e ih =>
    obtain ⟨hk, ih⟩ := ih
    rw [simRun_snoc, log_snoc, own_snoc]
    by_cases hx : ((SimProc.start n).run env evs).exit = none
    · obtain ⟨k1, -, k3⟩ := step_sim (env := env) hk hx e
      refine ⟨k1, ?_⟩
      rcases ih with ⟨h1, h2⟩ | ⟨⟨s, h1, h2⟩, l, h3, h4⟩
      · by_cases hb : ∃ s d, e = .build i d ∧ ((SimProc.start n).run env evs).sims[i]? = some s
        · obtain ⟨s, d, rfl, hs⟩ := hb
          refine .inr ⟨step_past hx _ i s hs (.inr ⟨d, rfl⟩), [], ?_, fun x hx => by cases hx⟩
          have : ((SimProc.start n).run env evs).sends env (.build i d) = some (i, .register) := by
            unfold SimProc.sends
            rw [if_neg (by simp [hx])]
            dsimp only
            rw [hs]
            dsimp only
            rw [if_pos (h2 s hs)]
          rw [this, h1]; simp
        · refine .inl ⟨?_, fun s hs => ?_⟩
          · rw [h1, List.nil_append]
            cases ho : ((SimProc.start n).run env evs).sends env e with
            | none => rfl
            | some y =>
              obtain ⟨j, x⟩ := y
              dsimp only
              by_cases hj : j = i
              · subst hj
                rw [if_pos rfl]
                rcases (sends_cases ho).2 with ⟨d, s, rfl, -, hs, -⟩ | ⟨b, rfl⟩ | ⟨-, s, hs, hp⟩
                · exact absurd ⟨s, d, rfl, hs⟩ hb
                · rfl
                · rw [h2 s hs] at hp; cases hp
              · rw [if_neg hj]
          · by_cases hc : s.phase = .connected
            · exact hc
            · exfalso
              rcases k3 i s hs hc with ⟨y, y1, y2, -⟩ | ⟨d, y, rfl, y1, -⟩
              · exact y2 (h2 y y1)
              · exact hb ⟨y, d, rfl, y1⟩
      · refine .inr ⟨step_past hx e i s h1 (.inl h2), ?_⟩
        rw [h3]
        cases ho : ((SimProc.start n).run env evs).sends env e with
        | none => exact ⟨l, by simp, h4⟩
        | some y =>
          obtain ⟨j, x⟩ := y
          dsimp only
          by_cases hj : j = i
          · subst hj
            rw [if_pos rfl]
            rcases (sends_cases ho).2 with ⟨d, s', rfl, -, hs', hc⟩ | ⟨b, rfl⟩ | ⟨hb, -⟩
            · rw [h1] at hs'; cases hs'; exact absurd hc h2
            · exact ⟨l, by simp, h4⟩
            · refine ⟨l ++ [x], ?_, ?_⟩
              · rcases hb with ⟨rfl, -⟩ | ⟨rfl, -⟩ <;> rfl
              · intro z hz
                rcases List.mem_append.1 hz with hz | hz
                · exact h4 z hz
                · rw [List.mem_singleton.1 hz]
                  rcases hb with ⟨hb, -⟩ | ⟨hb, -⟩
                  · exact .inl hb
                  · exact .inr hb
          · rw [if_neg hj]; exact ⟨l, by simp, h4⟩
    · rw [step_exited hx]
      have : ((SimProc.start n).run env evs).sends env e = none := by unfold SimProc.sends; rw [if_pos hx]
      rw [this]
      simp only [List.append_nil]
      exact ⟨hk, ih⟩

/-- The order in which a simulator speaks of its own accord: nothing before its registration, one registration, then
heartbeats and positions. -/
theorem C130_order (env : Env) (n : Nat) (evs : List SimEv) (i : Nat) :
    Spec.own i ((SimProc.start n).log env evs) = [] ∨
    ∃ l, Spec.own i ((SimProc.start n).log env evs) = .register :: l ∧ ∀ x ∈ l, x = .beat ∨ x = .locate := by
  rcases (own_history env n evs i).2 with h | h
  · exact .inl h.1
  · exact .inr h.2

/-- An answer that could not be written is not sent, whatever the frame said; and what is sent in answer to a frame is the answer to
that frame, by the simulator that read it. -/
theorem C130_answered (env : Env) (p : SimProc) (i : Nat) (clk : Clock) (f : List UInt8) (w : Option Err) (k : Nat) (x : SimSent)
    (h : p.sends env (.frame i clk f w) = some (k, x)) :
    w = none ∧ k = i ∧ ∃ s b, p.sims[i]? = some s ∧ s.reading = true ∧ x = .answer b ∧
      (p.st.handleFrame env clk s.cc f).2 = .reply b := by
  unfold SimProc.sends at h
  split at h
  · cases h
  · dsimp only at h
    cases hs : p.sims[i]? with
    | none => rw [hs] at h; cases h
    | some s =>
      rw [hs] at h
      dsimp only at h
      by_cases hr : s.reading = true
      · rw [if_pos hr] at h
        cases ho : (p.st.handleFrame env clk s.cc f).2 <;> rw [ho] at h <;> cases w <;> cases h
        exact ⟨rfl, rfl, s, _, rfl, hr, rfl, ho⟩
      · rw [if_neg hr] at h; cases h


/-- A simulator that is never released says nothing after its registration, however long it lasts: it neither registers
again nor gives up, though a comment says that it should ("stop after register failed for a while", main.go:151). -/
theorem C130_refused_silent (env : Env) (n : Nat) (evs : List SimEv) (i : Nat) (hb : Spec.BuiltOffline evs)
    (hn : ∀ a d b, evs = a ++ .build i d :: b →
      ¬ Spec.Released env ((SimProc.start n).run env (a ++ [.build i d])) b d.phone) :
    Spec.own i ((SimProc.start n).log env evs) = [] ∨ Spec.own i ((SimProc.start n).log env evs) = [.register] := by
  have key : ∀ x ∈ Spec.own i ((SimProc.start n).log env evs), x ≠ .beat ∧ x ≠ .locate := by
    induction evs using snoc_ind with
    | h0 => intro x hx; cases hx
    | h1 evs e ih =>
      rw [log_snoc, own_snoc]
      have ih := ih (fun i d h => hb i d (by simp [h])) (fun a d b h hr => by
        subst h
        exact hn a d (b ++ [e]) (by simp) (hr.snoc e))
      intro x hx
      rcases List.mem_append.1 hx with hx | hx
      · exact ih x hx
      · cases ho : ((SimProc.start n).run env evs).sends env e with
        | none => rw [ho] at hx; cases hx
        | some y =>
          obtain ⟨j, z⟩ := y
          rw [ho] at hx
          dsimp only at hx
          split at hx
          · next hj =>
            subst hj
            have : ¬ (z = .beat ∨ z = .locate) := by
              intro hz
              obtain ⟨a, d, b, h1, -, h3⟩ := C130_waits_partial env n evs e j z (fun i d h => hb i d (by simp [h])) hz ho
              subst h1
              exact hn a d (b ++ [e]) (by simp) (h3.snoc e)
            have hxz : x = z := by cases z <;> simp_all
            subst hxz
            exact ⟨fun h => this (.inl h), fun h => this (.inr h)⟩
          · cases hx
  rcases C130_order env n evs i with h | ⟨l, h, hl⟩
  · exact .inl h
  · right
    cases l with
    | nil => exact h
    | cons z l =>
      exfalso
      have hz := key z (by rw [h]; simp)
      rcases hl z (by simp) with h | h
      · exact hz.1 h
      · exact hz.2 h

/-! ### What is seen of the two simulators of C106 -/

/-- Frames for the demonstration terminal: a positive reply to message 0x0200 number 77, which nobody has sent; a
setting of no parameters. -/
def ackNothing : List UInt8 := msgFrame (hdr2013 0x8001) (GeneralAck.mk 77 0x0200 0).encode
def setNothing : List UInt8 := msgFrame (hdr2013 0x8103) [0]

/-- The hypotheses of C130_waits_partial are met: the first simulator sends a position. -/
example : Spec.BuiltOffline twoSims ∧ ((SimProc.start 2).run goEnv twoSims).sends goEnv (.locates 0) = some (0, .locate) := by
  refine ⟨?_, by decide +kernel⟩
  intro i d h
  simp only [twoSims, List.mem_cons, reduceCtorEq, SimEv.build.injEq, List.mem_nil_iff, or_false, false_or] at h
  rcases h with ⟨-, rfl⟩ | ⟨-, rfl⟩ <;> rfl

example : Spec.own 0 ((SimProc.start 2).log goEnv (twoSims ++ [.beats 0, .locates 0])) = [.register, .locate, .beat, .locate] ∧
    Spec.own 1 ((SimProc.start 2).log goEnv (twoSims ++ [.beats 1, .locates 1])) = [.register] := by decide +kernel

/-- The dialling and building of two simulators. -/
def twoBuilt : List SimEv :=
  [.dialled demoC, .build 0 (genDevice .v2013 [0x31] [0x41] (hdr2013 0).phone [] 20000 demoC), .dialled demoC',
   .build 1 (genDevice .v2013 [0x32] [0x42] [0x37] [] 20000 demoC')]

/-- The hypotheses of C130_refused_silent are met by a simulator whose authentication is refused. -/
example : ∀ a d b, twoBuilt ++ [.frame 0 (demoClk 5) (demoAck 1) none, .look 0, .beats 0] = a ++ .build 0 d :: b →
    ¬ Spec.Released goEnv ((SimProc.start 2).run goEnv (a ++ [.build 0 d])) b d.phone := by
  rintro a d b e ⟨a', j, clk, f, w, b', s, h, m, e', -, -, -, hd, -, hm⟩
  have : SimEv.frame j clk f w ∈ twoBuilt ++ [.frame 0 (demoClk 5) (demoAck 1) none, .look 0, .beats 0] := by
    rw [e, e']; simp
  simp only [twoBuilt, List.cons_append, List.nil_append, List.mem_cons, reduceCtorEq, false_or, SimEv.frame.injEq,
    List.not_mem_nil, or_false] at this
  obtain ⟨-, rfl, rfl, -⟩ := this
  have hh : Holds goEnv (demoClk 5).civil (demoAck 1) ((hdr2013 0x8001).withBodyLength 5) (.m8001 ⟨1, 0x0102, 1⟩) :=
    ⟨_, .t8001, _, rfl, rfl, rfl, rfl, rfl⟩
  rw [(hd.unique (hh.delivers _)).2] at hm
  exact absurd hm (by decide)

/-- Any positive reply will do, also one to a message that was never sent. -/
theorem C130_any_reply : Spec.own 0 ((SimProc.start 2).log goEnv
    (twoBuilt ++ [.frame 0 (demoClk 5) ackNothing none, .look 0, .beats 0])) = [.register, .beat] ∧
    ((SimProc.start 2).log goEnv twoBuilt).map (·.2) = [.register, .register] := by decide +kernel

/-- It need not even come over the connection of the simulator. -/
theorem C130_somebody_elses : Spec.own 0 ((SimProc.start 2).log goEnv
    (twoBuilt ++ [.frame 1 (demoClk 5) (demoAck 0) none, .look 0, .beats 0])) = [.register, .beat] := by decide +kernel

/-- A simulator answers before it has introduced itself: it reads from the moment it is connected. -/
theorem C130_answers_first : ∃ b, (SimProc.start 1).log goEnv
    [.dialled demoC, .frame 0 (demoClk 5) setNothing none, .build 0 (genDevice .v2013 [0x31] [0x41] (hdr2013 0).phone [] 20000 demoC)] =
      [(0, .answer b), (0, .register)] := ⟨_, rfl⟩

/-- A simulator whose authentication is refused looks for ever. -/
theorem C130_refused_for_ever (k : Nat) :
    let p := (SimProc.start 2).run goEnv (twoBuilt ++ [.frame 0 (demoClk 5) (demoAck 1) none] ++ List.replicate k (.look 0))
    p.exit = none ∧ p.sims.map (fun s => (s.phase, s.reading)) = [(.waiting, true), (.waiting, true)] := by
  have h0 : ((SimProc.start 2).run goEnv (twoBuilt ++ [.frame 0 (demoClk 5) (demoAck 1) none])).exit = none ∧
      ((SimProc.start 2).run goEnv (twoBuilt ++ [.frame 0 (demoClk 5) (demoAck 1) none])).sims.map
        (fun s => (s.phase, s.reading)) = [(.waiting, true), (.waiting, true)] := by decide +kernel
  have h1 : ∀ s, ((SimProc.start 2).run goEnv (twoBuilt ++ [.frame 0 (demoClk 5) (demoAck 1) none])).sims[0]? = some s →
      ∃ r, ((SimProc.start 2).run goEnv (twoBuilt ++ [.frame 0 (demoClk 5) (demoAck 1) none])).st.devByPhone s.phone = some r ∧
        (((SimProc.start 2).run goEnv (twoBuilt ++ [.frame 0 (demoClk 5) (demoAck 1) none])).st.heap r).status ≠ .online := by
    intro s hs
    have : s.phone = (hdr2013 0).phone := by
      have e : (((SimProc.start 2).run goEnv (twoBuilt ++ [.frame 0 (demoClk 5) (demoAck 1) none])).sims[0]?).map (·.phone) =
        some (hdr2013 0).phone := by decide +kernel
      rw [hs] at e; injection e
    rw [this]
    exact ⟨0, by decide +kernel, by decide +kernel⟩
  generalize hp : (SimProc.start 2).run goEnv (twoBuilt ++ [.frame 0 (demoClk 5) (demoAck 1) none]) = p at h0 h1
  have stay : p.step goEnv (.look 0) = p := by
    unfold SimProc.step
    rw [if_neg (by simp [h0.1])]
    dsimp only
    cases hi : p.sims[0]? with
    | none => rfl
    | some s =>
      obtain ⟨r, a, b⟩ := h1 s hi
      dsimp only
      split
      · rw [a]; dsimp only; rw [if_neg b]
      · rfl
  have all : ∀ k, p.run goEnv (List.replicate k (.look 0)) = p := by
    intro k
    induction k with
    | zero => rfl
    | succ k ih => show (p.step goEnv (.look 0)).run goEnv (List.replicate k (.look 0)) = p; rw [stay]; exact ih
  have : (SimProc.start 2).run goEnv (twoBuilt ++ [.frame 0 (demoClk 5) (demoAck 1) none] ++ List.replicate k (.look 0)) = p := by
    have e : ∀ a b, (SimProc.start 2).run goEnv (a ++ b) = ((SimProc.start 2).run goEnv a).run goEnv b := by
      intro a b; simp [SimProc.run]
    rw [e, hp, all]
  dsimp only
  rw [this]
  exact h0

end JT808
