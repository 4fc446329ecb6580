import Verif.Model.Full
import Verif.Proof.Mixed
import Verif.Proof.Breaks
/-
For C172: broken connections are connections on which nothing happens any more, also when there are fragments.
-/
namespace JT808
open Spec

variable {env : Env} {clk : Clock} {st : Store}

/-- What is written does not matter for what is done. -/
theorem fragment_output (l : Line) (rest f : List UInt8) (o : List UInt8) (he : l.ended = false) :
    ({ l with output := o }.fragment env clk st rest f).1 = (l.fragment env clk st rest f).1 ∧
      ∃ x, (l.fragment env clk st rest f).2.output = l.output ++ x ∧
        ({ l with output := o }.fragment env clk st rest f).2 = { (l.fragment env clk st rest f).2 with output := o ++ x } ∧
        (x = [] ∨ (l.fragment env clk st rest f).2.ended = false) := by
  have nil : ∀ a : List UInt8, a = a ++ [] := fun a => (List.append_nil a).symm
  unfold Line.fragment
  simp only
  generalize st.decodePacket env f = y
  obtain ⟨st1, res⟩ := y
  cases res with
  | err e => exact ⟨rfl, [], nil _, by simp, .inl rfl⟩
  | panic => exact ⟨rfl, [], nil _, by simp, .inl rfl⟩
  | ok pd =>
    simp only
    cases MType.ofID pd.header.msgID with
    | none => exact ⟨rfl, [], nil _, by simp, .inl rfl⟩
    | some t =>
      simp only
      split
      · cases t.decode env clk.civil pd.header pd.body 0 with
        | err e => exact ⟨rfl, [], nil _, by simp, .inl rfl⟩
        | panic => exact ⟨rfl, [], nil _, by simp, .inl rfl⟩
        | ok mj => exact ⟨rfl, [], nil _, by simp, .inl rfl⟩
      · refine ⟨rfl, _, rfl, rfl, ?_⟩
        simp only
        cases (st1.processSegment pd.header).2 with
        | err e => exact .inl rfl
        | panic => exact .inl rfl
        | ok a =>
          cases a with
          | none => exact .inl rfl
          | some a =>
            cases ho : Out.encode env a with
            | ok f => right; simp [putsOut, ho]
            | err e => left; simp [putsOut, ho]
            | panic => left; simp [putsOut, ho]

theorem frag_output (l : Line) (o : List UInt8) (he : l.ended = false) (hc : l.cur = none) :
    ({ l with output := o }.nextFrag env clk st).1 = (l.nextFrag env clk st).1 ∧
      ∃ x, (l.nextFrag env clk st).2.output = l.output ++ x ∧
        ({ l with output := o }.nextFrag env clk st).2 = { (l.nextFrag env clk st).2 with output := o ++ x } ∧
        (x = [] ∨ (l.nextFrag env clk st).2.ended = false) := by
  have key : ({ l with output := o }.next env clk st).1 = (l.next env clk st).1 ∧
      ∃ x, (l.next env clk st).2.output = l.output ++ x ∧
        ({ l with output := o }.next env clk st).2 = { (l.next env clk st).2 with output := o ++ x } ∧
        (x = [] ∨ (l.next env clk st).2.ended = false) := by
    obtain ⟨a, x, b, c, d⟩ := next_output (env := env) clk st l o
    refine ⟨a, x, b, c, .inl ?_⟩
    rcases d with d | ⟨t, y, f, d, -⟩
    · exact d
    · rw [hc] at d; cases d
  obtain ⟨conn, todo, input, recv, cur, done, output, ended⟩ := l
  simp only at he hc
  subst he hc
  cases todo with
  | cons t ts => exact key
  | nil =>
    cases input with
    | nil => exact key
    | cons b rest =>
      cases hr : recvStep recv b with
      | inr r =>
        have e : ∀ o, Line.nextFrag env clk st ⟨conn, [], b :: rest, recv, none, done, o, false⟩ =
            Line.next env clk st ⟨conn, [], b :: rest, recv, none, done, o, false⟩ := by
          intro o; simp only [Line.nextFrag, hr]; rfl
        simp only [e]; exact key
      | inl f =>
        by_cases hf : isFragment env f = true
        · have e : ∀ o, Line.nextFrag env clk st ⟨conn, [], b :: rest, recv, none, done, o, false⟩ =
              Line.fragment env clk st ⟨conn, [], b :: rest, recv, none, done, o, false⟩ rest f := by
            intro o; simp only [Line.nextFrag, hr, hf]; rfl
          simp only [e]
          exact fragment_output ⟨conn, [], b :: rest, recv, none, done, output, false⟩ rest f o rfl
        · have e : ∀ o, Line.nextFrag env clk st ⟨conn, [], b :: rest, recv, none, done, o, false⟩ =
              Line.next env clk st ⟨conn, [], b :: rest, recv, none, done, o, false⟩ := by
            intro o; simp only [Line.nextFrag, hr, hf]; rfl
          simp only [e]; exact key

/-- A connection that may be broken beside one that is not. -/
structure Cable.Along (w : Cable) (l : Line) : Prop where
  same : w.line.ended = false → l = { w.line with output := l.output }
  whole : w.mute = none → l = w.line

/-- A step of a broken connection is one of the other, or none. -/
theorem along_next {w : Cable} {l : Line} (h : w.Along l) :
    ((w.nextFrag env clk st).1 = st ∧ (w.nextFrag env clk st).2.Along l ∧ (w.mute ≠ none ∨ w.deaf = true)) ∨
      ((w.nextFrag env clk st).1 = (l.nextFrag env clk st).1 ∧ (w.nextFrag env clk st).2.Along (l.nextFrag env clk st).2) := by
  obtain ⟨hsame, hwhole⟩ := id h
  obtain ⟨⟨conn, todo, input, recv, cur, done, output, ended⟩, mute, deaf⟩ := w
  cases ended with
  | true =>
    cases mute with
    | none =>
      right
      have e := hwhole rfl
      subst e
      exact ⟨rfl, h⟩
    | some e => exact .inl ⟨rfl, h, .inl (by simp)⟩
  | false =>
    have hs := hsame rfl
    simp only at hs
    cases cur with
    | some c =>
      have e1 : Cable.nextFrag env clk st ⟨⟨conn, todo, input, recv, some c, done, output, false⟩, mute, deaf⟩ =
          Cable.next env clk st ⟨⟨conn, todo, input, recv, some c, done, output, false⟩, mute, deaf⟩ := rfl
      have e2 : l.nextFrag env clk st = l.next env clk st := by rw [hs]; rfl
      rw [e1, e2]
      obtain ⟨t, q⟩ := c
      have plain : ((Line.mk conn todo input recv (some (t, q)) done output false).next env clk st).1 = (l.next env clk st).1 ∧
          Cable.Along ⟨((Line.mk conn todo input recv (some (t, q)) done output false).next env clk st).2, mute, deaf⟩ (l.next env clk st).2 := by
        obtain ⟨a, x, b, c, d⟩ := next_output (env := env) clk st (Line.mk conn todo input recv (some (t, q)) done output false) l.output
        have hl : { Line.mk conn todo input recv (some (t, q)) done output false with output := l.output } = l := hs.symm
        rw [hl] at a c
        refine ⟨a.symm, ⟨fun _ => ?_, fun hm => ?_⟩⟩
        · simp only [c]
        · rw [hwhole hm]
      cases q with
      | step f k => exact .inr (by simpa [Cable.next] using plain)
      | ret r =>
        cases r with
        | err e => exact .inr (by simpa [Cable.next] using plain)
        | panic => exact .inr (by simpa [Cable.next] using plain)
        | ok a =>
          cases a with
          | none => exact .inr (by simpa [Cable.next] using plain)
          | some a =>
            cases mute with
            | none => exact .inr (by simpa [Cable.next] using plain)
            | some m =>
              obtain ⟨ends, part⟩ := m
              cases ho : Out.encode env a with
              | err e => exact .inr (by simpa [Cable.next, ho] using plain)
              | panic => exact .inr (by simpa [Cable.next, ho] using plain)
              | ok f =>
                right
                rw [hs]
                simp only [Cable.next, Bool.false_eq_true, if_false, ho, Line.next, putsOut]
                refine ⟨trivial, ⟨fun he => ?_, fun (hm : some _ = none) => (by cases hm)⟩⟩
                have he : ends = false := he
                subst he
                rfl
    | none =>
      cases deaf with
      | true => exact .inl ⟨rfl, h, .inr rfl⟩
      | false =>
        right
        obtain ⟨a, x, b, c, d⟩ := frag_output (env := env) (clk := clk) (st := st)
          (Line.mk conn todo input recv none done output false) l.output rfl rfl
        have hl : { Line.mk conn todo input recv none done output false with output := l.output } = l := hs.symm
        rw [hl] at a c
        simp only [Cable.nextFrag, Option.isSome_none, Bool.or_self, Bool.false_eq_true, if_false]
        cases mute with
        | none =>
          have e := hwhole rfl
          subst e
          exact ⟨rfl, fun _ => rfl, fun _ => rfl⟩
        | some m =>
          obtain ⟨ends, part⟩ := m
          simp only
          split
          · refine ⟨a.symm, fun _ => ?_, fun hm => (by cases hm)⟩
            simp only [c]
          · rename_i hne
            refine ⟨a.symm, fun he => ?_, fun (hm : some _ = none) => (by cases hm)⟩
            have he : ends = false := he
            subst he
            have hend : ((Line.mk conn todo input recv none done output false).nextFrag env clk st).2.ended = false := by
              rcases d with rfl | d
              · exact absurd (by simpa using b) hne
              · exact d
            rw [c]
            generalize ((Line.mk conn todo input recv none done output false).nextFrag env clk st).2 = r at hend ⊢
            obtain ⟨x1, x2, x3, x4, x5, x6, x7, x8⟩ := r
            cases hend
            rfl

/-- The flags of a connection. -/
theorem along_flags (w : Cable) : (w.mute = none → (w.nextFrag env clk st).2.mute = none) ∧ (w.nextFrag env clk st).2.deaf = w.deaf := by
  obtain ⟨⟨conn, todo, input, recv, cur, done, output, ended⟩, mute, deaf⟩ := w
  refine ⟨fun hm => ?_, ?_⟩
  · have hm : mute = none := hm
    subst hm
    cases ended with
    | true => rfl
    | false =>
      cases cur with
      | none => cases deaf <;> rfl
      | some c =>
        obtain ⟨t, q⟩ := c
        cases q with
        | step f k => rfl
        | ret r =>
          cases r with
          | ok a => cases a <;> rfl
          | err e => rfl
          | panic => rfl
  · unfold Cable.nextFrag Cable.next
    simp only
    repeat' split
    all_goals rfl

/-- The two systems at the same point. -/
structure HubSys.Along (b : HubSys) (s : MixSys) : Prop where
  store : b.st = s.st
  reqs : b.reqs = s.reqs
  sent : b.sent = s.sent
  len : b.ws.length = s.ls.length
  lines : ∀ (i : Nat) (w : Cable) (l : Line), b.ws[i]? = some w → s.ls[i]? = some l → w.Along l

/-- The run with connections that break is one without, in which broken ones make fewer steps. -/
theorem full_run (evs : List HubEv) (b : HubSys) (s : MixSys) (h : b.Along s) :
    ∃ evs', (b.runFrag env evs).Along (s.run env evs') ∧
      ((∀ n', ∃ n, (s.run env (evs'.take n')).st = (b.runFrag env (evs.take n)).st) ∧
        ∀ pre' i clk post', evs' = pre' ++ MixEv.step i clk :: post' → ∃ pre post, evs = pre ++ HubEv.cable (.step i clk) :: post ∧
          (s.run env pre').st = (b.runFrag env pre).st) ∧
      ∀ (j : Nat) w, b.ws[j]? = some w → w.mute = none → w.deaf = false → ¬ Breaks j (cables evs) →
        mixSteps j evs' = stepsOf j (cables evs) ∧
          (b.runFrag env evs).ws[j]? = ((s.run env evs').ls[j]?).map fun l => ⟨l, none, false⟩ := by
  induction evs generalizing b s with
  | nil =>
    refine ⟨[], h, ⟨fun n => ⟨0, by rw [List.take_nil]; exact h.store.symm⟩, fun pre' _ _ _ hm => by cases pre' <;> cases hm⟩, fun j w hw hm hd _ => ⟨rfl, ?_⟩⟩
    have hlt : j < s.ls.length := by rw [← h.len]; exact (List.getElem?_eq_some_iff.1 hw).1
    have hl : s.ls[j]? = some s.ls[j] := List.getElem?_eq_getElem hlt
    have := (h.lines j w _ hw hl).whole hm
    show b.ws[j]? = (s.ls[j]?).map _
    rw [hw, hl, this]
    obtain ⟨x, y, z⟩ := w
    cases hm; cases hd
    rfl
  | cons e evs ih =>
    -- an event that is the same in both
    have both : ∀ (e' : MixEv), (∀ j, mixSteps j [e'] = []) → cables (e :: evs) = cables evs →
        (b.stepFrag env e).Along (s.step env e') → (b.stepFrag env e).ws = b.ws →
        ∃ evs', (b.runFrag env (e :: evs)).Along (s.run env evs') ∧
          ((∀ n', ∃ n, (s.run env (evs'.take n')).st = (b.runFrag env ((e :: evs).take n)).st) ∧
            ∀ pre' i' k post', evs' = pre' ++ MixEv.step i' k :: post' → ∃ pre post, e :: evs = pre ++ HubEv.cable (.step i' k) :: post ∧
              (s.run env pre').st = (b.runFrag env pre).st) ∧
          ∀ (j : Nat) w, b.ws[j]? = some w → w.mute = none → w.deaf = false → ¬ Breaks j (cables (e :: evs)) →
            mixSteps j evs' = stepsOf j (cables (e :: evs)) ∧
              (b.runFrag env (e :: evs)).ws[j]? = ((s.run env evs').ls[j]?).map fun l => ⟨l, none, false⟩ := by
      intro e' h0 hb hal hws
      obtain ⟨evs', a1, ⟨a4, a5⟩, a3⟩ := ih _ _ hal
      refine ⟨e' :: evs', a1, ⟨fun n' => n'.casesOn ⟨0, h.store.symm⟩ fun n' => (a4 n').elim fun n hn => ⟨n + 1, hn⟩, fun pre' i' k post' hk => ?_⟩,
        fun j w hw hm hd hn => ?_⟩
      · cases pre' with
        | nil => cases hk; exact absurd (h0 i') (by simp [mixSteps])
        | cons x pre' =>
          cases hk
          obtain ⟨pre, post, k1, k2⟩ := a5 pre' i' k post' rfl
          exact ⟨e :: pre, post, by rw [k1]; rfl, k2⟩
      rw [hb] at hn ⊢
      obtain ⟨g1, g2⟩ := a3 j w (by rw [hws]; exact hw) hm hd hn
      refine ⟨?_, g2⟩
      have : mixSteps j (e' :: evs') = mixSteps j [e'] ++ mixSteps j evs' := by
        simp only [mixSteps, ← List.filterMap_append, List.singleton_append]
      rw [this, h0, g1]; rfl
    cases e with
    | accept c => exact both (.accept c) (fun _ => rfl) rfl ⟨by show b.st.storeSession c = s.st.storeSession c; rw [h.store], h.reqs, h.sent, h.len, h.lines⟩ rfl
    | gone c => exact both (.gone c) (fun _ => rfl) rfl ⟨by show b.st.remove c = s.st.remove c; rw [h.store], h.reqs, h.sent, h.len, h.lines⟩ rfl
    | request q => exact both (.request q) (fun _ => rfl) rfl ⟨h.store, by show b.reqs ++ _ = s.reqs ++ _; rw [h.reqs], h.sent, h.len, h.lines⟩ rfl
    | go i werr =>
      have hws : (b.stepFrag env (.go i werr)).ws = b.ws := by
        simp only [HubSys.stepFrag, HubSys.step]; split <;> rfl
      refine both (.go i werr) (fun _ => rfl) rfl ?_ hws
      simp only [HubSys.stepFrag, HubSys.step, MixSys.step, ← h.reqs, ← h.store]
      cases b.reqs[i]? with
      | none => exact h
      | some x => exact ⟨rfl, rfl, by simp only [h.sent], h.len, h.lines⟩
    | cable e =>
      have nob : ∀ j, ¬ Breaks j (cables (.cable e :: evs)) → ¬ Breaks j (cables evs) :=
        fun j hn ⟨x, hx, hy⟩ => hn ⟨x, List.mem_cons_of_mem _ hx, hy⟩
      -- an event that is none in the other
      have alone : (b.stepFrag env (.cable e)).Along s → (∀ j, stepsOf j [e] = [] ∨ ∀ w, b.ws[j]? = some w → w.mute = none → w.deaf = false → False) →
          (∀ (j : Nat) w, ¬ Breaks j [e] → b.ws[j]? = some w → ∃ y, (b.stepFrag env (.cable e)).ws[j]? = some y ∧ (w.mute = none → y.mute = none) ∧ y.deaf = w.deaf) →
          ∃ evs', (b.runFrag env (.cable e :: evs)).Along (s.run env evs') ∧
            ((∀ n', ∃ n, (s.run env (evs'.take n')).st = (b.runFrag env ((.cable e :: evs).take n)).st) ∧
            ∀ pre' i' k post', evs' = pre' ++ MixEv.step i' k :: post' → ∃ pre post, HubEv.cable e :: evs = pre ++ HubEv.cable (.step i' k) :: post ∧
              (s.run env pre').st = (b.runFrag env pre).st) ∧
            ∀ (j : Nat) w, b.ws[j]? = some w → w.mute = none → w.deaf = false → ¬ Breaks j (cables (.cable e :: evs)) →
              mixSteps j evs' = stepsOf j (cables (.cable e :: evs)) ∧
                (b.runFrag env (.cable e :: evs)).ws[j]? = ((s.run env evs').ls[j]?).map fun l => ⟨l, none, false⟩ := by
        intro hal h0 hfl
        obtain ⟨evs', a1, ⟨a4, a5⟩, a3⟩ := ih _ _ hal
        refine ⟨evs', a1, ⟨fun n' => (a4 n').elim fun n hn => ⟨n + 1, hn⟩, fun pre' i' k post' hk => by
          obtain ⟨pre, post, k1, k2⟩ := a5 pre' i' k post' hk
          exact ⟨.cable e :: pre, post, by rw [k1]; rfl, k2⟩⟩, fun j w hw hm hd hn => ?_⟩
        obtain ⟨y, y1, y2, y3⟩ := hfl j w (fun ⟨x, hx, hy⟩ => hn ⟨x, by rw [List.mem_singleton.1 hx]; exact List.mem_cons_self, hy⟩) hw
        obtain ⟨g1, g2⟩ := a3 j y y1 (y2 hm) (y3.trans hd) (nob j hn)
        refine ⟨?_, g2⟩
        have : stepsOf j (cables (.cable e :: evs)) = stepsOf j [e] ++ stepsOf j (cables evs) := by
          show stepsOf j (e :: cables evs) = _
          simp only [stepsOf, ← List.filterMap_append, List.singleton_append]
        rcases h0 j with h0 | h0
        · rw [this, h0, g1]; rfl
        · exact absurd (h0 w hw hm hd) (by simp)
      cases e with
      | mute i ends part =>
        refine alone ?_ (fun j => .inl rfl) ?_
        · simp only [HubSys.stepFrag, HubSys.step, CableSys.step]
          cases hw : b.ws[i]? with
          | none => exact h
          | some w =>
            refine ⟨h.store, h.reqs, h.sent, (List.length_set ..).trans h.len, fun k x l hx hl => ?_⟩
            rcases getset hw hx with ⟨rfl, rfl⟩ | ⟨-, hx⟩
            · exact ⟨(h.lines _ w l hw hl).same, fun hm => by cases hm⟩
            · exact h.lines k x l hx hl
        · intro j w hn hj
          have hij : i ≠ j := fun e => hn ⟨_, List.mem_singleton.2 rfl, .inl ⟨ends, part, by rw [e]⟩⟩
          refine ⟨w, ?_, id, rfl⟩
          simp only [HubSys.stepFrag, HubSys.step, CableSys.step]
          cases hw : b.ws[i]? with
          | none => exact hj
          | some x => simp only; rw [List.getElem?_set_ne hij]; exact hj
      | deaf i =>
        refine alone ?_ (fun j => .inl rfl) ?_
        · simp only [HubSys.stepFrag, HubSys.step, CableSys.step]
          cases hw : b.ws[i]? with
          | none => exact h
          | some w =>
            refine ⟨h.store, h.reqs, h.sent, (List.length_set ..).trans h.len, fun k x l hx hl => ?_⟩
            rcases getset hw hx with ⟨rfl, rfl⟩ | ⟨-, hx⟩
            · exact ⟨(h.lines _ w l hw hl).same, (h.lines _ w l hw hl).whole⟩
            · exact h.lines k x l hx hl
        · intro j w hn hj
          have hij : i ≠ j := fun e => hn ⟨_, List.mem_singleton.2 rfl, .inr (by rw [e])⟩
          refine ⟨w, ?_, id, rfl⟩
          simp only [HubSys.stepFrag, HubSys.step, CableSys.step]
          cases hw : b.ws[i]? with
          | none => exact hj
          | some x => simp only; rw [List.getElem?_set_ne hij]; exact hj
      | step i clk =>
        -- a step of both
        have twin : (b.stepFrag env (.cable (.step i clk))).Along (s.step env (.step i clk)) →
            (∀ (j : Nat) w, b.ws[j]? = some w → ∃ y, (b.stepFrag env (.cable (.step i clk))).ws[j]? = some y ∧ (w.mute = none → y.mute = none) ∧ y.deaf = w.deaf) →
            ∃ evs', (b.runFrag env (.cable (.step i clk) :: evs)).Along (s.run env evs') ∧
              ((∀ n', ∃ n, (s.run env (evs'.take n')).st = (b.runFrag env ((.cable (.step i clk) :: evs).take n)).st) ∧
            ∀ pre' i' k post', evs' = pre' ++ MixEv.step i' k :: post' → ∃ pre post, HubEv.cable (.step i clk) :: evs = pre ++ HubEv.cable (.step i' k) :: post ∧
              (s.run env pre').st = (b.runFrag env pre).st) ∧
              ∀ (j : Nat) w, b.ws[j]? = some w → w.mute = none → w.deaf = false → ¬ Breaks j (cables (.cable (.step i clk) :: evs)) →
                mixSteps j evs' = stepsOf j (cables (.cable (.step i clk) :: evs)) ∧
                  (b.runFrag env (.cable (.step i clk) :: evs)).ws[j]? = ((s.run env evs').ls[j]?).map fun l => ⟨l, none, false⟩ := by
          intro hal hfl
          obtain ⟨evs', a1, ⟨a4, a5⟩, a3⟩ := ih _ _ hal
          refine ⟨.step i clk :: evs', a1, ⟨fun n' => n'.casesOn ⟨0, h.store.symm⟩ fun n' => (a4 n').elim fun n hn => ⟨n + 1, hn⟩,
            fun pre' i' k post' hk => ?_⟩, fun j w hw hm hd hn => ?_⟩
          · cases pre' with
            | nil => cases hk; exact ⟨[], evs, rfl, h.store.symm⟩
            | cons x pre' =>
              cases hk
              obtain ⟨pre, post, k1, k2⟩ := a5 pre' i' k post' rfl
              exact ⟨.cable (.step i clk) :: pre, post, by rw [k1]; rfl, k2⟩
          obtain ⟨y, y1, y2, y3⟩ := hfl j w hw
          obtain ⟨g1, g2⟩ := a3 j y y1 (y2 hm) (y3.trans hd) (nob j hn)
          refine ⟨?_, g2⟩
          show mixSteps j (.step i clk :: evs') = stepsOf j (.step i clk :: cables evs)
          have g1 : List.filterMap _ evs' = List.filterMap _ (cables evs) := g1
          simp only [mixSteps, stepsOf, List.filterMap_cons, g1]
        cases hw : b.ws[i]? with
        | none =>
          have e1 : b.stepFrag env (.cable (.step i clk)) = b := by simp only [HubSys.stepFrag, hw]
          have hl : s.ls[i]? = none := by
            rw [List.getElem?_eq_none_iff, ← h.len]; exact List.getElem?_eq_none_iff.1 hw
          have e2 : s.step env (.step i clk) = s := by simp only [MixSys.step, hl]
          exact twin (by rw [e1, e2]; exact h) (fun j w hj => ⟨w, by rw [e1]; exact hj, id, rfl⟩)
        | some w =>
          have hlt : i < s.ls.length := by rw [← h.len]; exact (List.getElem?_eq_some_iff.1 hw).1
          have hl : s.ls[i]? = some s.ls[i] := List.getElem?_eq_getElem hlt
          generalize s.ls[i] = l at hl
          have e1 : b.stepFrag env (.cable (.step i clk)) =
              { b with st := (w.nextFrag env clk b.st).1, ws := b.ws.set i (w.nextFrag env clk b.st).2 } := by
            simp only [HubSys.stepFrag, hw]
          have e2 : s.step env (.step i clk) = { s with st := (l.nextFrag env clk s.st).1, ls := s.ls.set i (l.nextFrag env clk s.st).2 } := by
            simp only [MixSys.step, hl]
          have flags : ∀ (j : Nat) x, b.ws[j]? = some x →
              ∃ y, (b.stepFrag env (.cable (.step i clk))).ws[j]? = some y ∧ (x.mute = none → y.mute = none) ∧ y.deaf = x.deaf := by
            intro j x hx
            rw [e1]
            by_cases hij : i = j
            · subst hij
              rw [hw] at hx; cases hx
              exact ⟨_, List.getElem?_set_self (List.getElem?_eq_some_iff.1 hw).1, along_flags _⟩
            · exact ⟨x, (List.getElem?_set_ne hij).trans hx, id, rfl⟩
          rcases along_next (env := env) (clk := clk) (st := b.st) (h.lines i w l hw hl) with ⟨n1, n2, n3⟩ | ⟨n1, n2⟩
          · refine alone ?_ ?_ (fun j x _ hx => flags j x hx)
            · rw [e1]
              refine ⟨n1.trans h.store, h.reqs, h.sent, (List.length_set ..).trans h.len, fun k x y hx hy => ?_⟩
              rcases getset hw hx with ⟨rfl, rfl⟩ | ⟨-, hx⟩
              · rw [hl] at hy; cases hy; exact n2
              · exact h.lines k x y hx hy
            · intro j
              by_cases hij : i = j
              · subst hij
                refine .inr fun x hx hm hd => ?_
                rw [hw] at hx; cases hx
                rcases n3 with n3 | n3
                · exact n3 hm
                · rw [hd] at n3; cases n3
              · left; simp [stepsOf, hij]
          · refine twin ?_ flags
            rw [e1, e2, ← h.store]
            refine ⟨n1, h.reqs, h.sent, by simp [h.len], fun k x y hx hy => ?_⟩
            rcases getset hw hx with ⟨rfl, rfl⟩ | ⟨hk, hx⟩
            · have hy : (s.ls.set k (l.nextFrag env clk b.st).2)[k]? = some y := hy
              rw [List.getElem?_set_self hlt] at hy; cases hy; exact n2
            · have hy : (s.ls.set i (l.nextFrag env clk b.st).2)[k]? = some y := hy
              rw [List.getElem?_set_ne (Ne.symm hk)] at hy; exact h.lines k x y hx hy

end JT808
