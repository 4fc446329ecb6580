import Verif.Model.Breaks
import Verif.Props.Total
/-
For C165: broken connections are connections on which nothing happens any more.
-/
namespace JT808
open Spec

variable {env : Env}

/-- A connection that may be broken beside one that is not. -/
structure Cable.Beside (w : Cable) (l : Line) : Prop where
  cur : l.cur = w.line.cur
  out : w.line.output <+: l.output
  same : w.line.ended = false → l = { w.line with output := l.output }
  whole : w.mute = none → l = w.line
  full : ∀ e n, w.mute = some (e, n) → n ≠ 0 → l.output = w.line.output

/-- Two systems of them. -/
structure CableSys.Beside (b : CableSys) (s : LSys) : Prop where
  store : b.st = s.st
  len : b.ws.length = s.ls.length
  lines : ∀ (i : Nat) (w : Cable) (l : Line), b.ws[i]? = some w → s.ls[i]? = some l → w.Beside l

/-- What is written does not matter for what is done. -/
theorem next_output (clk : Clock) (st : Store) (l : Line) (o : List UInt8) :
    ({ l with output := o }.next env clk st).1 = (l.next env clk st).1 ∧
      ∃ x, (l.next env clk st).2.output = l.output ++ x ∧
        ({ l with output := o }.next env clk st).2 = { (l.next env clk st).2 with output := o ++ x } ∧
        (x = [] ∨ ∃ t a f, l.cur = some (t, .ret (.ok (some a))) ∧ Out.encode env a = .ok f) := by
  obtain ⟨conn, todo, input, recv, cur, done, output, ended⟩ := l
  have nil : ∀ a : List UInt8, a = a ++ [] := fun a => (List.append_nil a).symm
  cases ended with
  | true => exact ⟨rfl, [], nil _, by simp [Line.next], .inl rfl⟩
  | false =>
    cases cur with
    | some c =>
      obtain ⟨t, q⟩ := c
      cases q with
      | step f k => exact ⟨rfl, [], nil _, by simp [Line.next], .inl rfl⟩
      | ret r =>
        refine ⟨rfl, (putsOut env r).1, rfl, rfl, ?_⟩
        cases r with
        | err e => exact .inl rfl
        | panic => exact .inl rfl
        | ok a =>
          cases a with
          | none => exact .inl rfl
          | some a =>
            cases ho : Out.encode env a with
            | ok f => exact .inr ⟨t, a, f, rfl, ho⟩
            | err e => left; simp [putsOut, ho]
            | panic => left; simp [putsOut, ho]
    | none =>
      cases todo with
      | cons t ts => exact ⟨rfl, [], nil _, by simp [Line.next], .inl rfl⟩
      | nil =>
        cases input with
        | nil => exact ⟨rfl, [], nil _, by simp [Line.next], .inl rfl⟩
        | cons b rest =>
          cases hr : recvStep recv b with
          | inr r => exact ⟨by simp [Line.next, hr], [], by simp [Line.next, hr], by simp [Line.next, hr], .inl rfl⟩
          | inl f =>
            cases hf : received env clk.civil conn f with
            | none => exact ⟨by simp [Line.next, hr, hf], [], by simp [Line.next, hr, hf], by simp [Line.next, hr, hf], .inl rfl⟩
            | some y =>
              cases y with
              | none => exact ⟨by simp [Line.next, hr, hf], [], by simp [Line.next, hr, hf], by simp [Line.next, hr, hf], .inl rfl⟩
              | some t => exact ⟨by simp [Line.next, hr, hf], [], by simp [Line.next, hr, hf], by simp [Line.next, hr, hf], .inl rfl⟩

/-- A step of a broken connection is one of the other, or none. -/
theorem wire_next {clk : Clock} {st : Store} {w : Cable} {l : Line} (h : w.Beside l) :
    ((w.next env clk st).1 = st ∧ (w.next env clk st).2.Beside l ∧ (w.mute ≠ none ∨ w.deaf = true)) ∨
      ((w.next env clk st).1 = (l.next env clk st).1 ∧ (w.next env clk st).2.Beside (l.next env clk st).2) := by
  obtain ⟨hcur, hout, hsame, hwhole, hfull⟩ := id h
  obtain ⟨⟨conn, todo, input, recv, cur, done, output, ended⟩, mute, deaf⟩ := w
  cases ended with
  | true =>
    cases mute with
    | none =>
      right
      have e := hwhole rfl
      subst e
      exact ⟨rfl, h⟩
    | some e => exact .inl ⟨rfl, h, .inl (by simp)⟩
  | false =>
    have hs := hsame rfl
    simp only at hs
    have plain : (mute = none ∨ ∀ t a f, cur = some (t, .ret (.ok (some a))) → Out.encode env a ≠ .ok f) →
        ((Line.mk conn todo input recv cur done output false).next env clk st).1 = (l.next env clk st).1 ∧
        Cable.Beside ⟨((Line.mk conn todo input recv cur done output false).next env clk st).2, mute, deaf⟩ (l.next env clk st).2 := by
      intro hq
      obtain ⟨a, x, b, c, d⟩ := next_output (env := env) clk st (Line.mk conn todo input recv cur done output false) l.output
      have hl : { Line.mk conn todo input recv cur done output false with output := l.output } = l := hs.symm
      rw [hl] at a c
      refine ⟨a.symm, ⟨?_, ?_, fun _ => ?_, fun hm => ?_, fun e n hm hn => ?_⟩⟩
      · simp only [c]
      · simp only [c, b]
        rcases hq with hq | hq
        · have := hwhole hq
          rw [this]
          exact List.prefix_refl _
        · rcases d with rfl | ⟨t, y, f, d1, d2⟩
          · simpa using hout
          · exact absurd d2 (hq t y f d1)
      · simp only [c]
      · rw [hwhole hm]
      · rcases hq with hq | hq
        · rw [hq] at hm; cases hm
        · rcases d with rfl | ⟨t, y, f, d1, d2⟩
          · have := hfull e n hm hn
            simp only [c, b, this]
          · exact absurd d2 (hq t y f d1)
    cases cur with
    | none =>
      rcases Bool.eq_false_or_eq_true deaf with hd | hd
      · subst hd; exact .inl ⟨rfl, h, .inr rfl⟩
      · subst hd
        exact .inr (plain (.inr fun t a f e => by cases e))
    | some c =>
      obtain ⟨t, q⟩ := c
      cases q with
      | step f k => exact .inr (by simpa [Cable.next] using plain (.inr fun t a f e => by cases e))
      | ret r =>
        cases r with
        | err e => exact .inr (by simpa [Cable.next] using plain (.inr fun t a f e => by cases e))
        | panic => exact .inr (by simpa [Cable.next] using plain (.inr fun t a f e => by cases e))
        | ok a =>
          cases a with
          | none => exact .inr (by simpa [Cable.next] using plain (.inr fun t a f e => by cases e))
          | some a =>
            cases mute with
            | none => exact .inr (by simpa [Cable.next] using plain (.inl rfl))
            | some m =>
              obtain ⟨ends, part⟩ := m
              cases ho : Out.encode env a with
              | err e => exact .inr (by
                  simpa [Cable.next, ho] using plain (.inr fun t a' f e => by cases e; rw [ho]; simp))
              | panic => exact .inr (by
                  simpa [Cable.next, ho] using plain (.inr fun t a' f e => by cases e; rw [ho]; simp))
              | ok f =>
                right
                rw [hs]
                simp only [Cable.next, Bool.false_eq_true, if_false, ho, Line.next, putsOut]
                refine ⟨trivial, ⟨rfl, ?_, fun he => ?_, fun (hm : some _ = none) => (by cases hm), fun e n hm hn => ?_⟩⟩
                · by_cases hp : part = 0
                  · subst hp
                    simpa using hout.trans (List.prefix_append _ _)
                  · rw [hfull ends part rfl hp]
                    exact (List.prefix_append_right_inj _).2 (List.take_prefix _ _)
                · have he : ends = false := he
                  subst he
                  rfl
                · cases hm
                  exact absurd rfl hn

/-- The times at which a goroutine made a step. -/
def Spec.stepsOf (j : Nat) (evs : List CableEv) : List Clock :=
  evs.filterMap fun | .step i clk => if i = j then some clk else none | _ => none

/-- Whether the connection breaks. -/
def Spec.Breaks (j : Nat) (evs : List CableEv) : Prop := ∃ e ∈ evs, (∃ b n, e = .mute j b n) ∨ e = .deaf j

open Spec

/-- `wires_run`, also about the points in between: the run with connections that break is one without, in which broken ones make fewer steps. -/
theorem wires_run_at (evs : List CableEv) (b : CableSys) (s : LSys) (h : b.Beside s) :
    ∃ evs', (b.run env evs).Beside (s.run env evs') ∧ (∀ j, (timesOf j evs').Sublist (stepsOf j evs)) ∧
      (∀ n', ∃ n, (s.run env (evs'.take n')).st = (b.run env (evs.take n)).st) ∧
      ∀ (j : Nat) w, b.ws[j]? = some w → w.mute = none → w.deaf = false → ¬ Breaks j evs →
        timesOf j evs' = stepsOf j evs ∧ (b.run env evs).ws[j]? = ((s.run env evs').ls[j]?).map fun l => ⟨l, none, false⟩ := by
  induction evs generalizing b s with
  | nil =>
    refine ⟨[], h, fun j => List.Sublist.refl _, fun n => ⟨0, by rw [List.take_nil]; exact h.store.symm⟩, fun j w hw hm hd _ => ⟨rfl, ?_⟩⟩
    have hlt : j < s.ls.length := by rw [← h.len]; exact (List.getElem?_eq_some_iff.1 hw).1
    have hl : s.ls[j]? = some s.ls[j] := List.getElem?_eq_getElem hlt
    have := (h.lines j w _ hw hl).whole hm
    show b.ws[j]? = (s.ls[j]?).map _
    rw [hw, hl, this]
    obtain ⟨x, y, z⟩ := w
    cases hm; cases hd
    rfl
  | cons e evs ih =>
    have nob : ∀ j, ¬ Breaks j (e :: evs) → ¬ Breaks j evs := fun j hn ⟨x, hx, hy⟩ => hn ⟨x, List.mem_cons_of_mem _ hx, hy⟩
    cases e with
    | mute i ends part =>
      have h' : (b.step env (.mute i ends part)).Beside s ∧ ∀ (j : Nat) w, j ≠ i → b.ws[j]? = some w → (b.step env (.mute i ends part)).ws[j]? = some w := by
        unfold CableSys.step
        simp only
        cases hw : b.ws[i]? with
        | none => exact ⟨h, fun j w _ hj => hj⟩
        | some w =>
          refine ⟨⟨h.store, (List.length_set ..).trans h.len, fun k x l hx hl => ?_⟩, fun j x hj hx => ?_⟩
          · rcases getset hw hx with ⟨rfl, rfl⟩ | ⟨-, hx⟩
            · obtain ⟨h1, h2, h3, h4, h5⟩ := h.lines _ w l hw hl
              refine ⟨h1, h2, h3, fun hm => (by cases hm), fun e n hm hn => ?_⟩
              cases hx : w.mute with
              | none => exact congrArg Line.output (h4 hx)
              | some y =>
                obtain ⟨e', n'⟩ := y
                simp only [hx, Option.getD_some] at hm
                cases hm
                exact h5 _ _ hx hn
            · exact h.lines k x l hx hl
          · simp only; rw [List.getElem?_set_ne (Ne.symm hj)]; exact hx
      obtain ⟨evs', a1, a2, a4, a3⟩ := ih _ _ h'.1
      refine ⟨evs', a1, a2, fun n' => (a4 n').elim fun n hn => ⟨n + 1, hn⟩, fun j w hw hm hd hn => ?_⟩
      have hj : j ≠ i := fun e => hn ⟨_, List.mem_cons_self, .inl ⟨ends, part, by rw [e]⟩⟩
      exact a3 j w (h'.2 j w hj hw) hm hd (nob j hn)
    | deaf i =>
      have h' : (b.step env (.deaf i)).Beside s ∧ ∀ (j : Nat) w, j ≠ i → b.ws[j]? = some w → (b.step env (.deaf i)).ws[j]? = some w := by
        unfold CableSys.step
        simp only
        cases hw : b.ws[i]? with
        | none => exact ⟨h, fun j w _ hj => hj⟩
        | some w =>
          refine ⟨⟨h.store, (List.length_set ..).trans h.len, fun k x l hx hl => ?_⟩, fun j x hj hx => ?_⟩
          · rcases getset hw hx with ⟨rfl, rfl⟩ | ⟨-, hx⟩
            · obtain ⟨h1, h2, h3, h4, h5⟩ := h.lines _ w l hw hl
              exact ⟨h1, h2, h3, h4, h5⟩
            · exact h.lines k x l hx hl
          · simp only; rw [List.getElem?_set_ne (Ne.symm hj)]; exact hx
      obtain ⟨evs', a1, a2, a4, a3⟩ := ih _ _ h'.1
      refine ⟨evs', a1, a2, fun n' => (a4 n').elim fun n hn => ⟨n + 1, hn⟩, fun j w hw hm hd hn => ?_⟩
      have hj : j ≠ i := fun e => hn ⟨_, List.mem_cons_self, .inr (by rw [e])⟩
      exact a3 j w (h'.2 j w hj hw) hm hd (nob j hn)
    | step i clk =>
      have hsteps : ∀ j, stepsOf j (.step i clk :: evs) = (if i = j then [clk] else []) ++ stepsOf j evs := by
        intro j
        simp only [stepsOf, List.filterMap_cons]
        by_cases hij : i = j <;> simp [hij]
      have htimes : ∀ j evs', timesOf j ((i, clk) :: evs') = (if i = j then [clk] else []) ++ timesOf j evs' := by
        intro j evs'
        simp only [timesOf, List.filter_cons]
        by_cases hij : i = j <;> simp [hij]
      cases hw : b.ws[i]? with
      | none =>
        have e1 : b.step env (.step i clk) = b := by simp only [CableSys.step, hw]
        have hl : s.ls[i]? = none := by
          rw [List.getElem?_eq_none_iff, ← h.len]; exact List.getElem?_eq_none_iff.1 hw
        have e2 : s.step env (i, clk) = s := by simp only [LSys.step, hl]
        obtain ⟨evs', a1, a2, a4, a3⟩ := ih b s h
        refine ⟨(i, clk) :: evs', ?_, fun j => ?_, fun n' => n'.casesOn ⟨0, h.store.symm⟩ fun n' => (a4 n').elim fun n hn => ⟨n + 1, by
          show ((s.step env (i, clk)).run env (evs'.take n')).st = ((b.step env (.step i clk)).run env (evs.take n)).st
          rw [e1, e2]; exact hn⟩, fun j w hj hm hd hn => ?_⟩
        · show ((b.step env (.step i clk)).run env evs).Beside ((s.step env (i, clk)).run env evs')
          rw [e1, e2]; exact a1
        · rw [hsteps, htimes]; exact List.Sublist.append_left (a2 j) _
        · obtain ⟨g1, g2⟩ := a3 j w hj hm hd (nob j hn)
          refine ⟨by rw [hsteps, htimes, g1], ?_⟩
          show ((b.step env (.step i clk)).run env evs).ws[j]? = (((s.step env (i, clk)).run env evs').ls[j]?).map _
          rw [e1, e2]; exact g2
      | some w =>
        have hlt : i < s.ls.length := by rw [← h.len]; exact (List.getElem?_eq_some_iff.1 hw).1
        have hl : s.ls[i]? = some s.ls[i] := List.getElem?_eq_getElem hlt
        generalize s.ls[i] = l at hl
        have e1 : b.step env (.step i clk) = ⟨(w.next env clk b.st).1, b.ws.set i (w.next env clk b.st).2⟩ := by
          simp only [CableSys.step, hw]
        have e2 : s.step env (i, clk) = ⟨(l.next env clk s.st).1, s.ls.set i (l.next env clk s.st).2⟩ := by
          simp only [LSys.step, hl]
        have keep : (w.mute = none → (w.next env clk b.st).2.mute = none) ∧ (w.next env clk b.st).2.deaf = w.deaf := by
          obtain ⟨⟨conn, todo, input, recv, cur, done, output, ended⟩, mute, deaf⟩ := w
          refine ⟨fun hm => ?_, ?_⟩
          · have hm : mute = none := hm
            subst hm
            cases ended with
            | true => rfl
            | false =>
              cases cur with
              | none => cases deaf <;> rfl
              | some c =>
                obtain ⟨t, q⟩ := c
                cases q with
                | step f k => rfl
                | ret r =>
                  cases r with
                  | ok a => cases a <;> rfl
                  | err e => rfl
                  | panic => rfl
          · unfold Cable.next
            repeat' split
            all_goals rfl
        have flags : ∀ (j : Nat) x, b.ws[j]? = some x → ∃ y, (b.step env (.step i clk)).ws[j]? = some y ∧ (x.mute = none → y.mute = none) ∧ y.deaf = x.deaf := by
          intro j x hx
          rw [e1]
          by_cases hij : i = j
          · subst hij
            rw [hw] at hx; cases hx
            exact ⟨_, List.getElem?_set_self (List.getElem?_eq_some_iff.1 hw).1, keep⟩
          · exact ⟨x, (List.getElem?_set_ne hij).trans hx, id, rfl⟩
        rcases wire_next (env := env) (clk := clk) (st := b.st) (h.lines i w l hw hl) with ⟨n1, n2, n3⟩ | ⟨n1, n2⟩
        · have h' : (b.step env (.step i clk)).Beside s := by
            rw [e1]
            refine ⟨n1.trans h.store, (List.length_set ..).trans h.len, fun k x y hx hy => ?_⟩
            rcases getset hw hx with ⟨rfl, rfl⟩ | ⟨-, hx⟩
            · rw [hl] at hy; cases hy; exact n2
            · exact h.lines k x y hx hy
          obtain ⟨evs', a1, a2, a4, a3⟩ := ih _ _ h'
          refine ⟨evs', a1, fun j => ?_, fun n' => (a4 n').elim fun n hn => ⟨n + 1, hn⟩, fun j x hj hm hd hn => ?_⟩
          · rw [hsteps]; exact (a2 j).trans (List.sublist_append_right _ _)
          · have hij : i ≠ j := by
              rintro rfl
              rw [hw] at hj; cases hj
              rcases n3 with n3 | n3
              · exact n3 hm
              · rw [hd] at n3; cases n3
            obtain ⟨y, y1, y2, y3⟩ := flags j x hj
            obtain ⟨g1, g2⟩ := a3 j y y1 (y2 hm) (y3.trans hd) (nob j hn)
            exact ⟨by rw [hsteps, if_neg hij, g1]; rfl, g2⟩
        · have h' : (b.step env (.step i clk)).Beside (s.step env (i, clk)) := by
            rw [e1, e2, ← h.store]
            refine ⟨n1, by simp [h.len], fun k x y hx hy => ?_⟩
            rcases getset hw hx with ⟨rfl, rfl⟩ | ⟨hk, hx⟩
            · have hy : (s.ls.set k (l.next env clk b.st).2)[k]? = some y := hy
              rw [List.getElem?_set_self hlt] at hy; cases hy; exact n2
            · have hy : (s.ls.set i (l.next env clk b.st).2)[k]? = some y := hy
              rw [List.getElem?_set_ne (Ne.symm hk)] at hy; exact h.lines k x y hx hy
          obtain ⟨evs', a1, a2, a4, a3⟩ := ih _ _ h'
          refine ⟨(i, clk) :: evs', a1, fun j => ?_, fun n' => n'.casesOn ⟨0, h.store.symm⟩ fun n' => (a4 n').elim fun n hn => ⟨n + 1, hn⟩, fun j x hj hm hd hn => ?_⟩
          · rw [hsteps, htimes]; exact List.Sublist.append_left (a2 j) _
          · obtain ⟨y, y1, y2, y3⟩ := flags j x hj
            obtain ⟨g1, g2⟩ := a3 j y y1 (y2 hm) (y3.trans hd) (nob j hn)
            exact ⟨by rw [hsteps, htimes, g1], g2⟩

/-- The run with connections that break is one without, in which broken ones make fewer steps. -/
theorem wires_run (evs : List CableEv) (b : CableSys) (s : LSys) (h : b.Beside s) :
    ∃ evs', (b.run env evs).Beside (s.run env evs') ∧ (∀ j, (timesOf j evs').Sublist (stepsOf j evs)) ∧
      ∀ (j : Nat) w, b.ws[j]? = some w → w.mute = none → w.deaf = false → ¬ Breaks j evs →
        timesOf j evs' = stepsOf j evs ∧ (b.run env evs).ws[j]? = ((s.run env evs').ls[j]?).map fun l => ⟨l, none, false⟩ := by
  obtain ⟨evs', a1, a2, -, a3⟩ := wires_run_at (env := env) evs b s h
  exact ⟨evs', a1, a2, a3⟩

end JT808
