import Verif.Proof.Calm
/-
C157: the keepalive checks of terminals that have just come leave them alone for a minute.
-/
namespace JT808
open Spec

namespace Spec

/-- Keepalive checks begin only for phones whose job is in the table. -/
def FromTable (env : Env) (s : WSys) (evs : List (Nat × Clock)) : Prop :=
  ∀ pre e post, evs = pre ++ e :: post → ∀ w p ts, (s.run env pre).ws[e.1]? = some w → w.cur = none →
    w.todo = .check p :: ts → p ∈ (s.run env pre).st.jobs

end Spec

/-- A goroutine of a connection that keeps the terminals known. -/
structure Worker.Keeps (terms : List Visitor) (T : Nat) (st : Store) (w : Worker) : Prop where
  todo : ∀ t ∈ w.todo, ∀ x ∈ terms, t.phone = x.phone → t ∈ x.script
  cur : ∀ t q, w.cur = some (t, q) → ∀ x ∈ terms, t.phone = x.phone → q.Keep T x st

/-- A keepalive check of one of them. -/
def Worker.Checks (terms : List Visitor) (T : Nat) (st : Store) (w : Worker) : Prop :=
  ∃ x ∈ terms, w = ⟨[.check x.phone], none, []⟩ ∨ (∃ q, w = ⟨[], some (.check x.phone, q), []⟩ ∧ q.Idle T x st) ∨
    w = ⟨[], none, [(.check x.phone, .ok none)]⟩

theorem Worker.Keeps.mono {terms : List Visitor} {T : Nat} {st st' : Store} {w : Worker} (h : w.Keeps terms T st)
    (hl : ∀ x ∈ terms, Later x st st') : w.Keeps terms T st' :=
  ⟨h.todo, fun t q e x hx hp => (h.cur t q e x hx hp).mono (hl x hx)⟩

theorem Worker.Checks.mono {terms : List Visitor} {T : Nat} {st st' : Store} {w : Worker} (h : w.Checks terms T st)
    (hl : ∀ x ∈ terms, Later x st st') : w.Checks terms T st' := by
  obtain ⟨x, hx, h | ⟨q, e, h⟩ | h⟩ := h
  · exact ⟨x, hx, .inl h⟩
  · exact ⟨x, hx, .inr (.inl ⟨q, e, h.mono (hl x hx)⟩)⟩
  · exact ⟨x, hx, .inr (.inr h)⟩

theorem next_keeps {env : Env} {terms : List Visitor} {T : Nat} {st : Store} {w : Worker} {clk : Clock}
    (hx : ∀ x ∈ terms, x.Proper) (ht : T ≤ clk.ms) (hi : CInv st)
    (hs : ∀ t q, w.cur = some (t, q) → q.Safe (t.Post env) t.Makes t.phone st)
    (hc : ∀ x ∈ terms, Calm x T st) (h : w.Keeps terms T st) :
    (∀ x ∈ terms, Later x st (w.next env clk st).1 ∧ Calm x T (w.next env clk st).1) ∧
      (w.next env clk st).2.Keeps terms T (w.next env clk st).1 := by
  obtain ⟨todo, cur, done⟩ := w
  cases cur with
  | none =>
    cases todo with
    | nil => exact ⟨fun x hx => ⟨Later.refl _ _, hc x hx⟩, h⟩
    | cons t ts =>
      refine ⟨fun x hx => ⟨Later.refl _ _, hc x hx⟩, fun u hu => h.todo u (List.mem_cons_of_mem _ hu), fun u q e x hxm hp => ?_⟩
      cases e
      exact script_keep env (hx x hxm) (h.todo t List.mem_cons_self x hxm hp) st
  | some tq =>
    obtain ⟨t, q⟩ := tq
    cases q with
    | ret r =>
      refine ⟨fun x hx => ⟨Later.refl _ _, hc x hx⟩, fun u hu => h.todo u ?_, fun u q e => by cases e⟩
      have hu : u ∈ if goesOn r then todo else [] := hu
      split at hu
      · exact hu
      · cases hu
    | step f k =>
      obtain ⟨own, -, -⟩ := hs t _ rfl clk st (Grows.refl _) hi
      refine ⟨fun x hxm => ?_, h.todo, fun u q e x hxm hp => ?_⟩
      · by_cases hp : t.phone = x.phone
        · obtain ⟨a, b, -⟩ := h.cur t _ rfl x hxm hp clk st ht (Later.refl _ _) hi (hc x hxm)
          exact ⟨a, b⟩
        · exact ⟨own.later hp, own.calm hp (hc x hxm)⟩
      · cases e
        exact (h.cur t _ rfl x hxm hp clk st ht (Later.refl _ _) hi (hc x hxm)).2.2

theorem next_checks {env : Env} {terms : List Visitor} {T : Nat} {st : Store} {w : Worker} {clk : Clock}
    (ht : T ≤ clk.ms) (ht' : clk.ms ≤ T + 60000) (hi : CInv st) (hc : ∀ x ∈ terms, Calm x T st) (h : w.Checks terms T st)
    (hj : ∀ p ts, w.cur = none → w.todo = .check p :: ts → p ∈ st.jobs) :
    (w.next env clk st).1 = st ∧ (w.next env clk st).2.Checks terms T st := by
  obtain ⟨x, hx, rfl | ⟨q, rfl, h⟩ | rfl⟩ := h
  · exact ⟨rfl, x, hx, .inr (.inl ⟨_, rfl, check_idle ((hc x hx).known (hj _ _ rfl rfl))⟩)⟩
  · cases q with
    | ret r =>
      have hr : r = .ok none := h
      subst hr
      exact ⟨rfl, x, hx, .inr (.inr rfl)⟩
    | step f k =>
      obtain ⟨a, b⟩ := h clk st ht ht' (Later.refl _ _) hi (hc x hx)
      exact ⟨a, x, hx, .inr (.inl ⟨_, rfl, b⟩)⟩
  · exact ⟨rfl, x, hx, .inr (.inr rfl)⟩

/-- The system with the checks and the one without them. -/
structure Alongside (env : Env) (terms : List Visitor) (T : Nat) (s s' : WSys) : Prop where
  store : s'.st = s.st
  same : ∀ (i : Nat), i < s'.ws.length → s.ws[i]? = s'.ws[i]?
  sound : s.Sound env
  calm : ∀ x ∈ terms, Calm x T s.st
  keeps : ∀ (i : Nat) (w : Worker), i < s'.ws.length → s.ws[i]? = some w → w.Keeps terms T s.st
  checks : ∀ (i : Nat) (w : Worker), s'.ws.length ≤ i → s.ws[i]? = some w → w.Checks terms T s.st

theorem alongside_step {env : Env} {terms : List Visitor} {T : Nat} {s s' : WSys} (h : Alongside env terms T s s')
    (hx : ∀ x ∈ terms, x.Proper) (e : Nat × Clock) (ht : T ≤ e.2.ms) (ht' : e.2.ms ≤ T + 60000)
    (hj : ∀ w p ts, s.ws[e.1]? = some w → w.cur = none → w.todo = .check p :: ts → p ∈ s.st.jobs) :
    Alongside env terms T (s.step env e) (s'.step env e) ∧ (s'.step env e).ws.length = s'.ws.length := by
  have hsound := sound_step h.sound e
  obtain ⟨i, clk⟩ := e
  by_cases hlt : i < s'.ws.length
  · have hw' : s'.ws[i]? = some s'.ws[i] := List.getElem?_eq_getElem hlt
    generalize s'.ws[i] = w at hw'
    have hw : s.ws[i]? = some w := (h.same i hlt).trans hw'
    have hilt : i < s.ws.length := (List.getElem?_eq_some_iff.1 hw).1
    obtain ⟨a, b⟩ := next_keeps (env := env) (clk := clk) hx ht h.sound.inv (fun t q => h.sound.cur i w t q hw) h.calm
      (h.keeps i w hlt hw)
    have e1 : s.step env (i, clk) = ⟨(w.next env clk s.st).1, s.ws.set i (w.next env clk s.st).2⟩ := by
      simp only [WSys.step, hw]
    have e2 : s'.step env (i, clk) = ⟨(w.next env clk s.st).1, s'.ws.set i (w.next env clk s.st).2⟩ := by
      simp only [WSys.step, hw', h.store]
    rw [e1] at hsound
    rw [e1, e2]
    refine ⟨⟨rfl, fun n hn => ?_, hsound, fun x hx => (a x hx).2, fun n v hn hv => ?_, fun n v hn hv => ?_⟩, List.length_set ..⟩
    · have hn : n < (s'.ws.set i (w.next env clk s.st).2).length := hn
      rw [List.length_set] at hn
      show (s.ws.set i _)[n]? = (s'.ws.set i _)[n]?
      by_cases hni : i = n
      · subst hni; rw [List.getElem?_set_self hilt, List.getElem?_set_self hlt]
      · rw [List.getElem?_set_ne hni, List.getElem?_set_ne hni]; exact h.same n hn
    · have hn : n < (s'.ws.set i (w.next env clk s.st).2).length := hn
      rw [List.length_set] at hn
      have hv : (s.ws.set i (w.next env clk s.st).2)[n]? = some v := hv
      by_cases hni : i = n
      · subst hni; rw [List.getElem?_set_self hilt] at hv; cases hv; exact b
      · rw [List.getElem?_set_ne hni] at hv; exact (h.keeps n v hn hv).mono fun x hx => (a x hx).1
    · have hn : (s'.ws.set i (w.next env clk s.st).2).length ≤ n := hn
      rw [List.length_set] at hn
      have hv : (s.ws.set i (w.next env clk s.st).2)[n]? = some v := hv
      rw [List.getElem?_set_ne (by omega)] at hv; exact (h.checks n v hn hv).mono fun x hx => (a x hx).1
  · have e2 : s'.step env (i, clk) = s' := by
      simp only [WSys.step, List.getElem?_eq_none (Nat.not_lt.1 hlt)]
    rw [e2]
    refine ⟨?_, rfl⟩
    cases hw : s.ws[i]? with
    | none =>
      have e1 : s.step env (i, clk) = s := by simp only [WSys.step, hw]
      rw [e1]; exact h
    | some w =>
      have hilt : i < s.ws.length := (List.getElem?_eq_some_iff.1 hw).1
      obtain ⟨a, b⟩ := next_checks (env := env) (clk := clk) ht ht' h.sound.inv h.calm (h.checks i w (Nat.not_lt.1 hlt) hw)
        (fun p ts => hj w p ts hw)
      have e1 : s.step env (i, clk) = ⟨s.st, s.ws.set i (w.next env clk s.st).2⟩ := by
        simp only [WSys.step, hw, a]
      rw [e1] at hsound
      rw [e1]
      refine ⟨h.store, fun n hn => ?_, hsound, h.calm, fun n v hn hv => ?_, fun n v hn hv => ?_⟩
      · show (s.ws.set i _)[n]? = _
        rw [List.getElem?_set_ne (by omega)]; exact h.same n hn
      · have hv : (s.ws.set i (w.next env clk s.st).2)[n]? = some v := hv
        rw [List.getElem?_set_ne (by omega)] at hv; exact h.keeps n v hn hv
      · have hv : (s.ws.set i (w.next env clk s.st).2)[n]? = some v := hv
        by_cases hni : i = n
        · subst hni; rw [List.getElem?_set_self hilt] at hv; cases hv; exact b
        · rw [List.getElem?_set_ne hni] at hv; exact h.checks n v hn hv

theorem alongside_run {env : Env} {terms : List Visitor} {T : Nat} (hx : ∀ x ∈ terms, x.Proper) (evs : List (Nat × Clock))
    {s s' : WSys} (h : Alongside env terms T s s') (ht : ∀ e ∈ evs, T ≤ e.2.ms ∧ e.2.ms ≤ T + 60000) (hj : FromTable env s evs) :
    Alongside env terms T (s.run env evs) (s'.run env evs) ∧ (s'.run env evs).ws.length = s'.ws.length := by
  induction evs generalizing s s' with
  | nil => exact ⟨h, rfl⟩
  | cons e evs ih =>
    obtain ⟨t1, t2⟩ := ht e List.mem_cons_self
    obtain ⟨a, b⟩ := alongside_step h hx e t1 t2 (hj [] e evs rfl)
    obtain ⟨c, d⟩ := ih a (fun e he => ht e (List.mem_cons_of_mem _ he)) (by
      intro pre e' post heq
      exact hj (e :: pre) e' post (by rw [heq]; rfl))
    exact ⟨c, d.trans b⟩

/-- C157: terminals come as in C156, everything happens within a minute, and now their keepalive checks run too, any number
of them, each beginning at any time at which the job of the terminal is in the table, their steps anywhere among the others.
No check finds anything to do, none panics, and every terminal is served and known as if there were no checks. -/
theorem C157_calm (env : Env) (before : List CEv) (terms : List Visitor) (others : List (List Task)) (checks : List Str)
    (evs : List (Nat × Clock)) (T : Nat) (hx : ∀ x ∈ terms, x.Proper) (hph : (terms.map (·.phone)).Nodup)
    (hpl : (terms.map (·.reg.plate)).Nodup) (hadd : ∀ ts ∈ others, ∀ t ∈ ts, t.Addressed)
    (hnew : ∀ t, (.spawn t ∈ before ∨ t ∈ others.flatten) → ∀ x ∈ terms, t.phone ≠ x.phone ∧ plateOf t ≠ some x.reg.plate)
    (hchecks : ∀ p ∈ checks, ∃ x ∈ terms, x.phone = p) (hT : ∀ e ∈ evs, T ≤ e.2.ms ∧ e.2.ms ≤ T + 60000)
    (htab : FromTable env (WSys.begin (CSys.start.run env before).st
      (terms.map (·.script) ++ others ++ checks.map fun p => [.check p])) evs) :
    let s := (WSys.begin (CSys.start.run env before).st
      (terms.map (·.script) ++ others ++ checks.map fun p => [.check p])).run env evs
    (∀ (i : Nat) (w : Worker), s.ws[terms.length + others.length + i]? = some w → ∀ d ∈ w.done, d.2 = .ok none) ∧
    ∀ (j : Nat) (x : Visitor), terms[j]? = some x → 10 * x.script.length ≤ (timesOf j evs).length →
      (s.ws[j]?).map (·.done) = some (x.script.zip x.welcome) ∧
        ∃ d, s.st.look x.phone = some d ∧ s.st.lookPlate x.reg.plate = some d ∧ x.Known d := by
  intro s
  have hi0 := (ok_run (ok_start env) before).1.inv
  have hlen : (WSys.begin (CSys.start.run env before).st (terms.map (·.script) ++ others)).ws.length =
      terms.length + others.length := by simp [WSys.begin]
  have h0 : Alongside env terms T (WSys.begin (CSys.start.run env before).st
      (terms.map (·.script) ++ others ++ checks.map fun p => [.check p]))
      (WSys.begin (CSys.start.run env before).st (terms.map (·.script) ++ others)) := by
    have hlt : ∀ {i : Nat}, i < terms.length + others.length → i < (terms.map (·.script) ++ others).length := by
      intro i hi; simpa using hi
    refine ⟨rfl, fun i hi => ?_, sound_begin hi0 _, fun x hx => calm_before fun t ht => (hnew t (.inl ht) x hx).1,
      fun i w hi hw => ?_, fun i w hi hw => ?_⟩
    · rw [hlen] at hi
      simp only [WSys.begin, List.getElem?_map]
      rw [List.getElem?_append_left (hlt hi)]
    · rw [hlen] at hi
      simp only [WSys.begin, List.getElem?_map] at hw
      rw [List.getElem?_append_left (hlt hi), Option.map_eq_some_iff] at hw
      obtain ⟨ts, hts, rfl⟩ := hw
      refine ⟨fun t ht x hxm hp => ?_, fun t q e => by cases e⟩
      rcases List.mem_append.1 (List.mem_of_getElem? hts) with h | h
      · obtain ⟨y, hy, rfl⟩ := List.mem_map.1 h
        have hyx : y.phone = x.phone := (script_phone (hx y hy) ht).symm.trans hp
        obtain ⟨a, ha⟩ := List.getElem?_of_mem hy
        obtain ⟨b, hb⟩ := List.getElem?_of_mem hxm
        have hab : a = b := (List.getElem?_inj (by rw [List.length_map]; exact (List.getElem?_eq_some_iff.1 ha).1) hph).1
          (by rw [List.getElem?_map, List.getElem?_map, ha, hb, Option.map_some, Option.map_some, hyx])
        subst hab
        rw [ha] at hb; cases hb
        exact ht
      · exact absurd hp (hnew t (.inr (List.mem_flatten.2 ⟨ts, h, ht⟩)) x hxm).1
    · rw [hlen] at hi
      simp only [WSys.begin, List.getElem?_map] at hw
      rw [List.getElem?_append_right (by simpa using hi), Option.map_eq_some_iff] at hw
      obtain ⟨ts, hts, rfl⟩ := hw
      obtain ⟨p, hp, rfl⟩ := List.mem_map.1 (List.mem_of_getElem? hts)
      obtain ⟨x, hxm, rfl⟩ := hchecks p hp
      exact ⟨x, hxm, .inl rfl⟩
  obtain ⟨hb, hbl⟩ := alongside_run hx evs h0 hT htab
  refine ⟨fun i w hw d hd => ?_, fun j x hj henough => ?_⟩
  · obtain ⟨x, -, rfl | ⟨q, rfl, -⟩ | rfl⟩ := hb.checks _ w (by rw [hbl, hlen]; omega) hw
    · cases hd
    · cases hd
    · simp only [List.mem_singleton] at hd; rw [hd]
  · have key := C156_welcome env before terms others evs hx hph hpl hadd hnew j x hj henough
    have hjl : j < terms.length := (List.getElem?_eq_some_iff.1 hj).1
    have e1 : s.ws[j]? = _ := hb.same j (by rw [hbl, hlen]; omega)
    simp only at key
    rw [hb.store, ← e1] at key
    exact key

/-- The condition, computed along a schedule. -/
def fromTableB (env : Env) : WSys → List (Nat × Clock) → Bool
  | _, [] => true
  | s, e :: evs => (match s.ws[e.1]? with
      | some ⟨.check p :: _, none, _⟩ => s.st.jobs.contains p
      | _ => true) && fromTableB env (s.step env e) evs

theorem fromTable_of {env : Env} (evs : List (Nat × Clock)) (s : WSys) (h : fromTableB env s evs = true) :
    FromTable env s evs := by
  induction evs generalizing s with
  | nil => intro pre e post heq; exact absurd heq (by simp)
  | cons e evs ih =>
    simp only [fromTableB, Bool.and_eq_true] at h
    intro pre e' post heq w p ts hw hcur htodo
    cases pre with
    | nil =>
      cases heq
      obtain ⟨todo, cur, done⟩ := w
      simp only at hcur htodo
      subst hcur htodo
      have hw : s.ws[e.1]? = some ⟨.check p :: ts, none, done⟩ := hw
      have h1 := h.1
      rw [hw] at h1
      exact List.contains_iff_mem.1 h1
    | cons e'' pre =>
      cases heq
      exact ih _ h.2 pre e' post rfl w p ts hw hcur htodo

/-- The terminals of C156 with three checks, of which two begin before the terminal has authenticated and the third at
the end of the minute. -/
def calmEvs : List (Nat × Clock) :=
  (List.range 13).flatMap (fun n => [(1, demoClk (n + 3)), (0, demoClk n), (2, demoClk (n + 1))]) ++
    (List.range 30).flatMap (fun n => [(1, demoClk (n + 13)), (3, demoClk 500), (0, demoClk (n + 50)), (4, demoClk (n + 1))]) ++
      (List.range 9).map fun n => (5, demoClk (59000 + n))

def calmChecks : List Str := [(hdr2013 0).phone, (hdr2019 0).phone, (hdr2013 0).phone]

example :
    let s := (WSys.begin (CSys.start.run goEnv []).st
      (manyTerms.map (·.script) ++ manyOthers ++ calmChecks.map fun p => [.check p])).run goEnv calmEvs
    (∀ (i : Nat) (w : Worker), s.ws[manyTerms.length + manyOthers.length + i]? = some w → ∀ d ∈ w.done, d.2 = .ok none) ∧
    ∀ (j : Nat) (x : Visitor), manyTerms[j]? = some x → 10 * x.script.length ≤ (timesOf j calmEvs).length →
      (s.ws[j]?).map (·.done) = some (x.script.zip x.welcome) ∧
        ∃ d, s.st.look x.phone = some d ∧ s.st.lookPlate x.reg.plate = some d ∧ x.Known d := by
  refine C157_calm goEnv [] manyTerms manyOthers calmChecks calmEvs 0 ?_ (by decide +kernel) (by decide +kernel) ?_ ?_ ?_
    (by decide +kernel) (fromTable_of _ _ (by decide +kernel))
  · intro y hy
    simp only [manyTerms, List.mem_cons, List.not_mem_nil, or_false] at hy
    rcases hy with rfl | rfl
    · exact ⟨rfl, rfl, (by intro z hz; simp only [List.mem_cons, List.not_mem_nil, or_false] at hz; rcases hz with rfl | rfl <;> rfl),
        by decide +kernel⟩
    · exact ⟨rfl, rfl, (by intro z hz; simp only [List.mem_cons, List.not_mem_nil, or_false] at hz; subst hz; rfl), rfl⟩
  · intro ts hts t ht
    simp only [manyOthers, List.mem_cons, List.not_mem_nil, or_false] at hts
    subst hts
    simp only [List.mem_cons, List.not_mem_nil, or_false] at ht
    rcases ht with rfl | rfl <;> trivial
  · intro t ht y hy
    simp only [manyOthers, List.flatten_cons, List.flatten_nil, List.append_nil, List.mem_cons, List.not_mem_nil, or_false,
      false_or] at ht
    simp only [manyTerms, List.mem_cons, List.not_mem_nil, or_false] at hy
    rcases ht with rfl | rfl <;> rcases hy with rfl | rfl <;> exact ⟨by decide +kernel, by intro h; cases h⟩
  · intro p hp
    simp only [calmChecks, List.mem_cons, List.not_mem_nil, or_false] at hp
    rcases hp with rfl | rfl | rfl
    · exact ⟨_, List.mem_cons_self, rfl⟩
    · exact ⟨_, List.mem_cons_of_mem _ List.mem_cons_self, rfl⟩
    · exact ⟨_, List.mem_cons_self, rfl⟩

/-- Both terminals make enough steps in it, and all three checks come to their end. -/
example : 10 * 4 ≤ (timesOf 0 calmEvs).length ∧ 10 * 3 ≤ (timesOf 1 calmEvs).length ∧
    (((WSys.begin (CSys.start.run goEnv []).st
      (manyTerms.map (·.script) ++ manyOthers ++ calmChecks.map fun p => [.check p])).run goEnv calmEvs).ws.map
        fun w => w.done.length) = [4, 3, 1, 1, 1, 1] := by
  decide +kernel

end JT808
