import Verif.Model.Lines
import Verif.Props.Calm
import Verif.Props.Framing
/-
Connections read byte by byte do what the goroutines of Verif/Model/Workers.lean do with the messages.
-/
namespace JT808
open Spec

variable {env : Env} {clk : Clock} {st : Store}

/-! ### Frames and messages -/

theorem received_iff {now : Civil} {c : Conn} {f : List UInt8} {t : Task} :
    received env now c f = some (some t) ↔ ∃ h m, t = .msg c h m ∧ Holds env now f h m := by
  unfold received Holds
  constructor
  · intro e
    cases hd : decodeFrame env f with
    | err x => rw [hd] at e; simp only at e; split at e <;> cases e
    | panic => rw [hd] at e; cases e
    | ok pd =>
      rw [hd] at e
      simp only at e
      split at e
      · cases e
      rename_i hfr
      cases ht : MType.ofID pd.header.msgID with
      | none => rw [ht] at e; cases e
      | some ty =>
        rw [ht] at e
        simp only at e
        cases hm : ty.decode env now pd.header pd.body 0 with
        | err x => rw [hm] at e; simp only at e; split at e <;> cases e
        | panic => rw [hm] at e; cases e
        | ok mj =>
          obtain ⟨m, k⟩ := mj
          rw [hm] at e
          cases e
          exact ⟨_, m, rfl, pd, ty, k, rfl, rfl, by simpa using hfr, ht, hm⟩
  · rintro ⟨h, m, rfl, pd, ty, k, e1, e2, e3, e4, e5⟩
    subst e2
    rw [e1]
    simp only [e3, e4, e5]
    rfl

/-- The frames of the bytes to come. -/
def cut : RecvSt → List UInt8 → List (List UInt8)
  | _, [] => []
  | r, b :: rest =>
    match recvStep r b with
    | .inl f => f :: cut RecvSt.fresh rest
    | .inr r' => cut r' rest

theorem cut_loop (e : Err) (bytes : List UInt8) (r : RecvSt) :
    (∀ f rest, recvLoop e r bytes = (.ok f, rest) → cut r bytes = f :: cut RecvSt.fresh rest) ∧
      (∀ rest, recvLoop e r bytes = (.err e, rest) → cut r bytes = []) := by
  induction bytes generalizing r with
  | nil =>
    refine ⟨fun f rest h => ?_, fun _ _ => rfl⟩
    simp [recvLoop] at h
  | cons b bytes ih =>
    have e1 : recvLoop e r (b :: bytes) = match recvStep r b with
      | .inl f => (.ok f, bytes)
      | .inr r' => recvLoop e r' bytes := rfl
    have e2 : cut r (b :: bytes) = match recvStep r b with
      | .inl f => f :: cut RecvSt.fresh bytes
      | .inr r' => cut r' bytes := rfl
    rw [e1, e2]
    cases recvStep r b with
    | inl f =>
      refine ⟨fun f' rest h => ?_, fun rest h => ?_⟩
      · cases h; rfl
      · simp at h
    | inr r' => exact ih r'

theorem cut_recvs {e : Err} {bytes : List UInt8} {fs : List (List UInt8)} {rest : List UInt8} (h : Recvs e bytes fs rest)
    (hr : recv e rest = (.err e, [])) : cut RecvSt.fresh bytes = fs := by
  induction h with
  | nil s => exact (cut_loop e s _).2 _ hr
  | cons h1 _ ih => exact ((cut_loop e _ _).1 _ _ h1).trans (by rw [ih hr])

/-- Every stream has a list of frames. -/
theorem cut_is_recvs (e : Err) (bytes : List UInt8) : ∃ rest, Recvs e bytes (cut RecvSt.fresh bytes) rest ∧
    recv e rest = (.err e, []) := by
  have key : ∀ (n : Nat) (bytes : List UInt8), bytes.length ≤ n → ∃ rest, Recvs e bytes (cut RecvSt.fresh bytes) rest ∧
      recv e rest = (.err e, []) := by
    have hl : ∀ (bytes : List UInt8) (r : RecvSt), (∃ f rest, recvLoop e r bytes = (.ok f, rest) ∧ rest.length < bytes.length) ∨
        recvLoop e r bytes = (.err e, []) := by
      intro bytes
      induction bytes with
      | nil => intro r; exact .inr rfl
      | cons b bytes ih =>
        intro r
        unfold recvLoop
        cases recvStep r b with
        | inl f => exact .inl ⟨f, bytes, rfl, Nat.lt_succ_self _⟩
        | inr r' =>
          rcases ih r' with ⟨f, rest, h1, h2⟩ | h
          · exact .inl ⟨f, rest, h1, Nat.lt_succ_of_lt h2⟩
          · exact .inr h
    intro n
    induction n with
    | zero =>
      intro bytes hb
      have : bytes = [] := List.length_eq_zero_iff.1 (by omega)
      subst this
      exact ⟨[], .nil _, rfl⟩
    | succ n ih =>
      intro bytes hb
      rcases hl bytes RecvSt.fresh with ⟨f, rest, h1, h2⟩ | h
      · obtain ⟨r, h3, h4⟩ := ih rest (by omega)
        refine ⟨r, ?_, h4⟩
        rw [(cut_loop e bytes _).1 f rest h1]
        exact .cons h1 h3
      · exact ⟨bytes, by rw [(cut_loop e bytes _).2 _ h]; exact .nil _, h⟩
  exact key _ bytes (Nat.le_refl _)

/-! ### Steps -/

/-- The messages a goroutine has begun with. -/
def Line.taken (l : Line) : List Task := l.done.map (·.1) ++ (l.cur.map (·.1)).toList

/-- The worker and the line are at the same point of the same messages. -/
structure Line.Like (l : Line) (jobs : List Task) (w : Worker) : Prop where
  cur : w.cur = l.cur
  done : w.done = l.done
  todo : l.ended = false → l.taken ++ w.todo = jobs

theorem goesOn_of_sends {r : Res (Option Out)} (h : (putsOut env r).2 = false) : goesOn r = true := by
  cases r with
  | ok o => rfl
  | err e => simp only [putsOut] at h; simp [goesOn, h]
  | panic => cases h

/-- A step of a line is one of the worker, or the worker waits. -/
theorem next_like {l : Line} {jobs : List Task} {w : Worker} (h : l.Like jobs w)
    (hp : (l.next env clk st).2.taken <+: jobs) :
    ((l.next env clk st).1 = st ∧ (l.next env clk st).2.Like jobs w ∧
        ((l.next env clk st).2.ended = true ∨ (l.next env clk st).2.input.length + 1 = l.input.length ∨
          (l.input = [] ∧ l.todo = [] ∧ l.cur = none ∧ (l.next env clk st).2 = l))) ∨
      ((l.next env clk st).1 = (w.next env clk st).1 ∧ (l.next env clk st).2.Like jobs (w.next env clk st).2 ∧
        (l.next env clk st).2.input.length ≤ l.input.length ∧
        (l.cur = none → l.ended = false ∧ ∀ p us, w.todo = .check p :: us → ∃ vs, l.todo = .check p :: vs)) := by
  obtain ⟨conn, todo, input, recv, cur, done, output, ended⟩ := l
  obtain ⟨wt, wc, wd⟩ := w
  obtain ⟨h1, h2, h3⟩ := h
  simp only at h1 h2 h3
  subst h1 h2
  cases ended with
  | true => exact .inl ⟨rfl, ⟨rfl, rfl, fun e => by cases e⟩, .inl rfl⟩
  | false =>
    have h3 := h3 rfl
    -- taking a message up
    have take : ∀ t, (wd.map (·.1) ++ [t]) <+: jobs → wc = none → ∃ ts, wt = t :: ts ∧ wd.map (·.1) ++ [t] ++ ts = jobs := by
      rintro t ⟨ts, hts⟩ rfl
      refine ⟨ts, ?_, hts⟩
      rw [← h3] at hts
      simp only [Line.taken, Option.map_none, Option.toList_none, List.append_nil, List.append_assoc] at hts
      exact (List.append_cancel_left hts).symm
    cases wc with
    | some tq =>
      obtain ⟨t, q⟩ := tq
      cases q with
      | ret r =>
        refine .inr ⟨rfl, ⟨rfl, rfl, fun e => ?_⟩, Nat.le_refl _, fun e => by cases e⟩
        have hg : goesOn r = true := goesOn_of_sends (env := env) e
        simp only [Line.next, Line.taken, Worker.next, hg, if_true]
        simpa [Line.taken] using h3
      | step f k =>
        refine .inr ⟨rfl, ⟨rfl, rfl, fun e => ?_⟩, Nat.le_refl _, fun e => by cases e⟩
        simpa [Line.next, Line.taken, Worker.next] using h3
    | none =>
      cases todo with
      | cons t ts =>
        obtain ⟨us, rfl, hus⟩ := take t (by simpa [Line.next, Line.taken] using hp) rfl
        refine .inr ⟨rfl, ⟨rfl, rfl, fun e => ?_⟩, Nat.le_refl _, fun _ => ⟨rfl, fun p vs e => ?_⟩⟩
        · simpa [Line.next, Line.taken, Worker.next] using hus
        · cases e; exact ⟨ts, rfl⟩
      | nil =>
        cases input with
        | nil => exact .inl ⟨rfl, ⟨rfl, rfl, fun _ => h3⟩, .inr (.inr ⟨rfl, rfl, rfl, rfl⟩)⟩
        | cons b rest =>
          cases hr : recvStep recv b with
          | inr r =>
            simp only [Line.next, hr]
            exact .inl ⟨rfl, ⟨rfl, rfl, fun _ => h3⟩, .inr (.inl rfl)⟩
          | inl f =>
            cases hf : received env clk.civil conn f with
            | none =>
              simp only [Line.next, hr, hf]
              exact .inl ⟨rfl, ⟨rfl, rfl, fun e => by cases e⟩, .inl rfl⟩
            | some o =>
              cases o with
              | none =>
                simp only [Line.next, hr, hf]
                exact .inl ⟨rfl, ⟨rfl, rfl, fun _ => h3⟩, .inr (.inl rfl)⟩
              | some t =>
                simp only [Line.next, hr, hf] at hp ⊢
                obtain ⟨us, rfl, hus⟩ := take t (by simpa [Line.taken] using hp) rfl
                refine .inr ⟨rfl, ⟨rfl, rfl, fun e => ?_⟩, Nat.le_succ _, fun _ => ⟨trivial, fun p vs e => ?_⟩⟩
                · simpa [Line.taken, Worker.next] using hus
                · cases e
                  obtain ⟨h, m, e, -⟩ := received_iff.1 hf
                  cases e

theorem next_taken (l : Line) : l.taken <+: (l.next env clk st).2.taken := by
  obtain ⟨conn, todo, input, recv, cur, done, output, ended⟩ := l
  cases ended with
  | true => exact List.prefix_refl _
  | false =>
    cases cur with
    | some tq =>
      obtain ⟨t, q⟩ := tq
      cases q with
      | ret r => simp [Line.next, Line.taken]
      | step f k => exact List.prefix_refl _
    | none =>
      cases todo with
      | cons t ts => simp [Line.next, Line.taken]
      | nil =>
        cases input with
        | nil => exact List.prefix_refl _
        | cons b rest =>
          cases hr : recvStep recv b with
          | inr r => simp only [Line.next, hr]; exact List.prefix_refl _
          | inl f =>
            cases hf : received env clk.civil conn f with
            | none => simp only [Line.next, hr, hf]; exact List.prefix_refl _
            | some o =>
              cases o with
              | none => simp only [Line.next, hr, hf]; exact List.prefix_refl _
              | some t => simp [Line.next, hr, hf, Line.taken]

/-- Something every step of a line keeps holds at the end. -/
theorem lines_run {P : Nat → Line → Prop} (hP : ∀ i clk st l, P i l → P i (l.next env clk st).2) (evs : List (Nat × Clock))
    (s : LSys) (h : ∀ (i : Nat) l, s.ls[i]? = some l → P i l) : ∀ (i : Nat) l, (s.run env evs).ls[i]? = some l → P i l := by
  induction evs generalizing s with
  | nil => exact h
  | cons e evs ih =>
    refine ih (s.step env e) fun i l hl => ?_
    unfold LSys.step at hl
    cases hi : s.ls[e.1]? with
    | none => rw [hi] at hl; exact h i l hl
    | some y =>
      rw [hi] at hl
      simp only at hl
      by_cases he : e.1 = i
      · subst he
        rw [List.getElem?_set_self (List.getElem?_eq_some_iff.1 hi).1] at hl
        cases hl
        exact hP _ _ _ _ (h _ _ hi)
      · rw [List.getElem?_set_ne he] at hl
        exact h i l hl

theorem lines_length (evs : List (Nat × Clock)) (s : LSys) : (s.run env evs).ls.length = s.ls.length := by
  induction evs generalizing s with
  | nil => rfl
  | cons e evs ih =>
    refine (ih (s.step env e)).trans ?_
    unfold LSys.step
    split
    · rfl
    · exact List.length_set ..

theorem taken_run (evs : List (Nat × Clock)) (s : LSys) (i : Nat) (l : Line) (hl : s.ls[i]? = some l) :
    ∃ l', (s.run env evs).ls[i]? = some l' ∧ l.taken <+: l'.taken := by
  have hlt : i < (s.run env evs).ls.length := by rw [lines_length]; exact (List.getElem?_eq_some_iff.1 hl).1
  refine ⟨_, List.getElem?_eq_getElem hlt, ?_⟩
  refine lines_run (env := env) (P := fun k l' => k = i → l.taken <+: l'.taken)
    (fun k clk st l' h e => (h e).trans (next_taken l')) evs s ?_ i _ (List.getElem?_eq_getElem hlt) rfl
  rintro k l' hk rfl
  rw [hl] at hk
  cases hk
  exact List.prefix_refl _

/-! ### Runs -/

/-- The two systems at the same point. -/
structure LSys.Like (s : LSys) (jobs : List (List Task)) (w : WSys) : Prop where
  store : w.st = s.st
  len : w.ws.length = s.ls.length
  line : ∀ (i : Nat) l ts x, s.ls[i]? = some l → jobs[i]? = some ts → w.ws[i]? = some x → l.Like ts x
  jobs : jobs.length = s.ls.length

/-- A line that waits for bytes. -/
def Line.Idle (l : Line) : Prop := l.input = [] ∧ l.todo = [] ∧ l.cur = none

theorem next_idle {l : Line} (h : l.Idle) : (l.next env clk st).2 = l ∧ (l.next env clk st).1 = st := by
  obtain ⟨conn, todo, input, recv, cur, done, output, ended⟩ := l
  obtain ⟨rfl, rfl, rfl⟩ := h
  cases ended <;> exact ⟨rfl, rfl⟩

theorem timesOf_cons (j : Nat) (e : Nat × Clock) (evs : List (Nat × Clock)) :
    (timesOf j (e :: evs)).length = (timesOf j evs).length + if e.1 = j then 1 else 0 := by
  unfold timesOf
  by_cases h : e.1 = j <;> simp [h]

namespace Spec

/-- Keepalive checks begin only for phones whose job is in the table. -/
def LinesFromTable (env : Env) (s : LSys) (evs : List (Nat × Clock)) : Prop :=
  ∀ pre e post, evs = pre ++ e :: post → ∀ l p ts, (s.run env pre).ls[e.1]? = some l → l.ended = false → l.cur = none →
    l.todo = .check p :: ts → p ∈ (s.run env pre).st.jobs

end Spec

theorem LinesFromTable.tail {s : LSys} {e : Nat × Clock} {evs : List (Nat × Clock)} (h : LinesFromTable env s (e :: evs)) :
    LinesFromTable env (s.step env e) evs := by
  intro pre e' post heq
  exact h (e :: pre) e' post (by rw [heq]; rfl)

theorem FromTable.cons {w : WSys} {e : Nat × Clock} {evs : List (Nat × Clock)}
    (h : ∀ x p ts, w.ws[e.1]? = some x → x.cur = none → x.todo = .check p :: ts → p ∈ w.st.jobs)
    (ht : FromTable env (w.step env e) evs) : FromTable env w (e :: evs) := by
  intro pre e' post heq
  cases pre with
  | nil => cases heq; exact h
  | cons a pre => cases heq; exact ht pre e' post rfl

/-- A schedule of the lines is one of the workers, in which every line that neither ended nor waits has made all its steps
except for reading. -/
theorem lines_refine (jobs : List (List Task)) (evs : List (Nat × Clock)) (s : LSys) (w : WSys) (h : s.Like jobs w)
    (hp : ∀ (i : Nat) l ts, (s.run env evs).ls[i]? = some l → jobs[i]? = some ts → l.taken <+: ts) :
    ∃ evs', (s.run env evs).Like jobs (w.run env evs') ∧ (∀ (i : Nat) l l', s.ls[i]? = some l →
      (s.run env evs).ls[i]? = some l' → l'.ended = true ∨ l'.Idle ∨
        (timesOf i evs).length + l'.input.length ≤ (timesOf i evs').length + l.input.length) ∧
      (∀ e ∈ evs', e ∈ evs) ∧ (LinesFromTable env s evs → FromTable env w evs') := by
  induction evs generalizing s w with
  | nil =>
    refine ⟨[], h, fun i l l' h1 h2 => .inr (.inr ?_), fun _ h => h, fun _ pre e post heq => absurd heq (by simp)⟩
    have h2 : s.ls[i]? = some l' := h2
    rw [h1] at h2; cases h2
    exact Nat.le_refl _
  | cons e evs ih =>
    obtain ⟨i, clk⟩ := e
    cases hl : s.ls[i]? with
    | none =>
      have hst : s.step env (i, clk) = s := by simp only [LSys.step, hl]
      obtain ⟨evs', h1, h2, h5, h6⟩ := ih s w h (by
        have : s.run env ((i, clk) :: evs) = s.run env evs := by show LSys.run env (s.step env (i, clk)) evs = _; rw [hst]
        rw [← this]; exact hp)
      have : s.run env ((i, clk) :: evs) = s.run env evs := by show LSys.run env (s.step env (i, clk)) evs = _; rw [hst]
      rw [this]
      refine ⟨evs', h1, fun k l l' h3 h4 => ?_, fun e he => List.mem_cons_of_mem _ (h5 e he), fun ht => h6 ?_⟩
      rotate_left
      · have := LinesFromTable.tail ht
        rw [hst] at this; exact this
      rw [timesOf_cons]
      have hne : ¬ i = k := by rintro rfl; rw [hl] at h3; cases h3
      simp only [if_neg hne]
      exact h2 k l l' h3 h4
    | some l =>
      have hilt := (List.getElem?_eq_some_iff.1 hl).1
      have hst : s.step env (i, clk) = ⟨(l.next env clk s.st).1, s.ls.set i (l.next env clk s.st).2⟩ := by
        simp only [LSys.step, hl]
      have hrun : s.run env ((i, clk) :: evs) = LSys.run env (s.step env (i, clk)) evs := rfl
      obtain ⟨x, hx⟩ : ∃ x, w.ws[i]? = some x := ⟨_, List.getElem?_eq_getElem (by rw [h.len]; exact hilt)⟩
      obtain ⟨ts, hts⟩ : ∃ ts, jobs[i]? = some ts := ⟨_, List.getElem?_eq_getElem (by rw [h.jobs]; exact hilt)⟩
      have hself : (s.step env (i, clk)).ls[i]? = some (l.next env clk s.st).2 := by
        rw [hst]; exact List.getElem?_set_self hilt
      have hother : ∀ {k}, i ≠ k → (s.step env (i, clk)).ls[k]? = s.ls[k]? := by
        intro k hk; rw [hst]; exact List.getElem?_set_ne hk
      have hpre : (l.next env clk s.st).2.taken <+: ts := by
        obtain ⟨l', h1, h2⟩ := taken_run (env := env) evs _ i _ hself
        exact h2.trans (hp i l' ts h1 hts)
      have hlen : (s.step env (i, clk)).ls.length = s.ls.length := by rw [hst]; exact List.length_set ..
      rcases next_like (env := env) (clk := clk) (st := s.st) (h.line i l ts x hl hts hx) hpre with ⟨a1, a2, a3⟩ | ⟨a1, a2, a3, a4⟩
      · have hlike : (s.step env (i, clk)).Like jobs w := by
          refine ⟨by rw [hst]; exact h.store.trans a1.symm, by rw [hlen]; exact h.len, fun k m us y h1 h2 h3 => ?_,
            by rw [hlen]; exact h.jobs⟩
          by_cases hk : i = k
          · subst hk
            rw [hself] at h1; rw [hts] at h2; rw [hx] at h3; cases h1; cases h2; cases h3
            exact a2
          · rw [hother hk] at h1; exact h.line k m us y h1 h2 h3
        obtain ⟨evs', b1, b2, b3, b4⟩ := ih _ w hlike hp
        refine ⟨evs', b1, fun k m m' h1 h2 => ?_, fun e he => List.mem_cons_of_mem _ (b3 e he), fun ht => b4 (LinesFromTable.tail ht)⟩
        rw [timesOf_cons]
        by_cases hk : i = k
        · subst hk
          rw [hl] at h1; cases h1
          rcases a3 with a3 | a3 | ⟨c1, c2, c3, c4⟩
          · left
            exact lines_run (env := env) (P := fun k m => k = i → m.ended = true)
              (fun k clk st m hm e => by
                have hm := hm e
                unfold Line.next
                rw [hm]
                exact hm) evs _ (by
                rintro k m hk rfl
                rw [hself] at hk; cases hk; exact a3) i m' h2 rfl
          · rcases b2 i _ m' hself h2 with h | h | h
            · exact .inl h
            · exact .inr (.inl h)
            · right; right
              simp only [if_true]
              omega
          · right; left
            exact lines_run (env := env) (P := fun k m => k = i → m.Idle)
              (fun k clk st m hm e => by rw [(next_idle (hm e)).1]; exact hm e) evs _ (by
                rintro k m hk rfl
                rw [hself, c4] at hk; cases hk; exact ⟨c1, c2, c3⟩) i m' h2 rfl
        · simp only [if_neg hk]
          exact b2 k m m' (by rw [hother hk]; exact h1) h2
      · have hw : w.step env (i, clk) = ⟨(x.next env clk s.st).1, w.ws.set i (x.next env clk s.st).2⟩ := by
          simp only [WSys.step, hx, h.store]
        have hwlt := (List.getElem?_eq_some_iff.1 hx).1
        have hlike : (s.step env (i, clk)).Like jobs (w.step env (i, clk)) := by
          refine ⟨by rw [hst, hw]; exact a1.symm, by rw [hlen, hw]; exact (List.length_set ..).trans h.len,
            fun k m us y h1 h2 h3 => ?_, by rw [hlen]; exact h.jobs⟩
          rw [hw] at h3
          have h3 : (w.ws.set i (x.next env clk s.st).2)[k]? = some y := h3
          by_cases hk : i = k
          · subst hk
            rw [hself] at h1; rw [hts] at h2; rw [List.getElem?_set_self hwlt] at h3; cases h1; cases h2; cases h3
            exact a2
          · rw [hother hk] at h1; rw [List.getElem?_set_ne hk] at h3; exact h.line k m us y h1 h2 h3
        obtain ⟨evs', b1, b2, b3, b4⟩ := ih _ _ hlike hp
        refine ⟨(i, clk) :: evs', b1, fun k m m' h1 h2 => ?_, fun e he => ?_, fun ht => FromTable.cons ?_ (b4 (LinesFromTable.tail ht))⟩
        rotate_left
        · rcases List.mem_cons.1 he with rfl | he
          · exact List.mem_cons_self
          · exact List.mem_cons_of_mem _ (b3 e he)
        · intro y p us h1 h2 h3
          have h1 : w.ws[i]? = some y := h1
          rw [hx] at h1; cases h1
          have hlc : l.cur = none := (h.line i l ts x hl hts hx).cur.symm.trans h2
          obtain ⟨c1, c2⟩ := a4 hlc
          obtain ⟨vs, c3⟩ := c2 p us h3
          rw [h.store]
          exact ht [] (i, clk) evs rfl l p vs hl c1 hlc c3
        rw [timesOf_cons, timesOf_cons]
        by_cases hk : i = k
        · subst hk
          rw [hl] at h1; cases h1
          rcases b2 i _ m' hself h2 with h | h | h
          · exact .inl h
          · exact .inr (.inl h)
          · right; right
            simp only [if_true]
            omega
        · simp only [if_neg hk]
          exact b2 k m m' (by rw [hother hk]; exact h1) h2

end JT808
