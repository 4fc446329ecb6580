import Verif.Model.Workers
import Verif.Props.Times
/-
Runs of goroutines that handle their messages one after another are runs in which the goroutines of a message take turns.
-/
namespace JT808
open Spec

/-- The system of the messages taken up so far. -/
def CSys.of (env : Env) (st : Store) (tasks : List Task) : CSys := ⟨st, tasks.map fun t => (t, t.prog env)⟩

theorem run_extend {env : Env} (evs : List CEv) (s : CSys) (x : Task × Prog)
    (h : ∀ e ∈ evs, ∃ i clk, e = .run i clk ∧ i < s.threads.length) :
    (CSys.mk s.st (s.threads ++ [x])).run env evs = ⟨(s.run env evs).st, (s.run env evs).threads ++ [x]⟩ ∧
      (s.run env evs).threads.length = s.threads.length := by
  induction evs generalizing s with
  | nil => exact ⟨rfl, rfl⟩
  | cons e evs ih =>
    obtain ⟨i, clk, rfl, hi⟩ := h e List.mem_cons_self
    have e1 : s.threads[i]? = some s.threads[i] := List.getElem?_eq_getElem hi
    have e2 : (CSys.mk s.st (s.threads ++ [x])).step env (.run i clk) =
        ⟨(s.step env (.run i clk)).st, (s.step env (.run i clk)).threads ++ [x]⟩ := by
      simp only [CSys.step, List.getElem?_append_left hi, e1]
      rw [List.set_append_left _ _ hi]
    have e3 : (s.step env (.run i clk)).threads.length = s.threads.length := by
      simp only [CSys.step, e1, List.length_set]
    obtain ⟨a, b⟩ := ih (s.step env (.run i clk)) fun e' h' => by
      obtain ⟨i', clk', h1, h2⟩ := h e' (List.mem_cons_of_mem _ h')
      exact ⟨i', clk', h1, by rw [e3]; exact h2⟩
    rw [crun_cons, crun_cons, e2]
    exact ⟨a, b.trans e3⟩

/-- What is known of a run of workers: `S` are the messages taken up so far, `E` the steps made for them, `num` the number
of the message each worker is at, `fin` the messages of phone `p` handled so far, `last` the one being handled. -/
structure Mirrors (env : Env) (st0 : Store) (jobs : List (List Task)) (p : Str) (j : Nat) (clks : List Clock) (w : WSys)
    (S : List Task) (E : List CEv) (num : Nat → Nat) (fin : List (Visit × Task × Res (Option Out))) (last : Option Visit) :
    Prop where
  small : ∀ e ∈ E, ∃ i clk, e = .run i clk ∧ i < S.length
  store : ((CSys.of env st0 S).run env E).st = w.st
  cur : ∀ (i : Nat) (x : Worker) (t : Task) (q : Prog), w.ws[i]? = some x → x.cur = some (t, q) →
    S[num i]? = some t ∧ ((CSys.of env st0 S).run env E).threads[num i]? = some (t, q)
  apart : ∀ (i i' : Nat) (x x' : Worker), w.ws[i]? = some x → w.ws[i']? = some x' → x.cur ≠ none → x'.cur ≠ none → num i = num i' → i = i'
  visits : E.filter (CEv.concerns (CSys.of env st0 S) p) = visitSteps (fin.map (·.1) ++ last.toList)
  nodup : ((fin.map (·.1) ++ last.toList).map (·.who)).Nodup
  whose : ∀ f ∈ fin, S[f.1.who]? = some f.2.1 ∧ f.2.1.phone = p ∧
    ((CSys.of env st0 S).run env E).returns f.1.who f.2.2 ∧ f.1.clks ≠ [] ∧ ∀ c ∈ f.1.clks, c ∈ clks
  lastOK : ∀ v, last = some v → (∀ c ∈ v.clks, c ∈ clks) ∧ v.who = num j ∧ ∃ x t q, w.ws[j]? = some x ∧ x.cur = some (t, q) ∧ t.phone = p
  curOK : ∀ x t q, w.ws[j]? = some x → x.cur = some (t, q) → t.phone = p → last ≠ none
  done : ∀ x, w.ws[j]? = some x → x.done.filter (fun d => decide (d.1.phone = p)) = fin.map (·.2)
  origin : ∀ t ∈ S, ∃ (i : Nat) (ts : List Task), jobs[i]? = some ts ∧ t ∈ ts
  given : ∀ (i : Nat) (x : Worker), w.ws[i]? = some x → ∃ ts : List Task, jobs[i]? = some ts ∧ (∀ t ∈ x.todo, t ∈ ts) ∧ ∀ t q, x.cur = some (t, q) → t ∈ ts

variable {env : Env} {st0 : Store} {jobs : List (List Task)} {p : Str} {j : Nat} {clks clks' : List Clock} {w : WSys}
  {S : List Task} {E : List CEv} {num : Nat → Nat} {fin : List (Visit × Task × Res (Option Out))} {last : Option Visit}

theorem getset {α : Type} {l : List α} {i : Nat} {x y z : α} {k : Nat} (hi : l[i]? = some x) (h : (l.set i y)[k]? = some z) :
    (k = i ∧ z = y) ∨ (k ≠ i ∧ l[k]? = some z) := by
  have hlt := (List.getElem?_eq_some_iff.1 hi).1
  by_cases hk : k = i
  · subst hk
    rw [List.getElem?_set_self hlt] at h
    cases h
    exact .inl ⟨rfl, rfl⟩
  · rw [List.getElem?_set_ne (Ne.symm hk)] at h
    exact .inr ⟨hk, h⟩

theorem Mirrors.mono (h : Mirrors env st0 jobs p j clks w S E num fin last) (hc : ∀ c ∈ clks, c ∈ clks') :
    Mirrors env st0 jobs p j clks' w S E num fin last :=
  { h with
    whose := fun f hf => by
      obtain ⟨a, b, c, d, e⟩ := h.whose f hf
      exact ⟨a, b, c, d, fun x hx => hc x (e x hx)⟩
    lastOK := fun v hv => by
      obtain ⟨a, b⟩ := h.lastOK v hv
      exact ⟨fun x hx => hc x (a x hx), b⟩ }

/-- The threads of the messages taken up. -/
theorem Mirrors.length (h : Mirrors env st0 jobs p j clks w S E num fin last) :
    ((CSys.of env st0 S).run env E).threads.length = S.length := by
  have := (run_extend (env := env) E (CSys.of env st0 S) (.check [], .ret .panic) fun e he => by
    obtain ⟨i, clk, a, b⟩ := h.small e he
    exact ⟨i, clk, a, by simpa [CSys.of] using b⟩).2
  simpa [CSys.of] using this

theorem of_append (t : Task) : CSys.of env st0 (S ++ [t]) =
    ⟨(CSys.of env st0 S).st, (CSys.of env st0 S).threads ++ [(t, t.prog env)]⟩ := by
  simp [CSys.of]

theorem Mirrors.extend (h : Mirrors env st0 jobs p j clks w S E num fin last) (t : Task) :
    (CSys.of env st0 (S ++ [t])).run env E =
      ⟨((CSys.of env st0 S).run env E).st, ((CSys.of env st0 S).run env E).threads ++ [(t, t.prog env)]⟩ := by
  rw [of_append]
  exact (run_extend (env := env) E (CSys.of env st0 S) _ fun e he => by
    obtain ⟨i, clk, a, b⟩ := h.small e he
    exact ⟨i, clk, a, by simpa [CSys.of] using b⟩).1

theorem concerns_of (i : Nat) (clk : Clock) : CEv.concerns (CSys.of env st0 S) p (.run i clk) =
    match S[i]? with
    | some t => decide (t.phone = p)
    | none => false := by
  simp only [CEv.concerns, CSys.of, List.getElem?_map]
  cases S[i]? <;> rfl

theorem visitSteps_append (us vs : List Visit) : visitSteps (us ++ vs) = visitSteps us ++ visitSteps vs := by
  simp [visitSteps]

/-- A worker takes up a message. -/
theorem Mirrors.take (h : Mirrors env st0 jobs p j clks w S E num fin last)
    (hone : ∀ (i : Nat) (ts : List Task), jobs[i]? = some ts → ∀ t ∈ ts, t.phone = p → i = j)
    {i : Nat} {x : Worker} {t : Task} {ts : List Task} (hi : w.ws[i]? = some x) (hc : x.cur = none) (ht : x.todo = t :: ts) :
    ∃ S' E' num' fin' last', Mirrors env st0 jobs p j clks
      ⟨w.st, w.ws.set i ⟨ts, some (t, t.prog env), x.done⟩⟩ S' E' num' fin' last' := by
  have hlen := h.length
  obtain ⟨js, hjs, htodo, -⟩ := h.given i x hi
  have htm : t ∈ js := htodo t (by rw [ht]; exact List.mem_cons_self)
  have hlast : i = j → last = none := by
    rintro rfl
    cases hl : last with
    | none => rfl
    | some v =>
      obtain ⟨-, -, x', t', q', h1, h2, -⟩ := h.lastOK v hl
      rw [hi] at h1; cases h1
      rw [hc] at h2; cases h2
  have hnum : ∀ k x' t' q', k ≠ i → w.ws[k]? = some x' → x'.cur = some (t', q') → num k < S.length := by
    intro k x' t' q' _ h1 h2
    exact (List.getElem?_eq_some_iff.1 (h.cur k x' t' q' h1 h2).1).1
  have hold : ∀ k : Nat, k < S.length → (S ++ [t])[k]? = S[k]? := fun k hk => List.getElem?_append_left hk
  have hth : ∀ k : Nat, k < S.length → ((CSys.of env st0 (S ++ [t])).run env E).threads[k]? =
      ((CSys.of env st0 S).run env E).threads[k]? := by
    intro k hk
    rw [h.extend]
    exact List.getElem?_append_left (by rw [hlen]; exact hk)
  have hwho : ∀ f ∈ fin, f.1.who < S.length := fun f hf => (List.getElem?_eq_some_iff.1 (h.whose f hf).1).1
  have hsmall : ∀ e ∈ E, ∃ i clk, e = .run i clk ∧ i < (S ++ [t]).length := by
    intro e he
    obtain ⟨k, clk, a, b⟩ := h.small e he
    exact ⟨k, clk, a, by rw [List.length_append]; exact Nat.lt_of_lt_of_le b (Nat.le_add_right _ _)⟩
  have hfilter : E.filter (CEv.concerns (CSys.of env st0 (S ++ [t])) p) = E.filter (CEv.concerns (CSys.of env st0 S) p) := by
    refine List.filter_congr fun e he => ?_
    obtain ⟨k, clk, rfl, b⟩ := h.small e he
    rw [concerns_of, concerns_of, hold k b]
  refine ⟨S ++ [t], E, fun k => if k = i then S.length else num k, fin,
    if t.phone = p then some ⟨S.length, []⟩ else last, ?_⟩
  refine ⟨hsmall, ?_, ?_, ?_, ?_, ?_, ?_, ?_, ?_, ?_, ?_, ?_⟩
  · rw [h.extend]; exact h.store
  · intro k x' t' q' hk hcur
    rcases getset hi hk with ⟨rfl, rfl⟩ | ⟨hne, hk⟩
    · cases hcur
      simp only [if_pos]
      refine ⟨by simp, ?_⟩
      rw [h.extend]
      simp [← hlen]
    · simp only [if_neg hne]
      have hb := hnum k x' t' q' hne hk hcur
      obtain ⟨a, b⟩ := h.cur k x' t' q' hk hcur
      exact ⟨by rw [hold _ hb]; exact a, by rw [hth _ hb]; exact b⟩
  · intro k k' y y' hk hk' hy hy' e
    rcases getset hi hk with ⟨rfl, -⟩ | ⟨hne, hk2⟩ <;> rcases getset hi hk' with ⟨rfl, -⟩ | ⟨hne', hk2'⟩
    · rfl
    · exfalso
      simp only [if_pos, if_neg hne'] at e
      cases hcu : y'.cur with
      | none => exact hy' hcu
      | some z =>
        have := hnum k' y' z.1 z.2 hne' hk2' hcu
        rw [← e] at this
        exact Nat.lt_irrefl _ this
    · exfalso
      simp only [if_pos, if_neg hne] at e
      cases hcu : y.cur with
      | none => exact hy hcu
      | some z =>
        have := hnum k y z.1 z.2 hne hk2 hcu
        rw [e] at this
        exact Nat.lt_irrefl _ this
    · simp only [if_neg hne, if_neg hne'] at e
      exact h.apart k k' y y' hk2 hk2' hy hy' e
  · rw [hfilter, h.visits]
    split
    · rename_i hp
      rw [hlast (hone i js hjs t htm hp)]
      simp [visitSteps]
    · rfl
  · split
    · rename_i hp
      have hn := h.nodup
      rw [hlast (hone i js hjs t htm hp)] at hn
      simp only [Option.toList, List.append_nil, List.map_append, List.map_cons, List.map_nil] at hn ⊢
      rw [List.nodup_append]
      refine ⟨hn, by simp, fun a ha b hb e => ?_⟩
      simp only [List.mem_singleton] at hb
      subst hb e
      simp only [List.map_map, List.mem_map, Function.comp] at ha
      obtain ⟨f, hf, e⟩ := ha
      exact absurd (hwho f hf) (by rw [e]; exact Nat.lt_irrefl _)
    · exact h.nodup
  · intro f hf
    obtain ⟨a, b, c, d, e⟩ := h.whose f hf
    refine ⟨by rw [hold _ (hwho f hf)]; exact a, b, ?_, d, e⟩
    obtain ⟨t', c⟩ := c
    exact ⟨t', by rw [hth _ (hwho f hf)]; exact c⟩
  · intro v hv
    split at hv
    · rename_i hp
      cases hv
      have hij := hone i js hjs t htm hp
      subst hij
      refine ⟨(fun c hc => by cases hc), by simp, ⟨ts, some (t, t.prog env), x.done⟩, t, t.prog env, ?_, rfl, hp⟩
      exact List.getElem?_set_self (List.getElem?_eq_some_iff.1 hi).1
    · rename_i hp
      obtain ⟨a, b, x', t', q', h1, h2, h3⟩ := h.lastOK v hv
      have hne : j ≠ i := by
        rintro rfl
        rw [hlast rfl] at hv; cases hv
      exact ⟨a, by simp only [if_neg hne]; exact b, x', t', q', by
        rw [List.getElem?_set_ne (Ne.symm hne)]; exact h1, h2, h3⟩
  · intro x' t' q' hx hcur hp
    rcases getset hi hx with ⟨rfl, rfl⟩ | ⟨hne, hx⟩
    · cases hcur
      rw [if_pos hp]; exact fun h => by cases h
    · split
      · exact fun h => by cases h
      · exact h.curOK x' t' q' hx hcur hp
  · intro x' hx
    rcases getset hi hx with ⟨rfl, rfl⟩ | ⟨hne, hx⟩
    · exact h.done x hi
    · exact h.done x' hx
  · intro t' ht'
    rcases List.mem_append.1 ht' with h1 | h1
    · exact h.origin t' h1
    · simp only [List.mem_singleton] at h1
      subst h1
      exact ⟨i, js, hjs, htm⟩
  · intro k x' hk
    rcases getset hi hk with ⟨rfl, rfl⟩ | ⟨hne, hk⟩
    · refine ⟨js, hjs, fun t' ht' => htodo t' (by rw [ht]; exact List.mem_cons_of_mem _ ht'), fun t' q' e => ?_⟩
      cases e; exact htm
    · exact h.given k x' hk

/-- A worker goes on with the message it is at, or finishes it. -/
theorem Mirrors.go (h : Mirrors env st0 jobs p j clks w S E num fin last)
    (hone : ∀ (i : Nat) (ts : List Task), jobs[i]? = some ts → ∀ t ∈ ts, t.phone = p → i = j)
    {i : Nat} {x x' : Worker} {t : Task} {q : Prog} (clk : Clock) (hclk : i = j → clk ∈ clks) (hi : w.ws[i]? = some x)
    (hc : x.cur = some (t, q)) (htodo : ∀ t ∈ x'.todo, t ∈ x.todo)
    (hx' : (x'.cur = some (t, (q.next clk w.st).2) ∧ x'.done = x.done) ∨
      (x'.cur = none ∧ ∃ r, q = .ret r ∧ x'.done = x.done ++ [(t, r)])) :
    ∃ S' E' num' fin' last', Mirrors env st0 jobs p j clks
      ⟨(q.next clk w.st).1, w.ws.set i x'⟩ S' E' num' fin' last' := by
  obtain ⟨js, hjs, hgt, hgc⟩ := h.given i x hi
  have htm : t ∈ js := hgc t q hc
  obtain ⟨hS, hT⟩ := h.cur i x t q hi hc
  have hlt : num i < S.length := (List.getElem?_eq_some_iff.1 hS).1
  have hlt' : num i < ((CSys.of env st0 S).run env E).threads.length := (List.getElem?_eq_some_iff.1 hT).1
  have hrun : (CSys.of env st0 S).run env (E ++ [.run (num i) clk]) =
      ⟨(q.next clk w.st).1, ((CSys.of env st0 S).run env E).threads.set (num i) (t, (q.next clk w.st).2)⟩ := by
    rw [crun_append]
    show ((CSys.of env st0 S).run env E).step env (.run (num i) clk) = _
    simp only [CSys.step, hT, h.store]
  have hmine : t.phone = p → i = j := hone i js hjs t htm
  have hcon : CEv.concerns (CSys.of env st0 S) p (.run (num i) clk) = decide (t.phone = p) := by rw [concerns_of, hS]
  -- finished messages are not touched
  have hfinne : ∀ f ∈ fin, f.1.who ≠ num i := by
    intro f hf e
    obtain ⟨a, b, -⟩ := h.whose f hf
    rw [e, hS] at a
    cases a
    have hij := hmine b
    subst hij
    cases hl : last with
    | none => exact h.curOK x _ q hi hc b hl
    | some v =>
      have hn := h.nodup
      have hw := (h.lastOK v hl).2.1
      rw [hl] at hn
      simp only [Option.toList, List.map_append, List.map_cons, List.map_nil, List.nodup_append] at hn
      exact hn.2.2 f.1.who (by simpa using ⟨f.1, ⟨_, _, hf⟩, rfl⟩) v.who (by simp) (by rw [e, hw])
  have hothers : ∀ k y, k ≠ i → w.ws[k]? = some y → y.cur ≠ none → num k ≠ num i := by
    intro k y hne hk hy e
    exact hne (h.apart k i y x hk hi hy (by rw [hc]; exact fun h => by cases h) e)
  have hsmall : ∀ e ∈ E ++ [.run (num i) clk], ∃ i clk, e = .run i clk ∧ i < S.length := by
    intro e he
    rcases List.mem_append.1 he with he | he
    · exact h.small e he
    · simp only [List.mem_singleton] at he
      exact ⟨num i, clk, he, hlt⟩
  have hwhose : ∀ f ∈ fin, S[f.1.who]? = some f.2.1 ∧ f.2.1.phone = p ∧
      ((CSys.of env st0 S).run env (E ++ [.run (num i) clk])).returns f.1.who f.2.2 ∧ f.1.clks ≠ [] ∧ ∀ c ∈ f.1.clks, c ∈ clks := by
    intro f hf
    obtain ⟨a, b, ⟨t', c⟩, d, e⟩ := h.whose f hf
    refine ⟨a, b, ⟨t', ?_⟩, d, e⟩
    rw [hrun]
    exact (List.getElem?_set_ne (Ne.symm (hfinne f hf))).trans c
  have hcur : ∀ (k : Nat) (y : Worker) (t' : Task) (q' : Prog), (w.ws.set i x')[k]? = some y → y.cur = some (t', q') →
      S[num k]? = some t' ∧ ((CSys.of env st0 S).run env (E ++ [.run (num i) clk])).threads[num k]? = some (t', q') := by
    intro k y t' q' hk hy
    rw [hrun]
    rcases getset hi hk with ⟨rfl, rfl⟩ | ⟨hne, hk2⟩
    · rcases hx' with ⟨e, -⟩ | ⟨e, -⟩
      · rw [e] at hy; cases hy
        exact ⟨hS, List.getElem?_set_self hlt'⟩
      · rw [e] at hy; cases hy
    · obtain ⟨a, b⟩ := h.cur k y t' q' hk2 hy
      exact ⟨a, (List.getElem?_set_ne (Ne.symm (hothers k y hne hk2 (by rw [hy]; exact fun h => by cases h)))).trans b⟩
  have hapart : ∀ (k k' : Nat) (y y' : Worker), (w.ws.set i x')[k]? = some y → (w.ws.set i x')[k']? = some y' →
      y.cur ≠ none → y'.cur ≠ none → num k = num k' → k = k' := by
    intro k k' y y' hk hk' hy hy' e
    have hx : x.cur ≠ none := by rw [hc]; exact fun h => by cases h
    rcases getset hi hk with ⟨e1, -⟩ | ⟨hne, hk2⟩ <;> rcases getset hi hk' with ⟨e2, -⟩ | ⟨hne', hk2'⟩
    · rw [e1, e2]
    · rw [e1] at e; exact absurd e.symm (hothers k' y' hne' hk2' hy')
    · rw [e2] at e; exact absurd e (hothers k y hne hk2 hy)
    · exact h.apart k k' y y' hk2 hk2' hy hy' e
  have hgiven : ∀ (k : Nat) (y : Worker), (w.ws.set i x')[k]? = some y → ∃ ts : List Task, jobs[k]? = some ts ∧
      (∀ t ∈ y.todo, t ∈ ts) ∧ ∀ t q, y.cur = some (t, q) → t ∈ ts := by
    intro k y hk
    rcases getset hi hk with ⟨rfl, rfl⟩ | ⟨hne, hk2⟩
    · refine ⟨js, hjs, fun t' ht' => hgt t' (htodo t' ht'), fun t' q' e => ?_⟩
      rcases hx' with ⟨e', -⟩ | ⟨e', -⟩
      · rw [e'] at e; cases e; exact htm
      · rw [e'] at e; cases e
    · exact h.given k y hk2
  by_cases hp : t.phone = p
  · have hij := hmine hp
    subst hij
    have hclk' := hclk rfl
    cases hl : last with
    | none => exact absurd hl (h.curOK x t q hi hc hp)
    | some v =>
      subst hl
      obtain ⟨v1, v2, -⟩ := h.lastOK v rfl
      have hset : (w.ws.set i x')[i]? = some x' := List.getElem?_set_self (List.getElem?_eq_some_iff.1 hi).1
      have hvis : (E ++ [CEv.run (num i) clk]).filter (CEv.concerns (CSys.of env st0 S) p) =
          visitSteps (fin.map (·.1) ++ [⟨v.who, v.clks ++ [clk]⟩]) := by
        rw [List.filter_append, h.visits, visitSteps_append, visitSteps_append,
          List.filter_cons_of_pos (by rw [hcon]; simpa using hp), List.filter_nil, List.append_assoc]
        congr 1
        simp only [visitSteps, Option.toList, List.flatMap_cons, List.flatMap_nil, List.append_nil, List.map_append,
          List.map_cons, List.map_nil]
        rw [v2]
      have hnod : ((fin.map (·.1) ++ [⟨v.who, v.clks ++ [clk]⟩] : List Visit).map (·.who)).Nodup := by
        have := h.nodup
        simpa only [Option.toList, List.map_append, List.map_cons, List.map_nil] using this
      have hvc : ∀ c ∈ v.clks ++ [clk], c ∈ clks := by
        intro c hcm
        rcases List.mem_append.1 hcm with h1 | h1
        · exact v1 c h1
        · simp only [List.mem_singleton] at h1; rw [h1]; exact hclk'
      rcases hx' with ⟨e1, e2⟩ | ⟨e1, r, rfl, e2⟩
      · refine ⟨S, E ++ [.run (num i) clk], num, fin, some ⟨v.who, v.clks ++ [clk]⟩, hsmall, by rw [hrun], hcur, hapart,
          hvis, hnod, hwhose, ?_, ?_, ?_, h.origin, hgiven⟩
        · intro v' e
          cases e
          exact ⟨hvc, v2, x', t, _, hset, e1, hp⟩
        · intro _ _ _ _ _ _ e; cases e
        · intro y hy
          rw [hset] at hy; cases hy
          rw [e2]; exact h.done x hi
      · refine ⟨S, E ++ [.run (num i) clk], num, fin ++ [(⟨v.who, v.clks ++ [clk]⟩, t, r)], none, hsmall, by rw [hrun], hcur,
          hapart, ?_, ?_, ?_, ?_, ?_, ?_, h.origin, hgiven⟩
        · rw [hvis]; simp
        · simpa using hnod
        · intro f hf
          rcases List.mem_append.1 hf with h1 | h1
          · exact hwhose f h1
          · simp only [List.mem_singleton] at h1
            subst h1
            refine ⟨by rw [← hS, ← v2], hp, ⟨t, ?_⟩, by simp, hvc⟩
            rw [hrun]
            show (_ : List (Task × Prog))[v.who]? = _
            rw [v2]
            exact List.getElem?_set_self hlt'
        · intro v' e; cases e
        · intro y t' q' hy hycur
          rw [hset] at hy; cases hy
          rw [e1] at hycur; cases hycur
        · intro y hy
          rw [hset] at hy; cases hy
          rw [e2, List.filter_append, h.done x hi]
          simp [hp]
  · have hvis : (E ++ [CEv.run (num i) clk]).filter (CEv.concerns (CSys.of env st0 S) p) =
        visitSteps (fin.map (·.1) ++ last.toList) := by
      rw [List.filter_append, h.visits, List.filter_cons_of_neg (by rw [hcon]; simpa using hp), List.filter_nil, List.append_nil]
    refine ⟨S, E ++ [.run (num i) clk], num, fin, last, hsmall, by rw [hrun], hcur, hapart, hvis, h.nodup, hwhose,
      ?_, ?_, ?_, h.origin, hgiven⟩
    · intro v hv
      obtain ⟨a, b, y, t', q', h1, h2, h3⟩ := h.lastOK v hv
      have hne : j ≠ i := by
        rintro rfl
        rw [hi] at h1; cases h1
        rw [hc] at h2; cases h2
        exact hp h3
      exact ⟨a, b, y, t', q', by rw [List.getElem?_set_ne (Ne.symm hne)]; exact h1, h2, h3⟩
    · intro y t' q' hy hycur hyp
      rcases getset hi hy with ⟨rfl, rfl⟩ | ⟨hne, hy2⟩
      · rcases hx' with ⟨e1, -⟩ | ⟨e1, -⟩
        · rw [e1] at hycur; cases hycur; exact absurd hyp hp
        · rw [e1] at hycur; cases hycur
      · exact h.curOK y t' q' hy2 hycur hyp
    · intro y hy
      rcases getset hi hy with ⟨rfl, rfl⟩ | ⟨hne, hy2⟩
      · rcases hx' with ⟨-, e2⟩ | ⟨-, r, -, e2⟩
        · rw [e2]; exact h.done x hi
        · rw [e2, List.filter_append, h.done x hi]
          simp [hp]
      · exact h.done y hy2

/-- Every run of workers is followed. -/
theorem mirrors_step (h : Mirrors env st0 jobs p j clks w S E num fin last)
    (hone : ∀ (i : Nat) (ts : List Task), jobs[i]? = some ts → ∀ t ∈ ts, t.phone = p → i = j) (e : Nat × Clock)
    (he : e.1 = j → e.2 ∈ clks) :
    ∃ S' E' num' fin' last', Mirrors env st0 jobs p j clks (w.step env e) S' E' num' fin' last' := by
  obtain ⟨i, clk⟩ := e
  unfold WSys.step
  cases hi : w.ws[i]? with
  | none => exact ⟨S, E, num, fin, last, h⟩
  | some x =>
    simp only
    obtain ⟨todo, cur, done⟩ := x
    cases cur with
    | none =>
      cases todo with
      | nil =>
        refine ⟨S, E, num, fin, last, ?_⟩
        have : w.ws.set i ⟨[], none, done⟩ = w.ws := by
          obtain ⟨hlt, e⟩ := List.getElem?_eq_some_iff.1 hi
          rw [← e, List.set_getElem_self]
        simp only [Worker.next, this]
        exact h
      | cons t ts => exact h.take hone hi rfl rfl
    | some c =>
      obtain ⟨t, q⟩ := c
      cases q with
      | ret r =>
        refine h.go hone clk he hi rfl (x' := ⟨if goesOn r then todo else [], none, done ++ [(t, r)]⟩) (fun t' ht' => ?_)
          (.inr ⟨rfl, r, rfl, rfl⟩)
        dsimp only at ht'
        split at ht'
        · exact ht'
        · cases ht'
      | step f k => exact h.go hone clk he hi rfl (x' := ⟨todo, some (t, k clk w.st), done⟩) (fun t' ht' => ht') (.inl ⟨rfl, rfl⟩)

theorem mirrors_run (h : Mirrors env st0 jobs p j clks w S E num fin last)
    (hone : ∀ (i : Nat) (ts : List Task), jobs[i]? = some ts → ∀ t ∈ ts, t.phone = p → i = j) (evs : List (Nat × Clock))
    (he : ∀ e ∈ evs, e.1 = j → e.2 ∈ clks) :
    ∃ S' E' num' fin' last', Mirrors env st0 jobs p j clks (w.run env evs) S' E' num' fin' last' := by
  induction evs generalizing w S E num fin last with
  | nil => exact ⟨S, E, num, fin, last, h⟩
  | cons e evs ih =>
    obtain ⟨S', E', num', fin', last', h'⟩ := mirrors_step h hone e (he e List.mem_cons_self)
    exact ih h' fun e' h1 => he e' (List.mem_cons_of_mem _ h1)

theorem mirrors_begin : Mirrors env st0 jobs p j clks (WSys.begin st0 jobs) [] [] (fun _ => 0) [] none := by
  have hws : ∀ (i : Nat) (x : Worker), (WSys.begin st0 jobs).ws[i]? = some x →
      ∃ ts, jobs[i]? = some ts ∧ x = ⟨ts, none, []⟩ := by
    intro i x hx
    simp only [WSys.begin, List.getElem?_map, Option.map_eq_some_iff] at hx
    obtain ⟨ts, h1, h2⟩ := hx
    exact ⟨ts, h1, h2.symm⟩
  refine ⟨fun _ h => (by cases h), rfl, fun i x t q hx hc => ?_, fun i i' x x' hx _ hc => ?_, rfl, by simp,
    fun _ h => (by cases h), fun _ h => (by cases h), fun x t q hx hc => ?_, fun x hx => ?_, fun _ h => (by cases h), fun i x hx => ?_⟩
  · obtain ⟨ts, -, rfl⟩ := hws i x hx; cases hc
  · obtain ⟨ts, -, rfl⟩ := hws i x hx; exact absurd rfl hc
  · obtain ⟨ts, -, rfl⟩ := hws _ x hx; cases hc
  · obtain ⟨ts, -, rfl⟩ := hws _ x hx; rfl
  · obtain ⟨ts, h1, rfl⟩ := hws i x hx
    exact ⟨ts, h1, fun t ht => ht, fun t q e => by cases e⟩

end JT808
