import Verif.Proof.Workers
/-
C154: a terminal that uses one connection sees a sequential server, however the connections are interleaved.
-/
namespace JT808
open Spec

namespace Spec

/-- The sequential server handling messages in order, each at its moment: what it has stored, and all results. -/
def inOrder (env : Env) : Store → List (Task × Clock) → Store × List (Res (Option Out))
  | st, [] => (st, [])
  | st, (t, c) :: l => ((inOrder env (handled env c st t).1 l).1, (handled env c st t).2 :: (inOrder env (handled env c st t).1 l).2)

/-- The times at which goroutine `j` makes a step. -/
def timesOf (j : Nat) (evs : List (Nat × Clock)) : List Clock := (evs.filter fun e => decide (e.1 = j)).map (·.2)

/-- The results of `p`'s messages. -/
def resultsOf (p : Str) (done : List (Task × Res (Option Out))) : List (Task × Res (Option Out)) :=
  done.filter fun d => decide (d.1.phone = p)

end Spec

theorem inOrder_eq {env : Env} {S : List Task} (fin : List (Visit × Task × Res (Option Out))) (vs : List Turn) (st : Store)
    (hlen : vs.length = fin.length)
    (hwho : ∀ (k : Nat) f v, fin[k]? = some f → vs[k]? = some v → S[v.who]? = some f.2.1)
    (hres : ∀ (k : Nat) f v, fin[k]? = some f → vs[k]? = some v →
      (handled env v.clk (oneByOne env S st (vs.take k)) f.2.1).2 = f.2.2) :
    inOrder env st ((fin.map (·.2.1)).zip (vs.map (·.clk))) = (oneByOne env S st vs, fin.map (·.2.2)) := by
  induction fin generalizing vs st with
  | nil =>
    cases vs with
    | nil => rfl
    | cons v vs => cases hlen
  | cons f fin ih =>
    cases vs with
    | nil => cases hlen
    | cons v vs =>
      have h0 := hwho 0 f v rfl rfl
      have hfold : ∀ vs, oneByOne env S st (v :: vs) = oneByOne env S (handled env v.clk st f.2.1).1 vs := by
        intro vs; simp only [oneByOne, List.foldl_cons, h0]
      have hi := ih vs (handled env v.clk st f.2.1).1 (Nat.succ.inj hlen)
        (fun k f' v' h1 h2 => hwho (k + 1) f' v' (by simpa using h1) (by simpa using h2))
        (fun k f' v' h1 h2 => by
          have := hres (k + 1) f' v' (by simpa using h1) (by simpa using h2)
          rw [List.take_succ_cons, hfold] at this
          exact this)
      have hr := hres 0 f v rfl rfl
      simp only [List.take_zero] at hr
      simp only [List.map_cons, List.zip_cons_cons, inOrder]
      rw [hi, hfold]
      exact congrArg (Prod.mk _) (congrArg (· :: _) hr)

/-- A goroutine handles its messages in the order in which they are given to it. -/
theorem order_run (env : Env) (jobs : List (List Task)) (evs : List (Nat × Clock)) (s : WSys)
    (h : ∀ (i : Nat) (x : Worker), s.ws[i]? = some x → ∃ ts rest, jobs[i]? = some ts ∧
      x.done.map (·.1) ++ (x.cur.map (·.1)).toList ++ x.todo ++ rest = ts) :
    ∀ (i : Nat) (x : Worker), (s.run env evs).ws[i]? = some x → ∃ ts rest, jobs[i]? = some ts ∧
      x.done.map (·.1) ++ (x.cur.map (·.1)).toList ++ x.todo ++ rest = ts := by
  induction evs generalizing s with
  | nil => exact h
  | cons e evs ih =>
    refine ih (s.step env e) ?_
    intro i x hx
    unfold WSys.step at hx
    cases hi : s.ws[e.1]? with
    | none => rw [hi] at hx; exact h i x hx
    | some y =>
      rw [hi] at hx
      rcases getset hi hx with ⟨rfl, rfl⟩ | ⟨-, hx⟩
      · obtain ⟨ts, rest, h1, h2⟩ := h e.1 y hi
        obtain ⟨todo, cur, done⟩ := y
        cases cur with
        | none =>
          cases todo with
          | nil => exact ⟨ts, rest, h1, h2⟩
          | cons t todo => exact ⟨ts, rest, h1, by simpa [Worker.next] using h2⟩
        | some c =>
          obtain ⟨t, q⟩ := c
          cases q with
          | ret r =>
            simp only [Worker.next]
            split
            · exact ⟨ts, rest, h1, by simpa using h2⟩
            · exact ⟨ts, todo ++ rest, h1, by simpa using h2⟩
          | step f k => exact ⟨ts, rest, h1, by simpa [Worker.next] using h2⟩
      · exact h i x hx

/-- C154: the goroutines of the connections handle their messages one after another, the steps of all of them in any
order and at any times, beside them keepalive checks of other terminals; `jobs` are the messages each is given.  If the
messages of phone `p` all come to goroutine `j`, and no other terminal has ever registered with a plate with which `p`
registers, then at every point of the run at which `j` is not in the middle of one of them, there are moments, each at
steps of `j`, such that the device, its locations, jobs and parameters and the results of `p`'s messages handled so far are
those of the sequential server handling these messages, and nothing else, in the order of the connection, at these
moments. -/
theorem C154_one_connection (env : Env) (before : List CEv) (jobs : List (List Task)) (evs : List (Nat × Clock)) (p : Str)
    (j : Nat) (hadd : ∀ ts ∈ jobs, ∀ t ∈ ts, t.Addressed) (hpl : OwnPlates before jobs.flatten p)
    (hone : ∀ (i : Nat) (ts : List Task), jobs[i]? = some ts → ∀ t ∈ ts, t.phone = p → i = j)
    (w : Worker) (hw : ((WSys.begin (CSys.start.run env before).st jobs).run env evs).ws[j]? = some w)
    (hidle : ∀ t q, w.cur = some (t, q) → t.phone ≠ p) :
    let st0 := (CSys.start.run env before).st
    let s := (WSys.begin st0 jobs).run env evs
    let mine := resultsOf p w.done
    (∃ ts, jobs[j]? = some ts ∧ w.done.map (·.1) <+: ts) ∧
    ∃ clks : List Clock, clks.length = mine.length ∧ (∀ c ∈ clks, During (timesOf j evs) c) ∧
      let seq := inOrder env st0 ((mine.map (·.1)).zip clks)
      seq.2 = mine.map (·.2) ∧ s.st.look p = seq.1.look p ∧
      (∀ d ∈ mine, ∀ pl, plateOf d.1 = some pl → s.st.lookPlate pl = seq.1.lookPlate pl) ∧
      s.st.geos.get p = seq.1.geos.get p ∧ s.st.jobs.count p = seq.1.jobs.count p ∧ s.st.paramsOf p = seq.1.paramsOf p := by
  intro st0 s mine
  refine ⟨?_, ?_⟩
  · obtain ⟨ts, rest, h1, h2⟩ := order_run env jobs evs (WSys.begin st0 jobs) (by
      intro i x hx
      simp only [WSys.begin, List.getElem?_map, Option.map_eq_some_iff] at hx
      obtain ⟨ts, h1, h2⟩ := hx
      exact ⟨ts, [], h1, by rw [← h2]; simp⟩) j w hw
    exact ⟨ts, h1, ⟨(w.cur.map (·.1)).toList ++ w.todo ++ rest, by rw [← h2]; simp⟩⟩
  obtain ⟨S, E, num, fin, last, hF⟩ := mirrors_run (env := env) (p := p) (j := j) (clks := timesOf j evs)
    (mirrors_begin (env := env) (st0 := st0) (jobs := jobs)) hone evs (by
      intro e he hj
      exact List.mem_map.2 ⟨e, List.mem_filter.2 ⟨he, by simpa using hj⟩, rfl⟩)
  have hlast : last = none := by
    cases hl : last with
    | none => rfl
    | some v =>
      obtain ⟨-, -, x, t, q, h1, h2, h3⟩ := hF.lastOK v hl
      rw [hw] at h1; cases h1
      exact absurd h3 (hidle t q h2)
  subst hlast
  have hmine : mine = fin.map (·.2) := hF.done w hw
  have hjobs : ∀ t ∈ S, t ∈ jobs.flatten ∧ ∃ ts ∈ jobs, t ∈ ts := by
    intro t ht
    obtain ⟨i, ts, h1, h2⟩ := hF.origin t ht
    exact ⟨List.mem_flatten.2 ⟨ts, List.mem_of_getElem? h1, h2⟩, ts, List.mem_of_getElem? h1, h2⟩
  have hvisits := hF.visits
  have hnodup := hF.nodup
  simp only [Option.toList, List.append_nil] at hvisits hnodup
  let us : List Visit := fin.map fun f => f.1
  obtain ⟨vs, hm, k1, k2, k3, k4, k5, k6⟩ := C153_moments env before S E p
    (fun e he => by
      obtain ⟨i, clk, h1, -⟩ := hF.small e he
      exact ⟨i, clk, h1⟩)
    (fun t ht => by
      obtain ⟨ts, h1, h2⟩ := (hjobs t ht).2
      exact hadd ts h1 t h2)
    (fun t t' h1 h2 => hpl t t' (h1.imp id fun h => (hjobs t h).1) (hjobs t' h2).1)
    us hnodup
    (by
      intro u hu
      obtain ⟨f, hf, rfl⟩ := List.mem_map.1 hu
      obtain ⟨a, b, -⟩ := hF.whose f hf
      exact ⟨f.2.1, a, b⟩)
    hvisits
    (by
      intro u hu
      obtain ⟨f, hf, rfl⟩ := List.mem_map.1 hu
      exact ⟨f.2.2, (hF.whose f hf).2.2.1⟩)
  have hstore : ((CSys.mk st0 (S.map fun t => (t, t.prog env))).run env E).st = s.st := hF.store
  have hlen : vs.length = fin.length := by rw [hm.1, List.length_map]
  have hwho : ∀ (k : Nat) f v, fin[k]? = some f → vs[k]? = some v → v.who = f.1.who ∧ During f.1.clks v.clk :=
    fun k f v h1 h2 => hm.2 k f.1 v (by rw [List.getElem?_map, h1]; rfl) h2
  have hS : ∀ (k : Nat) f v, fin[k]? = some f → vs[k]? = some v → S[v.who]? = some f.2.1 := by
    intro k f v h1 h2
    rw [(hwho k f v h1 h2).1]
    exact (hF.whose f (List.mem_of_getElem? h1)).1
  have hseq := inOrder_eq (env := env) fin vs st0 hlen hS (by
    intro k f v h1 h2
    obtain ⟨t1, e1⟩ := k6 k v f.2.1 h2 (hS k f v h1 h2)
    obtain ⟨t2, e2⟩ := (hF.whose f (List.mem_of_getElem? h1)).2.2.1
    rw [(hwho k f v h1 h2).1] at e1
    have e1' := e1.symm.trans e2
    simp only [Option.some.injEq, Prod.mk.injEq, Prog.ret.injEq] at e1'
    exact e1'.2)
  refine ⟨vs.map (·.clk), by rw [hmine, List.length_map, List.length_map, hlen], fun c hc => ?_, ?_⟩
  · obtain ⟨v, hv, rfl⟩ := List.mem_map.1 hc
    obtain ⟨k, hk⟩ := List.getElem?_of_mem hv
    have hlt : k < fin.length := by rw [← hlen]; exact (List.getElem?_eq_some_iff.1 hk).1
    have hf : fin[k]? = some fin[k] := List.getElem?_eq_getElem hlt
    obtain ⟨-, -, -, hne, hsub⟩ := hF.whose _ (List.mem_of_getElem? hf)
    obtain ⟨⟨c1, a1, b1⟩, ⟨c2, a2, b2⟩⟩ := (hwho k _ v hf hk).2 hne
    exact fun _ => ⟨⟨c1, hsub c1 a1, b1⟩, ⟨c2, hsub c2 a2, b2⟩⟩
  · have e0 : (mine.map (·.1)).zip (vs.map (·.clk)) = (fin.map (·.2.1)).zip (vs.map (·.clk)) := by
      rw [hmine, List.map_map]; rfl
    intro seq
    have e1 : seq = (oneByOne env S st0 vs, fin.map (·.2.2)) := by
      show inOrder env st0 ((mine.map (·.1)).zip (vs.map (·.clk))) = _
      rw [e0]; exact hseq
    rw [e1, ← hstore]
    refine ⟨by rw [hmine, List.map_map]; rfl, k1, fun d hd pl hdp => ?_, k3, k4, k5⟩
    rw [hmine] at hd
    obtain ⟨f, hf, rfl⟩ := List.mem_map.1 hd
    obtain ⟨a, b, -⟩ := hF.whose f hf
    exact k2 f.2.1 (List.mem_of_getElem? a) b pl hdp

/-- Two connections: on the first a terminal registers and then sends a heartbeat, on the second another registers with
a plate of its own and authenticates. -/
def twoLines : List (List Task) :=
  [[.msg demoC (hdr2013 0x0100) (.m0100 demoRegMsg), .msg demoC (hdr2013 0x0002) .m0002],
    [.msg demoC' (hdr2019 0x0100) (.m0100 { demoRegMsg with plate := [0x42] })]]

/-- They take steps in turn. -/
def twoLinesEvs : List (Nat × Clock) := (List.range 15).flatMap fun n => [(0, demoClk (100 + n)), (1, demoClk (100 + n))]

theorem twoLines_own : OwnPlates [] twoLines.flatten (hdr2013 0).phone := by
  intro t t' ht ht' hp hp' pl hpl
  simp only [List.not_mem_nil, false_or, twoLines, List.flatten_cons, List.flatten_nil, List.append_nil, List.cons_append,
    List.nil_append, List.mem_cons, or_false] at ht ht'
  rcases ht with rfl | rfl | rfl
  · exact absurd rfl hp
  · exact absurd rfl hp
  · rcases ht' with rfl | rfl | rfl
    · cases hpl; decide
    · cases hpl
    · exact absurd hp' (by decide)

theorem twoLines_one (i : Nat) (ts : List Task) (h : twoLines[i]? = some ts) (t : Task) (ht : t ∈ ts)
    (hp : t.phone = (hdr2013 0).phone) : i = 0 := by
  match i, h with
  | 0, _ => rfl
  | 1, h =>
    cases h
    simp only [List.mem_cons, List.not_mem_nil, or_false] at ht
    subst ht
    exact absurd hp (by decide)
  | n + 2, h => cases h

/-- At the end both messages of the first terminal are handled, and it is not in the middle of one. -/
example : ∃ w, ((WSys.begin (CSys.start.run goEnv []).st twoLines).run goEnv twoLinesEvs).ws[0]? = some w ∧
    w.done.map (·.2) = [.ok (some (gen8100 (hdr2013 0x0100) 0 demoCode)), .ok (some (gen8001 (hdr2013 0x0002) 0))] ∧
    ∃ clks : List Clock, clks.length = (resultsOf (hdr2013 0).phone w.done).length ∧
      (inOrder goEnv Store.empty (((resultsOf (hdr2013 0).phone w.done).map (·.1)).zip clks)).2 =
        (resultsOf (hdr2013 0).phone w.done).map (·.2) := by
  cases hw : ((WSys.begin (CSys.start.run goEnv []).st twoLines).run goEnv twoLinesEvs).ws[0]? with
  | none => exact absurd hw (by intro h; exact absurd (congrArg Option.isSome h) (by decide +kernel))
  | some w =>
    have hcur : (((WSys.begin (CSys.start.run goEnv []).st twoLines).run goEnv twoLinesEvs).ws[0]?).map (·.cur.isNone) = some true := by
      decide +kernel
    have hdone : (((WSys.begin (CSys.start.run goEnv []).st twoLines).run goEnv twoLinesEvs).ws[0]?).map (·.done.map (·.2)) =
        some [.ok (some (gen8100 (hdr2013 0x0100) 0 demoCode)), .ok (some (gen8001 (hdr2013 0x0002) 0))] := by decide +kernel
    rw [hw] at hcur hdone
    simp only [Option.map_some, Option.some.injEq, Option.isNone_iff_eq_none] at hcur hdone
    obtain ⟨-, clks, h1, -, h2, -⟩ := C154_one_connection goEnv [] twoLines twoLinesEvs (hdr2013 0).phone 0
      (by
        intro ts hts t ht
        simp only [twoLines, List.mem_cons, List.not_mem_nil, or_false] at hts
        rcases hts with rfl | rfl <;> simp only [List.mem_cons, List.not_mem_nil, or_false] at ht
        · rcases ht with rfl | rfl <;> trivial
        · subst ht; trivial)
      twoLines_own twoLines_one w hw (by intro t q e; rw [hcur] at e; cases e)
    exact ⟨w, rfl, hdone, clks, h1, h2⟩

end JT808
