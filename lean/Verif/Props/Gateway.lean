import Verif.Props.Serial
import Verif.Proof.Types
/-
C167: several terminals on one connection, as behind a gateway: each is answered as if it were alone.
-/
namespace JT808
open Spec

namespace Spec

/-- The frame has a header with this phone. -/
def ofPhone (env : Env) (p : Str) (f : List UInt8) : Bool :=
  match decodeFrame env f with
  | .ok pd => decide (pd.header.phone = p)
  | _ => false

/-- There is a registration of this phone with this plate in these bytes. -/
def RegistersAs (env : Env) (bytes : List UInt8) (p plate : Str) : Prop :=
  ∃ e fs rest, Recvs e bytes fs rest ∧ ∃ f ∈ fs, ∃ now h g, Holds env now f h (.m0100 g) ∧ h.phone = p ∧ g.plate = plate

/-- All messages of phone `p` come on connection `j`, its checks do not run, and nobody else has registered or registers with
a plate of it. -/
structure OnlyAt (env : Env) (before : List CEv) (conns : List (Conn × List UInt8)) (checks : List Str) (j : Nat)
    (bytes : List UInt8) (p : Str) : Prop where
  others : ∀ (i : Nat) o, conns[i]? = some o → i ≠ j → Speaks env o.2 fun h _ => h.phone ≠ p
  plates : ∀ (i : Nat) o, conns[i]? = some o → Speaks env o.2 fun h m =>
    h.phone ≠ p → ∀ g, m = .m0100 g → ¬ RegistersAs env bytes p g.plate
  old : ∀ t, .spawn t ∈ before → t.phone ≠ p → ∀ pl, RegistersAs env bytes p pl → plateOf t ≠ some pl
  checks : p ∉ checks

end Spec

variable {env : Env} {c : Conn} {p : Str}

theorem received_phone {now : Civil} {f : List UInt8} {t : Task} (h : received env now c f = some (some t)) :
    ofPhone env p f = decide (t.phone = p) := by
  obtain ⟨hd, m, rfl, pd, mt, i, e1, rfl, -⟩ := received_iff.1 h
  simp only [ofPhone, e1]
  rfl

/-- Of the frames of a connection those of one phone hold its messages. -/
theorem heard_filter {clks : List Clock} {fs : List (List UInt8)} {ts : List Task} (h : Heard env c clks fs ts) :
    Heard env c clks (fs.filter (ofPhone env p)) (ts.filter fun t => decide (t.phone = p)) := by
  induction h with
  | nil => exact .nil
  | @skip fs ts f clk hh hc hr ih =>
    rw [List.filter_append]
    cases ho : ofPhone env p f with
    | true => rw [List.filter_cons_of_pos ho]; exact .skip ih hc hr
    | false => rw [List.filter_cons_of_neg (by simp [ho])]; simpa using ih
  | @msg fs ts f clk t hh hc hr ih =>
    have e := received_phone (p := p) hr
    rw [List.filter_append, List.filter_append]
    cases ho : ofPhone env p f with
    | true =>
      rw [ho] at e
      rw [List.filter_cons_of_pos ho, List.filter_cons_of_pos (p := fun t : Task => decide (t.phone = p)) e.symm]
      exact .msg ih hc hr
    | false =>
      rw [ho] at e
      rw [List.filter_cons_of_neg (by simp [ho]), List.filter_cons_of_neg (p := fun t : Task => decide (t.phone = p)) (by simp [← e])]
      simpa using ih

theorem resultsOf_map (done : List (Task × Res (Option Out))) :
    (resultsOf p done).map (·.1) = (done.map (·.1)).filter fun t => decide (t.phone = p) := by
  induction done with
  | nil => rfl
  | cons d done ih =>
    by_cases h : d.1.phone = p
    · simp only [resultsOf, List.filter_cons, h, decide_true, if_true, List.map_cons] at ih ⊢
      rw [ih]
    · simp only [resultsOf, List.filter_cons, h, decide_false, List.map_cons] at ih ⊢
      exact ih

/-- C167 for line `j` of any system. -/
theorem line_gateway (env : Env) (before : List CEv) (s0 : LSys) (hst0 : s0.st = (CSys.start.run env before).st)
    (hstart : ∀ l ∈ s0.ls, l.cur = none ∧ l.done = [])
    (evs : List (Nat × Clock)) (j : Nat) (c : Conn) (bytes : List UInt8) (hopen : s0.ls[j]? = some (Line.open c bytes))
    (hfrag : Speaks env bytes fun _ _ => True) (l : Line) (hl : (s0.run env evs).ls[j]? = some l) :
    let st0 := (CSys.start.run env before).st
    let s := s0.run env evs
    ∃ answers : List (Str × List UInt8), l.output = answers.flatMap (·.2) ∧
      ∀ p, (∀ (i : Nat) l, s.ls[i]? = some l → i ≠ j → ∀ t ∈ l.taken, t.Addressed ∧ t.phone ≠ p ∧
          ∀ pl, RegistersAs env bytes p pl → plateOf t ≠ some pl) →
        (Speaks env bytes fun h m => h.phone ≠ p → ∀ g, m = .m0100 g → ¬ RegistersAs env bytes p g.plate) →
        (∀ t, .spawn t ∈ before → t.phone ≠ p → ∀ pl, RegistersAs env bytes p pl → plateOf t ≠ some pl) →
        (∀ t q, l.cur = some (t, q) → t.phone ≠ p) →
        ∃ (frames : List (List UInt8)) (rest : List UInt8) (fs : List (List UInt8)) (clks : List Clock),
          Recvs .eof bytes frames rest ∧ recv .eof rest = (.err .eof, []) ∧ fs <+: frames ∧
          (l.input = [] → l.ended = false → fs = frames) ∧ clks.length = (fs.filter (ofPhone env p)).length ∧
          (∀ k ∈ clks, During (timesOf j evs) k) ∧
          let r := serves env c st0 ((fs.filter (ofPhone env p)).zip clks)
          (answers.filter fun a => decide (a.1 = p)).flatMap (·.2) = r.2.1 ∧ (r.2.2 = true → l.ended = true) ∧
            s.st.look p = r.1.look p ∧ s.st.geos.get p = r.1.geos.get p ∧
            s.st.jobs.count p = r.1.jobs.count p ∧ s.st.paramsOf p = r.1.paramsOf p := by
  intro st0 s
  have hl : s.ls[j]? = some l := hl
  have hs : s = s0.run env evs := rfl
  generalize s = s at hs hl
  subst hs
  have hlen : (s0.run env evs).ls.length = s0.ls.length := lines_length ..
  -- the frames the connection has read
  have hlog : l.Log env c bytes (timesOf j evs) := by
    refine lines_run_at (env := env) (P := fun i l => i = j → l.Log env c bytes (timesOf j evs)) evs
      (fun i clk st l he h hi => next_log ?_ (h hi)) s0 ?_ j l hl rfl
    · subst hi
      exact List.mem_map.2 ⟨(i, clk), List.mem_filter.2 ⟨he, by simp⟩, rfl⟩
    · intro i l' hl' hi
      rw [hi, hopen] at hl'
      cases hl'
      exact .waits (fs := []) rfl .nil (fun d hd => by cases hd)
  -- whose messages the goroutine takes up
  have hreads : l.Reads env c (cut RecvSt.fresh bytes) := by
    refine lines_run (env := env) (P := fun i l => i = j → l.Reads env c (cut RecvSt.fresh bytes))
      (fun i clk st l h hi => next_reads (h hi)) evs s0 ?_ j l hl rfl
    intro i l' hl' hi
    rw [hi, hopen] at hl'
    cases hl'
    exact ⟨rfl, rfl, fun f hf => hf, fun t ht => by simp [Line.taken, Line.open] at ht⟩
  have hout : l.output = l.done.flatMap fun d => (putsOut env d.2).1 := by cases hlog <;> rfl
  refine ⟨l.done.map fun d => (d.1.phone, (putsOut env d.2).1), by rw [hout, List.flatMap_map], fun p hoth hself hold hidle => ?_⟩
  have hans : ((l.done.map fun d => (d.1.phone, (putsOut env d.2).1)).filter fun a => decide (a.1 = p)).flatMap (·.2) =
      (resultsOf p l.done).flatMap fun d => (putsOut env d.2).1 := by
    rw [List.filter_map, List.flatMap_map]; rfl
  rw [hans]
  -- what is taken up at `j` and elsewhere
  have hsay : ∀ (i : Nat) l, (s0.run env evs).ls[i]? = some l → ∀ t ∈ l.taken, t.Addressed ∧
      (i = j ∧ t.phone = p ∧ (∀ pl, plateOf t = some pl → RegistersAs env bytes p pl) ∨
        t.phone ≠ p ∧ ∀ pl, RegistersAs env bytes p pl → plateOf t ≠ some pl) := by
    intro i l' hl' t ht
    by_cases hi : i = j
    · subst hi
      rw [hl] at hl'
      cases hl'
      obtain ⟨f, hf, now, hd, m, rfl, hh⟩ := hreads.taken t ht
      refine ⟨holds_addressed hh, ?_⟩
      obtain ⟨rest, hr, -⟩ := cut_is_recvs .eof bytes
      by_cases hph : hd.phone = p
      · refine .inl ⟨rfl, hph, fun pl hpl => ?_⟩
        cases m with
        | m0100 g => cases hpl; exact ⟨.eof, _, rest, hr, f, hf, now, hd, g, hh, hph, rfl⟩
        | _ => cases hpl
      · refine .inr ⟨hph, fun pl hreg hpl => ?_⟩
        have := (hself .eof _ rest hr f hf).2 now hd m hh hph
        cases m with
        | m0100 g => cases hpl; exact this g rfl hreg
        | _ => cases hpl
    · obtain ⟨e1, e2, e3⟩ := hoth i l' hl' hi t ht
      exact ⟨e1, .inr ⟨e2, e3⟩⟩
  -- the goroutines that are given these messages
  let jobs : List (List Task) := (s0.run env evs).ls.map Line.taken
  have hjobs : ∀ (i : Nat) ts, jobs[i]? = some ts → ∃ l, (s0.run env evs).ls[i]? = some l ∧ ts = l.taken := by
    intro i ts hi
    simp only [jobs, List.getElem?_map, Option.map_eq_some_iff] at hi
    obtain ⟨l, h1, h2⟩ := hi
    exact ⟨l, h1, h2.symm⟩
  have hlike : s0.Like jobs (WSys.begin st0 jobs) := by
    refine ⟨hst0.symm, by simp [WSys.begin, jobs, hlen], fun i l ts w h1 h2 h3 => ?_, by simp [jobs, hlen]⟩
    simp only [WSys.begin, List.getElem?_map, h2, Option.map_some, Option.some.injEq] at h3
    subst h3
    have hl := hstart l (List.mem_of_getElem? h1)
    exact ⟨hl.1.symm, hl.2.symm, fun _ => by simp [Line.taken, hl.1, hl.2]⟩
  obtain ⟨evs', hfin, -, hsub, -⟩ := lines_refine (env := env) jobs evs s0 _ hlike (by
    intro i l ts hl hts
    obtain ⟨l', h1, rfl⟩ := hjobs i ts hts
    rw [hl] at h1; cases h1
    exact List.prefix_refl _)
  have hw : ((WSys.begin st0 jobs).run env evs').ws[j]? = some _ :=
    List.getElem?_eq_getElem (by rw [hfin.len]; exact (List.getElem?_eq_some_iff.1 hl).1)
  generalize ((WSys.begin st0 jobs).run env evs').ws[j]'(by rw [hfin.len]; exact (List.getElem?_eq_some_iff.1 hl).1) = w at hw
  have hjj : jobs[j]? = some l.taken := by simp only [jobs, List.getElem?_map, hl, Option.map_some]
  have hlw := hfin.line j l l.taken w hl hjj hw
  have hflat : ∀ t ∈ jobs.flatten, ∃ (i : Nat) (l : Line), (s0.run env evs).ls[i]? = some l ∧ t ∈ l.taken := by
    intro t ht
    obtain ⟨ts, h1, h2⟩ := List.mem_flatten.1 ht
    obtain ⟨i, hi⟩ := List.getElem?_of_mem h1
    obtain ⟨l', h3, rfl⟩ := hjobs i ts hi
    exact ⟨i, l', h3, h2⟩
  obtain ⟨-, ms, k1, k2, k3, k4, -, k5, k6, k7⟩ := C154_one_connection env before jobs evs' p j
    (by
      intro ts hts t ht
      obtain ⟨i, l', h1, h2⟩ := hflat t (List.mem_flatten.2 ⟨ts, hts, ht⟩)
      exact (hsay i l' h1 t h2).1)
    (by
      intro t t' ht ht' hq hq' pl hpl
      obtain ⟨i', l', h1, h2⟩ := hflat t' ht'
      have hreg : RegistersAs env bytes p pl := by
        rcases (hsay i' l' h1 t' h2).2 with ⟨-, -, h⟩ | ⟨h, -⟩
        · exact h pl hpl
        · exact absurd hq' h
      rcases ht with ht | ht
      · exact hold t ht hq pl hreg
      · obtain ⟨i, l'', h3, h4⟩ := hflat t ht
        rcases (hsay i l'' h3 t h4).2 with ⟨-, h, -⟩ | ⟨-, h⟩
        · exact absurd h hq
        · exact h pl hreg)
    (by
      intro i ts hi t ht hq
      obtain ⟨l', h1, rfl⟩ := hjobs i ts hi
      rcases (hsay i l' h1 t ht).2 with ⟨h, -⟩ | ⟨h, -⟩
      · exact h
      · exact absurd hq h)
    w hw (by intro t q e; rw [hlw.cur] at e; exact hidle t q e)
  rw [hlw.done] at k1 k3 k4 k5 k6 k7
  rw [hfin.store] at k4 k5 k6 k7
  have hms : ∀ k ∈ ms, During (timesOf j evs) k := by
    intro k hk _
    have hne : timesOf j evs' ≠ [] := by
      intro he
      have h1 := workers_still (env := env) evs' (WSys.begin st0 jobs) j he
      rw [hw] at h1
      simp only [WSys.begin, List.getElem?_map, hjj, Option.map_some, Option.some.injEq] at h1
      have h2 : l.done = [] := by rw [← hlw.done, h1]
      rw [h2] at k1
      rw [List.length_eq_zero_iff.1 k1] at hk
      cases hk
    have hin : ∀ x ∈ timesOf j evs', x ∈ timesOf j evs := by
      intro x hx
      obtain ⟨e, h1, rfl⟩ := List.mem_map.1 hx
      obtain ⟨h2, h3⟩ := List.mem_filter.1 h1
      exact List.mem_map.2 ⟨e, List.mem_filter.2 ⟨hsub e h2, h3⟩, rfl⟩
    obtain ⟨⟨a, a1, a2⟩, ⟨b, b1, b2⟩⟩ := k2 k hk hne
    exact ⟨⟨a, hin a a1, a2⟩, ⟨b, hin b b1, b2⟩⟩
  have hnow : ∀ k ∈ timesOf j evs, During (timesOf j evs) k := fun k hk _ => ⟨⟨k, hk, rfl⟩, ⟨k, hk, rfl⟩⟩
  obtain ⟨rest, hr1, hr2⟩ := cut_is_recvs .eof bytes
  have hwhole : ∀ f ∈ cut RecvSt.fresh bytes, Whole env f := fun f hf =>
    (hfrag .eof _ rest hr1 f hf).1
  -- as long as no frame of `p` has ended it
  have calm : ∀ (fs : List (List UInt8)) (done : List (Task × Res (Option Out))), Heard env c (timesOf j evs) fs (done.map (·.1)) →
      (∀ d ∈ done, (putsOut env d.2).2 = false) → resultsOf p l.done = resultsOf p done →
      ∃ ks : List Clock, ks.length = (fs.filter (ofPhone env p)).length ∧ (∀ k ∈ ks, During (timesOf j evs) k) ∧
        let r := serves env c st0 ((fs.filter (ofPhone env p)).zip ks)
        (resultsOf p l.done).flatMap (fun d => (putsOut env d.2).1) = r.2.1 ∧ r.2.2 = false ∧
            (s0.run env evs).st.look p = r.1.look p ∧ (s0.run env evs).st.geos.get p = r.1.geos.get p ∧
            (s0.run env evs).st.jobs.count p = r.1.jobs.count p ∧ (s0.run env evs).st.paramsOf p = r.1.paramsOf p := by
    intro fs done h2 h3 he
    rw [he] at k1 k3 k4 k5 k6 k7
    have h2' := heard_filter (p := p) h2
    rw [← resultsOf_map] at h2'
    obtain ⟨ks, a1, a2, a3⟩ := heard_serves (st := st0) h2' ms (by rw [k1, List.length_map]) (by
      rw [k3]
      intro r hr
      obtain ⟨d, hd, rfl⟩ := List.mem_map.1 hr
      exact h3 d (List.mem_filter.1 hd).1)
    refine ⟨ks, a1, fun k hk => (a2 k hk).elim (hnow k) (hms k), ?_⟩
    simp only
    rw [a3]
    refine ⟨?_, rfl, k4, k5, k6, k7⟩
    simp only
    rw [k3, List.flatMap_map, he]
  have filt : ∀ (fs : List (List UInt8)) f, ofPhone env p f = false → (fs ++ [f]).filter (ofPhone env p) = fs.filter (ofPhone env p) := by
    intro fs f h
    rw [List.filter_append, List.filter_cons_of_neg (by simp [h])]; simp
  cases hlog with
  | @waits fs input recv done h1 h2 h3 =>
    obtain ⟨ks, a1, a2, a3, a4, a5⟩ := calm fs done h2 h3 rfl
    refine ⟨_, rest, fs, ks, hr1, hr2, ⟨_, h1.symm⟩, fun hin _ => ?_, a1, a2, a3, fun h => (by rw [a4] at h; cases h), a5⟩
    have hin : input = [] := hin
    subst hin
    rw [h1]; simp [cut]
  | @handles fs f k0 t q input recv done h1 h2 h3 h4 h5 =>
    obtain ⟨ks, a1, a2, a3, a4, a5⟩ := calm fs done h2 h3 rfl
    have ho : ofPhone env p f = false := by rw [received_phone h5]; simpa using hidle t q rfl
    refine ⟨_, rest, fs ++ [f], ks, hr1, hr2, ⟨_, h1.symm⟩, fun hin _ => ?_, ?_⟩
    · have hin : input = [] := hin
      subst hin
      rw [h1]; simp [cut]
    · rw [filt fs f ho]
      exact ⟨a1, a2, a3, fun h => (by rw [a4] at h; cases h), a5⟩
  | @stopped fs f k0 input recv done h1 h2 h3 h4 h5 =>
    obtain ⟨ks, a1, a2, a3, a4, a5⟩ := calm fs done h2 h3 rfl
    cases ho : ofPhone env p f with
    | false =>
      refine ⟨_, rest, fs ++ [f], ks, hr1, hr2, ⟨_, h1.symm⟩, fun _ h => (by cases h), ?_⟩
      rw [filt fs f ho]
      exact ⟨a1, a2, a3, fun _ => rfl, a5⟩
    | true =>
      have hf : (fs ++ [f]).filter (ofPhone env p) = fs.filter (ofPhone env p) ++ [f] := by
        rw [List.filter_append, List.filter_cons_of_pos ho]; rfl
      refine ⟨_, rest, fs ++ [f], ks ++ [k0], hr1, hr2, ⟨_, h1.symm⟩, fun _ h => (by cases h), by rw [hf]; simp [a1], fun k hk => ?_, ?_⟩
      · rcases List.mem_append.1 hk with hk | hk
        · exact a2 k hk
        · rw [List.mem_singleton.1 hk]; exact hnow k0 h4
      · have e := serves_snoc (env := env) (c := c) st0 ((fs.filter (ofPhone env p)).zip ks) f k0 a4
        have hz : ((fs ++ [f]).filter (ofPhone env p)).zip (ks ++ [k0]) = (fs.filter (ofPhone env p)).zip ks ++ [(f, k0)] := by
          rw [hf, List.zip_append a1.symm]; rfl
        rw [← hz] at e
        rw [received_stop (hwhole f (by rw [h1]; simp)) h5] at e
        simp only
        rw [e]
        obtain ⟨b1, b2, b3, b4⟩ := a5
        refine ⟨?_, fun _ => trivial, b1, b2, b3, b4⟩
        simp only at a3 ⊢
        rw [a3]
        simp [Obs.bytes]
  | @failed fs f k0 t r input recv done h1 h2 h3 h4 h5 h6 =>
    have ho := received_phone (p := p) h5
    by_cases ht : t.phone = p
    · simp only [ht, decide_true] at ho
      have hf : (fs ++ [f]).filter (ofPhone env p) = fs.filter (ofPhone env p) ++ [f] := by
        rw [List.filter_append, List.filter_cons_of_pos ho]; rfl
      have hres : resultsOf p (done ++ [(t, r)]) = resultsOf p done ++ [(t, r)] := by
        simp [resultsOf, List.filter_append, ht]
      simp only at k1 k3 k4 k5 k6 k7
      rw [hres] at k1 k3 k4 k5 k6 k7
      obtain ⟨ms', m, rfl⟩ : ∃ ms' m, ms = ms' ++ [m] := by
        rcases List.eq_nil_or_concat ms with h | ⟨ms', m, h⟩
        · subst h; simp at k1
        · exact ⟨ms', m, by rw [h, List.concat_eq_append]⟩
      have hm' : ms'.length = ((resultsOf p done).map (·.1)).length := by simpa using k1
      have hz : ((resultsOf p done ++ [(t, r)]).map (·.1)).zip (ms' ++ [m]) = ((resultsOf p done).map (·.1)).zip ms' ++ [(t, m)] := by
        rw [List.map_append, List.zip_append hm'.symm]; rfl
      rw [hz, inOrder_snoc] at k3 k4 k5 k6 k7
      rw [List.map_append] at k3
      obtain ⟨e1, e2⟩ := List.append_inj' k3 rfl
      have e2 : (handled env m (inOrder env st0 (((resultsOf p done).map (·.1)).zip ms')).1 t).2 = r := (List.cons.inj e2).1
      have h2' := heard_filter (p := p) h2
      rw [← resultsOf_map] at h2'
      obtain ⟨ks, a1, a2, a3⟩ := heard_serves (st := st0) h2' ms' hm' (by
        rw [e1]
        intro r hr
        obtain ⟨d, hd, rfl⟩ := List.mem_map.1 hr
        exact h3 d (List.mem_filter.1 hd).1)
      obtain ⟨k, hk, hserve⟩ := received_msg h5 m
      obtain ⟨g1, g2, g3⟩ := hserve (inOrder env st0 (((resultsOf p done).map (·.1)).zip ms')).1
      rw [e2, h6] at g1 g3
      rw [e2] at g2
      refine ⟨_, rest, fs ++ [f], ks ++ [k], hr1, hr2, ⟨_, h1.symm⟩, fun _ h => (by cases h), by rw [hf]; simp [a1], fun x hx => ?_, ?_⟩
      · rcases List.mem_append.1 hx with hx | hx
        · exact (a2 x hx).elim (hnow x) fun h => hms x (List.mem_append_left _ h)
        · rw [List.mem_singleton.1 hx]
          rcases hk with rfl | rfl
          · exact hnow k h4
          · exact hms k (List.mem_append_right _ List.mem_cons_self)
      · have e := serves_snoc (env := env) (c := c) st0 ((fs.filter (ofPhone env p)).zip ks) f k (by rw [a3])
        have hz : ((fs ++ [f]).filter (ofPhone env p)).zip (ks ++ [k]) = (fs.filter (ofPhone env p)).zip ks ++ [(f, k)] := by
          rw [hf, List.zip_append a1.symm]; rfl
        rw [← hz] at e
        rw [a3] at e
        simp only at e
        rw [g1, g2, g3, e1] at e
        simp only
        rw [e]
        refine ⟨?_, fun _ => trivial, k4, k5, k6, k7⟩
        simp [hres, List.flatMap_map]
    · have hres : resultsOf p (done ++ [(t, r)]) = resultsOf p done := by
        simp [resultsOf, List.filter_append, ht]
      simp only [ht, decide_false] at ho
      obtain ⟨ks, a1, a2, a3, a4, a5⟩ := calm fs done h2 h3 hres
      refine ⟨_, rest, fs ++ [f], ks, hr1, hr2, ⟨_, h1.symm⟩, fun _ h => (by cases h), ?_⟩
      rw [filt fs f ho]
      exact ⟨a1, a2, a3, fun _ => rfl, a5⟩

/-- **C167**: connections on which any bytes without fragments arrive, and keepalive checks.  On connection `j` there may be
messages of any number of phones.  What is written on `j` is a sequence of answers, each for a phone, such that for every phone
`p` all messages of which come on `j`, and the plates of which are its own, at every point at which `j` is not in the middle of a
message of `p`: the answers for `p` are exactly what the sequential server writes that is given those of the frames read so far
that are of `p`, and nothing else, at some moments of the run; and the server knows of `p` what that server knows. -/
theorem C167_gateway (env : Env) (before : List CEv) (conns : List (Conn × List UInt8)) (checks : List Str)
    (evs : List (Nat × Clock)) (j : Nat) (c : Conn) (bytes : List UInt8) (hj : conns[j]? = some (c, bytes))
    (hfrag : ∀ o ∈ conns, Speaks env o.2 fun _ _ => True)
    (l : Line)
    (hl : ((LSys.mk (CSys.start.run env before).st (conns.map (fun o => Line.open o.1 o.2) ++ checks.map Line.check)).run
      env evs).ls[j]? = some l) :
    let st0 := (CSys.start.run env before).st
    let s := (LSys.mk st0 (conns.map (fun o => Line.open o.1 o.2) ++ checks.map Line.check)).run env evs
    ∃ answers : List (Str × List UInt8), l.output = answers.flatMap (·.2) ∧
      ∀ p, OnlyAt env before conns checks j bytes p → (∀ t q, l.cur = some (t, q) → t.phone ≠ p) →
        ∃ (frames : List (List UInt8)) (rest : List UInt8) (fs : List (List UInt8)) (clks : List Clock),
          Recvs .eof bytes frames rest ∧ recv .eof rest = (.err .eof, []) ∧ fs <+: frames ∧
          (l.input = [] → l.ended = false → fs = frames) ∧ clks.length = (fs.filter (ofPhone env p)).length ∧
          (∀ k ∈ clks, During (timesOf j evs) k) ∧
          let r := serves env c st0 ((fs.filter (ofPhone env p)).zip clks)
          (answers.filter fun a => decide (a.1 = p)).flatMap (·.2) = r.2.1 ∧ (r.2.2 = true → l.ended = true) ∧
            s.st.look p = r.1.look p ∧ s.st.geos.get p = r.1.geos.get p ∧
            s.st.jobs.count p = r.1.jobs.count p ∧ s.st.paramsOf p = r.1.paramsOf p := by
  intro st0 s
  have hs0 : ∃ s0 : LSys, s0 = LSys.mk st0 (conns.map (fun o => Line.open o.1 o.2) ++ checks.map Line.check) := ⟨_, rfl⟩
  obtain ⟨s0, hs0⟩ := hs0
  have hs : s = s0.run env evs := by rw [hs0]
  have hl : s.ls[j]? = some l := hl
  generalize s = s at hs hl
  subst hs
  have hopen : ∀ (i : Nat) o, conns[i]? = some o → s0.ls[i]? = some (Line.open o.1 o.2) := by
    intro i o hi
    rw [hs0]
    simp only
    rw [List.getElem?_append_left (by rw [List.length_map]; exact (List.getElem?_eq_some_iff.1 hi).1), List.getElem?_map, hi]
    rfl
  -- whose messages the goroutines take up
  have hreads : ∀ (i : Nat) l, (s0.run env evs).ls[i]? = some l →
      (∃ o, conns[i]? = some o ∧ l.Reads env o.1 (cut RecvSt.fresh o.2)) ∨
        (conns.length ≤ i ∧ ∃ q ∈ checks, l.input = [] ∧ l.taken ++ l.todo = [.check q]) := by
    refine lines_run (env := env) (P := fun i l => (∃ o, conns[i]? = some o ∧ l.Reads env o.1 (cut RecvSt.fresh o.2)) ∨
        (conns.length ≤ i ∧ ∃ q ∈ checks, l.input = [] ∧ l.taken ++ l.todo = [.check q])) (fun i clk st l h => ?_) evs s0 ?_
    · rcases h with ⟨o, h1, h2⟩ | ⟨h0, q, h1, h2⟩
      · exact .inl ⟨o, h1, next_reads h2⟩
      · exact .inr ⟨h0, q, h1, next_check h2⟩
    · intro i l hl
      by_cases hi : i < conns.length
      · have ho : conns[i]? = some conns[i] := List.getElem?_eq_getElem hi
        rw [hopen i _ ho] at hl
        cases hl
        exact .inl ⟨_, ho, rfl, rfl, fun f hf => hf, fun t ht => by simp [Line.taken, Line.open] at ht⟩
      · rw [hs0] at hl
        simp only at hl
        rw [List.getElem?_append_right (by rw [List.length_map]; exact Nat.not_lt.1 hi)] at hl
        obtain ⟨q, h1, rfl⟩ := List.mem_map.1 (List.mem_of_getElem? hl)
        exact .inr ⟨Nat.not_lt.1 hi, q, h1, rfl, rfl⟩
  obtain ⟨answers, a1, a2⟩ := line_gateway env before s0 (by rw [hs0]) (by
    intro l hl
    rw [hs0] at hl
    simp only [List.mem_append, List.mem_map] at hl
    rcases hl with ⟨y, -, rfl⟩ | ⟨y, -, rfl⟩ <;> exact ⟨rfl, rfl⟩) evs j c bytes (hopen j _ hj) (hfrag _ (List.mem_of_getElem? hj)) l hl
  refine ⟨answers, a1, fun p hp hidle => a2 p ?_ (hp.plates j _ hj) hp.old hidle⟩
  intro i l hl hi t ht
  rcases hreads i l hl with ⟨o, h1, h2⟩ | ⟨h0, q, h1, -, h2⟩
  · obtain ⟨f, hf, now, hd, m, rfl, hh⟩ := h2.taken t ht
    obtain ⟨rest, hr, -⟩ := cut_is_recvs .eof o.2
    have hph : hd.phone ≠ p := ((hp.others i o h1 hi) .eof _ rest hr f hf).2 now hd m hh
    refine ⟨holds_addressed hh, hph, fun pl hreg hpl => ?_⟩
    have := ((hp.plates i o h1) .eof _ rest hr f hf).2 now hd m hh hph
    cases m with
    | m0100 g => cases hpl; exact this g rfl hreg
    | _ => cases hpl
  · have : t ∈ [Task.check q] := by rw [← h2]; exact List.mem_append_left _ ht
    rw [List.mem_singleton.1 this]
    exact ⟨trivial, fun e => hp.checks (by rw [← e]; exact h1), fun pl _ e => by cases e⟩

/-! Two terminals behind a gateway: one registers and sends a heartbeat, the other one, which nobody knows, asks for its
parameters in between. -/

def gateBytes : List UInt8 := msgFrame (lineHdr 1 0x0100) ((lineReg 0x31).encode goEnv .v2013) ++ [5] ++
  msgFrame (lineHdr 2 0x8104) [] ++ msgFrame (lineHdr 1 0x0002) []

def gateConns : List (Conn × List UInt8) := [(demoC, gateBytes), (demoC', lineOther)]

def gateEvs : List (Nat × Clock) := (List.range 140).flatMap fun n => [(0, demoClk n), (1, demoClk (n + 5))]

theorem holds_register {now : Civil} {f : List UInt8} {h : Header} {g : Register} (hh : Holds env now f h (.m0100 g)) :
    h.msgID = 0x0100 := by
  obtain ⟨pd, t, k, -, -, -, ht, e5⟩ := hh
  cases t with
  | t0100 => simpa [msgTable] using ofID_mem ht
  | _ =>
    exfalso
    unfold MType.decode at e5
    first
      | (injection e5 with e5; injection e5 with e5 _; cases e5)
      | (obtain ⟨a, k', -, h2⟩ := rd_bind_ok e5; injection h2 with h2; injection h2 with h2 _; cases h2)

/-- On the gateway only the first registers, elsewhere nobody does and both phones are silent. -/
theorem gate_speaks : Speaks goEnv gateBytes (fun h _ => h.phone = (lineHdr 1 0).phone ∨ h.msgID ≠ 0x0100) ∧
    Speaks goEnv lineOther (fun h _ => h.phone ≠ (lineHdr 1 0).phone ∧ h.phone ≠ (lineHdr 2 0).phone ∧ h.msgID ≠ 0x0100) :=
  ⟨(speaks_of (q := fun h => h.phone == (lineHdr 1 0).phone || h.msgID != 0x0100) (by decide +kernel)).imp fun hd m h => by simpa using h,
   (speaks_of (q := fun h => h.phone != (lineHdr 1 0).phone && h.phone != (lineHdr 2 0).phone && h.msgID != 0x0100) (by decide +kernel)).imp
    fun hd m h => by simpa [and_assoc] using h⟩

theorem gate_only (n : Nat) (hn : n = 1 ∨ n = 2) : OnlyAt goEnv [] gateConns [] 0 gateBytes (lineHdr n 0).phone := by
  have hne : (lineHdr 1 0).phone ≠ (lineHdr 2 0).phone := by decide
  refine ⟨fun i o ho hi => ?_, fun i o ho => ?_, fun t ht => (by cases ht), (by simp)⟩
  · match i, ho with
    | 0, _ => exact absurd rfl hi
    | 1, ho =>
      cases ho
      refine gate_speaks.2.imp fun hd m h => ?_
      rcases hn with rfl | rfl
      · exact h.1
      · exact h.2.1
    | n + 2, ho => cases ho
  · match i, ho with
    | 0, ho =>
      cases ho
      intro e fs rest hr f hf
      refine ⟨(gate_speaks.1 e fs rest hr f hf).1, fun now hd m hh hp g hg => ?_⟩
      subst hg
      have h1 := (gate_speaks.1 e fs rest hr f hf).2 now hd _ hh
      have h2 : hd.phone = (lineHdr 1 0).phone := h1.elim id fun h => absurd (holds_register hh) h
      rcases hn with rfl | rfl
      · exact absurd h2 hp
      · rintro ⟨e', fs', rest', hr', f', hf', now', h', g', hh', hp', -⟩
        have h3 := (gate_speaks.1 e' fs' rest' hr' f' hf').2 now' h' _ hh'
        rcases h3 with h3 | h3
        · exact hne (h3.symm.trans hp')
        · exact h3 (holds_register hh')
    | 1, ho =>
      cases ho
      intro e fs rest hr f hf
      refine ⟨(gate_speaks.2 e fs rest hr f hf).1, fun now hd m hh hp g hg => ?_⟩
      subst hg
      exact absurd (holds_register hh) ((gate_speaks.2 e fs rest hr f hf).2 now hd _ hh).2.2
    | n + 2, ho => cases ho

/-- The gateway has been sent three answers and is served on. -/
example : (((LSys.mk Store.empty (gateConns.map (fun o => Line.open o.1 o.2))).run goEnv gateEvs).ls.map fun l =>
    (l.done.map (·.1.phone), l.ended, l.input.length, l.cur.isNone))[0]? =
      some ([(lineHdr 1 0).phone, (lineHdr 2 0).phone, (lineHdr 1 0).phone], false, 0, true) := by
  decide +kernel

example (l : Line) (hl : ((LSys.mk (CSys.start.run goEnv []).st (gateConns.map (fun o => Line.open o.1 o.2))).run goEnv
      gateEvs).ls[0]? = some l) (hidle : l.cur = none) :
    ∃ answers : List (Str × List UInt8), l.output = answers.flatMap (·.2) ∧ ∀ n, n = 1 ∨ n = 2 →
      ∃ (fs : List (List UInt8)) (clks : List Clock), (answers.filter fun a => decide (a.1 = (lineHdr n 0).phone)).flatMap (·.2) =
        (serves goEnv demoC Store.empty ((fs.filter (ofPhone goEnv (lineHdr n 0).phone)).zip clks)).2.1 := by
  obtain ⟨answers, h1, h2⟩ := C167_gateway goEnv [] gateConns [] gateEvs 0 demoC gateBytes rfl (by
    intro o ho
    simp only [gateConns, List.mem_cons, List.not_mem_nil, or_false] at ho
    rcases ho with rfl | rfl
    · exact gate_speaks.1.imp fun _ _ _ => trivial
    · exact gate_speaks.2.imp fun _ _ _ => trivial) l (by simpa using hl)
  refine ⟨answers, h1, fun n hn => ?_⟩
  obtain ⟨-, -, fs, clks, -, -, -, -, -, -, h3, -⟩ := h2 _ (gate_only n hn) (by intro t q e; rw [hidle] at e; cases e)
  exact ⟨fs, clks, h3⟩

end JT808
