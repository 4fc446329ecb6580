import Verif.Proof.Serial
/-
C160: a terminal on one connection, whatever bytes it sends, is sent the bytes the sequential server would send it.
-/
namespace JT808
open Spec

namespace Spec

/-- None of the frames in these bytes is a fragment, and all the messages in them are of a kind. -/
def Speaks (env : Env) (bytes : List UInt8) (Q : Header → Msg → Prop) : Prop :=
  ∀ e fs rest, Recvs e bytes fs rest → ∀ f ∈ fs,
    (∀ pd, decodeFrame env f = .ok pd → pd.header.isFragmented = false) ∧ ∀ now h m, Holds env now f h m → Q h m

/-- There is a registration with this plate in these bytes. -/
def Registers (env : Env) (bytes : List UInt8) (plate : Str) : Prop :=
  ∃ e fs rest, Recvs e bytes fs rest ∧ ∃ f ∈ fs, ∃ now h g, Holds env now f h (.m0100 g) ∧ g.plate = plate

end Spec

/-- What line `j` of any system has written, when the messages the others take up are of other phones. -/
theorem line_sequential (env : Env) (before : List CEv) (s0 : LSys) (hst0 : s0.st = (CSys.start.run env before).st)
    (evs : List (Nat × Clock)) (p : Str) (j : Nat) (c : Conn) (bytes : List UInt8) (hopen : s0.ls[j]? = some (Line.open c bytes))
    (hown : Speaks env bytes fun h _ => h.phone = p) (hstart : ∀ l ∈ s0.ls, l.cur = none ∧ l.done = [])
    (hoth : ∀ (i : Nat) l, (s0.run env evs).ls[i]? = some l → i ≠ j → ∀ t ∈ l.taken, t.Addressed ∧ t.phone ≠ p ∧
      ∀ pl, Registers env bytes pl → plateOf t ≠ some pl)
    (hold : ∀ t, .spawn t ∈ before → t.phone ≠ p → ∀ pl, Registers env bytes pl → plateOf t ≠ some pl)
    (l : Line) (hl : (s0.run env evs).ls[j]? = some l) (hidle : l.cur = none) :
    let st0 := (CSys.start.run env before).st
    let s := s0.run env evs
    ∃ (frames : List (List UInt8)) (rest : List UInt8) (fs : List (List UInt8)) (clks : List Clock),
      Recvs .eof bytes frames rest ∧ recv .eof rest = (.err .eof, []) ∧ fs <+: frames ∧
      (l.input = [] → l.ended = false → fs = frames) ∧ (timesOf j evs = [] → fs = []) ∧ clks.length = fs.length ∧ (∀ k ∈ clks, During (timesOf j evs) k) ∧
      let r := serves env c st0 (fs.zip clks)
      l.output = r.2.1 ∧ l.ended = r.2.2 ∧ s.st.look p = r.1.look p ∧ s.st.geos.get p = r.1.geos.get p ∧
        s.st.jobs.count p = r.1.jobs.count p ∧ s.st.paramsOf p = r.1.paramsOf p := by
  intro st0 s
  have hl : s.ls[j]? = some l := hl
  have hs : s = s0.run env evs := rfl
  generalize s = s at hs hl
  subst hs
  have hlen : (s0.run env evs).ls.length = s0.ls.length := lines_length ..
  -- the frames the connection has read
  have hlog : l.Log env c bytes (timesOf j evs) := by
    refine lines_run_at (env := env) (P := fun i l => i = j → l.Log env c bytes (timesOf j evs)) evs
      (fun i clk st l he h hi => next_log ?_ (h hi)) s0 ?_ j l hl rfl
    · subst hi
      exact List.mem_map.2 ⟨(i, clk), List.mem_filter.2 ⟨he, by simp⟩, rfl⟩
    · intro i l' hl' hi
      rw [hi, hopen] at hl'
      cases hl'
      exact .waits (fs := []) rfl .nil (fun d hd => by cases hd)
  -- whose messages the goroutine takes up
  have hreads : l.Reads env c (cut RecvSt.fresh bytes) := by
    refine lines_run (env := env) (P := fun i l => i = j → l.Reads env c (cut RecvSt.fresh bytes))
      (fun i clk st l h hi => next_reads (h hi)) evs s0 ?_ j l hl rfl
    intro i l' hl' hi
    rw [hi, hopen] at hl'
    cases hl'
    exact ⟨rfl, rfl, fun f hf => hf, fun t ht => by simp [Line.taken, Line.open] at ht⟩
  have hown' : ∀ f ∈ cut RecvSt.fresh bytes, ∀ now h m, Holds env now f h m → h.phone = p := by
    intro f hf now h m hh
    obtain ⟨rest, hr, -⟩ := cut_is_recvs .eof bytes
    exact (hown .eof _ rest hr f hf).2 now h m hh
  have hregs : ∀ f ∈ cut RecvSt.fresh bytes, ∀ now h g, Holds env now f h (.m0100 g) → Registers env bytes g.plate := by
    intro f hf now h g hh
    obtain ⟨rest, hr, -⟩ := cut_is_recvs .eof bytes
    exact ⟨.eof, _, rest, hr, f, hf, now, h, g, hh, rfl⟩
  -- what is taken up at `j` and elsewhere
  have hsay : ∀ (i : Nat) l, (s0.run env evs).ls[i]? = some l → ∀ t ∈ l.taken, t.Addressed ∧
      (i = j ∧ t.phone = p ∧ (∀ pl, plateOf t = some pl → Registers env bytes pl) ∨
        i ≠ j ∧ t.phone ≠ p ∧ ∀ pl, Registers env bytes pl → plateOf t ≠ some pl) := by
    intro i l' hl' t ht
    by_cases hi : i = j
    · subst hi
      rw [hl] at hl'
      cases hl'
      obtain ⟨f, hf, now, hd, m, rfl, hh⟩ := hreads.taken t ht
      refine ⟨holds_addressed hh, .inl ⟨rfl, hown' f hf now hd m hh, fun pl hpl => ?_⟩⟩
      cases m with
      | m0100 g => cases hpl; exact hregs f hf now hd g hh
      | _ => cases hpl
    · obtain ⟨h1, h2, h3⟩ := hoth i l' hl' hi t ht
      exact ⟨h1, .inr ⟨hi, h2, h3⟩⟩
  -- the goroutines that are given these messages
  let jobs : List (List Task) := (s0.run env evs).ls.map Line.taken
  have hjobs : ∀ (i : Nat) ts, jobs[i]? = some ts → ∃ l, (s0.run env evs).ls[i]? = some l ∧ ts = l.taken := by
    intro i ts hi
    simp only [jobs, List.getElem?_map, Option.map_eq_some_iff] at hi
    obtain ⟨l, h1, h2⟩ := hi
    exact ⟨l, h1, h2.symm⟩
  have hlike : s0.Like jobs (WSys.begin st0 jobs) := by
    refine ⟨hst0.symm, by simp [WSys.begin, jobs, hlen], fun i l ts w h1 h2 h3 => ?_, by simp [jobs, hlen]⟩
    simp only [WSys.begin, List.getElem?_map, h2, Option.map_some, Option.some.injEq] at h3
    subst h3
    have hl := hstart l (List.mem_of_getElem? h1)
    exact ⟨hl.1.symm, hl.2.symm, fun _ => by simp [Line.taken, hl.1, hl.2]⟩
  obtain ⟨evs', hfin, -, hsub, -⟩ := lines_refine (env := env) jobs evs s0 _ hlike (by
    intro i l ts hl hts
    obtain ⟨l', h1, rfl⟩ := hjobs i ts hts
    rw [hl] at h1; cases h1
    exact List.prefix_refl _)
  have hw : ((WSys.begin st0 jobs).run env evs').ws[j]? = some _ :=
    List.getElem?_eq_getElem (by rw [hfin.len]; exact (List.getElem?_eq_some_iff.1 hl).1)
  generalize ((WSys.begin st0 jobs).run env evs').ws[j]'(by rw [hfin.len]; exact (List.getElem?_eq_some_iff.1 hl).1) = w at hw
  have hjj : jobs[j]? = some l.taken := by simp only [jobs, List.getElem?_map, hl, Option.map_some]
  have hlw := hfin.line j l l.taken w hl hjj hw
  have hcur : w.cur = none := hlw.cur.trans hidle
  have hflat : ∀ t ∈ jobs.flatten, ∃ (i : Nat) (l : Line), (s0.run env evs).ls[i]? = some l ∧ t ∈ l.taken := by
    intro t ht
    obtain ⟨ts, h1, h2⟩ := List.mem_flatten.1 ht
    obtain ⟨i, hi⟩ := List.getElem?_of_mem h1
    obtain ⟨l', h3, rfl⟩ := hjobs i ts hi
    exact ⟨i, l', h3, h2⟩
  obtain ⟨-, ms, k1, k2, k3, k4, -, k5, k6, k7⟩ := C154_one_connection env before jobs evs' p j
    (by
      intro ts hts t ht
      obtain ⟨i, l', h1, h2⟩ := hflat t (List.mem_flatten.2 ⟨ts, hts, ht⟩)
      exact (hsay i l' h1 t h2).1)
    (by
      intro t t' ht ht' hp hp' pl hpl
      obtain ⟨i', l', h1, h2⟩ := hflat t' ht'
      have hreg : Registers env bytes pl := by
        rcases (hsay i' l' h1 t' h2).2 with ⟨-, -, h⟩ | ⟨-, h, -⟩
        · exact h pl hpl
        · exact absurd hp' h
      rcases ht with ht | ht
      · exact hold t ht hp pl hreg
      · obtain ⟨i, l'', h3, h4⟩ := hflat t ht
        rcases (hsay i l'' h3 t h4).2 with ⟨-, h, -⟩ | ⟨-, -, h⟩
        · exact absurd h hp
        · exact h pl hreg)
    (by
      intro i ts hi t ht hp
      obtain ⟨l', h1, rfl⟩ := hjobs i ts hi
      rcases (hsay i l' h1 t ht).2 with ⟨h, -⟩ | ⟨-, h, -⟩
      · exact h
      · exact absurd hp h)
    w hw (by intro t q e; rw [hcur] at e; cases e)
  have hmine : resultsOf p w.done = l.done := by
    rw [hlw.done]
    refine List.filter_eq_self.2 fun d hd => ?_
    have : d.1 ∈ l.taken := List.mem_append_left _ (List.mem_map_of_mem hd)
    rcases (hsay j l hl d.1 this).2 with ⟨-, h, -⟩ | ⟨h, -⟩
    · simpa using h
    · exact absurd rfl h
  rw [hmine] at k1 k3 k4 k5 k6 k7
  rw [hfin.store] at k4 k5 k6 k7
  have hms : ∀ k ∈ ms, During (timesOf j evs) k := by
    intro k hk _
    have hne : timesOf j evs' ≠ [] := by
      intro he
      have h1 := workers_still (env := env) evs' (WSys.begin st0 jobs) j he
      rw [hw] at h1
      simp only [WSys.begin, List.getElem?_map, hjj, Option.map_some, Option.some.injEq] at h1
      have h2 : l.done = [] := by rw [← hlw.done, h1]
      rw [h2] at k1
      rw [List.length_eq_zero_iff.1 k1] at hk
      cases hk
    have hin : ∀ x ∈ timesOf j evs', x ∈ timesOf j evs := by
      intro x hx
      obtain ⟨e, h1, rfl⟩ := List.mem_map.1 hx
      obtain ⟨h2, h3⟩ := List.mem_filter.1 h1
      exact List.mem_map.2 ⟨e, List.mem_filter.2 ⟨hsub e h2, h3⟩, rfl⟩
    obtain ⟨⟨a, a1, a2⟩, ⟨b, b1, b2⟩⟩ := k2 k hk hne
    exact ⟨⟨a, hin a a1, a2⟩, ⟨b, hin b b1, b2⟩⟩
  have hnow : ∀ k ∈ timesOf j evs, During (timesOf j evs) k := fun k hk _ => ⟨⟨k, hk, rfl⟩, ⟨k, hk, rfl⟩⟩
  obtain ⟨rest, hr1, hr2⟩ := cut_is_recvs .eof bytes
  have hwhole : ∀ f ∈ cut RecvSt.fresh bytes, Whole env f := fun f hf => (hown .eof _ rest hr1 f hf).1
  have hnil : ∀ {fs ts}, Heard env c (timesOf j evs) fs ts → timesOf j evs = [] → fs = [] := by
    intro fs ts h he
    rw [he] at h
    cases h with
    | nil => rfl
    | skip _ h _ => cases h
    | msg _ h _ => cases h
  cases hlog with
  | handles => cases hidle
  | @waits fs input recv done h1 h2 h3 =>
    obtain ⟨ks, a1, a2, a3⟩ := heard_serves (st := st0) h2 ms (by rw [k1, List.length_map]) (by
      rw [k3]
      intro r hr
      obtain ⟨d, hd, rfl⟩ := List.mem_map.1 hr
      exact h3 d hd)
    refine ⟨_, rest, fs, ks, hr1, hr2, ⟨_, h1.symm⟩, fun hin _ => ?_, hnil h2, a1, fun k hk => ?_, ?_⟩
    · have hin : input = [] := hin
      subst hin
      rw [h1]; simp [cut]
    · exact (a2 k hk).elim (hnow k) (hms k)
    · simp only
      rw [a3]
      refine ⟨?_, rfl, k4, k5, k6, k7⟩
      simp only
      rw [k3, List.flatMap_map]
  | @stopped fs f k0 input recv done h1 h2 h3 h4 h5 =>
    obtain ⟨ks, a1, a2, a3⟩ := heard_serves (st := st0) h2 ms (by rw [k1, List.length_map]) (by
      rw [k3]
      intro r hr
      obtain ⟨d, hd, rfl⟩ := List.mem_map.1 hr
      exact h3 d hd)
    refine ⟨_, rest, fs ++ [f], ks ++ [k0], hr1, hr2, ⟨_, h1.symm⟩, fun _ h => (by cases h), fun h => (by rw [h] at h4; cases h4), by simp [a1], fun k hk => ?_, ?_⟩
    · rcases List.mem_append.1 hk with hk | hk
      · exact (a2 k hk).elim (hnow k) (hms k)
      · rw [List.mem_singleton.1 hk]; exact hnow k0 h4
    · have e := serves_snoc (env := env) (c := c) st0 (fs.zip ks) f k0 (by rw [a3])
      have hz : (fs ++ [f]).zip (ks ++ [k0]) = fs.zip ks ++ [(f, k0)] := by rw [List.zip_append a1.symm]; rfl
      rw [← hz] at e
      rw [a3, received_stop (hwhole f (by rw [h1]; simp)) h5] at e
      simp only
      rw [e]
      refine ⟨?_, rfl, k4, k5, k6, k7⟩
      simp only
      rw [k3, List.flatMap_map]
      simp [Obs.bytes]
  | @failed fs f k0 t r input recv done h1 h2 h3 h4 h5 h6 =>
    obtain ⟨ms', m, rfl⟩ : ∃ ms' m, ms = ms' ++ [m] := by
      rcases List.eq_nil_or_concat ms with h | ⟨ms', m, h⟩
      · subst h; simp at k1
      · exact ⟨ms', m, by rw [h, List.concat_eq_append]⟩
    have hm' : ms'.length = (done.map (·.1)).length := by simpa using k1
    have hz : ((done ++ [(t, r)]).map (·.1)).zip (ms' ++ [m]) = (done.map (·.1)).zip ms' ++ [(t, m)] := by
      rw [List.map_append, List.zip_append hm'.symm]; rfl
    simp only at k3 k4 k5 k6 k7
    rw [hz, inOrder_snoc] at k3 k4 k5 k6 k7
    rw [List.map_append] at k3
    obtain ⟨e1, e2⟩ := List.append_inj' k3 rfl
    have e2 : (handled env m (inOrder env st0 ((done.map (·.1)).zip ms')).1 t).2 = r := (List.cons.inj e2).1
    obtain ⟨ks, a1, a2, a3⟩ := heard_serves (st := st0) h2 ms' hm' (by
      rw [e1]
      intro r hr
      obtain ⟨d, hd, rfl⟩ := List.mem_map.1 hr
      exact h3 d hd)
    obtain ⟨k, hk, hserve⟩ := received_msg h5 m
    obtain ⟨g1, g2, g3⟩ := hserve (inOrder env st0 ((done.map (·.1)).zip ms')).1
    rw [e2, h6] at g1 g3
    rw [e2] at g2
    refine ⟨_, rest, fs ++ [f], ks ++ [k], hr1, hr2, ⟨_, h1.symm⟩, fun _ h => (by cases h), fun h => (by rw [h] at h4; cases h4), by simp [a1], fun x hx => ?_, ?_⟩
    · rcases List.mem_append.1 hx with hx | hx
      · exact (a2 x hx).elim (hnow x) fun h => hms x (List.mem_append_left _ h)
      · rw [List.mem_singleton.1 hx]
        rcases hk with rfl | rfl
        · exact hnow k h4
        · exact hms k (List.mem_append_right _ List.mem_cons_self)
    · have e := serves_snoc (env := env) (c := c) st0 (fs.zip ks) f k (by rw [a3])
      have hz : (fs ++ [f]).zip (ks ++ [k]) = fs.zip ks ++ [(f, k)] := by rw [List.zip_append a1.symm]; rfl
      rw [← hz] at e
      rw [a3] at e
      simp only at e
      rw [g1, g2, g3, e1] at e
      simp only
      rw [e]
      refine ⟨?_, rfl, k4, k5, k6, k7⟩
      simp [List.flatMap_map]

/-- C160, with one thing more: without steps no frames are read. -/
theorem bytes_sequential (env : Env) (before : List CEv) (conns : List (Conn × List UInt8)) (checks : List Str)
    (evs : List (Nat × Clock)) (p : Str) (j : Nat) (c : Conn) (bytes : List UInt8) (hj : conns[j]? = some (c, bytes))
    (hown : Speaks env bytes fun h _ => h.phone = p)
    (hoth : ∀ (i : Nat) o, conns[i]? = some o → i ≠ j →
      Speaks env o.2 fun h m => h.phone ≠ p ∧ ∀ g, m = .m0100 g → ¬ Registers env bytes g.plate)
    (hold : ∀ t, .spawn t ∈ before → t.phone ≠ p → ∀ pl, Registers env bytes pl → plateOf t ≠ some pl) (hchk : p ∉ checks)
    (l : Line)
    (hl : ((LSys.mk (CSys.start.run env before).st (conns.map (fun o => Line.open o.1 o.2) ++ checks.map Line.check)).run
      env evs).ls[j]? = some l)
    (hidle : l.cur = none) :
    let st0 := (CSys.start.run env before).st
    let s := (LSys.mk st0 (conns.map (fun o => Line.open o.1 o.2) ++ checks.map Line.check)).run env evs
    ∃ (frames : List (List UInt8)) (rest : List UInt8) (fs : List (List UInt8)) (clks : List Clock),
      Recvs .eof bytes frames rest ∧ recv .eof rest = (.err .eof, []) ∧ fs <+: frames ∧
      (l.input = [] → l.ended = false → fs = frames) ∧ (timesOf j evs = [] → fs = []) ∧ clks.length = fs.length ∧ (∀ k ∈ clks, During (timesOf j evs) k) ∧
      let r := serves env c st0 (fs.zip clks)
      l.output = r.2.1 ∧ l.ended = r.2.2 ∧ s.st.look p = r.1.look p ∧ s.st.geos.get p = r.1.geos.get p ∧
        s.st.jobs.count p = r.1.jobs.count p ∧ s.st.paramsOf p = r.1.paramsOf p := by
  intro st0 s
  have hopen : ∀ (i : Nat) o, conns[i]? = some o →
      (conns.map (fun o => Line.open o.1 o.2) ++ checks.map Line.check)[i]? = some (Line.open o.1 o.2) := by
    intro i o hi
    rw [List.getElem?_append_left (by rw [List.length_map]; exact (List.getElem?_eq_some_iff.1 hi).1), List.getElem?_map, hi]
    rfl
  -- whose messages the goroutines take up
  have hreads : ∀ (i : Nat) l, s.ls[i]? = some l →
      (∃ o, conns[i]? = some o ∧ l.Reads env o.1 (cut RecvSt.fresh o.2)) ∨
        (conns.length ≤ i ∧ ∃ q ∈ checks, l.input = [] ∧ l.taken ++ l.todo = [.check q]) := by
    refine lines_run (env := env) (P := fun i l => (∃ o, conns[i]? = some o ∧ l.Reads env o.1 (cut RecvSt.fresh o.2)) ∨
        (conns.length ≤ i ∧ ∃ q ∈ checks, l.input = [] ∧ l.taken ++ l.todo = [.check q])) (fun i clk st l h => ?_) evs _ ?_
    · rcases h with ⟨o, h1, h2⟩ | ⟨h0, q, h1, h2⟩
      · exact .inl ⟨o, h1, next_reads h2⟩
      · exact .inr ⟨h0, q, h1, next_check h2⟩
    · intro i l hl
      by_cases hi : i < conns.length
      · have ho : conns[i]? = some conns[i] := List.getElem?_eq_getElem hi
        have hl : (conns.map (fun o => Line.open o.1 o.2) ++ checks.map Line.check)[i]? = some l := hl
        rw [hopen i _ ho] at hl
        cases hl
        exact .inl ⟨_, ho, rfl, rfl, fun f hf => hf, fun t ht => by simp [Line.taken, Line.open] at ht⟩
      · have hl : (conns.map (fun o => Line.open o.1 o.2) ++ checks.map Line.check)[i]? = some l := hl
        rw [List.getElem?_append_right (by rw [List.length_map]; exact Nat.not_lt.1 hi)] at hl
        obtain ⟨q, h1, rfl⟩ := List.mem_map.1 (List.mem_of_getElem? hl)
        exact .inr ⟨Nat.not_lt.1 hi, q, h1, rfl, rfl⟩
  refine line_sequential env before ⟨st0, conns.map (fun o => Line.open o.1 o.2) ++ checks.map Line.check⟩ rfl evs p j c bytes
    (hopen j _ hj) hown (fun l hl => ?_) (fun i l hl hi t ht => ?_) hold l hl hidle
  · simp only [List.mem_append, List.mem_map] at hl
    rcases hl with ⟨y, -, rfl⟩ | ⟨y, -, rfl⟩ <;> exact ⟨rfl, rfl⟩
  · rcases hreads i l hl with ⟨o, h1, h2⟩ | ⟨h0, q, h1, -, h2⟩
    · obtain ⟨f, hf, now, hd, m, rfl, hh⟩ := h2.taken t ht
      obtain ⟨rest, hr, -⟩ := cut_is_recvs .eof o.2
      obtain ⟨e1, e2⟩ := (hoth i o h1 hi .eof _ rest hr f hf).2 now hd m hh
      refine ⟨holds_addressed hh, e1, fun pl hreg hpl => ?_⟩
      cases m with
      | m0100 g => cases hpl; exact e2 g rfl hreg
      | _ => cases hpl
    · have : t ∈ [Task.check q] := by rw [← h2]; exact List.mem_append_left _ ht
      rw [List.mem_singleton.1 this]
      exact ⟨trivial, fun e => hchk (by rw [← e]; exact h1), fun pl _ e => by cases e⟩

/-- C160: connections on which any bytes arrive, and keepalive checks.  All messages on connection `j` are of the phone `p`,
those on the others are of other phones and do not register with a plate with which `p` registers, no frame is a fragment,
and the checks are of other phones.  All goroutines read bytes, handle messages and write answers in any order, at any
times.  Whenever the goroutine of `j` is not in the middle of a message, there are moments, each at steps of this
goroutine, such that what has been written on `j`, whether it is still served, and what the server knows of the phone are
exactly what the sequential server comes to that is given the frames read so far, and nothing else, at these moments.  When
all bytes have been read these are all frames. -/
theorem C160_bytes_sequential (env : Env) (before : List CEv) (conns : List (Conn × List UInt8)) (checks : List Str)
    (evs : List (Nat × Clock)) (p : Str) (j : Nat) (c : Conn) (bytes : List UInt8) (hj : conns[j]? = some (c, bytes))
    (hown : Speaks env bytes fun h _ => h.phone = p)
    (hoth : ∀ (i : Nat) o, conns[i]? = some o → i ≠ j →
      Speaks env o.2 fun h m => h.phone ≠ p ∧ ∀ g, m = .m0100 g → ¬ Registers env bytes g.plate)
    (hold : ∀ t, .spawn t ∈ before → t.phone ≠ p → ∀ pl, Registers env bytes pl → plateOf t ≠ some pl) (hchk : p ∉ checks)
    (l : Line)
    (hl : ((LSys.mk (CSys.start.run env before).st (conns.map (fun o => Line.open o.1 o.2) ++ checks.map Line.check)).run
      env evs).ls[j]? = some l)
    (hidle : l.cur = none) :
    let st0 := (CSys.start.run env before).st
    let s := (LSys.mk st0 (conns.map (fun o => Line.open o.1 o.2) ++ checks.map Line.check)).run env evs
    ∃ (frames : List (List UInt8)) (rest : List UInt8) (fs : List (List UInt8)) (clks : List Clock),
      Recvs .eof bytes frames rest ∧ recv .eof rest = (.err .eof, []) ∧ fs <+: frames ∧
      (l.input = [] → l.ended = false → fs = frames) ∧ clks.length = fs.length ∧ (∀ k ∈ clks, During (timesOf j evs) k) ∧
      let r := serves env c st0 (fs.zip clks)
      l.output = r.2.1 ∧ l.ended = r.2.2 ∧ s.st.look p = r.1.look p ∧ s.st.geos.get p = r.1.geos.get p ∧
        s.st.jobs.count p = r.1.jobs.count p ∧ s.st.paramsOf p = r.1.paramsOf p := by
  obtain ⟨frames, rest, fs, clks, h1, h2, h3, h4, -, h5⟩ := bytes_sequential env before conns checks evs p j c bytes hj hown hoth hold
    hchk l hl hidle
  exact ⟨frames, rest, fs, clks, h1, h2, h3, h4, h5⟩

/-! A registration after noise and a broken frame, a heartbeat, and bytes of a frame that has not yet come to its end; on
another connection noise, a broken frame and a deregistration of a terminal nobody knows, after which it is not served on. -/

def speaksB (env : Env) (q : Header → Bool) (bytes : List UInt8) : Bool :=
  (cut RecvSt.fresh bytes).all fun f => match decodeFrame env f with
    | .ok pd => !pd.header.isFragmented && q pd.header
    | _ => true

theorem speaks_of {env : Env} {q : Header → Bool} {bytes : List UInt8} (h : speaksB env q bytes = true) :
    Speaks env bytes fun hd _ => q hd = true := by
  intro e fs rest hr f hf
  have hm := (recvs_prefix hr).subset hf
  have := List.all_eq_true.1 h f hm
  refine ⟨fun pd hd => ?_, fun now hd m hh => ?_⟩
  · rw [hd] at this
    simp only [Bool.and_eq_true, Bool.not_eq_true'] at this
    exact this.1
  · obtain ⟨pd, t, i, e1, rfl, -⟩ := hh
    rw [e1] at this
    simp only [Bool.and_eq_true] at this
    exact this.2

theorem Spec.Speaks.imp {env : Env} {bytes : List UInt8} {Q Q' : Header → Msg → Prop} (h : Speaks env bytes Q)
    (hi : ∀ hd m, Q hd m → Q' hd m) : Speaks env bytes Q' := fun e fs rest hr f hf =>
  ⟨(h e fs rest hr f hf).1, fun now hd m hh => hi hd m ((h e fs rest hr f hf).2 now hd m hh)⟩

def serialBytes : List UInt8 := [3, 0x7e, 5, 6, 0x7e] ++ msgFrame (lineHdr 1 0x0100) ((lineReg 0x31).encode goEnv .v2013) ++
  msgFrame (lineHdr 1 0x0002) [] ++ [0x7e, 1]

def serialConns : List (Conn × List UInt8) := [(demoC, serialBytes), (demoC', lineOther)]

/-- Both connections read their bytes in turn. -/
def serialEvs : List (Nat × Clock) :=
  (List.range 120).flatMap fun n => [(0, demoClk n), (1, demoClk (n + 5))]

theorem lineOther_registers (pl : Str) : ¬ Registers goEnv lineOther pl := by
  rintro ⟨e, fs, rest, hr, f, hf, now, h, g, hh, hg⟩
  have := (lineOther_foreign { lineTerm demoC 1 0x31 with reg := g } (show (lineHdr 3 0).phone ≠ (lineTerm demoC 1 0x31).phone by decide) e fs rest hr f hf).2 now h (.m0100 g) hh
  exact this.2 g rfl rfl

/-- What has happened at the end: the first has been sent a successful registration and the answer to its heartbeat, the
second nothing. -/
example : (((LSys.mk Store.empty (serialConns.map (fun o => Line.open o.1 o.2))).run goEnv
      serialEvs).ls.map fun l => (l.output, l.ended, l.input.length, l.cur.isNone)) =
    [(registerReply ((lineHdr 1 0x0100).withBodyLength 41) 0 (lineCode 1 0x31) ++ generalReply (lineHdr 1 0x0002) 0, false, 0, true),
      ([], true, 0, true)] := by
  decide +kernel

/-- The theorem for both. -/
example (j : Nat) (hj : j < 2) (l : Line)
    (hl : ((LSys.mk (CSys.start.run goEnv []).st (serialConns.map (fun o => Line.open o.1 o.2))).run goEnv
      serialEvs).ls[j]? = some l) (hidle : l.cur = none) :
    ∃ (c : Conn) (fs : List (List UInt8)) (clks : List Clock), l.output = (serves goEnv c Store.empty (fs.zip clks)).2.1 ∧
      l.ended = (serves goEnv c Store.empty (fs.zip clks)).2.2 := by
  have hj : j = 0 ∨ j = 1 := by omega
  rcases hj with rfl | rfl
  · obtain ⟨-, -, fs, clks, -, -, -, -, -, -, h1, h2, -⟩ := C160_bytes_sequential goEnv [] serialConns [] serialEvs
      (lineHdr 1 0).phone 0 demoC serialBytes rfl
      ((speaks_of (q := fun h => h.phone == (lineHdr 1 0).phone) (by decide +kernel)).imp fun hd m h => by simpa using h)
      (by
        intro i o ho hi
        match i, ho with
        | 0, _ => exact absurd rfl hi
        | 1, ho =>
          cases ho
          intro e fs rest hr f hf
          obtain ⟨a, b⟩ := speaks_of (env := goEnv) (q := fun h => h.phone != (lineHdr 1 0).phone) (by decide +kernel) e fs rest hr f hf
          refine ⟨a, fun now hd m hh => ⟨by simpa using b now hd m hh, fun g hg => ?_⟩⟩
          subst hg
          exact absurd ⟨e, fs, rest, hr, f, hf, now, hd, g, hh, rfl⟩ (lineOther_registers g.plate)
        | n + 2, ho => cases ho)
      (by intro t ht; cases ht) (by simp) l (by simpa using hl) hidle
    exact ⟨_, _, _, h1, h2⟩
  · obtain ⟨-, -, fs, clks, -, -, -, -, -, -, h1, h2, -⟩ := C160_bytes_sequential goEnv [] serialConns [] serialEvs
      (lineHdr 3 0).phone 1 demoC' lineOther rfl
      ((speaks_of (q := fun h => h.phone == (lineHdr 3 0).phone) (by decide +kernel)).imp fun hd m h => by simpa using h)
      (by
        intro i o ho hi
        match i, ho with
        | 0, ho =>
          cases ho
          exact (speaks_of (q := fun h => h.phone != (lineHdr 3 0).phone) (by decide +kernel)).imp fun hd m h =>
            ⟨by simpa using h, fun g _ => lineOther_registers g.plate⟩
        | 1, _ => exact absurd rfl hi
        | n + 2, ho => cases ho)
      (by intro t ht; cases ht) (by simp) l (by simpa using hl) hidle
    exact ⟨_, _, _, h1, h2⟩

end JT808
