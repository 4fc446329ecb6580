import Verif.Props.Awake
import Verif.Props.ByteProgress
/-
C163: C160 to C162 put together: after enough steps a terminal has got all the answers of the sequential server.
-/
namespace JT808
open Spec

/-- Once serve has ended the sequential server writes and stores nothing more. -/
theorem serves_ended {env : Env} {c : Conn} (l more : List (List UInt8 × Clock)) (st : Store)
    (h : (serves env c st l).2.2 = true) : serves env c st (l ++ more) = serves env c st l := by
  induction l generalizing st with
  | nil => cases h
  | cons x l ih =>
    obtain ⟨f, clk⟩ := x
    simp only [serves, List.cons_append] at h ⊢
    split
    · rfl
    · rename_i hn
      simp only [hn] at h
      rw [ih _ h]

/-- If the frames read so far, at their moments, lead the sequential server to its end, or if they are all frames, then all
frames do so. -/
theorem serves_all {env : Env} {c : Conn} {st : Store} {frames fs : List (List UInt8)} {clks times : List Clock}
    (hpre : fs <+: frames) (hlen : clks.length = fs.length) (hd : ∀ k ∈ clks, During times k) (hne : frames ≠ [] → times ≠ [])
    (hall : (serves env c st (fs.zip clks)).2.2 = false → fs = frames) :
    ∃ ks : List Clock, ks.length = frames.length ∧ (∀ k ∈ ks, During times k) ∧
      serves env c st (frames.zip ks) = serves env c st (fs.zip clks) := by
  cases he : (serves env c st (fs.zip clks)).2.2 with
  | false => rw [← hall he]; exact ⟨clks, hlen, hd, rfl⟩
  | true =>
    obtain ⟨more, rfl⟩ := hpre
    cases times with
    | nil =>
      have : fs ++ more = [] := Classical.byContradiction fun h => hne h rfl
      obtain ⟨rfl, rfl⟩ := List.append_eq_nil_iff.1 this
      exact ⟨clks, by simpa using hlen, hd, rfl⟩
    | cons k times =>
      refine ⟨clks ++ List.replicate more.length k, by simp [hlen], fun x hx => ?_, ?_⟩
      · rcases List.mem_append.1 hx with hx | hx
        · exact hd x hx
        · rw [(List.mem_replicate.1 hx).2]
          exact fun _ => ⟨⟨k, List.mem_cons_self, rfl⟩, ⟨k, List.mem_cons_self, rfl⟩⟩
      · rw [List.zip_append hlen.symm]
        exact serves_ended _ _ _ he

/-- **C163**.  The situation of C160: on connection `j` any bytes of one terminal arrive, on others any bytes of other phones
and plates, and other phones are checked.  As soon as the goroutine of `j` has made one step for each of its bytes and nine
for each of its frames, whatever the others have done or not done by then, what is written on `j`, whether it is still served
and what the server knows of the phone are exactly what the sequential server comes to, which is given all frames of `j` and
nothing else, each at some moment of the run. -/
theorem C163_bytes_total (env : Env) (before : List CEv) (conns : List (Conn × List UInt8)) (checks : List Str)
    (evs : List (Nat × Clock)) (p : Str) (j : Nat) (c : Conn) (bytes : List UInt8) (hj : conns[j]? = some (c, bytes))
    (hown : Speaks env bytes fun h _ => h.phone = p)
    (hoth : ∀ (i : Nat) o, conns[i]? = some o → i ≠ j →
      Speaks env o.2 fun h m => h.phone ≠ p ∧ ∀ g, m = .m0100 g → ¬ Registers env bytes g.plate)
    (hold : ∀ t, .spawn t ∈ before → t.phone ≠ p → ∀ pl, Registers env bytes pl → plateOf t ≠ some pl) (hchk : p ∉ checks)
    (frames : List (List UInt8)) (rest : List UInt8) (hfr : Recvs .eof bytes frames rest)
    (hrest : recv .eof rest = (.err .eof, [])) (henough : bytes.length + 9 * frames.length ≤ (timesOf j evs).length) :
    let st0 := (CSys.start.run env before).st
    let s := (LSys.mk st0 (conns.map (fun o => Line.open o.1 o.2) ++ checks.map Line.check)).run env evs
    ∃ (l : Line) (clks : List Clock), s.ls[j]? = some l ∧ l.cur = none ∧ clks.length = frames.length ∧
      (∀ k ∈ clks, During (timesOf j evs) k) ∧
      let r := serves env c st0 (frames.zip clks)
      l.output = r.2.1 ∧ l.ended = r.2.2 ∧ s.st.look p = r.1.look p ∧ s.st.geos.get p = r.1.geos.get p ∧
        s.st.jobs.count p = r.1.jobs.count p ∧ s.st.paramsOf p = r.1.paramsOf p := by
  intro st0 s
  obtain ⟨l, fs', more, hl, hcur, -, -, hend⟩ := C161_bytes_answered env before conns checks evs j c bytes hj
    (hown.imp fun _ _ _ => trivial) frames rest hfr hrest henough
  obtain ⟨frames', rest', fs, clks, h1, h2, h3, h4, h5, h6, h7⟩ := C160_bytes_sequential env before conns checks evs p j c bytes
    hj hown hoth hold hchk l hl hcur
  have hf : frames' = frames := (cut_recvs h1 h2).symm.trans (cut_recvs hfr hrest)
  subst hf
  obtain ⟨ks, a1, a2, a3⟩ := serves_all (env := env) (c := c) (st := st0) h3 h5 h6 (by
      intro hne he
      rw [he] at henough
      have := List.length_pos_iff.2 hne
      simp only [List.length_nil] at henough
      omega) (by
      intro he
      have he' : l.ended = false := h7.2.1.trans he
      rw [he'] at hend
      exact h4 hend.1 he')
  refine ⟨l, ks, hl, hcur, a1, a2, ?_⟩
  simp only [a3]
  exact h7

/-- **C163**, with any number of keepalive checks of the terminal itself, in the first minute of a terminal. -/
theorem C163_minute_total (env : Env) (before : List CEv) (conns : List (Conn × List UInt8)) (checks : List Str) (n T : Nat)
    (evs : List (Nat × Clock)) (p : Str) (j : Nat) (c : Conn) (bytes : List UInt8) (hj : conns[j]? = some (c, bytes))
    (hown : Speaks env bytes fun h _ => h.phone = p)
    (hoth : ∀ (i : Nat) o, conns[i]? = some o → i ≠ j →
      Speaks env o.2 fun h m => h.phone ≠ p ∧ ∀ g, m = .m0100 g → ¬ Registers env bytes g.plate)
    (hnew : ∀ t, .spawn t ∈ before → t.phone ≠ p ∧ ∀ pl, Registers env bytes pl → plateOf t ≠ some pl) (hchk : p ∉ checks)
    (hmin : ∀ e ∈ evs, T ≤ e.2.ms ∧ e.2.ms ≤ T + 60000)
    (hlive : ∀ (i : Nat) (l : Line), conns.length + checks.length ≤ i →
      ((LSys.mk (CSys.start.run env before).st (conns.map (fun o => Line.open o.1 o.2) ++ checks.map Line.check ++
        List.replicate n (Line.check p))).run env evs).ls[i]? = some l → ¬ l.Panicked)
    (frames : List (List UInt8)) (rest : List UInt8) (hfr : Recvs .eof bytes frames rest)
    (hrest : recv .eof rest = (.err .eof, [])) (henough : bytes.length + 9 * frames.length ≤ (timesOf j evs).length) :
    let st0 := (CSys.start.run env before).st
    let s := (LSys.mk st0 (conns.map (fun o => Line.open o.1 o.2) ++ checks.map Line.check ++
        List.replicate n (Line.check p))).run env evs
    ∃ (l : Line) (clks : List Clock), s.ls[j]? = some l ∧ l.cur = none ∧ clks.length = frames.length ∧
      (∀ k ∈ clks, During (timesOf j evs) k) ∧
      let r := serves env c st0 (frames.zip clks)
      l.output = r.2.1 ∧ l.ended = r.2.2 ∧ s.st.look p = r.1.look p ∧ s.st.geos.get p = r.1.geos.get p ∧
        s.st.jobs.count p = r.1.jobs.count p ∧ s.st.paramsOf p = r.1.paramsOf p := by
  intro st0 s
  obtain ⟨l, fs', more, hl, hcur, -, -, hend⟩ := C161_bytes_answered env before conns (checks ++ List.replicate n p) evs j c
    bytes hj (hown.imp fun _ _ _ => trivial) frames rest hfr hrest henough
  rw [List.map_append, List.map_replicate, ← List.append_assoc] at hl
  obtain ⟨frames', rest', fs, clks, h1, h2, h3, h4, h5, h6, h7⟩ := C162_first_minute env before conns checks n T evs p j c bytes
    hj hown hoth hnew hchk hmin hlive l hl hcur
  have hf : frames' = frames := (cut_recvs h1 h2).symm.trans (cut_recvs hfr hrest)
  subst hf
  obtain ⟨ks, a1, a2, a3⟩ := serves_all (env := env) (c := c) (st := st0) h3 h5 h6 (by
      intro hne he
      rw [he] at henough
      have := List.length_pos_iff.2 hne
      simp only [List.length_nil] at henough
      omega) (by
      intro he
      have he' : l.ended = false := h7.2.1.trans he
      rw [he'] at hend
      exact h4 hend.1 he')
  refine ⟨l, ks, hl, hcur, a1, a2, ?_⟩
  simp only [a3]
  exact h7

/-! The connections of C160, and those of C162 with two checks of the terminal itself: all three frames are answered. -/

theorem total_others (i : Nat) (o : Conn × List UInt8) (ho : serialConns[i]? = some o) (hi : i ≠ 0) : Speaks goEnv o.2 fun h m =>
    h.phone ≠ (lineHdr 1 0).phone ∧ ∀ g, m = .m0100 g → ¬ Registers goEnv serialBytes g.plate := by
  match i, ho with
  | 0, _ => exact absurd rfl hi
  | 1, ho =>
    cases ho
    intro e fs rest hr f hf
    obtain ⟨a, b⟩ := speaks_of (env := goEnv) (q := fun h => h.phone != (lineHdr 1 0).phone) (by decide +kernel) e fs rest hr f hf
    refine ⟨a, fun now hd m hh => ⟨by simpa using b now hd m hh, fun g hg => ?_⟩⟩
    subst hg
    exact absurd ⟨e, fs, rest, hr, f, hf, now, hd, g, hh, rfl⟩ (lineOther_registers g.plate)
  | n + 2, ho => cases ho

example : ∃ (l : Line) (frames : List (List UInt8)) (clks : List Clock), frames.length = 3 ∧
    ((LSys.mk (CSys.start.run goEnv []).st (serialConns.map (fun o => Line.open o.1 o.2))).run goEnv serialEvs).ls[0]? = some l ∧
    l.output = (serves goEnv demoC Store.empty (frames.zip clks)).2.1 ∧
    l.ended = (serves goEnv demoC Store.empty (frames.zip clks)).2.2 := by
  obtain ⟨rest, h1, h2⟩ := cut_is_recvs .eof serialBytes
  obtain ⟨l, clks, a1, -, -, -, a2, a3, -⟩ := C163_bytes_total goEnv [] serialConns [] serialEvs (lineHdr 1 0).phone 0 demoC
    serialBytes rfl
    ((speaks_of (q := fun h => h.phone == (lineHdr 1 0).phone) (by decide +kernel)).imp fun hd m h => by simpa using h)
    total_others (by intro t ht; cases ht) (by simp) _ rest h1 h2 (by decide +kernel)
  exact ⟨l, _, clks, by decide +kernel, by simpa using a1, a2, a3⟩

example : ∃ (l : Line) (frames : List (List UInt8)) (clks : List Clock), frames.length = 3 ∧
    (awakeSys.run goEnv awakeEvs).ls[0]? = some l ∧ l.output = (serves goEnv demoC Store.empty (frames.zip clks)).2.1 ∧
    l.ended = (serves goEnv demoC Store.empty (frames.zip clks)).2.2 := by
  obtain ⟨rest, h1, h2⟩ := cut_is_recvs .eof serialBytes
  obtain ⟨l, clks, a1, -, -, -, a2, a3, -⟩ := C163_minute_total goEnv [] serialConns [] 2 (demoClk 0).ms awakeEvs (lineHdr 1 0).phone
    0 demoC serialBytes rfl
    ((speaks_of (q := fun h => h.phone == (lineHdr 1 0).phone) (by decide +kernel)).imp fun hd m h => by simpa using h)
    total_others (by intro t ht; cases ht) (by simp)
    (by
      have : (awakeEvs.all fun e => decide ((demoClk 0).ms ≤ e.2.ms ∧ e.2.ms ≤ (demoClk 0).ms + 60000)) = true := by decide +kernel
      intro e he
      simpa using List.all_eq_true.1 this e he)
    (by
      intro i w _ hw
      refine not_panicked ?_
      simpa using List.all_eq_true.1 awake_live w (List.mem_of_getElem? hw))
    _ rest h1 h2 (by decide +kernel)
  exact ⟨l, _, clks, by decide +kernel, a1, a2, a3⟩

end JT808
