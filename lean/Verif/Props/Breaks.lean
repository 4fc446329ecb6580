import Verif.Proof.Breaks
/-
C165: connections that break, at any moment and in any way, do not matter for terminals on other connections; and a terminal
whose own connection breaks is one that has sent, and got, less.
-/
namespace JT808
open Spec

/-- Connections are whole at first. -/
theorem sound_beside (s : LSys) : (CableSys.sound s).Beside s := by
  refine ⟨rfl, by simp [CableSys.sound], fun i w l hw hl => ?_⟩
  simp only [CableSys.sound, List.getElem?_map, hl, Option.map_some, Option.some.injEq] at hw
  subst hw
  exact ⟨rfl, List.prefix_refl _, fun _ => rfl, fun _ => rfl, fun _ _ h => by cases h⟩

theorem during_mono {a b : List Clock} (h : a.Sublist b) (hne : a ≠ []) {k : Clock} (hd : During a k) : During b k := by
  intro _
  obtain ⟨⟨x, h1, h2⟩, ⟨y, h3, h4⟩⟩ := hd hne
  exact ⟨⟨x, h.subset h1, h2⟩, ⟨y, h.subset h3, h4⟩⟩

/-- **C165**: the situation of C163, but any connections other than `j` break, at any moments: nothing comes on them any more,
or writing on them fails, after any number of bytes, with an error that ends serve or with one that does not.  Also then, when
the goroutine of `j` has made one step for each of its bytes and nine for each of its frames, what is written on `j`, whether
it is still served and what the server knows of its phone are exactly what the sequential server comes to that is given all
frames of `j` and nothing else. -/
theorem C165_others_break (env : Env) (before : List CEv) (conns : List (Conn × List UInt8)) (checks : List Str)
    (evs : List CableEv) (p : Str) (j : Nat) (c : Conn) (bytes : List UInt8) (hj : conns[j]? = some (c, bytes))
    (hown : Speaks env bytes fun h _ => h.phone = p)
    (hoth : ∀ (i : Nat) o, conns[i]? = some o → i ≠ j →
      Speaks env o.2 fun h m => h.phone ≠ p ∧ ∀ g, m = .m0100 g → ¬ Registers env bytes g.plate)
    (hold : ∀ t, .spawn t ∈ before → t.phone ≠ p → ∀ pl, Registers env bytes pl → plateOf t ≠ some pl) (hchk : p ∉ checks)
    (hwhole : ¬ Breaks j evs)
    (frames : List (List UInt8)) (rest : List UInt8) (hfr : Recvs .eof bytes frames rest)
    (hrest : recv .eof rest = (.err .eof, [])) (henough : bytes.length + 9 * frames.length ≤ (stepsOf j evs).length) :
    let st0 := (CSys.start.run env before).st
    let b := (CableSys.sound ⟨st0, conns.map (fun o => Line.open o.1 o.2) ++ checks.map Line.check⟩).run env evs
    ∃ (w : Cable) (clks : List Clock), b.ws[j]? = some w ∧ w.line.cur = none ∧ clks.length = frames.length ∧
      (∀ k ∈ clks, During (stepsOf j evs) k) ∧
      let r := serves env c st0 (frames.zip clks)
      w.line.output = r.2.1 ∧ w.line.ended = r.2.2 ∧ b.st.look p = r.1.look p ∧ b.st.geos.get p = r.1.geos.get p ∧
        b.st.jobs.count p = r.1.jobs.count p ∧ b.st.paramsOf p = r.1.paramsOf p := by
  intro st0 b
  obtain ⟨evs', a1, a2, a3⟩ := wires_run (env := env) evs _ _
    (sound_beside ⟨st0, conns.map (fun o => Line.open o.1 o.2) ++ checks.map Line.check⟩)
  have hw0 : (CableSys.sound ⟨st0, conns.map (fun o => Line.open o.1 o.2) ++ checks.map Line.check⟩).ws[j]? =
      some ⟨Line.open c bytes, none, false⟩ := by
    simp only [CableSys.sound, List.map_append]
    rw [List.getElem?_append_left (by simpa using (List.getElem?_eq_some_iff.1 hj).1)]
    simp [hj]
  obtain ⟨b1, b2⟩ := a3 j _ hw0 rfl rfl hwhole
  obtain ⟨l, clks, h1, h2, h3, h4, h5⟩ := C163_bytes_total env before conns checks evs' p j c bytes hj hown hoth hold hchk
    frames rest hfr hrest (by rw [b1]; exact henough)
  rw [h1] at b2
  refine ⟨_, clks, b2, h2, h3, by rw [← b1]; exact h4, ?_⟩
  have hst : b.st = _ := a1.store
  rw [hst]
  exact h5

/-- **C165**: the situation of C160, but connections break, also that of `j` itself.  Whenever the goroutine of `j` is not in
the middle of a message, or has ended, there are some first ones of its frames, and moments, such that what the server knows of
the phone is what the sequential server comes to that is given these frames and nothing else at these moments.  What has been
written on `j` is all of what that server writes, or, if writing has failed, the first bytes of it. -/
theorem C165_own_breaks (env : Env) (before : List CEv) (conns : List (Conn × List UInt8)) (checks : List Str)
    (evs : List CableEv) (p : Str) (j : Nat) (c : Conn) (bytes : List UInt8) (hj : conns[j]? = some (c, bytes))
    (hown : Speaks env bytes fun h _ => h.phone = p)
    (hoth : ∀ (i : Nat) o, conns[i]? = some o → i ≠ j →
      Speaks env o.2 fun h m => h.phone ≠ p ∧ ∀ g, m = .m0100 g → ¬ Registers env bytes g.plate)
    (hold : ∀ t, .spawn t ∈ before → t.phone ≠ p → ∀ pl, Registers env bytes pl → plateOf t ≠ some pl) (hchk : p ∉ checks)
    (w : Cable)
    (hw : ((CableSys.sound ⟨(CSys.start.run env before).st, conns.map (fun o => Line.open o.1 o.2) ++
      checks.map Line.check⟩).run env evs).ws[j]? = some w) (hidle : w.line.cur = none) :
    let st0 := (CSys.start.run env before).st
    let b := (CableSys.sound ⟨st0, conns.map (fun o => Line.open o.1 o.2) ++ checks.map Line.check⟩).run env evs
    ∃ (frames : List (List UInt8)) (rest : List UInt8) (fs : List (List UInt8)) (clks : List Clock),
      Recvs .eof bytes frames rest ∧ recv .eof rest = (.err .eof, []) ∧ fs <+: frames ∧ clks.length = fs.length ∧
      (∀ k ∈ clks, During (stepsOf j evs) k) ∧
      let r := serves env c st0 (fs.zip clks)
      w.line.output <+: r.2.1 ∧ (w.mute = none → w.line.output = r.2.1 ∧ w.line.ended = r.2.2) ∧
        (w.line.ended = false → r.2.2 = false ∧ (w.line.input = [] → fs = frames)) ∧
        b.st.look p = r.1.look p ∧ b.st.geos.get p = r.1.geos.get p ∧
        b.st.jobs.count p = r.1.jobs.count p ∧ b.st.paramsOf p = r.1.paramsOf p := by
  intro st0 b
  obtain ⟨evs', a1, a2, -⟩ := wires_run (env := env) evs _ _
    (sound_beside ⟨st0, conns.map (fun o => Line.open o.1 o.2) ++ checks.map Line.check⟩)
  have hlt := (List.getElem?_eq_some_iff.1 hw).1
  rw [a1.len] at hlt
  have hl := List.getElem?_eq_getElem hlt
  generalize (LSys.run env _ evs').ls[j] = l at hl
  obtain ⟨g1, g2, g3, g4, -⟩ := a1.lines j w l hw hl
  obtain ⟨frames, rest, fs, clks, h1, h2, h3, h4, h0, h5, h6, h7, h8, h9⟩ := bytes_sequential env before conns checks evs' p j c
    bytes hj hown hoth hold hchk l hl (g1.trans hidle)
  refine ⟨frames, rest, fs, clks, h1, h2, h3, h5, fun k hk => during_mono (a2 j) (fun he => ?_) (h6 k hk), ?_⟩
  · rw [List.length_eq_zero_iff.1 (h5.trans (by rw [h0 he]; rfl))] at hk
    cases hk
  have hst : b.st = _ := a1.store
  rw [hst]
  refine ⟨h7 ▸ g2, fun hm => ?_, fun he => ?_, h9⟩
  · have := g4 hm
    subst this
    exact ⟨h7, h8⟩
  · have e := g3 he
    have e1 : l.ended = false := by rw [e]; exact he
    refine ⟨h8.symm.trans e1, fun hi => h4 ?_ e1⟩
    rw [e]; exact hi

/-! The connections of C160.  First the second one breaks, while the first is being served. -/

def breakOther : List CableEv := (serialEvs.take 60).map (fun e => .step e.1 e.2) ++ [.mute 1 true 3, .deaf 1] ++
  (serialEvs.drop 60).map fun e => .step e.1 e.2

theorem steps_only {j : Nat} {evs : List CableEv} (h : (evs.all fun | .step _ _ => true | .mute i _ _ => i != j | .deaf i => i != j) = true) :
    ¬ Breaks j evs := by
  rintro ⟨e, he, ⟨b, n, rfl⟩ | rfl⟩
  · have := List.all_eq_true.1 h _ he
    simp at this
  · have := List.all_eq_true.1 h _ he
    simp at this

example : ∃ (w : Cable) (frames : List (List UInt8)) (clks : List Clock), frames.length = 3 ∧
    ((CableSys.sound ⟨(CSys.start.run goEnv []).st, serialConns.map (fun o => Line.open o.1 o.2)⟩).run goEnv breakOther).ws[0]? = some w ∧
    w.line.output = (serves goEnv demoC Store.empty (frames.zip clks)).2.1 ∧
    w.line.ended = (serves goEnv demoC Store.empty (frames.zip clks)).2.2 := by
  obtain ⟨rest, h1, h2⟩ := cut_is_recvs .eof serialBytes
  obtain ⟨w, clks, a1, -, -, -, a2, a3, -⟩ := C165_others_break goEnv [] serialConns [] breakOther (lineHdr 1 0).phone 0 demoC
    serialBytes rfl
    ((speaks_of (q := fun h => h.phone == (lineHdr 1 0).phone) (by decide +kernel)).imp fun hd m h => by simpa using h)
    total_others (by intro t ht; cases ht) (by simp) (steps_only (by decide +kernel)) _ rest h1 h2 (by decide +kernel)
  exact ⟨w, _, clks, by decide +kernel, by simpa using a1, a2, a3⟩

/-! Then the first one breaks: its answers can no longer be written after the third byte of the second one, with an error after
which it is served on. -/

def breakOwn : List CableEv := (serialEvs.take 170).map (fun e => .step e.1 e.2) ++ [.mute 0 false 3, .mute 1 true 0] ++
  (serialEvs.drop 170).map fun e => .step e.1 e.2

/-- It has got the first answer and three bytes of the second; it has read all. -/
example : (((CableSys.sound ⟨Store.empty, serialConns.map (fun o => Line.open o.1 o.2)⟩).run goEnv breakOwn).ws.map fun w =>
      (w.line.output, w.line.ended, w.line.input.length, w.line.cur.isNone))[0]? =
    some (registerReply ((lineHdr 1 0x0100).withBodyLength 41) 0 (lineCode 1 0x31) ++ (generalReply (lineHdr 1 0x0002) 0).take 3,
      false, 0, true) := by
  decide +kernel

example (w : Cable)
    (hw : ((CableSys.sound ⟨(CSys.start.run goEnv []).st, serialConns.map (fun o => Line.open o.1 o.2)⟩).run goEnv breakOwn).ws[0]? = some w)
    (hidle : w.line.cur = none) :
    ∃ (fs : List (List UInt8)) (clks : List Clock), w.line.output <+: (serves goEnv demoC Store.empty (fs.zip clks)).2.1 := by
  obtain ⟨-, -, fs, clks, -, -, -, -, -, h1, -⟩ := C165_own_breaks goEnv [] serialConns [] breakOwn
    (lineHdr 1 0).phone 0 demoC serialBytes rfl
    ((speaks_of (q := fun h => h.phone == (lineHdr 1 0).phone) (by decide +kernel)).imp fun hd m h => by simpa using h)
    total_others (by intro t ht; cases ht) (by simp) w (by simpa using hw) hidle
  exact ⟨fs, clks, h1⟩

end JT808
