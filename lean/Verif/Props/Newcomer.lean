import Verif.Props.Breaks
import Verif.Props.Timeless
/-
C166: in its first minute a new terminal is answered as by a server that has just been started and has nobody else.
-/
namespace JT808
open Spec

variable {env : Env} {p : Str}

/-- Nobody has touched the parameters of `p`. -/
structure Untouched (env : Env) (p : Str) (s : CSys) : Prop where
  ok : s.OK env
  threads : ∀ (i : Nat) (t : Task) (c : Prog), s.threads[i]? = some (t, c) → t.phone ≠ p ∧ c.Keeps t.phone s.st
  none : s.st.params.get p = none

theorem untouched_step {s : CSys} (h : Untouched env p s) (e : CEv) (he : ∀ t, e = .spawn t → t.phone ≠ p ∧ t.Addressed) :
    Untouched env p (s.step env e) := by
  obtain ⟨hok, hg⟩ := ok_step h.ok e
  cases e with
  | spawn t =>
    obtain ⟨h1, h2⟩ := he t rfl
    simp only [CSys.step] at hok hg ⊢
    split at hok
    · rename_i hal
      rw [if_pos hal]
      refine ⟨hok, fun i t' c hi => ?_, h.none⟩
      rcases List.mem_append.1 (List.mem_of_getElem? hi) with hm | hm
      · obtain ⟨k, hk⟩ := List.mem_iff_getElem?.1 hm
        exact h.threads k t' c hk
      · cases List.mem_singleton.1 hm
        exact ⟨h1, keeps_task env _ h2 _⟩
    · rename_i hal
      rw [if_neg hal]
      exact h
  | run i clk =>
    cases hi : s.threads[i]? with
    | none => simp only [CSys.step, hi]; exact h
    | some tc =>
      obtain ⟨t, c⟩ := tc
      obtain ⟨h1, h2⟩ := h.threads i t c hi
      simp only [CSys.step, hi] at hok hg ⊢
      have hk : (c.next clk s.st).2.Keeps t.phone (c.next clk s.st).1 ∧ (c.next clk s.st).1.params.get p = s.st.params.get p := by
        cases c with
        | ret x => exact ⟨trivial, rfl⟩
        | step f k =>
          obtain ⟨-, a, b⟩ := h2 clk s.st (Grows.refl _) h.ok.inv
          exact ⟨b, a p (Ne.symm h1)⟩
      refine ⟨hok, fun k t' c' hk' => ?_, hk.2.trans h.none⟩
      simp only [List.getElem?_set] at hk'
      split at hk'
      · split at hk'
        · cases hk'; exact ⟨h1, hk.1⟩
        · cases hk'
      · exact ⟨(h.threads k t' c' hk').1, (h.threads k t' c' hk').2.mono hg⟩

theorem untouched_run {s : CSys} (h : Untouched env p s) (evs : List CEv)
    (he : ∀ t, .spawn t ∈ evs → t.phone ≠ p ∧ t.Addressed) : Untouched env p (s.run env evs) := by
  induction evs generalizing s with
  | nil => exact h
  | cons e evs ih =>
    exact ih (untouched_step h e fun t ht => he t (ht ▸ List.mem_cons_self)) fun t ht => he t (List.mem_cons_of_mem _ ht)

/-- A server that has never heard of a phone and of some plates knows of them what a server knows that has just been
started. -/
theorem strangers_view {before : List CEv} {P : Str → Prop}
    (hnew : ∀ t, .spawn t ∈ before → t.phone ≠ p ∧ t.Addressed ∧ ∀ pl, P pl → plateOf t ≠ some pl) :
    View p P (CSys.start.run env before).st Store.empty := by
  have hu : Untouched env p (CSys.start.run env before) :=
    untouched_run ⟨ok_start env, fun i t c h => by simp [CSys.start] at h, rfl⟩ before fun t ht => ⟨(hnew t ht).1, (hnew t ht).2.1⟩
  have hborn : ∀ r, r < (CSys.start.run env before).st.next → ∃ t, .spawn t ∈ before ∧ t.Makes ((CSys.start.run env before).st.heap r) := by
    intro r hr
    obtain ⟨i, t, q, hi, hm⟩ := born_run (ok_start env) born_start before r hr
    rcases spawned_run before CSys.start i t q hi with h' | ⟨q', h'⟩
    · exact ⟨t, h', hm⟩
    · exact absurd h' (by simp [CSys.start])
  refine ⟨.inl ⟨?_, rfl⟩, fun pl hpl => ?_, hu.none, hu.ok.inv.rings, fun _ _ h => by cases h⟩
  · cases hd : (CSys.start.run env before).st.devByPhone p with
    | none => rfl
    | some r =>
      obtain ⟨h1, h2⟩ := hu.ok.inv.phoneOK p r hd
      obtain ⟨t, ht, hm⟩ := hborn r h1
      exact absurd ((makes_phone hm).symm.trans h2) (hnew t ht).1
  · cases hd : (CSys.start.run env before).st.byPlate.get pl with
    | none =>
      have h1 : (CSys.start.run env before).st.hasPlate pl = false := by simp only [Store.hasPlate, Store.devByPlate, hd]; rfl
      rw [h1]; rfl
    | some r =>
      obtain ⟨h1, h2⟩ := hu.ok.inv.plateOK pl r hd
      obtain ⟨t, ht, hm⟩ := hborn r h1
      refine absurd ?_ ((hnew t ht).2.2 pl hpl)
      cases t with
      | check _ => cases hm
      | msg c hd m =>
        cases m with
        | m0100 m => exact congrArg some (hm.2.1.symm.trans h2)
        | _ => cases hm

/-- **C166**.  A terminal of which the server has never heard sends any bytes (without fragments and 0x9205, which only platforms
send) on connection `j`.  Whatever was before, whatever arrives on any number of other connections about other phones and
plates, however these break, whatever checks run, also any number of checks of the terminal itself at any points: if all that
happens within some minute and the process lives, then, when the goroutine of `j` has made one step for each of its bytes and nine
for each of its frames, the terminal has been sent exactly what a server sends it that has just been started and serves nobody
else, on whatever connection and at whatever times; it is served on exactly if it is there, and both know the same of it. -/
theorem C166_first_minute_alone (env : Env) (before : List CEv) (conns : List (Conn × List UInt8)) (checks : List Str) (n T : Nat)
    (evs : List CableEv) (p : Str) (j : Nat) (c : Conn) (bytes : List UInt8) (hj : conns[j]? = some (c, bytes))
    (hown : Speaks env bytes fun h m => h.phone = p ∧ ∀ q, m ≠ .m9205 q)
    (hoth : ∀ (i : Nat) o, conns[i]? = some o → i ≠ j →
      Speaks env o.2 fun h m => h.phone ≠ p ∧ ∀ g, m = .m0100 g → ¬ Registers env bytes g.plate)
    (hnew : ∀ t, .spawn t ∈ before → t.phone ≠ p ∧ t.Addressed ∧ ∀ pl, Registers env bytes pl → plateOf t ≠ some pl)
    (hchk : p ∉ checks) (hwhole : ∀ i, i = j ∨ conns.length ≤ i → ¬ Breaks i evs)
    (hmin : ∀ i clk, .step i clk ∈ evs → T ≤ clk.ms ∧ clk.ms ≤ T + 60000)
    (hlive : ∀ (i : Nat) (w : Cable), conns.length + checks.length ≤ i →
      ((CableSys.sound ⟨(CSys.start.run env before).st, conns.map (fun o => Line.open o.1 o.2) ++ checks.map Line.check ++
        List.replicate n (Line.check p)⟩).run env evs).ws[i]? = some w → ¬ w.line.Panicked)
    (frames : List (List UInt8)) (rest : List UInt8) (hfr : Recvs .eof bytes frames rest)
    (hrest : recv .eof rest = (.err .eof, [])) (henough : bytes.length + 9 * frames.length ≤ (stepsOf j evs).length) :
    let b := (CableSys.sound ⟨(CSys.start.run env before).st, conns.map (fun o => Line.open o.1 o.2) ++ checks.map Line.check ++
        List.replicate n (Line.check p)⟩).run env evs
    ∃ w : Cable, b.ws[j]? = some w ∧ w.line.cur = none ∧ ∀ (c' : Conn) (ks : List Clock), ks.length = frames.length →
      let r := serves env c' Store.empty (frames.zip ks)
      w.line.output = r.2.1 ∧ w.line.ended = r.2.2 ∧ LooksAlike p b.st r.1 ∧ b.st.paramsOf p = r.1.paramsOf p := by
  intro b
  obtain ⟨evs', a1, a2, a3⟩ := wires_run (env := env) evs _ _ (sound_beside ⟨(CSys.start.run env before).st,
    conns.map (fun o => Line.open o.1 o.2) ++ checks.map Line.check ++ List.replicate n (Line.check p)⟩)
  have hsound : ∀ (i : Nat) (l : Line), (conns.map (fun o => Line.open o.1 o.2) ++ checks.map Line.check ++
      List.replicate n (Line.check p))[i]? = some l → (CableSys.sound ⟨(CSys.start.run env before).st,
    conns.map (fun o => Line.open o.1 o.2) ++ checks.map Line.check ++ List.replicate n (Line.check p)⟩).ws[i]? = some ⟨l, none, false⟩ := by
    intro i l hl
    show (List.map _ _)[i]? = _
    rw [List.getElem?_map, hl]; rfl
  have hlt := (List.getElem?_eq_some_iff.1 hj).1
  obtain ⟨b1, b2⟩ := a3 j _ (hsound j (Line.open c bytes) (by
    rw [List.append_assoc, List.getElem?_append_left (by simpa using hlt)]; simp [hj])) rfl rfl (hwhole j (.inl rfl))
  obtain ⟨l, clks, h1, h2, h3, -, h4, h5, h6, -, -, h7⟩ := C163_minute_total env before conns checks n T evs' p j c bytes hj
    (hown.imp fun _ _ h => h.1) hoth (fun t ht => ⟨(hnew t ht).1, (hnew t ht).2.2⟩) hchk (by
      intro e he
      have : e.2 ∈ timesOf e.1 evs' := List.mem_map.2 ⟨e, List.mem_filter.2 ⟨he, by simp⟩, rfl⟩
      obtain ⟨x, hx, hx'⟩ := List.mem_filterMap.1 ((a2 e.1).subset this)
      cases x with
      | step i clk =>
        simp only at hx'
        split at hx'
        · cases hx'; exact hmin _ _ hx
        · cases hx'
      | mute i a b => cases hx'
      | deaf i => cases hx') (by
      intro i l hi hl
      have hlen : i < (conns.map (fun o => Line.open o.1 o.2) ++ checks.map Line.check ++ List.replicate n (Line.check p)).length := by
        have := (List.getElem?_eq_some_iff.1 hl).1
        rw [lines_length] at this
        exact this
      obtain ⟨-, g2⟩ := a3 i _ (hsound i _ (List.getElem?_eq_getElem hlen)) rfl rfl
        (hwhole i (.inr (Nat.le_trans (Nat.le_add_right _ _) hi)))
      rw [hl] at g2
      exact hlive i _ hi g2)
    frames rest hfr hrest (by rw [b1]; exact henough)
  rw [h1] at b2
  refine ⟨_, b2, h2, fun c' ks hks => ?_⟩
  have h0 : View p (Registers env bytes) (CSys.start.run env before).st Store.empty := strangers_view hnew
  obtain ⟨e1, e2⟩ := View.serves frames clks ks c c' h0 h3 hks fun f hf => ⟨(hown _ _ _ hfr f hf).1, fun now hd m hh =>
    ⟨((hown _ _ _ hfr f hf).2 now hd m hh).1, fun g hg => ⟨_, _, _, hfr, f, hf, now, hd, g, hg ▸ hh, rfl⟩,
      ((hown _ _ _ hfr f hf).2 now hd m hh).2⟩⟩
  have hst : b.st = _ := a1.store
  rw [hst]
  refine ⟨h4.trans (congrArg (·.1) e1), h5.trans (congrArg (·.2) e1), ?_, h7.trans e2.params⟩
  have hl := e2.looks
  unfold LooksAlike
  rw [h6]
  exact hl

/-! The terminal of C162 with its two checks, while the other connection breaks; before that somebody else has tried to come. -/

def newBefore : List CEv := [.spawn (.msg demoC (lineHdr 4 2) .m0002), .run 0 (demoClk 1)]

def newEvs : List CableEv := (awakeEvs.take 100).map (fun e => .step e.1 e.2) ++ [.deaf 1, .mute 1 false 4] ++
  (awakeEvs.drop 100).map fun e => .step e.1 e.2

def newSys : CableSys := .sound ⟨(CSys.start.run goEnv newBefore).st, serialConns.map (fun o => Line.open o.1 o.2) ++
  ([] : List Str).map Line.check ++ List.replicate 2 (Line.check (lineHdr 1 0).phone)⟩

theorem new_live : ((newSys.run goEnv newEvs).ws.all fun w => !panickedB w.line) = true := by decide +kernel

example (c' : Conn) (clk : Clock) : ∃ (w : Cable) (frames : List (List UInt8)), frames.length = 3 ∧
    (newSys.run goEnv newEvs).ws[0]? = some w ∧
    w.line.output = (serves goEnv c' Store.empty (frames.zip [clk, clk, clk])).2.1 := by
  obtain ⟨rest, h1, h2⟩ := cut_is_recvs .eof serialBytes
  obtain ⟨w, a1, -, a2⟩ := C166_first_minute_alone goEnv newBefore serialConns [] 2 (demoClk 0).ms newEvs (lineHdr 1 0).phone
    0 demoC serialBytes rfl scene_own total_others
    (by
      intro t ht
      simp only [newBefore, List.mem_cons, CEv.spawn.injEq, List.not_mem_nil, or_false] at ht
      rcases ht with rfl | ht
      · exact ⟨by decide +kernel, trivial, fun _ _ => by simp [plateOf]⟩
      · cases ht)
    (by simp)
    (by
      intro i hi
      refine steps_only ?_
      rw [List.all_eq_true]
      intro e he
      simp only [newEvs, List.mem_append, List.mem_map, List.mem_cons, List.not_mem_nil, or_false] at he
      rcases he with (⟨x, -, rfl⟩ | rfl | rfl) | ⟨x, -, rfl⟩
      · rfl
      · rcases hi with rfl | hi
        · rfl
        · have : serialConns.length = 2 := rfl
          simp only [bne_iff_ne]; omega
      · rcases hi with rfl | hi
        · rfl
        · have : serialConns.length = 2 := rfl
          simp only [bne_iff_ne]; omega
      · rfl)
    (by
      have : (awakeEvs.all fun e => decide ((demoClk 0).ms ≤ e.2.ms ∧ e.2.ms ≤ (demoClk 0).ms + 60000)) = true := by decide +kernel
      intro i clk he
      simp only [newEvs, List.mem_append, List.mem_map, List.mem_cons, List.not_mem_nil, or_false] at he
      rcases he with (⟨x, hx, hx'⟩ | hx | hx) | ⟨x, hx, hx'⟩
      · cases hx'; simpa using List.all_eq_true.1 this x (List.mem_of_mem_take hx)
      · cases hx
      · cases hx
      · cases hx'; simpa using List.all_eq_true.1 this x (List.mem_of_mem_drop hx))
    (by
      intro i w _ hw
      refine not_panicked ?_
      simpa using List.all_eq_true.1 new_live w (List.mem_of_getElem? hw))
    _ rest h1 h2 (by decide +kernel)
  exact ⟨w, _, scene_frames, a1, (a2 c' [clk, clk, clk] scene_frames.symm).1⟩

end JT808
