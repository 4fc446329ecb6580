import Verif.Proof.MixedAwake
import Verif.Props.Full
import Verif.Props.Newcomer
/-
C173: the first minute of a terminal, with all that C172 allows the others.
-/
namespace JT808
open Spec

/-- **C173**.  A terminal of which the server has never heard sends any bytes (without fragments and 0x9205, which only platforms
send) on connection `j`.  Whatever was before; whatever arrives on any number of other connections about other phones and plates,
also fragments; however these break; whatever parameter requests of the HTTP API there are, also for this terminal; whatever
connections come and go; whatever checks run, also any number of checks of the terminal itself at any points: if all that happens
within some minute and the process lives, then, when the goroutine of `j` has made one step for each of its bytes and nine for each
of its frames, the terminal has been sent exactly what a server sends it that has just been started and serves nobody else, on
whatever connection and at whatever times; it is served on exactly if it is there, and both know the same of it.  None of its own
checks has cancelled anything. -/
theorem C173_first_minute (env : Env) (before : List CEv) (conns : List (Conn × List UInt8)) (checks : List Str) (n T : Nat)
    (evs : List HubEv) (p : Str) (j : Nat) (c : Conn) (bytes : List UInt8) (hj : conns[j]? = some (c, bytes))
    (hown : Speaks env bytes fun h m => h.phone = p ∧ ∀ q, m ≠ .m9205 q)
    (hoth : ∀ (i : Nat) o, conns[i]? = some o → i ≠ j →
      Utters env o.2 fun h m => h.phone ≠ p ∧ ∀ g, m = .m0100 g → ¬ Registers env bytes g.plate)
    (hnew : ∀ t, .spawn t ∈ before → t.phone ≠ p ∧ t.Addressed ∧ ∀ pl, Registers env bytes pl → plateOf t ≠ some pl)
    (hchk : p ∉ checks) (hwhole : ∀ i, i = j ∨ conns.length ≤ i → ¬ Breaks i (cables evs))
    (hmin : ∀ i clk, .cable (.step i clk) ∈ evs → T ≤ clk.ms ∧ clk.ms ≤ T + 60000)
    (hlive : ∀ (i : Nat) (w : Cable), conns.length + checks.length ≤ i →
      ((HubSys.sound ⟨(CSys.start.run env before).st, conns.map (fun o => Line.open o.1 o.2) ++ checks.map Line.check ++
        List.replicate n (Line.check p)⟩).runFrag env evs).ws[i]? = some w → ¬ w.line.Panicked)
    (frames : List (List UInt8)) (rest : List UInt8) (hfr : Recvs .eof bytes frames rest)
    (hrest : recv .eof rest = (.err .eof, [])) (henough : bytes.length + 9 * frames.length ≤ (stepsOf j (cables evs)).length) :
    let b := (HubSys.sound ⟨(CSys.start.run env before).st, conns.map (fun o => Line.open o.1 o.2) ++ checks.map Line.check ++
        List.replicate n (Line.check p)⟩).runFrag env evs
    (∀ (i : Nat) (w : Cable), conns.length + checks.length ≤ i → b.ws[i]? = some w → ∀ d ∈ w.line.done, d.2 = .ok none) ∧
    ∃ w : Cable, b.ws[j]? = some w ∧ w.line.cur = none ∧ ∀ (c' : Conn) (ks : List Clock), ks.length = frames.length →
      let r := serves env c' Store.empty (frames.zip ks)
      w.line.output = r.2.1 ∧ w.line.ended = r.2.2 ∧ LooksAlike p b.st r.1 ∧ b.st.paramsOf p = r.1.paramsOf p := by
  intro b
  have hls : ∃ ls, ls = conns.map (fun o => Line.open o.1 o.2) ++ checks.map Line.check := ⟨_, rfl⟩
  obtain ⟨ls, hls⟩ := hls
  have hL : ls.length = conns.length + checks.length := by rw [hls]; simp
  simp only [b]
  rw [← hls] at hlive ⊢
  have hst0 : ∃ st0, st0 = (CSys.start.run env before).st := ⟨_, rfl⟩
  obtain ⟨st0, hst0⟩ := hst0
  rw [← hst0] at hlive ⊢
  obtain ⟨evs', a1, ⟨-, a2⟩, a3⟩ := full_run (env := env) evs _ _ (along_start st0 (ls ++ List.replicate n (Line.check p)))
  have hsound : ∀ (i : Nat) (l : Line), (ls ++ List.replicate n (Line.check p))[i]? = some l →
      (HubSys.sound ⟨st0, ls ++ List.replicate n (Line.check p)⟩).ws[i]? = some ⟨l, none, false⟩ := by
    intro i l hl
    show (List.map _ _)[i]? = _
    rw [List.getElem?_map, hl]; rfl
  have hlt := (List.getElem?_eq_some_iff.1 hj).1
  have hjl : ls[j]? = some (Line.open c bytes) := by
    rw [hls, List.getElem?_append_left (by simpa using hlt)]; simp [hj]
  have hjL : j < ls.length := (List.getElem?_eq_some_iff.1 hjl).1
  obtain ⟨b1, b2⟩ := a3 j _ (hsound j _ ((List.getElem?_append_left hjL).trans hjl)) rfl rfl (hwhole j (.inl rfl))
  -- the goroutines of the checks
  have hown' : ∀ (i : Nat) (w : Cable), ls.length ≤ i →
      ((HubSys.sound ⟨st0, ls ++ List.replicate n (Line.check p)⟩).runFrag env evs).ws[i]? = some w →
      ((MixSys.mk st0 (ls ++ List.replicate n (Line.check p)) [] []).run env evs').ls[i]? = some w.line := by
    intro i w hi hw
    have hlen : i < (ls ++ List.replicate n (Line.check p)).length := by
      have := (List.getElem?_eq_some_iff.1 hw).1
      rw [a1.len, mix_length] at this
      exact this
    obtain ⟨-, g2⟩ := a3 i _ (hsound i _ (List.getElem?_eq_getElem hlen)) rfl rfl (hwhole i (.inr (by omega)))
    rw [hw] at g2
    cases hx : ((MixSys.mk st0 (ls ++ List.replicate n (Line.check p)) [] []).run env evs').ls[i]? with
    | none => rw [hx] at g2; cases g2
    | some l => rw [hx] at g2; cases g2; rfl
  have hback : ∀ (i : Nat) (l : Line), ls.length ≤ i →
      ((MixSys.mk st0 (ls ++ List.replicate n (Line.check p)) [] []).run env evs').ls[i]? = some l →
      ((HubSys.sound ⟨st0, ls ++ List.replicate n (Line.check p)⟩).runFrag env evs).ws[i]? = some ⟨l, none, false⟩ := by
    intro i l hi hl
    have hlen : i < (ls ++ List.replicate n (Line.check p)).length := by
      have := (List.getElem?_eq_some_iff.1 hl).1
      rw [mix_length] at this
      exact this
    obtain ⟨-, g2⟩ := a3 i _ (hsound i _ (List.getElem?_eq_getElem hlen)) rfl rfl (hwhole i (.inr (by omega)))
    rw [hl] at g2
    exact g2
  have hfresh : ∀ l ∈ ls ++ List.replicate n (Line.check p), l.cur = none := by
    intro x hx
    rw [hls] at hx
    simp only [List.mem_append, List.mem_map, List.mem_replicate] at hx
    rcases hx with (⟨o, -, rfl⟩ | ⟨o, -, rfl⟩) | ⟨-, rfl⟩ <;> rfl
  have hfine : (MixSys.mk st0 (ls ++ List.replicate n (Line.check p)) [] []).Fine env p T ls.length := by
    refine ⟨by rw [hst0]; exact (ok_run (ok_start env) before).1.inv, ?_, fun i l hl t q hq => ?_, fun i l hi hl => ?_⟩
    · intro r hr hp
      simp only [hst0] at hr hp
      obtain ⟨i, t, q, hi, hm⟩ := born_run (ok_start env) born_start before r hr
      rcases spawned_run before CSys.start i t q hi with h' | ⟨q', h'⟩
      · exact absurd ((makes_phone hm).symm.trans hp) (hnew t h').1
      · exact absurd h' (by simp [CSys.start])
    · rw [hfresh l (List.mem_of_getElem? hl)] at hq; cases hq
    · have hl : (ls ++ List.replicate n (Line.check p))[i]? = some l := hl
      rw [List.getElem?_append_right hi] at hl
      rw [(List.mem_replicate.1 (List.mem_of_getElem? hl)).2]
      exact ⟨rfl, .inl ⟨rfl, rfl, rfl⟩⟩
  rcases fine_run (env := env) evs' hfine (fun i clk hm => by
      obtain ⟨pre', post', e⟩ := List.append_of_mem hm
      obtain ⟨pre, post, e', -⟩ := a2 pre' i clk post' e
      exact hmin i clk (by rw [e']; exact List.mem_append_right _ List.mem_cons_self)) with ⟨i, l, g1, g2, g3⟩ | ⟨hf, hpart⟩
  · exact absurd g3 (hlive i _ (by rw [← hL]; exact g1) (hback i l g1 g2))
  refine ⟨fun i w hi hw d hd => ?_, ?_⟩
  · rcases (hf.idle i _ (by rw [hL]; exact hi) (hown' i w (by rw [hL]; exact hi) hw)).2 with ⟨-, -, h⟩ | ⟨-, h, -⟩ | ⟨-, -, h⟩ <;> rw [h] at hd
    · cases hd
    · cases hd
    · rw [List.mem_singleton.1 hd]
  · have hp0 : (MixSys.mk st0 (ls ++ List.replicate n (Line.check p)) [] []).part ls.length = MixSys.mk st0 ls [] [] := by
      simp [MixSys.part]
    rw [hp0] at hpart
    obtain ⟨l, clks, h1, h2, h3, -, h4, h5, h6, -, -, h7⟩ := C170_fragments_of_others env before conns checks evs' p j c bytes hj
      (hown.imp fun _ _ h => h.1) hoth (fun t ht _ => (hnew t ht).2.2) hchk frames rest hfr hrest (by rw [b1]; exact henough)
    rw [← hst0, ← hls, hpart] at h1 h6 h7
    rw [← hst0] at h4 h5
    have h1 : (List.take ls.length _)[j]? = some l := h1
    rw [List.getElem?_take_of_lt hjL] at h1
    rw [h1] at b2
    refine ⟨_, b2, h2, fun c' ks hks => ?_⟩
    have h0 : View p (Registers env bytes) st0 Store.empty := by rw [hst0]; exact strangers_view hnew
    obtain ⟨e1, e2⟩ := View.serves frames clks ks c c' h0 h3 hks fun f hf => ⟨(hown _ _ _ hfr f hf).1, fun now hd m hh =>
      ⟨((hown _ _ _ hfr f hf).2 now hd m hh).1, fun g hg => ⟨_, _, _, hfr, f, hf, now, hd, g, hg ▸ hh, rfl⟩,
        ((hown _ _ _ hfr f hf).2 now hd m hh).2⟩⟩
    have hst := a1.store
    rw [hst]
    refine ⟨h4.trans (congrArg (·.1) e1), h5.trans (congrArg (·.2) e1), ?_, h7.trans e2.params⟩
    have hl := e2.looks
    unfold LooksAlike
    have h6 : ((MixSys.mk st0 (ls ++ List.replicate n (Line.check p)) [] []).run env evs').st.look p = _ := h6
    rw [h6]
    exact hl

/-! The terminal of C162 with its two checks; on the other connection a fragment arrives, with which it ends, and it breaks; a
request for the terminal is under way. -/

theorem bears_register {env : Env} {now : Civil} {f : List UInt8} {h : Header} {g : Register} (hh : Bears env now f h (.m0100 g)) :
    h.msgID = 0x0100 := by
  obtain ⟨pd, t, k, -, -, ht, e5⟩ := hh
  cases t with
  | t0100 => simpa [msgTable] using ofID_mem ht
  | _ =>
    exfalso
    unfold MType.decode at e5
    first
      | (injection e5 with e5; injection e5 with e5 _; cases e5)
      | (obtain ⟨a, k', -, h2⟩ := rd_bind_ok e5; injection h2 with h2; injection h2 with h2 _; cases h2)

def minuteConns : List (Conn × List UInt8) := [(demoC, serialBytes), (demoC', mixFrag 1)]

def minuteAsk : List HubEv := .request (.query (lineHdr 1 0).phone) :: List.replicate 8 (.go 0 none)

def minuteEvs : List HubEv := [.accept demoC, .accept demoC'] ++ (newEvs.take 270).map .cable ++ minuteAsk ++ (newEvs.drop 270).map .cable

def minuteSys : HubSys := .sound ⟨(CSys.start.run goEnv newBefore).st, minuteConns.map (fun o => Line.open o.1 o.2) ++
  ([] : List Str).map Line.check ++ List.replicate 2 (Line.check (lineHdr 1 0).phone)⟩

/-- The terminal is answered as without all that, the fragment has ended its connection, both checks are done, and a query has been
written to the terminal. -/
example : let a := minuteSys.runFrag goEnv minuteEvs
    a.ws.map (fun w => (w.line.output, w.line.ended, w.line.input.length, w.line.done.length)) =
      [(registerReply ((lineHdr 1 0x0100).withBodyLength 41) 0 (lineCode 1 0x31) ++ generalReply (lineHdr 1 0x0002) 0, false, 0, 2),
        ([], true, 0, 0), ([], false, 0, 1), ([], false, 0, 1)] ∧ a.sent.map (fun x => (x.1, x.2.1)) = [(0, demoC)] := by
  decide +kernel

theorem minute_live : ((minuteSys.runFrag goEnv minuteEvs).ws.all fun w => !panickedB w.line) = true := by decide +kernel

theorem minute_others (i : Nat) (o : Conn × List UInt8) (ho : minuteConns[i]? = some o) (hi : i ≠ 0) : Utters goEnv o.2 fun h m =>
    h.phone ≠ (lineHdr 1 0).phone ∧ ∀ g, m = .m0100 g → ¬ Registers goEnv serialBytes g.plate := by
  match i, ho with
  | 0, _ => exact absurd rfl hi
  | 1, ho =>
    cases ho
    intro e fs rest hr f hf now hd m hh
    have := utters_of (env := goEnv) (q := fun h => h.phone != (lineHdr 1 0).phone && h.msgID == 2) (bytes := mixFrag 1)
      (by decide +kernel) e fs rest hr f hf now hd m hh
    simp only [Bool.and_eq_true, bne_iff_ne, beq_iff_eq] at this
    refine ⟨this.1, fun g hg => ?_⟩
    subst hg
    have h2 := this.2
    rw [bears_register hh] at h2
    exact absurd h2 (by decide)
  | n + 2, ho => cases ho

theorem cables_append (a b : List HubEv) : cables (a ++ b) = cables a ++ cables b := List.filterMap_append

theorem cables_map (l : List CableEv) : cables (l.map .cable) = l := by
  induction l with
  | nil => rfl
  | cons x l ih => exact congrArg (x :: ·) ih

theorem minute_cables : cables minuteEvs = newEvs := by
  have h0 : cables [.accept demoC, .accept demoC'] = [] := rfl
  have h1 : cables minuteAsk = [] := rfl
  rw [minuteEvs, cables_append, cables_append, cables_append, cables_map, cables_map, h0, h1, List.nil_append, List.append_nil,
    List.take_append_drop]

example (c' : Conn) (clk : Clock) : ∃ (w : Cable) (frames : List (List UInt8)), frames.length = 3 ∧
    (minuteSys.runFrag goEnv minuteEvs).ws[0]? = some w ∧
    w.line.output = (serves goEnv c' Store.empty (frames.zip [clk, clk, clk])).2.1 := by
  obtain ⟨rest, h1, h2⟩ := cut_is_recvs .eof serialBytes
  obtain ⟨-, w, a1, -, a2⟩ := C173_first_minute goEnv newBefore minuteConns [] 2 (demoClk 0).ms minuteEvs (lineHdr 1 0).phone
    0 demoC serialBytes rfl scene_own minute_others
    (by
      intro t ht
      simp only [newBefore, List.mem_cons, CEv.spawn.injEq, List.not_mem_nil, or_false] at ht
      rcases ht with rfl | ht
      · exact ⟨by decide +kernel, trivial, fun _ _ => by simp [plateOf]⟩
      · cases ht)
    (by simp)
    (by
      intro i hi
      rw [minute_cables]
      refine steps_only ?_
      rw [List.all_eq_true]
      intro e he
      simp only [newEvs, List.mem_append, List.mem_map, List.mem_cons, List.not_mem_nil, or_false] at he
      rcases he with (⟨x, -, rfl⟩ | rfl | rfl) | ⟨x, -, rfl⟩
      · rfl
      · rcases hi with rfl | hi
        · rfl
        · have : minuteConns.length = 2 := rfl
          simp only [bne_iff_ne]; omega
      · rcases hi with rfl | hi
        · rfl
        · have : minuteConns.length = 2 := rfl
          simp only [bne_iff_ne]; omega
      · rfl)
    (by
      have : (newEvs.all fun | .step _ clk => decide ((demoClk 0).ms ≤ clk.ms ∧ clk.ms ≤ (demoClk 0).ms + 60000) | _ => true) = true := by
        decide +kernel
      intro i clk he
      have he : CableEv.step i clk ∈ cables minuteEvs := List.mem_filterMap.2 ⟨_, he, rfl⟩
      rw [minute_cables] at he
      simpa using List.all_eq_true.1 this _ he)
    (by
      intro i w _ hw
      refine not_panicked ?_
      simpa using List.all_eq_true.1 minute_live w (List.mem_of_getElem? hw))
    _ rest h1 h2 (by decide +kernel)
  exact ⟨w, _, scene_frames, a1, (a2 c' [clk, clk, clk] scene_frames.symm).1⟩

end JT808
