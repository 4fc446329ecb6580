import Verif.Props.MixedCalm
import Verif.Props.Minute
/-
C174 with all that C172 allows the others.
-/
namespace JT808
open Spec

/-- **C174**, all at once: as C172_terminal, with any number of checks of the terminal's own phone.  If the process lives and
whenever one of these checks makes a step nothing recorded of the phone is older than its keepalive interval, the terminal gets all
answers of the sequential server, and none of its checks has cancelled anything. -/
theorem C174_awake_all_at_once (env : Env) (before : List CEv) (conns : List (Conn × List UInt8)) (checks : List Str) (n : Nat)
    (evs : List HubEv) (p : Str) (j : Nat) (c : Conn) (bytes : List UInt8) (hj : conns[j]? = some (c, bytes))
    (hown : Speaks env bytes fun h _ => h.phone = p)
    (hoth : ∀ (i : Nat) o, conns[i]? = some o → i ≠ j →
      Utters env o.2 fun h m => h.phone ≠ p ∧ ∀ g, m = .m0100 g → ¬ Registers env bytes g.plate)
    (hold : ∀ t, .spawn t ∈ before → t.phone ≠ p → ∀ pl, Registers env bytes pl → plateOf t ≠ some pl) (hchk : p ∉ checks)
    (hwhole : ∀ i, i = j ∨ conns.length ≤ i → ¬ Breaks i (cables evs))
    (hawake : ∀ pre i clk post, evs = pre ++ .cable (.step i clk) :: post → conns.length + checks.length ≤ i →
      Awake p clk ((HubSys.sound ⟨(CSys.start.run env before).st, conns.map (fun o => Line.open o.1 o.2) ++ checks.map Line.check ++
        List.replicate n (Line.check p)⟩).runFrag env pre).st)
    (hlive : ∀ (i : Nat) (w : Cable), conns.length + checks.length ≤ i →
      ((HubSys.sound ⟨(CSys.start.run env before).st, conns.map (fun o => Line.open o.1 o.2) ++ checks.map Line.check ++
        List.replicate n (Line.check p)⟩).runFrag env evs).ws[i]? = some w → ¬ w.line.Panicked)
    (frames : List (List UInt8)) (rest : List UInt8) (hfr : Recvs .eof bytes frames rest)
    (hrest : recv .eof rest = (.err .eof, [])) (henough : bytes.length + 9 * frames.length ≤ (stepsOf j (cables evs)).length) :
    let st0 := (CSys.start.run env before).st
    let a := (HubSys.sound ⟨st0, conns.map (fun o => Line.open o.1 o.2) ++ checks.map Line.check ++
        List.replicate n (Line.check p)⟩).runFrag env evs
    (∀ (i : Nat) (w : Cable), conns.length + checks.length ≤ i → a.ws[i]? = some w → ∀ d ∈ w.line.done, d.2 = .ok none) ∧
    ∃ (w : Cable) (clks : List Clock), a.ws[j]? = some w ∧ w.line.cur = none ∧ clks.length = frames.length ∧
      (∀ k ∈ clks, During (stepsOf j (cables evs)) k) ∧
      let r := serves env c st0 (frames.zip clks)
      w.line.output = r.2.1 ∧ w.line.ended = r.2.2 ∧ a.st.look p = r.1.look p ∧ a.st.geos.get p = r.1.geos.get p ∧
        a.st.jobs.count p = r.1.jobs.count p ∧ a.st.paramsOf p = r.1.paramsOf p := by
  intro st0 a
  have hC := C174_awake_among_fragments env before conns checks n
  simp only [a]
  have hls : ∃ ls, ls = conns.map (fun o => Line.open o.1 o.2) ++ checks.map Line.check := ⟨_, rfl⟩
  obtain ⟨ls, hls⟩ := hls
  have hL : ls.length = conns.length + checks.length := by rw [hls]; simp
  rw [← hls] at hlive hawake hC ⊢
  obtain ⟨evs', a1, ⟨-, a2⟩, a3⟩ := full_run (env := env) evs _ _ (along_start st0 (ls ++ List.replicate n (Line.check p)))
  have hsound : ∀ (i : Nat) (l : Line), (ls ++ List.replicate n (Line.check p))[i]? = some l →
      (HubSys.sound ⟨st0, ls ++ List.replicate n (Line.check p)⟩).ws[i]? = some ⟨l, none, false⟩ := by
    intro i l hl
    show (List.map _ _)[i]? = _
    rw [List.getElem?_map, hl]; rfl
  have hlt := (List.getElem?_eq_some_iff.1 hj).1
  have hjl : ls[j]? = some (Line.open c bytes) := by
    rw [hls, List.getElem?_append_left (by simpa using hlt)]; simp [hj]
  have hjL : j < ls.length := (List.getElem?_eq_some_iff.1 hjl).1
  obtain ⟨b1, b2⟩ := a3 j _ (hsound j _ ((List.getElem?_append_left hjL).trans hjl)) rfl rfl (hwhole j (.inl rfl))
  -- the goroutines of the checks
  have hown' : ∀ (i : Nat) (w : Cable), ls.length ≤ i →
      ((HubSys.sound ⟨st0, ls ++ List.replicate n (Line.check p)⟩).runFrag env evs).ws[i]? = some w →
      ((MixSys.mk st0 (ls ++ List.replicate n (Line.check p)) [] []).run env evs').ls[i]? = some w.line := by
    intro i w hi hw
    have hlen : i < (ls ++ List.replicate n (Line.check p)).length := by
      have := (List.getElem?_eq_some_iff.1 hw).1
      rw [a1.len, mix_length] at this
      exact this
    obtain ⟨-, g2⟩ := a3 i _ (hsound i _ (List.getElem?_eq_getElem hlen)) rfl rfl (hwhole i (.inr (by omega)))
    rw [hw] at g2
    cases hx : ((MixSys.mk st0 (ls ++ List.replicate n (Line.check p)) [] []).run env evs').ls[i]? with
    | none => rw [hx] at g2; cases g2
    | some l => rw [hx] at g2; cases g2; rfl
  have hback : ∀ (i : Nat) (l : Line), ls.length ≤ i →
      ((MixSys.mk st0 (ls ++ List.replicate n (Line.check p)) [] []).run env evs').ls[i]? = some l →
      ((HubSys.sound ⟨st0, ls ++ List.replicate n (Line.check p)⟩).runFrag env evs).ws[i]? = some ⟨l, none, false⟩ := by
    intro i l hi hl
    have hlen : i < (ls ++ List.replicate n (Line.check p)).length := by
      have := (List.getElem?_eq_some_iff.1 hl).1
      rw [mix_length] at this
      exact this
    obtain ⟨-, g2⟩ := a3 i _ (hsound i _ (List.getElem?_eq_getElem hlen)) rfl rfl (hwhole i (.inr (by omega)))
    rw [hl] at g2
    exact g2
  obtain ⟨c1, l, clks, c2, c3, c4, c5, c6⟩ := hC evs' p j c bytes hj hown hoth hold hchk (by
      intro pre' i clk post' he hi
      obtain ⟨pre, post, e1, e2⟩ := a2 pre' i clk post' he
      have := hawake pre i clk post e1 hi
      rw [← e2] at this
      exact this)
    (fun i l hi hl => hlive i _ hi (hback i l (by rw [hL]; exact hi) hl)) frames rest hfr hrest (by rw [b1]; exact henough)
  refine ⟨fun i w hi hw => c1 i _ hi (hown' i w (by rw [hL]; exact hi) hw), ?_⟩
  rw [c2] at b2
  refine ⟨_, clks, b2, c3, c4, by rw [← b1]; exact c5, ?_⟩
  have hst := a1.store
  rw [hst]
  exact c6

/-! The example of C174_awake_among_fragments; besides, the connection on which fragments are acknowledged breaks in the middle of
the acknowledgement and hears nothing some time later. -/

def restFull : List HubEv := .cable (.mute 2 false 5) :: fullOf (restEvs.take 280) ++ [.cable (.deaf 2)] ++ fullOf (restEvs.drop 280)

def restHub : HubSys := .sound ⟨(CSys.start.run goEnv mixBefore).st, mixConns.map (fun o => Line.open o.1 o.2) ++
  ([] : List Str).map Line.check ++ List.replicate 2 (Line.check (lineHdr 1 0).phone)⟩

example : (restHub.runFrag goEnv restFull).ws.map (fun w => (w.line.output.length, w.line.done.map fun d => d.2 == .ok none, w.line.ended)) =
    [(40, [false, false], false), (0, [], true), (5, [false], false), (0, [true], false), (0, [true], false)] := by
  decide +kernel

theorem restFull_live : ((restHub.runFrag goEnv restFull).ws.all fun w => !panickedB w.line) = true := by decide +kernel

theorem restFull_times : (restFull.all fun
    | .cable (.step _ clk) => decide ((demoClk 0).ms ≤ clk.ms ∧ clk.ms ≤ (demoClk 0).ms + 60000) | _ => true) = true := by
  decide +kernel

theorem restFull_awake (pre : List HubEv) (i : Nat) (clk : Clock) (post : List HubEv) (he : restFull = pre ++ .cable (.step i clk) :: post) :
    Awake (lineHdr 1 0).phone clk (restHub.runFrag goEnv pre).st := by
  have ht : ∀ i clk, .cable (.step i clk) ∈ restFull → (demoClk 0).ms ≤ clk.ms ∧ clk.ms ≤ (demoClk 0).ms + 60000 := by
    intro i clk h
    simpa using List.all_eq_true.1 restFull_times _ h
  obtain ⟨evs', a1, ⟨-, a2⟩, -⟩ := full_run (env := goEnv) pre restHub restSys (along_start _ _)
  rw [a1.store]
  refine (rest_stays evs' fun i clk hm => ?_).awake (ht i clk (by rw [he]; exact List.mem_append_right _ List.mem_cons_self)).2
  obtain ⟨pre', post', e⟩ := List.append_of_mem hm
  obtain ⟨pre2, post2, e', -⟩ := a2 pre' i clk post' e
  exact ht i clk (by rw [he, e']; exact List.mem_append_left _ (List.mem_append_right _ List.mem_cons_self))

theorem restFull_breaks (i : Nat) (h : (restFull.all fun | .cable (.mute k _ _) => k == 2 | .cable (.deaf k) => k == 2 | _ => true) = true)
    (hi : i ≠ 2) : ¬ Breaks i (cables restFull) := by
  rintro ⟨e, he, hb⟩
  obtain ⟨x, hx, hx'⟩ := List.mem_filterMap.1 he
  have := List.all_eq_true.1 h x hx
  cases x with
  | cable y =>
    cases hx'
    rcases hb with ⟨b, k, rfl⟩ | rfl
    · exact hi (by simpa using this)
    · exact hi (by simpa using this)
  | _ => cases hx'

example : ∃ (w : Cable) (frames : List (List UInt8)) (clks : List Clock), frames.length = 2 ∧
    (restHub.runFrag goEnv restFull).ws[0]? = some w ∧
    w.line.output = (serves goEnv demoC (CSys.start.run goEnv mixBefore).st (frames.zip clks)).2.1 ∧
    w.line.ended = (serves goEnv demoC (CSys.start.run goEnv mixBefore).st (frames.zip clks)).2.2 := by
  obtain ⟨rest, h1, h2⟩ := cut_is_recvs .eof mixBytes
  obtain ⟨-, w, clks, a1, -, -, -, a2, a3, -⟩ := C174_awake_all_at_once goEnv mixBefore mixConns [] 2 restFull (lineHdr 1 0).phone 0
    demoC mixBytes rfl
    ((speaks_of (q := fun h => h.phone == (lineHdr 1 0).phone) (by decide +kernel)).imp fun hd m h => by simpa using h)
    mix_others (fun t _ _ pl h => absurd h (mix_silent pl)) (by simp)
    (fun i hi => restFull_breaks i (by decide +kernel) (by
      rcases hi with rfl | hi
      · decide
      · have : mixConns.length = 3 := rfl
        omega))
    (fun pre i clk post he _ => restFull_awake pre i clk post he)
    (fun i w _ hw => not_panicked (by simpa using List.all_eq_true.1 restFull_live w (List.mem_of_getElem? hw)))
    _ rest h1 h2 (by decide +kernel)
  exact ⟨w, _, clks, by decide +kernel, a1, a2, a3⟩

end JT808
