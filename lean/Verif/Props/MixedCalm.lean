import Verif.Proof.MixedCalm
import Verif.Props.Mixed
import Verif.Props.Awake
/-
C174: what C170 says also holds while keepalive checks of that same terminal are running, if it is not silent.
-/
namespace JT808
open Spec

/-- **C174**.  As C170, but besides the checks of other phones any number of checks of the terminal's own phone run at the same
time.  If the process lives, that is, none of them has panicked, and whenever one of them made a step nothing recorded of the
phone was older than its keepalive interval, then the terminal gets all answers of the sequential server, which knows of no checks,
no requests and nobody else; and all of its checks that are done have done so without cancelling anything. -/
theorem C174_awake_among_fragments (env : Env) (before : List CEv) (conns : List (Conn × List UInt8)) (checks : List Str) (n : Nat)
    (evs : List MixEv) (p : Str) (j : Nat) (c : Conn) (bytes : List UInt8) (hj : conns[j]? = some (c, bytes))
    (hown : Speaks env bytes fun h _ => h.phone = p)
    (hoth : ∀ (i : Nat) o, conns[i]? = some o → i ≠ j →
      Utters env o.2 fun h m => h.phone ≠ p ∧ ∀ g, m = .m0100 g → ¬ Registers env bytes g.plate)
    (hold : ∀ t, .spawn t ∈ before → t.phone ≠ p → ∀ pl, Registers env bytes pl → plateOf t ≠ some pl) (hchk : p ∉ checks)
    (hawake : ∀ pre i clk post, evs = pre ++ .step i clk :: post → conns.length + checks.length ≤ i →
      Awake p clk ((MixSys.mk (CSys.start.run env before).st (conns.map (fun o => Line.open o.1 o.2) ++ checks.map Line.check ++
        List.replicate n (Line.check p)) [] []).run env pre).st)
    (hlive : ∀ (i : Nat) (l : Line), conns.length + checks.length ≤ i →
      ((MixSys.mk (CSys.start.run env before).st (conns.map (fun o => Line.open o.1 o.2) ++ checks.map Line.check ++
        List.replicate n (Line.check p)) [] []).run env evs).ls[i]? = some l → ¬ l.Panicked)
    (frames : List (List UInt8)) (rest : List UInt8) (hfr : Recvs .eof bytes frames rest)
    (hrest : recv .eof rest = (.err .eof, [])) (henough : bytes.length + 9 * frames.length ≤ (mixSteps j evs).length) :
    let st0 := (CSys.start.run env before).st
    let s := (MixSys.mk st0 (conns.map (fun o => Line.open o.1 o.2) ++ checks.map Line.check ++
        List.replicate n (Line.check p)) [] []).run env evs
    (∀ (i : Nat) (w : Line), conns.length + checks.length ≤ i → s.ls[i]? = some w → ∀ d ∈ w.done, d.2 = .ok none) ∧
    ∃ (l : Line) (clks : List Clock), s.ls[j]? = some l ∧ l.cur = none ∧ clks.length = frames.length ∧
      (∀ k ∈ clks, During (mixSteps j evs) k) ∧
      let r := serves env c st0 (frames.zip clks)
      l.output = r.2.1 ∧ l.ended = r.2.2 ∧ s.st.look p = r.1.look p ∧ s.st.geos.get p = r.1.geos.get p ∧
        s.st.jobs.count p = r.1.jobs.count p ∧ s.st.paramsOf p = r.1.paramsOf p := by
  intro st0 s
  obtain ⟨l, clks, h1, h2⟩ := C170_fragments_of_others env before conns checks evs p j c bytes hj hown hoth hold hchk frames rest
    hfr hrest henough
  have hls : ∃ ls, ls = conns.map (fun o => Line.open o.1 o.2) ++ checks.map Line.check := ⟨_, rfl⟩
  obtain ⟨ls, hls⟩ := hls
  have hL : ls.length = conns.length + checks.length := by rw [hls]; simp
  have hjL : j < ls.length := by rw [hL]; exact Nat.lt_add_right _ (List.getElem?_eq_some_iff.1 hj).1
  have hfresh : ∀ l ∈ ls ++ List.replicate n (Line.check p), l.cur = none := by
    intro x hx
    rw [hls] at hx
    simp only [List.mem_append, List.mem_map, List.mem_replicate] at hx
    rcases hx with (⟨o, -, rfl⟩ | ⟨o, -, rfl⟩) | ⟨-, rfl⟩ <;> rfl
  simp only [s]
  rw [← hls] at hawake hlive h1 h2 ⊢
  have hcalm : (MixSys.mk st0 (ls ++ List.replicate n (Line.check p)) [] []).Calm env p ls.length := by
    refine ⟨(ok_run (ok_start env) before).1.inv, fun i l hl t q hq => ?_, fun i l hi hl => ?_⟩
    · rw [hfresh l (List.mem_of_getElem? hl)] at hq; cases hq
    · have hl : (ls ++ List.replicate n (Line.check p))[i]? = some l := hl
      rw [List.getElem?_append_right hi] at hl
      rw [(List.mem_replicate.1 (List.mem_of_getElem? hl)).2]
      exact ⟨rfl, .inl ⟨rfl, rfl, rfl⟩⟩
  rcases calm_run (env := env) evs hcalm (fun pre i clk post he hi => hawake pre i clk post he (by rw [← hL]; exact hi)) with
    ⟨i, l, g1, g2, g3⟩ | ⟨hf, hpart⟩
  · exact absurd g3 (hlive i _ (by rw [← hL]; exact g1) g2)
  refine ⟨fun i w hi hw d hd => ?_, l, clks, ?_, ?_⟩
  · rcases (hf.idle i _ (by rw [hL]; exact hi) hw).2 with ⟨-, -, h⟩ | ⟨-, h, -⟩ | ⟨-, -, h⟩ <;> rw [h] at hd
    · cases hd
    · cases hd
    · rw [List.mem_singleton.1 hd]
  all_goals
    have hp0 : (MixSys.mk st0 (ls ++ List.replicate n (Line.check p)) [] []).part ls.length = MixSys.mk st0 ls [] [] := by
      simp [MixSys.part]
    rw [hp0] at hpart
  · rw [hpart] at h1
    have h1 : (List.take ls.length _)[j]? = some l := h1
    rw [List.getElem?_take_of_lt hjL] at h1
    exact h1
  · rw [hpart] at h2
    exact h2

/-! The connections of C170, with two checks of the first terminal: one runs before its first heartbeat is handled, the other
while both are. -/

def restEvs : List MixEv := [.step 3 (demoClk 3), .step 3 (demoClk 4)] ++ mixEvs.flatMap fun
  | .step i clk => [.step i clk, .step (if i = 2 then 4 else 3) clk]
  | e => [e]

def restSys : MixSys := MixSys.mk (CSys.start.run goEnv mixBefore).st (mixConns.map (fun o => Line.open o.1 o.2) ++
  ([] : List Str).map Line.check ++ List.replicate 2 (Line.check (lineHdr 1 0).phone)) [] []

example : (restSys.run goEnv restEvs).ls.map (fun l => (l.output.length, l.done.map fun d => d.2 == .ok none, l.ended)) =
    [(40, [false, false], false), (0, [], true), (44, [false], false), (0, [true], false), (0, [true], false)] := by
  decide +kernel

theorem rest_live : ((restSys.run goEnv restEvs).ls.all fun l => !panickedB l) = true := by decide +kernel

theorem rest_times : (restEvs.all fun | .step _ clk => decide ((demoClk 0).ms ≤ clk.ms ∧ clk.ms ≤ (demoClk 0).ms + 60000) | _ => true) = true := by
  decide +kernel

theorem rest_young : Young (lineHdr 1 0).phone (demoClk 0).ms restSys.st := by
  show ∀ r, r < restSys.st.next → (restSys.st.heap r).phone = (lineHdr 1 0).phone →
    (demoClk 0).ms ≤ (restSys.st.heap r).last ∧ (restSys.st.heap r).keepalive = 60000
  decide +kernel

theorem rest_stays (evs : List MixEv) (ht : ∀ i clk, .step i clk ∈ evs → (demoClk 0).ms ≤ clk.ms ∧ clk.ms ≤ (demoClk 0).ms + 60000) :
    Young (lineHdr 1 0).phone (demoClk 0).ms (restSys.run goEnv evs).st := by
  have hnew : ∀ l ∈ restSys.ls, l.cur = none := by
    intro x hx
    simp only [restSys, List.mem_append, List.mem_map, List.mem_replicate] at hx
    rcases hx with (⟨o, -, rfl⟩ | ⟨o, -, rfl⟩) | ⟨-, rfl⟩ <;> rfl
  have hfine : restSys.Fine goEnv (lineHdr 1 0).phone (demoClk 0).ms restSys.ls.length :=
    ⟨(ok_run (ok_start goEnv) mixBefore).1.inv, rest_young, (fun i l hl t q hq => by
      rw [hnew l (List.mem_of_getElem? hl)] at hq; cases hq), fun i l hi hl => by
      have := (List.getElem?_eq_some_iff.1 hl).1; omega⟩
  rcases fine_run (env := goEnv) evs hfine ht with ⟨i, l, h1, h2, -⟩ | ⟨h, -⟩
  · have := (List.getElem?_eq_some_iff.1 h2).1
    rw [mix_length] at this
    omega
  · exact h.young

theorem rest_awake (pre : List MixEv) (i : Nat) (clk : Clock) (post : List MixEv) (he : restEvs = pre ++ .step i clk :: post) :
    Awake (lineHdr 1 0).phone clk (restSys.run goEnv pre).st := by
  have ht : ∀ i clk, .step i clk ∈ restEvs → (demoClk 0).ms ≤ clk.ms ∧ clk.ms ≤ (demoClk 0).ms + 60000 := by
    intro i clk h
    simpa using List.all_eq_true.1 rest_times _ h
  exact (rest_stays pre fun i clk h => ht i clk (by rw [he]; exact List.mem_append_left _ h)).awake
    (ht i clk (by rw [he]; exact List.mem_append_right _ List.mem_cons_self)).2

example : ∃ (l : Line) (frames : List (List UInt8)) (clks : List Clock), frames.length = 2 ∧
    (restSys.run goEnv restEvs).ls[0]? = some l ∧
    l.output = (serves goEnv demoC (CSys.start.run goEnv mixBefore).st (frames.zip clks)).2.1 ∧
    l.ended = (serves goEnv demoC (CSys.start.run goEnv mixBefore).st (frames.zip clks)).2.2 := by
  obtain ⟨rest, h1, h2⟩ := cut_is_recvs .eof mixBytes
  obtain ⟨-, l, clks, a1, -, -, -, a2, a3, -⟩ := C174_awake_among_fragments goEnv mixBefore mixConns [] 2 restEvs (lineHdr 1 0).phone 0
    demoC mixBytes rfl
    ((speaks_of (q := fun h => h.phone == (lineHdr 1 0).phone) (by decide +kernel)).imp fun hd m h => by simpa using h)
    mix_others (fun t _ _ pl h => absurd h (mix_silent pl)) (by simp) (fun pre i clk post he _ => rest_awake pre i clk post he)
    (fun i l _ hl => not_panicked (by simpa using List.all_eq_true.1 rest_live l (List.mem_of_getElem? hl)))
    _ rest h1 h2 (by decide +kernel)
  exact ⟨l, _, clks, by decide +kernel, a1, a2, a3⟩

end JT808
