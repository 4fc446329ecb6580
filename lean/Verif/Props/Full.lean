import Verif.Proof.Full
import Verif.Props.MixedGateway
/-
C172: all at once: fragments of others, connections that break, requests, and connections that come and go.
-/
namespace JT808
open Spec

variable {env : Env}

theorem along_start (st : Store) (ls : List Line) : (HubSys.sound ⟨st, ls⟩).Along (MixSys.mk st ls [] []) := by
  refine ⟨rfl, rfl, rfl, by simp [HubSys.sound, CableSys.sound], fun i w l hw hl => ?_⟩
  simp only [HubSys.sound, CableSys.sound, List.getElem?_map] at hw
  have hl : ls[i]? = some l := hl
  rw [hl] at hw
  cases hw
  exact ⟨fun _ => rfl, fun _ => rfl⟩

theorem sound_at {st : Store} {conns : List (Conn × List UInt8)} {checks : List Str} {j : Nat} {c : Conn} {bytes : List UInt8}
    (hj : conns[j]? = some (c, bytes)) :
    (HubSys.sound ⟨st, conns.map (fun o => Line.open o.1 o.2) ++ checks.map Line.check⟩).ws[j]? = some ⟨Line.open c bytes, none, false⟩ := by
  simp only [HubSys.sound, CableSys.sound, List.map_append]
  rw [List.getElem?_append_left (by simpa using (List.getElem?_eq_some_iff.1 hj).1)]
  simp [hj]

/-- **C172**: on connection `j` a terminal sends any bytes without fragments.  On the others anything arrives, also fragments;
any of them break, at any moments; there are parameter requests of the HTTP API, also for this terminal, keepalive checks of
others, and connections that come and go.  When the goroutine of `j` has made one step for each of its bytes and nine for each of
its frames, its answers, whether it is still served and what the server knows of its phone are exactly what the sequential server
comes to that is given all frames of `j` and nothing else. -/
theorem C172_terminal (env : Env) (before : List CEv) (conns : List (Conn × List UInt8)) (checks : List Str)
    (evs : List HubEv) (p : Str) (j : Nat) (c : Conn) (bytes : List UInt8) (hj : conns[j]? = some (c, bytes))
    (hown : Speaks env bytes fun h _ => h.phone = p)
    (hoth : ∀ (i : Nat) o, conns[i]? = some o → i ≠ j →
      Utters env o.2 fun h m => h.phone ≠ p ∧ ∀ g, m = .m0100 g → ¬ Registers env bytes g.plate)
    (hold : ∀ t, .spawn t ∈ before → t.phone ≠ p → ∀ pl, Registers env bytes pl → plateOf t ≠ some pl) (hchk : p ∉ checks)
    (hwhole : ¬ Breaks j (cables evs))
    (frames : List (List UInt8)) (rest : List UInt8) (hfr : Recvs .eof bytes frames rest)
    (hrest : recv .eof rest = (.err .eof, [])) (henough : bytes.length + 9 * frames.length ≤ (stepsOf j (cables evs)).length) :
    let st0 := (CSys.start.run env before).st
    let a := (HubSys.sound ⟨st0, conns.map (fun o => Line.open o.1 o.2) ++ checks.map Line.check⟩).runFrag env evs
    ∃ (w : Cable) (clks : List Clock), a.ws[j]? = some w ∧ w.line.cur = none ∧ clks.length = frames.length ∧
      (∀ k ∈ clks, During (stepsOf j (cables evs)) k) ∧
      let r := serves env c st0 (frames.zip clks)
      w.line.output = r.2.1 ∧ w.line.ended = r.2.2 ∧ a.st.look p = r.1.look p ∧ a.st.geos.get p = r.1.geos.get p ∧
        a.st.jobs.count p = r.1.jobs.count p ∧ a.st.paramsOf p = r.1.paramsOf p := by
  intro st0 a
  obtain ⟨evs', h1, -, h3⟩ := full_run (env := env) evs _ _
    (along_start st0 (conns.map (fun o => Line.open o.1 o.2) ++ checks.map Line.check))
  obtain ⟨b1, b2⟩ := h3 j _ (sound_at hj) rfl rfl hwhole
  obtain ⟨l, clks, c1, c2, c3, c4, c5⟩ := C170_fragments_of_others env before conns checks evs' p j c bytes hj hown hoth hold hchk
    frames rest hfr hrest (by rw [b1]; exact henough)
  rw [c1] at b2
  have hst : a.st = _ := h1.store
  refine ⟨_, clks, b2, c2, c3, by rw [← b1]; exact c4, ?_⟩
  rw [hst]
  exact c5

/-- **C172**: the same for a connection `j` with any number of phones, as C171 has it: when it has made enough steps, then for
every phone that is only on `j` the answers are exactly what the sequential server writes that is given all frames of this phone
and nothing else, unless serve has ended before at a frame that ends it for one of the reasons of C161. -/
theorem C172_gateway (env : Env) (before : List CEv) (conns : List (Conn × List UInt8)) (checks : List Str)
    (evs : List HubEv) (j : Nat) (c : Conn) (bytes : List UInt8) (hj : conns[j]? = some (c, bytes))
    (hown : Speaks env bytes fun _ _ => True) (hwhole : ¬ Breaks j (cables evs))
    (frames : List (List UInt8)) (rest : List UInt8) (hfr : Recvs .eof bytes frames rest)
    (hrest : recv .eof rest = (.err .eof, [])) (henough : bytes.length + 9 * frames.length ≤ (stepsOf j (cables evs)).length) :
    let st0 := (CSys.start.run env before).st
    let a0 := HubSys.sound ⟨st0, conns.map (fun o => Line.open o.1 o.2) ++ checks.map Line.check⟩
    let a := a0.runFrag env evs
    ∃ (w : Cable) (answers : List (Str × List UInt8)), a.ws[j]? = some w ∧ w.line.cur = none ∧
      (w.line.ended = false → w.line.input = []) ∧
      (w.line.ended = true → ∃ f ∈ frames, (∃ clk ∈ stepsOf j (cables evs), ∀ st : Store, (st.serveFrame env clk c none f).2.ended = true) ∨
        ∃ now h m, Holds env now f h m ∧ (m = .m8104 ∨ ∃ n, (a0.runFrag env (evs.take n)).st.look h.phone = none)) ∧
      w.line.output = answers.flatMap (·.2) ∧
      ∀ p, OnlyOn env before conns checks j bytes p →
        ∃ (fs more : List (List UInt8)) (clks : List Clock), frames = fs ++ more ∧ (w.line.ended = false → more = []) ∧
          clks.length = (fs.filter (ofPhone env p)).length ∧ (∀ k ∈ clks, During (stepsOf j (cables evs)) k) ∧
          let r := serves env c st0 ((fs.filter (ofPhone env p)).zip clks)
          (answers.filter fun a => decide (a.1 = p)).flatMap (·.2) = r.2.1 ∧ (r.2.2 = true → w.line.ended = true) ∧
            a.st.look p = r.1.look p ∧ a.st.geos.get p = r.1.geos.get p ∧
            a.st.jobs.count p = r.1.jobs.count p ∧ a.st.paramsOf p = r.1.paramsOf p := by
  intro st0 a0 a
  obtain ⟨evs', h1, ⟨h2, -⟩, h3⟩ := full_run (env := env) evs _ _
    (along_start st0 (conns.map (fun o => Line.open o.1 o.2) ++ checks.map Line.check))
  obtain ⟨b1, b2⟩ := h3 j _ (sound_at hj) rfl rfl hwhole
  obtain ⟨l, answers, c1, c2, c3, c4, c5, c6⟩ := C171_gateway_among_fragments env before conns checks evs' j c bytes hj hown
    frames rest hfr hrest (by rw [b1]; exact henough)
  rw [c1] at b2
  have hst : a.st = _ := h1.store
  refine ⟨_, answers, b2, c2, c3, ?_, c5, ?_⟩
  · intro he
    obtain ⟨f, hf, hwhy⟩ := c4 he
    refine ⟨f, hf, ?_⟩
    rcases hwhy with hwhy | ⟨now, h, m, g1, g2 | ⟨n', g2⟩⟩
    · exact .inl (by rw [← b1]; exact hwhy)
    · exact .inr ⟨now, h, m, g1, .inl g2⟩
    · obtain ⟨n, hn⟩ := h2 n'
      exact .inr ⟨now, h, m, g1, .inr ⟨n, by rw [← hn]; exact g2⟩⟩
  · intro p hp
    rw [hst, ← b1]
    exact c6 p hp

/-! The situations of C170 and C171 with a request for the first terminal; the connection on which fragments are acknowledged
breaks in the middle of the acknowledgement, with an error after which serve goes on, and hears nothing some time later. -/

def fullOf (evs : List MixEv) : List HubEv := evs.map fun
  | .step i clk => .cable (.step i clk)
  | .accept c => .accept c
  | .gone c => .gone c
  | .request q => .request q
  | .go i e => .go i e

def fullEvs (evs : List MixEv) : List HubEv := .cable (.mute 2 false 5) :: fullOf (evs.take 80) ++
  [.request (.query (lineHdr 1 0).phone), .go 0 none, .go 0 none] ++ fullOf ((evs.drop 80).take 60) ++
  [.go 0 none, .go 0 none, .go 0 none, .go 0 none, .go 0 none] ++ fullOf ((evs.drop 140).take 15) ++ [.cable (.deaf 2)] ++ fullOf (evs.drop 155)

/-- Both heartbeats are answered; the acknowledgement was cut after five bytes, and nothing came after it. -/
example : let a := (HubSys.sound ⟨(CSys.start.run goEnv mixBefore).st, mixConns.map fun o => Line.open o.1 o.2⟩).runFrag goEnv (fullEvs mixEvs)
    a.ws.map (fun w => (w.line.output, w.line.ended, w.line.input.length)) =
    [(generalReply (lineHdr 1 0x0002) 0 ++ generalReply (lineHdr 1 0x0002) 0, false, 0), ([], true, 0), ([0x7e, 0x80, 1, 0, 5], false, 0)] ∧
    a.sent.map (fun x => (x.1, x.2.1)) = [(0, demoC)] := by
  decide +kernel

example : ∃ (w : Cable) (frames : List (List UInt8)) (clks : List Clock), frames.length = 2 ∧
    ((HubSys.sound ⟨(CSys.start.run goEnv mixBefore).st, mixConns.map (fun o => Line.open o.1 o.2) ++ [].map Line.check⟩).runFrag goEnv
      (fullEvs mixEvs)).ws[0]? = some w ∧
    w.line.output = (serves goEnv demoC (CSys.start.run goEnv mixBefore).st (frames.zip clks)).2.1 ∧
    w.line.ended = (serves goEnv demoC (CSys.start.run goEnv mixBefore).st (frames.zip clks)).2.2 := by
  obtain ⟨rest, h1, h2⟩ := cut_is_recvs .eof mixBytes
  obtain ⟨w, clks, a1, -, -, -, a2, a3, -⟩ := C172_terminal goEnv mixBefore mixConns [] (fullEvs mixEvs) (lineHdr 1 0).phone 0 demoC
    mixBytes rfl
    ((speaks_of (q := fun h => h.phone == (lineHdr 1 0).phone) (by decide +kernel)).imp fun hd m h => by simpa using h)
    mix_others (fun t _ _ pl h => absurd h (mix_silent pl)) (by simp) (steps_only (by decide +kernel)) _ rest h1 h2 (by decide +kernel)
  exact ⟨w, _, clks, by decide +kernel, a1, a2, a3⟩

example : ∃ (w : Cable) (answers : List (Str × List UInt8)),
    ((HubSys.sound ⟨(CSys.start.run goEnv mixBefore).st, mixGates.map (fun o => Line.open o.1 o.2) ++ [].map Line.check⟩).runFrag goEnv
      (fullEvs mixGateEvs)).ws[0]? = some w ∧ w.line.output = answers.flatMap (·.2) ∧ ∀ n, n = 1 ∨ n = 2 →
      ∃ (fs : List (List UInt8)) (clks : List Clock), (answers.filter fun a => decide (a.1 = (lineHdr n 0).phone)).flatMap (·.2) =
        (serves goEnv demoC (CSys.start.run goEnv mixBefore).st ((fs.filter (ofPhone goEnv (lineHdr n 0).phone)).zip clks)).2.1 := by
  obtain ⟨rest, hr1, hr2⟩ := cut_is_recvs .eof mixGate
  obtain ⟨w, answers, h1, -, -, -, h3, h4⟩ := C172_gateway goEnv mixBefore mixGates [] (fullEvs mixGateEvs) 0 demoC mixGate rfl
    ((speaks_of (q := fun _ => true) (by decide +kernel)).imp fun _ _ _ => trivial) (steps_only (by decide +kernel)) _ rest hr1 hr2
    (by decide +kernel)
  refine ⟨w, answers, h1, h3, fun n hn => ?_⟩
  obtain ⟨fs, -, clks, -, -, -, -, h5, -⟩ := h4 _ (mixGate_only n hn)
  exact ⟨fs, clks, h5⟩

end JT808
