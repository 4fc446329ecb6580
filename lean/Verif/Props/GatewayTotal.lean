import Verif.Props.Gateway
import Verif.Props.Breaks
/-
C168: behind a gateway every terminal gets all its answers in the end, also if other connections break.
-/
namespace JT808
open Spec

/-- **C168**: the situation of C167, and any connections other than `j` may break at any moments.  When the goroutine of `j` has
made one step for each of its bytes and nine for each of its frames, it is in the middle of no message, and what it has written
is a sequence of answers, each for a phone.  If `j` is still served then all its bytes have been read, and for every phone `p` all
messages of which come on `j`, and the plates of which are its own, the answers for `p` are exactly what the sequential server
writes that is given all frames of `p` and nothing else, at some moments of the run, and the server knows of `p` what that server
knows.  If `j` is not served any more, it is so with the first frames up to the one that ended serve; that is a frame on which
the sequential server ends too whatever it knows, or a message of a phone that the server did not know at some point (or a
query of parameters, which terminals do not send). -/
theorem C168_gateway_total (env : Env) (before : List CEv) (conns : List (Conn × List UInt8)) (checks : List Str)
    (evs : List CableEv) (j : Nat) (c : Conn) (bytes : List UInt8) (hj : conns[j]? = some (c, bytes))
    (hfrag : ∀ o ∈ conns, Speaks env o.2 fun _ _ => True) (hwhole : ¬ Breaks j evs)
    (frames : List (List UInt8)) (rest : List UInt8) (hfr : Recvs .eof bytes frames rest)
    (hrest : recv .eof rest = (.err .eof, [])) (henough : bytes.length + 9 * frames.length ≤ (stepsOf j evs).length) :
    let st0 := (CSys.start.run env before).st
    let b := (CableSys.sound ⟨st0, conns.map (fun o => Line.open o.1 o.2) ++ checks.map Line.check⟩).run env evs
    ∃ (w : Cable) (answers : List (Str × List UInt8)), b.ws[j]? = some w ∧ w.line.cur = none ∧
      (w.line.ended = false → w.line.input = []) ∧
      (w.line.ended = true → ∃ f ∈ frames, (∃ clk ∈ stepsOf j evs, ∀ st : Store, (st.serveFrame env clk c none f).2.ended = true) ∨
        ∃ now h m, Holds env now f h m ∧ (m = .m8104 ∨ ∃ n,
          ((CableSys.sound ⟨st0, conns.map (fun o => Line.open o.1 o.2) ++ checks.map Line.check⟩).run env (evs.take n)).st.look
            h.phone = none)) ∧
      w.line.output = answers.flatMap (·.2) ∧
      ∀ p, OnlyAt env before conns checks j bytes p →
        ∃ (fs more : List (List UInt8)) (clks : List Clock), frames = fs ++ more ∧ (w.line.ended = false → more = []) ∧
          clks.length = (fs.filter (ofPhone env p)).length ∧ (∀ k ∈ clks, During (stepsOf j evs) k) ∧
          let r := serves env c st0 ((fs.filter (ofPhone env p)).zip clks)
          (answers.filter fun a => decide (a.1 = p)).flatMap (·.2) = r.2.1 ∧ (r.2.2 = true → w.line.ended = true) ∧
            b.st.look p = r.1.look p ∧ b.st.geos.get p = r.1.geos.get p ∧
            b.st.jobs.count p = r.1.jobs.count p ∧ b.st.paramsOf p = r.1.paramsOf p := by
  intro st0 b
  obtain ⟨evs', a1, a2, a4, a3⟩ := wires_run_at (env := env) evs _ _
    (sound_beside ⟨st0, conns.map (fun o => Line.open o.1 o.2) ++ checks.map Line.check⟩)
  have hw0 : (CableSys.sound ⟨st0, conns.map (fun o => Line.open o.1 o.2) ++ checks.map Line.check⟩).ws[j]? =
      some ⟨Line.open c bytes, none, false⟩ := by
    simp only [CableSys.sound, List.map_append]
    rw [List.getElem?_append_left (by simpa using (List.getElem?_eq_some_iff.1 hj).1)]
    simp [hj]
  obtain ⟨b1, b2⟩ := a3 j _ hw0 rfl rfl hwhole
  obtain ⟨l, fs0, more0, hl, hcur, hfm, -, hend⟩ := C161_bytes_answered env before conns checks evs' j c bytes hj
    (hfrag _ (List.mem_of_getElem? hj)) frames rest hfr hrest (by rw [b1]; exact henough)
  obtain ⟨answers, h1, h2⟩ := C167_gateway env before conns checks evs' j c bytes hj hfrag l hl
  rw [hl] at b2
  have hin : l.ended = false → l.input = [] := by
    intro he
    rw [he] at hend
    exact hend.1
  refine ⟨_, answers, b2, hcur, hin, ?_, h1, fun p hp => ?_⟩
  · intro he
    have he : l.ended = true := he
    rw [if_pos he] at hend
    obtain ⟨f, more', e1, hwhy⟩ := hend
    refine ⟨f, by rw [hfm, e1]; simp, ?_⟩
    rcases hwhy with hwhy | ⟨now, h, m, g1, g2 | ⟨n', g2⟩⟩
    · exact .inl (by rw [← b1]; exact hwhy)
    · exact .inr ⟨now, h, m, g1, .inl g2⟩
    · obtain ⟨n, hn⟩ := a4 n'
      exact .inr ⟨now, h, m, g1, .inr ⟨n, by rw [← hn]; exact g2⟩⟩
  obtain ⟨frames', rest', fs, clks, k1, k2, ⟨more, k3⟩, k4, k5, k6, k7⟩ := h2 p hp (by intro t q e; rw [hcur] at e; cases e)
  have hf : frames' = frames := (cut_recvs k1 k2).symm.trans (cut_recvs hfr hrest)
  subst hf
  refine ⟨fs, more, clks, k3.symm, fun he => ?_, k5, by rw [← b1]; exact k6, ?_⟩
  · have := k4 (hin he) he
    rw [this] at k3
    simpa using k3
  · have hst : b.st = _ := a1.store
    rw [hst]
    exact k7

/-! The gateway of C167, while the other connection breaks. -/

def gateBreak : List CableEv := (gateEvs.take 60).map (fun e => .step e.1 e.2) ++ [.mute 1 true 3, .deaf 1] ++
  (gateEvs.drop 60).map fun e => .step e.1 e.2

/-- All is read, three answers are written. -/
example : (((CableSys.sound ⟨Store.empty, gateConns.map (fun o => Line.open o.1 o.2)⟩).run goEnv gateBreak).ws.map fun w =>
    (w.line.done.map (·.1.phone), w.line.ended, w.line.input.length, w.mute.isSome, w.deaf))[0]? =
      some ([(lineHdr 1 0).phone, (lineHdr 2 0).phone, (lineHdr 1 0).phone], false, 0, false, false) := by
  decide +kernel

example : ∃ (w : Cable) (answers : List (Str × List UInt8)),
    ((CableSys.sound ⟨(CSys.start.run goEnv []).st, gateConns.map (fun o => Line.open o.1 o.2) ++ [].map Line.check⟩).run goEnv
      gateBreak).ws[0]? = some w ∧ w.line.output = answers.flatMap (·.2) ∧ ∀ n, n = 1 ∨ n = 2 →
      ∃ (fs : List (List UInt8)) (clks : List Clock), (answers.filter fun a => decide (a.1 = (lineHdr n 0).phone)).flatMap (·.2) =
        (serves goEnv demoC Store.empty ((fs.filter (ofPhone goEnv (lineHdr n 0).phone)).zip clks)).2.1 := by
  obtain ⟨rest, hr1, hr2⟩ := cut_is_recvs .eof gateBytes
  obtain ⟨w, answers, h1, -, -, -, h3, h4⟩ := C168_gateway_total goEnv [] gateConns [] gateBreak 0 demoC gateBytes rfl (by
    intro o ho
    simp only [gateConns, List.mem_cons, List.not_mem_nil, or_false] at ho
    rcases ho with rfl | rfl
    · exact gate_speaks.1.imp fun _ _ _ => trivial
    · exact gate_speaks.2.imp fun _ _ _ => trivial) (by
    rintro ⟨e, he, h⟩
    simp only [gateBreak, List.mem_append, List.mem_map, List.mem_cons, List.not_mem_nil, or_false] at he
    rcases he with (⟨x, -, rfl⟩ | rfl | rfl) | ⟨x, -, rfl⟩ <;> rcases h with ⟨_, _, h⟩ | h <;> cases h) _ rest hr1 hr2
    (by decide +kernel)
  refine ⟨w, answers, h1, h3, fun n hn => ?_⟩
  obtain ⟨fs, -, clks, -, -, -, -, h5, -⟩ := h4 _ (gate_only n hn)
  exact ⟨fs, clks, h5⟩

end JT808
