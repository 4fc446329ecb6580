import Verif.Props.Mixed
/-
C171: behind a gateway every terminal gets its answers also when others send fragments and there are requests.
-/
namespace JT808
open Spec

namespace Spec

/-- All messages of phone `p` come on connection `j`, whole; elsewhere nobody says, in whole messages or fragments, that they are
`p`; its checks do not run, and nobody else has registered or registers with a plate of it. -/
structure OnlyOn (env : Env) (before : List CEv) (conns : List (Conn × List UInt8)) (checks : List Str) (j : Nat)
    (bytes : List UInt8) (p : Str) : Prop where
  others : ∀ (i : Nat) o, conns[i]? = some o → i ≠ j → Utters env o.2 fun h m =>
    h.phone ≠ p ∧ ∀ g, m = .m0100 g → ¬ RegistersAs env bytes p g.plate
  plates : Speaks env bytes fun h m => h.phone ≠ p → ∀ g, m = .m0100 g → ¬ RegistersAs env bytes p g.plate
  old : ∀ t, .spawn t ∈ before → t.phone ≠ p → ∀ pl, RegistersAs env bytes p pl → plateOf t ≠ some pl
  checks : p ∉ checks

end Spec

/-- **C171**: on connection `j` whole messages of any number of phones arrive; on the others any bytes, also fragments; there are
parameter requests of the HTTP API, connections that come and go and keepalive checks.  When the goroutine of `j` has made one
step for each of its bytes and nine for each of its frames, it is in the middle of no message, and what it has written is a
sequence of answers, each for a phone.  If `j` is still served then all its bytes have been read, and for every phone `p` that is
only on `j` the answers for `p` are exactly what the sequential server writes that is given all frames of `p` and nothing else,
and the server knows of `p` what that server knows.  If `j` is not served any more, it is so with the first frames up to the one
that ended serve; that is a frame on which the sequential server ends too whatever it knows, or a message of a phone that the
server did not know at some point (or a query of parameters, which terminals do not send). -/
theorem C171_gateway_among_fragments (env : Env) (before : List CEv) (conns : List (Conn × List UInt8)) (checks : List Str)
    (evs : List MixEv) (j : Nat) (c : Conn) (bytes : List UInt8) (hj : conns[j]? = some (c, bytes))
    (hown : Speaks env bytes fun _ _ => True)
    (frames : List (List UInt8)) (rest : List UInt8) (hfr : Recvs .eof bytes frames rest)
    (hrest : recv .eof rest = (.err .eof, [])) (henough : bytes.length + 9 * frames.length ≤ (mixSteps j evs).length) :
    let st0 := (CSys.start.run env before).st
    let m0 := MixSys.mk st0 (conns.map (fun o => Line.open o.1 o.2) ++ checks.map Line.check) [] []
    let s := m0.run env evs
    ∃ (l : Line) (answers : List (Str × List UInt8)), s.ls[j]? = some l ∧ l.cur = none ∧
      (l.ended = false → l.input = []) ∧
      (l.ended = true → ∃ f ∈ frames, (∃ clk ∈ mixSteps j evs, ∀ st : Store, (st.serveFrame env clk c none f).2.ended = true) ∨
        ∃ now h m, Holds env now f h m ∧ (m = .m8104 ∨ ∃ n, (m0.run env (evs.take n)).st.look h.phone = none)) ∧
      l.output = answers.flatMap (·.2) ∧
      ∀ p, OnlyOn env before conns checks j bytes p →
        ∃ (fs more : List (List UInt8)) (clks : List Clock), frames = fs ++ more ∧ (l.ended = false → more = []) ∧
          clks.length = (fs.filter (ofPhone env p)).length ∧ (∀ k ∈ clks, During (mixSteps j evs) k) ∧
          let r := serves env c st0 ((fs.filter (ofPhone env p)).zip clks)
          (answers.filter fun a => decide (a.1 = p)).flatMap (·.2) = r.2.1 ∧ (r.2.2 = true → l.ended = true) ∧
            s.st.look p = r.1.look p ∧ s.st.geos.get p = r.1.geos.get p ∧
            s.st.jobs.count p = r.1.jobs.count p ∧ s.st.paramsOf p = r.1.paramsOf p := by
  intro st0 m0 s
  obtain ⟨u0, evs', hst0, huj, hstart, htimes, hsame, hstore, hat, htaken⟩ := mix_shadow env st0 conns checks evs j c bytes hj (by
    intro f hf
    obtain ⟨rest', hr, -⟩ := cut_is_recvs .eof bytes
    exact (hown .eof _ rest' hr f hf).1)
  obtain ⟨l, fs0, more0, hl, hcur, hfm, -, hend⟩ := line_answered env before u0 hst0 hstart evs' j c bytes huj hown frames rest hfr
    hrest (by rw [htimes]; exact henough)
  obtain ⟨answers, h1, h2⟩ := line_gateway env before u0 hst0 hstart evs' j c bytes huj hown l hl
  have hin : l.ended = false → l.input = [] := by
    intro he
    rw [he] at hend
    exact hend.1
  refine ⟨l, answers, hsame.symm.trans hl, hcur, hin, ?_, h1, fun p hp => ?_⟩
  · intro he
    rw [if_pos he] at hend
    obtain ⟨f, more', e1, hwhy⟩ := hend
    refine ⟨f, by rw [hfm, e1]; simp, ?_⟩
    rcases hwhy with hwhy | ⟨now, h, m, g1, g2 | ⟨n', g2⟩⟩
    · exact .inl (by rw [← htimes]; exact hwhy)
    · exact .inr ⟨now, h, m, g1, .inl g2⟩
    · obtain ⟨n, ss, sn, cl, hn⟩ := hat n'
      have hn : (m0.run env (evs.take n)).st = _ := hn
      exact .inr ⟨now, h, m, g1, .inr ⟨n, by rw [hn]; exact g2⟩⟩
  · obtain ⟨frames', rest', fs, clks, k1, k2, ⟨more, k3⟩, k4, k5, k6, k7⟩ := h2 p (by
      intro i l' hl' hi t ht
      rcases htaken i l' hl' hi t ht with ⟨o, e1, f, hf, now, h, m, hh, rfl⟩ | ⟨q, hq, rfl⟩
      · obtain ⟨rest', hr, -⟩ := cut_is_recvs .eof o.2
        obtain ⟨e2, e3⟩ := hp.others i o e1 hi .eof _ rest' hr f hf now h m hh
        refine ⟨bears_addressed hh, e2, fun pl hreg hpl => ?_⟩
        cases m with
        | m0100 g => cases hpl; exact e3 g rfl hreg
        | _ => cases hpl
      · exact ⟨trivial, fun e => hp.checks (by rw [← e]; exact hq), fun pl _ e => by cases e⟩) hp.plates hp.old
      (by intro t q e; rw [hcur] at e; cases e)
    have hf : frames' = frames := (cut_recvs k1 k2).symm.trans (cut_recvs hfr hrest)
    subst hf
    refine ⟨fs, more, clks, k3.symm, fun he => ?_, k5, by rw [← htimes]; exact k6, ?_⟩
    · have := k4 (hin he) he
      rw [this] at k3
      simpa using k3
    · obtain ⟨ss, sn, cl, e⟩ := hstore
      have e : s.st = _ := e
      rw [e]
      exact k7

/-! The fragments of C170, and two terminals on the first connection: one that has registered sends two heartbeats, between them
the other one, which nobody knows, asks for its parameters. -/

def mixGate : List UInt8 := msgFrame (lineHdr 1 0x0002) [] ++ [7] ++ msgFrame (lineHdr 2 0x8104) [] ++ msgFrame (lineHdr 1 0x0002) []

def mixGates : List (Conn × List UInt8) := (demoC, mixGate) :: mixConns.drop 1

def mixGateEvs : List MixEv := mixEvs ++ (List.range 60).map fun n => .step 0 (demoClk (n + 120))

/-- Three answers on the gateway; elsewhere as in C170. -/
example : ((MixSys.mk (CSys.start.run goEnv mixBefore).st (mixGates.map fun o => Line.open o.1 o.2) [] []).run goEnv mixGateEvs).ls.map
    (fun l => (l.done.map (·.1.phone), l.ended, l.input.length)) =
    [([(lineHdr 1 0).phone, (lineHdr 2 0).phone, (lineHdr 1 0).phone], false, 0), ([], true, 0), ([(lineHdr 3 0).phone], false, 0)] := by
  decide +kernel

theorem mixGate_silent (p pl : Str) : ¬ RegistersAs goEnv mixGate p pl := by
  rintro ⟨e, fs, rest, hr, f, hf, now, h, g, hh, -⟩
  have := (speaks_of (env := goEnv) (q := fun h => h.msgID != 0x0100) (bytes := mixGate) (by decide +kernel) e fs rest hr f hf).2 now h _ hh
  simp only [holds_register hh] at this
  revert this
  decide

theorem mixGate_only (n : Nat) (hn : n = 1 ∨ n = 2) : OnlyOn goEnv mixBefore mixGates [] 0 mixGate (lineHdr n 0).phone := by
  have key : ∀ bytes, ((cut RecvSt.fresh bytes).all fun f => match decodeFrame goEnv f with
      | .ok pd => (fun h : Header => h.phone != (lineHdr 1 0).phone && h.phone != (lineHdr 2 0).phone) pd.header | _ => true) = true →
      Utters goEnv bytes fun h m => h.phone ≠ (lineHdr n 0).phone ∧
        ∀ g, m = .m0100 g → ¬ RegistersAs goEnv mixGate (lineHdr n 0).phone g.plate := by
    intro bytes hb e fs rest hr f hf now hd m hh
    have := utters_of (q := fun h => h.phone != (lineHdr 1 0).phone && h.phone != (lineHdr 2 0).phone) hb e fs rest hr f hf now hd m hh
    simp only [Bool.and_eq_true, bne_iff_ne, ne_eq] at this
    refine ⟨?_, fun g _ => mixGate_silent _ _⟩
    rcases hn with rfl | rfl
    · exact this.1
    · exact this.2
  refine ⟨fun i o ho hi => ?_, ?_, fun t _ _ pl h => absurd h (mixGate_silent _ pl), by simp⟩
  · match i, ho with
    | 0, _ => exact absurd rfl hi
    | 1, ho => cases ho; exact key _ (by decide +kernel)
    | 2, ho => cases ho; exact key _ (by decide +kernel)
    | n + 3, ho => cases ho
  · exact (speaks_of (q := fun _ => true) (by decide +kernel)).imp fun _ _ _ _ _ _ => mixGate_silent _ _

example : ∃ (l : Line) (answers : List (Str × List UInt8)),
    ((MixSys.mk (CSys.start.run goEnv mixBefore).st (mixGates.map (fun o => Line.open o.1 o.2) ++ [].map Line.check) [] []).run goEnv
      mixGateEvs).ls[0]? = some l ∧ l.output = answers.flatMap (·.2) ∧ ∀ n, n = 1 ∨ n = 2 →
      ∃ (fs : List (List UInt8)) (clks : List Clock), (answers.filter fun a => decide (a.1 = (lineHdr n 0).phone)).flatMap (·.2) =
        (serves goEnv demoC (CSys.start.run goEnv mixBefore).st ((fs.filter (ofPhone goEnv (lineHdr n 0).phone)).zip clks)).2.1 := by
  obtain ⟨rest, hr1, hr2⟩ := cut_is_recvs .eof mixGate
  obtain ⟨l, answers, h1, -, -, -, h3, h4⟩ := C171_gateway_among_fragments goEnv mixBefore mixGates [] mixGateEvs 0 demoC mixGate rfl
    ((speaks_of (q := fun _ => true) (by decide +kernel)).imp fun _ _ _ => trivial) _ rest hr1 hr2 (by decide +kernel)
  refine ⟨l, answers, h1, h3, fun n hn => ?_⟩
  obtain ⟨fs, -, clks, -, -, -, -, h5, -⟩ := h4 _ (mixGate_only n hn)
  exact ⟨fs, clks, h5⟩

end JT808
