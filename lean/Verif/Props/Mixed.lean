import Verif.Proof.Mixed
import Verif.Props.Total
import Verif.Props.Gateway
/-
C170: other terminals may send fragments.
-/
namespace JT808
open Spec

namespace Spec

/-- All the messages that the frames in these bytes bear, whole or as a fragment, are of a kind. -/
def Utters (env : Env) (bytes : List UInt8) (Q : Header → Msg → Prop) : Prop :=
  ∀ e fs rest, Recvs e bytes fs rest → ∀ f ∈ fs, ∀ now h m, Bears env now f h m → Q h m

end Spec

theorem bears_addressed {env : Env} {now : Civil} {f : List UInt8} {c : Conn} {h : Header} {m : Msg} (hh : Bears env now f h m) :
    (Task.msg c h m).Addressed := by
  obtain ⟨pd, t, j, -, -, -, hd⟩ := hh
  cases m with
  | m8103 m => exact (decode_8103_phone hd).1
  | _ => trivial

/-- A run with fragments is, for connection `j`, one without in which the other goroutines are handed the messages that they
begin to handle. -/
theorem mix_shadow (env : Env) (st0 : Store) (conns : List (Conn × List UInt8)) (checks : List Str)
    (evs : List MixEv) (j : Nat) (c : Conn) (bytes : List UInt8) (hj : conns[j]? = some (c, bytes))
    (hwhole : ∀ f ∈ cut RecvSt.fresh bytes, Whole env f) :
    let m0 := MixSys.mk st0 (conns.map (fun o => Line.open o.1 o.2) ++ checks.map Line.check) [] []
    ∃ (u0 : LSys) (evs' : List (Nat × Clock)), u0.st = st0 ∧ u0.ls[j]? = some (Line.open c bytes) ∧
      (∀ l ∈ u0.ls, l.cur = none ∧ l.done = []) ∧ timesOf j evs' = mixSteps j evs ∧
      (u0.run env evs').ls[j]? = (m0.run env evs).ls[j]? ∧ (u0.run env evs').st.Alike (m0.run env evs).st ∧
      (∀ n', ∃ n, (u0.run env (evs'.take n')).st.Alike (m0.run env (evs.take n)).st) ∧
      ∀ (i : Nat) l, (u0.run env evs').ls[i]? = some l → i ≠ j → ∀ t ∈ l.taken,
        (∃ o, conns[i]? = some o ∧ ∃ f ∈ cut RecvSt.fresh o.2, ∃ now h m, Bears env now f h m ∧ t = .msg o.1 h m) ∨
          ∃ q ∈ checks, t = .check q := by
  intro m0
  simp only [m0]
  have hls : ∃ ls, ls = conns.map (fun o => Line.open o.1 o.2) ++ checks.map Line.check := ⟨_, rfl⟩
  obtain ⟨ls, hls⟩ := hls
  rw [← hls]
  have hopen : ∀ (i : Nat) o, conns[i]? = some o → ls[i]? = some (Line.open o.1 o.2) := by
    intro i o hi
    rw [hls, List.getElem?_append_left (by rw [List.length_map]; exact (List.getElem?_eq_some_iff.1 hi).1), List.getElem?_map, hi]
    rfl
  have hmem : ∀ (i : Nat) l, ls[i]? = some l → (∃ o, conns[i]? = some o ∧ l = Line.open o.1 o.2) ∨
      conns.length ≤ i ∧ ∃ q ∈ checks, l = Line.check q := by
    intro i l hl
    by_cases hi : i < conns.length
    · have ho : conns[i]? = some conns[i] := List.getElem?_eq_getElem hi
      rw [hopen i _ ho] at hl
      cases hl
      exact .inl ⟨_, ho, rfl⟩
    · rw [hls, List.getElem?_append_right (by rw [List.length_map]; exact Nat.not_lt.1 hi)] at hl
      obtain ⟨q, h1, rfl⟩ := List.mem_map.1 (List.mem_of_getElem? hl)
      exact .inr ⟨Nat.not_lt.1 hi, q, h1, rfl⟩
  have hjlt : j < conns.length := (List.getElem?_eq_some_iff.1 hj).1
  have hnone : ∀ (i : Nat) l, ls[i]? = some l → l.cur = none ∧ l.done = [] := by
    intro i l hl
    rcases hmem i l hl with ⟨o, -, rfl⟩ | ⟨-, q, -, rfl⟩ <;> exact ⟨rfl, rfl⟩
  -- what the others take up
  let Q : Nat → Task → Prop := fun i t =>
    (∃ o, conns[i]? = some o ∧ ∃ f ∈ cut RecvSt.fresh o.2, ∃ now h m, Bears env now f h m ∧ t = .msg o.1 h m) ∨
      ∃ q ∈ checks, t = .check q
  have hall : ∀ (i : Nat) l, ((MixSys.mk st0 ls [] []).run env evs).ls[i]? = some l → i ≠ j → l.All env (Q i) := by
    refine mix_ls (env := env) (P := fun i l => i ≠ j → l.All env (Q i)) (fun i clk st l h hi => all_next (h hi)) evs _ ?_
    intro i l hl hi
    rcases hmem i l hl with ⟨o, h1, rfl⟩ | ⟨h0, q, h1, rfl⟩
    · exact ⟨fun t ht => by simp [Line.taken, Line.open] at ht, fun t ht => (by cases ht), fun f hf now h m hh =>
        .inl ⟨o, h1, f, hf, now, h, m, hh, rfl⟩⟩
    · refine ⟨fun t ht => by simp [Line.taken, Line.check] at ht, fun t ht => ?_, fun f hf => by cases hf⟩
      rw [List.mem_singleton.1 ht]
      exact .inr ⟨q, h1, rfl⟩
  -- the system in which they are handed what they take up
  let jobs : List (List Task) := ((MixSys.mk st0 ls [] []).run env evs).ls.map Line.taken
  have hlen : ((MixSys.mk st0 ls [] []).run env evs).ls.length = ls.length := mix_length ..
  let u0 : LSys := ⟨st0, ls.mapIdx fun i l => if i = j then l else Line.handed (jobs[i]?.getD [])⟩
  have hu : ∀ (i : Nat), u0.ls[i]? = (ls[i]?).map fun l => if i = j then l else Line.handed (jobs[i]?.getD []) := by
    intro i
    simp only [u0, List.getElem?_mapIdx]
  have huj : u0.ls[j]? = some (Line.open c bytes) := by rw [hu, hopen j _ hj]; simp
  have hstart : ∀ l ∈ u0.ls, l.cur = none ∧ l.done = [] := by
    intro l hl
    obtain ⟨i, hi⟩ := List.getElem?_of_mem hl
    rw [hu] at hi
    obtain ⟨l0, h1, rfl⟩ := Option.map_eq_some_iff.1 hi
    split
    · exact hnone i l0 h1
    · exact ⟨rfl, rfl⟩
  have hover : (MixSys.mk st0 ls [] []).Over env c (cut RecvSt.fresh bytes) j jobs u0 := by
    refine ⟨.refl _, by simp [u0], by simp [jobs, hlen], ?_, ?_, ?_, ?_⟩
    · rw [huj]; exact (hopen j _ hj).symm
    · intro l hl
      have hl : ls[j]? = some l := hl
      rw [hopen j _ hj] at hl
      cases hl
      exact ⟨rfl, rfl, fun f hf => hf, fun t ht => by simp [Line.taken, Line.open] at ht⟩
    · intro i l hl t q e
      rw [(hnone i l hl).1] at e
      cases e
    · intro i l l' ts hi hl hl' hts
      have hl : ls[i]? = some l := hl
      rw [hu, hl] at hl'
      simp only [Option.map_some, if_neg hi, Option.some.injEq] at hl'
      subst hl'
      obtain ⟨e1, e2⟩ := hnone i l hl
      exact ⟨e1.symm, e2.symm, rfl, fun _ => rfl, fun _ => by simp [Line.taken, e1, e2, Line.handed, hts]⟩
  obtain ⟨evs', hfin, htimes, hat⟩ := mix_run hwhole j jobs evs _ u0 hover (by
    intro i l ts hl hts _
    simp only [jobs, List.getElem?_map, hl, Option.map_some, Option.some.injEq] at hts
    rw [← hts]
    exact List.prefix_refl _)
  refine ⟨u0, evs', rfl, huj, hstart, htimes, hfin.own, hfin.store, hat, ?_⟩
  intro i l' hl' hi t ht
  have hlt : i < ((MixSys.mk st0 ls [] []).run env evs).ls.length := by
    rw [← hfin.len]; exact (List.getElem?_eq_some_iff.1 hl').1
  have hm := List.getElem?_eq_getElem hlt
  generalize ((MixSys.mk st0 ls [] []).run env evs).ls[i] = m at hm
  have hsh := hfin.line i m l' m.taken hi hm hl' (by simp only [jobs, List.getElem?_map, hm, Option.map_some])
  have : l'.taken = m.taken := by simp only [Line.taken, hsh.cur, hsh.done]
  exact (hall i m hm hi).taken t (by rw [← this]; exact ht)

/-- **C170**: the situation of C163, but on the other connections also fragments arrive, complete messages of them or not, in
any order, with the same keys or not, of terminals that are known or not; and there are parameter requests of the HTTP API and
connections that come and go.  Also then, when the goroutine of `j` has made one step for each of its bytes and nine for each of
its frames, its answers, whether it is still served and what the server knows of its phone are exactly what the sequential
server comes to that is given all frames of `j` and nothing else. -/
theorem C170_fragments_of_others (env : Env) (before : List CEv) (conns : List (Conn × List UInt8)) (checks : List Str)
    (evs : List MixEv) (p : Str) (j : Nat) (c : Conn) (bytes : List UInt8) (hj : conns[j]? = some (c, bytes))
    (hown : Speaks env bytes fun h _ => h.phone = p)
    (hoth : ∀ (i : Nat) o, conns[i]? = some o → i ≠ j →
      Utters env o.2 fun h m => h.phone ≠ p ∧ ∀ g, m = .m0100 g → ¬ Registers env bytes g.plate)
    (hold : ∀ t, .spawn t ∈ before → t.phone ≠ p → ∀ pl, Registers env bytes pl → plateOf t ≠ some pl) (hchk : p ∉ checks)
    (frames : List (List UInt8)) (rest : List UInt8) (hfr : Recvs .eof bytes frames rest)
    (hrest : recv .eof rest = (.err .eof, [])) (henough : bytes.length + 9 * frames.length ≤ (mixSteps j evs).length) :
    let st0 := (CSys.start.run env before).st
    let s := (MixSys.mk st0 (conns.map (fun o => Line.open o.1 o.2) ++ checks.map Line.check) [] []).run env evs
    ∃ (l : Line) (clks : List Clock), s.ls[j]? = some l ∧ l.cur = none ∧ clks.length = frames.length ∧
      (∀ k ∈ clks, During (mixSteps j evs) k) ∧
      let r := serves env c st0 (frames.zip clks)
      l.output = r.2.1 ∧ l.ended = r.2.2 ∧ s.st.look p = r.1.look p ∧ s.st.geos.get p = r.1.geos.get p ∧
        s.st.jobs.count p = r.1.jobs.count p ∧ s.st.paramsOf p = r.1.paramsOf p := by
  intro st0 s
  obtain ⟨u0, evs', hst0, huj, hstart, htimes, hown', hstore, -, htaken⟩ := mix_shadow env st0 conns checks evs j c bytes hj (by
    intro f hf
    obtain ⟨rest', hr, -⟩ := cut_is_recvs .eof bytes
    exact (hown .eof _ rest' hr f hf).1)
  obtain ⟨l, fs', more', hl, hcur, -, -, hend⟩ := line_answered env before u0 hst0 hstart evs' j c bytes huj
    (hown.imp fun _ _ _ => trivial) frames rest hfr hrest (by rw [htimes]; exact henough)
  obtain ⟨frames', rest', fs, clks, h1, h2, h3, h4, -, h5, h6, h7⟩ := line_sequential env before u0 hst0 evs' p j c bytes huj hown
    hstart (by
      intro i l' hl' hi t ht
      rcases htaken i l' hl' hi t ht with ⟨o, e1, f, hf, now, h, m, hh, rfl⟩ | ⟨q, hq, rfl⟩
      · obtain ⟨rest', hr, -⟩ := cut_is_recvs .eof o.2
        obtain ⟨e2, e3⟩ := hoth i o e1 hi .eof _ rest' hr f hf now h m hh
        refine ⟨bears_addressed hh, e2, fun pl hreg hpl => ?_⟩
        cases m with
        | m0100 g => cases hpl; exact e3 g rfl hreg
        | _ => cases hpl
      · exact ⟨trivial, fun e => hchk (by rw [← e]; exact hq), fun pl _ e => by cases e⟩) hold l hl hcur
  have hf : frames' = frames := (cut_recvs h1 h2).symm.trans (cut_recvs hfr hrest)
  subst hf
  rw [htimes] at h6
  obtain ⟨ks, a1, a2, a3⟩ := serves_all (env := env) (c := c) (st := st0) h3 h5 h6 (by
      intro hne he
      rw [he] at henough
      have := List.length_pos_iff.2 hne
      simp only [List.length_nil] at henough
      omega) (by
      intro he
      have he' : l.ended = false := h7.2.1.trans he
      rw [he'] at hend
      exact h4 hend.1 he')
  refine ⟨l, ks, hown'.symm.trans hl, hcur, a1, a2, ?_⟩
  obtain ⟨ss, sn, cl, e⟩ := hstore
  simp only [a3]
  have e : s.st = _ := e
  rw [e]
  exact h7

/-! Two terminals that have registered.  One sends two heartbeats.  The other sends a message in three fragments: after the first,
with which its connection ends (C52), it connects again, the second is acknowledged, with the third the message is handled. -/

def mixBefore : List CEv := .spawn (.msg demoC (lineHdr 1 0x0100) (.m0100 (lineReg 0x31))) :: List.replicate 8 (.run 0 (demoClk 1)) ++
  .spawn (.msg ⟨2, [0x63]⟩ (lineHdr 3 0x0100) (.m0100 (lineReg 0x33))) :: List.replicate 8 (.run 1 (demoClk 2))

def mixBytes : List UInt8 := msgFrame (lineHdr 1 0x0002) [] ++ [7] ++ msgFrame (lineHdr 1 0x0002) []

def mixFrag (index : UInt16) : List UInt8 :=
  msgFrame { lineHdr 3 0x0002 with attr := ⟨0, 0, 1, 0, 0, .none, true, .v2013⟩, frag := some ⟨3, index⟩ } [5]

def mixConns : List (Conn × List UInt8) := [(demoC, mixBytes), (demoC', mixFrag 1), (⟨2, [0x63]⟩, mixFrag 2 ++ mixFrag 3)]

def mixEvs : List MixEv := [.accept demoC, .accept demoC'] ++ (List.range 30).map (fun n => .step 1 (demoClk (n + 5))) ++
  [.gone demoC', .accept ⟨2, [0x63]⟩] ++ (List.range 60).flatMap fun n => [.step 0 (demoClk (n + 40)), .step 2 (demoClk (n + 45))]

/-- The first has been answered twice; on the second connection serve has ended; on the third there are the acknowledgement and
the answer, which has the packet fields of the fragment in its header. -/
example : ((MixSys.mk (CSys.start.run goEnv mixBefore).st (mixConns.map fun o => Line.open o.1 o.2) [] []).run goEnv mixEvs).ls.map
    (fun l => (l.output, l.done.length, l.ended, l.input.length)) =
    [(generalReply (lineHdr 1 0x0002) 0 ++ generalReply (lineHdr 1 0x0002) 0, 2, false, 0), ([], 0, true, 0),
      ((answer { lineHdr 3 0x0002 with serial := 1 } 0x8001 [0, 7, 0, 2, 0]) ++ [0x7e, 0x80, 0x01, 0x20, 5, 1, 0x39, 0x12, 0x34, 0x56, 0x73, 0, 7, 0, 3, 0, 3, 0, 7, 0, 2, 0, 157, 0x7e], 1, false, 0)] := by
  decide +kernel

theorem mix_silent (pl : Str) : ¬ Registers goEnv mixBytes pl := by
  rintro ⟨e, fs, rest, hr, f, hf, now, h, g, hh, -⟩
  have := (speaks_of (env := goEnv) (q := fun h => h.msgID == 0x0002) (bytes := mixBytes) (by decide +kernel) e fs rest hr f hf).2 now h _ hh
  simp only [holds_register hh] at this
  revert this
  decide

theorem utters_of {env : Env} {q : Header → Bool} {bytes : List UInt8}
    (h : ((cut RecvSt.fresh bytes).all fun f => match decodeFrame env f with | .ok pd => q pd.header | _ => true) = true) :
    Utters env bytes fun hd _ => q hd = true := by
  intro e fs rest hr f hf now hd m hh
  have := List.all_eq_true.1 h f ((recvs_prefix hr).subset hf)
  obtain ⟨pd, t, i, e1, rfl, -⟩ := hh
  rw [e1] at this
  exact this

theorem mix_others (i : Nat) (o : Conn × List UInt8) (ho : mixConns[i]? = some o) (hi : i ≠ 0) : Utters goEnv o.2 fun h m =>
    h.phone ≠ (lineHdr 1 0).phone ∧ ∀ g, m = .m0100 g → ¬ Registers goEnv mixBytes g.plate := by
  match i, ho with
  | 0, _ => exact absurd rfl hi
  | 1, ho =>
    cases ho
    intro e fs rest hr f hf now hd m hh
    have := utters_of (env := goEnv) (q := fun h => h.phone != (lineHdr 1 0).phone) (bytes := mixFrag 1) (by decide +kernel) e fs rest hr f hf now hd m hh
    exact ⟨by simpa using this, fun g _ => mix_silent _⟩
  | 2, ho =>
    cases ho
    intro e fs rest hr f hf now hd m hh
    have := utters_of (env := goEnv) (q := fun h => h.phone != (lineHdr 1 0).phone) (bytes := mixFrag 2 ++ mixFrag 3) (by decide +kernel) e fs rest hr f hf now hd m hh
    exact ⟨by simpa using this, fun g _ => mix_silent _⟩
  | n + 3, ho => cases ho

example : ∃ (l : Line) (frames : List (List UInt8)) (clks : List Clock), frames.length = 2 ∧
    ((MixSys.mk (CSys.start.run goEnv mixBefore).st (mixConns.map (fun o => Line.open o.1 o.2) ++ [].map Line.check) [] []).run goEnv
      mixEvs).ls[0]? = some l ∧
    l.output = (serves goEnv demoC (CSys.start.run goEnv mixBefore).st (frames.zip clks)).2.1 ∧
    l.ended = (serves goEnv demoC (CSys.start.run goEnv mixBefore).st (frames.zip clks)).2.2 := by
  obtain ⟨rest, h1, h2⟩ := cut_is_recvs .eof mixBytes
  obtain ⟨l, clks, a1, -, -, -, a2, a3, -⟩ := C170_fragments_of_others goEnv mixBefore mixConns [] mixEvs (lineHdr 1 0).phone 0 demoC
    mixBytes rfl
    ((speaks_of (q := fun h => h.phone == (lineHdr 1 0).phone) (by decide +kernel)).imp fun hd m h => by simpa using h)
    mix_others (fun t _ _ pl h => absurd h (mix_silent pl)) (by simp) _ rest h1 h2 (by decide +kernel)
  exact ⟨l, _, clks, by decide +kernel, a1, a2, a3⟩

end JT808
