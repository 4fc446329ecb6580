import Verif.Proof.Awake
import Verif.Proof.Calm
/-
C162: what C160 says of the bytes of a terminal also holds while keepalive checks of that same terminal are running, if it is
not silent.
-/
namespace JT808
open Spec

/-- **C162**.  As C160, but besides the checks of other phones any number of checks of the terminal's own phone run at the
same time.  If the process lives, that is, none of them has panicked, and whenever one of them made a step nothing recorded of
the phone was older than its keepalive interval, then the terminal is answered as by the sequential server, which knows of no
checks at all; and all of its checks that are done have done so without cancelling anything. -/
theorem C162_awake_sequential (env : Env) (before : List CEv) (conns : List (Conn × List UInt8)) (checks : List Str) (n : Nat)
    (evs : List (Nat × Clock)) (p : Str) (j : Nat) (c : Conn) (bytes : List UInt8) (hj : conns[j]? = some (c, bytes))
    (hown : Speaks env bytes fun h _ => h.phone = p)
    (hoth : ∀ (i : Nat) o, conns[i]? = some o → i ≠ j →
      Speaks env o.2 fun h m => h.phone ≠ p ∧ ∀ g, m = .m0100 g → ¬ Registers env bytes g.plate)
    (hold : ∀ t, .spawn t ∈ before → t.phone ≠ p → ∀ pl, Registers env bytes pl → plateOf t ≠ some pl) (hchk : p ∉ checks)
    (hawake : ∀ pre e post, evs = pre ++ e :: post → conns.length + checks.length ≤ e.1 →
      Awake p e.2 ((LSys.mk (CSys.start.run env before).st (conns.map (fun o => Line.open o.1 o.2) ++ checks.map Line.check ++
        List.replicate n (Line.check p))).run env pre).st)
    (hlive : ∀ (i : Nat) (l : Line), conns.length + checks.length ≤ i →
      ((LSys.mk (CSys.start.run env before).st (conns.map (fun o => Line.open o.1 o.2) ++ checks.map Line.check ++
        List.replicate n (Line.check p))).run env evs).ls[i]? = some l → ¬ l.Panicked)
    (l : Line)
    (hl : ((LSys.mk (CSys.start.run env before).st (conns.map (fun o => Line.open o.1 o.2) ++ checks.map Line.check ++
        List.replicate n (Line.check p))).run env evs).ls[j]? = some l)
    (hidle : l.cur = none) :
    let st0 := (CSys.start.run env before).st
    let s := (LSys.mk st0 (conns.map (fun o => Line.open o.1 o.2) ++ checks.map Line.check ++
        List.replicate n (Line.check p))).run env evs
    (∀ (i : Nat) (w : Line), conns.length + checks.length ≤ i → s.ls[i]? = some w → ∀ d ∈ w.done, d.2 = .ok none) ∧
    ∃ (frames : List (List UInt8)) (rest : List UInt8) (fs : List (List UInt8)) (clks : List Clock),
      Recvs .eof bytes frames rest ∧ recv .eof rest = (.err .eof, []) ∧ fs <+: frames ∧
      (l.input = [] → l.ended = false → fs = frames) ∧ clks.length = fs.length ∧ (∀ k ∈ clks, During (timesOf j evs) k) ∧
      let r := serves env c st0 (fs.zip clks)
      l.output = r.2.1 ∧ l.ended = r.2.2 ∧ s.st.look p = r.1.look p ∧ s.st.geos.get p = r.1.geos.get p ∧
        s.st.jobs.count p = r.1.jobs.count p ∧ s.st.paramsOf p = r.1.paramsOf p := by
  intro st0 s
  have hi0 := (ok_run (ok_start env) before).1.inv
  have hlen : (LSys.mk st0 (conns.map (fun o => Line.open o.1 o.2) ++ checks.map Line.check)).ls.length =
      conns.length + checks.length := by simp
  have hnew : ∀ x ∈ conns.map (fun o => Line.open o.1 o.2) ++ checks.map Line.check ++ List.replicate n (Line.check p),
      x.cur = none := by
    intro x hx
    simp only [List.mem_append, List.mem_map, List.mem_replicate] at hx
    rcases hx with (⟨o, -, rfl⟩ | ⟨o, -, rfl⟩) | ⟨-, rfl⟩ <;> rfl
  have h0 : WithChecks env p (LSys.mk st0 (conns.map (fun o => Line.open o.1 o.2) ++ checks.map Line.check ++
        List.replicate n (Line.check p))) (LSys.mk st0 (conns.map (fun o => Line.open o.1 o.2) ++ checks.map Line.check)) := by
    refine ⟨rfl, fun i hi => List.getElem?_append_left hi, ⟨hi0, fun i x t q hx hq => ?_⟩, fun i x hi hx => ?_⟩
    · rw [hnew x (List.mem_of_getElem? hx)] at hq; cases hq
    · have hi : (conns.map (fun o => Line.open o.1 o.2) ++ checks.map Line.check).length ≤ i := hi
      have hx : (conns.map (fun o => Line.open o.1 o.2) ++ checks.map Line.check ++ List.replicate n (Line.check p))[i]? = some x := hx
      rw [List.getElem?_append_right hi] at hx
      rw [(List.mem_replicate.1 (List.mem_of_getElem? hx)).2]
      exact ⟨rfl, .inl ⟨rfl, rfl, rfl⟩⟩
  rcases withChecks_run evs h0 (by rw [hlen]; exact hawake) with ⟨i, x, hi, hx, hp⟩ | ⟨h, hlen'⟩
  · exact absurd hp (hlive i x (by rw [← hlen]; exact hi) hx)
  · have hjlt : j < conns.length := (List.getElem?_eq_some_iff.1 hj).1
    refine ⟨fun i w hi hw d hd => ?_, ?_⟩
    · obtain ⟨-, h⟩ := h.idle i w (by rw [hlen', hlen]; exact hi) hw
      rcases h with ⟨-, -, h⟩ | ⟨-, h, -⟩ | ⟨-, -, h⟩ <;> rw [h] at hd
      · cases hd
      · cases hd
      · rw [List.mem_singleton.1 hd]
    · have hl' := (h.same j (by rw [hlen', hlen]; omega)).symm.trans hl
      have hst : s.st = _ := h.store.symm
      rw [hst]
      exact C160_bytes_sequential env before conns checks evs p j c bytes hj hown hoth hold hchk l hl' hidle

/-- **C162**, without the assumption on what the server has recorded: for a terminal of which nobody has heard before, and
whatever it sends and is checked for within a minute. -/
theorem C162_first_minute (env : Env) (before : List CEv) (conns : List (Conn × List UInt8)) (checks : List Str) (n T : Nat)
    (evs : List (Nat × Clock)) (p : Str) (j : Nat) (c : Conn) (bytes : List UInt8) (hj : conns[j]? = some (c, bytes))
    (hown : Speaks env bytes fun h _ => h.phone = p)
    (hoth : ∀ (i : Nat) o, conns[i]? = some o → i ≠ j →
      Speaks env o.2 fun h m => h.phone ≠ p ∧ ∀ g, m = .m0100 g → ¬ Registers env bytes g.plate)
    (hnew : ∀ t, .spawn t ∈ before → t.phone ≠ p ∧ ∀ pl, Registers env bytes pl → plateOf t ≠ some pl) (hchk : p ∉ checks)
    (hmin : ∀ e ∈ evs, T ≤ e.2.ms ∧ e.2.ms ≤ T + 60000)
    (hlive : ∀ (i : Nat) (l : Line), conns.length + checks.length ≤ i →
      ((LSys.mk (CSys.start.run env before).st (conns.map (fun o => Line.open o.1 o.2) ++ checks.map Line.check ++
        List.replicate n (Line.check p))).run env evs).ls[i]? = some l → ¬ l.Panicked)
    (l : Line)
    (hl : ((LSys.mk (CSys.start.run env before).st (conns.map (fun o => Line.open o.1 o.2) ++ checks.map Line.check ++
        List.replicate n (Line.check p))).run env evs).ls[j]? = some l)
    (hidle : l.cur = none) :
    let st0 := (CSys.start.run env before).st
    let s := (LSys.mk st0 (conns.map (fun o => Line.open o.1 o.2) ++ checks.map Line.check ++
        List.replicate n (Line.check p))).run env evs
    ∃ (frames : List (List UInt8)) (rest : List UInt8) (fs : List (List UInt8)) (clks : List Clock),
      Recvs .eof bytes frames rest ∧ recv .eof rest = (.err .eof, []) ∧ fs <+: frames ∧
      (l.input = [] → l.ended = false → fs = frames) ∧ clks.length = fs.length ∧ (∀ k ∈ clks, During (timesOf j evs) k) ∧
      let r := serves env c st0 (fs.zip clks)
      l.output = r.2.1 ∧ l.ended = r.2.2 ∧ s.st.look p = r.1.look p ∧ s.st.geos.get p = r.1.geos.get p ∧
        s.st.jobs.count p = r.1.jobs.count p ∧ s.st.paramsOf p = r.1.paramsOf p := by
  intro st0 s
  refine (C162_awake_sequential env before conns checks n evs p j c bytes hj hown hoth (fun t ht _ => (hnew t ht).2) hchk
    ?_ hlive l hl hidle).2
  intro pre e post heq _
  have hy0 : Young p T st0 := by
    intro r hr hp
    obtain ⟨i, t, q, hi, hm⟩ := born_run (ok_start env) born_start before r hr
    rcases spawned_run before CSys.start i t q hi with h' | ⟨q', h'⟩
    · exact absurd ((makes_phone hm).symm.trans hp) (hnew t h').1
    · exact absurd h' (by simp [CSys.start])
  have hy := young_run (env := env) pre (LSys.mk st0 (conns.map (fun o => Line.open o.1 o.2) ++ checks.map Line.check ++
        List.replicate n (Line.check p))) (by
      intro i x t q hx hq
      have hx := List.mem_of_getElem? hx
      simp only [List.mem_append, List.mem_map, List.mem_replicate] at hx
      rcases hx with (⟨o, -, rfl⟩ | ⟨o, -, rfl⟩) | ⟨-, rfl⟩ <;> cases hq) hy0
    fun x hx => (hmin x (by rw [heq]; exact List.mem_append_left _ hx)).1
  intro r hr hp
  obtain ⟨a, b⟩ := hy r hr hp
  have := (hmin e (by rw [heq]; exact List.mem_append_right _ List.mem_cons_self)).2
  rw [b]
  exact Nat.le_trans this (by rw [Nat.add_comm]; exact Nat.add_le_add_left a _)

/-! The two connections of C160, with two checks of the first terminal: one begins as soon as it has registered and is served
on in between, the other runs while its heartbeat is handled. -/

def awakeEvs : List (Nat × Clock) :=
  (List.range 120).flatMap fun n => [(0, demoClk n), (1, demoClk (n + 5))] ++
    (if n < 80 then [] else [(2, demoClk (n + 60000 - 120))] ++ if n < 85 then [] else [(3, demoClk (n + 1))])

def awakeSys : LSys := LSys.mk Store.empty (serialConns.map (fun o => Line.open o.1 o.2) ++ [] ++
  List.replicate 2 (Line.check (lineHdr 1 0).phone))

example : ((awakeSys.run goEnv awakeEvs).ls.map fun l => (l.output, l.ended, l.input.length, l.cur.isNone, l.done.map (·.2 == .ok none))) =
    [(registerReply ((lineHdr 1 0x0100).withBodyLength 41) 0 (lineCode 1 0x31) ++ generalReply (lineHdr 1 0x0002) 0, false, 0, true, [false, false]),
      ([], true, 0, true, [false]), ([], false, 0, true, [true]), ([], false, 0, true, [true])] := by
  decide +kernel

def panickedB (l : Line) : Bool :=
  (match l.cur with | some (_, .ret .panic) => true | _ => false) || l.done.any fun d => match d.2 with | .panic => true | _ => false

theorem not_panicked {l : Line} (h : panickedB l = false) : ¬ l.Panicked := by
  rw [panickedB, Bool.or_eq_false_iff] at h
  rintro (⟨t, e⟩ | ⟨t, e⟩)
  · rw [e] at h; cases h.1
  · have := List.any_eq_false.1 h.2 _ e
    simp at this

theorem awake_live : ((awakeSys.run goEnv awakeEvs).ls.all fun l => !panickedB l) = true := by decide +kernel

example (l : Line) (hl : (awakeSys.run goEnv awakeEvs).ls[0]? = some l) (hidle : l.cur = none) :
    ∃ (fs : List (List UInt8)) (clks : List Clock), l.output = (serves goEnv demoC Store.empty (fs.zip clks)).2.1 ∧
      l.ended = (serves goEnv demoC Store.empty (fs.zip clks)).2.2 := by
  obtain ⟨-, -, fs, clks, -, -, -, -, -, -, h1, h2, -⟩ := C162_first_minute goEnv [] serialConns [] 2 (demoClk 0).ms awakeEvs
    (lineHdr 1 0).phone 0 demoC serialBytes rfl
    ((speaks_of (q := fun h => h.phone == (lineHdr 1 0).phone) (by decide +kernel)).imp fun hd m h => by simpa using h)
    (by
      intro i o ho hi
      match i, ho with
      | 0, _ => exact absurd rfl hi
      | 1, ho =>
        cases ho
        intro e fs rest hr f hf
        obtain ⟨a, b⟩ := speaks_of (env := goEnv) (q := fun h => h.phone != (lineHdr 1 0).phone) (by decide +kernel) e fs rest hr f hf
        refine ⟨a, fun now hd m hh => ⟨by simpa using b now hd m hh, fun g hg => ?_⟩⟩
        subst hg
        exact absurd ⟨e, fs, rest, hr, f, hf, now, hd, g, hh, rfl⟩ (lineOther_registers g.plate)
      | n + 2, ho => cases ho)
    (by intro t ht; cases ht) (by simp)
    (by
      have : (awakeEvs.all fun e => decide ((demoClk 0).ms ≤ e.2.ms ∧ e.2.ms ≤ (demoClk 0).ms + 60000)) = true := by decide +kernel
      intro e he
      simpa using List.all_eq_true.1 this e he)
    (by
      intro i w _ hw
      refine not_panicked ?_
      simpa using List.all_eq_true.1 awake_live w (List.mem_of_getElem? hw))
    l hl hidle
  exact ⟨_, _, h1, h2⟩

end JT808
