import Verif.Model.Hub
import Verif.Props.Commands
import Verif.Props.Breaks
/-
C169: from bytes to bytes, no terminal notices parameter requests, or connections that come and go.
-/
namespace JT808
open Spec

namespace Spec

/-- The steps of connections and checks, and the breaks, without accept, remove and requests. -/
def cables (evs : List HubEv) : List CableEv := evs.filterMap fun | .cable e => some e | _ => none

end Spec

variable {env : Env}

/-- A goroutine in the middle of nothing but handlers and checks. -/
def Line.Handles (l : Line) : Prop := ∀ t q, l.cur = some (t, q) → q.Blind

theorem line_blind {clk : Clock} {st st' : Store} {l : Line} (hl : l.Handles) (h : st.Alike st') :
    (l.next env clk st').2 = (l.next env clk st).2 ∧ (l.next env clk st).1.Alike (l.next env clk st').1 ∧
      (l.next env clk st).2.Handles := by
  obtain ⟨conn, todo, input, recv, cur, done, output, ended⟩ := l
  unfold Line.next
  cases ended with
  | true => exact ⟨rfl, h, hl⟩
  | false =>
    cases cur with
    | some x =>
      obtain ⟨t, q⟩ := x
      cases q with
      | ret r => exact ⟨rfl, h, fun t q e => by cases e⟩
      | step f k =>
        obtain ⟨-, h2, h3⟩ := hl t _ rfl clk st
        obtain ⟨e1, e2⟩ := h2 _ h
        simp only [Bool.false_eq_true, if_false]
        refine ⟨by rw [e1], e2, fun t' q' e => ?_⟩
        cases e
        exact h3
    | none =>
      cases todo with
      | cons t ts => exact ⟨rfl, h, fun t' q' e => by cases e; exact task_blind env _⟩
      | nil =>
        cases input with
        | nil => exact ⟨rfl, h, hl⟩
        | cons b rest =>
          simp only [Bool.false_eq_true, if_false]
          cases recvStep recv b with
          | inr r => exact ⟨rfl, h, fun t' q' e => by cases e⟩
          | inl f =>
            simp only
            rcases received env clk.civil conn f with _ | _ | t
            · exact ⟨rfl, h, fun t' q' e => by cases e⟩
            · exact ⟨rfl, h, fun t' q' e => by cases e⟩
            · exact ⟨rfl, h, fun t' q' e => by cases e; exact task_blind env _⟩

theorem cable_blind {clk : Clock} {st st' : Store} {w : Cable} (hw : w.line.Handles) (h : st.Alike st') :
    (w.next env clk st').2 = (w.next env clk st).2 ∧ (w.next env clk st).1.Alike (w.next env clk st').1 ∧
      (w.next env clk st).2.line.Handles := by
  obtain ⟨a1, a2, a3⟩ := line_blind (env := env) (clk := clk) hw h
  have plain : ({ w with line := (w.line.next env clk st').2 } : Cable) = { w with line := (w.line.next env clk st).2 } := by rw [a1]
  unfold Cable.next
  split
  · exact ⟨rfl, h, hw⟩
  · split
    · split
      · exact ⟨rfl, h, fun t q e => by cases e⟩
      · exact ⟨plain, a2, a3⟩
    · split
      · exact ⟨rfl, h, hw⟩
      · exact ⟨plain, a2, a3⟩
    · exact ⟨plain, a2, a3⟩

/-- The two systems at the same point. -/
structure HubSys.Over (s : HubSys) (b : CableSys) : Prop where
  store : b.st.Alike s.st
  lines : s.ws = b.ws
  handles : ∀ w ∈ b.ws, w.line.Handles

theorem over_cable {s : HubSys} {b : CableSys} (h : s.Over b) (e : CableEv) : (s.step env (.cable e)).Over (b.step env e) := by
  obtain ⟨h1, h2, h3⟩ := h
  have keep : ∀ (i : Nat) (w : Cable), w.line.Handles → ∀ x ∈ b.ws.set i w, x.line.Handles := by
    intro i w hw x hx
    rcases List.mem_or_eq_of_mem_set hx with hx | rfl
    · exact h3 x hx
    · exact hw
  cases e with
  | step i clk =>
    simp only [HubSys.step, CableSys.step, h2]
    cases hw : b.ws[i]? with
    | none => exact ⟨h1, rfl, h3⟩
    | some w =>
      obtain ⟨a1, a2, a3⟩ := cable_blind (env := env) (clk := clk) (h3 w (List.mem_of_getElem? hw)) h1
      exact ⟨a2, by simp only; rw [a1], keep i _ a3⟩
  | mute i x n =>
    simp only [HubSys.step, CableSys.step, h2]
    cases hw : b.ws[i]? with
    | none => exact ⟨h1, rfl, h3⟩
    | some w => exact ⟨h1, rfl, keep i _ (h3 w (List.mem_of_getElem? hw))⟩
  | deaf i =>
    simp only [HubSys.step, CableSys.step, h2]
    cases hw : b.ws[i]? with
    | none => exact ⟨h1, rfl, h3⟩
    | some w => exact ⟨h1, rfl, keep i _ (h3 w (List.mem_of_getElem? hw))⟩

theorem over_run (evs : List HubEv) (s : HubSys) (b : CableSys) (h : s.Over b) : (s.run env evs).Over (b.run env (cables evs)) := by
  induction evs generalizing s b with
  | nil => exact h
  | cons e evs ih =>
    cases e with
    | cable e => exact ih (s.step env (.cable e)) (b.step env e) (over_cable h e)
    | accept c => exact ih (s.step env (.accept c)) b ⟨h.store.trans (alike_session _ _), h.lines, h.handles⟩
    | gone c => exact ih (s.step env (.gone c)) b ⟨h.store.trans (alike_remove _ _), h.lines, h.handles⟩
    | request q => exact ih (s.step env (.request q)) b ⟨h.store, h.lines, h.handles⟩
    | go i werr =>
      refine ih (s.step env (.go i werr)) b ?_
      simp only [HubSys.step]
      split
      · exact h
      · exact ⟨h.store.trans (next_alike _ _ _ _ _), h.lines, h.handles⟩

theorem over_start (st : Store) (conns : List (Conn × List UInt8)) (checks : List Str) :
    (HubSys.sound ⟨st, conns.map (fun o => Line.open o.1 o.2) ++ checks.map Line.check⟩).Over
      (CableSys.sound ⟨st, conns.map (fun o => Line.open o.1 o.2) ++ checks.map Line.check⟩) := by
  refine ⟨.refl _, rfl, fun w hw t q e => ?_⟩
  simp only [CableSys.sound, List.map_append, List.map_map, List.mem_append, List.mem_map] at hw
  rcases hw with ⟨o, -, rfl⟩ | ⟨o, -, rfl⟩ <;> cases e

/-- **C169**: connections on which any bytes arrive, that may break, and keepalive checks.  Take out all parameter requests
of the HTTP API with all their steps, and all accepts and removes of connections: then every connection has read what it has
read, is in the middle of what it is in the middle of, has written what it has written and is served as it is; and the
registered terminals, their positions, their parameters and the keepalive jobs are the same. -/
theorem C169_unnoticed (env : Env) (st0 : Store) (conns : List (Conn × List UInt8)) (checks : List Str) (evs : List HubEv) :
    let s0 := LSys.mk st0 (conns.map (fun o => Line.open o.1 o.2) ++ checks.map Line.check)
    let a := (HubSys.sound s0).run env evs
    let b := (CableSys.sound s0).run env (cables evs)
    a.ws = b.ws ∧ (∀ p, a.st.look p = b.st.look p) ∧ (∀ q, a.st.lookPlate q = b.st.lookPlate q) ∧
      (∀ p, a.st.geos.get p = b.st.geos.get p) ∧ (∀ p, a.st.paramsOf p = b.st.paramsOf p) ∧ a.st.jobs = b.st.jobs := by
  intro s0 a b
  obtain ⟨⟨ss, sn, cl, e⟩, h2, -⟩ := over_run (env := env) evs _ _ (over_start st0 conns checks)
  have e : a.st = b.st.over ss sn cl := e
  refine ⟨h2, ?_⟩
  rw [e]
  exact ⟨fun _ => rfl, fun _ => rfl, fun _ => rfl, fun _ => rfl, rfl⟩

/-- **C169**: the situation of C165, with any parameter requests, also for this terminal, and connections that come and go,
with all their steps between those of the others in any order.  When the goroutine of `j` has made one step for each of its
bytes and nine for each of its frames, its answers, whether it is still served and what the server knows of its phone are
exactly what the sequential server comes to that is given all frames of `j` and nothing else. -/
theorem C169_terminal (env : Env) (before : List CEv) (conns : List (Conn × List UInt8)) (checks : List Str)
    (evs : List HubEv) (p : Str) (j : Nat) (c : Conn) (bytes : List UInt8) (hj : conns[j]? = some (c, bytes))
    (hown : Speaks env bytes fun h _ => h.phone = p)
    (hoth : ∀ (i : Nat) o, conns[i]? = some o → i ≠ j →
      Speaks env o.2 fun h m => h.phone ≠ p ∧ ∀ g, m = .m0100 g → ¬ Registers env bytes g.plate)
    (hold : ∀ t, .spawn t ∈ before → t.phone ≠ p → ∀ pl, Registers env bytes pl → plateOf t ≠ some pl) (hchk : p ∉ checks)
    (hwhole : ¬ Breaks j (cables evs))
    (frames : List (List UInt8)) (rest : List UInt8) (hfr : Recvs .eof bytes frames rest)
    (hrest : recv .eof rest = (.err .eof, [])) (henough : bytes.length + 9 * frames.length ≤ (stepsOf j (cables evs)).length) :
    let st0 := (CSys.start.run env before).st
    let a := (HubSys.sound ⟨st0, conns.map (fun o => Line.open o.1 o.2) ++ checks.map Line.check⟩).run env evs
    ∃ (w : Cable) (clks : List Clock), a.ws[j]? = some w ∧ w.line.cur = none ∧ clks.length = frames.length ∧
      (∀ k ∈ clks, During (stepsOf j (cables evs)) k) ∧
      let r := serves env c st0 (frames.zip clks)
      w.line.output = r.2.1 ∧ w.line.ended = r.2.2 ∧ a.st.look p = r.1.look p ∧ a.st.geos.get p = r.1.geos.get p ∧
        a.st.jobs.count p = r.1.jobs.count p ∧ a.st.paramsOf p = r.1.paramsOf p := by
  intro st0 a
  obtain ⟨w, clks, h1, h2, h3, h4, h5, h6, h7, h8, h9, h10⟩ := C165_others_break env before conns checks (cables evs) p j c bytes hj
    hown hoth hold hchk hwhole frames rest hfr hrest henough
  obtain ⟨g1, g2, -, g4, g5, g6⟩ := C169_unnoticed env st0 conns checks evs
  refine ⟨w, clks, (congrArg (·[j]?) g1).trans h1, h2, h3, h4, h5, h6, (g2 p).trans h7, (g4 p).trans h8, ?_, (g5 p).trans h10⟩
  exact (congrArg (·.count p) g6).trans h9

/-! The connections of C160, of which the second breaks, with a request for the parameters of the first while it is served. -/

def hubEvs : List HubEv := [.accept demoC, .accept demoC'] ++ (breakOther.take 170).map .cable ++
  [.request (.query (lineHdr 1 0).phone), .go 0 none, .go 0 none, .go 0 none, .gone demoC', .go 0 none, .go 0 none] ++
  (breakOther.drop 170).map .cable ++ [.go 0 none, .go 0 none]

/-- The request is answered and has written one frame on the connection of the terminal, which has got its answers. -/
example : let a := (HubSys.sound ⟨Store.empty, serialConns.map fun o => Line.open o.1 o.2⟩).run goEnv hubEvs
    a.reqs.map (fun x => match x.2 with | .done n => n | _ => 0) = [200] ∧
      a.sent.map (fun x => (x.1, x.2.1)) = [(0, demoC)] ∧
      (a.ws.map fun w => (w.line.done.length, w.line.ended, w.line.input.length))[0]? = some (2, false, 0) := by
  decide +kernel

example : ∃ (w : Cable) (frames : List (List UInt8)) (clks : List Clock), frames.length = 3 ∧
    ((HubSys.sound ⟨(CSys.start.run goEnv []).st, serialConns.map (fun o => Line.open o.1 o.2)⟩).run goEnv hubEvs).ws[0]? = some w ∧
    w.line.output = (serves goEnv demoC Store.empty (frames.zip clks)).2.1 ∧
    w.line.ended = (serves goEnv demoC Store.empty (frames.zip clks)).2.2 := by
  obtain ⟨rest, h1, h2⟩ := cut_is_recvs .eof serialBytes
  obtain ⟨w, clks, a1, -, -, -, a2, a3, -⟩ := C169_terminal goEnv [] serialConns [] hubEvs (lineHdr 1 0).phone 0 demoC
    serialBytes rfl
    ((speaks_of (q := fun h => h.phone == (lineHdr 1 0).phone) (by decide +kernel)).imp fun hd m h => by simpa using h)
    total_others (by intro t ht; cases ht) (by simp) (steps_only (by decide +kernel)) _ rest h1 h2 (by decide +kernel)
  exact ⟨w, _, clks, by decide +kernel, by simpa using a1, a2, a3⟩

end JT808
