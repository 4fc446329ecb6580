import Verif.Proof.Timeless
import Verif.Proof.Types
/-
C164: what a terminal is sent is a function of what it sends.
-/
namespace JT808
open Spec

namespace Spec

/-- What may happen around a terminal: what was before, which connections there are, with the bytes that arrive on them,
which phones are checked, the order and the times of all steps; and which of the connections is the one of the terminal. -/
structure Scene where
  before : List CEv
  conns : List (Conn × List UInt8)
  checks : List Str
  evs : List (Nat × Clock)
  j : Nat
  c : Conn

/-- At the beginning. -/
def Scene.first (x : Scene) (env : Env) : LSys :=
  LSys.mk (CSys.start.run env x.before).st (x.conns.map (fun o => Line.open o.1 o.2) ++ x.checks.map Line.check)

/-- At the end. -/
def Scene.last (x : Scene) (env : Env) : LSys := (x.first env).run env x.evs

/-- The terminal sends these bytes, on the other connections there are messages of other phones and no registration with one
of its plates, and the goroutine of its connection makes as many steps as C161 asks for. -/
structure Scene.Has (x : Scene) (env : Env) (p : Str) (bytes : List UInt8) (steps : Nat) : Prop where
  conn : x.conns[x.j]? = some (x.c, bytes)
  others : ∀ (i : Nat) o, x.conns[i]? = some o → i ≠ x.j →
    Speaks env o.2 fun h m => h.phone ≠ p ∧ ∀ g, m = .m0100 g → ¬ Registers env bytes g.plate
  old : ∀ t, .spawn t ∈ x.before → t.phone ≠ p → ∀ pl, Registers env bytes pl → plateOf t ≠ some pl
  checks : p ∉ x.checks
  enough : steps ≤ (timesOf x.j x.evs).length

end Spec

/-- **C164**.  A terminal sends any bytes without fragments (and without 0x9205, which only platforms send), in two scenes
that may differ in everything else: in what happened before, in the connections, the bytes on them and the checks of other
phones, in the order of all steps and in the time at which they are made.  If at the beginning both servers know the same of
the phone, whether its plates are taken, and the same parameters of it, then in the end it has been sent the same bytes in
both, it is served on in both or in none, and both servers know the same of it, but for the connection and the times. -/
theorem C164_answers_are_a_function (env : Env) (p : Str) (bytes : List UInt8) (frames : List (List UInt8)) (rest : List UInt8)
    (hown : Speaks env bytes fun h m => h.phone = p ∧ ∀ q, m ≠ .m9205 q) (hfr : Recvs .eof bytes frames rest)
    (hrest : recv .eof rest = (.err .eof, [])) (x y : Scene) (hx : x.Has env p bytes (bytes.length + 9 * frames.length))
    (hy : y.Has env p bytes (bytes.length + 9 * frames.length)) (hdev : LooksAlike p (x.first env).st (y.first env).st)
    (hplate : ∀ pl, Registers env bytes pl → ((x.first env).st.lookPlate pl).isSome = ((y.first env).st.lookPlate pl).isSome)
    (hpar : (x.first env).st.paramsOf p = (y.first env).st.paramsOf p) :
    ∃ l l', (x.last env).ls[x.j]? = some l ∧ (y.last env).ls[y.j]? = some l' ∧ l.cur = none ∧ l'.cur = none ∧
      l.output = l'.output ∧ l.ended = l'.ended ∧ LooksAlike p (x.last env).st (y.last env).st ∧
      (x.last env).st.paramsOf p = (y.last env).st.paramsOf p := by
  have inv : ∀ z : Scene, CInv (z.first env).st := fun z => (ok_run (ok_start env) z.before).1.inv
  have h0 : View p (Registers env bytes) (x.first env).st (y.first env).st := by
    refine ⟨?_, fun pl hpl => ?_, hpar, (inv x).rings, (inv y).rings⟩
    · rcases hdev with ⟨a, b⟩ | ⟨d, d', a, b, e⟩
      · left; simpa [Store.look] using And.intro a b
      · right
        obtain ⟨r, h1, h2⟩ := Option.map_eq_some_iff.1 a
        obtain ⟨r', h1', h2'⟩ := Option.map_eq_some_iff.1 b
        exact ⟨r, r', h1, h1', by rw [h2, h2']; exact e, ((inv x).phoneOK p r h1).2⟩
    · simpa [Store.hasPlate, Store.lookPlate] using hplate pl hpl
  obtain ⟨l, clks, a1, a2, a3, -, a4, a5, a6, -, -, a7⟩ := C163_bytes_total env x.before x.conns x.checks x.evs p x.j x.c bytes hx.conn
    (hown.imp fun _ _ h => h.1) hx.others hx.old hx.checks frames rest hfr hrest hx.enough
  obtain ⟨l', clks', b1, b2, b3, -, b4, b5, b6, -, -, b7⟩ := C163_bytes_total env y.before y.conns y.checks y.evs p y.j y.c bytes hy.conn
    (hown.imp fun _ _ h => h.1) hy.others hy.old hy.checks frames rest hfr hrest hy.enough
  obtain ⟨e1, e2⟩ := View.serves frames clks clks' x.c y.c h0 a3 b3 fun f hf => ⟨(hown _ _ _ hfr f hf).1, fun now hd m hh =>
    ⟨((hown _ _ _ hfr f hf).2 now hd m hh).1, fun g hg => ⟨_, _, _, hfr, f, hf, now, hd, g, hg ▸ hh, rfl⟩,
      ((hown _ _ _ hfr f hf).2 now hd m hh).2⟩⟩
  refine ⟨l, l', a1, b1, a2, b2, ?_, ?_, ?_, ?_⟩
  · exact a4.trans ((congrArg (·.1) e1).trans b4.symm)
  · exact a5.trans ((congrArg (·.2) e1).trans b5.symm)
  · have hl := e2.looks
    unfold LooksAlike
    rw [show (x.last env).st.look p = _ from a6, show (y.last env).st.look p = _ from b6]
    exact hl
  · exact a7.trans (e2.params.trans b7.symm)

/-! The terminal of C160 comes as the first of two connections, or, later and slower, on another connection, after somebody
else has been served and gone, and while a phone is checked. -/

def sceneA : Scene := ⟨[], serialConns, [], serialEvs, 0, demoC⟩

def sceneB : Scene := ⟨[.spawn (.msg demoC (lineHdr 4 2) .m0002), .run 0 (demoClk 1)], [(demoC, lineOther), (demoC', serialBytes)],
  [(lineHdr 4 0).phone], (List.range 130).flatMap fun n => [(1, demoClk (1000 * n)), (2, demoClk n), (0, demoClk 7)], 1, demoC'⟩

theorem scene_frames : (cut RecvSt.fresh serialBytes).length = 3 := by decide +kernel

theorem scene_own : Speaks goEnv serialBytes fun h m => h.phone = (lineHdr 1 0).phone ∧ ∀ q, m ≠ .m9205 q := by
  have h : Speaks goEnv serialBytes fun hd _ => hd.phone = (lineHdr 1 0).phone ∧ hd.msgID ≠ 0x9205 :=
    (speaks_of (q := fun h => h.phone == (lineHdr 1 0).phone && h.msgID != 0x9205) (by decide +kernel)).imp fun hd m h => by
      simpa using h
  intro e fs rest hr f hf
  refine ⟨(h e fs rest hr f hf).1, fun now hd m hh => ⟨((h e fs rest hr f hf).2 now hd m hh).1, fun q hq => ?_⟩⟩
  subst hq
  have hne := ((h e fs rest hr f hf).2 now hd _ hh).2
  obtain ⟨pd, t, k, -, -, -, ht, e5⟩ := hh
  cases t with
  | t9205 => exact hne (by
      simpa [msgTable] using ofID_mem ht)
  | _ =>
    exfalso
    unfold MType.decode at e5
    first
      | (injection e5 with e5; injection e5 with e5 _; cases e5)
      | (obtain ⟨a, k', -, h2⟩ := rd_bind_ok e5; injection h2 with h2; injection h2 with h2 _; cases h2)

theorem scene_other : Speaks goEnv lineOther fun h m => h.phone ≠ (lineHdr 1 0).phone ∧ ∀ g, m = .m0100 g → ¬ Registers goEnv serialBytes g.plate := by
  intro e fs rest hr f hf
  obtain ⟨a, b⟩ := speaks_of (env := goEnv) (q := fun h => h.phone != (lineHdr 1 0).phone) (by decide +kernel) e fs rest hr f hf
  refine ⟨a, fun now hd m hh => ⟨by simpa using b now hd m hh, fun g hg => ?_⟩⟩
  subst hg
  exact absurd ⟨e, fs, rest, hr, f, hf, now, hd, g, hh, rfl⟩ (lineOther_registers g.plate)

theorem sceneA_has : sceneA.Has goEnv (lineHdr 1 0).phone serialBytes (serialBytes.length + 9 * 3) where
  conn := rfl
  others := by
    intro i o ho hi
    match i, ho with
    | 0, _ => exact absurd rfl hi
    | 1, ho => cases ho; exact scene_other
    | n + 2, ho => cases ho
  old := by intro t ht; cases ht
  checks := by simp [sceneA]
  enough := by decide +kernel

theorem sceneB_has : sceneB.Has goEnv (lineHdr 1 0).phone serialBytes (serialBytes.length + 9 * 3) where
  conn := rfl
  others := by
    intro i o ho hi
    match i, ho with
    | 0, ho => cases ho; exact scene_other
    | 1, _ => exact absurd rfl hi
    | n + 2, ho => cases ho
  old := by
    intro t ht _ pl _
    simp only [sceneB, List.mem_cons, CEv.spawn.injEq, List.not_mem_nil, or_false] at ht
    rcases ht with rfl | ht
    · simp [plateOf]
    · cases ht
  checks := by decide +kernel
  enough := by decide +kernel

example : ∃ l l', (sceneA.last goEnv).ls[0]? = some l ∧ (sceneB.last goEnv).ls[1]? = some l' ∧ l.output = l'.output ∧ l.ended = l'.ended := by
  obtain ⟨rest, h1, h2⟩ := cut_is_recvs .eof serialBytes
  obtain ⟨l, l', a, b, -, -, c, d, -⟩ := C164_answers_are_a_function goEnv (lineHdr 1 0).phone serialBytes _ rest scene_own h1 h2
    sceneA sceneB (by rw [scene_frames]; exact sceneA_has) (by rw [scene_frames]; exact sceneB_has)
    (.inl ⟨by decide +kernel, by decide +kernel⟩)
    (by
      intro pl _
      have e1 : (sceneA.first goEnv).st.byPlate = [] := by decide +kernel
      have e2 : (sceneB.first goEnv).st.byPlate = [] := by decide +kernel
      simp [Store.lookPlate, Store.devByPlate, e1, e2])
    (by
      have e1 : (sceneA.first goEnv).st.params = [] := rfl
      have e2 : (sceneB.first goEnv).st.params = [] := rfl
      simp [Store.paramsOf, e1, e2])
  exact ⟨l, l', a, b, c, d⟩

example : (((sceneB.last goEnv).ls[1]?).map fun l => (l.output, l.ended)) =
    some (registerReply ((lineHdr 1 0x0100).withBodyLength 41) 0 (lineCode 1 0x31) ++ generalReply (lineHdr 1 0x0002) 0, false) := by
  decide +kernel

end JT808
