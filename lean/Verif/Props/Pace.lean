import Verif.Model.Pace
import Verif.Props.Supported
import Verif.Props.Lifecycle
/-
C123: when a message is handled.
-/
namespace JT808
open Spec

/-! ### The queue in front of a loop -/

/-- Frames arrive one after the other. -/
def InOrder (due : List (Nat × List UInt8)) : Prop := due.Pairwise (·.1 ≤ ·.1)

theorem Paced.delay {env : Env} {c : Conn} {s : Sys} {busy : Nat} {due : List (Nat × List UInt8)} {evs : List Ev}
    {log : List Pass} (h : Paced env c s busy due evs log) (ho : InOrder due) (n : Nat)
    (hb : ∀ x ∈ due, busy ≤ x.1 + 1000 * n) :
    ∀ before p after, log = before ++ p :: after →
      p.arrived ≤ p.begun ∧ p.begun ≤ p.arrived + 1000 * (n + before.countP (·.paused)) := by
  induction h generalizing n with
  | done => intro b p a e; cases b <;> cases e
  | @pass s busy due evs log a clk f werr hl ht next ih =>
    intro before p after e
    have hab : busy ≤ a + 1000 * n := hb (a, f) List.mem_cons_self
    cases before with
    | nil =>
      injection e with e _
      subst e
      simp only [List.countP_nil, Nat.add_zero]
      omega
    | cons q before =>
      injection e with e1 e2
      subst e1
      have ho' : InOrder due := (List.pairwise_cons.1 ho).2
      have hlt : ∀ x ∈ due, a ≤ x.1 := (List.pairwise_cons.1 ho).1
      cases hp : s.st.pauses env clk c werr f with
      | true =>
        have hq : s.st.pause env clk c werr f = 1000 := by unfold Store.pause; rw [hp]; rfl
        rw [hq] at ih
        have := ih ho' (n + 1) (by intro x hx; have := hlt x hx; omega) before p after e2
        rw [List.countP_cons_of_pos rfl]
        omega
      | false =>
        have hq : s.st.pause env clk c werr f = 0 := by unfold Store.pause; rw [hp]; rfl
        rw [hq] at ih
        have := ih ho' n (by intro x hx; have := hlt x hx; omega) before p after e2
        rw [List.countP_cons_of_neg (by simp)]
        omega
  | other hf hr next ih => exact ih ho n hb

theorem Paced.lag {env : Env} {c : Conn} {s : Sys} {busy : Nat} {due : List (Nat × List UInt8)} {evs : List Ev}
    {log : List Pass} (h : Paced env c s busy due evs log) :
    ∀ before p after, log = before ++ p :: after → busy + 1000 * before.countP (·.paused) ≤ p.begun := by
  induction h with
  | done => intro b p a e; cases b <;> cases e
  | @pass s busy due evs log a clk f werr hl ht next ih =>
    intro before p after e
    cases before with
    | nil =>
      injection e with e _
      subst e
      simp only [List.countP_nil]
      omega
    | cons q before =>
      injection e with e1 e2
      subst e1
      have := ih before p after e2
      cases hp : s.st.pauses env clk c werr f with
      | true =>
        have hq : s.st.pause env clk c werr f = 1000 := by unfold Store.pause; rw [hp]; rfl
        rw [List.countP_cons_of_pos rfl]
        omega
      | false =>
        rw [List.countP_cons_of_neg (by simp)]
        omega
  | other hf hr next ih => exact ih

/-- A frame is never taken up before it has arrived, and at most one second later for every frame before it on its
connection that made the loop pause.  So without such frames it is taken up at once, whatever happens on other connections.
Missing: the pauses. -/
theorem C123_prompt_partial (env : Env) (c : Conn) (s : Sys) (due : List (Nat × List UInt8)) (evs : List Ev)
    (log : List Pass) (h : Paced env c s 0 due evs log) (ho : InOrder due) (before after : List Pass) (p : Pass)
    (e : log = before ++ p :: after) :
    p.arrived ≤ p.begun ∧ p.begun ≤ p.arrived + 1000 * before.countP (·.paused) ∧
      ((∀ q ∈ before, q.paused = false) → p.begun = p.arrived) := by
  have := h.delay ho 0 (fun x _ => by omega) before p after e
  refine ⟨this.1, by omega, fun hn => ?_⟩
  have : before.countP (·.paused) = 0 := by
    rw [List.countP_eq_zero]
    intro q hq; rw [hn q hq]; decide
  omega

/-! ### Which frames make the loop pause -/

/-- A listed message of a registered terminal (or a registration) does not make the loop pause when its answer can be
written. -/
theorem C123_handled_no_pause (env : Env) (clk : Clock) (c : Conn) (st : Store) (hr : Reachable env st) (frame : List UInt8)
    (h : Header) (m : Msg) (hh : Holds env clk.civil frame h m)
    (hl : ∃ a, (h.msgID.toNat, a) ∈ supported) (hne : h.msgID.toNat ≠ 0x0004)
    (hreg : h.msgID.toNat ≠ 0x0100 → (st.look h.phone).isSome) : st.pauses env clk c none frame = false := by
  obtain ⟨a, hl⟩ := hl
  cases a with
  | none =>
    have := C122_unanswered env clk c st frame h m hh hl
    unfold Store.pauses
    rw [this]
  | some a =>
    have hid := hh.id
    have hm' : m.id = 0x0002 ∨ m.id = 0x0003 ∨ m.id = 0x0100 ∨ m.id = 0x0102 ∨ m.id = 0x0200 := by
      rw [hid]
      simp only [supported, List.mem_cons, Prod.mk.injEq, List.not_mem_nil, or_false, Option.some.injEq, reduceCtorEq,
        and_false, false_or] at hl
      omega
    obtain ⟨st', f, e⟩ := handle_replies (env := env) (clk := clk) (c := c) hr.inv (h := h) hm' (by rw [hid]; exact hreg)
    rw [← hh.handle c st] at e
    unfold Store.pauses
    rw [e]

/-- A frame that does nothing but make the loop pause. -/
def Stalls (env : Env) (frame : List UInt8) : Prop :=
  ∀ clk c werr (st : Store), st.serveFrame env clk c werr frame = (st, ⟨none, false, none⟩) ∧
    st.pauses env clk c werr frame = true

/-- Every message the server has no handler for makes the loop pause, and so does every corrupt frame. -/
theorem C123_unknown_stalls (env : Env) (frame : List UInt8) (pd : Packet) (hd : decodeFrame env frame = .ok pd)
    (hf : pd.header.isFragmented = false) (hu : pd.header.msgID.toNat ∉ supportedIDs) : Stalls env frame := by
  intro clk c werr st
  refine ⟨C27_unknown_id_partial env clk c werr st frame pd hd hf hu, ?_⟩
  unfold Store.pauses
  rw [handleFrame_packet hd hf]
  unfold Store.process
  rw [(ofID_none_iff _).2 hu]
  rfl

theorem C123_corrupt_stalls (env : Env) (p : List UInt8) (hx : xorSum p ≠ 0) : Stalls env (frameOf p) := by
  intro clk c werr st
  refine ⟨C28_corrupt_ignored env clk c werr st p hx, ?_⟩
  have hne : p ≠ [] := by intro h; subst h; exact hx rfl
  have hd : decodeFrame env (frameOf p) = .err .verifyFailed := by
    rw [decodeFrame_frameOf, verify_fail _ hne hx]
  unfold Store.pauses Store.handleFrame Store.decodePacket
  rw [hd]
  rfl

/-- A frame whose answer is written costs no pause; if writing the answer fails, there is a pause, unless the failure ends
the connection. -/
theorem C123_unwritten (env : Env) (clk : Clock) (c : Conn) (st : Store) (frame : List UInt8) (x : Conn × List UInt8)
    (h : (st.serveFrame env clk c none frame).2.sent = some x) :
    st.pauses env clk c none frame = false ∧
    ∀ e, st.pauses env clk c (some e) frame = true ↔ (st.serveFrame env clk c (some e) frame).2.ended = false := by
  unfold Store.serveFrame at h ⊢
  unfold Store.pauses
  rcases hh : st.handleFrame env clk c frame with ⟨st', o⟩
  rw [hh] at h
  cases o with
  | silent => cases h
  | failed e =>
    exfalso
    cases e <;> simp [Err.endsServe] at h
  | panicked => cases h
  | reply f =>
    refine ⟨rfl, fun e => ?_⟩
    cases e <;> simp [Err.endsServe]

/-- The registration of the demonstration terminal is such a frame. -/
example : (Store.empty.serveFrame goEnv (demoClk 5) demoC none demoReg).2.sent.isSome ∧
    Store.empty.pauses goEnv (demoClk 5) demoC (some .io) demoReg = true ∧
    Store.empty.pauses goEnv (demoClk 5) demoC (some .closed) demoReg = false := by decide +kernel

/-- A question for the time (0x0004, which the README lists) stalls. -/
def demoAsk : List UInt8 := msgFrame (hdr2013 0x0004) []
theorem demoAsk_stalls : Stalls goEnv demoAsk := by
  refine C123_unknown_stalls goEnv demoAsk _ rfl rfl (by decide)

/-! ### What that does to the frames behind -/

theorem Paced.behind {env : Env} {c : Conn} {s : Sys} {busy : Nat} {due : List (Nat × List UInt8)} {evs : List Ev}
    {log : List Pass} (h : Paced env c s busy due evs log) (base : Nat) (stalling rest : List (Nat × List UInt8))
    (hd : due = stalling ++ rest) (hs : ∀ x ∈ stalling, Stalls env x.2)
    (hb : base ≤ busy ∨ stalling ≠ [] ∧ ∀ x ∈ stalling, base ≤ x.1) :
    (∀ before p after, log = before ++ p :: after → stalling.length ≤ before.length →
      base + 1000 * stalling.length ≤ p.begun) ∧
    (∀ clk f werr, Ev.frame clk c f werr ∈ evs → Stalls env f ∨ base + 1000 * stalling.length ≤ clk.ms) := by
  induction h generalizing base stalling rest with
  | done => exact ⟨fun b p a e => by (cases b <;> cases e), fun _ _ _ e => by cases e⟩
  | @pass s busy due evs log a clk f werr hl ht next ih =>
    cases stalling with
    | nil =>
      have hb : base ≤ busy := by
        rcases hb with hb | ⟨hb, -⟩
        · exact hb
        · exact absurd rfl hb
      simp only [List.length_nil, Nat.mul_zero, Nat.add_zero]
      obtain ⟨i1, i2⟩ := ih base [] due rfl (fun _ e => by cases e) (.inl (by omega))
      simp only [List.length_nil, Nat.mul_zero, Nat.add_zero] at i1 i2
      constructor
      · intro before p after e _
        cases before with
        | nil => injection e with e _; subst e; show base ≤ clk.ms; omega
        | cons q before => injection e with _ e; exact i1 before p after e (Nat.zero_le _)
      · intro clk' f' werr' hm
        rcases List.mem_cons.1 hm with hm | hm
        · cases hm; exact .inr (by omega)
        · exact i2 clk' f' werr' hm
    | cons x stalling =>
      injection hd with hd1 hd2
      subst hd1
      have hp := (hs _ List.mem_cons_self clk c werr s.st).2
      have hq : s.st.pause env clk c werr f = 1000 := by unfold Store.pause; rw [hp]; rfl
      have hge : base ≤ clk.ms := by
        rcases hb with hb | ⟨-, hb⟩
        · omega
        · have := hb _ List.mem_cons_self
          simp only at this
          omega
      obtain ⟨i1, i2⟩ := ih (base + 1000) stalling rest hd2 (fun x hx => hs x (List.mem_cons_of_mem _ hx)) (.inl (by omega))
      rw [List.length_cons]
      constructor
      · intro before p after e hlen
        cases before with
        | nil => simp at hlen
        | cons q before =>
          injection e with _ e
          have := i1 before p after e (by simpa using hlen)
          omega
      · intro clk' f' werr' hm
        rcases List.mem_cons.1 hm with hm | hm
        · cases hm; exact .inl (hs _ List.mem_cons_self)
        · rcases i2 clk' f' werr' hm with h | h
          · exact .inl h
          · exact .inr (by omega)
  | @other s busy due evs log e hf hr next ih =>
    obtain ⟨i1, i2⟩ := ih base stalling rest hd hs hb
    refine ⟨i1, fun clk f werr hm => ?_⟩
    rcases List.mem_cons.1 hm with hm | hm
    · exact absurd hm.symm (hf clk f werr)
    · exact i2 clk f werr hm

/-- The opposite of C123: behind `n` frames that stall, nothing is taken up until `n` seconds after the first of them
arrived. -/
theorem C123_lag (env : Env) (c : Conn) (s : Sys) (busy first : Nat) (stalling rest : List (Nat × List UInt8))
    (evs : List Ev) (log : List Pass) (h : Paced env c s busy (stalling ++ rest) evs log) (hne : stalling ≠ [])
    (hs : ∀ x ∈ stalling, Stalls env x.2 ∧ first ≤ x.1) (before after : List Pass) (p : Pass)
    (e : log = before ++ p :: after) (hl : stalling.length ≤ before.length) :
    first + 1000 * stalling.length ≤ p.begun :=
  (h.behind first stalling rest rfl (fun x hx => (hs x hx).1) (.inr ⟨hne, fun x hx => (hs x hx).2⟩)).1 before p after e hl

theorem step_stalls {env : Env} {s : Sys} {clk : Clock} {c : Conn} {f : List UInt8} {werr : Option Err}
    (h : Stalls env f) : (s.step env (.frame clk c f werr)).1 = s := by
  unfold Sys.step
  split
  · rfl
  · simp only
    split
    · rw [(h clk c werr s.st).1]; rfl
    · rfl

/-- Not a frame that stalls. -/
noncomputable def Ev.counts (env : Env) (e : Ev) : Bool :=
  @decide (¬ ∃ clk c f werr, e = .frame clk c f werr ∧ Stalls env f) (Classical.propDecidable _)

theorem run_counts {env : Env} (evs : List Ev) (s : Sys) : (s.run env evs).1 = (s.run env (evs.filter (Ev.counts env))).1 := by
  induction evs generalizing s with
  | nil => rfl
  | cons e evs ih =>
    by_cases hc : Ev.counts env e = true
    · rw [List.filter_cons_of_pos hc]
      exact ih _
    · rw [List.filter_cons_of_neg hc]
      have : ∃ clk c f werr, e = .frame clk c f werr ∧ Stalls env f := by
        simpa [Ev.counts] using hc
      obtain ⟨clk, c, f, werr, rfl, hf⟩ := this
      show ((s.step env (.frame clk c f werr)).1.run env evs).1 = _
      rw [step_stalls hf]
      exact ih s

theorem countP_counts {env : Env} (evs : List Ev) (p : Str) (t : Nat) :
    (evs.filter (Ev.counts env)).countP (Ev.checkAfter p t) = evs.countP (Ev.checkAfter p t) := by
  rw [List.countP_filter]
  apply List.countP_congr
  intro e _
  constructor
  · intro h; simp only [Bool.and_eq_true] at h; exact h.1
  · intro h
    simp only [Bool.and_eq_true]
    refine ⟨h, ?_⟩
    simp only [Ev.counts, decide_eq_true_eq]
    rintro ⟨clk, c, f, werr, rfl, -⟩
    cases h

/-- Behind frames that stall a terminal is treated as if it were silent.  Its connection `c` is the only one that speaks
for it; it sends `stalling`, then whatever it likes as often as it likes.  Until a second per stalling frame has passed,
it is taken offline by the first keepalive check more than a minute after it was last heard of, and removed by the
second. -/
theorem C123_as_if_silent (env : Env) (evs evs' : List Ev) (c : Conn) (p : Str) (d : Device) (busy : Nat)
    (stalling rest : List (Nat × List UInt8)) (log : List Pass)
    (hd : (Sys.start.run env evs).1.st.look p = some d)
    (h : Paced env c (Sys.start.run env evs).1 busy (stalling ++ rest) evs' log) (hne : stalling ≠ [])
    (hs : ∀ x ∈ stalling, Stalls env x.2 ∧ d.last ≤ x.1)
    (ho : ∀ clk c' f werr, Ev.frame clk c' f werr ∈ evs' → c' ≠ c → framePhone env f ≠ some p)
    (ht : ∀ e ∈ evs', ∀ t, e.time = some t → t < d.last + 1000 * stalling.length) :
    (Sys.start.run env (evs ++ evs')).1.st.look p =
      (if evs'.countP (Ev.checkAfter p (d.last + 60000)) = 0 then some d
       else if evs'.countP (Ev.checkAfter p (d.last + 60000)) = 1 ∧ d.status ≠ .offline
         then some { d with status := .offline } else none) := by
  have hb := (h.behind d.last stalling rest rfl (fun x hx => (hs x hx).1) (.inr ⟨hne, fun x hx => (hs x hx).2⟩)).2
  have key := C75_fate env evs (evs'.filter (Ev.counts env)) p d hd (by
    intro clk c' f werr hm
    rw [List.mem_filter] at hm
    obtain ⟨hm, hc⟩ := hm
    by_cases hcc : c' = c
    · subst hcc
      rcases hb clk f werr hm with h1 | h1
      · simp only [Ev.counts, decide_eq_true_eq] at hc
        exact absurd ⟨clk, c', f, werr, rfl, h1⟩ hc
      · have := ht _ hm clk.ms rfl
        omega
    · exact ho clk c' f werr hm hcc)
  rw [countP_counts] at key
  rw [← key, run_append, run_append, run_counts evs']

/-! ### Such histories exist -/

/-- The passes over `n` copies of a frame that stalls, all of which arrived at `a`. -/
def stallEvs (c : Conn) (f : List UInt8) (civil : Civil) (a : Nat) : Nat → List Ev
  | 0 => []
  | n + 1 => .frame ⟨a, civil⟩ c f none :: stallEvs c f civil (a + 1000) n

theorem paced_stalls {env : Env} {c : Conn} {f : List UInt8} (hf : Stalls env f) (civil : Civil) {s : Sys} (hl : c ∈ s.live)
    (a : Nat) {evs : List Ev} {log : List Pass} {rest : List (Nat × List UInt8)} (n : Nat) :
    ∀ b, a ≤ b → Paced env c s (b + 1000 * n) rest evs log →
      ∃ log', log'.length = n ∧
        Paced env c s b (List.replicate n (a, f) ++ rest) (stallEvs c f civil b n ++ evs) (log' ++ log) := by
  induction n with
  | zero => intro b _ h; exact ⟨[], rfl, h⟩
  | succ n ih =>
    intro b hb h
    obtain ⟨log', hlen, hp⟩ := ih (b + 1000) (by omega) (by rw [show b + 1000 + 1000 * n = b + 1000 * (n + 1) by omega]; exact h)
    refine ⟨⟨a, b, true⟩ :: log', by rw [List.length_cons, hlen], ?_⟩
    rw [List.replicate_succ]
    show Paced env c s b ((a, f) :: (List.replicate n (a, f) ++ rest))
      (.frame ⟨b, civil⟩ c f none :: (stallEvs c f civil (b + 1000) n ++ evs)) (⟨a, b, true⟩ :: (log' ++ log))
    have hp2 := (hf ⟨b, civil⟩ c none s.st).2
    have := Paced.pass (env := env) (c := c) (s := s) (busy := b) (a := a) (clk := ⟨b, civil⟩) (f := f) (werr := none)
      (due := List.replicate n (a, f) ++ rest) (evs := stallEvs c f civil (b + 1000) n ++ evs) (log := log' ++ log)
      hl (by show b = max a b; omega)
      (by rw [step_stalls hf]; unfold Store.pause; rw [hp2]; exact hp)
    rw [hp2] at this
    exact this

/-- And there is no bound: for every time span there is a terminal, registered and connected, whose heartbeat waits
longer than that. -/
theorem C123_no_bound (span : Nat) : ∃ (evs evs' : List Ev) (log : List Pass) (due : List (Nat × List UInt8)) (p : Pass)
    (f : List UInt8) (h : Header) (a : Nat),
    Paced goEnv demoC (Sys.start.run goEnv evs).1 a (due ++ [(a, f)]) evs' log ∧
    (∃ before, log = before ++ [p] ∧ before.length = due.length) ∧ InOrder (due ++ [(a, f)]) ∧
    (∀ now, Holds goEnv now f h .m0002) ∧ ((Sys.start.run goEnv evs).1.st.look h.phone).isSome ∧
    p.arrived = a ∧ a + span < p.begun := by
  have hl : demoC ∈ demoSys.live := by decide +kernel
  let n := span / 1000 + 1
  have last : Paced goEnv demoC demoSys (2000 + 1000 * n) [(2000, demoBeat)]
      [.frame ⟨2000 + 1000 * n, (demoClk 0).civil⟩ demoC demoBeat none]
      [⟨2000, 2000 + 1000 * n, demoSys.st.pauses goEnv ⟨2000 + 1000 * n, (demoClk 0).civil⟩ demoC none demoBeat⟩] :=
    Paced.pass hl (by show 2000 + 1000 * n = max 2000 (2000 + 1000 * n); omega) (.done _ _ _)
  obtain ⟨log', hlen, hp⟩ := paced_stalls demoAsk_stalls (demoClk 0).civil hl 2000 n 2000 (Nat.le_refl _) last
  refine ⟨demoEvs, _, _, List.replicate n (2000, demoAsk), _, demoBeat, _, 2000, hp, ⟨log', rfl, by simp [hlen]⟩, ?_,
    fun now => demoBeat_holds now, by decide +kernel, rfl, ?_⟩
  · unfold InOrder
    rw [List.pairwise_append]
    refine ⟨?_, List.pairwise_singleton _ _, ?_⟩
    · rw [List.pairwise_replicate]; right; exact Nat.le_refl _
    · intro x hx y hy
      rw [List.eq_of_mem_replicate hx]
      simp only [List.mem_singleton] at hy
      rw [hy]
      exact Nat.le_refl _
  · show 2000 + span < 2000 + 1000 * (span / 1000 + 1)
    omega

/-- A case of C123_as_if_silent: the terminal of the examples, registered at 1 s, asks for the time 70 times at 2 s and
sends its heartbeat right behind.  At 61.5 s the server has got to the sixtieth question, and the keepalive check removes
the terminal. -/
example : ∃ log, Paced goEnv demoC demoSys 2000 (List.replicate 60 (2000, demoAsk) ++
      (List.replicate 10 (2000, demoAsk) ++ [(2000, demoBeat)]))
      (stallEvs demoC demoAsk (demoClk 0).civil 2000 60 ++ [.check (demoClk 61500) (hdr2013 0).phone]) log := by
  obtain ⟨log, -, h⟩ := paced_stalls demoAsk_stalls (demoClk 0).civil (s := demoSys) (c := demoC) (by decide +kernel) 2000
    (rest := List.replicate 10 (2000, demoAsk) ++ [(2000, demoBeat)]) (evs := [.check (demoClk 61500) (hdr2013 0).phone])
    60 2000 (Nat.le_refl _) (.other (fun _ _ _ e => by cases e) (fun _ e => by cases e) (.done _ _ _))
  exact ⟨_, h⟩
example : ((demoSys.run goEnv (stallEvs demoC demoAsk (demoClk 0).civil 2000 60 ++
    [.check (demoClk 61500) (hdr2013 0).phone])).1.st.look (hdr2013 0).phone).isNone ∧
    (demoSys.st.look (hdr2013 0).phone).isSome := by decide +kernel

end JT808
