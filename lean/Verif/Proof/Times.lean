import Verif.Proof.Interleave
/-
Time passes while a goroutine works: which readings of the clock matter.
-/
namespace JT808

/-- The steps of one goroutine, each at its own time. -/
def Prog.iters : List Clock → Prog → Store → Store × Prog
  | [], q, st => (st, q)
  | c :: cs, q, st => Prog.iters cs (q.next c st).2 (q.next c st).1

theorem iters_ret (clks : List Clock) (r : Res (Option Out)) (st : Store) : (Prog.ret r).iters clks st = (st, .ret r) := by
  induction clks with
  | nil => rfl
  | cons c cs ih => exact ih

/-- When the goroutine has returned, it has done what it does with a clock that stands still: one that shows the
milliseconds of one of its steps (if `a`; if not, it does not matter what they are) and the date of one (if `b`). -/
def Prog.Timed (a b : Bool) (q : Prog) (st : Store) : Prop :=
  ∀ clks st' r, q.iters clks st = (st', .ret r) →
    ∃ o1 o2 : Option Clock, (a = false → o1 = none) ∧ (b = false → o2 = none) ∧
      (∀ c, o1 = some c → c ∈ clks) ∧ (∀ c, o2 = some c → c ∈ clks) ∧
      ∀ clk : Clock, (∀ c, o1 = some c → clk.ms = c.ms) → (∀ c, o2 = some c → clk.civil = c.civil) →
        q.alone clk st = (st', r)

variable {a b : Bool} {st : Store}

theorem timed_ret (r : Res (Option Out)) : (Prog.ret r).Timed a b st := by
  intro clks st' r' h
  rw [iters_ret] at h
  cases h
  exact ⟨none, none, fun _ => rfl, fun _ => rfl, fun _ h => (by cases h), fun _ h => (by cases h), fun _ _ _ => rfl⟩

/-- A step that does not look at the clock. -/
theorem timed_free (f : Clock → Store → Store) (k : Clock → Store → Prog) (hf : ∀ c c', f c st = f c' st)
    (hk : ∀ c c', k c st = k c' st) (h : ∀ c, (k c st).Timed a b (f c st)) : (Prog.step f k).Timed a b st := by
  intro clks st' r hi
  cases clks with
  | nil => cases hi
  | cons c cs =>
    obtain ⟨o1, o2, h1, h2, h3, h4, h5⟩ := h c cs st' r hi
    refine ⟨o1, o2, h1, h2, fun x hx => List.mem_cons_of_mem _ (h3 x hx), fun x hx => List.mem_cons_of_mem _ (h4 x hx),
      fun clk e1 e2 => ?_⟩
    show (k clk st).alone clk (f clk st) = _
    rw [hf clk c, hk clk c]
    exact h5 clk e1 e2

/-- A step that looks at the milliseconds. -/
theorem timed_ms (f : Clock → Store → Store) (k : Clock → Store → Prog) (hf : ∀ c c' : Clock, c.ms = c'.ms → f c st = f c' st)
    (hk : ∀ c c' : Clock, c.ms = c'.ms → k c st = k c' st) (h : ∀ c, (k c st).Timed false b (f c st)) :
    (Prog.step f k).Timed true b st := by
  intro clks st' r hi
  cases clks with
  | nil => cases hi
  | cons c cs =>
    obtain ⟨o1, o2, h1, h2, -, h4, h5⟩ := h c cs st' r hi
    cases h1 rfl
    refine ⟨some c, o2, (fun h => by cases h), h2, (fun x hx => by cases hx; exact List.mem_cons_self),
      fun x hx => List.mem_cons_of_mem _ (h4 x hx), fun clk e1 e2 => ?_⟩
    show (k clk st).alone clk (f clk st) = _
    rw [hf clk c (e1 c rfl), hk clk c (e1 c rfl)]
    exact h5 clk (fun x hx => by cases hx) e2

/-- A step that looks at the date. -/
theorem timed_civil (f : Clock → Store → Store) (k : Clock → Store → Prog)
    (hf : ∀ c c' : Clock, c.civil = c'.civil → f c st = f c' st)
    (hk : ∀ c c' : Clock, c.civil = c'.civil → k c st = k c' st) (h : ∀ c, (k c st).Timed a false (f c st)) :
    (Prog.step f k).Timed a true st := by
  intro clks st' r hi
  cases clks with
  | nil => cases hi
  | cons c cs =>
    obtain ⟨o1, o2, h1, h2, h3, -, h5⟩ := h c cs st' r hi
    cases h2 rfl
    refine ⟨o1, some c, h1, (fun h => by cases h), fun x hx => List.mem_cons_of_mem _ (h3 x hx),
      (fun x hx => by cases hx; exact List.mem_cons_self), fun clk e1 e2 => ?_⟩
    show (k clk st).alone clk (f clk st) = _
    rw [hf clk c (e2 c rfl), hk clk c (e2 c rfl)]
    exact h5 clk e1 (fun x hx => by cases hx)

theorem timed_get (p : Str) (k : Option Ref → Prog) (h : (k (st.devByPhone p)).Timed a b st) : (Prog.get p k).Timed a b st :=
  timed_free _ _ (fun _ _ => rfl) (fun _ _ => rfl) fun _ => h

theorem timed_upd (f : Store → Store) (next : Prog) (h : next.Timed a b (f st)) : (Prog.upd f next).Timed a b st :=
  timed_free _ _ (fun _ _ => rfl) (fun _ _ => rfl) fun _ => h

theorem timed_read {α : Type} (g : Store → α) (k : α → Prog) (h : (k (g st)).Timed a b st) :
    (Prog.read (fun _ st => g st) k).Timed a b st :=
  timed_free _ _ (fun _ _ => rfl) (fun _ _ => rfl) fun _ => h

theorem timed_put (r : Ref) (g : Device → Device) (next : Prog) (h : next.Timed a b (st.setDev r (g (st.heap r)))) :
    (Prog.put r (fun _ d => g d) next).Timed a b st :=
  timed_free _ _ (fun _ _ => rfl) (fun _ _ => rfl) fun _ => h

/-- `d.LastestComTime = time.Now()`. -/
theorem timed_last (r : Ref) (next : Prog) (h : ∀ st', next.Timed false b st') :
    (Prog.put r (fun clk d => { d with last := clk.ms }) next).Timed true b st :=
  timed_ms _ _ (fun c c' e => by simp only [e]) (fun _ _ _ => rfl) fun _ => h _

theorem timed_expired (r : Ref) (yes no : Prog) (h1 : yes.Timed false b st) (h2 : no.Timed false b st) :
    (progExpired r yes no).Timed true b st := by
  refine timed_ms _ _ (fun _ _ _ => rfl) (fun c c' e => by simp only [e]) fun c => ?_
  show (if decide (c.ms > (st.heap r).keepalive + (st.heap r).last) then yes else no).Timed false b st
  split
  · exact h1
  · exact h2

theorem timed_drop (r : Ref) (next : Prog) (h : ∀ st', next.Timed a b st') :
    (Prog.upd (fun st => st.cancelJob (st.heap r).phone) <|
      .upd (fun st => st.delByPhone (st.heap r).phone) next).Timed a b st :=
  timed_upd _ _ (timed_upd _ _ (h _))

theorem timed_geo (h : Header) (r : Ref) (dg : DeviceGeo) : (progGeo h r dg).Timed a b st := by
  refine timed_free _ _ (fun _ _ => rfl) (fun _ _ => rfl) fun _ => ?_
  generalize (st.writeGeo (st.heap r).phone dg).1 = st'
  show Prog.Timed a b (match (st.writeGeo (st.heap r).phone dg).2 with
      | .ok _ => Prog.ret (.ok (some (gen8001 h 0))) | .err e => .ret (.err e) | .panic => .ret .panic) st'
  cases (st.writeGeo (st.heap r).phone dg).2 <;> exact timed_ret _

theorem timed_clear (phone : Str) (r : Ref) : (progClear phone r).Timed true b st := by
  refine timed_read _ _ ?_
  split
  · refine timed_expired _ _ _ ?_ (timed_ret _)
    refine timed_read (fun st => (st.heap r).conn) _ ?_
    cases (st.heap r).conn with
    | none => exact timed_ret _
    | some c => exact timed_upd _ _ (timed_upd _ _ (timed_upd _ _ (timed_upd _ _ (timed_ret _))))
  · exact timed_ret _

/-- Every goroutine. -/
theorem timed_task (env : Env) (t : Task) (st : Store) : (t.prog env).Timed true true st := by
  cases t with
  | check ph =>
    show (progCheck ph).Timed true true st
    refine timed_get _ _ ?_
    cases st.devByPhone ph with
    | none => exact timed_upd _ _ (timed_ret _)
    | some r =>
      show (progFound ph r).Timed true true st
      refine timed_read _ _ ?_
      by_cases hs : (st.heap r).status ≠ .offline
      · rw [if_pos hs]
        refine timed_expired _ _ _ ?_ ?_
        · exact timed_put _ (fun d => { d with status := .offline }) _ (timed_upd _ _ (timed_ret _))
        · refine timed_read _ _ ?_
          rw [if_neg hs]
          exact timed_ret _
      · rw [if_neg hs]; exact timed_clear ph r
  | msg c h m =>
    cases m with
    | m0001 m => exact timed_ret _
    | m0104 m => exact timed_ret _
    | m1205 m => exact timed_ret _
    | m9205 m => exact timed_ret _
    | m0002 =>
      show (prog0002 h).Timed true true st
      refine timed_get _ _ ?_
      cases st.devByPhone h.phone with
      | none => exact timed_ret _
      | some r => exact timed_last _ _ fun _ => timed_upd _ _ (timed_ret _)
    | m0003 =>
      show (prog0003 h).Timed true true st
      refine timed_get _ _ ?_
      cases st.devByPhone h.phone with
      | none => exact timed_ret _
      | some r => exact timed_drop _ _ fun _ => timed_ret _
    | m0100 m =>
      show (prog0100 c h m).Timed true true st
      refine timed_read _ _ ?_
      split
      · exact timed_ret _
      · refine timed_read _ _ ?_
        split
        · exact timed_ret _
        · refine timed_ms _ _ (fun c1 c2 e => ?_) (fun c1 c2 e => ?_) fun c1 => ?_
          · simp only [Device.new, e]
          · simp only [Device.new, e]
          · refine timed_upd _ _ (timed_get _ _ ?_)
            split
            · exact timed_ret _
            · exact timed_upd _ _ (timed_ret _)
    | m0102 m =>
      show (prog0102 h m).Timed true true st
      refine timed_get _ _ ?_
      cases st.devByPhone h.phone with
      | none => exact timed_ret _
      | some r =>
        refine timed_read (fun st => (st.heap r).code) _ ?_
        split
        · exact timed_drop _ _ fun _ => timed_ret _
        · refine timed_put _ (fun d => { d with status := .online }) _ (timed_last _ _ fun _ => ?_)
          exact timed_put _ (fun d => { d with authCode := m.code }) _ (timed_put _ (fun d => { d with imei := m.imei }) _
            (timed_put _ (fun d => { d with software := m.software }) _ (timed_upd _ _ (timed_ret _))))
    | m0200 m =>
      show (prog0200 h m).Timed true true st
      refine timed_get _ _ ?_
      cases st.devByPhone h.phone with
      | none => exact timed_ret _
      | some r =>
        refine timed_civil _ _ (fun _ _ _ => rfl) (fun c1 c2 e => by simp only [e]) fun c1 => ?_
        dsimp only
        split
        · exact timed_put _ (fun d => { d with status := .sleeping }) _ (timed_last _ _ fun _ => timed_upd _ _ (timed_geo _ _ _))
        · exact timed_geo _ _ _
    | m8001 m =>
      show (prog8001 h m).Timed true true st
      unfold prog8001
      split
      · refine timed_get _ _ ?_
        cases st.devByPhone h.phone with
        | none => exact timed_ret _
        | some r =>
          refine timed_read (fun st => (st.heap r).status) _ ?_
          split
          · exact timed_ret _
          · exact timed_put _ (fun d => { d with status := .online }) _ (timed_last _ _ fun _ => timed_upd _ _ (timed_ret _))
      · exact timed_ret _
    | m8100 m =>
      show (prog8100 h m).Timed true true st
      refine timed_get _ _ ?_
      cases st.devByPhone h.phone with
      | none => exact timed_ret _
      | some r => exact timed_read (fun st => (st.heap r).imei) _ (timed_read (fun st => (st.heap r).software) _ (timed_ret _))
    | m8103 m =>
      show (prog8103 h m).Timed true true st
      exact timed_read _ _ (timed_upd _ _ (timed_ret _))
    | m8104 =>
      show (prog8104 env h).Timed true true st
      refine timed_read _ _ ?_
      cases st.paramsOf h.phone with
      | some x => exact timed_ret _
      | none =>
        simp only
        cases fixedDecode env h.phone with
        | ok x => exact timed_upd _ _ (timed_ret _)
        | err e => exact timed_ret _
        | panic => exact timed_ret _

end JT808
