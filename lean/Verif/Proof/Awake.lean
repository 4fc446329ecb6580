import Verif.Props.Serial
/-
For C162: the keepalive checks of a terminal that is not silent change nothing.
-/
namespace JT808
open Spec

variable {env : Env} {p : Str}

/-! ### Goroutines that read bytes -/

/-- What holds of all goroutines at all times. -/
structure LSys.Sound (env : Env) (s : LSys) : Prop where
  inv : CInv s.st
  cur : ∀ (i : Nat) (l : Line) t q, s.ls[i]? = some l → l.cur = some (t, q) → q.Safe (t.Post env) t.Makes t.phone s.st

theorem next_sound {clk : Clock} {st : Store} {l : Line} (hi : CInv st)
    (hs : ∀ t q, l.cur = some (t, q) → q.Safe (t.Post env) t.Makes t.phone st) :
    CInv (l.next env clk st).1 ∧ Grows st (l.next env clk st).1 ∧
      ∀ t q, (l.next env clk st).2.cur = some (t, q) → q.Safe (t.Post env) t.Makes t.phone (l.next env clk st).1 := by
  obtain ⟨conn, todo, input, recv, cur, done, output, ended⟩ := l
  cases ended with
  | true => exact ⟨hi, Grows.refl _, hs⟩
  | false =>
    cases cur with
    | some c =>
      obtain ⟨t, q⟩ := c
      cases q with
      | ret r => exact ⟨hi, Grows.refl _, fun t q hq => by cases hq⟩
      | step f k =>
        obtain ⟨a, b, c⟩ := hs t _ rfl clk st (Grows.refl _) hi
        exact ⟨b, a.toGrows, fun t q hq => by cases hq; exact c⟩
    | none =>
      cases todo with
      | cons t ts => exact ⟨hi, Grows.refl _, fun t q hq => by cases hq; exact task_safe env _ _⟩
      | nil =>
        cases input with
        | nil => exact ⟨hi, Grows.refl _, fun t q hq => by cases hq⟩
        | cons b rest =>
          cases hr : recvStep recv b with
          | inr r =>
            simp only [Line.next, hr]
            exact ⟨hi, Grows.refl _, fun t q hq => by cases hq⟩
          | inl f =>
            cases hf : received env clk.civil conn f with
            | none =>
              simp only [Line.next, hr, hf]
              exact ⟨hi, Grows.refl _, fun t q hq => by cases hq⟩
            | some o =>
              cases o with
              | none =>
                simp only [Line.next, hr, hf]
                exact ⟨hi, Grows.refl _, fun t q hq => by cases hq⟩
              | some t =>
                simp only [Line.next, hr, hf]
                exact ⟨hi, Grows.refl _, fun t q hq => by cases hq; exact task_safe env _ _⟩

theorem lsound_step {s : LSys} (h : s.Sound env) (e : Nat × Clock) : (s.step env e).Sound env ∧ Grows s.st (s.step env e).st := by
  unfold LSys.step
  cases hi : s.ls[e.1]? with
  | none => exact ⟨h, Grows.refl _⟩
  | some y =>
    obtain ⟨a, b, c⟩ := next_sound (clk := e.2) h.inv fun t q => h.cur _ y t q hi
    refine ⟨⟨a, fun i x t q hx hq => ?_⟩, b⟩
    rcases getset hi hx with ⟨rfl, rfl⟩ | ⟨-, hx⟩
    · exact c t q hq
    · exact (h.cur i x t q hx hq).mono b

/-! ### Checks of a terminal that is not silent -/

namespace Spec

/-- At this moment nothing that the server has recorded of the phone is older than its keepalive interval. -/
def Awake (p : Str) (clk : Clock) (st : Store) : Prop :=
  ∀ r, r < st.next → (st.heap r).phone = p → clk.ms ≤ (st.heap r).keepalive + (st.heap r).last

/-- The goroutine has panicked. -/
def _root_.JT808.Line.Panicked (l : Line) : Prop := (∃ t, l.cur = some (t, .ret .panic)) ∨ ∃ t, (t, .panic) ∈ l.done

end Spec

/-- A goroutine that changes nothing while the terminal is awake, unless it panics. -/
def Prog.Harmless (p : Str) : Store → Prog → Prop
  | _, .ret r => r = .ok none
  | st, .step f k => ∀ clk st', Grows st st' → CInv st' → Awake p clk st' →
      k clk st' = .ret .panic ∨ (f clk st' = st' ∧ Prog.Harmless p st' (k clk st'))

theorem Prog.Harmless.mono {st st' : Store} (hg : Grows st st') : ∀ {q : Prog}, q.Harmless p st → q.Harmless p st'
  | .ret _, h => h
  | .step _ _, h => fun clk st2 h2 => h clk st2 (hg.trans h2)

theorem harmless_read {st : Store} {α : Type} (g : Clock → Store → α) (k : α → Prog)
    (h : ∀ clk st', Grows st st' → CInv st' → Awake p clk st' → (k (g clk st')).Harmless p st') :
    (Prog.read g k).Harmless p st :=
  fun clk st' hl hi hc => .inr ⟨rfl, h clk st' hl hi hc⟩

theorem harmless_expired {st : Store} {r : Ref} (yes no : Prog) (hh : Held p st r) (h : ∀ st', Grows st st' → no.Harmless p st') :
    (progExpired r yes no).Harmless p st := by
  refine harmless_read _ _ fun clk st' hl _ hc => ?_
  have hh' := hh.mono hl
  have a := hc r hh'.1 hh'.2
  have e : decide (clk.ms > (st'.heap r).keepalive + (st'.heap r).last) = false := decide_eq_false (by omega)
  simp only [e]
  exact h st' hl

theorem check_harmless (st : Store) : (progCheck p).Harmless p st := by
  have clear : ∀ r st, Held p st r → (progClear p r).Harmless p st := by
    intro r st hh
    refine harmless_read _ _ fun clk st1 h1 _ _ => ?_
    split
    · exact harmless_expired _ _ (hh.mono h1) fun _ _ => rfl
    · rfl
  intro clk st' hl hi hc
  refine .inr ⟨rfl, ?_⟩
  cases hd : st'.devByPhone p with
  | none => simp only [hd]; exact fun _ _ _ _ _ => .inl rfl
  | some r =>
    simp only [hd]
    have hh : Held p st' r := hi.phoneOK _ _ hd
    show (progFound p r).Harmless p st'
    refine harmless_read _ _ fun clk st1 h1 _ _ => ?_
    have hh1 := hh.mono h1
    split
    · exact harmless_expired _ _ hh1 fun st2 h2 => clear r st2 (hh1.mono h2)
    · exact clear r st1 hh1

/-- The goroutine of a check that has not done anything. -/
def Line.Idles (p : Str) (st : Store) (l : Line) : Prop :=
  l.input = [] ∧ ((l.todo = [.check p] ∧ l.cur = none ∧ l.done = []) ∨
    (l.todo = [] ∧ l.done = [] ∧ ∃ q, l.cur = some (.check p, q) ∧ q.Harmless p st) ∨
    (l.todo = [] ∧ l.cur = none ∧ l.done = [(.check p, .ok none)]))

theorem Line.Idles.mono {st st' : Store} {l : Line} (h : l.Idles p st) (hg : Grows st st') : l.Idles p st' := by
  obtain ⟨h0, h | ⟨h1, h2, q, h3, h4⟩ | h⟩ := h
  · exact ⟨h0, .inl h⟩
  · exact ⟨h0, .inr (.inl ⟨h1, h2, q, h3, h4.mono hg⟩)⟩
  · exact ⟨h0, .inr (.inr h)⟩

theorem next_idles {clk : Clock} {st : Store} {l : Line} (hi : CInv st) (ha : Awake p clk st) (h : l.Idles p st) :
    (l.next env clk st).2.Panicked ∨ ((l.next env clk st).1 = st ∧ (l.next env clk st).2.Idles p st) := by
  obtain ⟨conn, todo, input, recv, cur, done, output, ended⟩ := l
  obtain ⟨h0, h⟩ := h
  simp only at h0 h
  subst h0
  cases ended with
  | true => exact .inr ⟨rfl, rfl, h⟩
  | false =>
    rcases h with ⟨rfl, rfl, rfl⟩ | ⟨rfl, rfl, q, rfl, h⟩ | ⟨rfl, rfl, rfl⟩
    · exact .inr ⟨rfl, rfl, .inr (.inl ⟨rfl, rfl, _, rfl, check_harmless st⟩)⟩
    · cases q with
      | ret r =>
        have hr : r = .ok none := h
        subst hr
        exact .inr ⟨rfl, rfl, .inr (.inr ⟨rfl, rfl, rfl⟩)⟩
      | step f k =>
        rcases h clk st (Grows.refl _) hi ha with h | ⟨h1, h2⟩
        · exact .inl (.inl ⟨.check p, by simp [Line.next, h]⟩)
        · exact .inr ⟨h1, rfl, .inr (.inl ⟨rfl, rfl, _, rfl, h2⟩)⟩
    · exact .inr ⟨rfl, rfl, .inr (.inr ⟨rfl, rfl, rfl⟩)⟩

theorem next_panicked {clk : Clock} {st : Store} {l : Line} (h : l.Panicked) : (l.next env clk st).2.Panicked := by
  obtain ⟨conn, todo, input, recv, cur, done, output, ended⟩ := l
  rcases h with ⟨t, h⟩ | ⟨t, h⟩
  · simp only at h
    subst h
    cases ended with
    | true => exact .inl ⟨t, rfl⟩
    | false => exact .inr ⟨t, by simp [Line.next]⟩
  · right
    refine ⟨t, ?_⟩
    have h : (t, Res.panic) ∈ done := h
    unfold Line.next
    simp only
    repeat' split
    all_goals first | exact h | exact List.mem_append_left _ h

/-! ### With and without them -/

/-- The system with checks of the phone and the one without them. -/
structure WithChecks (env : Env) (p : Str) (s s' : LSys) : Prop where
  store : s'.st = s.st
  same : ∀ (i : Nat), i < s'.ls.length → s.ls[i]? = s'.ls[i]?
  sound : s.Sound env
  idle : ∀ (i : Nat) (l : Line), s'.ls.length ≤ i → s.ls[i]? = some l → l.Idles p s.st

theorem withChecks_step {s s' : LSys} (h : WithChecks env p s s') (e : Nat × Clock) (ha : s'.ls.length ≤ e.1 → Awake p e.2 s.st) :
    (∃ (i : Nat) (l : Line), s'.ls.length ≤ i ∧ (s.step env e).ls[i]? = some l ∧ l.Panicked) ∨
      (WithChecks env p (s.step env e) (s'.step env e) ∧ (s'.step env e).ls.length = s'.ls.length) := by
  obtain ⟨hsound, hgrow⟩ := lsound_step h.sound e
  obtain ⟨i, clk⟩ := e
  by_cases hlt : i < s'.ls.length
  · right
    have hw' : s'.ls[i]? = some s'.ls[i] := List.getElem?_eq_getElem hlt
    generalize s'.ls[i] = w at hw'
    have hw : s.ls[i]? = some w := (h.same i hlt).trans hw'
    have hilt : i < s.ls.length := (List.getElem?_eq_some_iff.1 hw).1
    have e1 : s.step env (i, clk) = ⟨(w.next env clk s.st).1, s.ls.set i (w.next env clk s.st).2⟩ := by
      simp only [LSys.step, hw]
    have e2 : s'.step env (i, clk) = ⟨(w.next env clk s.st).1, s'.ls.set i (w.next env clk s.st).2⟩ := by
      simp only [LSys.step, hw', h.store]
    rw [e1] at hsound hgrow
    rw [e1, e2]
    refine ⟨⟨rfl, fun n hn => ?_, hsound, fun n v hn hv => ?_⟩, List.length_set ..⟩
    · have hn : n < (s'.ls.set i (w.next env clk s.st).2).length := hn
      rw [List.length_set] at hn
      show (s.ls.set i _)[n]? = (s'.ls.set i _)[n]?
      by_cases hni : i = n
      · subst hni; rw [List.getElem?_set_self hilt, List.getElem?_set_self hlt]
      · rw [List.getElem?_set_ne hni, List.getElem?_set_ne hni]; exact h.same n hn
    · have hn : (s'.ls.set i (w.next env clk s.st).2).length ≤ n := hn
      rw [List.length_set] at hn
      have hv : (s.ls.set i (w.next env clk s.st).2)[n]? = some v := hv
      rw [List.getElem?_set_ne (by omega)] at hv; exact (h.idle n v hn hv).mono hgrow
  · have e2 : s'.step env (i, clk) = s' := by
      simp only [LSys.step, List.getElem?_eq_none (Nat.not_lt.1 hlt)]
    rw [e2]
    cases hw : s.ls[i]? with
    | none =>
      have e1 : s.step env (i, clk) = s := by simp only [LSys.step, hw]
      rw [e1]; exact .inr ⟨h, rfl⟩
    | some w =>
      have hilt : i < s.ls.length := (List.getElem?_eq_some_iff.1 hw).1
      rcases next_idles (env := env) (clk := clk) h.sound.inv (ha (Nat.not_lt.1 hlt)) (h.idle i w (Nat.not_lt.1 hlt) hw) with a | ⟨a, b⟩
      · refine .inl ⟨i, (w.next env clk s.st).2, Nat.not_lt.1 hlt, ?_, a⟩
        simp only [LSys.step, hw]
        exact List.getElem?_set_self hilt
      · right
        have e1 : s.step env (i, clk) = ⟨s.st, s.ls.set i (w.next env clk s.st).2⟩ := by
          simp only [LSys.step, hw, a]
        rw [e1] at hsound
        rw [e1]
        refine ⟨⟨h.store, fun n hn => ?_, hsound, fun n v hn hv => ?_⟩, rfl⟩
        · show (s.ls.set i _)[n]? = _
          rw [List.getElem?_set_ne (by omega)]; exact h.same n hn
        · have hv : (s.ls.set i (w.next env clk s.st).2)[n]? = some v := hv
          by_cases hni : i = n
          · subst hni; rw [List.getElem?_set_self hilt] at hv; cases hv; exact b
          · rw [List.getElem?_set_ne hni] at hv; exact h.idle n v hn hv

theorem panicked_run (evs : List (Nat × Clock)) (s : LSys) (i : Nat) (l : Line) (hl : s.ls[i]? = some l) (hp : l.Panicked) :
    ∃ l', (s.run env evs).ls[i]? = some l' ∧ l'.Panicked := by
  have hlt : i < (s.run env evs).ls.length := by rw [lines_length]; exact (List.getElem?_eq_some_iff.1 hl).1
  refine ⟨_, List.getElem?_eq_getElem hlt, ?_⟩
  refine lines_run (env := env) (P := fun k l' => k = i → l'.Panicked)
    (fun k clk st l' h e => next_panicked (h e)) evs s ?_ i _ (List.getElem?_eq_getElem hlt) rfl
  rintro k l' hk rfl
  rw [hl] at hk
  cases hk
  exact hp

theorem withChecks_run (evs : List (Nat × Clock)) {s s' : LSys} (h : WithChecks env p s s')
    (ha : ∀ pre e post, evs = pre ++ e :: post → s'.ls.length ≤ e.1 → Awake p e.2 (s.run env pre).st) :
    (∃ (i : Nat) (l : Line), s'.ls.length ≤ i ∧ (s.run env evs).ls[i]? = some l ∧ l.Panicked) ∨
      (WithChecks env p (s.run env evs) (s'.run env evs) ∧ (s'.run env evs).ls.length = s'.ls.length) := by
  induction evs generalizing s s' with
  | nil => exact .inr ⟨h, rfl⟩
  | cons e evs ih =>
    rcases withChecks_step h e (ha [] e evs rfl) with ⟨i, l, h1, h2, h3⟩ | ⟨a, b⟩
    · obtain ⟨l', h4, h5⟩ := panicked_run (env := env) evs _ i l h2 h3
      exact .inl ⟨i, l', h1, h4, h5⟩
    · rcases ih a (by
        intro pre e' post heq hlt
        exact ha (e :: pre) e' post (by rw [heq]; rfl) (by rw [← b]; exact hlt)) with ⟨i, l, h1, h2⟩ | ⟨c, d⟩
      · exact .inl ⟨i, l, by rw [← b]; exact h1, h2⟩
      · exact .inr ⟨c, d.trans b⟩

/-! ### Within a minute -/

/-- Nothing recorded of the phone is older than `T`. -/
def Young (p : Str) (T : Nat) (st : Store) : Prop :=
  ∀ r, r < st.next → (st.heap r).phone = p → T ≤ (st.heap r).last ∧ (st.heap r).keepalive = 60000

/-- A goroutine that leaves it so. -/
def Prog.KeepsYoung (p : Str) (T : Nat) : Prog → Prop
  | .ret _ => True
  | .step f k => ∀ clk st, (T ≤ clk.ms → Young p T st → Young p T (f clk st)) ∧ (k clk st).KeepsYoung p T

variable {T : Nat}

theorem young_read {α : Type} (g : Clock → Store → α) (k : α → Prog) (h : ∀ a, (k a).KeepsYoung p T) : (Prog.read g k).KeepsYoung p T :=
  fun _ _ => ⟨fun _ h => h, h _⟩

theorem young_get (q : Str) (k : Option Ref → Prog) (h : ∀ o, (k o).KeepsYoung p T) : (Prog.get q k).KeepsYoung p T :=
  fun _ _ => ⟨fun _ h => h, h _⟩

theorem young_upd (f : Store → Store) (next : Prog) (hf : ∀ st, (f st).next = st.next ∧ (f st).heap = st.heap)
    (h : next.KeepsYoung p T) : (Prog.upd f next).KeepsYoung p T := by
  refine fun _ st => ⟨fun _ hy r hr => ?_, h⟩
  have := hf st
  rw [this.1] at hr
  rw [this.2]
  exact hy r hr

theorem young_put (r : Ref) (g : Clock → Device → Device) (next : Prog)
    (hg : ∀ clk d, (g clk d).phone = d.phone ∧ (g clk d).keepalive = d.keepalive ∧ ((g clk d).last = d.last ∨ (g clk d).last = clk.ms))
    (h : next.KeepsYoung p T) : (Prog.put r g next).KeepsYoung p T := by
  refine fun clk st => ⟨fun ht hy y hr hp => ?_, h⟩
  obtain ⟨a, b, c⟩ := hg clk (st.heap r)
  by_cases e : y = r
  · subst e
    simp only [Store.setDev, if_true] at hp ⊢
    obtain ⟨h1, h2⟩ := hy y hr (a.symm.trans hp)
    refine ⟨?_, b.trans h2⟩
    rcases c with c | c <;> rw [c]
    · exact h1
    · exact ht
  · rw [Store.setDev_heap_ne _ _ e] at hp ⊢
    exact hy y hr hp

theorem young_geo (h : Header) (r : Ref) (dg : DeviceGeo) : (progGeo h r dg).KeepsYoung p T := by
  intro clk st
  refine ⟨fun _ hy => ?_, ?_⟩
  · have : (st.writeGeo (st.heap r).phone dg).1.next = st.next ∧ (st.writeGeo (st.heap r).phone dg).1.heap = st.heap := by
      have hg : (st.geoRing (st.heap r).phone).1.next = st.next ∧ (st.geoRing (st.heap r).phone).1.heap = st.heap := by
        unfold Store.geoRing
        split <;> exact ⟨rfl, rfl⟩
      unfold Store.writeGeo
      simp only
      split <;> exact hg
    intro y hr
    rw [this.1] at hr
    simp only [this.2]
    exact hy y hr
  · show Prog.KeepsYoung p T (match (st.writeGeo (st.heap r).phone dg).2 with
        | .ok _ => .ret (.ok (some (gen8001 h 0)))
        | .err e => .ret (.err e)
        | .panic => .ret .panic)
    split <;> trivial

theorem task_young (env : Env) (t : Task) : (t.prog env).KeepsYoung p T := by
  have same : ∀ (d : Device), d.phone = d.phone ∧ d.keepalive = d.keepalive := fun _ => ⟨rfl, rfl⟩
  have exp : ∀ (r : Ref) (yes no : Prog), yes.KeepsYoung p T → no.KeepsYoung p T → (progExpired r yes no).KeepsYoung p T := by
    intro r yes no h1 h2
    refine young_read _ _ fun b => ?_
    split <;> assumption
  cases t with
  | check q =>
    have clear : ∀ r, (progClear q r).KeepsYoung p T := by
      intro r
      refine young_read _ _ fun s => ?_
      split
      · refine exp _ _ _ (young_read _ _ fun c => ?_) trivial
        cases c with
        | none => trivial
        | some c => exact young_upd _ _ (fun _ => ⟨rfl, rfl⟩) (young_upd _ _ (fun st => by unfold Store.delByPhone; split <;> exact ⟨rfl, rfl⟩) (young_upd _ _ (fun _ => ⟨rfl, rfl⟩)
            (young_upd _ _ (fun _ => ⟨rfl, rfl⟩) trivial)))
      · trivial
    show (progCheck q).KeepsYoung p T
    refine young_get _ _ fun o => ?_
    cases o with
    | none => exact young_upd _ _ (fun _ => ⟨rfl, rfl⟩) trivial
    | some r =>
      refine young_read _ _ fun s => ?_
      split
      · exact exp _ _ _ (young_put _ _ _ (fun _ _ => ⟨rfl, rfl, .inl rfl⟩) (young_upd _ _ (fun _ => ⟨rfl, rfl⟩) trivial)) (clear r)
      · exact clear r
  | msg c h m =>
    have gone : ∀ (r : Ref) (next : Prog), next.KeepsYoung p T → (Prog.upd (fun st => st.cancelJob (st.heap r).phone) <|
        .upd (fun st => st.delByPhone (st.heap r).phone) next).KeepsYoung p T := fun r next hn =>
      young_upd _ _ (fun _ => ⟨rfl, rfl⟩) (young_upd _ _ (fun st => by unfold Store.delByPhone; split <;> exact ⟨rfl, rfl⟩) hn)
    cases m with
    | m0002 =>
      show (prog0002 h).KeepsYoung p T
      refine young_get _ _ fun o => ?_
      cases o with
      | none => trivial
      | some r => exact young_put _ _ _ (fun _ _ => ⟨rfl, rfl, .inr rfl⟩) (young_upd _ _ (fun _ => ⟨rfl, rfl⟩) trivial)
    | m0003 =>
      show (prog0003 h).KeepsYoung p T
      refine young_get _ _ fun o => ?_
      cases o with
      | none => trivial
      | some r => exact gone r _ trivial
    | m0100 m =>
      show (prog0100 c h m).KeepsYoung p T
      refine young_read _ _ fun b => ?_
      split
      · trivial
      refine young_read _ _ fun b => ?_
      split
      · trivial
      refine fun clk st => ⟨fun ht hy y hr hp => ?_, young_upd _ _ (fun _ => ⟨rfl, rfl⟩) (young_get _ _ fun o => ?_)⟩
      · by_cases hlt : y < st.next
        · have : (st.alloc (Device.new clk c h m)).1.heap y = st.heap y := by
            simp only [Store.alloc]; rw [if_neg (Nat.ne_of_lt hlt)]
          rw [this] at hp ⊢
          exact hy y hlt hp
        · have hr' : y = st.next := Nat.le_antisymm (Nat.le_of_lt_succ hr) (Nat.not_lt.1 hlt)
          subst hr'
          simp only [Store.alloc, if_true]
          exact ⟨ht, rfl⟩
      · cases o with
        | none => trivial
        | some r => exact young_upd _ _ (fun _ => ⟨rfl, rfl⟩) trivial
    | m0102 m =>
      show (prog0102 h m).KeepsYoung p T
      refine young_get _ _ fun o => ?_
      cases o with
      | none => trivial
      | some r =>
        refine young_read _ _ fun code => ?_
        split
        · exact gone r _ trivial
        · exact young_put _ _ _ (fun _ _ => ⟨rfl, rfl, .inl rfl⟩) (young_put _ _ _ (fun _ _ => ⟨rfl, rfl, .inr rfl⟩)
            (young_put _ _ _ (fun _ _ => ⟨rfl, rfl, .inl rfl⟩) (young_put _ _ _ (fun _ _ => ⟨rfl, rfl, .inl rfl⟩)
              (young_put _ _ _ (fun _ _ => ⟨rfl, rfl, .inl rfl⟩) (young_upd _ _ (fun _ => ⟨rfl, rfl⟩) trivial)))))
    | m0200 m =>
      show (prog0200 h m).KeepsYoung p T
      refine young_get _ _ fun o => ?_
      cases o with
      | none => trivial
      | some r =>
        refine young_read _ _ fun dg => ?_
        split
        · exact young_put _ _ _ (fun _ _ => ⟨rfl, rfl, .inl rfl⟩) (young_put _ _ _ (fun _ _ => ⟨rfl, rfl, .inr rfl⟩)
            (young_upd _ _ (fun _ => ⟨rfl, rfl⟩) (young_geo _ _ _)))
        · exact young_geo _ _ _
    | m8001 m =>
      show (prog8001 h m).KeepsYoung p T
      unfold prog8001
      split
      · refine young_get _ _ fun o => ?_
        cases o with
        | none => trivial
        | some r =>
          refine young_read _ _ fun s => ?_
          split
          · trivial
          · exact young_put _ _ _ (fun _ _ => ⟨rfl, rfl, .inl rfl⟩) (young_put _ _ _ (fun _ _ => ⟨rfl, rfl, .inr rfl⟩)
              (young_upd _ _ (fun _ => ⟨rfl, rfl⟩) trivial))
      · trivial
    | m8100 m =>
      show (prog8100 h m).KeepsYoung p T
      refine young_get _ _ fun o => ?_
      cases o with
      | none => trivial
      | some r => exact young_read _ _ fun _ => young_read _ _ fun _ => trivial
    | m8103 m =>
      show (prog8103 h m).KeepsYoung p T
      exact young_read _ _ fun _ => young_upd _ _ (fun _ => ⟨rfl, rfl⟩) trivial
    | m8104 =>
      show (prog8104 env h).KeepsYoung p T
      obtain ⟨q, j, e⟩ := fixedDecode_ok env h.phone
      refine young_read _ _ fun o => ?_
      cases o with
      | some p => trivial
      | none =>
        simp only [e]
        exact young_upd _ _ (fun _ => ⟨rfl, rfl⟩) trivial
    | _ => trivial

/-- Nothing recorded of the phone gets older than the run. -/
theorem young_run (evs : List (Nat × Clock)) (s : LSys) (hs : ∀ (i : Nat) (l : Line) t q, s.ls[i]? = some l →
    l.cur = some (t, q) → q.KeepsYoung p T) (hy : Young p T s.st) (ht : ∀ e ∈ evs, T ≤ e.2.ms) : Young p T (s.run env evs).st := by
  induction evs generalizing s with
  | nil => exact hy
  | cons e evs ih =>
    have key : Young p T (s.step env e).st ∧ ∀ (i : Nat) (l : Line) t q, (s.step env e).ls[i]? = some l →
        l.cur = some (t, q) → q.KeepsYoung p T := by
      unfold LSys.step
      cases hi : s.ls[e.1]? with
      | none => exact ⟨hy, hs⟩
      | some y =>
        have hn : Young p T (y.next env e.2 s.st).1 ∧ ∀ t q, (y.next env e.2 s.st).2.cur = some (t, q) → q.KeepsYoung p T := by
          have hs := hs e.1 y
          obtain ⟨conn, todo, input, recv, cur, done, output, ended⟩ := y
          unfold Line.next
          split
          · exact ⟨hy, fun t q => hs t q hi⟩
          split
          · rename_i hc
            have hc : cur = some _ := hc
            subst hc
            have := hs _ _ hi rfl e.2 s.st
            exact ⟨this.1 (ht e List.mem_cons_self) hy, fun t q hq => by cases hq; exact this.2⟩
          · exact ⟨hy, fun t q hq => by cases hq⟩
          · rename_i hc
            have hc : cur = none := hc
            subst hc
            split
            · exact ⟨hy, fun t q hq => by cases hq; exact task_young env _⟩
            split
            · exact ⟨hy, fun t q hq => by cases hq⟩
            split
            · exact ⟨hy, fun t q hq => by cases hq⟩
            split
            · exact ⟨hy, fun t q hq => by cases hq⟩
            · exact ⟨hy, fun t q hq => by cases hq⟩
            · exact ⟨hy, fun t q hq => by cases hq; exact task_young env _⟩
        refine ⟨hn.1, fun i l t q hl hq => ?_⟩
        rcases getset hi hl with ⟨rfl, rfl⟩ | ⟨-, hx⟩
        · exact hn.2 t q hq
        · exact hs i l t q hx hq
    exact ih (s.step env e) key.2 key.1 fun e' he => ht e' (List.mem_cons_of_mem _ he)

end JT808
