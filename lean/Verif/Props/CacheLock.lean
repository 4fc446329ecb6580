import Verif.Model.CacheLock
/-
C90: the device cache under concurrent calls.
-/
namespace JT808.CacheLock

/-- The calls other than ListDevice. -/
def Method.locks : Method → Bool
  | .list _ => false
  | _ => true

/-- Where a goroutine is: outside the mutex, inside it, or inside it and writing to a map. -/
inductive Phase where
  | out | within | writing (w : Which)
deriving DecidableEq

/-- What a goroutine that is in the given phase still does is proper use of the mutex. -/
def proper : Phase → List Op → Bool
  | .out, [] => true
  | .out, .lock :: l => proper .within l
  | .within, .unlock :: l => proper .out l
  | .within, .read _ :: l => proper .within l
  | .within, .enter w :: l => proper (.writing w) l
  | .writing w, .leave v :: l => decide (v = w) && proper .within l
  | _, _ => false

theorem proper_calls : ∀ ms : List Method, (∀ m ∈ ms, m.locks = true) → proper .out (ms.flatMap Method.ops) = true := by
  intro ms
  induction ms with
  | nil => intro _; rfl
  | cons m ms ih =>
    intro h
    have h1 := h m (by simp)
    have h2 := ih fun m' h' => h m' (by simp [h'])
    rw [List.flatMap_cons]
    cases m with
    | list n => cases h1
    | delByPlate f => cases f <;> simpa [Method.ops, write, proper] using h2
    | delByPhone f => cases f <;> simpa [Method.ops, write, proper] using h2
    | _ => simpa [Method.ops, write, proper] using h2

/-- At most one goroutine is inside the mutex, and the marks are its marks. -/
structure Inv (s : State) (ph : Nat → Phase) : Prop where
  fine : s.fatal = false
  proper : ∀ i, proper (ph i) (s.todo i) = true
  one : ∀ i j, ph i ≠ .out → ph j ≠ .out → i = j
  locked : s.locked = true ↔ ∃ i, ph i ≠ .out
  marked : ∀ w, s.marked w = true ↔ ∃ i, ph i = .writing w

theorem Inv.step {s : State} {ph : Nat → Phase} (h : Inv s ph) (i : Nat) : ∃ ph', Inv (s.step i) ph' := by
  unfold State.step
  split
  · exact ⟨ph, h⟩
  · next hr =>
    have hr' : s.ready i = true := by rw [h.fine] at hr; simpa using hr
    have hpi := h.proper i
    unfold State.ready at hr'
    -- the new phases: only that of `i` changes
    have others : ∀ (rest : List Op) (p : Phase), JT808.CacheLock.proper p rest = true →
        ∀ j, JT808.CacheLock.proper (if j = i then p else ph j) (if j = i then rest else s.todo j) = true := by
      intro rest p hp j
      by_cases e : j = i
      · simp [e, hp]
      · simp [e, h.proper j]
    split
    · exact ⟨ph, h⟩
    · next op rest ht =>
      rw [ht] at hpi hr'
      -- what is known when `i` is inside
      have alone : ph i ≠ .out → ∀ j, j ≠ i → ph j = .out := by
        intro hi j hj
        cases hx : ph j with
        | out => rfl
        | _ => exact absurd (h.one j i (by rw [hx]; simp) hi) hj
      cases op with
      | lock =>
        have hfree : ∀ j, ph j = .out := by
          intro j
          have : ¬ ∃ i, ph i ≠ .out := by rw [← h.locked]; simpa using hr'
          by_cases e : ph j = .out
          · exact e
          · exact absurd ⟨j, e⟩ this
        rw [hfree i] at hpi
        refine ⟨fun j => if j = i then .within else ph j, h.fine, others rest .within hpi, ?_, ?_, ?_⟩
        · intro a b ha hb
          have f : ∀ x, (if x = i then Phase.within else ph x) ≠ .out → x = i := by
            intro x hx; by_cases e : x = i
            · exact e
            · rw [if_neg e] at hx; exact absurd (hfree x) hx
          rw [f a ha, f b hb]
        · exact ⟨fun _ => ⟨i, by simp⟩, fun _ => rfl⟩
        · intro w
          show s.marked w = true ↔ _
          rw [h.marked]
          constructor
          · rintro ⟨j, hj⟩; rw [hfree j] at hj; cases hj
          · rintro ⟨j, hj⟩
            by_cases e : j = i
            · simp [e] at hj
            · simp [e] at hj; exact ⟨j, hj⟩
      | unlock =>
        have hin : ph i = .within := by
          cases hx : ph i <;> rw [hx] at hpi <;> first | rfl | (simp [JT808.CacheLock.proper] at hpi)
        have al := alone (by rw [hin]; simp)
        rw [hin] at hpi
        have hall : ∀ j, (if j = i then Phase.out else ph j) = .out := by
          intro j; by_cases e : j = i
          · simp [e]
          · simp [e, al j e]
        refine ⟨fun j => if j = i then .out else ph j, h.fine, others rest .out hpi, ?_, ?_, ?_⟩
        · intro a b ha; exact absurd (hall a) ha
        · exact ⟨fun e => by simp at e, fun ⟨j, hj⟩ => absurd (hall j) hj⟩
        · intro w
          show s.marked w = true ↔ _
          rw [h.marked]
          constructor
          · rintro ⟨j, hj⟩
            by_cases e : j = i
            · rw [e, hin] at hj; cases hj
            · rw [al j e] at hj; cases hj
          · rintro ⟨j, hj⟩
            have := hall j
            rw [hj] at this; cases this
      | read w =>
        have hin : ph i = .within := by
          cases hx : ph i <;> rw [hx] at hpi <;> first | rfl | (simp [JT808.CacheLock.proper] at hpi)
        have al := alone (by rw [hin]; simp)
        have hm : s.marked w = false := by
          cases hb : s.marked w with
          | false => rfl
          | true =>
            obtain ⟨j, hj⟩ := (h.marked w).1 hb
            by_cases e : j = i
            · rw [e, hin] at hj; cases hj
            · rw [al j e] at hj; cases hj
        simp only [hm]
        have hpi' : JT808.CacheLock.proper (ph i) rest = true := by rw [hin] at hpi ⊢; exact hpi
        refine ⟨ph, h.fine, ?_, h.one, h.locked, h.marked⟩
        intro j
        by_cases e : j = i
        · subst e; simpa using hpi'
        · simpa [e] using h.proper j
      | iter w =>
        cases hx : ph i <;> rw [hx] at hpi <;> simp [JT808.CacheLock.proper] at hpi
      | enter w =>
        have hin : ph i = .within := by
          cases hx : ph i <;> rw [hx] at hpi <;> first | rfl | (simp [JT808.CacheLock.proper] at hpi)
        have al := alone (by rw [hin]; simp)
        have hm : ∀ v, s.marked v = false := by
          intro v
          cases hb : s.marked v with
          | false => rfl
          | true =>
            obtain ⟨j, hj⟩ := (h.marked v).1 hb
            by_cases e : j = i
            · rw [e, hin] at hj; cases hj
            · rw [al j e] at hj; cases hj
        simp only [hm]
        rw [hin] at hpi
        refine ⟨fun j => if j = i then .writing w else ph j, h.fine, others rest (.writing w) hpi, ?_, ?_, ?_⟩
        · intro a b ha hb
          have f : ∀ x, (if x = i then Phase.writing w else ph x) ≠ .out → x = i := by
            intro x hx; by_cases e : x = i
            · exact e
            · rw [if_neg e] at hx; exact absurd (al x e) hx
          rw [f a ha, f b hb]
        · show s.locked = true ↔ _
          rw [h.locked]
          exact ⟨fun _ => ⟨i, by simp⟩, fun _ => ⟨i, by rw [hin]; simp⟩⟩
        · intro v
          show (if v = w then true else false) = true ↔ _
          constructor
          · intro hv
            refine ⟨i, ?_⟩
            by_cases e : v = w
            · simp [e]
            · simp [e] at hv
          · rintro ⟨j, hj⟩
            by_cases e : j = i
            · simp [e] at hj; simp [hj]
            · simp [e, al j e] at hj
      | leave w =>
        have hin : ph i = .writing w ∧ JT808.CacheLock.proper .within rest = true := by
          cases hx : ph i <;> rw [hx] at hpi <;> simp [JT808.CacheLock.proper] at hpi
          exact ⟨by rw [hpi.1], hpi.2⟩
        have al := alone (by rw [hin.1]; simp)
        refine ⟨fun j => if j = i then .within else ph j, h.fine, others rest .within hin.2, ?_, ?_, ?_⟩
        · intro a b ha hb
          have f : ∀ x, (if x = i then Phase.within else ph x) ≠ .out → x = i := by
            intro x hx; by_cases e : x = i
            · exact e
            · rw [if_neg e] at hx; exact absurd (al x e) hx
          rw [f a ha, f b hb]
        · show s.locked = true ↔ _
          rw [h.locked]
          exact ⟨fun _ => ⟨i, by simp⟩, fun _ => ⟨i, by rw [hin.1]; simp⟩⟩
        · intro v
          show (if v = w then false else s.marked v) = true ↔ _
          constructor
          · intro hv
            by_cases e : v = w
            · simp [e] at hv
            · rw [if_neg e] at hv
              obtain ⟨j, hj⟩ := (h.marked v).1 hv
              by_cases e' : j = i
              · rw [e', hin.1] at hj; cases hj; exact absurd rfl e
              · rw [al j e'] at hj; cases hj
          · rintro ⟨j, hj⟩
            by_cases e : j = i
            · simp [e] at hj
            · simp [e, al j e] at hj

theorem Inv.run {s : State} {ph : Nat → Phase} (h : Inv s ph) (order : List Nat) : ∃ ph', Inv (s.run order) ph' := by
  induction order generalizing s ph with
  | nil => exact ⟨ph, h⟩
  | cons i order ih =>
    obtain ⟨ph', h'⟩ := h.step i
    exact ih h'

theorem start_inv (calls : Nat → List Method) (hc : ∀ i, ∀ m ∈ calls i, m.locks = true) :
    Inv (State.start calls) (fun _ => .out) where
  fine := rfl
  proper i := proper_calls _ (hc i)
  one _ _ ha := absurd rfl ha
  locked := ⟨fun e => (nomatch e), fun ⟨_, h⟩ => absurd rfl h⟩
  marked _ := ⟨fun e => (nomatch e), fun ⟨_, h⟩ => nomatch h⟩

/-- What holds of C90: any number of concurrent calls of any methods except ListDevice never end the process, and as
long as somebody has something left to do somebody can go on.  Missing: calls of ListDevice (C90_listing_is_fatal). -/
theorem C90_locked_methods_partial (calls : Nat → List Method) (hc : ∀ i, ∀ m ∈ calls i, m.locks = true)
    (order : List Nat) :
    ((State.start calls).run order).fatal = false ∧
    ∀ i, ((State.start calls).run order).todo i ≠ [] → ∃ j, ((State.start calls).run order).ready j = true := by
  obtain ⟨ph, h⟩ := (start_inv calls hc).run order
  refine ⟨h.fine, fun i hi => ?_⟩
  by_cases hl : ((State.start calls).run order).locked = true
  · obtain ⟨j, hj⟩ := h.locked.1 hl
    refine ⟨j, ?_⟩
    have hp := h.proper j
    unfold State.ready
    cases ht : ((State.start calls).run order).todo j with
    | nil => rw [ht] at hp; cases hx : ph j <;> rw [hx] at hp hj <;> first | (exact absurd rfl hj) | (simp [proper] at hp)
    | cons op rest =>
      cases op with
      | lock => rw [ht] at hp; cases hx : ph j <;> rw [hx] at hp hj <;> first | (exact absurd rfl hj) | (simp [proper] at hp)
      | _ => rfl
  · refine ⟨i, ?_⟩
    unfold State.ready
    cases ht : ((State.start calls).run order).todo i with
    | nil => exact absurd ht hi
    | cons op rest =>
      cases op with
      | lock => simpa using hl
      | _ => rfl

/-- Reading alone is harmless: lookups and listings without registrations or deletions never end the process. -/
theorem C90_read_only_partial (calls : Nat → List Method)
    (hc : ∀ i, ∀ m ∈ calls i, (∃ n, m = .list n) ∨ m = .getByPlate ∨ m = .getByPhone ∨ m = .hasPlate ∨ m = .hasPhone ∨
      m = .delByPlate false ∨ m = .delByPhone false) (order : List Nat) :
    ((State.start calls).run order).fatal = false := by
  have key : ∀ s : State, s.fatal = false → (∀ w, s.marked w = false) → (∀ i w, Op.enter w ∉ s.todo i) →
      (s.run order).fatal = false := by
    induction order with
    | nil => intro s h _ _; exact h
    | cons i order ih =>
      intro s h1 h2 h3
      have : (s.step i).fatal = false ∧ (∀ w, (s.step i).marked w = false) ∧ (∀ j w, Op.enter w ∉ (s.step i).todo j) := by
        unfold State.step
        split
        · exact ⟨h1, h2, h3⟩
        · split
          · exact ⟨h1, h2, h3⟩
          · next op rest ht =>
            have hs : ∀ j w, Op.enter w ∉ (if j = i then rest else s.todo j) := by
              intro j w
              by_cases e : j = i
              · have := h3 i w; rw [ht] at this; simp [e]; intro hx; exact this (by simp [hx])
              · simp [e, h3 j w]
            cases op with
            | lock => exact ⟨h1, h2, hs⟩
            | unlock => exact ⟨h1, h2, hs⟩
            | read w => simp only [h2]; exact ⟨h1, h2, hs⟩
            | iter w => simp only [h2]; exact ⟨h1, h2, hs⟩
            | enter w => exact absurd (by rw [ht]; simp) (h3 i w)
            | leave w =>
              refine ⟨h1, fun v => ?_, hs⟩
              show (if v = w then false else s.marked v) = false
              rw [h2]; simp
      exact ih _ this.1 this.2.1 this.2.2
  refine key _ rfl (fun _ => rfl) ?_
  intro i w hx
  obtain ⟨m, hm, ho⟩ := List.mem_flatMap.1 hx
  rcases hc i m hm with ⟨n, rfl⟩ | rfl | rfl | rfl | rfl | rfl | rfl <;>
    simp [Method.ops, List.mem_replicate] at ho

/-- The opposite of C90: whoever else is calling whatever, when the mutex is free, one goroutine is about to cache a device
(every heartbeat does) and another is about to list the devices, there is an order in which the process ends. -/
theorem C90_listing_is_fatal (s : State) (i j : Nat) (hij : i ≠ j) (ri rj : List Op) (n : Nat)
    (hi : s.todo i = Method.cache.ops ++ ri) (hj : s.todo j = (Method.list n).ops ++ rj)
    (hf : s.fatal = false) (hl : s.locked = false) (hm : ∀ w, s.marked w = false) :
    (s.run [i, i, i, i, j]).fatal = true := by
  have hji : j ≠ i := fun e => hij e.symm
  have hi' : s.todo i = .lock :: .enter .plate :: .leave .plate :: .enter .phone :: .leave .phone :: .unlock :: ri := hi
  have hj' : s.todo j = .iter .phone :: (List.replicate n (.iter .phone) ++ rj) := by
    rw [hj]; simp [Method.ops, List.replicate_succ]
  simp only [State.run, List.foldl_cons, List.foldl_nil]
  simp [State.step, State.ready, hi', hj', hf, hl, hm, hji]

/-! The server of a listing and of a heartbeat: most orders are fine, one is fatal. -/

example : ((State.start fun i => if i = 0 then [.getByPhone, .cache] else if i = 1 then [.list 3] else []).run
    [0, 0, 0, 1, 0, 1, 0, 0, 1]).fatal = false := by decide
example : ((State.start fun i => if i = 0 then [.getByPhone, .cache] else if i = 1 then [.list 3] else []).run
    [0, 0, 0, 1, 0, 1, 0, 0, 0, 1]).fatal = true := by decide
-- two registrations and a deletion, one waiting for the other
example : let s := (State.start fun i => if i = 0 then [.hasPlate, .hasPhone, .cache] else if i = 1 then [.delByPhone true]
      else []).run [0, 0, 0, 1, 0, 0]
    s.fatal = false ∧ s.locked = true ∧ s.ready 0 = false ∧ s.ready 1 = true := by decide

end JT808.CacheLock
