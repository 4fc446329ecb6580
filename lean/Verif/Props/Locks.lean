import Verif.Model.Locks
/-
C104: nobody waits for somebody else's peer.
-/
namespace JT808.Locks

/-! ## The discipline -/

/-- The order in which mutexes are taken. -/
def rank : Mutex → Nat
  | .server => 0
  | .sessions => 1
  | .devices => 1
  | .geos => 1
  | .params => 1
  | .segments => 1

/-- With `held` (the last one taken first), the rest of a goroutine takes mutexes in order, releases them in reverse and
holds none at the network and at the end. -/
def Proper : List Mutex → List Op → Prop
  | held, [] => held = []
  | held, .net :: rest => held = [] ∧ Proper [] rest
  | held, .lock m :: rest => (∀ x ∈ held, rank x < rank m) ∧ Proper (m :: held) rest
  | held, .unlock m :: rest => ∃ h, held = m :: h ∧ Proper h rest

theorem Proper.append {a b : List Op} (hb : Proper [] b) : ∀ {held : List Mutex}, Proper held a → Proper held (a ++ b) := by
  induction a with
  | nil => intro held h; have h : held = [] := h; subst h; exact hb
  | cons o a ih =>
    intro held h
    cases o with
    | net => exact ⟨h.1, ih h.2⟩
    | lock m => exact ⟨h.1, ih h.2⟩
    | unlock m => obtain ⟨g, h1, h2⟩ := h; exact ⟨g, h1, ih h2⟩

theorem proper_nil : Proper [] [] := rfl

theorem proper_method (m : Mutex) : Proper [] (method m) := ⟨by simp, [], rfl, rfl⟩

theorem proper_if {c : Bool} {a b : List Op} (ha : Proper [] a) (hb : Proper [] b) : Proper [] (if c then a else b) := by
  cases c
  · exact hb
  · exact ha

theorem proper_net {a : List Op} (h : Proper [] a) : Proper [] (.net :: a) := ⟨rfl, h⟩

theorem proper_remove : Proper [] remove :=
  ⟨by simp, by intro x hx; rw [List.mem_singleton.1 hx]; decide, [.server], rfl, [], rfl, rfl⟩

theorem proper_handling (h : Handling) : Proper [] h.ops := by
  have d := proper_method .devices
  have p := proper_method .params
  cases h <;> simp only [Handling.ops]
  case ignored => exact proper_nil
  case fragment => exact Proper.append (proper_if (proper_method _) proper_nil) d
  case m0002 => exact Proper.append (proper_if d proper_nil) d
  case m0003 => exact Proper.append (proper_if d proper_nil) d
  case m0100 => exact Proper.append (proper_if proper_nil (Proper.append (proper_if proper_nil (Proper.append d d)) d)) d
  case m0102 => exact Proper.append (proper_if d proper_nil) d
  case m0200 =>
    exact Proper.append (proper_if (Proper.append (proper_method _) (proper_if d proper_nil)) proper_nil) d
  case m8001 => exact proper_if (Proper.append (proper_if d proper_nil) d) proper_nil
  case m8100 => exact d
  case m8103 => exact Proper.append p p
  case m8104 => exact Proper.append (proper_if proper_nil p) p

theorem proper_frame (f : Bool) (h : Handling) (a : Bool) : Proper [] (frame f h a) :=
  proper_net (Proper.append (proper_if (proper_net proper_nil) proper_nil)
    (Proper.append (proper_handling h) (proper_if (proper_method _) proper_nil)))

theorem proper_send (found closed : Bool) : Proper [] (send found closed) :=
  Proper.append (proper_if (proper_net (proper_if proper_remove proper_nil)) proper_nil) (proper_method _)

theorem proper_piece (p : Piece) : Proper [] p.ops := by
  have d := proper_method .devices
  cases p with
  | accepting => exact proper_net proper_remove
  | pass f h a => exact proper_frame f h a
  | ending o =>
    cases o with
    | none => exact proper_net proper_remove
    | some x => exact Proper.append proper_remove (proper_frame _ _ _)
  | check c =>
    cases c
    · exact d
    · exact Proper.append d d
    · exact Proper.append (proper_method _) (Proper.append d d)
  | httpList => exact proper_net (proper_net proper_nil)
  | httpGeo known =>
    exact proper_net (Proper.append (proper_net proper_nil) (Proper.append (proper_if (proper_method _) proper_nil) d))
  | httpParams known session found closed =>
    exact proper_net (Proper.append (proper_net proper_nil)
      (Proper.append (proper_if (Proper.append (proper_if (proper_send _ _) proper_nil) (proper_method _)) proper_nil) d))

theorem proper_pieces (ps : List Piece) : Proper [] (ps.flatMap Piece.ops) := by
  induction ps with
  | nil => exact proper_nil
  | cons p ps ih => exact Proper.append ih (proper_piece p)

/-! ## The invariant -/

structure Inv (s : State) (held : Nat → List Mutex) : Prop where
  proper : ∀ i, Proper (held i) (s.todo i)
  holder : ∀ m i, s.holder m = some i ↔ m ∈ held i

theorem Proper.nodup : ∀ {ops : List Op} {held : List Mutex}, Proper held ops → held ≠ [] → ∃ o rest, ops = o :: rest ∧ o ≠ .net := by
  intro ops held h hn
  cases ops with
  | nil => exact absurd h hn
  | cons o rest =>
    refine ⟨o, rest, rfl, ?_⟩
    rintro rfl
    exact hn h.1

theorem Inv.disjoint {s : State} {held : Nat → List Mutex} (h : Inv s held) {m : Mutex} {i j : Nat} (hi : m ∈ held i)
    (hj : m ∈ held j) : i = j := by
  have a := (h.holder m i).2 hi
  have b := (h.holder m j).2 hj
  rw [a] at b; injection b

/-- A step changes what the goroutine holds and nothing else. -/
theorem Inv.step {s : State} {held : Nat → List Mutex} (h : Inv s held) (hnd : ∀ i, (held i).Nodup) (i : Nat) :
    ∃ held', Inv (s.step i) held' ∧ (∀ i, (held' i).Nodup) ∧ ∀ j, j ≠ i → held' j = held j := by
  have hp := h.proper i
  unfold State.step
  cases ht : s.todo i with
  | nil => exact ⟨held, h, hnd, fun _ _ => rfl⟩
  | cons o rest =>
    rw [ht] at hp
    cases o with
    | net =>
      refine ⟨held, ⟨fun j => ?_, h.holder⟩, hnd, fun _ _ => rfl⟩
      by_cases hj : j = i
      · subst hj; simp only [if_true]; rw [hp.1]; exact hp.2
      · simp only [hj, if_false]; exact h.proper j
    | lock m =>
      dsimp only
      by_cases hf : s.holder m = none
      · rw [if_pos hf]
        refine ⟨fun j => if j = i then m :: held i else held j, ⟨fun j => ?_, fun n j => ?_⟩, fun j => ?_, fun j hj => ?_⟩
        · by_cases hj : j = i
          · simp only [hj, if_true]; exact hp.2
          · simp only [hj, if_false]; exact h.proper j
        · dsimp only
          by_cases hj : j = i
          · subst hj
            by_cases hn : n = m
            · simp [hn]
            · simp only [hn, if_false, if_true, List.mem_cons, false_or]; exact h.holder n j
          · by_cases hn : n = m
            · subst hn
              simp only [if_true, hj, if_false]
              constructor
              · intro e; injection e with e; exact absurd e.symm hj
              · intro e
                have := (h.holder n j).2 e
                rw [hf] at this; cases this
            · simp only [hn, if_false, hj]; exact h.holder n j
        · dsimp only
          by_cases hj : j = i
          · simp only [hj, if_true]
            refine List.nodup_cons.2 ⟨fun hm => ?_, hnd i⟩
            have := (h.holder m i).2 hm
            rw [hf] at this; cases this
          · simp only [hj, if_false]; exact hnd j
        · simp [hj]
      · rw [if_neg hf]; exact ⟨held, h, hnd, fun _ _ => rfl⟩
    | unlock m =>
      obtain ⟨g, hg, hr⟩ := hp
      have hm : m ∈ held i := by rw [hg]; simp
      have hgn : m ∉ g ∧ g.Nodup := by have := hnd i; rw [hg] at this; exact List.nodup_cons.1 this
      refine ⟨fun j => if j = i then g else held j, ⟨fun j => ?_, fun n j => ?_⟩, fun j => ?_, fun j hj => ?_⟩
      · by_cases hj : j = i
        · simp only [hj, if_true]; exact hr
        · simp only [hj, if_false]; exact h.proper j
      · dsimp only
        by_cases hj : j = i
        · subst hj
          by_cases hn : n = m
          · subst hn; simp [hgn.1]
          · simp only [hn, if_false, if_true]
            rw [h.holder n j, hg]; simp [hn]
        · by_cases hn : n = m
          · subst hn
            simp only [if_true, hj, if_false]
            constructor
            · intro e; cases e
            · intro e; exact absurd (h.disjoint e hm) hj
          · simp only [hn, if_false, hj]; exact h.holder n j
      · dsimp only
        by_cases hj : j = i
        · simp only [hj, if_true]; exact hgn.2
        · simp only [hj, if_false]; exact hnd j
      · simp [hj]

theorem step_other (s : State) (i j : Nat) (hj : j ≠ i) : (s.step i).todo j = s.todo j := by
  unfold State.step
  cases ht : s.todo i with
  | nil => rfl
  | cons o rest =>
    cases o with
    | net => simp [hj]
    | lock m => dsimp only; split <;> simp [hj]
    | unlock m => simp [hj]

theorem start_inv (pieces : Nat → List Piece) : Inv (State.start pieces) fun _ => [] :=
  ⟨fun i => proper_pieces (pieces i), fun m i => by simp [State.start]⟩

theorem run_inv {s : State} {held : Nat → List Mutex} (h : Inv s held) (hnd : ∀ i, (held i).Nodup) (order : List Nat) :
    ∃ held', Inv (s.run order) held' ∧ ∀ i, (held' i).Nodup := by
  induction order generalizing s held with
  | nil => exact ⟨held, h, hnd⟩
  | cons i order ih =>
    obtain ⟨held', h1, h2, -⟩ := h.step hnd i
    exact ih h1 h2

/-! ## Without the network -/

/-- None of the steps is an operation on the network. -/
def State.offline (s : State) : List Nat → Prop
  | [] => True
  | i :: order => (∀ rest, s.todo i ≠ .net :: rest) ∧ (s.step i).offline order

theorem offline_append {s : State} {a b : List Nat} (ha : s.offline a) (hb : (s.run a).offline b) : s.offline (a ++ b) := by
  induction a generalizing s with
  | nil => exact hb
  | cons i a ih => exact ⟨ha.1, ih ha.2 hb⟩

theorem run_append (s : State) (a b : List Nat) : s.run (a ++ b) = (s.run a).run b := List.foldl_append ..

/-- Whoever holds a mutex can be brought to release it, by steps of goroutines that hold mutexes of at least its rank. -/
theorem release (k : Nat) : ∀ (n : Nat) (s : State) (held : Nat → List Mutex) (m : Mutex) (j : Nat), Inv s held →
    (∀ i, (held i).Nodup) → 1 ≤ k + rank m → (s.todo j).length = n → m ∈ held j →
    ∃ order held', s.offline order ∧ Inv (s.run order) held' ∧ (∀ i, (held' i).Nodup) ∧ (s.run order).holder m = none ∧
      ∀ i, (∀ x ∈ held i, rank x < rank m) → (s.run order).todo i = s.todo i ∧ held' i = held i := by
  induction k with
  | zero =>
    -- mutexes of the highest rank: their holders take no other
    intro n
    induction n with
    | zero =>
      intro s held m j h hnd hk hl hm
      obtain ⟨o, rest, ho, -⟩ := (h.proper j).nodup (List.ne_nil_of_mem hm)
      rw [ho] at hl; cases hl
    | succ n ih =>
      intro s held m j h hnd hk hl hm
      obtain ⟨o, rest, ho, hne⟩ := (h.proper j).nodup (List.ne_nil_of_mem hm)
      have hp := h.proper j
      rw [ho] at hp hl
      obtain ⟨held', h1, h2, h3⟩ := h.step hnd j
      have hoff : ∀ r, s.todo j ≠ .net :: r := by intro r hr; rw [ho] at hr; injection hr with hr; exact hne hr
      cases o with
      | net => exact absurd rfl hne
      | lock m' =>
        have := hp.1 m hm
        have hm' : rank m' ≤ 1 := by cases m' <;> decide
        omega
      | unlock m' =>
        obtain ⟨g, hg, hr⟩ := hp
        by_cases hmm : m' = m
        · subst hmm
          refine ⟨[j], held', ⟨hoff, trivial⟩, h1, h2, ?_, fun i hi => ?_⟩
          · show (s.step j).holder m' = none
            unfold State.step; rw [ho]; simp
          · have hij : i ≠ j := by rintro rfl; exact absurd (hi m' hm) (Nat.lt_irrefl _)
            exact ⟨step_other s j i hij, h3 i hij⟩
        · have hmj : m ∈ held' j := by
            have hx := (h.holder m j).2 hm
            refine (h1.holder m j).1 ?_
            unfold State.step; rw [ho]; simp only [Ne.symm hmm, if_false]; exact hx
          have htodo : (s.step j).todo j = rest := by unfold State.step; rw [ho]; simp
          obtain ⟨order, held'', a1, a2, a3, a4, a5⟩ := ih (s.step j) held' m j h1 h2 hk (by
            rw [htodo]; exact Nat.succ.inj hl) hmj
          refine ⟨j :: order, held'', ⟨hoff, a1⟩, a2, a3, a4, fun i hi => ?_⟩
          have hij : i ≠ j := by rintro rfl; exact absurd (hi m hm) (Nat.lt_irrefl _)
          have := a5 i (by rw [h3 i hij]; exact hi)
          exact ⟨this.1.trans (step_other s j i hij), this.2.trans (h3 i hij)⟩
  | succ k ihk =>
    intro n
    induction n with
    | zero =>
      intro s held m j h hnd hk hl hm
      obtain ⟨o, rest, ho, -⟩ := (h.proper j).nodup (List.ne_nil_of_mem hm)
      rw [ho] at hl; cases hl
    | succ n ih =>
      intro s held m j h hnd hk hl hm
      obtain ⟨o, rest, ho, hne⟩ := (h.proper j).nodup (List.ne_nil_of_mem hm)
      have hp := h.proper j
      rw [ho] at hp hl
      have hoff : ∀ r, s.todo j ≠ .net :: r := by intro r hr; rw [ho] at hr; injection hr with hr; exact hne hr
      -- after a step of `j` that keeps `m`, go on with a shorter rest
      have go : ∀ (t : State) (hd : Nat → List Mutex), Inv t hd → (∀ i, (hd i).Nodup) → t.todo j = s.todo j → m ∈ hd j →
          (t.step j).todo j = rest → (∀ r, t.todo j ≠ .net :: r) → (t.step j).holder m = some j →
          ∃ order held', t.offline order ∧ Inv (t.run order) held' ∧ (∀ i, (held' i).Nodup) ∧ (t.run order).holder m = none ∧
            ∀ i, (∀ x ∈ hd i, rank x < rank m) → (t.run order).todo i = t.todo i ∧ held' i = hd i := by
        intro t hd b1 b2 b3 b4 b5 b6 b7
        obtain ⟨held', h1, h2, h3⟩ := b1.step b2 j
        obtain ⟨order, held'', a1, a2, a3, a4, a5⟩ := ih (t.step j) held' m j h1 h2 hk (by
          rw [b5]; exact Nat.succ.inj hl) ((h1.holder m j).1 b7)
        refine ⟨j :: order, held'', ⟨b6, a1⟩, a2, a3, a4, fun i hi => ?_⟩
        have hij : i ≠ j := by rintro rfl; exact absurd (hi m b4) (Nat.lt_irrefl _)
        have := a5 i (by rw [h3 i hij]; exact hi)
        exact ⟨this.1.trans (step_other t j i hij), this.2.trans (h3 i hij)⟩
      cases o with
      | net => exact absurd rfl hne
      | unlock m' =>
        by_cases hmm : m' = m
        · subst hmm
          obtain ⟨held', h1, h2, h3⟩ := h.step hnd j
          refine ⟨[j], held', ⟨hoff, trivial⟩, h1, h2, ?_, fun i hi => ?_⟩
          · show (s.step j).holder m' = none
            unfold State.step; rw [ho]; simp
          · have hij : i ≠ j := by rintro rfl; exact absurd (hi m' hm) (Nat.lt_irrefl _)
            exact ⟨step_other s j i hij, h3 i hij⟩
        · refine go s held h hnd rfl hm ?_ hoff ?_
          · unfold State.step; rw [ho]; simp
          · unfold State.step; rw [ho]; simp only [Ne.symm hmm, if_false]; exact (h.holder m j).2 hm
      | lock m' =>
        have hlt := hp.1 m hm
        have hmm : m ≠ m' := by rintro rfl; exact absurd hlt (Nat.lt_irrefl _)
        cases hh : s.holder m' with
        | none =>
          refine go s held h hnd rfl hm ?_ hoff ?_
          · unfold State.step; rw [ho]; simp [hh]
          · unfold State.step; rw [ho]; simp only [hh, if_true, hmm, if_false]; exact (h.holder m j).2 hm
        | some j' =>
          -- first have `m'` released; `j` is not touched by that
          obtain ⟨o1, hd1, a1, a2, a3, a4, a5⟩ := ihk _ s held m' j' h hnd (by omega) rfl ((h.holder m' j').1 hh)
          have hj := a5 j hp.1
          have hmj : m ∈ hd1 j := by rw [hj.2]; exact hm
          obtain ⟨o2, hd2, b1, b2, b3, b4, b5⟩ := go (s.run o1) hd1 a2 a3 hj.1 hmj (by
              unfold State.step; rw [hj.1, ho]; simp [a4]) (by rw [hj.1]; exact hoff) (by
              unfold State.step; rw [hj.1, ho]; simp only [a4, if_true, hmm, if_false]; exact (a2.holder m j).2 hmj)
          refine ⟨o1 ++ o2, hd2, offline_append a1 b1, ?_, b3, ?_, fun i hi => ?_⟩
          · rw [run_append]; exact b2
          · rw [run_append]; exact b4
          · have e1 := a5 i (fun x hx => Nat.lt_trans (hi x hx) hlt)
            have e2 := b5 i (by rw [e1.2]; exact hi)
            rw [run_append]
            exact ⟨e2.1.trans e1.1, e2.2.trans e1.2⟩

/-! ## C104 -/

/-- Nobody waits for somebody else's peer.  Whatever the goroutines of the server are doing (any number of connections in
any state, accepting, keepalive checks, HTTP requests) and however their steps were interleaved: each goroutine can go on
to its next operation on the network, or to its end, without any other operation on the network being finished. -/
theorem C104_never_held_up (pieces : Nat → List Piece) (order : List Nat) (i : Nat) :
    ∃ more, ((State.start pieces).run order).offline more ∧
      let s := (State.start pieces).run (order ++ more)
      s.todo i = [] ∨ ∃ rest, s.todo i = .net :: rest := by
  obtain ⟨held, h, hnd⟩ := run_inv (start_inv pieces) (fun _ => List.nodup_nil) order
  have key : ∀ (n : Nat) (s : State) (held : Nat → List Mutex), Inv s held → (∀ i, (held i).Nodup) → (s.todo i).length = n →
      ∃ more, s.offline more ∧ ((s.run more).todo i = [] ∨ ∃ rest, (s.run more).todo i = .net :: rest) := by
    intro n
    induction n with
    | zero => intro s held _ _ hl; exact ⟨[], trivial, .inl (List.length_eq_zero_iff.1 hl)⟩
    | succ n ih =>
      intro s held h hnd hl
      cases ht : s.todo i with
      | nil => exact ⟨[], trivial, .inl ht⟩
      | cons o rest =>
        rw [ht] at hl
        cases o with
        | net => exact ⟨[], trivial, .inr ⟨rest, ht⟩⟩
        | unlock m =>
          obtain ⟨held', h1, h2, -⟩ := h.step hnd i
          obtain ⟨more, a1, a2⟩ := ih (s.step i) held' h1 h2 (by
            unfold State.step; rw [ht]; simpa using hl)
          exact ⟨i :: more, ⟨(by intro r hr; rw [ht] at hr; injection hr with hr; cases hr), a1⟩, a2⟩
        | lock m =>
          have go : ∀ (t : State) (hd : Nat → List Mutex), Inv t hd → (∀ i, (hd i).Nodup) → t.todo i = .lock m :: rest →
              t.holder m = none →
              ∃ more, t.offline more ∧ ((t.run more).todo i = [] ∨ ∃ rest, (t.run more).todo i = .net :: rest) := by
            intro t hd b1 b2 b3 b4
            obtain ⟨held', h1, h2, -⟩ := b1.step b2 i
            obtain ⟨more, a1, a2⟩ := ih (t.step i) held' h1 h2 (by
              unfold State.step; rw [b3]; simpa [b4] using hl)
            exact ⟨i :: more, ⟨(by intro r hr; rw [b3] at hr; injection hr with hr; cases hr), a1⟩, a2⟩
          cases hh : s.holder m with
          | none => exact go s held h hnd ht hh
          | some j =>
            obtain ⟨o1, hd1, a1, a2, a3, a4, a5⟩ := release 1 _ s held m j h hnd (by omega) rfl ((h.holder m j).1 hh)
            have hp := h.proper i
            rw [ht] at hp
            have hi := a5 i hp.1
            obtain ⟨more, b1, b2⟩ := go (s.run o1) hd1 a2 a3 (hi.1.trans ht) a4
            exact ⟨o1 ++ more, offline_append a1 b1, by rw [run_append]; exact b2⟩
  obtain ⟨more, a1, a2⟩ := key _ _ held h hnd rfl
  refine ⟨more, a1, ?_⟩
  dsimp only
  rw [run_append]; exact a2

/-- In particular a goroutine that waits for its peer, however long, holds no mutex. -/
theorem C104_nothing_held_at_network (pieces : Nat → List Piece) (order : List Nat) (i : Nat) (rest : List Op)
    (hn : ((State.start pieces).run order).todo i = .net :: rest) (m : Mutex) :
    ((State.start pieces).run order).holder m ≠ some i := by
  obtain ⟨held, h, -⟩ := run_inv (start_inv pieces) (fun _ => List.nodup_nil) order
  intro hx
  have hp := h.proper i
  rw [hn] at hp
  have := (h.holder m i).1 hx
  rw [hp.1] at this
  cases this

/-- There is no deadlock: as long as a goroutine is neither at the network nor at its end, some goroutine that is not at
the network either can go on. -/
theorem C104_no_deadlock (pieces : Nat → List Piece) (order : List Nat) (i : Nat) (o : Op) (rest : List Op)
    (hi : ((State.start pieces).run order).todo i = o :: rest) (ho : o ≠ .net) :
    ∃ j p r, ((State.start pieces).run order).todo j = p :: r ∧ p ≠ .net ∧
      (((State.start pieces).run order).step j).todo j = r := by
  obtain ⟨held, h, hnd⟩ := run_inv (start_inv pieces) (fun _ => List.nodup_nil) order
  generalize (State.start pieces).run order = s at *
  -- the goroutine itself, or the end of a chain of at most two holders
  have step1 : ∀ (j : Nat) (p : Op) (r : List Op), s.todo j = p :: r → p ≠ .net → (∀ m, p = .lock m → s.holder m = none) →
      (s.step j).todo j = r := by
    intro j p r hj hp hm
    unfold State.step
    rw [hj]
    cases p with
    | net => exact absurd rfl hp
    | unlock m => simp
    | lock m => simp [hm m rfl]
  have chain : ∀ (k : Nat) (j : Nat) (p : Op) (r : List Op), s.todo j = p :: r → p ≠ .net →
      (∀ m, p = .lock m → 2 ≤ k + rank m) →
      ∃ j p r, s.todo j = p :: r ∧ p ≠ .net ∧ (s.step j).todo j = r := by
    intro k
    induction k with
    | zero =>
      intro j p r hj hp hk
      refine ⟨j, p, r, hj, hp, step1 j p r hj hp ?_⟩
      intro m hm
      have := hk m hm
      have hr : rank m ≤ 1 := by cases m <;> decide
      omega
    | succ k ih =>
      intro j p r hj hp hk
      by_cases hfree : ∀ m, p = .lock m → s.holder m = none
      · exact ⟨j, p, r, hj, hp, step1 j p r hj hp hfree⟩
      · have hex : ∃ m, p = .lock m ∧ s.holder m ≠ none := by
          cases p with
          | net => exact absurd rfl hp
          | unlock m => exact absurd (fun m' hm' => by cases hm') hfree
          | lock m => exact ⟨m, rfl, fun hx => hfree (fun m' hm' => by injection hm' with hm'; rw [← hm']; exact hx)⟩
        obtain ⟨m, rfl, hx⟩ := hex
        cases hh : s.holder m with
        | none => exact absurd hh hx
        | some j' =>
          have hm := (h.holder m j').1 hh
          obtain ⟨o', r', ho', hne⟩ := (h.proper j').nodup (List.ne_nil_of_mem hm)
          refine ih j' o' r' ho' hne ?_
          rintro m' rfl
          have hp' := h.proper j'
          rw [ho'] at hp'
          have h1 := hp'.1 m hm
          have h2 := hk m rfl
          omega
  exact chain 2 i o rest hi ho (fun m _ => by omega)

/-! A connection being accepted holds the server's mutex and waits for that of the sessions, which an HTTP request holds;
another connection is writing to a terminal that does not read, a third wants to end. -/

def busy : Nat → List Piece
  | 0 => [.accepting]
  | 1 => [.httpParams true true true false]
  | 2 => [.pass false (.m0002 true) true]
  | 3 => [.ending none]
  | _ => []

example : let s := (State.start busy).run [0, 0, 1, 1, 1, 1, 0, 2, 2, 2, 2, 2, 3, 3]
    s.holder .server = some 0 ∧ s.holder .sessions = some 1 ∧ s.todo 0 = [.lock .sessions, .unlock .sessions, .unlock .server] ∧
    s.todo 2 = [.net] ∧ (s.todo 3).head? = some (.lock .server) := by decide
-- the steps that let the third go on, while the second still writes
example : let s := (State.start busy).run ([0, 0, 1, 1, 1, 1, 0, 2, 2, 2, 2, 2, 3, 3] ++ [1, 0, 0, 0, 3, 3, 3, 3])
    s.todo 3 = [] ∧ s.todo 2 = [.net] := by decide

end JT808.Locks
