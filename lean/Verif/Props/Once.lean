import Verif.Model.Once
/-
C117: there is one cache of each kind.
-/
namespace JT808.Once

/-- Between taking and releasing the mutex. -/
def Pc.inside : Pc → Bool
  | .held | .make | .spawn | .finish | .unlock => true
  | _ => false

structure Inv (s : State) : Prop where
  owner : ∀ i, (s.pcs i).inside = true ↔ s.owner = some i
  born : ∀ i, s.owner = some i → i < s.n
  done : s.done = true → s.cell = some 0 ∧ s.made = 1
  todo : s.done = false → (∀ i, s.pcs i ≠ .spawn ∧ s.pcs i ≠ .finish) → s.made = 0
  make : ∀ i, s.pcs i = .make → s.done = false
  part : ∀ i, s.pcs i = .spawn ∨ s.pcs i = .finish → s.done = false ∧ s.cell = some 0 ∧ s.made = 1
  over : ∀ i, s.pcs i = .unlock ∨ s.pcs i = .ret → s.done = true
  got : ∀ g ∈ s.got, g.2 = some 0

theorem Inv.start (n : Nat) : Inv (State.start n) := by
  constructor <;> simp [State.start, Pc.inside]

/-- Only one goroutine is between taking and releasing the mutex. -/
theorem Inv.alone {s : State} (h : Inv s) {i j : Nat} (hi : (s.pcs i).inside = true) (hj : (s.pcs j).inside = true) : i = j := by
  have := (h.owner i).1 hi
  rw [(h.owner j).1 hj] at this
  exact (Option.some.inj this).symm

theorem Inv.step {b : Bool} {s s' : State} {i : Nat} (h : Inv s) (hs : s.step b i = some s') : Inv s' := by
  unfold State.step at hs
  by_cases hn : i < s.n
  · rw [if_pos hn] at hs
    cases hp : s.pcs i <;> rw [hp] at hs <;> simp only at hs
    case lock =>
      by_cases ho : s.owner = none
      · rw [if_pos ho] at hs
        injection hs with hs
        subst hs
        have hq : ∀ j, (s.pcs j).inside = false := by
          intro j
          cases hj : (s.pcs j).inside with
          | false => rfl
          | true => have := (h.owner j).1 hj; rw [ho] at this; cases this
        refine ⟨?_, ?_, h.done, ?_, ?_, ?_, ?_, h.got⟩
        · intro j
          by_cases hj : j = i
          · simp [State.at, hj, Pc.inside]
          · simp [State.at, hj, hq j, Ne.symm hj]
        · intro j hj; simp only [State.at] at hj ⊢; injection hj with hj; omega
        · intro hd hx
          refine h.todo hd fun j => ?_
          have := hq j
          constructor <;> intro e <;> rw [e] at this <;> cases this
        · intro j hj
          by_cases hji : j = i <;> simp [State.at, hji] at hj
          exact h.make j hj
        · intro j hj
          by_cases hji : j = i <;> simp [State.at, hji] at hj
          exact h.part j hj
        · intro j hj
          by_cases hji : j = i <;> simp [State.at, hji] at hj
          exact h.over j hj
      · rw [if_neg ho] at hs; cases hs
    all_goals
      injection hs with hs
      subst hs
    case idle =>
      cases hd : s.done with
      | true =>
        refine ⟨?_, h.born, h.done, ?_, ?_, ?_, ?_, h.got⟩
        · intro j
          by_cases hj : j = i
          · have := h.owner i; rw [hp] at this; simpa [State.at, hj, Pc.inside] using this
          · simpa [State.at, hj] using h.owner j
        · intro hd'; simp [State.at, hd] at hd'
        · intro j hj
          by_cases hji : j = i <;> simp [State.at, hji] at hj
          exact h.make j hj
        · intro j hj
          by_cases hji : j = i <;> simp [State.at, hji] at hj
          exact h.part j hj
        · intro j _; exact hd
      | false =>
        refine ⟨?_, h.born, h.done, ?_, ?_, ?_, ?_, h.got⟩
        · intro j
          by_cases hj : j = i
          · have := h.owner i; rw [hp] at this; simpa [State.at, hj, Pc.inside] using this
          · simpa [State.at, hj] using h.owner j
        · intro _ hx
          refine h.todo hd fun j => ?_
          by_cases hj : j = i
          · rw [hj, hp]; simp
          · simpa [State.at, hj] using hx j
        · intro j hj
          by_cases hji : j = i <;> simp [State.at, hji] at hj
          exact h.make j hj
        · intro j hj
          by_cases hji : j = i <;> simp [State.at, hji] at hj
          exact h.part j hj
        · intro j hj
          by_cases hji : j = i <;> simp [State.at, hji] at hj
          exact h.over j hj
    case ret =>
      have hd := h.over i (.inr hp)
      refine ⟨?_, h.born, h.done, ?_, ?_, ?_, ?_, ?_⟩
      · intro j
        by_cases hj : j = i
        · have := h.owner i; rw [hp] at this; simpa [State.at, hj, Pc.inside] using this
        · simpa [State.at, hj] using h.owner j
      · intro hd'; simp [State.at, hd] at hd'
      · intro j hj
        by_cases hji : j = i <;> simp [State.at, hji] at hj
        exact h.make j hj
      · intro j hj
        by_cases hji : j = i <;> simp [State.at, hji] at hj
        exact h.part j hj
      · intro j _; exact hd
      · intro g hg
        rcases List.mem_append.1 hg with hg | hg
        · exact h.got g hg
        · simp only [State.at, List.mem_singleton] at hg; subst hg; exact (h.done hd).1
    all_goals
      have hin : (s.pcs i).inside = true := by rw [hp]; rfl
      have ho := (h.owner i).1 hin
      have hother : ∀ j, j ≠ i → (s.pcs j).inside = false := by
        intro j hj
        cases hx : (s.pcs j).inside with
        | false => rfl
        | true => exact absurd (h.alone hx hin) hj
      have hob : ∀ j, j ≠ i → s.pcs j ≠ .held ∧ s.pcs j ≠ .make ∧ s.pcs j ≠ .spawn ∧ s.pcs j ≠ .finish ∧ s.pcs j ≠ .unlock := by
        intro j hj
        have := hother j hj
        refine ⟨?_, ?_, ?_, ?_, ?_⟩ <;> intro e <;> rw [e] at this <;> cases this
    case held =>
      cases hd : s.done with
      | true =>
        refine ⟨?_, h.born, h.done, ?_, ?_, ?_, ?_, h.got⟩
        · intro j
          by_cases hj : j = i
          · simp [State.at, hj, Pc.inside, ho]
          · simpa [State.at, hj] using h.owner j
        · intro hd'; simp [State.at, hd] at hd'
        · intro j hj
          by_cases hji : j = i <;> simp [State.at, hji] at hj
          exact h.make j hj
        · intro j hj
          by_cases hji : j = i <;> simp [State.at, hji] at hj
          exact h.part j hj
        · intro j _; exact hd
      | false =>
        refine ⟨?_, h.born, h.done, ?_, ?_, ?_, ?_, h.got⟩
        · intro j
          by_cases hj : j = i
          · simp [State.at, hj, Pc.inside, ho]
          · simpa [State.at, hj] using h.owner j
        · intro _ _
          refine h.todo hd fun j => ?_
          by_cases hj : j = i
          · rw [hj, hp]; simp
          · exact ⟨(hob j hj).2.2.1, (hob j hj).2.2.2.1⟩
        · intro j _; exact hd
        · intro j hj
          by_cases hji : j = i <;> simp [State.at, hji] at hj
          exact h.part j hj
        · intro j hj
          by_cases hji : j = i <;> simp [State.at, hji] at hj
          exact h.over j hj
    case make =>
      have hd := h.make i hp
      have hm : s.made = 0 := by
        refine h.todo hd fun j => ?_
        by_cases hj : j = i
        · rw [hj, hp]; simp
        · exact ⟨(hob j hj).2.2.1, (hob j hj).2.2.2.1⟩
      refine ⟨?_, h.born, ?_, ?_, ?_, ?_, ?_, h.got⟩
      · intro j
        by_cases hj : j = i
        · simp [State.at, hj, Pc.inside, ho]
        · simpa [State.at, hj] using h.owner j
      · intro hd'; simp [State.at, hd] at hd'
      · intro _ hx
        have := (hx i).1
        simp [State.at] at this
      · intro j _; exact hd
      · intro j _; exact ⟨hd, by simp [hm], by simp [hm]⟩
      · intro j hj
        by_cases hji : j = i <;> simp [State.at, hji] at hj
        exact h.over j hj
    case spawn =>
      obtain ⟨hd, hc, hm⟩ := h.part i (.inl hp)
      refine ⟨?_, ?_, ?_, ?_, ?_, ?_, ?_, h.got⟩
      · intro j
        by_cases hj : j = i
        · simp [State.at, hj, Pc.inside, ho]
        · simpa [State.at, hj] using h.owner j
      · intro j hj
        have := h.born j hj
        cases b <;> simp [State.at] <;> omega
      · intro hd'; simp [State.at, hd] at hd'
      · intro _ hx
        have := (hx i).2
        simp [State.at] at this
      · intro j _; exact hd
      · intro j _; exact ⟨hd, hc, hm⟩
      · intro j hj
        by_cases hji : j = i <;> simp [State.at, hji] at hj
        exact h.over j hj
    case finish =>
      obtain ⟨hd, hc, hm⟩ := h.part i (.inr hp)
      refine ⟨?_, h.born, fun _ => ⟨hc, hm⟩, ?_, ?_, ?_, fun _ _ => rfl, h.got⟩
      · intro j
        by_cases hj : j = i
        · simp [State.at, hj, Pc.inside, ho]
        · simpa [State.at, hj] using h.owner j
      · intro hd'; cases hd'
      · intro j hj
        by_cases hji : j = i
        · simp [State.at, hji] at hj
        · simp only [State.at, if_neg hji] at hj; exact absurd hj (hob j hji).2.1
      · intro j hj
        by_cases hji : j = i
        · simp [State.at, hji] at hj
        · simp only [State.at, if_neg hji] at hj
          rcases hj with hj | hj
          · exact absurd hj (hob j hji).2.2.1
          · exact absurd hj (hob j hji).2.2.2.1
    case unlock =>
      have hd := h.over i (.inl hp)
      refine ⟨?_, ?_, h.done, ?_, ?_, ?_, fun _ _ => hd, h.got⟩
      · intro j
        by_cases hj : j = i
        · simp [State.at, hj, Pc.inside]
        · simp [State.at, hj, hother j hj]
      · intro j hj; cases hj
      · intro hd'; simp [State.at, hd] at hd'
      · intro j hj
        by_cases hji : j = i <;> simp [State.at, hji] at hj
        exact h.make j hj
      · intro j hj
        by_cases hji : j = i <;> simp [State.at, hji] at hj
        exact h.part j hj
  · rw [if_neg hn] at hs; cases hs

theorem Inv.next {b : Bool} {s : State} (h : Inv s) (e : Ev) : Inv (s.next b e) := by
  cases e with
  | fork => exact ⟨h.owner, fun i hi => Nat.lt_succ_of_lt (h.born i hi), h.done, h.todo, h.make, h.part, h.over, h.got⟩
  | go i =>
    show Inv ((s.step b i).getD s)
    cases hs : s.step b i with
    | none => exact h
    | some s' => exact h.step hs

theorem Inv.run {b : Bool} {s : State} (h : Inv s) (evs : List Ev) : Inv (s.run b evs) := by
  induction evs generalizing s with
  | nil => exact h
  | cons e evs ih => exact ih (h.next e)

/-- However many goroutines call the function and however they take turns: all are handed out the same cache, never nil, and
no second one is made. -/
theorem C117_one (monitors : Bool) (n : Nat) (evs : List Ev) :
    let s := (State.start n).run monitors evs
    s.made ≤ 1 ∧ ∀ g ∈ s.got, g.2 = some 0 := by
  have h := (Inv.start n).run (b := monitors) evs
  refine ⟨?_, h.got⟩
  cases hd : ((State.start n).run monitors evs).done with
  | true => exact Nat.le_of_eq (h.done hd).2
  | false =>
    by_cases hx : ∃ i, ((State.start n).run monitors evs).pcs i = .spawn ∨ ((State.start n).run monitors evs).pcs i = .finish
    · obtain ⟨i, hi⟩ := hx
      exact Nat.le_of_eq (h.part i hi).2.2
    · rw [h.todo hd fun i => ⟨fun e => hx ⟨i, .inl e⟩, fun e => hx ⟨i, .inr e⟩⟩]
      exact Nat.zero_le _

/-- Goroutine `i` can go on alone until it is handed something; the others stay where they are. -/
def Served (b : Bool) (s : State) (i : Nat) : Prop :=
  ∃ k : Nat, ∃ v, let t := s.run b (List.replicate k (.go i))
    t.got = s.got ++ [(i, v)] ∧ t.pcs i = .idle ∧ (∀ j, j ≠ i → t.pcs j = s.pcs j) ∧ s.n ≤ t.n

theorem served_step {b : Bool} {s s' : State} {i : Nat} {pc : Pc} (hs : s.step b i = some s') (h : Served b s' i)
    (hg : s'.got = s.got) (hn : s.n ≤ s'.n) (hp : s'.pcs = (s.at i pc).pcs) : Served b s i := by
  obtain ⟨k, v, h1, h2, h3, h4⟩ := h
  have e : s.run b (List.replicate (k + 1) (.go i)) = s'.run b (List.replicate k (.go i)) := by
    rw [List.replicate_succ]
    unfold State.run
    rw [List.foldl_cons]
    have : State.next b s (.go i) = s' := by simp [State.next, hs]
    rw [this]
  refine ⟨k + 1, v, ?_⟩
  rw [e]
  refine ⟨by rw [h1, hg], h2, ?_, Nat.le_trans hn h4⟩
  intro j hj
  rw [h3 j hj, hp]
  simp [State.at, hj]

theorem served_ret {b : Bool} {s : State} {i : Nat} (hn : i < s.n) (hp : s.pcs i = .ret) : Served b s i := by
  refine ⟨1, s.cell, ?_⟩
  have : s.run b (List.replicate 1 (.go i)) = { s.at i .idle with got := s.got ++ [(i, s.cell)] } := by
    simp [State.run, State.next, State.step, hn, hp]
  rw [this]
  refine ⟨rfl, by simp [State.at], ?_, Nat.le_refl _⟩
  intro j hj
  simp [State.at, hj]

theorem served_inside {b : Bool} {s : State} {i : Nat} (hn : i < s.n) (hp : (s.pcs i).inside = true) : Served b s i := by
  have unl : ∀ {s : State}, i < s.n → s.pcs i = .unlock → Served b s i := by
    intro s hn hp
    exact served_step (s' := { s.at i .ret with owner := none }) (pc := .ret) (by simp [State.step, hn, hp])
      (served_ret (by exact hn) (by simp [State.at])) rfl (Nat.le_refl _) rfl
  have fin : ∀ {s : State}, i < s.n → s.pcs i = .finish → Served b s i := by
    intro s hn hp
    exact served_step (s' := { s.at i .unlock with done := true }) (pc := .unlock) (by simp [State.step, hn, hp])
      (unl (by exact hn) (by simp [State.at])) rfl (Nat.le_refl _) rfl
  have spa : ∀ {s : State}, i < s.n → s.pcs i = .spawn → Served b s i := by
    intro s hn hp
    exact served_step (s' := { s.at i .finish with n := if b then s.n + 1 else s.n }) (pc := .finish)
      (by simp [State.step, hn, hp]) (fin (by cases b <;> simp <;> omega) (by simp [State.at])) rfl
      (by cases b <;> simp) rfl
  have mak : ∀ {s : State}, i < s.n → s.pcs i = .make → Served b s i := by
    intro s hn hp
    exact served_step (s' := { s.at i .spawn with cell := some s.made, made := s.made + 1 }) (pc := .spawn)
      (by simp [State.step, hn, hp]) (spa (by exact hn) (by simp [State.at])) rfl (Nat.le_refl _) rfl
  cases hq : s.pcs i with
  | unlock => exact unl hn hq
  | finish => exact fin hn hq
  | spawn => exact spa hn hq
  | make => exact mak hn hq
  | held =>
    cases hd : s.done with
    | true => exact served_step (s' := s.at i .unlock) (pc := .unlock) (by simp [State.step, hn, hq, hd])
                (unl (by exact hn) (by simp [State.at])) rfl (Nat.le_refl _) rfl
    | false => exact served_step (s' := s.at i .make) (pc := .make) (by simp [State.step, hn, hq, hd])
                (mak (by exact hn) (by simp [State.at])) rfl (Nat.le_refl _) rfl
  | idle => rw [hq] at hp; cases hp
  | lock => rw [hq] at hp; cases hp
  | ret => rw [hq] at hp; cases hp

theorem served_free {b : Bool} {s : State} {i : Nat} (hn : i < s.n) (ho : s.owner = none) : Served b s i := by
  have loc : ∀ {s : State}, i < s.n → s.pcs i = .lock → s.owner = none → Served b s i := by
    intro s hn hp ho
    exact served_step (s' := { s.at i .held with owner := some i }) (pc := .held) (by simp [State.step, hn, hp, ho])
      (served_inside (by exact hn) (by simp [State.at, Pc.inside])) rfl (Nat.le_refl _) rfl
  by_cases hin : (s.pcs i).inside = true
  · exact served_inside hn hin
  · cases hq : s.pcs i with
    | lock => exact loc hn hq ho
    | ret => exact served_ret hn hq
    | idle =>
      cases hd : s.done with
      | true => exact served_step (s' := s.at i .ret) (pc := .ret) (by simp [State.step, hn, hq, hd])
                  (served_ret (by exact hn) (by simp [State.at])) rfl (Nat.le_refl _) rfl
      | false => exact served_step (s' := s.at i .lock) (pc := .lock) (by simp [State.step, hn, hq, hd])
                  (loc (by exact hn) (by simp [State.at]) ho) rfl (Nat.le_refl _) rfl
    | held => rw [hq] at hin; exact absurd rfl hin
    | make => rw [hq] at hin; exact absurd rfl hin
    | spawn => rw [hq] at hin; exact absurd rfl hin
    | finish => rw [hq] at hin; exact absurd rfl hin
    | unlock => rw [hq] at hin; exact absurd rfl hin

theorem run_append (b : Bool) (s : State) (a c : List Ev) : s.run b (a ++ c) = (s.run b a).run b c := by
  simp [State.run, List.foldl_append]

/-- Nobody is ever stuck: whatever happened before, every goroutine that calls the function (the monitor, which the function
itself starts, among them) can still be handed the cache, if those who are in the way go on. -/
theorem C117_not_stuck (monitors : Bool) (n : Nat) (evs : List Ev) (i : Nat)
    (hi : i < ((State.start n).run monitors evs).n) :
    ∃ turns : List Nat, ∃ more,
      ((State.start n).run monitors (evs ++ turns.map .go)).got = ((State.start n).run monitors evs).got ++ more ∧
      (i, some 0) ∈ more := by
  have h := (Inv.start n).run (b := monitors) evs
  have key : ∃ turns : List Nat, ∃ l v, (((State.start n).run monitors evs).run monitors (turns.map .go)).got =
      ((State.start n).run monitors evs).got ++ (l ++ [(i, v)]) := by
    generalize (State.start n).run monitors evs = s at h hi
    have one : ∀ {s : State} {j : Nat}, Served monitors s j → ∃ turns : List Nat, ∃ v,
        (s.run monitors (turns.map .go)).got = s.got ++ [(j, v)] := by
      rintro s j ⟨k, v, h1, -⟩
      refine ⟨List.replicate k j, v, ?_⟩
      rw [List.map_replicate]; exact h1
    cases ho : s.owner with
    | none =>
      obtain ⟨t, v, ht⟩ := one (served_free (b := monitors) hi ho)
      exact ⟨t, [], v, ht⟩
    | some j =>
      by_cases hji : j = i
      · subst hji
        obtain ⟨t, v, ht⟩ := one (served_inside (b := monitors) hi ((h.owner j).2 ho))
        exact ⟨t, [], v, ht⟩
      · obtain ⟨k, w, h1, h2, h3, h4⟩ := served_inside (b := monitors) (h.born j ho) ((h.owner j).2 ho)
        have h' := h.run (b := monitors) (List.replicate k (.go j))
        have ho' : (s.run monitors (List.replicate k (.go j))).owner = none := by
          cases hx : (s.run monitors (List.replicate k (.go j))).owner with
          | none => rfl
          | some j' =>
            exfalso
            have hy := (h'.owner j').2 hx
            by_cases hj : j' = j
            · rw [hj, h2] at hy; cases hy
            · rw [h3 j' hj] at hy
              exact hj (h.alone hy ((h.owner j).2 ho))
        obtain ⟨t, v, ht⟩ := one (served_free (b := monitors) (s := s.run monitors (List.replicate k (.go j)))
          (Nat.lt_of_lt_of_le hi h4) ho')
        refine ⟨List.replicate k j ++ t, [(j, w)], v, ?_⟩
        rw [List.map_append, run_append, List.map_replicate, ht, h1]
        simp
  obtain ⟨t, l, v, ht⟩ := key
  rw [← run_append] at ht
  refine ⟨t, _, ht, ?_⟩
  have hg := (C117_one monitors n (evs ++ t.map .go)).2 (i, v) (by rw [ht]; simp)
  simp only at hg
  subst hg
  simp

/-- Two goroutines and the monitor that the first one starts, taking turns: the second reads `done` before the cache is there and
has to wait; all get the same cache. -/
example : ((State.start 2).run true
    [.go 0, .go 1, .go 0, .go 1, .go 0, .go 0, .go 0, .go 2, .go 1, .go 2, .go 0, .go 0, .go 2, .go 2, .go 1, .go 2, .go 2, .go 0,
     .go 1, .go 1, .go 1, .go 1]).got = [(2, some 0), (0, some 0), (1, some 0)] := by decide +kernel

-- the second one waits
example : ((State.start 2).run true [.go 0, .go 1, .go 0]).step true 1 = none := rfl

end JT808.Once
