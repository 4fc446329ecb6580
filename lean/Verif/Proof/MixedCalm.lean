import Verif.Proof.MixedAwake
/-
For C174: the keepalive checks of a terminal that is not silent change nothing, also if others send fragments and there are requests.
-/
namespace JT808
open Spec

variable {env : Env} {p : Str}

/-- What holds of a goroutine at all times. -/
def Line.Secure (env : Env) (st : Store) (l : Line) : Prop :=
  ∀ t q, l.cur = some (t, q) → q.Safe (t.Post env) t.Makes t.phone st

theorem Line.Secure.mono {st st' : Store} {l : Line} (h : l.Secure env st) (hg : Grows st st') : l.Secure env st' :=
  fun t q hq => (h t q hq).mono hg

theorem frag_secure {clk : Clock} {st : Store} {l : Line} (hi : CInv st) (hf : l.Secure env st) :
    let r := l.nextFrag env clk st
    CInv r.1 ∧ Grows st r.1 ∧ r.2.Secure env r.1 := by
  rcases frag_cases (env := env) (clk := clk) (st := st) l with ⟨-, -, h⟩ | ⟨-, -, ha, -, -, t, hc⟩ | ⟨ha, hc, -, -⟩
  · simp only [h]
    exact next_sound (env := env) (clk := clk) hi hf
  · refine ⟨hi.alike ha, ha.grows, fun t' q hq => ?_⟩
    rw [hc] at hq
    cases hq
    exact task_safe env _ _
  · refine ⟨hi.alike ha, ha.grows, fun t q hq => ?_⟩
    rw [hc] at hq
    exact (hf t q hq).mono ha.grows

/-- The goroutines from `L` on are checks of the phone that have not done anything. -/
structure MixSys.Calm (env : Env) (p : Str) (L : Nat) (s : MixSys) : Prop where
  inv : CInv s.st
  line : ∀ (i : Nat) l, s.ls[i]? = some l → l.Secure env s.st
  idle : ∀ (i : Nat) l, L ≤ i → s.ls[i]? = some l → l.Idles p s.st

theorem MixSys.Calm.alike {L : Nat} {s s1 : MixSys} (h : s.Calm env p L) (ha : s.st.Alike s1.st) (hl : s1.ls = s.ls) :
    s1.Calm env p L :=
  ⟨h.inv.alike ha, fun i l hi => by rw [hl] at hi; exact (h.line i l hi).mono ha.grows,
    fun i l hL hi => by rw [hl] at hi; exact (h.idle i l hL hi).mono ha.grows⟩

theorem calm_step {L : Nat} {s : MixSys} (h : s.Calm env p L) (e : MixEv)
    (ht : ∀ i clk, e = .step i clk → L ≤ i → Awake p clk s.st) :
    (∃ (i : Nat) (l : Line), L ≤ i ∧ (s.step env e).ls[i]? = some l ∧ l.Panicked) ∨
      ((s.step env e).Calm env p L ∧ (s.part L).step env e = (s.step env e).part L) := by
  cases e with
  | accept c => exact .inr ⟨h.alike (alike_session _ _) rfl, rfl⟩
  | gone c => exact .inr ⟨h.alike (alike_remove _ _) rfl, rfl⟩
  | request q => exact .inr ⟨h.alike (.refl _) rfl, rfl⟩
  | go i w =>
    right
    cases hq : s.reqs[i]? with
    | none =>
      have e1 : s.step env (.go i w) = s := by simp only [MixSys.step, hq]
      have e2 : (s.part L).step env (.go i w) = s.part L := by
        simp only [MixSys.step, MixSys.part, hq]
      rw [e1, e2]
      exact ⟨h, rfl⟩
    | some x =>
      obtain ⟨q, pc⟩ := x
      refine ⟨?_, ?_⟩
      · simp only [MixSys.step, hq]
        exact h.alike (next_alike _ _ _ _ _) rfl
      · simp only [MixSys.step, MixSys.part, hq]
  | step i clk =>
    have t2 := ht i clk rfl
    cases hl : s.ls[i]? with
    | none =>
      have e1 : s.step env (.step i clk) = s := by simp only [MixSys.step, hl]
      have e2 : (s.part L).step env (.step i clk) = s.part L := by
        have : (s.ls.take L)[i]? = none := by
          rw [List.getElem?_eq_none_iff] at hl ⊢
          rw [List.length_take]; omega
        simp only [MixSys.step, MixSys.part, this]
      rw [e1, e2]
      exact .inr ⟨h, rfl⟩
    | some l =>
      have hlt := (List.getElem?_eq_some_iff.1 hl).1
      have e1 : s.step env (.step i clk) = { s with st := (l.nextFrag env clk s.st).1, ls := s.ls.set i (l.nextFrag env clk s.st).2 } := by
        simp only [MixSys.step, hl]
      obtain ⟨f1, f3, f4⟩ := frag_secure (env := env) (clk := clk) h.inv (h.line i l hl)
      have hline : ∀ (k : Nat) m, (s.ls.set i (l.nextFrag env clk s.st).2)[k]? = some m → m.Secure env (l.nextFrag env clk s.st).1 := by
        intro k m hm
        rcases getset hl hm with ⟨rfl, rfl⟩ | ⟨-, hm⟩
        · exact f4
        · exact (h.line k m hm).mono f3
      by_cases hL : i < L
      · right
        have e2 : (s.part L).step env (.step i clk) = (s.step env (.step i clk)).part L := by
          have : (s.ls.take L)[i]? = some l := by rw [List.getElem?_take_of_lt hL]; exact hl
          rw [e1]
          simp only [MixSys.step, MixSys.part, this, List.take_set]
        refine ⟨?_, e2⟩
        rw [e1]
        refine ⟨f1, hline, fun k m hk hm => ?_⟩
        have hm : (s.ls.set i (l.nextFrag env clk s.st).2)[k]? = some m := hm
        rw [List.getElem?_set_ne (by omega)] at hm
        exact (h.idle k m hk hm).mono f3
      · have hid := h.idle i l (Nat.not_lt.1 hL) hl
        rcases next_idles (env := env) (clk := clk) h.inv (t2 (Nat.not_lt.1 hL)) hid with a | ⟨a, b⟩
        · refine .inl ⟨i, (l.nextFrag env clk s.st).2, Nat.not_lt.1 hL, ?_, by rw [frag_idle hid.1]; exact a⟩
          rw [e1]
          exact List.getElem?_set_self hlt
        · rw [← frag_idle hid.1] at a b
          right
          have e2 : (s.part L).step env (.step i clk) = (s.step env (.step i clk)).part L := by
            have : (s.ls.take L)[i]? = none := by
              rw [List.getElem?_eq_none_iff, List.length_take]; omega
            rw [e1]
            simp only [MixSys.step, MixSys.part, this, a]
            rw [List.take_set_of_le (Nat.not_lt.1 hL)]
          refine ⟨?_, e2⟩
          rw [e1]
          refine ⟨f1, hline, fun k m hk hm => ?_⟩
          have hm : (s.ls.set i (l.nextFrag env clk s.st).2)[k]? = some m := hm
          rcases getset hl hm with ⟨rfl, rfl⟩ | ⟨-, hm⟩
          · exact b.mono f3
          · exact (h.idle k m hk hm).mono f3

theorem calm_run {L : Nat} (evs : List MixEv) {s : MixSys} (h : s.Calm env p L)
    (ht : ∀ pre i clk post, evs = pre ++ .step i clk :: post → L ≤ i → Awake p clk (s.run env pre).st) :
    (∃ (i : Nat) (l : Line), L ≤ i ∧ (s.run env evs).ls[i]? = some l ∧ l.Panicked) ∨
      ((s.run env evs).Calm env p L ∧ (s.part L).run env evs = (s.run env evs).part L) := by
  induction evs generalizing s with
  | nil => exact .inr ⟨h, rfl⟩
  | cons e evs ih =>
    rcases calm_step h e (fun i clk he => ht [] i clk evs (by rw [he]; rfl)) with ⟨i, l, h1, h2, h3⟩ | ⟨a, b⟩
    · left
      have hlt : i < ((s.step env e).run env evs).ls.length := by rw [mix_length]; exact (List.getElem?_eq_some_iff.1 h2).1
      refine ⟨i, _, h1, List.getElem?_eq_getElem hlt, ?_⟩
      refine mix_ls (env := env) (P := fun k l' => k = i → l'.Panicked) (fun k clk st l' h e => frag_panicked (h e)) evs _ ?_ i _
        (List.getElem?_eq_getElem hlt) rfl
      rintro k l' hk rfl
      rw [h2] at hk
      cases hk
      exact h3
    · rcases ih a (fun pre i clk post he => ht (e :: pre) i clk post (by rw [he]; rfl)) with c | ⟨c, d⟩
      · exact .inl c
      · refine .inr ⟨c, ?_⟩
        show ((s.part L).step env e).run env evs = _
        rw [b]
        exact d

end JT808
