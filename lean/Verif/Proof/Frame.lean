import Verif.Proof.Demo
/-
What an effect of one phone leaves alone.
-/
namespace JT808

/-- Everything stored about phone `p` is the same in both stores. -/
structure SameFor (p : Str) (st st' : Store) : Prop where
  look : st'.look p = st.look p
  geos : st'.geos.get p = st.geos.get p
  params : st'.params.get p = st.params.get p
  jobs : st'.jobs.count p = st.jobs.count p

theorem SameFor.refl (p : Str) (st : Store) : SameFor p st st := ⟨rfl, rfl, rfl, rfl⟩

theorem SameFor.trans {p : Str} {a b c : Store} (h : SameFor p a b) (h' : SameFor p b c) : SameFor p a c :=
  ⟨h'.look.trans h.look, h'.geos.trans h.geos, h'.params.trans h.params, h'.jobs.trans h.jobs⟩

theorem SameDev.look {st st' : Store} (h : SameDev st st') (p : Str) : st'.look p = st.look p := by
  unfold Store.look Store.devByPhone; rw [h.byPhone, h.heap]

theorem SameDev.lookPlate {st st' : Store} (h : SameDev st st') (p : Str) : st'.lookPlate p = st.lookPlate p := by
  unfold Store.lookPlate Store.devByPlate; rw [h.byPlate, h.heap]

theorem count_filter_ne {l : List Str} {p p' : Str} (h : p' ≠ p) : (l.filter (· ≠ p)).count p' = l.count p' := by
  rw [List.count_filter]; simpa using h

theorem drop_other {st : Store} (h : StoreInv st) {p p' : Str} {r : Ref} (hr : st.byPhone.get p = some r)
    (hne : p' ≠ p) : SameFor p' st ((st.cancelJob p).delByPhone p) := by
  have hd := Store.delByPhone_eq (st := st.cancelJob p) hr (h.phoneOK _ _ hr).2.1
  refine ⟨by rw [look_drop h hr, if_neg hne], by rw [hd]; rfl, by rw [hd]; rfl, ?_⟩
  rw [hd]; exact count_filter_ne hne

theorem Eff.other {p p' : Str} {c : Conn} {st st' : Store} (e : Eff p c st st') (h : StoreInv st) (hne : p' ≠ p) :
    SameFor p' st st' := by
  induction e with
  | quiet hs hg hq => exact ⟨hs.look _, by rw [hg], by rw [hq], by rw [hs.jobs]⟩
  | touch hr hs => exact ⟨by rw [look_setDev h hr, if_neg hne], rfl, rfl, rfl⟩
  | drop hr => exact drop_other h hr hne
  | @reg st d h1 h2 h3 _ _ h4 h5 =>
    refine ⟨by rw [look_register h, if_neg (by rw [h1]; exact hne)], rfl, rfl, ?_⟩
    simp only [Store.register, List.count_append]
    rw [h1]
    have : List.count p' [p] = 0 := by
      rw [List.count_eq_zero]; simpa using hne
    rw [this]; rfl
  | geo hr =>
    refine ⟨rfl, ?_, rfl, rfl⟩
    simp only
    rw [AMap.get_set_ne _ _ hne]
  | params hq _ =>
    refine ⟨rfl, rfl, ?_, rfl⟩
    simp only
    rw [AMap.get_set_ne _ _ hne]
  | trans e1 e2 ih1 ih2 =>
    have h1 := ih1 h
    have h2 := ih2 (e1.inv h)
    exact ⟨h2.look.trans h1.look, h2.geos.trans h1.geos, h2.params.trans h1.params, h2.jobs.trans h1.jobs⟩

theorem check_other {clk : Clock} {st : Store} (h : StoreInv st) {p p' : Str} (hj : p ∈ st.jobs) (hne : p' ≠ p) :
    SameFor p' st (st.check clk p).1 := by
  obtain ⟨r, hr⟩ := Option.isSome_iff_exists.1 ((h.jobs p).1 hj)
  obtain ⟨cn, -, h2⟩ := check_registered (clk := clk) h hr
  rw [h2]
  simp only
  by_cases h1 : (st.heap r).shouldTurnOffline clk.ms = true
  · rw [if_pos h1]
    exact ⟨by rw [look_setDev h hr, if_neg hne], rfl, rfl, rfl⟩
  · rw [if_neg h1]
    by_cases h3 : (st.heap r).shouldClear clk.ms = true
    · rw [if_pos h3, clear_eq]
      have h4 : StoreInv (st.closeConn cn) := h.of_same ⟨rfl, rfl, rfl, rfl, rfl⟩ h.rings h.params
      have h5 := drop_other h4 (p' := p') (r := r) hr hne
      refine ⟨h5.look, ?_, h5.params, h5.jobs⟩
      simp only [Store.delGeo]
      rw [AMap.get_del_ne _ hne]
      exact h5.geos
    · rw [if_neg h3]; exact SameFor.refl _ _

/-- The phone a frame speaks for. -/
def framePhone (env : Env) (frame : List UInt8) : Option Str :=
  match decodeFrame env frame with
  | .ok pd => some pd.header.phone
  | _ => none

theorem serveFrame_other {env : Env} {clk : Clock} {c : Conn} {werr : Option Err} {st : Store} (h : StoreInv st)
    (frame : List UInt8) (p' : Str) (hne : framePhone env frame ≠ some p') :
    SameFor p' st (st.serveFrame env clk c werr frame).1 := by
  cases hd : decodeFrame env frame with
  | ok pd =>
    have h1 := serveFrame_eff (env := env) (clk := clk) (c := c) (werr := werr) h frame pd.header.phone
      (fun pd' h' => by rw [hd] at h'; injection h' with h'; rw [h'])
    refine h1.other h ?_
    intro hx; apply hne; unfold framePhone; rw [hd, hx]
  | err e =>
    exact (serveFrame_eff (env := env) (clk := clk) (c := c) (werr := werr) h frame (p' ++ [0])
      (fun pd' h' => by rw [hd] at h'; cases h')).other h (by intro hx; have := congrArg List.length hx; simp at this)
  | panic =>
    exact (serveFrame_eff (env := env) (clk := clk) (c := c) (werr := werr) h frame (p' ++ [0])
      (fun pd' h' => by rw [hd] at h'; cases h')).other h (by intro hx; have := congrArg List.length hx; simp at this)

/-- An event that concerns a phone. -/
def Ev.concerns (env : Env) (p : Str) : Ev → Prop
  | .frame _ _ bytes _ => framePhone env bytes = some p
  | .check _ phone => phone = p
  | .httpGeo phone => phone = p
  | _ => False

theorem apiGeo_same {st : Store} (h : StoreInv st) (phone : Str) :
    SameDev st (st.apiGeo phone).1 ∧ (st.apiGeo phone).1.params = st.params ∧
    ∀ p, p ≠ phone → (st.apiGeo phone).1.geos.get p = st.geos.get p := by
  unfold Store.apiGeo
  cases st.devByPhone phone with
  | none => exact ⟨SameDev.refl _, rfl, fun _ _ => rfl⟩
  | some r =>
    simp only
    obtain ⟨h1, -, -⟩ := Store.geoRing_ok h.rings phone
    obtain ⟨v, hv⟩ := h1.latest
    have key : SameDev st (st.geoRing phone).1 ∧ (st.geoRing phone).1.params = st.params ∧
        ∀ p, p ≠ phone → (st.geoRing phone).1.geos.get p = st.geos.get p := by
      unfold Store.geoRing
      cases st.geos.get phone with
      | some rb => exact ⟨SameDev.refl _, rfl, fun _ _ => rfl⟩
      | none => exact ⟨⟨rfl, rfl, rfl, rfl, rfl⟩, rfl, fun p hp => AMap.get_set_ne _ _ hp⟩
    unfold Store.geoLatest
    simp only [hv]
    cases v <;> exact key

theorem step_other (env : Env) (s : Sys) (e : Ev) (h : StoreInv s.st) (p : Str) (hc : ¬ e.concerns env p) :
    SameFor p s.st (s.step env e).1.st := by
  unfold Sys.step
  by_cases hcr : s.crashed = true
  · rw [if_pos hcr]; exact SameFor.refl _ _
  · rw [if_neg hcr]
    have hq : ∀ st', (∀ q c, Eff q c s.st st') → SameFor p s.st st' := fun st' he =>
      (he (p ++ [0]) ⟨0, []⟩).other h (by intro hx; have := congrArg List.length hx; simp at this)
    cases e with
    | accept addr => exact ⟨rfl, rfl, rfl, rfl⟩
    | frame clk c bytes werr =>
      simp only
      by_cases hl : c ∈ s.live
      · rw [if_pos hl]; exact serveFrame_other h bytes p hc
      · rw [if_neg hl]; exact SameFor.refl _ _
    | readErr c e =>
      simp only
      by_cases hl : c ∈ s.live
      · rw [if_pos hl]
        unfold Store.serveErr
        by_cases he : e.endsServe = true
        · rw [if_pos he]; exact ⟨rfl, rfl, rfl, rfl⟩
        · rw [if_neg he]; exact SameFor.refl _ _
      · rw [if_neg hl]; exact SameFor.refl _ _
    | check clk phone =>
      simp only
      by_cases hj : phone ∈ s.st.jobs
      · rw [if_pos hj]; exact check_other h hj (fun hx => hc hx.symm)
      · rw [if_neg hj]; exact SameFor.refl _ _
    | httpList => exact SameFor.refl _ _
    | httpGeo phone =>
      obtain ⟨h1, h2, h3⟩ := apiGeo_same h phone
      exact ⟨h1.look _, h3 _ (fun hx => hc hx.symm), by rw [h2], by rw [h1.jobs]⟩
    | httpQuery phone werr => exact hq _ fun q c => apiQuery_quiet q c s.st phone
    | httpSet phone bound bad werr => exact hq _ fun q c => apiSet_quiet q c s.st phone bound bad

theorem run_other (env : Env) (evs : List Ev) (s : Sys) (h : StoreInv s.st) (p : Str)
    (hc : ∀ e ∈ evs, ¬ e.concerns env p) : SameFor p s.st (s.run env evs).1.st := by
  induction evs generalizing s with
  | nil => exact SameFor.refl _ _
  | cons e evs ih =>
    have h1 := step_other env s e h p (hc e (by simp))
    have h2 := ih (s.step env e).1 (step_inv env s e h).1 (fun e' he => hc e' (by simp [he]))
    exact h1.trans h2

theorem run_append (env : Env) (a b : List Ev) (s : Sys) :
    (s.run env (a ++ b)).1 = ((s.run env a).1.run env b).1 := by
  induction a generalizing s with
  | nil => rfl
  | cons e a ih =>
    simp only [List.cons_append, Sys.run]
    exact ih _

end JT808
