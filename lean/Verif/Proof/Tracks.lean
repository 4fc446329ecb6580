import Verif.Proof.History
import Verif.Props.Ring
/-
The location ring of a phone over whole histories.
-/
namespace JT808
open Spec

/-- The ring of a phone, an empty one if there is none yet. -/
def Store.track (st : Store) (p : Str) : Ring DeviceGeo := (st.geos.get p).getD (Ring.new ringCapacity)

/-- In state `s`, event `e` is a location report of the registered phone `p` on a served connection, saying `g`. -/
def Ev.reports (env : Env) (s : Sys) (p : Str) (e : Ev) (g : DeviceGeo) : Prop :=
  ∃ clk c bytes werr h m, e = .frame clk c bytes werr ∧ c ∈ s.live ∧ Delivers env clk.civil s.st bytes h (.m0200 m) ∧
    h.phone = p ∧ (s.st.look p).isSome ∧ g = DeviceGeo.decode clk.civil p m

/-- In state `s`, event `e` is a keepalive check that removes `p`. -/
def Ev.clears (s : Sys) (p : Str) (e : Ev) : Prop :=
  ∃ clk d, e = .check clk p ∧ s.st.look p = some d ∧ d.status = .offline ∧ d.last + 60000 < clk.ms

theorem geos_delByPhone (st : Store) (p : Str) : (st.delByPhone p).geos = st.geos := by
  unfold Store.delByPhone; cases st.byPhone.get p <;> rfl

theorem geos_handle (env : Env) (clk : Clock) (c : Conn) {st : Store} (h : Header) (m : Msg)
    (hn : ∀ q, m = .m0200 q → st.look h.phone = none) : (st.handle env clk c h m).1.geos = st.geos := by
  cases m with
  | m0001 => rfl
  | m0104 => rfl
  | m1205 => rfl
  | m9205 => rfl
  | m0002 => simp only [Store.handle, process0002]; cases st.devByPhone h.phone <;> rfl
  | m0003 =>
    simp only [Store.handle, process0003]
    cases st.devByPhone h.phone with
    | none => rfl
    | some r => exact geos_delByPhone _ _
  | m0100 m =>
    simp only [Store.handle, process0100]
    split
    · rfl
    · split
      · rfl
      · simp only [Store.registerJob]; split <;> rfl
  | m0102 m =>
    simp only [Store.handle, process0102]
    cases st.devByPhone h.phone with
    | none => rfl
    | some r =>
      simp only
      split
      · exact geos_delByPhone _ _
      · rfl
  | m0200 m =>
    have := Store.look_none.1 (hn m rfl)
    simp only [Store.handle, process0200, Store.devByPhone, this]
  | m8001 m =>
    simp only [Store.handle, process8001]
    split
    · cases st.devByPhone h.phone with
      | none => rfl
      | some r => simp only; split <;> rfl
    · rfl
  | m8100 m => simp only [Store.handle, process8100]; cases st.devByPhone h.phone <;> rfl
  | m8103 m => rfl
  | m8104 =>
    simp only [Store.handle, process8104]
    cases st.paramsOf h.phone with
    | some q => rfl
    | none =>
      simp only
      cases fixedDecode env h.phone with
      | ok x => rfl
      | err e => rfl
      | panic => rfl

theorem serveFrame_geos {env : Env} {clk : Clock} {c : Conn} {werr : Option Err} {st : Store} {frame : List UInt8} :
    (st.serveFrame env clk c werr frame).1.geos = (st.handleFrame env clk c frame).1.geos := by
  rcases serveFrame_handle (env := env) (clk := clk) (c := c) (werr := werr) (st := st) (frame := frame) with e | e <;>
    rw [e]
  rfl

/-- A report is written to the ring. -/
theorem step_reports (env : Env) (s : Sys) (e : Ev) (h : StoreInv s.st) (hc : s.crashed = false) (p : Str)
    (g : DeviceGeo) (hr : e.reports env s p g) :
    (s.st.track p).write (some g) = .ok ((s.step env e).1.st.track p) := by
  obtain ⟨clk, c, bytes, werr, hd, m, rfl, hl, hdl, rfl, hk, rfl⟩ := hr
  unfold Sys.step
  rw [if_neg (by rw [hc]; simp)]
  simp only
  rw [if_pos hl]
  simp only
  obtain ⟨d, hd0⟩ := Option.isSome_iff_exists.1 hk
  obtain ⟨r, hr, -⟩ := Store.look_some.1 hd0
  obtain ⟨sg, e1⟩ := hdl.handle c
  have hi' : StoreInv { s.st with segs := sg } := h.of_same ⟨rfl, rfl, rfl, rfl, rfl⟩ h.rings h.params
  obtain ⟨rb', e2, -, e3⟩ := process0200_eq (clk := clk) hi' (hd := hd) hr m
  have e4 : (s.st.serveFrame env clk c werr bytes).1.geos = s.st.geos.set hd.phone rb' := by
    rw [serveFrame_geos, e1, finish_fst]
    simp only [Store.handle]
    rw [e3]
  show (s.st.track hd.phone).write _ = .ok (Store.track (s.st.serveFrame env clk c werr bytes).1 hd.phone)
  have : Store.track (s.st.serveFrame env clk c werr bytes).1 hd.phone = rb' := by
    unfold Store.track; rw [e4, AMap.get_set_self]; rfl
  rw [this]; exact e2

/-- A check that removes the phone removes the ring. -/
theorem step_clears (env : Env) (s : Sys) (e : Ev) (h : StoreInv s.st) (hc : s.crashed = false) (p : Str)
    (hr : e.clears s p) : (s.step env e).1.st.track p = Ring.new ringCapacity := by
  obtain ⟨clk, d, rfl, hd, hst, ht⟩ := hr
  obtain ⟨r, hr, rfl⟩ := Store.look_some.1 hd
  have hj : p ∈ s.st.jobs := (h.jobs p).2 (by rw [hr]; rfl)
  unfold Sys.step
  rw [if_neg (by rw [hc]; simp)]
  simp only
  rw [if_pos hj]
  obtain ⟨cn, hcn, h2⟩ := check_registered (clk := clk) h hr
  have hk := h.keep _ _ hr
  have ht' : clk.ms > 60000 + (s.st.heap r).last := by omega
  simp only
  rw [h2]
  unfold Device.shouldTurnOffline Device.shouldClear
  simp only [hst, hk, ht', bne_self_eq_false, Bool.false_and, Bool.false_eq_true, if_false, beq_self_eq_true,
          decide_true, Bool.and_self, if_true]
  show ((AMap.del _ p).get p).getD _ = _
  rw [AMap.get_del_self]; rfl

theorem track_congr {st st' : Store} {p : Str} (h : st'.geos.get p = st.geos.get p) : st'.track p = st.track p := by
  unfold Store.track; rw [h]

/-- Nothing else changes it. -/
theorem step_other_track (env : Env) (s : Sys) (e : Ev) (h : StoreInv s.st) (p : Str)
    (hr : ∀ g, ¬ e.reports env s p g) (hc : ¬ e.clears s p) : (s.step env e).1.st.track p = s.st.track p := by
  unfold Sys.step
  by_cases hcr : s.crashed = true
  · rw [if_pos hcr]
  · rw [if_neg hcr]
    cases e with
    | accept addr => rfl
    | httpList => rfl
    | frame clk c bytes werr =>
      simp only
      by_cases hl : c ∈ s.live
      · rw [if_pos hl]
        simp only
        apply track_congr
        rw [serveFrame_geos]
        by_cases hd : ∃ hh m, Delivers env clk.civil s.st bytes hh m
        · obtain ⟨hh, m, hd⟩ := hd
          obtain ⟨sg, e1⟩ := hd.handle c
          rw [e1, finish_fst]
          by_cases hm : ∃ q, m = .m0200 q ∧ s.st.look hh.phone ≠ none
          · obtain ⟨q, rfl, hk⟩ := hm
            obtain ⟨d, hd0⟩ := Option.ne_none_iff_exists'.1 hk
            obtain ⟨r, hrr, -⟩ := Store.look_some.1 hd0
            have hi' : StoreInv { s.st with segs := sg } := h.of_same ⟨rfl, rfl, rfl, rfl, rfl⟩ h.rings h.params
            obtain ⟨rb', e2, -, e3⟩ := process0200_eq (clk := clk) hi' (hd := hh) hrr q
            simp only [Store.handle]
            rw [e3]
            show AMap.get (AMap.set s.st.geos hh.phone rb') p = _
            by_cases hp : p = hh.phone
            · exact absurd ⟨clk, c, bytes, werr, hh, q, rfl, hl, hd, hp.symm, by rw [hp, hd0]; rfl, rfl⟩ (hr _)
            · rw [AMap.get_set_ne _ _ hp]
          · rw [geos_handle]
            intro q hq
            cases hx : s.st.look hh.phone with
            | none => exact hx
            | some d => exact absurd ⟨q, hq, by rw [hx]; simp⟩ hm
        · obtain ⟨sg, sr, e⟩ := handleFrame_none (env := env) (clk := clk) (c := c) (st := s.st) (frame := bytes)
            (fun hh m hx => hd ⟨hh, m, hx⟩)
          rw [e]
      · rw [if_neg hl]
    | readErr c e =>
      simp only
      by_cases hl : c ∈ s.live
      · rw [if_pos hl]
        apply track_congr
        simp only
        unfold Store.serveErr
        by_cases he : e.endsServe = true
        · rw [if_pos he]; rfl
        · rw [if_neg he]
      · rw [if_neg hl]
    | check clk phone =>
      simp only
      by_cases hj : phone ∈ s.st.jobs
      · rw [if_pos hj]
        simp only
        apply track_congr
        obtain ⟨r, hrr⟩ := Option.isSome_iff_exists.1 ((h.jobs phone).1 hj)
        obtain ⟨cn, -, h2⟩ := check_registered (clk := clk) h hrr
        have hk := h.keep _ _ hrr
        rw [h2]
        simp only
        by_cases h3 : (s.st.heap r).shouldTurnOffline clk.ms = true
        · rw [if_pos h3]; rfl
        · rw [if_neg h3]
          by_cases h4 : (s.st.heap r).shouldClear clk.ms = true
          · rw [if_pos h4]
            by_cases hp : p = phone
            · subst hp
              unfold Device.shouldClear at h4
              rw [hk] at h4
              simp only [Bool.and_eq_true, beq_iff_eq, decide_eq_true_eq] at h4
              exact absurd ⟨clk, _, rfl, Store.look_some.2 ⟨r, hrr, rfl⟩, h4.1, by omega⟩ hc
            · show (AMap.del _ phone).get p = _
              rw [AMap.get_del_ne _ hp, geos_delByPhone]; rfl
          · rw [if_neg h4]
      · rw [if_neg hj]
    | httpGeo phone =>
      simp only
      unfold Store.apiGeo Store.geoLatest Store.geoRing
      have key : ∀ rb : Ring DeviceGeo, s.st.geos.get phone = none → rb = Ring.new ringCapacity →
          Store.track { s.st with geos := s.st.geos.set phone rb } p = s.st.track p := by
        intro rb h1 h2
        unfold Store.track
        simp only
        rw [AMap.get_set]
        by_cases hp : p = phone
        · rw [if_pos hp, hp, h1, h2]; rfl
        · rw [if_neg hp]
      cases s.st.devByPhone phone with
      | none => rfl
      | some r =>
        simp only
        cases hg : s.st.geos.get phone with
        | some rb =>
          simp only
          cases rb.latest with
          | ok o => cases o <;> rfl
          | err e => rfl
          | panic => rfl
        | none => exact key _ hg rfl
    | httpQuery phone werr =>
      simp only
      exact track_congr (by
        have := apiQuery_quiet (env := env) (werr := werr) (p ++ [0]) ⟨0, []⟩ s.st phone
        exact (this.other h (by intro hx; have := congrArg List.length hx; simp at this)).geos)
    | httpSet phone bound bad werr =>
      simp only
      exact track_congr (by
        have := apiSet_quiet (env := env) (werr := werr) (p ++ [0]) ⟨0, []⟩ s.st phone bound bad
        exact (this.other h (by intro hx; have := congrArg List.length hx; simp at this)).geos)

/-- The reports of `p` that are still stored: those since the last check that removed it. -/
inductive Track (env : Env) (p : Str) : List Ev → List DeviceGeo → Prop
  | nil : Track env p [] []
  | report {evs : List Ev} {gs : List DeviceGeo} {e : Ev} {g : DeviceGeo} : Track env p evs gs →
      e.reports env (Sys.start.run env evs).1 p g → Track env p (evs ++ [e]) (gs ++ [g])
  | clear {evs : List Ev} {gs : List DeviceGeo} {e : Ev} : Track env p evs gs →
      e.clears (Sys.start.run env evs).1 p → Track env p (evs ++ [e]) []
  | other {evs : List Ev} {gs : List DeviceGeo} {e : Ev} : Track env p evs gs →
      (∀ g, ¬ e.reports env (Sys.start.run env evs).1 p g) → ¬ e.clears (Sys.start.run env evs).1 p →
      Track env p (evs ++ [e]) gs

theorem snoc_ind {α : Type} {P : List α → Prop} (h0 : P []) (h1 : ∀ l a, P l → P (l ++ [a])) : ∀ l, P l := by
  intro l
  have : ∀ r : List α, P r.reverse := by
    intro r
    induction r with
    | nil => exact h0
    | cons a r ih => rw [List.reverse_cons]; exact h1 _ _ ih
  have := this l.reverse
  rwa [List.reverse_reverse] at this

theorem run_snoc (env : Env) (evs : List Ev) (e : Ev) (s : Sys) :
    (s.run env (evs ++ [e])).1 = ((s.run env evs).1.step env e).1 := by
  rw [run_append]; rfl

theorem Track.exists (env : Env) (p : Str) (evs : List Ev) : ∃ gs, Track env p evs gs := by
  induction evs using snoc_ind with
  | h0 => exact ⟨[], .nil⟩
  | h1 evs e ih =>
    obtain ⟨gs, ih⟩ := ih
    by_cases h1 : ∃ g, e.reports env (Sys.start.run env evs).1 p g
    · obtain ⟨g, h1⟩ := h1; exact ⟨_, .report ih h1⟩
    · by_cases h2 : e.clears (Sys.start.run env evs).1 p
      · exact ⟨_, .clear ih h2⟩
      · exact ⟨_, .other ih (fun g hg => h1 ⟨g, hg⟩) h2⟩

theorem Track.ring {env : Env} {p : Str} {evs : List Ev} {gs : List DeviceGeo} (h : Track env p evs gs) :
    RingInv ringCapacity (gs.map some) 0 ((Sys.start.run env evs).1.st.track p) := by
  induction h with
  | nil => exact RingInv.init _
  | @report evs gs e g _ hr ih =>
    rw [run_snoc]
    have hi := reachable_inv env evs
    have h1 := step_reports env _ e hi.1 hi.2 p g hr
    obtain ⟨r', h2, h3⟩ := ih.write (by decide) (some g)
    rw [h1] at h2; injection h2 with h2; rw [h2]
    simpa using h3
  | @clear evs gs e _ hc ih =>
    rw [run_snoc]
    have hi := reachable_inv env evs
    rw [step_clears env _ e hi.1 hi.2 p hc]
    exact RingInv.init _
  | @other evs gs e _ hr hc ih =>
    rw [run_snoc, step_other_track env _ e (reachable_inv env evs).1 p hr hc]
    exact ih

theorem RingInv.latest {α : Type} {n : Nat} (hn : 0 < n) {ws : List α} {k : Nat} {r : Ring α}
    (h : RingInv n (ws.map some) k r) :
    r.latest = .ok (if ws.length % n = 0 then none else ws.getLast?) := by
  unfold Ring.latest
  have hw := h.writer
  rw [List.length_map] at hw
  by_cases h0 : ws.length % n = 0
  · rw [if_pos (by rw [hw, h0]), if_pos h0]
  · rw [if_neg (by rw [hw]; exact h0), if_neg h0, h.size, hw]
    have hlt := Nat.mod_lt ws.length hn
    have hpos : 0 < ws.length := by
      rcases Nat.eq_zero_or_pos ws.length with e | e
      · rw [e, Nat.zero_mod] at h0; exact absurd rfl h0
      · exact e
    rw [Nat.mod_eq_of_lt (show ws.length % n - 1 < n by omega)]
    have hm : (ws.length - 1) % n = ws.length % n - 1 := by
      have h1 : ws.length = n * (ws.length / n) + ws.length % n := (Nat.div_add_mod _ _).symm
      have h2 : ws.length - 1 = (ws.length % n - 1) + n * (ws.length / n) := by omega
      rw [h2, Nat.add_mul_mod_self_left, Nat.mod_eq_of_lt (by omega)]
    have := h.slots (ws.length - 1) (by rw [List.length_map]; omega) (by rw [List.length_map]; omega)
    rw [hm] at this
    rw [List.getElem?_map, List.getElem?_eq_getElem (show ws.length - 1 < ws.length by omega)] at this
    rw [Ring.at_of_get this, List.getLast?_eq_getElem?,
      List.getElem?_eq_getElem (show ws.length - 1 < ws.length by omega)]

end JT808
