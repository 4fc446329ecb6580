import Verif.Proof.Order
import Verif.Props.Reference
import Verif.Props.Groups
/-
C128: the order of things that have nothing to do with each other.
-/
namespace JT808
open Spec

theorem reachable_tidy (env : Env) (evs : List Ev) : Tidy (Book.start.run env evs).1 := by
  have h := reachable_follows env evs
  have hs := reachable_sess env evs
  have hc := reachable_conn env evs
  refine ⟨h.noted.nodup, h.noted.lineAddr, fun a a' c c' h1 h2 h3 => ?_⟩
  rw [← h.noted.line] at h1 h2
  exact hc.inj c (hs.served _ _ h1).1 c' (hs.served _ _ h2).1 h3

theorem shown_look (env : Env) (evs : List Ev) : (Book.start.run env evs).1.shown = (Sys.start.run env evs).1.st.look := by
  funext p
  exact ((reachable_follows env evs).noted.terminal p).symm

/-- Two events after any history that have nothing to do with each other can change places: each looks as it did, and so does
everything that comes after them, in what is sent, ended and answered and in what is shown. -/
theorem C128_order (env : Env) (evs : List Ev) {e e' : Ev} (h : Apart env (Sys.start.run env evs).1.st.look e e') (next : List Ev) :
    (∃ o o' os, ((Sys.start.run env evs).1.run env (e :: e' :: next)).2 = o :: o' :: os ∧
      ((Sys.start.run env evs).1.run env (e' :: e :: next)).2 = o' :: o :: os) ∧
    (∀ p, ((Sys.start.run env evs).1.run env (e' :: e :: next)).1.st.look p =
      ((Sys.start.run env evs).1.run env (e :: e' :: next)).1.st.look p) ∧
    (∀ p, (((Sys.start.run env evs).1.run env (e' :: e :: next)).1.st.apiGeo p).2 =
      (((Sys.start.run env evs).1.run env (e :: e' :: next)).1.st.apiGeo p).2) ∧
    ((Sys.start.run env evs).1.run env (e' :: e :: next)).1.live =
      ((Sys.start.run env evs).1.run env (e :: e' :: next)).1.live := by
  have ht := reachable_tidy env evs
  rw [← shown_look] at h
  have hf := reachable_follows env evs
  obtain ⟨i1, i2⟩ := reachable_inv env evs
  generalize (Sys.start.run env evs).1 = s at *
  generalize (Book.start.run env evs).1 = b at *
  obtain ⟨f1, g1⟩ := follows_run env hf i1 i2 [e]
  obtain ⟨f2, g2⟩ := follows_run env hf i1 i2 [e']
  obtain ⟨a1, a2, al⟩ := step_comm env ht f1.noted.nodup f2.noted.nodup h
  obtain ⟨f12, g12⟩ := follows_run env hf i1 i2 [e, e']
  obtain ⟨f21, g21⟩ := follows_run env hf i1 i2 [e', e]
  obtain ⟨j1, j2⟩ := run_inv env [e, e'] s i1
  obtain ⟨k1, k2⟩ := run_inv env [e', e] s i1
  have f21' : Follows (s.run env [e', e]).1 (b.run env [e, e']).1 := by
    have al' : Alike (b.run env [e', e]).1 (b.run env [e, e']).1 := ⟨fun p => (al.cell p).symm, al.wires.symm⟩
    refine ⟨f21.noted.alike al' f12.noted.nodup, ?_, ?_⟩
    · rw [f21.live]; exact (congrArg Wires.live al'.wires).symm
    · rw [f21.accepted]; exact (congrArg Wires.accepted al'.wires).symm
  obtain ⟨n1, n2⟩ := follows_run env f12 j1 (j2 i2) next
  obtain ⟨m1, m2⟩ := follows_run env f21' k1 (k2 i2) next
  obtain ⟨q1, q2⟩ := follows_run env f21 k1 (k2 i2) next
  have o1 := (follows_run env hf i1 i2 (e :: e' :: next)).2
  have o2 := (follows_run env hf i1 i2 (e' :: e :: next)).2
  have r1 := run_append env [e, e'] next s
  have r2 := run_append env [e', e] next s
  simp only [List.cons_append, List.nil_append] at r1 r2
  rw [o1, o2, r1, r2]
  have hq : ((b.run env [e', e]).1.run env next).2 = ((b.run env [e, e']).1.run env next).2 := q2.symm.trans m2
  refine ⟨⟨(b.step env e).2, (b.step env e').2, ((b.run env [e, e']).1.run env next).2, ?_, ?_⟩, fun p => ?_, fun p => ?_, ?_⟩
  · simp only [Book.run, a2]
  · rw [← hq]
    simp only [Book.run, a1]
  · exact (m1.noted.terminal p).trans (n1.noted.terminal p).symm
  · exact (m1.noted.geo p).2.trans (n1.noted.geo p).2.symm
  · rw [m1.live, n1.live]

theorem holds_order {env : Env} {clk : Clock} {c : Conn} {f : List UInt8} {w : Option Err} {h : Header} {m : Msg}
    (hh : Holds env clk.civil f h m) (shown : Str → Option Device) :
    evPhone env (.frame clk c f w) = some h.phone ∧
    (∀ q, asksFor env (.frame clk c f w) = some q ↔ ∃ x, m = .m0100 x ∧ x.plate = q) ∧
    writesTo env shown (.frame clk c f w) = none := by
  obtain ⟨pd, t, j, h1, rfl, h3, h4, h5⟩ := hh
  refine ⟨by simp only [evPhone, h1], fun q => ?_, by simp only [writesTo, h1, h3]; rfl⟩
  simp only [asksFor, h1, h4, h5]
  cases m with
  | m0100 x =>
    constructor
    · intro e; injection e with e; exact ⟨x, rfl, e⟩
    · rintro ⟨y, e, rfl⟩; injection e with e; rw [e]
  | _ =>
    constructor
    · intro e; cases e
    · rintro ⟨y, e, -⟩; cases e

/-- In particular messages of different phones on connections of different peers, unless one of them is a registration with a
plate that the other wants too or its phone has. -/
theorem C128_frames (env : Env) (evs : List Ev) {clk clk' : Clock} {c c' : Conn} {f f' : List UInt8} {w w' : Option Err}
    {h h' : Header} {m m' : Msg} (hh : Holds env clk.civil f h m) (hh' : Holds env clk'.civil f' h' m') (hp : h.phone ≠ h'.phone)
    (hc : c.addr ≠ c'.addr) (hx : ∀ x x', m = .m0100 x → m' = .m0100 x' → x.plate ≠ x'.plate)
    (hr : ∀ x d, m = .m0100 x → (Sys.start.run env evs).1.st.look h'.phone = some d → d.plate ≠ x.plate)
    (hr' : ∀ x d, m' = .m0100 x → (Sys.start.run env evs).1.st.look h.phone = some d → d.plate ≠ x.plate) (next : List Ev) :
    ∃ o o' os, ((Sys.start.run env evs).1.run env (.frame clk c f w :: .frame clk' c' f' w' :: next)).2 = o :: o' :: os ∧
      ((Sys.start.run env evs).1.run env (.frame clk' c' f' w' :: .frame clk c f w :: next)).2 = o' :: o :: os := by
  obtain ⟨p1, q1, w1⟩ := holds_order (c := c) (w := w) hh (Sys.start.run env evs).1.st.look
  obtain ⟨p2, q2, w2⟩ := holds_order (c := c') (w := w') hh' (Sys.start.run env evs).1.st.look
  refine (C128_order env evs ⟨⟨?_, ?_, ?_, ?_⟩, ⟨?_, ?_, ?_, ?_⟩, fun a a' e => (by cases e)⟩ next).1
  · intro p e; rw [p1] at e; rw [p2]; injection e with e; subst e; exact fun e => hp (by injection e with e; exact e.symm)
  · intro a e; injection e with e; subst e; exact fun e => hc (by injection e with e; exact e.symm)
  · intro q e
    obtain ⟨x, hm, rfl⟩ := (q1 q).1 e
    refine ⟨fun e' => ?_, fun p d e' hd => ?_⟩
    · obtain ⟨x', hm', e'⟩ := (q2 _).1 e'
      exact hx x x' hm hm' e'.symm
    · rw [p2] at e'; injection e' with e'; subst e'; exact hr x d hm hd
  · intro a e; rw [w1] at e; cases e
  · intro p e; rw [p2] at e; rw [p1]; injection e with e; subst e; exact fun e => hp (by injection e)
  · intro a e; injection e with e; subst e; exact fun e => hc (by injection e)
  · intro q e
    obtain ⟨x, hm, rfl⟩ := (q2 q).1 e
    refine ⟨fun e' => ?_, fun p d e' hd => ?_⟩
    · obtain ⟨x', hm', e'⟩ := (q1 _).1 e'
      exact hx x' x hm' hm e'
    · rw [p1] at e'; injection e' with e'; subst e'; exact hr' x d hm hd
  · intro a e; rw [w2] at e; cases e

theorem run_obs (env : Env) (a b : List Ev) (s : Sys) :
    (s.run env (a ++ b)).2 = (s.run env a).2 ++ ((s.run env a).1.run env b).2 := by
  induction a generalizing s with
  | nil => rfl
  | cons e a ih =>
    simp only [List.cons_append, Sys.run]
    rw [ih]

/-- And so an event can be put off past any number of others it has nothing to do with, at the time of each. -/
theorem C128_late (env : Env) (evs es : List Ev) {e : Ev}
    (h : ∀ pre x post, es = pre ++ x :: post → Apart env (Sys.start.run env (evs ++ pre)).1.st.look e x) (next : List Ev) :
    ∃ o os os', ((Sys.start.run env evs).1.run env (e :: es ++ next)).2 = o :: os ++ os' ∧
      ((Sys.start.run env evs).1.run env (es ++ e :: next)).2 = os ++ o :: os' ∧ os.length = es.length := by
  induction es generalizing evs with
  | nil => exact ⟨_, [], _, rfl, rfl, rfl⟩
  | cons x es ih =>
    obtain ⟨o, o', os, h1, h2⟩ := (C128_order env evs (by simpa using h [] x es rfl) (es ++ next)).1
    obtain ⟨p, ps, ps', h3, h4, h5⟩ := ih (evs ++ [x]) fun pre y post hy => by
      have := h (x :: pre) y post (by rw [hy]; rfl)
      simpa using this
    rw [run_append] at h3 h4
    have e1 : ((Sys.start.run env evs).1.run env (x :: e :: (es ++ next))).2 =
        ((Sys.start.run env evs).1.step env x).2 :: (((Sys.start.run env evs).1.run env [x]).1.run env (e :: es ++ next)).2 := rfl
    have e2 : ((Sys.start.run env evs).1.run env (x :: es ++ e :: next)).2 =
        ((Sys.start.run env evs).1.step env x).2 :: (((Sys.start.run env evs).1.run env [x]).1.run env (es ++ e :: next)).2 := rfl
    rw [e1, h3] at h2
    rw [h4] at e2
    injection h2 with h6 h7
    simp only [List.cons_append] at h7
    injection h7 with h7 h8
    refine ⟨o, o' :: ps, ps', ?_, ?_, by simp [h5]⟩
    · show ((Sys.start.run env evs).1.run env (e :: x :: (es ++ next))).2 = _
      rw [h1, ← h8]; rfl
    · rw [e2, h6, h7]; rfl

/-! ## What is needed for it -/

/-- The two registrations want the same plate: the first to come gets it. -/
theorem C128_same_plate :
    let a : Ev := .frame (demoClk 1000) demoC demoReg none
    let b : Ev := .frame (demoClk 1000) demoC' (msgFrame (otherHdr 0x0100) (demoRegMsg.encode goEnv .v2013)) none
    let s := (Sys.start.run goEnv [.accept [0x61], .accept [0x62]]).1
    (s.run goEnv [a, b]).1.st.look (hdr2013 0).phone ≠ none ∧ (s.run goEnv [b, a]).1.st.look (hdr2013 0).phone = none := by
  decide +kernel

/-- A fragment of a terminal that has gone to another connection, and the loss of the connection it registered on: the
fragment is answered if it comes first, and ends its connection otherwise. -/
theorem C128_lost_line :
    let a : Ev := .readErr demoC .eof
    let b : Ev := .frame (demoClk 3000) ⟨2, [0x63]⟩ (demoFrag 2) none
    let s := (Sys.start.run goEnv (demoEvs ++ [.frame (demoClk 2000) demoC' (demoFrag 1) none, .accept [0x63]])).1
    ((s.run goEnv [b, a]).2.map fun o => (o.sent.isSome, o.ended)) = [(true, false), (false, true)] ∧
      ((s.run goEnv [a, b]).2.map fun o => (o.sent.isSome, o.ended)) = [(false, true), (false, true)] := by
  decide +kernel

/-! ## Cases -/

theorem clear_of {env : Env} {shown : Str → Option Device} {e e' : Ev} (hp : evPhone env e = none ∨ evPhone env e ≠ evPhone env e')
    (ha : evAddr e = none ∨ evAddr e ≠ evAddr e')
    (hq : asksFor env e = none ∨ (asksFor env e ≠ asksFor env e' ∧ ((evPhone env e').bind shown).map (·.plate) ≠ asksFor env e))
    (hw : writesTo env shown e = none ∨ (writesTo env shown e ≠ evAddr e' ∧ writesTo env shown e ≠ writesTo env shown e')) :
    Clear env shown e e' := by
  refine ⟨fun p h => ?_, fun a h => ?_, fun q h => ?_, fun a h => ?_⟩
  · rw [h] at hp; rcases hp with hp | hp
    · cases hp
    · exact fun x => hp x.symm
  · rw [h] at ha; rcases ha with ha | ha
    · cases ha
    · exact fun x => ha x.symm
  · rw [h] at hq; rcases hq with hq | ⟨h1, h2⟩
    · cases hq
    · refine ⟨fun x => h1 x.symm, fun p d h3 h4 h5 => h2 ?_⟩
      rw [h3, Option.bind_some, h4, ← h5]; rfl
  · rw [h] at hw; rcases hw with hw | ⟨h1, h2⟩
    · cases hw
    · exact ⟨fun x => h1 x.symm, fun x => h2 x.symm⟩

-- two registrations with different plates, right after the two have connected, and whatever follows
example (next : List Ev) := C128_frames goEnv [.accept [0x61], .accept [0x62]] (c := demoC) (c' := demoC') (w := none) (w' := none)
  (demoReg_holds (demoClk 5).civil) (otherReg_holds (demoClk 5).civil) (by decide +kernel) (by decide)
  (fun x x' h1 h2 => by injection h1 with h1; injection h2 with h2; subst h1; subst h2; decide)
  (fun x d _ h => by cases h) (fun x d _ h => by cases h) next
/-- A parameter query of the terminal on the first connection against a heartbeat of the other terminal on the second. -/
theorem order_case : Apart goEnv (Sys.start.run goEnv (twoTerminals.take 4)).1.st.look (.httpQuery (hdr2013 0).phone none)
    (.frame (demoClk 3000) demoC' (msgFrame (otherHdr 0x0002) []) none) :=
  ⟨clear_of (by decide +kernel) (by decide +kernel) (by decide +kernel) (by decide +kernel),
    clear_of (by decide +kernel) (by decide +kernel) (by decide +kernel) (by decide +kernel), fun a a' e => by cases e⟩
example (next : List Ev) := C128_order goEnv _ order_case next
-- both do something there
example : (((Sys.start.run goEnv (twoTerminals.take 4)).1.run goEnv [.httpQuery (hdr2013 0).phone none,
    .frame (demoClk 3000) demoC' (msgFrame (otherHdr 0x0002) []) none]).2.map fun o => (o.sent.map (·.1), o.http)) =
    [(some demoC, some 200), (some demoC', none)] := by decide +kernel
-- the check of the one terminal is put off past the deregistration of the other and the loss of its connection
example (next : List Ev) := C128_late goEnv (twoTerminals.take 4) [.frame (demoClk 3000) demoC' otherBye none, .readErr demoC' .eof]
  (e := .check (demoClk 90000) (hdr2013 0).phone) (by
    intro pre x post hx
    match pre, hx with
    | [], hx =>
      injection hx with hx _; subst hx
      exact ⟨clear_of (by decide +kernel) (by decide +kernel) (by decide +kernel) (by decide +kernel),
        clear_of (by decide +kernel) (by decide +kernel) (by decide +kernel) (by decide +kernel), fun a a' e => by cases e⟩
    | [y], hx =>
      injection hx with hy hx; injection hx with hx _; subst hx; subst hy
      exact ⟨clear_of (by decide +kernel) (by decide +kernel) (by decide +kernel) (by decide +kernel),
        clear_of (by decide +kernel) (by decide +kernel) (by decide +kernel) (by decide +kernel), fun a a' e => by cases e⟩
    | y :: z :: pre, hx =>
      injection hx with _ hx; injection hx with _ hx; cases pre <;> cases hx) next

end JT808
