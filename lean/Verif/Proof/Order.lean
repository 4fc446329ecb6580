import Verif.Proof.Reference
import Verif.Spec.Order
/-
What one event does to the book of the reference server, by the parts of the book: the parts it does not read do not matter
and those it is not about stay.
-/
namespace JT808
open Spec

/-- What the book has under a phone. -/
def Spec.Book.cell (b : Book) (p : Str) : Option Terminal × List DeviceGeo × Option DeviceParams × (Nat → Option UInt16) :=
  (b.terminal p, b.reports p, b.params p, b.pieces p)

/-- What the book has of connections. -/
structure Wires where
  line : Str → Option Conn
  serial : Nat → Nat
  live : List Conn
  closed : Nat → Bool
  accepted : Nat

def Spec.Book.wires (b : Book) : Wires := ⟨b.line, b.serial, b.live, b.closed, b.accepted⟩

/-- What can happen to connections. -/
inductive WireOp where
  | take (id : Nat)
  | off (c : Conn)
  | gone (c : Conn)
  | shut (id : Nat)
  | join (addr : Str)

def WireOp.apply (w : Wires) : WireOp → Wires
  | .take i => { w with serial := upd w.serial i (bump (w.serial i)) }
  | .off c => { w with closed := upd w.closed c.id true, line := upd w.line c.addr none }
  | .gone c => { w with live := w.live.filter (· ≠ c) }
  | .shut i => { w with closed := upd w.closed i true }
  | .join a => { w with line := upd w.line a (some ⟨w.accepted, a⟩), live := ⟨w.accepted, a⟩ :: w.live, accepted := w.accepted + 1 }

def Wires.run (w : Wires) (l : List WireOp) : Wires := l.foldl WireOp.apply w

/-- The address an operation is about. -/
def WireOp.addr : WireOp → Option Str
  | .off c | .gone c => some c.addr
  | .join a => some a
  | _ => none

/-- The two do not get in each other's way. -/
def WireOp.Free (x y : WireOp) : Prop :=
  (∀ a, x = .join a → y.addr ≠ some a) ∧ (∀ a, y = .join a → x.addr ≠ some a) ∧ ∀ a a', x = .join a → y ≠ .join a'

theorem upd_comm {α β : Type} [DecidableEq α] (f : α → β) {a a' : α} (b b' : β) (h : a = a' → b = b') :
    upd (upd f a b) a' b' = upd (upd f a' b') a b := by
  funext x
  unfold upd
  by_cases h1 : x = a <;> by_cases h2 : x = a' <;> simp only [h1, h2, if_true, if_false]
  all_goals first | rfl | skip
  · subst h1; subst h2; simp [h rfl]
  · subst h1; simp [h2]
  · subst h2; simp [h1]

theorem take_comm (f : Nat → Nat) (i j : Nat) :
    upd (upd f i (bump (f i))) j (bump (upd f i (bump (f i)) j)) = upd (upd f j (bump (f j))) i (bump (upd f j (bump (f j)) i)) := by
  by_cases h : i = j
  · subst h; rfl
  · funext x
    unfold upd
    have h' : ¬ j = i := fun e => h e.symm
    by_cases h1 : x = i
    · subst h1; simp [h]
    · by_cases h2 : x = j
      · subst h2; simp [h']
      · simp [h1, h2]

theorem filter_comm (l : List Conn) (c d : Conn) :
    (l.filter (· ≠ c)).filter (· ≠ d) = (l.filter (· ≠ d)).filter (· ≠ c) := by
  rw [List.filter_filter, List.filter_filter]
  congr 1
  funext x
  exact Bool.and_comm _ _

theorem WireOp.comm {x y : WireOp} (h : x.Free y) (w : Wires) : y.apply (x.apply w) = x.apply (y.apply w) := by
  obtain ⟨h1, h2, h3⟩ := h
  cases x with
  | take i => cases y <;> first | rfl | (simp only [WireOp.apply]; rw [take_comm])
  | off c =>
    cases y with
    | take j => rfl
    | off d =>
      simp only [WireOp.apply]
      rw [upd_comm w.closed (a := c.id) (a' := d.id) _ _ fun _ => rfl, upd_comm w.line (a := c.addr) (a' := d.addr) _ _ fun _ => rfl]
    | gone d => rfl
    | shut j => simp only [WireOp.apply]; rw [upd_comm _ _ _ fun _ => rfl]
    | join a =>
      simp only [WireOp.apply]
      rw [upd_comm w.line (a := c.addr) (a' := a) _ _ fun e => absurd (by rw [← e]; rfl) (h2 a rfl)]
  | gone c =>
    cases y with
    | gone d => simp only [WireOp.apply]; rw [filter_comm]
    | join a =>
      simp only [WireOp.apply]
      rw [List.filter_cons_of_pos]
      have : (⟨w.accepted, a⟩ : Conn) ≠ c := fun e => h2 a rfl (by rw [← e]; rfl)
      simpa using this
    | _ => rfl
  | shut i =>
    cases y with
    | off d => simp only [WireOp.apply]; rw [upd_comm _ _ _ fun _ => rfl]
    | shut j => simp only [WireOp.apply]; rw [upd_comm _ _ _ fun _ => rfl]
    | _ => rfl
  | join a =>
    cases y with
    | take j => rfl
    | off d =>
      simp only [WireOp.apply]
      rw [upd_comm w.line (a := a) (a' := d.addr) _ _ fun e => absurd (by rw [e]; rfl) (h1 a rfl)]
    | gone d =>
      simp only [WireOp.apply]
      rw [List.filter_cons_of_pos]
      have : (⟨w.accepted, a⟩ : Conn) ≠ d := fun e => h1 a rfl (by rw [← e]; rfl)
      simpa using this
    | shut j => rfl
    | join a' => exact absurd rfl (h3 a a' rfl)

theorem Wires.run_comm_one {x : WireOp} {l : List WireOp} (h : ∀ y ∈ l, x.Free y) (w : Wires) :
    (x.apply w).run l = x.apply (w.run l) := by
  induction l generalizing w with
  | nil => rfl
  | cons y l ih =>
    show (y.apply (x.apply w)).run l = x.apply ((y.apply w).run l)
    rw [WireOp.comm (h y (by simp)), ih fun z hz => h z (by simp [hz])]

theorem Wires.run_comm {l l' : List WireOp} (h : ∀ x ∈ l, ∀ y ∈ l', x.Free y) (w : Wires) :
    (w.run l).run l' = (w.run l').run l := by
  induction l generalizing w with
  | nil => rfl
  | cons x l ih =>
    show ((x.apply w).run l).run l' = (x.apply (w.run l')).run l
    rw [ih fun z hz => h z (by simp [hz]), Wires.run_comm_one (h x (by simp))]

/-- What is not about a phone stays. -/
structure SparesBook (p : Str) (b r : Book) : Prop where
  cell : ∀ q, q ≠ p → r.cell q = b.cell q
  wires : r.wires = b.wires

theorem SparesBook.refl (p : Str) (b : Book) : SparesBook p b b := ⟨fun _ _ => rfl, rfl⟩

theorem SparesBook.put (b : Book) (p : Str) (t : Terminal) : SparesBook p b (b.put p t) :=
  ⟨fun q hq => by show ((b.put p t).terminal q, _, _, _) = _; rw [Book.terminal_put, if_neg hq]; rfl, rfl⟩

theorem SparesBook.drop (b : Book) (p : Str) : SparesBook p b (b.drop p) :=
  ⟨fun q hq => by show ((b.drop p).terminal q, _, _, _) = _; rw [Book.terminal_drop, if_neg hq]; rfl, rfl⟩

theorem SparesBook.reports (b : Book) (p : Str) (g : List DeviceGeo) : SparesBook p b { b with reports := upd b.reports p g } :=
  ⟨fun q hq => by show (b.terminal q, upd b.reports p g q, _, _) = _; rw [upd_apply, if_neg hq]; rfl, rfl⟩

theorem SparesBook.params (b : Book) (p : Str) (g : Option DeviceParams) : SparesBook p b { b with params := upd b.params p g } :=
  ⟨fun q hq => by show (b.terminal q, _, upd b.params p g q, _) = _; rw [upd_apply, if_neg hq]; rfl, rfl⟩

theorem SparesBook.pieces (b : Book) (p : Str) (g : Nat → Option UInt16) : SparesBook p b { b with pieces := upd b.pieces p g } :=
  ⟨fun q hq => by show (b.terminal q, _, _, upd b.pieces p g q) = _; rw [upd_apply, if_neg hq]; rfl, rfl⟩

theorem SparesBook.trans {p : Str} {a b c : Book} (h : SparesBook p a b) (h' : SparesBook p b c) : SparesBook p a c :=
  ⟨fun q hq => (h'.cell q hq).trans (h.cell q hq), h'.wires.trans h.wires⟩

theorem SparesBook.hear (env : Env) (clk : Clock) (c : Conn) (b : Book) (h : Header) (m : Msg) :
    SparesBook h.phone b (b.hear env clk c h m).1 := by
  cases m with
  | m0002 => unfold Spec.Book.hear; simp only; split <;> first | exact SparesBook.refl _ _ | exact SparesBook.put _ _ _
  | m0003 => unfold Spec.Book.hear; simp only; split <;> first | exact SparesBook.refl _ _ | exact SparesBook.drop _ _
  | m0100 m => unfold Spec.Book.hear; simp only; repeat' split
               all_goals first | exact SparesBook.refl _ _ | exact SparesBook.put _ _ _
  | m0102 m => unfold Spec.Book.hear; simp only; repeat' split
               all_goals first | exact SparesBook.refl _ _ | exact SparesBook.put _ _ _ | exact SparesBook.drop _ _
  | m0200 m =>
    unfold Spec.Book.hear; simp only; repeat' split
    all_goals first | exact SparesBook.refl _ _ | exact SparesBook.reports _ _ _ | exact (SparesBook.reports _ _ _).trans (SparesBook.put _ _ _)
  | m8001 m => unfold Spec.Book.hear; simp only; repeat' split
               all_goals first | exact SparesBook.refl _ _ | exact SparesBook.put _ _ _
  | m8100 m => unfold Spec.Book.hear; simp only; split <;> exact SparesBook.refl _ _
  | m8103 m => unfold Spec.Book.hear; exact SparesBook.params _ _ _
  | m8104 => unfold Spec.Book.hear; simp only; repeat' split
             all_goals first | exact SparesBook.refl _ _ | exact SparesBook.params _ _ _
  | m9205 m => exact SparesBook.refl _ _
  | m0001 m => exact SparesBook.refl _ _
  | m0104 m => exact SparesBook.refl _ _
  | m1205 m => exact SparesBook.refl _ _

/-- The parts under a phone are alike. -/
theorem cell_eq {b b' : Book} {p : Str} : b'.cell p = b.cell p ↔
    b'.terminal p = b.terminal p ∧ b'.reports p = b.reports p ∧ b'.params p = b.params p ∧ b'.pieces p = b.pieces p := by
  unfold Spec.Book.cell
  simp only [Prod.mk.injEq]

theorem cell_put (b : Book) (p : Str) (t : Terminal) : (b.put p t).cell p = (some t, b.reports p, b.params p, b.pieces p) := by
  show ((b.put p t).terminal p, _, _, _) = _; rw [Book.terminal_put, if_pos rfl]; rfl

theorem cell_drop (b : Book) (p : Str) : (b.drop p).cell p = (none, b.reports p, b.params p, b.pieces p) := by
  show ((b.drop p).terminal p, _, _, _) = _; rw [Book.terminal_drop, if_pos rfl]; rfl

theorem cell_reports (b : Book) (p : Str) (g : List DeviceGeo) :
    ({ b with reports := upd b.reports p g } : Book).cell p = (b.terminal p, g, b.params p, b.pieces p) := by
  show (b.terminal p, upd b.reports p g p, _, _) = _; rw [upd_apply, if_pos rfl]

theorem cell_params (b : Book) (p : Str) (g : Option DeviceParams) :
    ({ b with params := upd b.params p g } : Book).cell p = (b.terminal p, b.reports p, g, b.pieces p) := by
  show (b.terminal p, _, upd b.params p g p, _) = _; rw [upd_apply, if_pos rfl]

theorem cell_pieces (b : Book) (p : Str) (g : Nat → Option UInt16) :
    ({ b with pieces := upd b.pieces p g } : Book).cell p = (b.terminal p, b.reports p, b.params p, g) := by
  show (b.terminal p, _, _, upd b.pieces p g p) = _; rw [upd_apply, if_pos rfl]

theorem hear_alike (env : Env) (clk : Clock) (c : Conn) {b b' : Book} (h : Header) (m : Msg) (hc : b'.cell h.phone = b.cell h.phone)
    (hp : ∀ x, m = .m0100 x → b'.hasPlate x.plate = b.hasPlate x.plate) :
    (b'.hear env clk c h m).2 = (b.hear env clk c h m).2 ∧
      (b'.hear env clk c h m).1.cell h.phone = (b.hear env clk c h m).1.cell h.phone := by
  have hc0 := hc
  obtain ⟨h1, h2, h3, h4⟩ := cell_eq.1 hc
  cases m with
  | m0002 =>
    unfold Spec.Book.hear; simp only [h1]
    cases b.terminal h.phone with
    | none => exact ⟨rfl, hc⟩
    | some t => exact ⟨rfl, by simp only [cell_put, h2, h3, h4]⟩
  | m0003 =>
    unfold Spec.Book.hear; simp only [h1]
    cases b.terminal h.phone with
    | none => exact ⟨rfl, hc⟩
    | some t => exact ⟨rfl, by simp only [cell_drop, h2, h3, h4]⟩
  | m0100 m =>
    unfold Spec.Book.hear; simp only [h1, hp m rfl]
    cases b.hasPlate m.plate with
    | true => exact ⟨rfl, hc⟩
    | false =>
      simp only [Bool.false_eq_true, if_false]
      cases b.terminal h.phone with
      | none => simp only [Option.isSome_none, Bool.false_eq_true, if_false, cell_put, h2, h3, h4, and_self]
      | some t => exact ⟨rfl, hc⟩
  | m0102 m =>
    unfold Spec.Book.hear; simp only [h1]
    cases b.terminal h.phone with
    | none => exact ⟨rfl, hc⟩
    | some t =>
      simp only
      split
      · exact ⟨rfl, by simp only [cell_put, h2, h3, h4]⟩
      · exact ⟨rfl, by simp only [cell_drop, h2, h3, h4]⟩
  | m0200 m =>
    unfold Spec.Book.hear; simp only [h1]
    cases hb : b.terminal h.phone with
    | none => exact ⟨rfl, hc⟩
    | some t =>
      refine ⟨rfl, ?_⟩
      simp only
      split
      · simp only [cell_reports, h1, h2, h3, h4]
      · simp only [cell_put]
        simp only [upd_apply, if_pos, h2, h3, h4]
  | m8001 m =>
    unfold Spec.Book.hear; simp only [h1]
    cases b.terminal h.phone with
    | none => exact ⟨rfl, hc⟩
    | some t =>
      simp only
      split
      · exact ⟨rfl, by simp only [cell_put, h2, h3, h4]⟩
      · exact ⟨rfl, hc⟩
  | m8100 m =>
    unfold Spec.Book.hear; simp only [h1]
    cases b.terminal h.phone with
    | none => exact ⟨rfl, hc⟩
    | some t => exact ⟨rfl, hc⟩
  | m8103 m =>
    unfold Spec.Book.hear
    simp only [h3]
    exact ⟨trivial, by simp only [cell_params, h1, h2, h4]⟩
  | m8104 =>
    unfold Spec.Book.hear; simp only [h3]
    cases b.params h.phone with
    | some q => exact ⟨rfl, hc⟩
    | none =>
      simp only
      cases fixedDecode env h.phone with
      | ok x => exact ⟨rfl, by simp only [cell_params, h1, h2, h4]⟩
      | err e => exact ⟨rfl, hc⟩
      | panic => exact ⟨rfl, hc⟩
  | m9205 m => exact ⟨rfl, hc⟩
  | m0001 m => exact ⟨rfl, hc⟩
  | m0104 m => exact ⟨rfl, hc⟩
  | m1205 m => exact ⟨rfl, hc⟩

/-- Two books go from `b` and `b'` to `r` and `r'` in the same way: alike under `p`, unchanged elsewhere, and with the same
operations on connections. -/
structure Does (p : Option Str) (ok : WireOp → Prop) (b b' r r' : Book) : Prop where
  own : ∀ q, p = some q → r'.cell q = r.cell q
  rest : ∀ q, p ≠ some q → r.cell q = b.cell q ∧ r'.cell q = b'.cell q
  wires : ∃ ops, (∀ x ∈ ops, ok x) ∧ r.wires = b.wires.run ops ∧ r'.wires = b'.wires.run ops

theorem Does.nothing {p : Option Str} {ok : WireOp → Prop} {b b' : Book} (h : ∀ q, p = some q → b'.cell q = b.cell q) :
    Does p ok b b' b b' := ⟨h, fun _ _ => ⟨rfl, rfl⟩, [], by simp, rfl, rfl⟩

theorem Does.of_spares {p : Str} {ok : WireOp → Prop} {b b' r r' : Book} (h : r'.cell p = r.cell p) (s : SparesBook p b r)
    (s' : SparesBook p b' r') : Does (some p) ok b b' r r' := by
  refine ⟨fun q hq => ?_, fun q hq => ?_, [], by simp, s.wires, s'.wires⟩
  · injection hq with hq; subst hq; exact h
  · have : q ≠ p := fun e => hq (by rw [e])
    exact ⟨s.cell q this, s'.cell q this⟩

theorem Does.more {p : Option Str} {ok : WireOp → Prop} {b b' r r' t t' : Book} (h : Does p ok b b' r r') (ops : List WireOp)
    (hok : ∀ x ∈ ops, ok x) (hc : ∀ q, t.cell q = r.cell q) (hc' : ∀ q, t'.cell q = r'.cell q)
    (hw : t.wires = r.wires.run ops) (hw' : t'.wires = r'.wires.run ops) : Does p ok b b' t t' := by
  obtain ⟨h1, h2, l, h3, h4, h5⟩ := h
  refine ⟨fun q hq => by rw [hc, hc', h1 q hq], fun q hq => by rw [hc, hc']; exact h2 q hq, l ++ ops, fun x hx => ?_, ?_, ?_⟩
  · rcases List.mem_append.1 hx with hx | hx
    · exact h3 x hx
    · exact hok x hx
  · rw [hw, h4, Wires.run, Wires.run, Wires.run, List.foldl_append]
  · rw [hw', h5, Wires.run, Wires.run, Wires.run, List.foldl_append]

/-- What the server shows of a phone, by the book. -/
def Spec.Book.shown (b : Book) (p : Str) : Option Device := (b.terminal p).map (Terminal.device p)

/-- Two books that look the same to an event. -/
structure Sees (env : Env) (e : Ev) (b b' : Book) : Prop where
  cell : ∀ p, evPhone env e = some p → b'.cell p = b.cell p
  plate : ∀ q, asksFor env e = some q → b'.hasPlate q = b.hasPlate q
  live : ∀ c, ((∃ clk f w, e = .frame clk c f w) ∨ ∃ x, e = .readErr c x) → (c ∈ b'.live ↔ c ∈ b.live)
  line : ∀ a, writesTo env b.shown e = some a → b'.line a = b.line a ∧ ∀ c, b.line a = some c → b'.serial c.id = b.serial c.id

/-- What an event may do to connections. -/
structure Allowed (env : Env) (b : Book) (e : Ev) (x : WireOp) : Prop where
  join : ∀ a, x = .join a → e = .accept a
  addr : ∀ a, x.addr = some a → evAddr e = some a ∨ writesTo env b.shown e = some a
  take : ∀ i, x = .take i → ∃ a c, writesTo env b.shown e = some a ∧ b.line a = some c ∧ c.id = i

theorem Allowed.off {env : Env} {b : Book} {e : Ev} {c : Conn} (h : evAddr e = some c.addr) : Allowed env b e (.off c) :=
  ⟨fun _ x => (by cases x), fun a x => .inl (by rw [h]; exact x), fun _ x => (by cases x)⟩

theorem Allowed.gone {env : Env} {b : Book} {e : Ev} {c : Conn} (h : evAddr e = some c.addr) : Allowed env b e (.gone c) :=
  ⟨fun _ x => (by cases x), fun a x => .inl (by rw [h]; exact x), fun _ x => (by cases x)⟩

theorem Allowed.cut {env : Env} {b : Book} {e : Ev} {c : Conn} (h : evAddr e = some c.addr) :
    ∀ x ∈ [WireOp.off c, .gone c], Allowed env b e x := by
  intro x hx
  simp only [List.mem_cons, List.not_mem_nil, or_false] at hx
  rcases hx with rfl | rfl
  · exact Allowed.off h
  · exact Allowed.gone h

theorem Allowed.taken {env : Env} {b : Book} {e : Ev} {a : Str} {c : Conn} (h : writesTo env b.shown e = some a)
    (hc : b.line a = some c) : Allowed env b e (.take c.id) :=
  ⟨fun _ x => (by cases x), fun _ x => (by cases x), fun i x => ⟨a, c, h, hc, by injection x⟩⟩

theorem whole_alike (env : Env) (clk : Clock) (c : Conn) (ok : WireOp → Prop) {b b' : Book} (pd : Packet)
    (hc : b'.cell pd.header.phone = b.cell pd.header.phone)
    (hp : ∀ t x j, MType.ofID pd.header.msgID = some t → t.decode env clk.civil pd.header pd.body 0 = .ok (.m0100 x, j) →
      b'.hasPlate x.plate = b.hasPlate x.plate) :
    (b'.whole env clk c pd).2 = (b.whole env clk c pd).2 ∧
      Does (some pd.header.phone) ok b b' (b.whole env clk c pd).1 (b'.whole env clk c pd).1 := by
  have hn : Does (some pd.header.phone) ok b b' b b' := Does.nothing fun q hq => by injection hq with hq; subst hq; exact hc
  unfold Spec.Book.whole
  cases hm : MType.ofID pd.header.msgID with
  | none => exact ⟨rfl, hn⟩
  | some t =>
    simp only
    cases hd : t.decode env clk.civil pd.header pd.body 0 with
    | err e => exact ⟨rfl, hn⟩
    | panic => exact ⟨rfl, hn⟩
    | ok x =>
      obtain ⟨m, j⟩ := x
      obtain ⟨h1, h2⟩ := hear_alike env clk c pd.header m hc fun x hx => hp t x j hm (by rw [hd, hx])
      exact ⟨h1, Does.of_spares h2 (SparesBook.hear ..) (SparesBook.hear ..)⟩

theorem piece_alike (ok : WireOp → Prop) {b b' : Book} (h : Header)
    (hok : ∀ t c, b.terminal h.phone = some t → b.line t.conn.addr = some c → ok (.take c.id)) (hc : b'.cell h.phone = b.cell h.phone)
    (hl : ∀ t, b.terminal h.phone = some t → b'.line t.conn.addr = b.line t.conn.addr ∧
      ∀ c, b.line t.conn.addr = some c → b'.serial c.id = b.serial c.id) :
    (b'.piece h).2 = (b.piece h).2 ∧ Does (some h.phone) ok b b' (b.piece h).1 (b'.piece h).1 := by
  have hn : Does (some h.phone) ok b b' b b' := Does.nothing fun q hq => by injection hq with hq; subst hq; exact hc
  obtain ⟨h1, -, -, -⟩ := cell_eq.1 hc
  unfold Spec.Book.piece
  cases MType.ofID h.msgID with
  | none => exact ⟨rfl, hn⟩
  | some _ =>
    simp only [h1]
    cases hb : b.terminal h.phone with
    | none => exact ⟨rfl, hn⟩
    | some t =>
      obtain ⟨l1, l2⟩ := hl t hb
      simp only [l1]
      cases hx : b.line t.conn.addr with
      | none => exact ⟨rfl, hn⟩
      | some c =>
        simp only [l2 c hx]
        refine ⟨trivial, hn.more [.take c.id] (by simp [hok t c hb hx]) (fun _ => rfl) (fun _ => rfl) rfl ?_⟩
        show (⟨b'.line, upd b'.serial c.id (bump (b.serial c.id)), _, _, _⟩ : Wires) = ⟨b'.line, upd b'.serial c.id (bump (b'.serial c.id)), _, _, _⟩
        rw [l2 c hx]
        rfl

theorem frame_alike (env : Env) (clk : Clock) (c : Conn) (f : List UInt8) (w : Option Err) {b b' : Book}
    (hs : Sees env (.frame clk c f w) b b') :
    (b'.frame env clk c f).2 = (b.frame env clk c f).2 ∧
      Does (evPhone env (.frame clk c f w)) (Allowed env b (.frame clk c f w)) b b' (b.frame env clk c f).1
        (b'.frame env clk c f).1 := by
  have hn : Does (evPhone env (.frame clk c f w)) (Allowed env b (.frame clk c f w)) b b' b b' := Does.nothing hs.cell
  unfold Spec.Book.frame
  cases hd : decodeFrame env f with
  | err e => exact ⟨rfl, hn⟩
  | panic => exact ⟨rfl, hn⟩
  | ok pd =>
    have hph : evPhone env (.frame clk c f w) = some pd.header.phone := by simp only [evPhone, hd]
    rw [hph] at hn ⊢
    have hc := hs.cell _ hph
    have hp : ∀ t x j, MType.ofID pd.header.msgID = some t → t.decode env clk.civil pd.header pd.body 0 = .ok (.m0100 x, j) →
        b'.hasPlate x.plate = b.hasPlate x.plate := fun t x j h1 h2 => hs.plate x.plate (by simp only [asksFor, hd, h1, h2])
    have hw := whole_alike env clk c (Allowed env b (.frame clk c f w)) pd hc hp
    simp only
    by_cases hf : pd.header.isFragmented = true
    · rw [if_pos hf, if_pos hf]
      cases pd.header.frag with
      | none => exact ⟨rfl, hn⟩
      | some g =>
        simp only [(cell_eq.1 hc).2.2.2]
        cases b.pieces pd.header.phone (pieceId pd.header.msgID) with
        | none =>
          refine ⟨rfl, Does.of_spares ?_ (SparesBook.pieces ..) (SparesBook.pieces ..)⟩
          obtain ⟨c1, c2, c3, c4⟩ := cell_eq.1 hc
          simp only [cell_pieces, c1, c2, c3]
        | some total =>
          simp only
          by_cases hi : g.index = total
          · rw [if_pos hi, if_pos hi]; exact hw
          · rw [if_neg hi, if_neg hi]
            have hwr : ∀ t, b.terminal pd.header.phone = some t → writesTo env b.shown (.frame clk c f w) = some t.conn.addr := by
              intro t hb
              simp only [writesTo, hd, hf, if_true, Spec.Book.shown, hb]
              rfl
            exact piece_alike _ pd.header (fun t c hb hx => Allowed.taken (hwr t hb) hx) hc fun t hb => hs.line t.conn.addr (hwr t hb)
    · rw [if_neg hf, if_neg hf]; exact hw

theorem cell_hang (b : Book) (c : Conn) (l : List Conn) (q : Str) : ({ b.hang c with live := l } : Book).cell q = b.cell q := rfl

theorem send_alike (ok : WireOp → Prop) (w : Option Err) {b b' : Book} (p : Str) (t : Terminal) (code : Option Nat) (id : UInt16)
    (body : Res (List UInt8)) (hc : b'.cell p = b.cell p) (hl : b'.line t.conn.addr = b.line t.conn.addr)
    (hq : ∀ c, b.line t.conn.addr = some c → b'.serial c.id = b.serial c.id ∧ c.addr = t.conn.addr)
    (h1 : ∀ c, b.line t.conn.addr = some c → ok (.take c.id)) (h2 : ∀ c : Conn, c.addr = t.conn.addr → ok (.off c)) :
    (b'.send w p t code id body).2 = (b.send w p t code id body).2 ∧
      Does (some p) ok b b' (b.send w p t code id body).1 (b'.send w p t code id body).1 := by
  have hn : Does (some p) ok b b' b b' := Does.nothing fun q hq => by injection hq with hq; subst hq; exact hc
  unfold Spec.Book.send
  simp only [hl]
  cases hx : b.line t.conn.addr with
  | none => exact ⟨rfl, hn⟩
  | some c =>
    obtain ⟨q1, q2⟩ := hq c hx
    simp only [q1]
    have hw : (⟨b'.line, upd b'.serial c.id (bump (b.serial c.id)), b'.live, b'.closed, b'.accepted⟩ : Wires) =
        b'.wires.run [.take c.id] := by rw [← q1]; rfl
    have hd : Does (some p) ok b b' { b with serial := upd b.serial c.id (bump (b.serial c.id)) }
        { b' with serial := upd b'.serial c.id (bump (b.serial c.id)) } :=
      hn.more [.take c.id] (by simp [h1 c hx]) (fun _ => rfl) (fun _ => rfl) rfl hw
    cases body with
    | err e => exact ⟨rfl, hd⟩
    | panic => exact ⟨rfl, hd⟩
    | ok bs =>
      cases w with
      | none => exact ⟨rfl, hd⟩
      | some e =>
        refine ⟨rfl, ?_⟩
        simp only
        by_cases he : e = .closed
        · rw [if_pos he, if_pos he]
          exact hd.more [.off c] (by simp [h2 c q2]) (fun _ => rfl) (fun _ => rfl) rfl rfl
        · rw [if_neg he, if_neg he]; exact hd

/-- One event on two books that look the same to it. -/
theorem step_alike (env : Env) (e : Ev) {b b' : Book} (hs : Sees env e b b') (ha : ∀ a c, b.line a = some c → c.addr = a) :
    (b'.step env e).2 = (b.step env e).2 ∧
      Does (evPhone env e) (Allowed env b e) b b' (b.step env e).1 (b'.step env e).1 := by
  have hn : Does (evPhone env e) (Allowed env b e) b b' b b' := Does.nothing hs.cell
  cases e with
  | accept a =>
    exact ⟨rfl, hn.more [.join a] (by
      intro x hx
      simp only [List.mem_singleton] at hx
      subst hx
      exact ⟨fun _ h => (by injection h with h; rw [h]), fun _ h => .inl h, fun _ h => (by cases h)⟩) (fun _ => rfl) (fun _ => rfl) rfl rfl⟩
  | frame clk c f w =>
    have hl := hs.live c (.inl ⟨_, _, _, rfl⟩)
    simp only [Spec.Book.step]
    by_cases hc : c ∈ b.live
    · rw [if_pos hc, if_pos (hl.2 hc)]
      obtain ⟨h1, h2⟩ := frame_alike env clk c f w hs
      have hang := h2.more (t := { (b.frame env clk c f).1.hang c with live := (b.frame env clk c f).1.live.filter (· ≠ c) })
        (t' := { (b'.frame env clk c f).1.hang c with live := (b'.frame env clk c f).1.live.filter (· ≠ c) })
        [.off c, .gone c] (Allowed.cut rfl) (fun _ => rfl) (fun _ => rfl) rfl rfl
      generalize b.frame env clk c f = x at *
      generalize b'.frame env clk c f = x' at *
      obtain ⟨r, act⟩ := x
      obtain ⟨r', act'⟩ := x'
      simp only at h1 h2 hang
      subst h1
      cases act' with
      | quiet => exact ⟨rfl, h2⟩
      | hangUp => exact ⟨rfl, hang⟩
      | say g =>
        cases w with
        | none => exact ⟨rfl, h2⟩
        | some e =>
          simp only
          by_cases he : fatal e = true
          · rw [if_pos he, if_pos he]; exact ⟨rfl, hang⟩
          · rw [if_neg he, if_neg he]; exact ⟨rfl, h2⟩
    · rw [if_neg hc, if_neg fun x => hc (hl.1 x)]
      exact ⟨rfl, hn⟩
  | readErr c e =>
    have hl := hs.live c (.inr ⟨_, rfl⟩)
    simp only [Spec.Book.step]
    by_cases hc : c ∈ b.live ∧ fatal e = true
    · rw [if_pos hc, if_pos ⟨hl.2 hc.1, hc.2⟩]
      exact ⟨rfl, hn.more [.off c, .gone c] (Allowed.cut rfl) (fun _ => rfl) (fun _ => rfl) rfl rfl⟩
    · rw [if_neg hc, if_neg fun x => hc ⟨hl.1 x.1, x.2⟩]
      exact ⟨rfl, hn⟩
  | check clk p =>
    obtain ⟨h1, h2, h3, h4⟩ := cell_eq.1 (hs.cell p rfl)
    simp only [Spec.Book.step, h1]
    cases hb : b.terminal p with
    | none => exact ⟨rfl, hn⟩
    | some t =>
      simp only
      by_cases hx : t.last + 60000 < clk.ms
      · rw [if_pos hx, if_pos hx]
        by_cases hy : t.presence = .offline
        · rw [if_pos hy, if_pos hy]
          have hd : Does (some p) (Allowed env b (.check clk p)) b b' { b.drop p with reports := upd b.reports p [] }
              { b'.drop p with reports := upd b'.reports p [] } :=
            Does.of_spares (by
              have e1 := cell_reports (b.drop p) p []
              have e2 := cell_reports (b'.drop p) p []
              refine Eq.trans e2 (Eq.trans ?_ e1.symm)
              rw [Book.terminal_drop, Book.terminal_drop, if_pos rfl, if_pos rfl]
              show (none, [], b'.params p, b'.pieces p) = (none, [], b.params p, b.pieces p)
              rw [h3, h4]) ((SparesBook.drop _ _).trans (SparesBook.reports _ _ _)) ((SparesBook.drop _ _).trans (SparesBook.reports _ _ _))
          exact ⟨rfl, hd.more [.shut t.conn.id] (by
            intro x hx
            simp only [List.mem_singleton] at hx
            subst hx
            exact ⟨fun _ h => (by cases h), fun _ h => (by cases h), fun _ h => (by cases h)⟩) (fun _ => rfl) (fun _ => rfl) rfl rfl⟩
        · rw [if_neg hy, if_neg hy]
          exact ⟨rfl, Does.of_spares (by simp only [cell_put, h2, h3, h4]) (SparesBook.put ..) (SparesBook.put ..)⟩
      · rw [if_neg hx, if_neg hx]; exact ⟨rfl, hn⟩
  | httpList => exact ⟨rfl, hn⟩
  | httpGeo p =>
    obtain ⟨h1, -, -, -⟩ := cell_eq.1 (hs.cell p rfl)
    refine ⟨?_, hn⟩
    simp only [Spec.Book.step, h1]
  | httpQuery p w =>
    have hc := hs.cell p rfl
    obtain ⟨h1, -, -, -⟩ := cell_eq.1 hc
    simp only [Spec.Book.step, h1]
    cases hb : b.terminal p with
    | none => exact ⟨rfl, hn⟩
    | some t =>
      have hw : writesTo env b.shown (.httpQuery p w) = some t.conn.addr := by simp only [writesTo, Spec.Book.shown, hb]; rfl
      obtain ⟨l1, l2⟩ := hs.line _ hw
      refine send_alike _ w p t none _ _ hc l1 (fun c hx => ⟨l2 c hx, ha _ _ hx⟩) (fun c hx => Allowed.taken hw hx)
        fun c hx => ⟨fun _ h => (by cases h), fun a h => .inr ?_, fun _ h => (by cases h)⟩
      rw [hw, ← hx]; exact h
  | httpSet p q bad w =>
    have hc := hs.cell p rfl
    obtain ⟨h1, -, -, -⟩ := cell_eq.1 hc
    simp only [Spec.Book.step, h1]
    cases hb : b.terminal p with
    | none => exact ⟨rfl, hn⟩
    | some t =>
      have hw : writesTo env b.shown (.httpSet p q bad w) = some t.conn.addr := by simp only [writesTo, Spec.Book.shown, hb]; rfl
      obtain ⟨l1, l2⟩ := hs.line _ hw
      refine send_alike _ w p t _ _ _ hc l1 (fun c hx => ⟨l2 c hx, ha _ _ hx⟩) (fun c hx => Allowed.taken hw hx)
        fun c hx => ⟨fun _ h => (by cases h), fun a h => .inr ?_, fun _ h => (by cases h)⟩
      rw [hw, ← hx]; exact h

/-! ## Plates -/

theorem hear_plate (env : Env) (clk : Clock) (c : Conn) (b : Book) (h : Header) (m : Msg) {t : Terminal}
    (ht : (b.hear env clk c h m).1.terminal h.phone = some t) :
    (∃ t0, b.terminal h.phone = some t0 ∧ t0.plate = t.plate) ∨ ∃ x, m = .m0100 x ∧ x.plate = t.plate := by
  have keep : b.terminal h.phone = some t → (∃ t0, b.terminal h.phone = some t0 ∧ t0.plate = t.plate) ∨
      ∃ x, m = .m0100 x ∧ x.plate = t.plate := fun h => .inl ⟨t, h, rfl⟩
  have put : ∀ t0 t1 : Terminal, ∀ b' : Book, (∀ q, b'.terminal q = b.terminal q) → b.terminal h.phone = some t0 →
      (b'.put h.phone t1).terminal h.phone = some t → t1.plate = t0.plate →
      (∃ t0, b.terminal h.phone = some t0 ∧ t0.plate = t.plate) ∨ ∃ x, m = .m0100 x ∧ x.plate = t.plate := by
    intro t0 t1 b' hb h0 hx hp
    rw [Book.terminal_put, if_pos rfl] at hx
    injection hx with hx
    subst hx
    exact .inl ⟨t0, h0, hp.symm⟩
  have drop : (b.drop h.phone).terminal h.phone ≠ some t := by
    rw [Book.terminal_drop, if_pos rfl]; exact fun e => by cases e
  cases m with
  | m0002 =>
    simp only [Spec.Book.hear] at ht
    cases hb : b.terminal h.phone with
    | none => simp only [hb] at ht; cases ht
    | some t0 => simp only [hb] at ht; rw [← hb]; exact put t0 _ b (fun _ => rfl) hb ht rfl
  | m0003 =>
    simp only [Spec.Book.hear] at ht
    cases hb : b.terminal h.phone with
    | none => simp only [hb] at ht; cases ht
    | some t0 => simp only [hb] at ht; exact absurd ht drop
  | m0100 m =>
    simp only [Spec.Book.hear] at ht
    split at ht
    · exact keep ht
    · split at ht
      · exact keep ht
      · rw [Book.terminal_put, if_pos rfl] at ht
        injection ht with ht
        subst ht
        exact .inr ⟨m, rfl, rfl⟩
  | m0102 m =>
    simp only [Spec.Book.hear] at ht
    cases hb : b.terminal h.phone with
    | none => simp only [hb] at ht; cases ht
    | some t0 =>
      simp only [hb] at ht
      split at ht
      · rw [← hb]; exact put t0 _ b (fun _ => rfl) hb ht rfl
      · exact absurd ht drop
  | m0200 m =>
    simp only [Spec.Book.hear] at ht
    cases hb : b.terminal h.phone with
    | none => simp only [hb] at ht; cases ht
    | some t0 =>
      simp only [hb] at ht
      rw [← hb]
      split at ht
      · exact keep ht
      · exact put t0 _ { b with reports := upd b.reports h.phone (b.reports h.phone ++ [DeviceGeo.decode clk.civil h.phone m]) }
          (fun _ => rfl) hb ht rfl
  | m8001 m =>
    simp only [Spec.Book.hear] at ht
    cases hb : b.terminal h.phone with
    | none => simp only [hb] at ht; cases ht
    | some t0 =>
      simp only [hb] at ht
      rw [← hb]
      split at ht
      · exact put t0 _ b (fun _ => rfl) hb ht rfl
      · exact keep ht
  | m8100 m =>
    simp only [Spec.Book.hear] at ht
    split at ht <;> exact keep ht
  | m8103 m => exact keep ht
  | m8104 =>
    simp only [Spec.Book.hear] at ht
    split at ht
    · exact keep ht
    · split at ht <;> exact keep ht
  | m9205 m => exact keep ht
  | m0001 m => exact keep ht
  | m0104 m => exact keep ht
  | m1205 m => exact keep ht

theorem frame_plate (env : Env) (clk : Clock) (c : Conn) (f : List UInt8) (w : Option Err) (b : Book) {p : Str} {t : Terminal}
    (hp : evPhone env (.frame clk c f w) = some p) (ht : (b.frame env clk c f).1.terminal p = some t) :
    (∃ t0, b.terminal p = some t0 ∧ t0.plate = t.plate) ∨ asksFor env (.frame clk c f w) = some t.plate := by
  unfold Spec.Book.frame at ht
  simp only [asksFor, evPhone] at hp ⊢
  cases hd : decodeFrame env f with
  | err e => rw [hd] at hp; cases hp
  | panic => rw [hd] at hp; cases hp
  | ok pd =>
    simp only [hd] at hp ht ⊢
    injection hp with hp
    subst hp
    have whole : (b.whole env clk c pd).1.terminal pd.header.phone = some t →
        (∃ t0, b.terminal pd.header.phone = some t0 ∧ t0.plate = t.plate) ∨
        (match MType.ofID pd.header.msgID with
          | some t => match t.decode env clk.civil pd.header pd.body 0 with
            | .ok (.m0100 m, _) => some m.plate
            | _ => none
          | none => none) = some t.plate := by
      intro hx
      unfold Spec.Book.whole at hx
      cases hm : MType.ofID pd.header.msgID with
      | none => simp only [hm] at hx; exact .inl ⟨t, hx, rfl⟩
      | some ty =>
        simp only [hm] at hx ⊢
        cases hk : ty.decode env clk.civil pd.header pd.body 0 with
        | err e => simp only [hk] at hx; exact .inl ⟨t, hx, rfl⟩
        | panic => simp only [hk] at hx; exact .inl ⟨t, hx, rfl⟩
        | ok x =>
          obtain ⟨m, j⟩ := x
          simp only [hk] at hx
          rcases hear_plate env clk c b pd.header m hx with h | ⟨y, rfl, hy⟩
          · exact .inl h
          · exact .inr (by simp only [hy])
    split at ht
    · split at ht
      · exact .inl ⟨t, ht, rfl⟩
      · split at ht
        · exact .inl ⟨t, ht, rfl⟩
        · split at ht
          · exact whole ht
          · unfold Spec.Book.piece at ht
            split at ht
            · exact .inl ⟨t, ht, rfl⟩
            · split at ht
              · exact .inl ⟨t, ht, rfl⟩
              · split at ht <;> exact .inl ⟨t, ht, rfl⟩
    · exact whole ht

theorem send_terminal (w : Option Err) (b : Book) (p : Str) (t : Terminal) (code : Option Nat) (id : UInt16)
    (body : Res (List UInt8)) (q : Str) : (b.send w p t code id body).1.terminal q = b.terminal q := by
  unfold Spec.Book.send
  split
  · rfl
  · simp only
    split
    · rfl
    · split <;> rfl
    · rfl
    · rfl

theorem step_plate (env : Env) (e : Ev) (b : Book) {p : Str} {t : Terminal} (ht : (b.step env e).1.terminal p = some t)
    (hp : evPhone env e = some p) :
    (∃ t0, b.terminal p = some t0 ∧ t0.plate = t.plate) ∨ asksFor env e = some t.plate := by
  cases e with
  | accept a => cases hp
  | readErr c e => cases hp
  | httpList => cases hp
  | frame clk c f w =>
    simp only [Spec.Book.step] at ht
    split at ht
    · have : (b.frame env clk c f).1.terminal p = some t := by
        generalize b.frame env clk c f = x at ht ⊢
        obtain ⟨r, act⟩ := x
        cases act with
        | quiet => exact ht
        | hangUp => exact ht
        | say g =>
          cases w with
          | none => exact ht
          | some e =>
            simp only at ht
            split at ht <;> exact ht
      exact frame_plate env clk c f w b hp this
    · exact .inl ⟨t, ht, rfl⟩
  | check clk q =>
    injection hp with hp
    subst hp
    simp only [Spec.Book.step] at ht
    cases hb : b.terminal q with
    | none => simp only [hb] at ht; cases ht
    | some t0 =>
      simp only [hb] at ht
      left
      split at ht
      · split at ht
        · exfalso
          have : (b.drop q).terminal q = some t := ht
          rw [Book.terminal_drop, if_pos rfl] at this
          cases this
        · rw [Book.terminal_put, if_pos rfl] at ht
          injection ht with ht
          subst ht
          exact ⟨t0, rfl, rfl⟩
      · rw [hb] at ht; exact ⟨t, ht, rfl⟩
  | httpGeo q => exact .inl ⟨t, ht, rfl⟩
  | httpQuery q w =>
    simp only [Spec.Book.step] at ht
    split at ht
    · exact .inl ⟨t, ht, rfl⟩
    · rw [send_terminal] at ht; exact .inl ⟨t, ht, rfl⟩
  | httpSet q x bad w =>
    simp only [Spec.Book.step] at ht
    split at ht
    · exact .inl ⟨t, ht, rfl⟩
    · rw [send_terminal] at ht; exact .inl ⟨t, ht, rfl⟩

/-! ## Two events -/

/-- What the book of a server has about connections. -/
structure Tidy (b : Book) : Prop where
  nodup : b.NoTwice
  addr : ∀ a c, b.line a = some c → c.addr = a
  ids : ∀ a a' c c', b.line a = some c → b.line a' = some c' → c.id = c'.id → c = c'

theorem sees_self (env : Env) (e : Ev) (b : Book) : Sees env e b b :=
  ⟨fun _ _ => rfl, fun _ _ => rfl, fun _ _ => Iff.rfl, fun _ _ => ⟨rfl, fun _ _ => rfl⟩⟩

theorem run_line {ops : List WireOp} {a : Str} (h : ∀ x ∈ ops, x.addr ≠ some a) (w : Wires) : (w.run ops).line a = w.line a := by
  induction ops generalizing w with
  | nil => rfl
  | cons x ops ih =>
    show ((x.apply w).run ops).line a = _
    rw [ih fun y hy => h y (by simp [hy])]
    have hx := h x (by simp)
    cases x with
    | off c => exact if_neg fun e => hx (by rw [e]; rfl)
    | join b => exact if_neg fun e => hx (by rw [e]; rfl)
    | _ => rfl

theorem run_live {ops : List WireOp} {c : Conn} (h : ∀ x ∈ ops, x.addr ≠ some c.addr) (w : Wires) :
    c ∈ (w.run ops).live ↔ c ∈ w.live := by
  induction ops generalizing w with
  | nil => exact Iff.rfl
  | cons x ops ih =>
    show c ∈ ((x.apply w).run ops).live ↔ _
    rw [ih fun y hy => h y (by simp [hy])]
    have hx := h x (by simp)
    cases x with
    | gone d =>
      have : c ≠ d := fun e => hx (by rw [e]; rfl)
      simp [WireOp.apply, this]
    | join a =>
      have : c ≠ ⟨w.accepted, a⟩ := fun e => hx (by rw [e]; rfl)
      simp [WireOp.apply, this]
    | _ => exact Iff.rfl

theorem run_serial {ops : List WireOp} {i : Nat} (h : WireOp.take i ∉ ops) (w : Wires) : (w.run ops).serial i = w.serial i := by
  induction ops generalizing w with
  | nil => rfl
  | cons x ops ih =>
    show ((x.apply w).run ops).serial i = _
    rw [ih fun hm => h (by simp [hm])]
    cases x with
    | take j => exact if_neg fun e => h (by rw [e]; simp)
    | _ => rfl

/-- After an event that is apart, everything looks the same. -/
theorem sees_after (env : Env) {b : Book} (ht : Tidy b) {e e' : Ev} (hn : (b.step env e').1.NoTwice)
    (h : Apart env b.shown e e') : Sees env e b (b.step env e').1 := by
  obtain ⟨-, -, hrest, ops, hok, hw, -⟩ := step_alike env e' (sees_self env e' b) ht.addr
  have hline : ∀ a, (b.step env e').1.line a = (b.wires.run ops).line a := fun a => by rw [← hw]; rfl
  have hser : ∀ a, (b.step env e').1.serial a = (b.wires.run ops).serial a := fun a => by rw [← hw]; rfl
  have hlive : (b.step env e').1.live = (b.wires.run ops).live := by rw [← hw]; rfl
  refine ⟨fun p hp => (hrest p (h.left.phone p hp)).1, fun q hq => ?_, fun c hc => ?_, fun a ha => ?_⟩
  · obtain ⟨h1, h2⟩ := h.left.plate q hq
    rw [Bool.eq_iff_iff, Book.hasPlate_iff hn, Book.hasPlate_iff ht.nodup]
    constructor
    · rintro ⟨p, t, hp, rfl⟩
      by_cases he : evPhone env e' = some p
      · rcases step_plate env e' b hp he with ⟨t0, h3, h4⟩ | h3
        · exact ⟨p, t0, h3, h4⟩
        · exact absurd h3 h1
      · have := (cell_eq.1 (hrest p he).1).1
        exact ⟨p, t, by rw [← this, hp], rfl⟩
    · rintro ⟨p, t, hp, rfl⟩
      by_cases he : evPhone env e' = some p
      · exact absurd rfl (h2 p (t.device p) he (by unfold Spec.Book.shown; rw [hp]; rfl))
      · have := (cell_eq.1 (hrest p he).1).1
        exact ⟨p, t, by rw [this, hp], rfl⟩
  · have hca : evAddr e = some c.addr := by
      rcases hc with ⟨clk, f, w, rfl⟩ | ⟨x, rfl⟩ <;> rfl
    rw [hlive, run_live (fun x hx hxa => ?_)]
    · exact Iff.rfl
    · rcases (hok x hx).addr _ hxa with h1 | h1
      · exact h.left.addr _ hca h1
      · exact (h.right.writes _ h1).1 hca
  · obtain ⟨h1, h2⟩ := h.left.writes a ha
    refine ⟨?_, fun c hc => ?_⟩
    · rw [hline, run_line (fun x hx hxa => ?_)]
      · rfl
      · rcases (hok x hx).addr _ hxa with h3 | h3
        · exact h1 h3
        · exact h2 h3
    · rw [hser, run_serial (fun hx => ?_)]
      · rfl
      · obtain ⟨a', c', h3, h4, h5⟩ := (hok _ hx).take _ rfl
        have := ht.ids a a' c c' hc h4 h5.symm
        subst this
        have : a = a' := by rw [← ht.addr _ _ hc, ← ht.addr _ _ h4]
        subst this
        exact h2 h3

/-- Two books that say the same, with the terminals in some order. -/
structure Alike (b b' : Book) : Prop where
  cell : ∀ p, b'.cell p = b.cell p
  wires : b'.wires = b.wires

theorem free_of_apart {env : Env} {b : Book} {e e' : Ev} (h : Apart env b.shown e e') {x y : WireOp} (hx : Allowed env b e x)
    (hy : Allowed env b e' y) : x.Free y := by
  refine ⟨fun a ha hya => ?_, fun a ha hxa => ?_, fun a a' ha ha' => h.notBoth a a' (hx.join a ha) (hy.join a' ha')⟩
  · have e1 := hx.join a ha
    subst e1
    rcases hy.addr a hya with h1 | h1
    · exact h.left.addr a rfl h1
    · exact (h.right.writes a h1).1 rfl
  · have e1 := hy.join a ha
    subst e1
    rcases hx.addr a hxa with h1 | h1
    · exact h.right.addr a rfl h1
    · exact (h.left.writes a h1).1 rfl

theorem Spec.Apart.symm {env : Env} {shown : Str → Option Device} {e e' : Ev} (h : Apart env shown e e') : Apart env shown e' e :=
  ⟨h.right, h.left, fun a a' h1 h2 => h.notBoth a' a h2 h1⟩

/-- Two events that are apart, in either order. -/
theorem step_comm (env : Env) {b : Book} (ht : Tidy b) {e e' : Ev} (hn : (b.step env e).1.NoTwice) (hn' : (b.step env e').1.NoTwice)
    (h : Apart env b.shown e e') :
    ((b.step env e').1.step env e).2 = (b.step env e).2 ∧ ((b.step env e).1.step env e').2 = (b.step env e').2 ∧
      Alike ((b.step env e).1.step env e').1 ((b.step env e').1.step env e).1 := by
  obtain ⟨o1, own1, rest1, ops1, ok1, w1, w1'⟩ := step_alike env e (sees_after env ht hn' h) ht.addr
  obtain ⟨o2, own2, rest2, ops2, ok2, w2, w2'⟩ := step_alike env e' (sees_after env ht hn h.symm) ht.addr
  refine ⟨o1, o2, fun p => ?_, ?_⟩
  · by_cases h1 : evPhone env e = some p
    · have h2 := h.left.phone p h1
      rw [own1 p h1, (rest2 p h2).2]
    · by_cases h2 : evPhone env e' = some p
      · rw [(rest1 p h1).2, own2 p h2]
      · rw [(rest1 p h1).2, (rest2 p h2).1, (rest2 p h2).2, (rest1 p h1).1]
  · rw [w1', w2', w1, w2]
    exact Wires.run_comm (fun x hx y hy => free_of_apart h.symm (ok2 x hx) (ok1 y hy)) _

theorem Noted.alike {st : Store} {b b' : Book} (h : Noted st b) (ha : Alike b b') (hn : b'.NoTwice) : Noted st b' := by
  have hc := fun p => cell_eq.1 (ha.cell p)
  have hw := ha.wires
  unfold Spec.Book.wires at hw
  simp only [Wires.mk.injEq] at hw
  obtain ⟨w1, w2, w3, w4, w5⟩ := hw
  refine ⟨fun p => by rw [(hc p).1]; exact h.terminal p, hn, fun p => by rw [(hc p).2.1]; exact h.reports p,
    fun p => by rw [(hc p).2.2.1]; exact h.params p, fun p i hp => by rw [(hc p).2.2.2]; exact h.pieces p i hp,
    fun a => by rw [w1]; exact h.line a, fun a c => by rw [w1]; exact h.lineAddr a c, fun i => by rw [w2]; exact h.serial i,
    fun i => by rw [w4]; exact h.closed i⟩

end JT808
