import Verif.Spec.Reference
import Verif.Props.Refinement
import Verif.Props.Fragments
import Verif.Props.Ring
import Verif.Props.Handlers
import Verif.Proof.Typed
import Verif.Proof.Interleave
import Verif.Props.Query
import Verif.Proof.Sessions
/-
Helper lemmas for Verif/Props/Reference.lean: the state of the server and the book of the reference server agree.
-/
namespace JT808
open Spec

/-! ## The book -/

theorem upd_apply {α β : Type} [DecidableEq α] (f : α → β) (a : α) (b : β) (x : α) :
    upd f a b x = if x = a then b else f x := rfl

theorem find_filter_ne (l : List (Str × Terminal)) (p q : Str) :
    ((l.filter fun e => e.1 != p).find? fun e => e.1 == q) = if q = p then none else l.find? fun e => e.1 == q := by
  induction l with
  | nil => simp
  | cons e l ih =>
    by_cases hp : e.1 = p
    · rw [List.filter_cons_of_neg (by simp [hp]), ih]
      by_cases hq : q = p
      · rw [if_pos hq, if_pos hq]
      · rw [if_neg hq, if_neg hq, List.find?_cons_of_neg (by simp [hp]; exact fun h => hq h.symm)]
    · rw [List.filter_cons_of_pos (by simp [hp])]
      by_cases he : e.1 = q
      · rw [List.find?_cons_of_pos (by simp [he]), List.find?_cons_of_pos (by simp [he]), if_neg (fun h => hp (he.trans h))]
      · rw [List.find?_cons_of_neg (by simp [he]), List.find?_cons_of_neg (by simp [he]), ih]

theorem Spec.Book.terminal_drop (b : Book) (p q : Str) : (b.drop p).terminal q = if q = p then none else b.terminal q := by
  unfold Book.terminal Book.drop
  simp only [find_filter_ne]
  by_cases h : q = p
  · rw [if_pos h, if_pos h]; rfl
  · rw [if_neg h, if_neg h]

theorem Spec.Book.terminal_put (b : Book) (p : Str) (t : Terminal) (q : Str) :
    (b.put p t).terminal q = if q = p then some t else b.terminal q := by
  unfold Book.terminal Book.put
  simp only
  by_cases h : q = p
  · rw [if_pos h, List.find?_cons_of_pos (by simp [h])]; rfl
  · rw [if_neg h, List.find?_cons_of_neg (by simp; exact fun x => h x.symm), find_filter_ne, if_neg h]

def Spec.Book.NoTwice (b : Book) : Prop := (b.terminals.map (·.1)).Nodup

theorem Spec.Book.noTwice_drop {b : Book} (h : b.NoTwice) (p : Str) : (b.drop p).NoTwice :=
  h.sublist ((List.filter_sublist (l := b.terminals)).map _)

theorem Spec.Book.noTwice_put {b : Book} (h : b.NoTwice) (p : Str) (t : Terminal) : (b.put p t).NoTwice := by
  unfold Book.NoTwice Book.put
  rw [List.map_cons, List.nodup_cons]
  refine ⟨fun hx => ?_, h.sublist ((List.filter_sublist (l := b.terminals)).map _)⟩
  obtain ⟨e, he, hp⟩ := List.mem_map.1 hx
  have := (List.mem_filter.1 he).2
  simp [hp] at this

theorem Spec.Book.mem_terminal {b : Book} (h : b.NoTwice) (p : Str) (t : Terminal) : (p, t) ∈ b.terminals ↔ b.terminal p = some t := by
  unfold Book.terminal
  unfold Book.NoTwice at h
  generalize b.terminals = l at h
  induction l with
  | nil => simp
  | cons e l ih =>
    rw [List.map_cons, List.nodup_cons] at h
    by_cases he : e.1 = p
    · rw [List.find?_cons_of_pos (by simp [he])]
      simp only [List.mem_cons, Option.map_some, Option.some.injEq]
      constructor
      · rintro (rfl | hm)
        · rfl
        · exact absurd (List.mem_map.2 ⟨_, hm, he.symm⟩) h.1
      · rintro rfl
        exact .inl (Prod.ext he.symm rfl)
    · rw [List.find?_cons_of_neg (by simp [he]), ← ih h.2]
      simp only [List.mem_cons]
      constructor
      · rintro (rfl | hm)
        · exact absurd rfl he
        · exact hm
      · exact .inr

theorem Spec.Book.hasPlate_iff {b : Book} (h : b.NoTwice) (q : Str) :
    b.hasPlate q = true ↔ ∃ p t, b.terminal p = some t ∧ t.plate = q := by
  unfold Book.hasPlate
  rw [List.any_eq_true]
  constructor
  · rintro ⟨e, he, hq⟩
    exact ⟨e.1, e.2, (Book.mem_terminal h _ _).1 he, by simpa using hq⟩
  · rintro ⟨p, t, ht, hq⟩
    exact ⟨(p, t), (Book.mem_terminal h _ _).2 ht, by simpa using hq⟩

/-! ## Agreement -/

/-- The state and the book say the same. -/
structure Noted (st : Store) (b : Book) : Prop where
  terminal : ∀ p, st.look p = (b.terminal p).map (Terminal.device p)
  nodup : b.NoTwice
  reports : ∀ p, RingInv 100 ((b.reports p).map some) 0 ((st.geos.get p).getD (Ring.new 100))
  params : ∀ p, st.params.get p = b.params p
  pieces : ∀ p id, (0x2f : UInt8) ∉ p → (st.segs.get (segKey p id)).map (·.total) = b.pieces p (pieceId id)
  line : ∀ a, st.session a = b.line a
  lineAddr : ∀ a c, b.line a = some c → c.addr = a
  serial : ∀ i, (st.serial i).toNat = b.serial i ∧ b.serial i < 65536
  closed : ∀ i, st.closed i = b.closed i

theorem Noted.start : Noted Store.empty Book.start where
  terminal p := rfl
  nodup := List.nodup_nil
  reports p := RingInv.init 100
  params p := rfl
  pieces p id _ := rfl
  line a := rfl
  lineAddr a c h := by cases h
  serial i := ⟨rfl, (by decide : (0 : Nat) < 65536)⟩
  closed i := rfl

/-- What is not about devices. -/
structure SameElse (st st' : Store) : Prop where
  geos : st'.geos = st.geos
  params : st'.params = st.params
  segs : st'.segs = st.segs
  sessions : st'.sessions = st.sessions
  serial : st'.serial = st.serial
  closed : st'.closed = st.closed

theorem SameElse.refl (st : Store) : SameElse st st := ⟨rfl, rfl, rfl, rfl, rfl, rfl⟩

theorem SameElse.trans {a b c : Store} (h : SameElse a b) (h' : SameElse b c) : SameElse a c :=
  ⟨h'.geos.trans h.geos, h'.params.trans h.params, h'.segs.trans h.segs, h'.sessions.trans h.sessions,
    h'.serial.trans h.serial, h'.closed.trans h.closed⟩

theorem delByPhone_else (st : Store) (p : Str) : SameElse st (st.delByPhone p) := by
  unfold Store.delByPhone
  split <;> exact ⟨rfl, rfl, rfl, rfl, rfl, rfl⟩

theorem registerJob_else (st : Store) (p : Str) : SameElse st (st.registerJob p) := by
  unfold Store.registerJob
  split <;> exact ⟨rfl, rfl, rfl, rfl, rfl, rfl⟩

theorem Noted.devices {st st' : Store} {b : Book} (h : Noted st b) (hs : SameElse st st') {ts : List (Str × Terminal)}
    (ht : ∀ p, st'.look p = (({ b with terminals := ts } : Book).terminal p).map (Terminal.device p))
    (hn : ({ b with terminals := ts } : Book).NoTwice) : Noted st' { b with terminals := ts } where
  terminal := ht
  nodup := hn
  reports p := by rw [hs.geos]; exact h.reports p
  params p := by rw [hs.params]; exact h.params p
  pieces p id hp := by rw [hs.segs]; exact h.pieces p id hp
  line a := by unfold Store.session; rw [hs.sessions]; exact h.line a
  lineAddr := h.lineAddr
  serial i := by rw [hs.serial]; exact h.serial i
  closed i := by rw [hs.closed]; exact h.closed i

/-- A terminal changes or is registered. -/
theorem Noted.put {st st' : Store} {b : Book} (h : Noted st b) (hs : SameElse st st') (p : Str) (t : Terminal)
    (ht : ∀ q, st'.look q = if q = p then some (t.device p) else st.look q) : Noted st' (b.put p t) := by
  refine h.devices hs (fun q => ?_) (Book.noTwice_put h.nodup p t)
  have := Book.terminal_put b p t q
  unfold Book.put at this
  rw [this, ht]
  by_cases hq : q = p
  · rw [if_pos hq, if_pos hq, hq]; rfl
  · rw [if_neg hq, if_neg hq, h.terminal]

/-- A terminal goes. -/
theorem Noted.drop {st st' : Store} {b : Book} (h : Noted st b) (hs : SameElse st st') (p : Str)
    (ht : ∀ q, st'.look q = if q = p then none else st.look q) : Noted st' (b.drop p) := by
  refine h.devices hs (fun q => ?_) (Book.noTwice_drop h.nodup p)
  have := Book.terminal_drop b p q
  unfold Book.drop at this
  rw [this, ht]
  by_cases hq : q = p
  · rw [if_pos hq, if_pos hq]; rfl
  · rw [if_neg hq, if_neg hq, h.terminal]

/-- Nothing changes for devices. -/
theorem Noted.same {st st' : Store} {b : Book} (h : Noted st b) (hs : SameElse st st') (ht : ∀ q, st'.look q = st.look q) :
    Noted st' b :=
  h.devices hs (ts := b.terminals) (fun q => by rw [ht]; exact h.terminal q) h.nodup

theorem Noted.plate {st : Store} {b : Book} (h : Noted st b) (hi : StoreInv st) (q : Str) : b.hasPlate q = st.taken q := by
  rw [Bool.eq_iff_iff, Book.hasPlate_iff h.nodup, ← registry_hasPlate hi]
  unfold Registry.hasPlate Store.registry
  constructor
  · rintro ⟨p, t, ht, hq⟩
    exact ⟨p, (t.device p).entry, by rw [h.terminal, ht]; rfl, hq⟩
  · rintro ⟨p, e, he, hq⟩
    rw [h.terminal] at he
    cases ht : b.terminal p with
    | none => rw [ht] at he; cases he
    | some t =>
      rw [ht] at he
      simp only [Option.map_some, Option.some.injEq] at he
      exact ⟨p, t, ht, by rw [← hq, ← he]; rfl⟩

/-- A location report is kept. -/
theorem Noted.report {st : Store} {b : Book} (h : Noted st b) {p : Str} {g : DeviceGeo} {rb : Ring DeviceGeo}
    (hw : ((st.geos.get p).getD (Ring.new 100)).write (some g) = .ok rb) :
    Noted { st with geos := st.geos.set p rb } { b with reports := upd b.reports p (b.reports p ++ [g]) } where
  terminal := h.terminal
  nodup := h.nodup
  reports q := by
    simp only [upd_apply, AMap.get_set]
    by_cases hq : q = p
    · subst hq
      rw [if_pos rfl, if_pos rfl]
      obtain ⟨r', h1, h2⟩ := (h.reports q).write (by decide) (some g)
      rw [hw] at h1
      injection h1 with h1
      rw [h1, List.map_append]
      exact h2
    · rw [if_neg hq, if_neg hq]; exact h.reports q
  params := h.params
  pieces := h.pieces
  line := h.line
  lineAddr := h.lineAddr
  serial := h.serial
  closed := h.closed

/-- Parameters are kept. -/
theorem Noted.setParams {st : Store} {b : Book} (h : Noted st b) {p : Str} {q : DeviceParams} (hq : q.phone = p) :
    Noted (st.cacheParams q) { b with params := upd b.params p (some q) } where
  terminal := h.terminal
  nodup := h.nodup
  reports := h.reports
  params p' := by
    unfold Store.cacheParams
    simp only [upd_apply, AMap.get_set, hq, h.params p']
  pieces := h.pieces
  line := h.line
  lineAddr := h.lineAddr
  serial := h.serial
  closed := h.closed

/-! ## Messages -/

/-- What the outcome of a pass means for the connection. -/
def actOf : Outcome → Act
  | .silent => .quiet
  | .reply f => .say f
  | .failed e => if e.endsServe then .hangUp else .quiet
  | .panicked => .hangUp

theorem fatal_eq (e : Err) : fatal e = e.endsServe := by cases e <;> rfl

theorem actOf_failed (e : Err) : actOf (.failed e) = sayIt (.err e) := by
  show (if e.endsServe then Act.hangUp else .quiet) = if fatal e then Act.hangUp else .quiet
  rw [fatal_eq]

theorem handle_else (env : Env) (clk : Clock) (c : Conn) (st : Store) (h : Header) (m : Msg)
    (h1 : ∀ x, m ≠ .m0200 x) (h2 : ∀ x, m ≠ .m8103 x) (h3 : m ≠ .m8104) : SameElse st (st.handle env clk c h m).1 := by
  have hb := SameElse.refl st
  have dj : ∀ p, SameElse st ((st.cancelJob p).delByPhone p) := fun p =>
    SameElse.trans (b := st.cancelJob p) ⟨rfl, rfl, rfl, rfl, rfl, rfl⟩ (delByPhone_else _ p)
  cases m with
  | m0002 =>
    simp only [Store.handle, process0002]
    split
    · exact hb
    · exact ⟨rfl, rfl, rfl, rfl, rfl, rfl⟩
  | m0003 =>
    simp only [Store.handle, process0003]
    split
    · exact hb
    · exact dj _
  | m0100 m =>
    simp only [Store.handle, process0100]
    split
    · exact hb
    · split
      · exact hb
      · exact SameElse.trans (b := (st.alloc (Device.new clk c h m)).1.cacheDevice (st.alloc (Device.new clk c h m)).2)
          ⟨rfl, rfl, rfl, rfl, rfl, rfl⟩ (registerJob_else _ _)
  | m0102 m =>
    simp only [Store.handle, process0102]
    split
    · exact hb
    · split
      · exact dj _
      · exact ⟨rfl, rfl, rfl, rfl, rfl, rfl⟩
  | m8001 m =>
    simp only [Store.handle, process8001]
    split
    · split
      · exact hb
      · split
        · exact hb
        · exact ⟨rfl, rfl, rfl, rfl, rfl, rfl⟩
    · exact hb
  | m8100 m =>
    simp only [Store.handle, process8100]
    split <;> exact hb
  | m0200 m => exact absurd rfl (h1 m)
  | m8103 m => exact absurd rfl (h2 m)
  | m8104 => exact absurd rfl h3
  | m0001 => exact hb
  | m0104 => exact hb
  | m1205 => exact hb
  | m9205 => exact hb

theorem Terminal.device_offline (p : Str) (t : Terminal) : (t.device p).status = .offline ↔ t.presence = .offline := by
  unfold Spec.Terminal.device
  cases t.presence <;> simp

/-- One message: the state and the book change alike and the connection sees the same. -/
theorem Noted.hear (env : Env) (clk : Clock) (c : Conn) {st : Store} {b : Book} (ha : Noted st b) (hi : StoreInv st)
    (h : Header) (m : Msg) (hm : ∀ q, m = .m8103 q → q.params.phone = h.phone) :
    Noted (st.handle env clk c h m).1 (b.hear env clk c h m).1 ∧
      actOf (finish env (st.handle env clk c h m)).2 = (b.hear env clk c h m).2 := by
  have hl := look_handle env clk c hi h m
  have ht := ha.terminal h.phone
  have hn : st.look h.phone = none → st.byPhone.get h.phone = none := by
    intro h1; unfold Store.look Store.devByPhone at h1
    cases h2 : st.byPhone.get h.phone with
    | none => rfl
    | some r => rw [h2] at h1; cases h1
  have he := handle_else env clk c st h m
  cases m with
  | m0001 => exact ⟨ha, rfl⟩
  | m0104 => exact ⟨ha, rfl⟩
  | m1205 => exact ⟨ha, rfl⟩
  | m9205 m => exact ⟨ha, rfl⟩
  | m0002 =>
    have he := he (by simp) (by simp) (by simp)
    cases hb : b.terminal h.phone with
    | none =>
      rw [hb] at ht
      have hr := hn ht
      simp only [Store.handle, process0002, Store.devByPhone, hr, Spec.Book.hear, hb]
      exact ⟨ha, rfl⟩
    | some t =>
      rw [hb] at ht
      obtain ⟨r, hr, -⟩ := Store.look_some.1 ht
      refine ⟨?_, ?_⟩
      · simp only [Spec.Book.hear, hb]
        refine ha.put he _ _ (fun q => ?_)
        rw [hl q, ht]; rfl
      · simp only [Store.handle, process0002, Store.devByPhone, hr, Spec.Book.hear, hb, finish_gen8001]; rfl
  | m0003 =>
    have he := he (by simp) (by simp) (by simp)
    cases hb : b.terminal h.phone with
    | none =>
      rw [hb] at ht
      have hr := hn ht
      simp only [Store.handle, process0003, Store.devByPhone, hr, Spec.Book.hear, hb]
      exact ⟨ha, rfl⟩
    | some t =>
      rw [hb] at ht
      obtain ⟨r, hr, -⟩ := Store.look_some.1 ht
      refine ⟨?_, ?_⟩
      · simp only [Spec.Book.hear, hb]
        refine ha.drop he _ (fun q => ?_)
        rw [hl q, ht]; rfl
      · simp only [Store.handle, process0003, Store.devByPhone, hr, Spec.Book.hear, hb, finish_gen8001]; rfl
  | m0100 m =>
    have he := he (by simp) (by simp) (by simp)
    have hp : st.hasPlate m.plate = b.hasPlate m.plate := by
      rw [ha.plate hi]; unfold Store.taken Store.lookPlate Store.devByPlate Store.hasPlate; rw [Option.isSome_map]; rfl
    have hq : st.hasPhone h.phone = (b.terminal h.phone).isSome := by
      have : st.hasPhone h.phone = (st.look h.phone).isSome := by
        unfold Store.look Store.devByPhone Store.hasPhone; rw [Option.isSome_map]; rfl
      rw [this, ht]; simp
    by_cases h1 : b.hasPlate m.plate = true
    · simp only [Store.handle, process0100, hp, h1, if_true, Spec.Book.hear, finish_gen8100]
      exact ⟨ha, rfl⟩
    · by_cases h2 : (b.terminal h.phone).isSome = true
      · simp only [Store.handle, process0100, hp, h1, hq, h2, if_true, Bool.false_eq_true, if_false, Spec.Book.hear, finish_gen8100]
        exact ⟨ha, rfl⟩
      · refine ⟨?_, ?_⟩
        · simp only [Spec.Book.hear]
          rw [if_neg h1, if_neg h2]
          refine ha.put he _ _ (fun q => ?_)
          rw [hl q, ht]
          have h3 : b.terminal h.phone = none := by simpa using h2
          rw [h3]
          have h4 : st.taken m.plate = false := by rw [← ha.plate hi]; simpa using h1
          simp only [Option.map_none, devNext, h4]
          rfl
        · simp only [Store.handle, process0100, hp, h1, hq, h2, Bool.false_eq_true, if_false, Spec.Book.hear, finish_gen8100, codeText_eq]
          rfl
  | m0102 m =>
    have he := he (by simp) (by simp) (by simp)
    cases hb : b.terminal h.phone with
    | none =>
      rw [hb] at ht
      have hr := hn ht
      simp only [Store.handle, process0102, Store.devByPhone, hr, Spec.Book.hear, hb]
      exact ⟨ha, rfl⟩
    | some t =>
      rw [hb] at ht
      obtain ⟨r, hr, hd⟩ := Store.look_some.1 ht
      have hc : (t.device h.phone).code = codeText t.id t.plate h.phone := codeText_eq _
      have hc' : (st.heap r).code = codeText t.id t.plate h.phone := by rw [hd]; exact hc
      by_cases hx : m.code = codeText t.id t.plate h.phone
      · refine ⟨?_, ?_⟩
        · simp only [Spec.Book.hear, hb]
          rw [if_pos hx]
          refine ha.put he _ _ (fun q => ?_)
          rw [hl q, ht]
          simp only [Option.map_some, devNext, hc]
          rw [if_pos hx]; rfl
        · simp only [Store.handle, process0102, Store.devByPhone, hr, Spec.Book.hear, hb]
          rw [if_neg (by rw [hc']; exact fun h => h hx), if_pos hx, finish_gen8001]; rfl
      · refine ⟨?_, ?_⟩
        · simp only [Spec.Book.hear, hb]
          rw [if_neg hx]
          refine ha.drop he _ (fun q => ?_)
          rw [hl q, ht]
          simp only [Option.map_some, devNext, hc]
          rw [if_neg hx]
        · simp only [Store.handle, process0102, Store.devByPhone, hr, Spec.Book.hear, hb]
          rw [if_pos (by rw [hc']; exact hx), if_neg hx, finish_gen8001]; rfl
  | m0200 m =>
    cases hb : b.terminal h.phone with
    | none =>
      rw [hb] at ht
      have hr := hn ht
      simp only [Store.handle, process0200, Store.devByPhone, hr, Spec.Book.hear, hb]
      exact ⟨ha, rfl⟩
    | some t =>
      rw [hb] at ht
      obtain ⟨r, hr, hd⟩ := Store.look_some.1 ht
      obtain ⟨rb, h1, -, h3⟩ := process0200_eq (clk := clk) hi hr m
      have hx := acc_iff m.status
      unfold accOff at hx
      have hl' : ∀ p, (accStore clk st r (GeoMeta.decode m.status).acc).look p =
          if p = h.phone then devNext clk c h st.taken (.m0200 m) (st.look h.phone) else st.look p := by
        intro p
        rw [← hl p]
        simp only [Store.handle, h3]; rfl
      refine ⟨?_, ?_⟩
      · simp only [Store.handle, h3, Spec.Book.hear, hb]
        by_cases hs : m.status.toNat.testBit 0 = true
        · rw [if_pos hs]
          have : (GeoMeta.decode m.status).acc ≠ 0 := by intro h0; rw [hx, hs] at h0; cases h0
          unfold accStore
          rw [if_neg this]
          exact ha.report h1
        · rw [if_neg hs]
          have h0 : (GeoMeta.decode m.status).acc = 0 := hx.2 (by simpa using hs)
          have a1 : Noted (accStore clk st r (GeoMeta.decode m.status).acc)
              (b.put h.phone { t with last := clk.ms, presence := .sleeping }) := by
            refine ha.put ?_ _ _ (fun q => ?_)
            · unfold accStore; split <;> exact ⟨rfl, rfl, rfl, rfl, rfl, rfl⟩
            · rw [hl' q, ht]
              simp only [Option.map_some, devNext, h0]; rfl
          have hg : (accStore clk st r (GeoMeta.decode m.status).acc).geos = st.geos := by
            unfold accStore; split <;> rfl
          have := a1.report (p := h.phone) (g := DeviceGeo.decode clk.civil h.phone m) (rb := rb) (by rw [hg]; exact h1)
          rw [hg] at this
          exact this
      · simp only [Store.handle, h3, Spec.Book.hear, hb, finish_gen8001]; rfl
  | m8001 m =>
    have he := he (by simp) (by simp) (by simp)
    cases hb : b.terminal h.phone with
    | none =>
      rw [hb] at ht
      have hr := hn ht
      simp only [Store.handle, process8001, Store.devByPhone, hr, Spec.Book.hear, hb]
      split <;> exact ⟨ha, rfl⟩
    | some t =>
      rw [hb] at ht
      obtain ⟨r, hr, hd⟩ := Store.look_some.1 ht
      have hq : (actOf (finish env (st.handle env clk c h (.m8001 m))).2) = .quiet := by
        simp only [Store.handle, process8001, Store.devByPhone, hr]
        split
        · split <;> rfl
        · rfl
      have ho := Terminal.device_offline h.phone t
      by_cases hx : m.result = 0 ∧ t.presence = .offline
      · refine ⟨?_, ?_⟩
        · simp only [Spec.Book.hear, hb]
          rw [if_pos hx]
          refine ha.put he _ _ (fun q => ?_)
          rw [hl q, ht]
          simp only [Option.map_some, devNext]
          have hy : m.result = 0 ∧ (t.device h.phone).status = .offline := ⟨hx.1, ho.2 hx.2⟩
          rw [if_pos hy]; rfl
        · rw [hq]; simp only [Spec.Book.hear, hb]; rw [if_pos hx]
      · refine ⟨?_, ?_⟩
        · simp only [Spec.Book.hear, hb]
          rw [if_neg hx]
          refine ha.same he (fun q => ?_)
          rw [hl q, ht]
          simp only [Option.map_some, devNext]
          have hy : ¬ (m.result = 0 ∧ (t.device h.phone).status = .offline) := fun hy => hx ⟨hy.1, ho.1 hy.2⟩
          rw [if_neg hy]
          by_cases e : q = h.phone
          · rw [if_pos e, e, ht]; rfl
          · rw [if_neg e]
        · rw [hq]; simp only [Spec.Book.hear, hb]; rw [if_neg hx]
  | m8100 m =>
    cases hb : b.terminal h.phone with
    | none =>
      rw [hb] at ht
      have hr := hn ht
      simp only [Store.handle, process8100, Store.devByPhone, hr, Spec.Book.hear, hb]
      exact ⟨ha, rfl⟩
    | some t =>
      rw [hb] at ht
      obtain ⟨r, hr, hd⟩ := Store.look_some.1 ht
      simp only [Store.handle, process8100, Store.devByPhone, hr, Spec.Book.hear, hb, hd]
      exact ⟨ha, rfl⟩
  | m8103 m =>
    have hp := hm m rfl
    simp only [Store.handle, process8103, Store.paramsOf, ha.params, Spec.Book.hear]
    refine ⟨ha.setParams ?_, ?_⟩
    · cases hb : b.params h.phone with
      | none => exact hp
      | some old =>
        have := (hi.params h.phone old (by rw [ha.params]; exact hb)).1
        exact this
    · rw [finish_gen0001]; rfl
  | m8104 =>
    have told : ∀ (s : Store) (q : DeviceParams), q.Typed →
        ∃ bs, q.encode env = .ok bs ∧
          actOf (finish env (s, .ok (some (gen0104 h q)))).2 = .say (answer h 0x0104 (word h.serial.toNat ++ bs)) := by
      intro s q hq
      obtain ⟨bs, e⟩ := hq.encode (env := env)
      refine ⟨bs, e, ?_⟩
      simp only [finish, gen0104, Out.encode, Msg.encodeBody, ParamsMsg.encode, e, actOf, answer, writeBytes, writeWord,
        put16_word, List.nil_append]
    simp only [Store.handle, process8104, Store.paramsOf, ha.params, Spec.Book.hear]
    cases hb : b.params h.phone with
    | some q =>
      obtain ⟨bs, e1, e2⟩ := told st q (hi.params h.phone q (by rw [ha.params]; exact hb)).2
      simp only [e1, e2]
      exact ⟨ha, rfl⟩
    | none =>
      obtain ⟨q, j, e⟩ := fixedDecode_ok env h.phone
      obtain ⟨bs, e1, e2⟩ := told (st.cacheParams q) q (DeviceParams.decode_typed e)
      simp only [e, e1, e2]
      exact ⟨ha.setParams (fixedDecode_phone e), rfl⟩

/-! ## Frames -/

theorem pieceId_eq {i j : UInt16} : pieceId i = pieceId j ↔ runeUtf8 i = runeUtf8 j := by
  constructor
  · intro h
    have key : ∀ i : UInt16, pieceId i = 0xFFFD → runeUtf8 i = [0xEF, 0xBF, 0xBD] := by
      intro i hi
      unfold pieceId at hi
      unfold runeUtf8
      simp only
      by_cases hs : 0xD800 ≤ i.toNat ∧ i.toNat ≤ 0xDFFF
      · rw [if_neg (by omega), if_neg (by omega), if_pos hs]
      · rw [if_neg hs] at hi
        rw [hi]; decide
    by_cases hi : pieceId i = 0xFFFD
    · rw [key i hi, key j (h ▸ hi)]
    · have hj : pieceId j ≠ 0xFFFD := h ▸ hi
      have low : ∀ i : UInt16, pieceId i ≠ 0xFFFD → pieceId i = i.toNat := by
        intro i hi
        unfold pieceId at hi ⊢
        by_cases hs : 0xD800 ≤ i.toNat ∧ i.toNat ≤ 0xDFFF
        · rw [if_pos hs] at hi; exact absurd rfl hi
        · rw [if_neg hs]
      rw [low i hi, low j hj] at h
      rw [UInt16.toNat_inj.1 h]
  · intro h
    rcases runeUtf8_eq h with rfl | ⟨h1, h2⟩
    · rfl
    · have amb : ∀ i : UInt16, Ambiguous i → pieceId i = 0xFFFD := by
        intro i hi
        unfold pieceId
        rcases hi with hi | hi
        · rw [if_pos hi]
        · rw [if_neg (by omega), hi]
      rw [amb i h1, amb j h2]

theorem segKey_iff {p p' : Str} {i i' : UInt16} (hp : (0x2f : UInt8) ∉ p) (hp' : (0x2f : UInt8) ∉ p') :
    segKey p i = segKey p' i' ↔ p = p' ∧ pieceId i = pieceId i' := by
  constructor
  · intro h
    obtain ⟨e1, e2⟩ := split_at_slash hp hp' h
    exact ⟨e1, pieceId_eq.2 e2⟩
  · rintro ⟨rfl, e⟩
    unfold segKey; rw [pieceId_eq.1 e]

/-- The fragments kept under a key change; the announced number is `n`. -/
theorem Noted.setPiece {st : Store} {b : Book} (h : Noted st b) {p : Str} (hp : (0x2f : UInt8) ∉ p) {id : UInt16} {s : Segment} :
    Noted { st with segs := st.segs.set (segKey p id) s }
      { b with pieces := upd b.pieces p (upd (b.pieces p) (pieceId id) (some s.total)) } where
  terminal := h.terminal
  nodup := h.nodup
  reports := h.reports
  params := h.params
  pieces q j hq := by
    simp only [AMap.get_set, segKey_iff hq hp, upd_apply]
    by_cases e : q = p
    · subst e
      simp only [true_and, if_true, upd_apply]
      by_cases e' : pieceId j = pieceId id
      · rw [if_pos e', if_pos e']; rfl
      · rw [if_neg e', if_neg e']; exact h.pieces q j hq
    · rw [if_neg (fun x => e x.1), if_neg e]; exact h.pieces q j hq
  line := h.line
  lineAddr := h.lineAddr
  serial := h.serial
  closed := h.closed

theorem upd_self {α β : Type} [DecidableEq α] (f : α → β) (a : α) : upd f a (f a) = f := by
  funext x; unfold upd; split
  · next h => rw [h]
  · rfl

theorem Noted.samePiece {st : Store} {b : Book} (h : Noted st b) {p : Str} (hp : (0x2f : UInt8) ∉ p) {id : UInt16} {s : Segment}
    (ht : b.pieces p (pieceId id) = some s.total) : Noted { st with segs := st.segs.set (segKey p id) s } b := by
  have := h.setPiece hp (id := id) (s := s)
  rw [← ht, upd_self, upd_self] at this
  exact this

/-- A serial number is taken. -/
theorem Noted.take {st : Store} {b : Book} (h : Noted st b) (c : Conn) :
    Noted (st.takeSerial c).1 { b with serial := upd b.serial c.id (bump (b.serial c.id)) } ∧
      (st.takeSerial c).2 = UInt16.ofNat (bump (b.serial c.id)) := by
  obtain ⟨h1, h2⟩ := h.serial c.id
  obtain ⟨n1, n2⟩ := nextSerial_toNat (c := st.serial c.id) (by omega)
  refine ⟨⟨h.terminal, h.nodup, h.reports, h.params, h.pieces, h.line, h.lineAddr, fun i => ?_, h.closed⟩, ?_⟩
  · simp only [Store.takeSerial, upd_apply]
    by_cases e : i = c.id
    · rw [if_pos e, if_pos e, n1, h1]
      exact ⟨rfl, Nat.mod_lt _ (by decide)⟩
    · rw [if_neg e, if_neg e]; exact h.serial i
  · apply UInt16.toNat_inj.1
    show (nextSerial (st.serial c.id)).2.toNat = _
    rw [n2, h1, UInt16.toNat_ofNat']
    unfold bump
    rw [Nat.mod_mod]

/-- A packet that is a whole message. -/
theorem Noted.whole (env : Env) (clk : Clock) (c : Conn) {st : Store} {b : Book} (ha : Noted st b) (hi : StoreInv st)
    (pd : Packet) (hw : (pd.header.isFragmented && !pd.segCompleted) = false) :
    Noted (st.process env clk c pd).1 (b.whole env clk c pd).1 ∧
      actOf (finish env (st.process env clk c pd)).2 = (b.whole env clk c pd).2 := by
  unfold Store.process Spec.Book.whole
  cases MType.ofID pd.header.msgID with
  | none => exact ⟨ha, rfl⟩
  | some t =>
    simp only [hw, Bool.false_eq_true, if_false]
    cases hd : t.decode env clk.civil pd.header pd.body 0 with
    | err e => exact ⟨ha, actOf_failed e⟩
    | panic => exact ⟨ha, rfl⟩
    | ok x =>
      obtain ⟨m, j⟩ := x
      refine ha.hear env clk c hi pd.header m (fun q hq => ?_)
      subst hq
      exact (decode_8103_phone hd).1

/-- A packet that is a fragment. -/
theorem Noted.piece (env : Env) (clk : Clock) (c : Conn) {st : Store} {b : Book} (ha : Noted st b)
    (pd : Packet) (hw : (pd.header.isFragmented && !pd.segCompleted) = true) :
    Noted (st.process env clk c pd).1 (b.piece pd.header).1 ∧
      actOf (finish env (st.process env clk c pd)).2 = (b.piece pd.header).2 := by
  unfold Store.process Spec.Book.piece
  cases MType.ofID pd.header.msgID with
  | none => exact ⟨ha, rfl⟩
  | some t =>
    simp only [hw, if_true]
    unfold Store.processSegment
    have ht := ha.terminal pd.header.phone
    cases hb : b.terminal pd.header.phone with
    | none =>
      rw [hb] at ht
      have : st.devByPhone pd.header.phone = none := by
        unfold Store.look at ht; simpa using ht
      rw [this]; exact ⟨ha, rfl⟩
    | some t =>
      rw [hb] at ht
      obtain ⟨r, hr, hd⟩ := Store.look_some.1 ht
      simp only [Store.devByPhone, hr, hd, Spec.Terminal.device, ha.line]
      cases hl : b.line t.conn.addr with
      | none => exact ⟨ha, rfl⟩
      | some c' =>
        obtain ⟨h1, h2⟩ := ha.take c'
        simp only [h2]
        refine ⟨h1, ?_⟩
        simp only [finish, Out.encode, Msg.encodeBody, ackEncode, actOf]
        rfl

theorem finish_process {env : Env} {clk : Clock} {c : Conn} {st st' : Store} {frame : List UInt8} {pkt : Packet}
    (h : st.decodePacket env frame = (st', .ok pkt)) :
    st.handleFrame env clk c frame = finish env (st'.process env clk c pkt) := by
  unfold Store.handleFrame
  rw [h]
  simp only
  cases st'.process env clk c pkt with
  | mk s r =>
    cases r with
    | err e => rfl
    | panic => rfl
    | ok o => cases o <;> rfl

/-- A frame. -/
theorem Noted.frame (env : Env) (clk : Clock) (c : Conn) {st : Store} {b : Book} (ha : Noted st b) (hi : StoreInv st)
    (bytes : List UInt8) :
    Noted (st.handleFrame env clk c bytes).1 (b.frame env clk c bytes).1 ∧
      actOf (st.handleFrame env clk c bytes).2 = (b.frame env clk c bytes).2 := by
  unfold Spec.Book.frame
  cases hd : decodeFrame env bytes with
  | err e =>
    have : st.decodePacket env bytes = (st, .err e) := by unfold Store.decodePacket; rw [hd]
    unfold Store.handleFrame
    rw [this]
    exact ⟨ha, actOf_failed e⟩
  | panic =>
    have : st.decodePacket env bytes = (st, .panic) := by unfold Store.decodePacket; rw [hd]
    unfold Store.handleFrame
    rw [this]
    exact ⟨ha, rfl⟩
  | ok pd =>
    obtain ⟨s, j, hh⟩ := decodeFrame_header hd
    obtain ⟨-, hph, -, -, -⟩ := Header.decode_facts hh
    have hs := bcd_no_slash hph
    simp only
    by_cases hf : pd.header.isFragmented = true
    · rw [if_pos hf]
      cases hg : pd.header.frag with
      | none =>
        have : st.decodePacket env bytes = (st, .panic) := by unfold Store.decodePacket; simp only [hd, hf, if_true, hg]
        unfold Store.handleFrame
        rw [this]
        exact ⟨ha, rfl⟩
      | some f =>
        simp only
        have hk := ha.pieces pd.header.phone pd.header.msgID hs
        cases hb : b.pieces pd.header.phone (pieceId pd.header.msgID) with
        | none =>
          rw [hb] at hk
          have hk : st.segs.get (segKey pd.header.phone pd.header.msgID) = none := by simpa using hk
          have : st.decodePacket env bytes =
              ({ st with segs := st.segs.set (segKey pd.header.phone pd.header.msgID) (Segment.ofPacket pd.header f pd.body.data) }, .panic) := by
            unfold Store.decodePacket
            simp only [hd, hf, if_true, hg, Store.cacheSegment, Segment.ofPacket, hk]
          unfold Store.handleFrame
          rw [this]
          exact ⟨ha.setPiece hs, rfl⟩
        | some total =>
          rw [hb] at hk
          obtain ⟨sg, hsg, htot⟩ := Option.map_eq_some_iff.1 hk
          have hx : st.decodePacket env bytes =
              ({ st with segs := st.segs.set (segKey pd.header.phone pd.header.msgID) (sg.merge (Segment.ofPacket pd.header f pd.body.data)) },
                .ok { pd with segCompleted := f.index == total }) := by
            unfold Store.decodePacket
            simp only [hd, hf, if_true, hg, Store.cacheSegment, Segment.ofPacket, hsg, Segment.merge, Segment.isComplete, htot]
          rw [finish_process hx]
          have ha' : Noted { st with segs := st.segs.set (segKey pd.header.phone pd.header.msgID) (sg.merge (Segment.ofPacket pd.header f pd.body.data)) } b :=
            ha.samePiece hs (by rw [hb, ← htot]; rfl)
          have hi' : StoreInv { st with segs := st.segs.set (segKey pd.header.phone pd.header.msgID) (sg.merge (Segment.ofPacket pd.header f pd.body.data)) } :=
            hi.of_same ⟨rfl, rfl, rfl, rfl, rfl⟩ hi.rings hi.params
          simp only
          by_cases hl : f.index = total
          · rw [if_pos hl, finish_fst]
            exact ha'.whole env clk c hi' { pd with segCompleted := f.index == total } (by simp [hl])
          · rw [if_neg hl, finish_fst]
            exact ha'.piece env clk c { pd with segCompleted := f.index == total } (by simp [hl, hf])
    · rw [if_neg hf]
      rw [handleFrame_packet hd (by simpa using hf), finish_fst]
      exact ha.whole env clk c hi pd (by simp [hf])

/-! ## Events -/

/-- A connection is closed and forgotten. -/
theorem Noted.hang {st : Store} {b : Book} (h : Noted st b) (c : Conn) : Noted (st.remove c) (b.hang c) where
  terminal := h.terminal
  nodup := h.nodup
  reports := h.reports
  params := h.params
  pieces := h.pieces
  line a := by
    rw [session_remove]
    simp only [Spec.Book.hang, upd_apply, h.line]
  lineAddr a x hx := by
    simp only [Spec.Book.hang, upd_apply] at hx
    by_cases e : a = c.addr
    · rw [if_pos e] at hx; cases hx
    · rw [if_neg e] at hx; exact h.lineAddr a x hx
  serial := h.serial
  closed i := by
    simp only [Store.remove, Store.closeConn, Store.clearSession, Spec.Book.hang, upd_apply, h.closed]

theorem Noted.lives {st : Store} {b : Book} (h : Noted st b) (l : List Conn) (n : Nat) :
    Noted st { b with live := l, accepted := n } :=
  ⟨h.terminal, h.nodup, h.reports, h.params, h.pieces, h.line, h.lineAddr, h.serial, h.closed⟩

/-- A message of an HTTP caller goes out. -/
theorem Noted.send (env : Env) (werr : Option Err) {st : Store} {b : Book} (ha : Noted st b) {p : Str} {t : Terminal} {r : Ref}
    (hr : st.heap r = t.device p) (code : Option Nat) (id : UInt16) (m : Msg) (body : Res (List UInt8))
    (hm : ∀ h, (∃ e e', m.encodeBody env h = .err e ∧ body = .err e') ∨ (m.encodeBody env h = body ∧ ∀ e, body ≠ .err e)) :
    Noted (st.apiSend env werr r code id m).1 (b.send werr p t code id body).1 ∧
      (st.apiSend env werr r code id m).2 = (b.send werr p t code id body).2 := by
  unfold Store.apiSend Spec.Book.send
  simp only [hr]
  have hs : st.session (t.device p).sessionID = b.line t.conn.addr := ha.line _
  rw [hs]
  cases hl : b.line t.conn.addr with
  | none => exact ⟨ha, rfl⟩
  | some c =>
    obtain ⟨h1, h2⟩ := ha.take c
    have hc : (st.takeSerial c).1.session c.addr = some c := by
      rw [h1.line]; show b.line c.addr = some c
      rw [ha.lineAddr _ _ hl]; exact hl
    simp only [h2, Store.serverSend, hc, Out.encode]
    rcases hm (genMsgHeader (t.device p).phone (t.device p).ver (t.device p).protoVer id (UInt16.ofNat (bump (b.serial c.id))))
      with ⟨e, e', hb, rfl⟩ | ⟨hb, he⟩
    · rw [hb]; exact ⟨h1, rfl⟩
    · rw [hb]
      cases body with
      | err e => exact absurd rfl (he e)
      | panic => exact ⟨h1, rfl⟩
      | ok bs =>
        cases werr with
        | none => exact ⟨h1, rfl⟩
        | some e =>
          by_cases hx : e = .closed
          · subst hx
            exact ⟨h1.hang c, rfl⟩
          · have hy : (if e = .closed then ({ b with serial := upd b.serial c.id (bump (b.serial c.id)) } : Book).hang c
                else { b with serial := upd b.serial c.id (bump (b.serial c.id)) }) =
                { b with serial := upd b.serial c.id (bump (b.serial c.id)) } := if_neg hx
            simp only [hy]
            cases e <;> first | exact absurd rfl hx | exact ⟨h1, trivial⟩

/-- A keepalive check. -/
theorem Noted.check (clk : Clock) {st : Store} {b : Book} (ha : Noted st b) (hi : StoreInv st) {p : Str} {t : Terminal}
    (hb : b.terminal p = some t) :
    Noted (st.check clk p).1
        (if t.last + 60000 < clk.ms then
          if t.presence = .offline then
            { b.drop p with closed := upd b.closed t.conn.id true, reports := upd b.reports p [] }
          else b.put p { t with presence := .offline }
        else b) ∧ (st.check clk p).2 = .ok () := by
  have ht := ha.terminal p
  rw [hb] at ht
  obtain ⟨r, hr, hd⟩ := Store.look_some.1 ht
  have hj : p ∈ st.jobs := (hi.jobs p).2 (by rw [hr]; rfl)
  have hl := look_check (clk := clk) hi hj
  obtain ⟨cn, h1, h2⟩ := check_registered (clk := clk) hi hr
  have ho := Terminal.device_offline p t
  have hcn : cn = t.conn := by rw [hd] at h1; injection h1 with h1; exact h1.symm
  rw [h2] at hl ⊢
  refine ⟨?_, rfl⟩
  simp only at hl ⊢
  have hturn : (st.heap r).shouldTurnOffline clk.ms = true ↔ t.presence ≠ .offline ∧ t.last + 60000 < clk.ms := by
    rw [hd]
    unfold Device.shouldTurnOffline
    have e1 : (t.device p).keepalive = 60000 := rfl
    have e2 : (t.device p).last = t.last := rfl
    rw [e1, e2, Bool.and_eq_true, bne_iff_ne, ne_eq, ho, decide_eq_true_eq]
    constructor
    · rintro ⟨a, b⟩; exact ⟨a, by omega⟩
    · rintro ⟨a, b⟩; exact ⟨a, by omega⟩
  have hclear : (st.heap r).shouldClear clk.ms = true ↔ t.presence = .offline ∧ t.last + 60000 < clk.ms := by
    rw [hd]
    unfold Device.shouldClear
    have e1 : (t.device p).keepalive = 60000 := rfl
    have e2 : (t.device p).last = t.last := rfl
    rw [e1, e2, Bool.and_eq_true, beq_iff_eq, ho, decide_eq_true_eq]
    constructor
    · rintro ⟨a, b⟩; exact ⟨a, by omega⟩
    · rintro ⟨a, b⟩; exact ⟨a, by omega⟩
  by_cases hp : t.last + 60000 < clk.ms
  · rw [if_pos hp]
    have hp' : (t.device p).last + 60000 < clk.ms := hp
    by_cases hq : t.presence = .offline
    · have n1 : ¬ (st.heap r).shouldTurnOffline clk.ms = true := fun h => (hturn.1 h).1 hq
      have n2 := hclear.2 ⟨hq, hp⟩
      rw [if_pos hq]
      rw [if_neg n1, if_pos n2] at hl ⊢
      have hl : ∀ q, ((((st.closeConn cn).delByPhone p).delGeo p).cancelJob p).look q =
          if q = p then none else st.look q := by
        intro q
        rw [hl q, ht]
        simp only [Option.map_some, Option.bind_some, devCheck]
        rw [if_pos hp', if_pos (ho.2 hq)]
      have e := delByPhone_else (st.closeConn cn) p
      have a1 : Noted (st.delByPhone p) (b.drop p) := by
        refine ha.drop (delByPhone_else st p) p (fun q => ?_)
        rw [← hl q]
        unfold Store.look Store.devByPhone Store.delByPhone Store.closeConn Store.delGeo Store.cancelJob
        cases st.byPhone.get p <;> rfl
      refine ⟨fun q => ?_, a1.nodup, fun q => ?_, fun q => ?_, fun q i hq => ?_, fun a => ?_, ha.lineAddr, fun i => ?_, fun i => ?_⟩
      · rw [hl q]
        show _ = ((b.drop p).terminal q).map _
        rw [Spec.Book.terminal_drop]
        by_cases e : q = p
        · rw [if_pos e, if_pos e]; rfl
        · rw [if_neg e, if_neg e]; exact ha.terminal q
      · have : ((((st.closeConn cn).delByPhone p).delGeo p).cancelJob p).geos = st.geos.del p := by
          show ((st.closeConn cn).delByPhone p).geos.del p = _
          rw [e.geos]; rfl
        rw [this, AMap.get_del]
        simp only [upd_apply]
        by_cases hx : q = p
        · rw [if_pos hx, if_pos hx]; exact RingInv.init 100
        · rw [if_neg hx, if_neg hx]; exact ha.reports q
      · show ((st.closeConn cn).delByPhone p).params.get q = _
        rw [e.params]; exact ha.params q
      · show (((st.closeConn cn).delByPhone p).segs.get (segKey q i)).map _ = _
        rw [e.segs]; exact ha.pieces q i hq
      · show ((st.closeConn cn).delByPhone p).sessions.get a = _
        rw [e.sessions]; exact ha.line a
      · show (((st.closeConn cn).delByPhone p).serial i).toNat = _ ∧ _
        rw [e.serial]; exact ha.serial i
      · show ((st.closeConn cn).delByPhone p).closed i = _
        rw [e.closed, hcn]
        simp only [Store.closeConn, upd_apply, ha.closed]
    · have n1 := hturn.2 ⟨hq, hp⟩
      rw [if_neg hq]
      rw [if_pos n1] at hl ⊢
      refine ha.put (st' := st.setDev r (st.heap r).lost) ⟨rfl, rfl, rfl, rfl, rfl, rfl⟩ _ _ (fun q => ?_)
      rw [hl q, ht]
      simp only [Option.map_some, Option.bind_some, devCheck]
      rw [if_pos hp', if_neg (fun h => hq (ho.1 h))]
      rfl
  · rw [if_neg hp]
    have n1 : ¬ (st.heap r).shouldTurnOffline clk.ms = true := fun h => hp (hturn.1 h).2
    have n2 : ¬ (st.heap r).shouldClear clk.ms = true := fun h => hp (hclear.1 h).2
    rw [if_neg n1, if_neg n2]
    exact ha

theorem RingInv.newest {α : Type} {ws : List α} {r : Ring α} (h : RingInv 100 (ws.map some) 0 r) :
    r.latest = .ok (if ws.length % 100 = 0 then none else ws.getLast?) := by
  have hw := h.writer
  rw [List.length_map] at hw
  unfold Ring.latest
  by_cases hz : ws.length % 100 = 0
  · rw [if_pos hz, if_pos (by rw [hw, hz])]
  · rw [if_neg hz, if_neg (by rw [hw]; exact hz)]
    have hs := h.slots (ws.length - 1) (by rw [List.length_map]; omega) (by rw [List.length_map]; omega)
    have e : (r.writer - 1) % r.size = (ws.length - 1) % 100 := by rw [hw, h.size]; omega
    rw [e]
    refine Ring.at_of_get ?_
    rw [hs, List.getElem?_map, List.getLast?_eq_getElem?]
    have : ws.length - 1 < ws.length := by omega
    rw [List.getElem?_eq_getElem this]; rfl

/-- A position is asked for. -/
theorem Noted.geo {st : Store} {b : Book} (ha : Noted st b) (p : Str) :
    Noted (st.apiGeo p).1 b ∧ (st.apiGeo p).2 = (if (b.terminal p).isSome then 200 else 400, b.position p) := by
  have ht := ha.terminal p
  unfold Spec.Book.position
  cases hb : b.terminal p with
  | none =>
    rw [hb] at ht
    have : st.devByPhone p = none := by unfold Store.look at ht; simpa using ht
    unfold Store.apiGeo
    rw [this]; exact ⟨ha, rfl⟩
  | some t =>
    rw [hb] at ht
    obtain ⟨r, hr, hd⟩ := Store.look_some.1 ht
    have hn := (ha.reports p).newest
    refine ⟨?_, ?_⟩
    · have key : Noted (st.geoRing p).1 b := by
        unfold Store.geoRing
        cases hg : st.geos.get p with
        | some rb => exact ha
        | none =>
          refine ⟨ha.terminal, ha.nodup, fun q => ?_, ha.params, ha.pieces, ha.line, ha.lineAddr, ha.serial, ha.closed⟩
          simp only [AMap.get_set]
          by_cases e : q = p
          · subst e
            rw [if_pos rfl]
            have := ha.reports q
            rw [hg] at this
            exact this
          · rw [if_neg e]; exact ha.reports q
      have e : (st.apiGeo p).1 = (st.geoRing p).1 := by
        unfold Store.apiGeo Store.devByPhone Store.geoLatest
        simp only [hr]
        cases (st.geoRing p).2.latest with
        | ok o => cases o <;> rfl
        | err e => rfl
        | panic => rfl
      rw [e]; exact key
    · have := apiGeo_eq st p (t.device p) _ ht hn
      rw [this]
      simp only [Option.isSome_some, if_true]
      by_cases hz : (b.reports p).length % 100 = 0
      · rw [if_pos hz, if_pos hz]; rfl
      · rw [if_neg hz, if_neg hz]

/-- The process and the book. -/
structure Follows (s : Sys) (b : Book) : Prop where
  noted : Noted s.st b
  live : s.live = b.live
  accepted : s.accepted = b.accepted

theorem Spec.Book.hear_lives (env : Env) (clk : Clock) (c : Conn) (b : Book) (h : Header) (m : Msg) :
    (b.hear env clk c h m).1.live = b.live ∧ (b.hear env clk c h m).1.accepted = b.accepted := by
  unfold Spec.Book.hear
  repeat' split
  all_goals exact ⟨rfl, rfl⟩

theorem Spec.Book.whole_lives (env : Env) (clk : Clock) (c : Conn) (b : Book) (pd : Packet) :
    (b.whole env clk c pd).1.live = b.live ∧ (b.whole env clk c pd).1.accepted = b.accepted := by
  unfold Spec.Book.whole
  split
  · exact ⟨rfl, rfl⟩
  · split
    · exact b.hear_lives env clk c _ _
    · exact ⟨rfl, rfl⟩
    · exact ⟨rfl, rfl⟩

theorem Spec.Book.piece_lives (b : Book) (h : Header) :
    (b.piece h).1.live = b.live ∧ (b.piece h).1.accepted = b.accepted := by
  unfold Spec.Book.piece
  repeat' split
  all_goals exact ⟨rfl, rfl⟩

theorem Spec.Book.frame_lives (env : Env) (clk : Clock) (c : Conn) (b : Book) (bytes : List UInt8) :
    (b.frame env clk c bytes).1.live = b.live ∧ (b.frame env clk c bytes).1.accepted = b.accepted := by
  unfold Spec.Book.frame
  split
  · exact ⟨rfl, rfl⟩
  · exact ⟨rfl, rfl⟩
  · split
    · split
      · exact ⟨rfl, rfl⟩
      · split
        · exact ⟨rfl, rfl⟩
        · split
          · exact b.whole_lives env clk c _
          · exact b.piece_lives _
    · exact b.whole_lives env clk c _

theorem Spec.Book.send_lives (werr : Option Err) (b : Book) (p : Str) (t : Terminal) (code : Option Nat) (id : UInt16)
    (body : Res (List UInt8)) :
    (b.send werr p t code id body).1.live = b.live ∧ (b.send werr p t code id body).1.accepted = b.accepted := by
  unfold Spec.Book.send
  split
  · exact ⟨rfl, rfl⟩
  · simp only
    split
    · exact ⟨rfl, rfl⟩
    · simp only; split <;> exact ⟨rfl, rfl⟩
    · exact ⟨rfl, rfl⟩
    · exact ⟨rfl, rfl⟩

/-- One event: the process and the book move alike and show the same. -/
theorem Follows.step (env : Env) {s : Sys} {b : Book} (h : Follows s b) (hi : StoreInv s.st) (hc : s.crashed = false) (e : Ev) :
    Follows (s.step env e).1 (b.step env e).1 ∧ (s.step env e).2 = (b.step env e).2 := by
  have ha := h.noted
  unfold Sys.step
  rw [if_neg (by simp [hc])]
  cases e with
  | accept addr =>
    simp only [Spec.Book.step, h.accepted]
    refine ⟨⟨⟨ha.terminal, ha.nodup, ha.reports, ha.params, ha.pieces, fun a => ?_, fun a c hx => ?_, ha.serial, ha.closed⟩,
      by simp only [h.live], rfl⟩, rfl⟩
    · simp only [Store.session, Store.storeSession, AMap.get_set, upd_apply]
      by_cases e : a = addr
      · rw [if_pos e, if_pos e]
      · rw [if_neg e, if_neg e]; exact ha.line a
    · simp only [upd_apply] at hx
      by_cases e : a = addr
      · rw [if_pos e] at hx; injection hx with hx; rw [← hx, e]
      · rw [if_neg e] at hx; exact ha.lineAddr a c hx
  | frame clk c bytes werr =>
    simp only [Spec.Book.step, h.live]
    by_cases hl : c ∈ b.live
    · rw [if_pos hl, if_pos hl]
      obtain ⟨h1, h2⟩ := ha.frame env clk c hi bytes
      obtain ⟨l1, l2⟩ := b.frame_lives env clk c bytes
      unfold Store.serveFrame
      cases hx : s.st.handleFrame env clk c bytes with
      | mk st' o =>
        cases hy : b.frame env clk c bytes with
        | mk b' act =>
          rw [hx, hy] at h1
          rw [hx, hy] at h2
          rw [hy] at l1 l2
          simp only at h1 h2 l1 l2
          have gone : ∀ x : Str, Follows { s with st := st'.remove c, live := b.live.filter (· ≠ c) }
              { b'.hang c with live := b'.live.filter (· ≠ c) } := fun _ =>
            ⟨(h1.hang c).lives (b'.live.filter (· ≠ c)) b'.accepted, by simp only [l1], by simp only [h.accepted, ← l2]; rfl⟩
          have stay : Follows { s with st := st', live := b.live } b' := ⟨h1, l1.symm, by rw [l2]; exact h.accepted⟩
          cases o with
          | silent =>
            simp only [actOf] at h2; subst h2
            exact ⟨stay, rfl⟩
          | panicked =>
            simp only [actOf] at h2; subst h2
            exact ⟨gone [], rfl⟩
          | failed e =>
            simp only [actOf] at h2
            by_cases he : e.endsServe = true
            · rw [if_pos he] at h2; subst h2
              simp only [he, if_true]
              exact ⟨gone [], trivial⟩
            · rw [if_neg he] at h2; subst h2
              simp only [he, Bool.false_eq_true, if_false]
              exact ⟨stay, rfl⟩
          | reply f =>
            simp only [actOf] at h2; subst h2
            cases werr with
            | none => exact ⟨stay, rfl⟩
            | some e =>
              simp only [fatal_eq]
              by_cases he : e.endsServe = true
              · simp only [he, if_true]
                exact ⟨gone [], trivial⟩
              · simp only [he, Bool.false_eq_true, if_false]
                exact ⟨stay, rfl⟩
    · rw [if_neg hl, if_neg hl]; exact ⟨h, rfl⟩
  | readErr c e =>
    simp only [Spec.Book.step, h.live, fatal_eq, Store.serveErr]
    by_cases hl : c ∈ b.live
    · rw [if_pos hl]
      by_cases he : e.endsServe = true
      · have hx : c ∈ b.live ∧ e.endsServe = true := ⟨hl, he⟩
        rw [if_pos hx]
        simp only [he, if_true]
        exact ⟨⟨(ha.hang c).lives _ _, rfl, h.accepted⟩, trivial⟩
      · have hx : ¬ (c ∈ b.live ∧ e.endsServe = true) := fun x => he x.2
        rw [if_neg hx]
        simp only [he, Bool.false_eq_true, if_false]
        exact ⟨⟨ha, rfl, h.accepted⟩, rfl⟩
    · rw [if_neg hl, if_neg (fun x => hl x.1)]; exact ⟨h, rfl⟩
  | check clk p =>
    have ht := ha.terminal p
    simp only [Spec.Book.step]
    cases hb : b.terminal p with
    | none =>
      rw [hb] at ht
      have : p ∉ s.st.jobs := by
        rw [hi.jobs]
        unfold Store.look Store.devByPhone at ht
        cases hg : s.st.byPhone.get p with
        | none => simp
        | some r => rw [hg] at ht; cases ht
      rw [if_neg this]; exact ⟨h, rfl⟩
    | some t =>
      rw [hb] at ht
      obtain ⟨r, hr, -⟩ := Store.look_some.1 ht
      rw [if_pos ((hi.jobs p).2 (by rw [hr]; rfl))]
      obtain ⟨h1, h2⟩ := ha.check clk hi hb
      cases hx : s.st.check clk p with
      | mk st' o =>
        rw [hx] at h1
        simp only at h1 ⊢
        by_cases hp : t.last + 60000 < clk.ms
        · rw [if_pos hp] at h1 ⊢
          by_cases hq : t.presence = .offline
          · rw [if_pos hq] at h1 ⊢; exact ⟨⟨h1, h.live, h.accepted⟩, rfl⟩
          · rw [if_neg hq] at h1 ⊢; exact ⟨⟨h1, h.live, h.accepted⟩, rfl⟩
        · rw [if_neg hp] at h1 ⊢; exact ⟨⟨h1, h.live, h.accepted⟩, rfl⟩
  | httpList => exact ⟨h, rfl⟩
  | httpGeo p =>
    obtain ⟨h1, h2⟩ := ha.geo p
    simp only [Spec.Book.step]
    refine ⟨⟨h1, h.live, h.accepted⟩, ?_⟩
    rw [show (s.st.apiGeo p).2.1 = _ from congrArg Prod.fst h2]
  | httpQuery p werr =>
    have ht := ha.terminal p
    simp only [Spec.Book.step, Store.apiQuery]
    cases hb : b.terminal p with
    | none =>
      rw [hb] at ht
      have : s.st.devByPhone p = none := by unfold Store.look at ht; simpa using ht
      rw [this]; exact ⟨⟨ha, h.live, h.accepted⟩, rfl⟩
    | some t =>
      rw [hb] at ht
      obtain ⟨r, hr, hd⟩ := Store.look_some.1 ht
      simp only [Store.devByPhone, hr]
      obtain ⟨h1, h2⟩ := ha.send env werr hd none 0x8104 .m8104 (.ok []) (fun _ => .inr ⟨rfl, by simp⟩)
      obtain ⟨l1, l2⟩ := b.send_lives werr p t none 0x8104 (.ok [])
      exact ⟨⟨h1, by rw [l1]; exact h.live, by rw [l2]; exact h.accepted⟩, h2⟩
  | httpSet p bound bad werr =>
    have ht := ha.terminal p
    simp only [Spec.Book.step, Store.apiSet]
    cases hb : b.terminal p with
    | none =>
      rw [hb] at ht
      have : s.st.devByPhone p = none := by unfold Store.look at ht; simpa using ht
      rw [this]; exact ⟨⟨ha, h.live, h.accepted⟩, rfl⟩
    | some t =>
      rw [hb] at ht
      obtain ⟨r, hr, hd⟩ := Store.look_some.1 ht
      simp only [Store.devByPhone, hr]
      have hm : ∀ x : Header, (∃ e e', (Msg.m8103 ⟨0, bound⟩).encodeBody env x = .err e ∧ bound.encode env = .err e') ∨
          ((Msg.m8103 ⟨0, bound⟩).encodeBody env x = bound.encode env ∧ ∀ e, bound.encode env ≠ .err e) := by
        intro x
        simp only [Msg.encodeBody, SetParams.encode]
        cases bound.encode env with
        | ok bs => exact .inr ⟨rfl, by simp⟩
        | err e => exact .inl ⟨_, _, rfl, rfl⟩
        | panic => exact .inr ⟨rfl, by simp⟩
      obtain ⟨h1, h2⟩ := ha.send env werr hd (if bad then some 400 else none) 0x8103 (.m8103 ⟨0, bound⟩) (bound.encode env) hm
      obtain ⟨l1, l2⟩ := b.send_lives werr p t (if bad then some 400 else none) 0x8103 (bound.encode env)
      exact ⟨⟨h1, by rw [l1]; exact h.live, by rw [l2]; exact h.accepted⟩, h2⟩

theorem Spec.Book.run_append (env : Env) (b : Book) (xs ys : List Ev) :
    b.run env (xs ++ ys) = (((b.run env xs).1.run env ys).1, (b.run env xs).2 ++ ((b.run env xs).1.run env ys).2) := by
  induction xs generalizing b with
  | nil => rfl
  | cons x xs ih =>
    simp only [List.cons_append, Spec.Book.run, ih]

end JT808
