import Verif.Spec.Groups
import Verif.Proof.Segments
import Verif.Proof.Conns
import Verif.Props.Fragments
/-
Two runs of the server that look the same to one group of terminals.
-/
namespace JT808
open Spec

theorem look_split {st st' : Store} {p : Str} (h : st'.look p = st.look p) :
    (st.byPhone.get p = none ∧ st'.byPhone.get p = none) ∨
    ∃ r r', st.byPhone.get p = some r ∧ st'.byPhone.get p = some r' ∧ st'.heap r' = st.heap r := by
  cases hr : st.byPhone.get p with
  | none =>
    left
    refine ⟨rfl, ?_⟩
    rw [Store.look_none.2 hr] at h
    exact Store.look_none.1 h
  | some r =>
    right
    rw [Store.look_some.2 ⟨r, hr, rfl⟩] at h
    obtain ⟨r', h1, h2⟩ := Store.look_some.1 h
    exact ⟨r, r', rfl, h1, h2⟩

theorem look_iff_hasPhone {st st' : Store} {p : Str} (h : st'.look p = st.look p) : st'.hasPhone p = st.hasPhone p := by
  unfold Store.hasPhone Store.devByPhone
  rcases look_split h with ⟨a, b⟩ | ⟨r, r', a, b, -⟩ <;> rw [a, b]; rfl

theorem delByPhone_rest (st : Store) (p : Str) :
    (st.delByPhone p).geos = st.geos ∧ (st.delByPhone p).params = st.params ∧ (st.delByPhone p).serial = st.serial := by
  unfold Store.delByPhone; cases st.byPhone.get p <;> exact ⟨rfl, rfl, rfl⟩

theorem registerJob_rest (st : Store) (p : Str) :
    (st.registerJob p).geos = st.geos ∧ (st.registerJob p).params = st.params ∧ (st.registerJob p).serial = st.serial := by
  unfold Store.registerJob; cases st.devByPhone p <;> exact ⟨rfl, rfl, rfl⟩

/-- Handlers see only what is stored under the phone of the message, and which plates are taken. -/
theorem handle_same (env : Env) (clk : Clock) (c : Conn) {st st' : Store} (hi : StoreInv st) (hi' : StoreInv st')
    (h : Header) (m : Msg) (hl : st'.look h.phone = st.look h.phone) (hg : st'.geos.get h.phone = st.geos.get h.phone)
    (hp : st'.params.get h.phone = st.params.get h.phone)
    (ht : ∀ q, m = .m0100 q → st'.taken q.plate = st.taken q.plate)
    (hq : ∀ q, m = .m8103 q → q.params.phone = h.phone) :
    (st'.handle env clk c h m).2 = (st.handle env clk c h m).2 ∧
    (st'.handle env clk c h m).1.geos.get h.phone = (st.handle env clk c h m).1.geos.get h.phone ∧
    (st'.handle env clk c h m).1.params.get h.phone = (st.handle env clk c h m).1.params.get h.phone := by
  cases m with
  | m0001 => exact ⟨rfl, hg, hp⟩
  | m0104 => exact ⟨rfl, hg, hp⟩
  | m1205 => exact ⟨rfl, hg, hp⟩
  | m9205 => exact ⟨rfl, hg, hp⟩
  | m0002 =>
    simp only [Store.handle, process0002, Store.devByPhone]
    rcases look_split hl with ⟨a, b⟩ | ⟨r, r', a, b, e⟩ <;> rw [a, b] <;> exact ⟨rfl, hg, hp⟩
  | m0003 =>
    simp only [Store.handle, process0003, Store.devByPhone]
    rcases look_split hl with ⟨a, b⟩ | ⟨r, r', a, b, e⟩ <;> rw [a, b]
    · exact ⟨rfl, hg, hp⟩
    · simp only [(delByPhone_rest _ _).1, (delByPhone_rest _ _).2.1]; exact ⟨trivial, hg, hp⟩
  | m0100 m =>
    simp only [Store.handle, process0100]
    rw [hasPlate_taken, hasPlate_taken, ht m rfl, look_iff_hasPhone hl]
    split
    · exact ⟨rfl, hg, hp⟩
    · split
      · exact ⟨rfl, hg, hp⟩
      · simp only [(registerJob_rest _ _).1, (registerJob_rest _ _).2.1]; exact ⟨trivial, hg, hp⟩
  | m0102 m =>
    simp only [Store.handle, process0102, Store.devByPhone]
    rcases look_split hl with ⟨a, b⟩ | ⟨r, r', a, b, e⟩ <;> rw [a, b]
    · exact ⟨rfl, hg, hp⟩
    · simp only [e]
      split
      · simp only [(delByPhone_rest _ _).1, (delByPhone_rest _ _).2.1]; exact ⟨trivial, hg, hp⟩
      · exact ⟨rfl, hg, hp⟩
  | m0200 m =>
    simp only [Store.handle]
    rcases look_split hl with ⟨a, b⟩ | ⟨r, r', a, b, e⟩
    · unfold process0200 Store.devByPhone; rw [a, b]; exact ⟨rfl, hg, hp⟩
    · obtain ⟨rb, x1, -, x2⟩ := process0200_eq (clk := clk) hi a m
      obtain ⟨rb', y1, -, y2⟩ := process0200_eq (clk := clk) hi' b m
      rw [hg, x1] at y1
      injection y1 with y1; subst y1
      rw [x2, y2]
      refine ⟨rfl, ?_, ?_⟩
      · simp only [AMap.get_set, if_true]
      · unfold accStore
        simp only
        split <;> exact hp
  | m8001 m =>
    simp only [Store.handle, process8001, Store.devByPhone]
    rcases look_split hl with ⟨a, b⟩ | ⟨r, r', a, b, e⟩ <;> rw [a, b]
    · split <;> exact ⟨rfl, hg, hp⟩
    · simp only [e]
      split
      · split <;> exact ⟨rfl, hg, hp⟩
      · exact ⟨rfl, hg, hp⟩
  | m8100 m =>
    simp only [Store.handle, process8100, Store.devByPhone]
    rcases look_split hl with ⟨a, b⟩ | ⟨r, r', a, b, e⟩ <;> rw [a, b]
    · exact ⟨rfl, hg, hp⟩
    · simp only [e]; exact ⟨trivial, hg, hp⟩
  | m8103 m =>
    have hm := hq m rfl
    simp only [Store.handle, process8103, Store.paramsOf, Store.cacheParams]
    rw [hp]
    cases hx : st.params.get h.phone with
    | none =>
      refine ⟨trivial, hg, ?_⟩
      simp only [hm, AMap.get_set, if_true]
    | some old =>
      refine ⟨trivial, hg, ?_⟩
      have := (hi.params _ _ hx).1
      simp only [update_phone, this, AMap.get_set, if_true]
  | m8104 =>
    simp only [Store.handle, process8104, Store.paramsOf]
    rw [hp]
    cases hx : st.params.get h.phone with
    | some q => exact ⟨rfl, hg, by rw [hp]⟩
    | none =>
      simp only
      cases hf : fixedDecode env h.phone with
      | ok x =>
        obtain ⟨q, j⟩ := x
        refine ⟨rfl, hg, ?_⟩
        have := (fixedDecode_phone hf)
        simp only [Store.cacheParams, this, AMap.get_set, if_true]
      | err e => exact ⟨rfl, hg, hp⟩
      | panic => exact ⟨rfl, hg, hp⟩

theorem handle_serial (env : Env) (clk : Clock) (c : Conn) {st : Store} (hi : StoreInv st) (h : Header) (m : Msg) :
    (st.handle env clk c h m).1.serial = st.serial := by
  cases m with
  | m0001 => rfl
  | m0104 => rfl
  | m1205 => rfl
  | m9205 => rfl
  | m0002 => simp only [Store.handle, process0002]; cases st.devByPhone h.phone <;> rfl
  | m0003 =>
    simp only [Store.handle, process0003]
    cases st.devByPhone h.phone with
    | none => rfl
    | some r => exact (delByPhone_rest _ _).2.2
  | m0100 m =>
    simp only [Store.handle, process0100]
    split
    · rfl
    · split
      · rfl
      · exact (registerJob_rest _ _).2.2
  | m0102 m =>
    simp only [Store.handle, process0102]
    cases st.devByPhone h.phone with
    | none => rfl
    | some r =>
      simp only
      split
      · exact (delByPhone_rest _ _).2.2
      · rfl
  | m0200 m =>
    simp only [Store.handle]
    cases hr : st.byPhone.get h.phone with
    | none => unfold process0200 Store.devByPhone; rw [hr]
    | some r =>
      obtain ⟨rb', -, -, e3⟩ := process0200_eq (clk := clk) hi hr m
      rw [e3]
      unfold accStore
      by_cases ha : (GeoMeta.decode m.status).acc = 0
      · rw [if_pos ha]; rfl
      · rw [if_neg ha]
  | m8001 m =>
    simp only [Store.handle, process8001]
    split
    · cases st.devByPhone h.phone with
      | none => rfl
      | some r => simp only; split <;> rfl
    · rfl
  | m8100 m => simp only [Store.handle, process8100]; cases st.devByPhone h.phone <;> rfl
  | m8103 m => rfl
  | m8104 =>
    simp only [Store.handle, process8104]
    cases st.paramsOf h.phone with
    | some q => rfl
    | none =>
      simp only
      cases fixedDecode env h.phone with
      | ok x => rfl
      | err e => rfl
      | panic => rfl

/-- The connections a group uses among those accepted so far (`acc` lists their addresses): everything that is not known
to be somebody else's. -/
def Group.conn (g : Group) (acc : List Str) (n : Nat) : Prop := ∀ a, acc[n]? = some a → g.addr a = true

/-- Two stores look the same to a group. -/
structure Rel (g : Group) (acc : List Str) (st st' : Store) : Prop where
  look : ∀ p, g.phone p = true → st'.look p = st.look p
  geos : ∀ p, g.phone p = true → st'.geos.get p = st.geos.get p
  params : ∀ p, g.phone p = true → st'.params.get p = st.params.get p
  segs : ∀ p, g.phone p = true → (∀ x ∈ p, bcdChar x) → ∀ id, st'.segs.get (segKey p id) = st.segs.get (segKey p id)
  sess : ∀ a, g.addr a = true → st'.session a = st.session a
  serial : ∀ n, Group.conn g acc n → st'.serial n = st.serial n
  closed : ∀ n, Group.conn g acc n → st'.closed n = st.closed n

theorem Rel.refl (g : Group) (acc : List Str) (st : Store) : Rel g acc st st :=
  ⟨fun _ _ => rfl, fun _ _ => rfl, fun _ _ => rfl, fun _ _ _ _ => rfl, fun _ _ => rfl, fun _ _ => rfl, fun _ _ => rfl⟩

theorem Rel.symm {g : Group} {acc : List Str} {a b : Store} (h : Rel g acc a b) : Rel g acc b a :=
  ⟨fun p hp => (h.look p hp).symm, fun p hp => (h.geos p hp).symm, fun p hp => (h.params p hp).symm,
    fun p hp hx i => (h.segs p hp hx i).symm, fun p hp => (h.sess p hp).symm, fun p hp => (h.serial p hp).symm,
    fun p hp => (h.closed p hp).symm⟩

theorem Rel.trans {g : Group} {acc : List Str} {a b c : Store} (h : Rel g acc a b) (h' : Rel g acc b c) : Rel g acc a c :=
  ⟨fun p hp => (h'.look p hp).trans (h.look p hp), fun p hp => (h'.geos p hp).trans (h.geos p hp),
    fun p hp => (h'.params p hp).trans (h.params p hp), fun p hp hx i => (h'.segs p hp hx i).trans (h.segs p hp hx i),
    fun p hp => (h'.sess p hp).trans (h.sess p hp), fun p hp => (h'.serial p hp).trans (h.serial p hp),
    fun p hp => (h'.closed p hp).trans (h.closed p hp)⟩

/-- Devices, connections and addresses belong together. -/
structure Owned (g : Group) (acc : List Str) (s : Sys) : Prop where
  inv : StoreInv s.st
  ok : s.crashed = false
  sess : SessInv s
  len : s.accepted = acc.length
  live : ∀ c ∈ s.live, acc[c.id]? = some c.addr
  devs : ∀ p d, s.st.look p = some d → g.addr d.sessionID = g.phone p ∧ g.plate d.plate = g.phone p ∧
    ∀ c, d.conn = some c → c.addr = d.sessionID ∧ acc[c.id]? = some c.addr

theorem taken_iff {st : Store} (hi : StoreInv st) (q : Str) :
    st.taken q = true ↔ ∃ p d, st.look p = some d ∧ d.plate = q := by
  unfold Store.taken Store.lookPlate Store.devByPlate
  constructor
  · intro h
    cases hr : st.byPlate.get q with
    | none => rw [hr] at h; cases h
    | some r =>
      obtain ⟨-, h2, h3⟩ := hi.plateOK _ _ hr
      exact ⟨_, _, Store.look_some.2 ⟨r, h3, rfl⟩, h2⟩
  · rintro ⟨p, d, h1, h2⟩
    obtain ⟨r, h3, h4⟩ := Store.look_some.1 h1
    have := (hi.phoneOK _ _ h3).2.2
    rw [h4, h2] at this
    rw [this]; rfl

/-- A plate of the group is taken in both stores or in neither. -/
theorem Rel.taken {g : Group} {acc acc' : List Str} {s s' : Sys} (hr : Rel g acc s.st s'.st) (h : Owned g acc s)
    (h' : Owned g acc' s') {q : Str} (hq : g.plate q = true) : s'.st.taken q = s.st.taken q := by
  have half : ∀ {acc acc' : List Str} {s s' : Sys}, (∀ p, g.phone p = true → s'.st.look p = s.st.look p) →
      Owned g acc s → Owned g acc' s' → s.st.taken q = true → s'.st.taken q = true := by
    intro acc acc' s s' hl h h' ht
    obtain ⟨p, d, h1, h2⟩ := (taken_iff h.inv q).1 ht
    have hp := (h.devs p d h1).2.1
    rw [h2, hq] at hp
    exact (taken_iff h'.inv q).2 ⟨p, d, by rw [hl p hp.symm]; exact h1, h2⟩
  have a := half (fun p hp => hr.look p hp) h h'
  have b := half (fun p hp => (hr.look p hp).symm) h' h
  cases x : s.st.taken q with
  | true => exact a x
  | false =>
    cases y : s'.st.taken q with
    | false => rfl
    | true => rw [b y] at x; cases x

/-- What the group's side of one store provides. -/
structure Side (g : Group) (acc : List Str) (st : Store) : Prop where
  inv : StoreInv st
  own : ∀ p d, g.phone p = true → st.look p = some d → g.addr d.sessionID = true
  sess : ∀ a c, g.addr a = true → st.session a = some c → Group.conn g acc c.id ∧ c.addr = a

theorem Owned.side {g : Group} {acc : List Str} {s : Sys} (h : Owned g acc s) : Side g acc s.st := by
  refine ⟨h.inv, fun p d hp hd => by rw [(h.devs p d hd).1]; exact hp, ?_⟩
  intro a c ha hc
  obtain ⟨h1, h2⟩ := h.sess.served a c hc
  refine ⟨?_, h2⟩
  intro b hb
  rw [h.live c h1] at hb
  injection hb with hb
  rw [← hb, h2]; exact ha

theorem rel_segs {g : Group} {acc : List Str} {st st' : Store} (hr : Rel g acc st st') {sg sg' : AMap Segment}
    (h : ∀ p, g.phone p = true → (∀ x ∈ p, bcdChar x) → ∀ id, sg'.get (segKey p id) = sg.get (segKey p id)) :
    Rel g acc { st with segs := sg } { st' with segs := sg' } :=
  ⟨hr.look, hr.geos, hr.params, h, hr.sess, hr.serial, hr.closed⟩

theorem set_agree {β : Type} {m m' : AMap β} {k k' : Str} (v : β) (h : m'.get k' = m.get k') :
    (m'.set k v).get k' = (m.set k v).get k' := by
  rw [AMap.get_set, AMap.get_set, h]

theorem rel_cacheSegment {g : Group} {acc : List Str} {st st' : Store} (hr : Rel g acc st st') (seg : Segment)
    (hp : g.phone seg.phone = true) (hx : ∀ x ∈ seg.phone, bcdChar x) :
    (st'.cacheSegment seg).2 = (st.cacheSegment seg).2 ∧ Rel g acc (st.cacheSegment seg).1 (st'.cacheSegment seg).1 := by
  unfold Store.cacheSegment
  simp only
  rw [hr.segs _ hp hx]
  cases st.segs.get (segKey seg.phone seg.msgID) with
  | none => exact ⟨rfl, rel_segs hr fun p h1 h2 id => set_agree _ (hr.segs p h1 h2 id)⟩
  | some s => exact ⟨rfl, rel_segs hr fun p h1 h2 id => set_agree _ (hr.segs p h1 h2 id)⟩

theorem rel_decodePacket {env : Env} {g : Group} {acc : List Str} {st st' : Store} (hr : Rel g acc st st')
    (frame : List UInt8) (hf : ∀ pd, decodeFrame env frame = .ok pd → g.phone pd.header.phone = true) :
    (st'.decodePacket env frame).2 = (st.decodePacket env frame).2 ∧
    Rel g acc (st.decodePacket env frame).1 (st'.decodePacket env frame).1 := by
  unfold Store.decodePacket
  cases hd : decodeFrame env frame with
  | err e => exact ⟨rfl, hr⟩
  | panic => exact ⟨rfl, hr⟩
  | ok pd =>
    simp only
    by_cases hx : pd.header.isFragmented = true
    · rw [if_pos hx, if_pos hx]
      cases hg : pd.header.frag with
      | none => exact ⟨rfl, hr⟩
      | some f =>
        simp only
        obtain ⟨s, j, hh⟩ := decodeFrame_header hd
        obtain ⟨a, b⟩ := rel_cacheSegment hr (Segment.ofPacket pd.header f pd.body.data) (hf pd hd)
          (Header.decode_facts hh).2.1
        cases hc : st.cacheSegment (Segment.ofPacket pd.header f pd.body.data) with
        | mk t r =>
          cases hc' : st'.cacheSegment (Segment.ofPacket pd.header f pd.body.data) with
          | mk t' r' =>
            rw [hc, hc'] at a b
            simp only at a b
            subst a
            cases r' <;> exact ⟨rfl, b⟩
    · rw [if_neg hx, if_neg hx]; exact ⟨rfl, hr⟩

theorem rel_takeSerial {g : Group} {acc : List Str} {st st' : Store} (hr : Rel g acc st st') (c : Conn)
    (hc : Group.conn g acc c.id) :
    (st'.takeSerial c).2 = (st.takeSerial c).2 ∧ Rel g acc (st.takeSerial c).1 (st'.takeSerial c).1 := by
  unfold Store.takeSerial
  simp only
  rw [hr.serial _ hc]
  refine ⟨rfl, hr.look, hr.geos, hr.params, hr.segs, hr.sess, ?_, hr.closed⟩
  intro n hn
  simp only
  split
  · rfl
  · exact hr.serial n hn

theorem rel_remove {g : Group} {acc : List Str} {st st' : Store} (hr : Rel g acc st st') (c : Conn) :
    Rel g acc (st.remove c) (st'.remove c) := by
  refine ⟨hr.look, hr.geos, hr.params, hr.segs, ?_, hr.serial, ?_⟩
  · intro a ha; rw [session_remove, session_remove, hr.sess a ha]
  · intro n hn; rw [closed_remove, closed_remove, hr.closed n hn]

theorem rel_processSegment {g : Group} {acc : List Str} {st st' : Store} (hr : Rel g acc st st') (hs : Side g acc st)
    (h : Header) (hp : g.phone h.phone = true) :
    (st'.processSegment h).2 = (st.processSegment h).2 ∧
    Rel g acc (st.processSegment h).1 (st'.processSegment h).1 := by
  unfold Store.processSegment Store.devByPhone
  rcases look_split (hr.look _ hp) with ⟨a, b⟩ | ⟨r, r', a, b, e⟩ <;> rw [a, b]
  · exact ⟨rfl, hr⟩
  · simp only [e]
    have ho := hs.own _ _ hp (Store.look_some.2 ⟨r, a, rfl⟩)
    rw [hr.sess _ ho]
    cases hc : st.session (st.heap r).sessionID with
    | none => exact ⟨rfl, hr⟩
    | some c =>
      simp only
      obtain ⟨x, y⟩ := rel_takeSerial hr c (hs.sess _ _ ho hc).1
      exact ⟨by rw [x], y⟩

theorem rel_handle {env : Env} {clk : Clock} {c : Conn} {g : Group} {acc : List Str} {st st' : Store}
    (hr : Rel g acc st st') (hi : StoreInv st) (hi' : StoreInv st') (h : Header) (m : Msg) (hp : g.phone h.phone = true)
    (ht : ∀ q, m = .m0100 q → st'.taken q.plate = st.taken q.plate)
    (hq : ∀ q, m = .m8103 q → q.params.phone = h.phone ∧ q.params.Typed) :
    (st'.handle env clk c h m).2 = (st.handle env clk c h m).2 ∧
    Rel g acc (st.handle env clk c h m).1 (st'.handle env clk c h m).1 := by
  obtain ⟨a, b, d⟩ := handle_same env clk c hi hi' h m (hr.look _ hp) (hr.geos _ hp) (hr.params _ hp) ht
    (fun q e => (hq q e).1)
  refine ⟨a, ?_, ?_, ?_, ?_, ?_, ?_, ?_⟩
  · intro p hg
    rw [look_handle env clk c hi, look_handle env clk c hi', hr.look _ hp, hr.look _ hg]
    congr 1
    cases m with
    | m0100 q =>
      unfold devNext
      cases st.look h.phone with
      | none => simp only; rw [ht q rfl]
      | some _ => rfl
    | _ => cases st.look h.phone <;> rfl
  · intro p hg
    by_cases hx : p = h.phone
    · subst hx; exact b
    · rw [((handle_eff (c := c) hi h m hq).other hi hx).geos, ((handle_eff (c := c) hi' h m hq).other hi' hx).geos]
      exact hr.geos p hg
  · intro p hg
    by_cases hx : p = h.phone
    · subst hx; exact d
    · rw [((handle_eff (c := c) hi h m hq).other hi hx).params, ((handle_eff (c := c) hi' h m hq).other hi' hx).params]
      exact hr.params p hg
  · intro p h1 h2 id; rw [handle_segs, handle_segs]; exact hr.segs p h1 h2 id
  · intro p hg
    unfold Store.session
    rw [(handle_conns env clk c hi h m).2, (handle_conns env clk c hi' h m).2]; exact hr.sess p hg
  · intro n hn; rw [handle_serial env clk c hi, handle_serial env clk c hi']; exact hr.serial n hn
  · intro n hn; rw [(handle_conns env clk c hi h m).1, (handle_conns env clk c hi' h m).1]; exact hr.closed n hn

theorem rel_process {env : Env} {clk : Clock} {c : Conn} {g : Group} {acc : List Str} {st st' : Store}
    (hr : Rel g acc st st') (hs : Side g acc st) (hi' : StoreInv st') (pkt : Packet)
    (hp : g.phone pkt.header.phone = true)
    (ht : ∀ (t : MType) (q : Register) (j : Nat), MType.ofID pkt.header.msgID = some t →
      t.decode env clk.civil pkt.header pkt.body 0 = .ok (.m0100 q, j) → st'.taken q.plate = st.taken q.plate) :
    (st'.process env clk c pkt).2 = (st.process env clk c pkt).2 ∧
    Rel g acc (st.process env clk c pkt).1 (st'.process env clk c pkt).1 := by
  unfold Store.process
  cases hm : MType.ofID pkt.header.msgID with
  | none => exact ⟨rfl, hr⟩
  | some t =>
    simp only
    split
    · exact rel_processSegment hr hs _ hp
    · cases hd : t.decode env clk.civil pkt.header pkt.body 0 with
      | err e => exact ⟨rfl, hr⟩
      | panic => exact ⟨rfl, hr⟩
      | ok x =>
        obtain ⟨m, j⟩ := x
        exact rel_handle hr hs.inv hi' _ m hp (fun q e => ht t q j hm (by rw [hd, e]))
          (fun q e => by subst e; exact decode_8103_phone hd)

theorem rel_handleFrame {env : Env} {clk : Clock} {c : Conn} {g : Group} {acc : List Str} {st st' : Store}
    (hr : Rel g acc st st') (hs : Side g acc st) (hi' : StoreInv st') (frame : List UInt8)
    (hf : ∀ pd, decodeFrame env frame = .ok pd → g.phone pd.header.phone = true ∧
      ∀ (t : MType) (q : Register) (j : Nat), MType.ofID pd.header.msgID = some t →
        t.decode env clk.civil pd.header pd.body 0 = .ok (.m0100 q, j) → st'.taken q.plate = st.taken q.plate) :
    (st'.handleFrame env clk c frame).2 = (st.handleFrame env clk c frame).2 ∧
    Rel g acc (st.handleFrame env clk c frame).1 (st'.handleFrame env clk c frame).1 := by
  obtain ⟨a, b⟩ := rel_decodePacket hr frame (fun pd h => (hf pd h).1)
  obtain ⟨sg, e⟩ := decodePacket_segs env st frame
  obtain ⟨sg', e'⟩ := decodePacket_segs env st' frame
  unfold Store.handleFrame
  cases hd : st.decodePacket env frame with
  | mk t r =>
    cases hd' : st'.decodePacket env frame with
    | mk t' r' =>
      rw [hd, hd'] at a b
      rw [hd] at e; rw [hd'] at e'
      simp only at a b e e'
      subst a
      cases r' with
      | err e => exact ⟨rfl, b⟩
      | panic => exact ⟨rfl, b⟩
      | ok pkt =>
        simp only
        obtain ⟨pd, h1, h2, h3⟩ := decodePacket_header hd
        have hs' : Side g acc t := by
          subst e
          exact ⟨hs.inv.of_same ⟨rfl, rfl, rfl, rfl, rfl⟩ hs.inv.rings hs.inv.params, hs.own, hs.sess⟩
        have hi'' : StoreInv t' := by
          subst e'; exact hi'.of_same ⟨rfl, rfl, rfl, rfl, rfl⟩ hi'.rings hi'.params
        obtain ⟨x, y⟩ := rel_process (env := env) (clk := clk) (c := c) b hs' hi'' pkt (by rw [h2]; exact (hf pd h1).1)
          (by
            intro ty q j k1 k2
            rw [h2] at k1 k2; rw [h3] at k2
            subst e; subst e'
            exact (hf pd h1).2 ty q j k1 k2)
        cases hq : t.process env clk c pkt with
        | mk u v =>
          cases hq' : t'.process env clk c pkt with
          | mk u' v' =>
            rw [hq, hq'] at x y
            simp only at x y
            subst x
            cases v' with
            | err e => exact ⟨rfl, y⟩
            | panic => exact ⟨rfl, y⟩
            | ok o =>
              cases o with
              | none => exact ⟨rfl, y⟩
              | some o =>
                simp only
                cases Out.encode env o <;> exact ⟨rfl, y⟩

theorem rel_serveFrame {env : Env} {clk : Clock} {c : Conn} {werr : Option Err} {g : Group} {acc : List Str}
    {st st' : Store} (hr : Rel g acc st st') (hs : Side g acc st) (hi' : StoreInv st') (frame : List UInt8)
    (hf : ∀ pd, decodeFrame env frame = .ok pd → g.phone pd.header.phone = true ∧
      ∀ (t : MType) (q : Register) (j : Nat), MType.ofID pd.header.msgID = some t →
        t.decode env clk.civil pd.header pd.body 0 = .ok (.m0100 q, j) → st'.taken q.plate = st.taken q.plate) :
    (st'.serveFrame env clk c werr frame).2 = (st.serveFrame env clk c werr frame).2 ∧
    Rel g acc (st.serveFrame env clk c werr frame).1 (st'.serveFrame env clk c werr frame).1 := by
  obtain ⟨a, b⟩ := rel_handleFrame (c := c) hr hs hi' frame hf
  unfold Store.serveFrame
  cases hd : st.handleFrame env clk c frame with
  | mk t o =>
    cases hd' : st'.handleFrame env clk c frame with
    | mk t' o' =>
      rw [hd, hd'] at a b
      simp only at a b
      subst a
      have rm := rel_remove b c
      cases o' with
      | silent => exact ⟨rfl, b⟩
      | panicked => exact ⟨rfl, rm⟩
      | failed e => simp only; split <;> first | exact ⟨rfl, rm⟩ | exact ⟨rfl, b⟩
      | reply f =>
        cases werr with
        | none => exact ⟨rfl, b⟩
        | some e => simp only; split <;> first | exact ⟨rfl, rm⟩ | exact ⟨rfl, b⟩

theorem rel_serverSend {env : Env} {werr : Option Err} {g : Group} {acc : List Str} {st st' : Store}
    (hr : Rel g acc st st') (a : Str) (ha : g.addr a = true) (o : Out) :
    (st'.serverSend env werr a o).2 = (st.serverSend env werr a o).2 ∧
    Rel g acc (st.serverSend env werr a o).1 (st'.serverSend env werr a o).1 := by
  unfold Store.serverSend
  rw [hr.sess a ha]
  cases st.session a with
  | none => exact ⟨rfl, hr⟩
  | some c =>
    simp only
    cases Out.encode env o with
    | panic => exact ⟨rfl, hr⟩
    | err e => exact ⟨rfl, hr⟩
    | ok f =>
      cases werr with
      | none => exact ⟨rfl, hr⟩
      | some e => cases e <;> first | exact ⟨rfl, hr⟩ | exact ⟨rfl, rel_remove hr c⟩

theorem rel_apiSend {env : Env} {werr : Option Err} {g : Group} {acc : List Str} {st st' : Store}
    (hr : Rel g acc st st') (hs : Side g acc st) {p : Str} (hp : g.phone p = true) {r r' : Ref}
    (h1 : st.byPhone.get p = some r) (h2 : st'.heap r' = st.heap r) (code : Option Nat) (id : UInt16) (m : Msg) :
    (st'.apiSend env werr r' code id m).2 = (st.apiSend env werr r code id m).2 ∧
    Rel g acc (st.apiSend env werr r code id m).1 (st'.apiSend env werr r' code id m).1 := by
  have ho := hs.own _ _ hp (Store.look_some.2 ⟨r, h1, rfl⟩)
  unfold Store.apiSend
  simp only [h2]
  rw [hr.sess _ ho]
  cases hc : st.session (st.heap r).sessionID with
  | none => exact ⟨rfl, hr⟩
  | some c =>
    simp only
    obtain ⟨hcn, hca⟩ := hs.sess _ _ ho hc
    obtain ⟨x, y⟩ := rel_takeSerial hr c hcn
    rw [x]
    obtain ⟨u, v⟩ := rel_serverSend (env := env) (werr := werr) y c.addr (by rw [hca]; exact ho)
      (genMsgHeader (st.heap r).phone (st.heap r).ver (st.heap r).protoVer id (st.takeSerial c).2, m)
    revert u v
    generalize (st.takeSerial c).1.serverSend env werr c.addr _ = A
    generalize (st'.takeSerial c).1.serverSend env werr c.addr _ = B
    obtain ⟨A1, A2⟩ := A
    obtain ⟨B1, B2⟩ := B
    intro u v
    simp only at u v
    subst u
    cases B2 <;> exact ⟨rfl, v⟩

theorem rel_apiQuery {env : Env} {werr : Option Err} {g : Group} {acc : List Str} {st st' : Store}
    (hr : Rel g acc st st') (hs : Side g acc st) {p : Str} (hp : g.phone p = true) :
    (st'.apiQuery env werr p).2 = (st.apiQuery env werr p).2 ∧
    Rel g acc (st.apiQuery env werr p).1 (st'.apiQuery env werr p).1 := by
  unfold Store.apiQuery Store.devByPhone
  rcases look_split (hr.look _ hp) with ⟨a, b⟩ | ⟨r, r', a, b, e⟩ <;> rw [a, b]
  · exact ⟨rfl, hr⟩
  · exact rel_apiSend hr hs hp a e _ _ _

theorem rel_apiSet {env : Env} {werr : Option Err} {g : Group} {acc : List Str} {st st' : Store}
    (hr : Rel g acc st st') (hs : Side g acc st) {p : Str} (hp : g.phone p = true) (bound : DeviceParams) (bad : Bool) :
    (st'.apiSet env werr p bound bad).2 = (st.apiSet env werr p bound bad).2 ∧
    Rel g acc (st.apiSet env werr p bound bad).1 (st'.apiSet env werr p bound bad).1 := by
  unfold Store.apiSet Store.devByPhone
  rcases look_split (hr.look _ hp) with ⟨a, b⟩ | ⟨r, r', a, b, e⟩ <;> rw [a, b]
  · exact ⟨rfl, hr⟩
  · exact rel_apiSend hr hs hp a e _ _ _

theorem rel_geos {g : Group} {acc : List Str} {st st' : Store} (hr : Rel g acc st st') {a b : AMap (Ring DeviceGeo)}
    (h : ∀ p, g.phone p = true → b.get p = a.get p) : Rel g acc { st with geos := a } { st' with geos := b } :=
  ⟨hr.look, h, hr.params, hr.segs, hr.sess, hr.serial, hr.closed⟩

theorem rel_geoRing {g : Group} {acc : List Str} {st st' : Store} (hr : Rel g acc st st') {p : Str}
    (hp : g.phone p = true) :
    (st'.geoRing p).2 = (st.geoRing p).2 ∧ Rel g acc (st.geoRing p).1 (st'.geoRing p).1 ∧
    (st.geoRing p).1.heap = st.heap ∧ (st'.geoRing p).1.heap = st'.heap := by
  unfold Store.geoRing
  rw [hr.geos p hp]
  cases st.geos.get p with
  | some rb => exact ⟨rfl, hr, rfl, rfl⟩
  | none => exact ⟨rfl, rel_geos hr fun q hq => set_agree _ (hr.geos q hq), rfl, rfl⟩

theorem rel_apiGeo {g : Group} {acc : List Str} {st st' : Store} (hr : Rel g acc st st') {p : Str}
    (hp : g.phone p = true) :
    (st'.apiGeo p).2 = (st.apiGeo p).2 ∧ Rel g acc (st.apiGeo p).1 (st'.apiGeo p).1 := by
  unfold Store.apiGeo Store.devByPhone
  rcases look_split (hr.look _ hp) with ⟨a, b⟩ | ⟨r, r', a, b, e⟩ <;> rw [a, b]
  · exact ⟨rfl, hr⟩
  · simp only
    obtain ⟨x, y, z, z'⟩ := rel_geoRing hr hp
    unfold Store.geoLatest
    simp only [x]
    cases (st.geoRing p).2.latest with
    | ok o => cases o <;> simp only [z, z', e] <;> exact ⟨trivial, y⟩
    | err e => exact ⟨rfl, y⟩
    | panic => exact ⟨rfl, y⟩

theorem check_serial (clk : Clock) (st : Store) (p : Str) : (st.check clk p).1.serial = st.serial := by
  unfold Store.check
  split
  · rfl
  · simp only
    split
    · rfl
    · split
      · split
        · rfl
        · simp only [Store.cancelJob, Store.delGeo, (delByPhone_rest _ _).2.2]; rfl
      · rfl

theorem jobs_same {g : Group} {acc : List Str} {st st' : Store} (hr : Rel g acc st st') (hi : StoreInv st)
    (hi' : StoreInv st') {p : Str} (hp : g.phone p = true) : p ∈ st'.jobs ↔ p ∈ st.jobs := by
  rw [hi.jobs, hi'.jobs]
  rcases look_split (hr.look _ hp) with ⟨a, b⟩ | ⟨r, r', a, b, e⟩ <;> rw [a, b]
  simp

theorem rel_check {clk : Clock} {g : Group} {acc : List Str} {st st' : Store} (hr : Rel g acc st st')
    (hi : StoreInv st) (hi' : StoreInv st') {p : Str} (hp : g.phone p = true) (hj : p ∈ st.jobs) :
    (st'.check clk p).2 = (st.check clk p).2 ∧ Rel g acc (st.check clk p).1 (st'.check clk p).1 := by
  have hj' := (jobs_same hr hi hi' hp).2 hj
  have hlook : ∀ q, g.phone q = true → (st'.check clk p).1.look q = (st.check clk p).1.look q := by
    intro q hq
    rw [look_check hi hj, look_check hi' hj', hr.look p hp, hr.look q hq]
  rcases look_split (hr.look _ hp) with ⟨a, b⟩ | ⟨r, r', a, b, e⟩
  · rw [hi.jobs, a] at hj; cases hj
  · obtain ⟨cn, c1, c2⟩ := check_registered (clk := clk) hi a
    obtain ⟨cn', c1', c2'⟩ := check_registered (clk := clk) hi' b
    rw [e, c1] at c1'
    injection c1' with c1'
    subst c1'
    rw [e] at c2'
    rw [c2, c2'] at hlook ⊢
    refine ⟨rfl, hlook, ?_, ?_, ?_, ?_, ?_, ?_⟩ <;> simp only
    · intro q hq
      split
      · exact hr.geos q hq
      · split
        · simp only [Store.cancelJob, Store.delGeo, (delByPhone_rest _ _).1, Store.closeConn]
          rw [AMap.get_del, AMap.get_del, hr.geos q hq]
        · exact hr.geos q hq
    · intro q hq
      split
      · exact hr.params q hq
      · split
        · simp only [Store.cancelJob, Store.delGeo, (delByPhone_rest _ _).2.1, Store.closeConn]
          exact hr.params q hq
        · exact hr.params q hq
    · intro q hq hx id
      split
      · exact hr.segs q hq hx id
      · split
        · simp only [Store.cancelJob, Store.delGeo, delByPhone_segs, Store.closeConn]
          exact hr.segs q hq hx id
        · exact hr.segs q hq hx id
    · have hd : ∀ (s : Store) (p : Str), (s.delByPhone p).sessions = s.sessions := by
        intro s p; unfold Store.delByPhone; cases s.byPhone.get p <;> rfl
      intro q hq
      split
      · exact hr.sess q hq
      · split
        · simp only [Store.session, Store.cancelJob, Store.delGeo, hd, Store.closeConn]
          exact hr.sess q hq
        · exact hr.sess q hq
    · intro n hn
      split
      · exact hr.serial n hn
      · split
        · simp only [Store.cancelJob, Store.delGeo, (delByPhone_rest _ _).2.2, Store.closeConn]
          exact hr.serial n hn
        · exact hr.serial n hn
    · have hd : ∀ (s : Store) (p : Str), (s.delByPhone p).closed = s.closed := by
        intro s p; unfold Store.delByPhone; cases s.byPhone.get p <;> rfl
      intro n hn
      split
      · exact hr.closed n hn
      · split
        · simp only [Store.cancelJob, Store.delGeo, hd, Store.closeConn]
          rw [hr.closed n hn]
        · exact hr.closed n hn

/-! ### Events of others -/

/-- A connection of somebody else. -/
def Foreign (g : Group) (acc : List Str) (c : Conn) : Prop := acc[c.id]? = some c.addr ∧ g.addr c.addr = false

theorem Foreign.ne {g : Group} {acc : List Str} {c : Conn} (h : Foreign g acc c) {n : Nat} (hn : Group.conn g acc n) :
    n ≠ c.id := by
  intro hx
  subst hx
  have := hn _ h.1
  rw [h.2] at this; cases this

theorem foreign_remove {g : Group} {acc : List Str} {c : Conn} (h : Foreign g acc c) (st : Store) :
    Rel g acc st (st.remove c) := by
  refine ⟨fun _ _ => rfl, fun _ _ => rfl, fun _ _ => rfl, fun _ _ _ _ => rfl, ?_, fun _ _ => rfl, ?_⟩
  · intro a ha
    rw [session_remove, if_neg]
    intro hx; rw [hx, h.2] at ha; cases ha
  · intro n hn
    rw [closed_remove, if_neg (h.ne hn)]

theorem foreign_serial {g : Group} {acc : List Str} {c : Conn} (h : Foreign g acc c) (st : Store) :
    Rel g acc st (st.takeSerial c).1 := by
  refine ⟨fun _ _ => rfl, fun _ _ => rfl, fun _ _ => rfl, fun _ _ _ _ => rfl, fun _ _ => rfl, ?_, fun _ _ => rfl⟩
  intro n hn
  simp only [Store.takeSerial]
  rw [if_neg (h.ne hn)]

/-- The others' sessions are of their connections. -/
theorem Owned.foreign {g : Group} {acc : List Str} {s : Sys} (h : Owned g acc s) {a : Str} {c : Conn}
    (ha : g.addr a = false) (hc : s.st.session a = some c) : Foreign g acc c := by
  obtain ⟨h1, h2⟩ := h.sess.served a c hc
  exact ⟨h.live c h1, by rw [h2]; exact ha⟩

theorem foreign_apiSend {env : Env} {werr : Option Err} {g : Group} {acc : List Str} {s : Sys} (h : Owned g acc s)
    {p : Str} (hp : g.phone p = false) {r : Ref} (hr : s.st.byPhone.get p = some r) (code : Option Nat) (id : UInt16)
    (m : Msg) : Rel g acc s.st (s.st.apiSend env werr r code id m).1 := by
  have hd := (h.devs _ _ (Store.look_some.2 ⟨r, hr, rfl⟩)).1
  rw [hp] at hd
  unfold Store.apiSend
  simp only
  cases hc : s.st.session (s.st.heap r).sessionID with
  | none => exact Rel.refl _ _ _
  | some c =>
    simp only
    have hf := h.foreign hd hc
    have h1 := foreign_serial hf s.st
    generalize hx : genMsgHeader (s.st.heap r).phone (s.st.heap r).ver (s.st.heap r).protoVer id (s.st.takeSerial c).2 = hdr
    have key : Rel g acc s.st ((s.st.takeSerial c).1.serverSend env werr c.addr (hdr, m)).1 := by
      unfold Store.serverSend
      cases hc' : (s.st.takeSerial c).1.session c.addr with
      | none => exact h1
      | some c' =>
        have hf' : Foreign g acc c' := h.foreign (a := c.addr) hf.2 hc'
        simp only
        cases Out.encode env (hdr, m) with
        | panic => exact h1
        | err e => exact h1
        | ok f =>
          cases werr with
          | none => exact h1
          | some e => cases e <;> first | exact h1 | exact h1.trans (foreign_remove hf' _)
    revert key
    generalize (s.st.takeSerial c).1.serverSend env werr c.addr _ = A
    obtain ⟨A1, A2⟩ := A
    intro key
    cases A2 <;> exact key

theorem handleFrame_serial (env : Env) (clk : Clock) (c : Conn) {st : Store} (hi : StoreInv st) (frame : List UInt8) :
    (st.handleFrame env clk c frame).1.serial = st.serial ∨
    ∃ pd d c', decodeFrame env frame = .ok pd ∧ st.look pd.header.phone = some d ∧ st.session d.sessionID = some c' ∧
      (st.handleFrame env clk c frame).1.serial = (st.takeSerial c').1.serial := by
  obtain ⟨sg, hsg⟩ := decodePacket_segs env st frame
  have hi1 : StoreInv { st with segs := sg } := hi.of_same ⟨rfl, rfl, rfl, rfl, rfl⟩ hi.rings hi.params
  unfold Store.handleFrame
  cases hd : st.decodePacket env frame with
  | mk t r =>
    rw [hd] at hsg; simp only at hsg; subst hsg
    cases r with
    | err e => exact .inl rfl
    | panic => exact .inl rfl
    | ok pkt =>
      simp only
      obtain ⟨pd, h1, h2, -⟩ := decodePacket_header hd
      have key : (Store.process env clk c { st with segs := sg } pkt).1.serial = st.serial ∨
          ∃ pd d c', decodeFrame env frame = .ok pd ∧ st.look pd.header.phone = some d ∧
            st.session d.sessionID = some c' ∧
            (Store.process env clk c { st with segs := sg } pkt).1.serial = (st.takeSerial c').1.serial := by
        unfold Store.process
        cases MType.ofID pkt.header.msgID with
        | none => exact .inl rfl
        | some t =>
          simp only
          split
          · unfold Store.processSegment
            cases hr : Store.devByPhone { st with segs := sg } pkt.header.phone with
            | none => exact .inl rfl
            | some r =>
              simp only
              cases hs : Store.session { st with segs := sg } (st.heap r).sessionID with
              | none => exact .inl rfl
              | some c' =>
                exact .inr ⟨pd, _, c', h1, Store.look_some.2 ⟨r, by rw [← h2]; exact hr, rfl⟩, hs, rfl⟩
          · cases t.decode env clk.civil pkt.header pkt.body 0 with
            | err e => exact .inl rfl
            | panic => exact .inl rfl
            | ok x => exact .inl (handle_serial env clk c hi1 _ _)
      revert key
      generalize Store.process env clk c { st with segs := sg } pkt = A
      obtain ⟨A1, A2⟩ := A
      intro key
      cases A2 with
      | err e => exact key
      | panic => exact key
      | ok o =>
        cases o with
        | none => exact key
        | some o => simp only; cases Out.encode env o <;> exact key

theorem foreign_segs {env : Env} {g : Group} (st : Store) (frame : List UInt8)
    (hf : ∀ pd, decodeFrame env frame = .ok pd → g.phone pd.header.phone = false) {p : Str} (hp : g.phone p = true)
    (hx : ∀ x ∈ p, bcdChar x) (id : UInt16) :
    (st.decodePacket env frame).1.segs.get (segKey p id) = st.segs.get (segKey p id) := by
  unfold Store.decodePacket
  cases hd : decodeFrame env frame with
  | err e => rfl
  | panic => rfl
  | ok pd =>
    simp only
    split
    · cases hg : pd.header.frag with
      | none => rfl
      | some f =>
        simp only
        obtain ⟨s, j, hh⟩ := decodeFrame_header hd
        have hb := (Header.decode_facts hh).2.1
        have hne : segKey p id ≠ segKey pd.header.phone pd.header.msgID := by
          intro e
          obtain ⟨e1, -⟩ := segKey_eq (bcd_no_slash hx) (bcd_no_slash hb) e
          have := hf pd hd
          rw [← e1, hp] at this; cases this
        have key : (st.cacheSegment (Segment.ofPacket pd.header f pd.body.data)).1.segs.get (segKey p id) =
            st.segs.get (segKey p id) := by
          unfold Store.cacheSegment
          simp only [Segment.ofPacket]
          cases st.segs.get (segKey pd.header.phone pd.header.msgID) with
          | none => exact AMap.get_set_ne _ _ hne
          | some s => exact AMap.get_set_ne _ _ hne
        revert key
        generalize st.cacheSegment _ = A
        obtain ⟨A1, A2⟩ := A
        intro key
        cases A2 <;> exact key
    · rfl

theorem framePhone_ok {env : Env} {frame : List UInt8} {q : Str} (h : framePhone env frame = some q) :
    ∃ pd, decodeFrame env frame = .ok pd ∧ pd.header.phone = q := by
  unfold framePhone at h
  cases hd : decodeFrame env frame with
  | ok pd => rw [hd] at h; injection h with h; exact ⟨pd, rfl, h⟩
  | err e => rw [hd] at h; cases h
  | panic => rw [hd] at h; cases h

theorem foreign_frame {env : Env} {clk : Clock} {c : Conn} {werr : Option Err} {g : Group} {acc : List Str} {s : Sys}
    (h : Owned g acc s) (hl : c ∈ s.live) (hc : g.addr c.addr = false) (frame : List UInt8)
    (hf : ∀ pd, decodeFrame env frame = .ok pd → g.phone pd.header.phone = false) :
    Rel g acc s.st (s.st.serveFrame env clk c werr frame).1 := by
  have hfc : Foreign g acc c := ⟨h.live c hl, hc⟩
  have hne : ∀ p, g.phone p = true → framePhone env frame ≠ some p := by
    intro p hp he
    obtain ⟨pd, h1, h2⟩ := framePhone_ok he
    have := hf pd h1
    rw [h2, hp] at this; cases this
  have key : Rel g acc s.st (s.st.handleFrame env clk c frame).1 := by
    have hq : ∀ p, g.phone p = true → SameFor p s.st (s.st.handleFrame env clk c frame).1 := by
      intro p hp
      cases hd : decodeFrame env frame with
      | ok pd =>
        refine (handleFrame_eff (env := env) (clk := clk) (c := c) h.inv frame pd.header.phone
          (fun pd' h' => by rw [hd] at h'; injection h' with h'; rw [h'])).other h.inv ?_
        intro hx; rw [hx, hf pd hd] at hp; cases hp
      | err e =>
        exact (handleFrame_eff (env := env) (clk := clk) (c := c) h.inv frame (p ++ [0])
          (fun pd' h' => by rw [hd] at h'; cases h')).other h.inv (by intro hx; have := congrArg List.length hx; simp at this)
      | panic =>
        exact (handleFrame_eff (env := env) (clk := clk) (c := c) h.inv frame (p ++ [0])
          (fun pd' h' => by rw [hd] at h'; cases h')).other h.inv (by intro hx; have := congrArg List.length hx; simp at this)
    refine ⟨fun p hp => (hq p hp).look, fun p hp => (hq p hp).geos, fun p hp => (hq p hp).params, ?_, ?_, ?_, ?_⟩
    · intro p hp hx id; rw [handleFrame_segs]; exact foreign_segs s.st frame hf hp hx id
    · intro a _; unfold Store.session; rw [(handleFrame_conns env clk c h.inv frame).2]
    · intro n hn
      rcases handleFrame_serial env clk c h.inv frame with e | ⟨pd, d, c', e1, e2, e3, e4⟩
      · rw [e]
      · rw [e4]
        have h1 := (h.devs _ _ e2).1
        rw [hf pd e1] at h1
        exact (foreign_serial (h.foreign h1 e3) s.st).serial n hn
    · intro n _; rw [(handleFrame_conns env clk c h.inv frame).1]
  rcases serveFrame_handle (env := env) (clk := clk) (c := c) (werr := werr) (st := s.st) (frame := frame) with e | e
  · rw [e]; exact key
  · rw [e]; exact key.trans (foreign_remove hfc _)

theorem foreign_check {clk : Clock} {g : Group} {acc : List Str} {s : Sys} (h : Owned g acc s) {p : Str}
    (hp : g.phone p = false) (hj : p ∈ s.st.jobs) : Rel g acc s.st (s.st.check clk p).1 := by
  have hq : ∀ q, g.phone q = true → SameFor q s.st (s.st.check clk p).1 := fun q hq =>
    check_other h.inv hj (by intro hx; rw [hx, hp] at hq; cases hq)
  refine ⟨fun q hp => (hq q hp).look, fun q hp => (hq q hp).geos, fun q hp => (hq q hp).params, ?_, ?_, ?_, ?_⟩
  · intro _ _ _ _; rw [check_segs]
  · intro a _; unfold Store.session; rw [(check_conns h.inv hj).1]
  · intro n _; rw [check_serial]
  · intro n hn
    obtain ⟨r, hr⟩ := Option.isSome_iff_exists.1 ((h.inv.jobs p).1 hj)
    obtain ⟨cn, c1, c2⟩ := check_registered (clk := clk) h.inv hr
    obtain ⟨x, -, y⟩ := h.devs _ _ (Store.look_some.2 ⟨r, hr, rfl⟩)
    obtain ⟨y1, y2⟩ := y cn c1
    have hf : Foreign g acc cn := ⟨y2, by rw [y1, x, hp]⟩
    rw [c2]
    simp only
    split
    · rfl
    · split
      · have hd : ∀ (s : Store) (p : Str), (s.delByPhone p).closed = s.closed := by
          intro s p; unfold Store.delByPhone; cases s.byPhone.get p <;> rfl
        simp only [Store.cancelJob, Store.delGeo, hd, Store.closeConn]
        rw [if_neg (hf.ne hn)]
      · rfl

theorem apiGeo_serial (st : Store) (p : Str) : (st.apiGeo p).1.serial = st.serial := by
  unfold Store.apiGeo Store.geoLatest Store.geoRing
  cases st.devByPhone p with
  | none => rfl
  | some r =>
    simp only
    cases st.geos.get p with
    | some rb =>
      simp only
      cases rb.latest with
      | ok o => cases o <;> rfl
      | err e => rfl
      | panic => rfl
    | none => rfl

/-- The addresses accepted after an event. -/
def accNext (acc : List Str) : Ev → List Str
  | .accept a => acc ++ [a]
  | _ => acc

theorem foreign_step {env : Env} {g : Group} {acc : List Str} {s : Sys} (h : Owned g acc s) (e : Ev)
    (he : e.within g = false) (ha : e.apart env g) :
    Rel g acc s.st (s.step env e).1.st ∧
    (∀ c, g.addr c.addr = true → (c ∈ (s.step env e).1.live ↔ c ∈ s.live)) ∧ accNext acc e = acc := by
  have hlive : ∀ (c c' : Conn), g.addr c.addr = false → g.addr c'.addr = true →
      (c' ∈ s.live.filter (· ≠ c) ↔ c' ∈ s.live) := by
    intro c c' hc hc'
    rw [List.mem_filter]
    refine ⟨fun x => x.1, fun x => ⟨x, ?_⟩⟩
    simp only [ne_eq, decide_not, Bool.not_eq_eq_eq_not, Bool.not_true, decide_eq_false_iff_not]
    intro hx; rw [hx, hc] at hc'; cases hc'
  unfold Sys.step
  rw [if_neg (by rw [h.ok]; simp)]
  cases e with
  | accept a => cases he
  | httpList => cases he
  | frame clk c bytes werr =>
    simp only [Ev.within] at he
    simp only
    by_cases hl : c ∈ s.live
    · rw [if_pos hl]
      refine ⟨foreign_frame h hl he bytes (fun pd hd => by rw [(ha pd hd).1]; exact he), ?_, rfl⟩
      intro c' hc'
      simp only
      split
      · exact hlive c c' he hc'
      · exact Iff.rfl
    · rw [if_neg hl]; exact ⟨Rel.refl _ _ _, fun _ _ => Iff.rfl, rfl⟩
  | readErr c e =>
    simp only [Ev.within] at he
    simp only
    by_cases hl : c ∈ s.live
    · rw [if_pos hl]
      unfold Store.serveErr
      by_cases hx : e.endsServe = true
      · rw [if_pos hx]
        exact ⟨foreign_remove ⟨h.live c hl, he⟩ _, fun c' hc' => hlive c c' he hc', rfl⟩
      · rw [if_neg hx]; exact ⟨Rel.refl _ _ _, fun _ _ => Iff.rfl, rfl⟩
    · rw [if_neg hl]; exact ⟨Rel.refl _ _ _, fun _ _ => Iff.rfl, rfl⟩
  | check clk p =>
    simp only [Ev.within] at he
    simp only
    by_cases hj : p ∈ s.st.jobs
    · rw [if_pos hj]; exact ⟨foreign_check h he hj, fun _ _ => Iff.rfl, rfl⟩
    · rw [if_neg hj]; exact ⟨Rel.refl _ _ _, fun _ _ => Iff.rfl, rfl⟩
  | httpGeo p =>
    simp only [Ev.within] at he
    refine ⟨?_, fun _ _ => Iff.rfl, rfl⟩
    obtain ⟨h1, h2, h3⟩ := apiGeo_same h.inv p
    refine ⟨fun q _ => h1.look _, fun q hq => h3 _ (by intro hx; rw [hx, he] at hq; cases hq),
      fun q _ => by rw [h2], fun _ _ _ _ => by rw [apiGeo_segs], fun a _ => ?_, fun n _ => ?_, fun n _ => ?_⟩
    · unfold Store.session; rw [(apiGeo_conns _ _).1]
    · exact congrFun (apiGeo_serial _ _) n
    · rw [(apiGeo_conns _ _).2]
  | httpQuery p werr =>
    simp only [Ev.within] at he
    refine ⟨?_, fun _ _ => Iff.rfl, rfl⟩
    simp only [Store.apiQuery]
    cases hr : s.st.devByPhone p with
    | none => exact Rel.refl _ _ _
    | some r => exact foreign_apiSend h he hr _ _ _
  | httpSet p bound bad werr =>
    simp only [Ev.within] at he
    refine ⟨?_, fun _ _ => Iff.rfl, rfl⟩
    simp only [Store.apiSet]
    cases hr : s.st.devByPhone p with
    | none => exact Rel.refl _ _ _
    | some r => exact foreign_apiSend h he hr _ _ _

/-! ### Events of the group -/

theorem own_step {env : Env} {g : Group} {acc : List Str} {s s' : Sys} (h : Owned g acc s) (h' : Owned g acc s')
    (hr : Rel g acc s.st s'.st) (hl : ∀ c, g.addr c.addr = true → (c ∈ s'.live ↔ c ∈ s.live)) (e : Ev)
    (he : e.within g = true) (ha : e.apart env g) :
    (s'.step env e).2 = (s.step env e).2 ∧ Rel g (accNext acc e) (s.step env e).1.st (s'.step env e).1.st ∧
    (∀ c, g.addr c.addr = true → (c ∈ (s'.step env e).1.live ↔ c ∈ (s.step env e).1.live)) := by
  unfold Sys.step
  rw [if_neg (by rw [h'.ok]; simp), if_neg (by rw [h.ok]; simp)]
  have hfil : ∀ (c c' : Conn), g.addr c'.addr = true →
      (c' ∈ s'.live.filter (· ≠ c) ↔ c' ∈ s.live.filter (· ≠ c)) := by
    intro c c' hc'
    rw [List.mem_filter, List.mem_filter, hl c' hc']
  cases e with
  | accept a =>
    refine ⟨rfl, ?_, ?_⟩
    · have hn : ∀ n, Group.conn g (acc ++ [a]) n → Group.conn g acc n := by
        intro n hn b hb
        refine hn b ?_
        rw [List.getElem?_append_left]
        · exact hb
        · exact (List.getElem?_eq_some_iff.1 hb).1
      simp only [Store.storeSession, accNext]
      rw [h'.len, h.len]
      exact ⟨hr.look, hr.geos, hr.params, hr.segs, fun b hb => set_agree _ (hr.sess b hb),
        fun n x => hr.serial n (hn n x), fun n x => hr.closed n (hn n x)⟩
    · intro c hc
      simp only [List.mem_cons]
      rw [h.len, h'.len, hl c hc]
  | httpList => exact ⟨rfl, hr, hl⟩
  | frame clk c bytes werr =>
    simp only [Ev.within] at he
    simp only
    have hlc := hl c he
    by_cases hx : c ∈ s.live
    · rw [if_pos hx, if_pos (hlc.2 hx)]
      obtain ⟨x, y⟩ := rel_serveFrame (env := env) (clk := clk) (c := c) (werr := werr) hr h.side h'.inv bytes (by
        intro pd hd
        obtain ⟨a1, a2⟩ := ha pd hd
        refine ⟨by rw [a1]; exact he, ?_⟩
        intro t q j h1 h2
        exact hr.taken h h' (by rw [a2 t q j h1 h2]; exact he))
      refine ⟨x, y, ?_⟩
      intro c' hc'
      simp only [x]
      split
      · exact hfil c c' hc'
      · exact hl c' hc'
    · rw [if_neg hx, if_neg (fun y => hx (hlc.1 y))]
      exact ⟨rfl, hr, hl⟩
  | readErr c e =>
    simp only [Ev.within] at he
    simp only
    have hlc := hl c he
    by_cases hx : c ∈ s.live
    · rw [if_pos hx, if_pos (hlc.2 hx)]
      unfold Store.serveErr
      by_cases hq : e.endsServe = true
      · rw [if_pos hq, if_pos hq]
        exact ⟨rfl, rel_remove hr c, fun c' hc' => hfil c c' hc'⟩
      · rw [if_neg hq, if_neg hq]; exact ⟨rfl, hr, hl⟩
    · rw [if_neg hx, if_neg (fun y => hx (hlc.1 y))]
      exact ⟨rfl, hr, hl⟩
  | check clk p =>
    simp only [Ev.within] at he
    simp only
    have hj := jobs_same hr h.inv h'.inv he
    by_cases hx : p ∈ s.st.jobs
    · rw [if_pos hx, if_pos (hj.2 hx)]
      exact ⟨rfl, (rel_check hr h.inv h'.inv he hx).2, hl⟩
    · rw [if_neg hx, if_neg (fun y => hx (hj.1 y))]; exact ⟨rfl, hr, hl⟩
  | httpGeo p =>
    obtain ⟨x, y⟩ := rel_apiGeo hr (p := p) he
    refine ⟨?_, y, hl⟩
    simp only [x]
  | httpQuery p werr =>
    obtain ⟨x, y⟩ := rel_apiQuery (env := env) (werr := werr) hr h.side (p := p) he
    exact ⟨x, y, hl⟩
  | httpSet p bound bad werr =>
    obtain ⟨x, y⟩ := rel_apiSet (env := env) (werr := werr) hr h.side (p := p) he bound bad
    exact ⟨x, y, hl⟩

/-! ### The invariant -/

theorem devNext_keeps {clk : Clock} {c : Conn} {h : Header} {taken : Str → Bool} {m : Msg} {o : Option Device}
    {d' : Device} (he : devNext clk c h taken m o = some d') :
    (∃ q, m = .m0100 q ∧ d' = Device.new clk c h q) ∨
    ∃ d, o = some d ∧ d'.conn = d.conn ∧ d'.sessionID = d.sessionID ∧ d'.plate = d.plate := by
  cases o with
  | none =>
    cases m <;> simp only [devNext] at he <;> first | cases he | skip
    case m0100 m =>
      by_cases ht : taken m.plate = true
      · rw [if_pos ht] at he; cases he
      · rw [if_neg ht] at he; injection he with he; exact .inl ⟨m, rfl, he.symm⟩
  | some d =>
    right
    refine ⟨d, rfl, ?_⟩
    cases m <;> simp only [devNext] at he <;> first | cases he | skip
    all_goals first | exact ⟨rfl, rfl, rfl⟩ | skip
    case m0102 m =>
      by_cases ht : m.code = d.code
      · rw [if_pos ht] at he; injection he with he; subst he; exact ⟨rfl, rfl, rfl⟩
      · rw [if_neg ht] at he; cases he
    all_goals split <;> exact ⟨rfl, rfl, rfl⟩

theorem acc_mono {acc : List Str} {e : Ev} {n : Nat} {a : Str} (h : acc[n]? = some a) : (accNext acc e)[n]? = some a := by
  cases e <;> simp only [accNext] <;> first | exact h | skip
  rw [List.getElem?_append_left]
  · exact h
  · exact (List.getElem?_eq_some_iff.1 h).1

theorem owned_step {env : Env} {g : Group} {acc : List Str} {s : Sys} (h : Owned g acc s) (e : Ev)
    (ha : e.apart env g) : Owned g (accNext acc e) (s.step env e).1 := by
  obtain ⟨i1, i2⟩ := step_inv env s e h.inv
  refine ⟨i1, ?_, (step_sess env s e h.inv h.sess).1, ?_, ?_, ?_⟩
  · rw [i2]; exact h.ok
  · unfold Sys.step
    rw [if_neg (by rw [h.ok]; simp)]
    cases e <;> simp only [accNext] <;> first | exact h.len | skip
    · rw [List.length_append, h.len]; rfl
    all_goals split <;> exact h.len
  · rcases step_live env s e with hl | ⟨a, rfl, hl, -⟩
    · intro c hc; exact acc_mono (h.live c (hl c hc))
    · intro c hc
      rw [hl] at hc
      rcases List.mem_cons.1 hc with rfl | hc
      · simp only [accNext, h.len, List.getElem?_concat_length]
      · exact acc_mono (h.live c hc)
  · intro p d hd
    generalize ho : (s.step env e).1.st.look p = o at hd
    have hv := step_dev env s e h.inv p
    rw [ho] at hv
    have old : ∀ d0, s.st.look p = some d0 → d.conn = d0.conn → d.sessionID = d0.sessionID → d.plate = d0.plate →
        g.addr d.sessionID = g.phone p ∧ g.plate d.plate = g.phone p ∧
          ∀ c, d.conn = some c → c.addr = d.sessionID ∧ (accNext acc e)[c.id]? = some c.addr := by
      intro d0 h0 h1 h2 h3
      obtain ⟨a1, a2, a3⟩ := h.devs p d0 h0
      rw [h1, h2, h3]
      exact ⟨a1, a2, fun c hc => ⟨(a3 c hc).1, acc_mono (a3 c hc).2⟩⟩
    cases hv with
    | same => exact old d hd rfl rfl rfl
    | msg clk c bytes werr hh m hl hdl hp =>
      rcases devNext_keeps hd with ⟨q, rfl, rfl⟩ | ⟨d0, h0, h1, h2, h3⟩
      · obtain ⟨s1, k1, t1, j1, a1, rfl, a3, a4, a5⟩ := hdl
        obtain ⟨pd, b1, b2, b3⟩ := decodePacket_header a1
        obtain ⟨c1, c2⟩ := ha pd b1
        rw [b2] at a3 a5 hp
        rw [b3] at a5
        have c3 := c2 t1 q j1 a3 a5
        subst hp
        refine ⟨c1.symm, c3.trans c1.symm, ?_⟩
        intro c' hc'
        injection hc' with hc'
        subst hc'
        exact ⟨rfl, acc_mono (h.live _ hl)⟩
      · exact old d0 h0 h1 h2 h3
    | chk clk hj =>
      cases hq : s.st.look p with
      | none => rw [hq] at hd; cases hd
      | some d0 =>
        rw [hq] at hd
        simp only [Option.bind_some, devCheck] at hd
        split at hd
        · split at hd
          · cases hd
          · injection hd with hd; subst hd; exact old d0 hq rfl rfl rfl
        · injection hd with hd; subst hd; exact old _ hq rfl rfl rfl

theorem owned_start (g : Group) : Owned g [] Sys.start :=
  ⟨StoreInv.empty, rfl, ⟨fun a c hc => (by cases hc)⟩, rfl, fun c hc => (by cases hc), fun p d hd => (by cases hd)⟩

/-- The whole history against the group's part of it. -/
theorem groups {env : Env} {g : Group} (evs : List Ev) : ∀ {acc : List Str} {s s' : Sys}, Owned g acc s →
    Owned g acc s' → Rel g acc s.st s'.st → (∀ c, g.addr c.addr = true → (c ∈ s'.live ↔ c ∈ s.live)) →
    (∀ e ∈ evs, e.apart env g) →
    (s'.run env (evs.filter (·.within g))).2 = g.sees env s evs ∧
    ∃ acc', Owned g acc' (s.run env evs).1 ∧ Owned g acc' (s'.run env (evs.filter (·.within g))).1 ∧
      Rel g acc' (s.run env evs).1.st (s'.run env (evs.filter (·.within g))).1.st ∧
      (∀ c, g.addr c.addr = true →
        (c ∈ (s'.run env (evs.filter (·.within g))).1.live ↔ c ∈ (s.run env evs).1.live)) := by
  induction evs with
  | nil => intro acc s s' h h' hr hl _; exact ⟨rfl, acc, h, h', hr, hl⟩
  | cons e evs ih =>
    intro acc s s' h h' hr hl hap
    have ha := hap e (by simp)
    have hap' : ∀ e ∈ evs, e.apart env g := fun x hx => hap x (by simp [hx])
    cases hw : e.within g with
    | true =>
      obtain ⟨x, y, z⟩ := own_step h h' hr hl e hw ha
      obtain ⟨u, v⟩ := ih (owned_step h e ha) (owned_step h' e ha) y z hap'
      rw [List.filter_cons_of_pos (by rw [hw])]
      simp only [Sys.run, Group.sees, List.zip_cons_cons]
      rw [List.filter_cons_of_pos (by simp only [hw])]
      refine ⟨?_, v⟩
      rw [u, x]
      rfl
    | false =>
      obtain ⟨x, y, z⟩ := foreign_step h e hw ha
      have ho := owned_step h e ha
      rw [z] at ho
      obtain ⟨u, v⟩ := ih ho h' (x.symm.trans hr) (fun c hc => (hl c hc).trans (y c hc).symm) hap'
      rw [List.filter_cons_of_neg (by rw [hw]; simp)]
      simp only [Sys.run, Group.sees, List.zip_cons_cons]
      rw [List.filter_cons_of_neg (by simp only [hw]; simp)]
      exact ⟨u, v⟩

end JT808
