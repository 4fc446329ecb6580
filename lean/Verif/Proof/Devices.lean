import Verif.Proof.Frame
/-
The device under each phone after a message, a keepalive check, an event: the two indexes and the heap seen as one map
from phones to devices.
-/
namespace JT808
open Spec

/-- What a message with header `h` makes of the device under its own phone; `taken` says which plates are registered. -/
def devNext (clk : Clock) (c : Conn) (h : Header) (taken : Str → Bool) : Msg → Option Device → Option Device
  | .m0002, some d => some (d.seen clk)
  | .m0003, some _ => none
  | .m0100 m, none => if taken m.plate then none else some (Device.new clk c h m)
  | .m0102 m, some d => if m.code = d.code then some (d.authed clk m) else none
  | .m0200 m, some d => some (if (GeoMeta.decode m.status).acc = 0 then d.asleep clk else d)
  | .m8001 m, some d => some (if m.result = 0 ∧ d.status = .offline then d.awake clk else d)
  | _, o => o

/-- The registered plates. -/
def Store.taken (st : Store) (q : Str) : Bool := (st.lookPlate q).isSome

theorem look_same {st : Store} (h : Header) (o : Option Device) (ho : o = st.look h.phone) :
    ∀ p, st.look p = if p = h.phone then o else st.look p := by
  intro p
  by_cases hp : p = h.phone
  · rw [if_pos hp, hp, ho]
  · rw [if_neg hp]

theorem hasPlate_taken (st : Store) (q : Str) : st.hasPlate q = st.taken q := by
  unfold Store.hasPlate Store.taken Store.lookPlate
  cases st.devByPlate q <;> rfl

theorem look_handle (env : Env) (clk : Clock) (c : Conn) {st : Store} (hi : StoreInv st) (h : Header) (m : Msg) :
    ∀ p, (st.handle env clk c h m).1.look p =
      if p = h.phone then devNext clk c h st.taken m (st.look h.phone) else st.look p := by
  have seen : ∀ d : Device, SameIdent d (d.seen clk) := fun d => ⟨rfl, rfl, rfl, rfl, rfl, rfl, rfl, rfl⟩
  have awake : ∀ d : Device, SameIdent d (d.awake clk) := fun d => ⟨rfl, rfl, rfl, rfl, rfl, rfl, rfl, rfl⟩
  have authed : ∀ (d : Device) m, SameIdent d (d.authed clk m) := fun d m => ⟨rfl, rfl, rfl, rfl, rfl, rfl, rfl, rfl⟩
  have hn : ∀ {r}, st.byPhone.get h.phone = some r → st.look h.phone = some (st.heap r) :=
    fun hr => Store.look_some.2 ⟨_, hr, rfl⟩
  cases m with
  | m0001 => exact look_same h _ rfl
  | m0104 => exact look_same h _ rfl
  | m1205 => exact look_same h _ rfl
  | m9205 => exact look_same h _ rfl
  | m0002 =>
    simp only [Store.handle, process0002, Store.devByPhone]
    cases hr : st.byPhone.get h.phone with
    | none => have := Store.look_none.2 hr; rw [this]; exact look_same h none this.symm
    | some r =>
      simp only
      rw [hi.touch hr (seen _), hn hr]
      exact look_setDev hi hr _
  | m0003 =>
    simp only [Store.handle, process0003, Store.devByPhone]
    cases hr : st.byPhone.get h.phone with
    | none => have := Store.look_none.2 hr; rw [this]; exact look_same h none this.symm
    | some r =>
      simp only
      rw [(hi.phoneOK _ _ hr).2.1, hn hr]
      exact look_drop hi hr
  | m0100 m =>
    simp only [Store.handle, process0100]
    rw [hasPlate_taken]
    cases hp : st.look h.phone with
    | some d =>
      have h2 : st.hasPhone h.phone = true := by
        unfold Store.hasPhone; unfold Store.look at hp
        cases hx : st.devByPhone h.phone with
        | none => rw [hx] at hp; cases hp
        | some r => rfl
      have key := look_same (st := st) h (some d) hp.symm
      by_cases ht : st.taken m.plate = true
      · rw [if_pos ht]; exact key
      · rw [if_neg ht, if_pos h2]; exact key
    | none =>
      have hg := Store.look_none.1 hp
      have h2 : ¬ (st.hasPhone h.phone = true) := by unfold Store.hasPhone Store.devByPhone; rw [hg]; simp
      simp only [devNext]
      by_cases ht : st.taken m.plate = true
      · rw [if_pos ht, if_pos ht]; exact look_same h none hp.symm
      · rw [if_neg ht, if_neg ht, if_neg h2]
        simp only
        rw [Store.register_eq]
        exact look_register hi _
  | m0102 m =>
    simp only [Store.handle, process0102, Store.devByPhone]
    cases hr : st.byPhone.get h.phone with
    | none => have := Store.look_none.2 hr; rw [this]; exact look_same h none this.symm
    | some r =>
      simp only
      rw [hn hr]
      simp only [devNext]
      by_cases hc : m.code = (st.heap r).code
      · rw [if_neg (by simpa using hc), if_pos hc]
        simp only
        rw [hi.touch hr (authed _ _)]
        exact look_setDev hi hr _
      · rw [if_pos hc, if_neg hc]
        simp only
        rw [(hi.phoneOK _ _ hr).2.1]
        exact look_drop hi hr
  | m0200 m =>
    cases hr : st.byPhone.get h.phone with
    | none =>
      have := Store.look_none.2 hr; rw [this]
      simp only [Store.handle, process0200, Store.devByPhone, hr]
      exact look_same h none this.symm
    | some r =>
      obtain ⟨rb', -, -, e3⟩ := process0200_eq (clk := clk) hi hr m
      simp only [Store.handle]
      rw [e3, hn hr]
      simp only [devNext]
      intro p
      have hl : ∀ (s : Store) (g : AMap (Ring DeviceGeo)), Store.look { s with geos := g } p = s.look p := fun _ _ => rfl
      rw [hl]
      unfold accStore
      by_cases ha : (GeoMeta.decode m.status).acc = 0
      · rw [if_pos ha, if_pos ha]; exact look_setDev hi hr _ p
      · rw [if_neg ha, if_neg ha]; exact look_same h _ (hn hr).symm p
  | m8001 m =>
    simp only [Store.handle, process8001, Store.devByPhone]
    cases hr : st.byPhone.get h.phone with
    | none =>
      have := Store.look_none.2 hr; rw [this]
      by_cases h0 : m.result = 0
      · rw [if_pos h0]; exact look_same h none this.symm
      · rw [if_neg h0]; exact look_same h none this.symm
    | some r =>
      rw [hn hr]
      simp only [devNext]
      by_cases h0 : m.result = 0
      · rw [if_pos h0]
        by_cases hs : (st.heap r).status = .offline
        · rw [if_neg (by simpa using hs), if_pos ⟨h0, hs⟩, hi.touch hr (awake _)]
          exact look_setDev hi hr _
        · rw [if_pos hs, if_neg (fun hx => hs hx.2)]; exact look_same h _ (hn hr).symm
      · rw [if_neg h0, if_neg (fun hx => h0 hx.1)]; exact look_same h _ (hn hr).symm
  | m8100 m =>
    have : (st.handle env clk c h (.m8100 m)).1 = st := by
      simp only [Store.handle, process8100]; cases st.devByPhone h.phone <;> rfl
    rw [this]; exact look_same h _ rfl
  | m8103 m => exact look_same h _ rfl
  | m8104 =>
    have : ∀ p, (st.handle env clk c h .m8104).1.look p = st.look p := by
      intro p
      simp only [Store.handle, process8104]
      cases st.paramsOf h.phone with
      | some q => rfl
      | none =>
        simp only
        cases fixedDecode env h.phone with
        | ok x => rfl
        | err e => rfl
        | panic => rfl
    intro p
    rw [this p]; exact look_same h _ rfl p

/-- The server hands message `m` with header `h` to its handler when it gets `frame`: an unfragmented message, or the
last fragment of one. -/
def Delivers (env : Env) (now : Civil) (st : Store) (frame : List UInt8) (h : Header) (m : Msg) : Prop :=
  ∃ st1 pkt t j, st.decodePacket env frame = (st1, .ok pkt) ∧ pkt.header = h ∧ MType.ofID h.msgID = some t ∧
    (h.isFragmented && !pkt.segCompleted) = false ∧ t.decode env now h pkt.body 0 = .ok (m, j)

theorem Holds.delivers {env : Env} {now : Civil} {frame : List UInt8} {h : Header} {m : Msg}
    (hh : Holds env now frame h m) (st : Store) : Delivers env now st frame h m := by
  obtain ⟨pd, t, j, e1, e2, e3, e4, e5⟩ := hh
  refine ⟨st, pd, t, j, decodePacket_unfrag e1 (by rw [e2]; exact e3), e2, e4, ?_, e5⟩
  rw [e3]; rfl

theorem Delivers.unique {env : Env} {now : Civil} {st : Store} {frame : List UInt8} {h h' : Header} {m m' : Msg}
    (a : Delivers env now st frame h m) (b : Delivers env now st frame h' m') : h = h' ∧ m = m' := by
  obtain ⟨s1, k1, t1, j1, a1, a2, a3, a4, a5⟩ := a
  obtain ⟨s2, k2, t2, j2, b1, b2, b3, b4, b5⟩ := b
  rw [a1] at b1
  simp only [Prod.mk.injEq, Res.ok.injEq] at b1
  obtain ⟨-, rfl⟩ := b1
  subst a2; subst b2
  rw [a3] at b3; injection b3 with b3; subst b3
  rw [a5] at b5; simp only [Res.ok.injEq, Prod.mk.injEq] at b5
  exact ⟨rfl, b5.1⟩

theorem Delivers.handle {env : Env} {clk : Clock} {st : Store} {frame : List UInt8} {h : Header} {m : Msg}
    (a : Delivers env clk.civil st frame h m) (c : Conn) :
    ∃ sg, st.handleFrame env clk c frame = finish env (Store.handle env clk c { st with segs := sg } h m) := by
  obtain ⟨s1, k1, t1, j1, a1, rfl, a3, a4, a5⟩ := a
  obtain ⟨sg, hsg⟩ := decodePacket_segs env st frame
  rw [a1] at hsg; simp only at hsg; subst hsg
  refine ⟨sg, ?_⟩
  unfold Store.handleFrame
  rw [a1]
  simp only
  unfold Store.process
  rw [a3]
  simp only [a4, a5, Bool.false_eq_true, if_false]
  cases Store.handle env clk c { st with segs := sg } k1.header m with
  | mk st' r =>
    cases r with
    | err e => rfl
    | panic => rfl
    | ok o =>
      cases o with
      | none => rfl
      | some o => simp only [finish]; cases Out.encode env o <;> rfl

theorem finish_fst (env : Env) (x : Store × Res (Option Out)) : (finish env x).1 = x.1 := by
  obtain ⟨st, r⟩ := x
  cases r with
  | err e => rfl
  | panic => rfl
  | ok o =>
    cases o with
    | none => rfl
    | some o => simp only [finish]; cases Out.encode env o <;> rfl

/-- A frame without a message for a handler changes only the fragment cache and serial numbers. -/
theorem handleFrame_none {env : Env} {clk : Clock} {c : Conn} {st : Store} {frame : List UInt8}
    (hn : ∀ h m, ¬ Delivers env clk.civil st frame h m) :
    ∃ sg sr, (st.handleFrame env clk c frame).1 = { st with segs := sg, serial := sr } := by
  obtain ⟨sg, hsg⟩ := decodePacket_segs env st frame
  unfold Store.handleFrame
  cases hd : st.decodePacket env frame with
  | mk s1 r =>
    rw [hd] at hsg; simp only at hsg; subst hsg
    cases r with
    | err e => exact ⟨sg, st.serial, rfl⟩
    | panic => exact ⟨sg, st.serial, rfl⟩
    | ok pkt =>
      simp only
      have key : ∃ sr, (Store.process env clk c { st with segs := sg } pkt).1 = { st with segs := sg, serial := sr } := by
        unfold Store.process
        cases ht : MType.ofID pkt.header.msgID with
        | none => exact ⟨st.serial, rfl⟩
        | some t =>
          simp only
          by_cases hf : (pkt.header.isFragmented && !pkt.segCompleted) = true
          · rw [if_pos hf]
            unfold Store.processSegment
            cases Store.devByPhone { st with segs := sg } pkt.header.phone with
            | none => exact ⟨st.serial, rfl⟩
            | some r =>
              simp only
              cases Store.session { st with segs := sg } (st.heap r).sessionID with
              | none => exact ⟨st.serial, rfl⟩
              | some c' => exact ⟨_, rfl⟩
          · rw [if_neg hf]
            cases hx : t.decode env clk.civil pkt.header pkt.body 0 with
            | err e => exact ⟨st.serial, rfl⟩
            | panic => exact ⟨st.serial, rfl⟩
            | ok x =>
              obtain ⟨m, j⟩ := x
              exact absurd ⟨_, _, t, j, hd, rfl, ht, by simpa using hf, hx⟩ (hn pkt.header m)
      obtain ⟨sr, hk⟩ := key
      cases hx : Store.process env clk c { st with segs := sg } pkt with
      | mk st2 r2 =>
        rw [hx] at hk; simp only at hk; subst hk
        refine ⟨sg, sr, ?_⟩
        cases r2 with
        | err e => rfl
        | panic => rfl
        | ok o =>
          cases o with
          | none => rfl
          | some o => simp only; cases Out.encode env o <;> rfl

theorem look_handleFrame {env : Env} {clk : Clock} {st : Store} {frame : List UInt8} {h : Header} {m : Msg}
    (hi : StoreInv st) (a : Delivers env clk.civil st frame h m) (c : Conn) (p : Str) :
    (st.handleFrame env clk c frame).1.look p =
      if p = h.phone then devNext clk c h st.taken m (st.look h.phone) else st.look p := by
  obtain ⟨sg, e⟩ := a.handle c
  rw [e, finish_fst]
  have hi' : StoreInv { st with segs := sg } := hi.of_same ⟨rfl, rfl, rfl, rfl, rfl⟩ hi.rings hi.params
  exact look_handle env clk c hi' h m p

theorem serveFrame_handle {env : Env} {clk : Clock} {c : Conn} {werr : Option Err} {st : Store} {frame : List UInt8} :
    (st.serveFrame env clk c werr frame).1 = (st.handleFrame env clk c frame).1 ∨
    (st.serveFrame env clk c werr frame).1 = (st.handleFrame env clk c frame).1.remove c := by
  unfold Store.serveFrame
  cases st.handleFrame env clk c frame with
  | mk st1 o =>
    cases o with
    | silent => exact .inl rfl
    | panicked => exact .inr rfl
    | failed e =>
      simp only
      by_cases hc : e.endsServe = true
      · rw [if_pos hc]; exact .inr rfl
      · rw [if_neg hc]; exact .inl rfl
    | reply f =>
      cases werr with
      | none => exact .inl rfl
      | some e =>
        simp only
        by_cases hc : e.endsServe = true
        · rw [if_pos hc]; exact .inr rfl
        · rw [if_neg hc]; exact .inl rfl

theorem look_serveFrame_eq {env : Env} {clk : Clock} {c : Conn} {werr : Option Err} {st : Store} {frame : List UInt8}
    (p : Str) : (st.serveFrame env clk c werr frame).1.look p = (st.handleFrame env clk c frame).1.look p := by
  rcases serveFrame_handle (env := env) (clk := clk) (c := c) (werr := werr) (st := st) (frame := frame) with e | e <;>
    rw [e] <;> rfl

theorem look_serveFrame {env : Env} {clk : Clock} {st : Store} {frame : List UInt8} {h : Header} {m : Msg}
    (hi : StoreInv st) (a : Delivers env clk.civil st frame h m) (c : Conn) (werr : Option Err) (p : Str) :
    (st.serveFrame env clk c werr frame).1.look p =
      if p = h.phone then devNext clk c h st.taken m (st.look h.phone) else st.look p := by
  rw [look_serveFrame_eq, look_handleFrame hi a]

theorem look_serveFrame_none {env : Env} {clk : Clock} {st : Store} {frame : List UInt8}
    (hn : ∀ h m, ¬ Delivers env clk.civil st frame h m) (c : Conn) (werr : Option Err) (p : Str) :
    (st.serveFrame env clk c werr frame).1.look p = st.look p := by
  rw [look_serveFrame_eq]
  obtain ⟨sg, sr, e⟩ := handleFrame_none (c := c) hn
  rw [e]; rfl

/-- Connections and sessions are not touched by handlers. -/
theorem handle_conns (env : Env) (clk : Clock) (c : Conn) {st : Store} (hi : StoreInv st) (h : Header) (m : Msg) :
    (st.handle env clk c h m).1.closed = st.closed ∧ (st.handle env clk c h m).1.sessions = st.sessions := by
  have hdel : ∀ (s : Store) (p : Str), (s.delByPhone p).closed = s.closed ∧ (s.delByPhone p).sessions = s.sessions := by
    intro s p; unfold Store.delByPhone; cases s.byPhone.get p <;> exact ⟨rfl, rfl⟩
  have hjob : ∀ (s : Store) (p : Str), (s.registerJob p).closed = s.closed ∧ (s.registerJob p).sessions = s.sessions := by
    intro s p; unfold Store.registerJob; cases s.devByPhone p <;> exact ⟨rfl, rfl⟩
  cases m with
  | m0001 => exact ⟨rfl, rfl⟩
  | m0104 => exact ⟨rfl, rfl⟩
  | m1205 => exact ⟨rfl, rfl⟩
  | m9205 => exact ⟨rfl, rfl⟩
  | m0002 => simp only [Store.handle, process0002]; cases st.devByPhone h.phone <;> exact ⟨rfl, rfl⟩
  | m0003 =>
    simp only [Store.handle, process0003]
    cases st.devByPhone h.phone with
    | none => exact ⟨rfl, rfl⟩
    | some r => exact hdel _ _
  | m0100 m =>
    simp only [Store.handle, process0100]
    split
    · exact ⟨rfl, rfl⟩
    · split
      · exact ⟨rfl, rfl⟩
      · exact hjob _ _
  | m0102 m =>
    simp only [Store.handle, process0102]
    cases st.devByPhone h.phone with
    | none => exact ⟨rfl, rfl⟩
    | some r =>
      simp only
      split
      · exact hdel _ _
      · exact ⟨rfl, rfl⟩
  | m0200 m =>
    simp only [Store.handle]
    cases hr : st.byPhone.get h.phone with
    | none => unfold process0200 Store.devByPhone; rw [hr]; exact ⟨rfl, rfl⟩
    | some r =>
      obtain ⟨rb', -, -, e3⟩ := process0200_eq (clk := clk) hi hr m
      rw [e3]
      unfold accStore
      by_cases ha : (GeoMeta.decode m.status).acc = 0
      · rw [if_pos ha]; exact ⟨rfl, rfl⟩
      · rw [if_neg ha]; exact ⟨rfl, rfl⟩
  | m8001 m =>
    simp only [Store.handle, process8001]
    split
    · cases st.devByPhone h.phone with
      | none => exact ⟨rfl, rfl⟩
      | some r => simp only; split <;> exact ⟨rfl, rfl⟩
    · exact ⟨rfl, rfl⟩
  | m8100 m => simp only [Store.handle, process8100]; cases st.devByPhone h.phone <;> exact ⟨rfl, rfl⟩
  | m8103 m => exact ⟨rfl, rfl⟩
  | m8104 =>
    simp only [Store.handle, process8104]
    cases st.paramsOf h.phone with
    | some q => exact ⟨rfl, rfl⟩
    | none =>
      simp only
      cases fixedDecode env h.phone with
      | ok x => exact ⟨rfl, rfl⟩
      | err e => exact ⟨rfl, rfl⟩
      | panic => exact ⟨rfl, rfl⟩

theorem handleFrame_conns (env : Env) (clk : Clock) (c : Conn) {st : Store} (hi : StoreInv st) (frame : List UInt8) :
    (st.handleFrame env clk c frame).1.closed = st.closed ∧ (st.handleFrame env clk c frame).1.sessions = st.sessions := by
  by_cases hd : ∃ hh m, Delivers env clk.civil st frame hh m
  · obtain ⟨hh, m, hd⟩ := hd
    obtain ⟨sg, e⟩ := hd.handle c
    rw [e, finish_fst]
    have hi' : StoreInv { st with segs := sg } := hi.of_same ⟨rfl, rfl, rfl, rfl, rfl⟩ hi.rings hi.params
    exact handle_conns env clk c hi' hh m
  · obtain ⟨sg, sr, e⟩ := handleFrame_none (env := env) (clk := clk) (c := c) (st := st) (frame := frame)
      (fun hh m hx => hd ⟨hh, m, hx⟩)
    rw [e]; exact ⟨rfl, rfl⟩

/-- What a keepalive check makes of a device. -/
def devCheck (now : Nat) (d : Device) : Option Device :=
  if d.last + 60000 < now then (if d.status = .offline then none else some d.lost) else some d

theorem look_check {clk : Clock} {st : Store} (hi : StoreInv st) {p : Str} (hj : p ∈ st.jobs) (p' : Str) :
    (st.check clk p).1.look p' = if p' = p then (st.look p).bind (devCheck clk.ms) else st.look p' := by
  by_cases hp : p' = p
  · subst hp
    rw [if_pos rfl]
    obtain ⟨r, hr⟩ := Option.isSome_iff_exists.1 ((hi.jobs p').1 hj)
    obtain ⟨cn, -, h2⟩ := check_registered (clk := clk) hi hr
    have hk := hi.keep _ _ hr
    have hl : st.look p' = some (st.heap r) := Store.look_some.2 ⟨r, hr, rfl⟩
    rw [h2, hl]
    simp only [Option.bind_some, devCheck]
    unfold Device.shouldTurnOffline Device.shouldClear
    rw [hk]
    by_cases ht : (st.heap r).last + 60000 < clk.ms
    · have ht' : clk.ms > 60000 + (st.heap r).last := by omega
      rw [if_pos ht]
      by_cases hs : (st.heap r).status = .offline
      · rw [if_pos hs]
        simp only [hs, ht', bne_self_eq_false, Bool.false_and, Bool.false_eq_true, if_false, beq_self_eq_true,
          decide_true, Bool.and_self, if_true]
        rw [clear_eq]
        have h4 : StoreInv (st.closeConn cn) := hi.of_same ⟨rfl, rfl, rfl, rfl, rfl⟩ hi.rings hi.params
        have h5 := look_drop h4 (p := p') (r := r) hr p'
        rw [if_pos rfl] at h5
        exact h5
      · have hb : ((st.heap r).status != DStatus.offline) = true := by simpa using hs
        rw [if_neg hs]
        simp only [hb, ht', decide_true, Bool.and_self, if_true]
        rw [look_setDev hi hr, if_pos rfl]
    · have ht' : ¬ clk.ms > 60000 + (st.heap r).last := by omega
      rw [if_neg ht]
      simp only [ht', decide_false, Bool.and_false, Bool.false_eq_true, if_false]
      exact hl
  · rw [if_neg hp]
    exact (check_other hi hj hp).look

end JT808
