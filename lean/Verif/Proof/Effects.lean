import Verif.Proof.Store
import Verif.Proof.Bounds
/-
What handling a packet can do to the stores, as a small set of effects tied to the phone number in its header.
-/
namespace JT808

/-- Effects of a packet with phone `p` received on connection `c`. -/
inductive Eff (p : Str) (c : Conn) : Store → Store → Prop
  | quiet {st st' : Store} : SameDev st st' → st'.geos = st.geos → st'.params = st.params → Eff p c st st'
  | touch {st : Store} {r : Ref} {d : Device} : st.byPhone.get p = some r → SameIdent (st.heap r) d →
      Eff p c st (st.setDev r d)
  | drop {st : Store} {r : Ref} : st.byPhone.get p = some r → Eff p c st ((st.cancelJob p).delByPhone p)
  | reg {st : Store} {d : Device} : d.phone = p → d.conn = some c → d.keepalive = 60000 → d.sessionID = c.addr →
      d.status = .offline → st.byPlate.get d.plate = none → st.byPhone.get p = none → Eff p c st (st.register d)
  | geo {st : Store} {rb : Ring DeviceGeo} : RingOK rb → Eff p c st { st with geos := st.geos.set p rb }
  | params {st : Store} {q : DeviceParams} : q.phone = p → q.Typed → Eff p c st { st with params := st.params.set p q }
  | trans {a b d : Store} : Eff p c a b → Eff p c b d → Eff p c a d

theorem Eff.refl (p : Str) (c : Conn) (st : Store) : Eff p c st st := .quiet (SameDev.refl st) rfl rfl

theorem Eff.inv {p : Str} {c : Conn} {st st' : Store} (e : Eff p c st st') (h : StoreInv st) : StoreInv st' := by
  induction e with
  | quiet hs hg hq => exact h.of_same hs (by rw [hg]; exact h.rings) (by rw [hq]; exact h.params)
  | touch _ hs => exact h.setDev hs
  | drop hr => exact h.drop hr
  | reg h1 h2 h3 _ _ h4 h5 => exact h.register h4 (by rw [h1]; exact h5) (by rw [h2]; rfl) h3
  | @geo st rb hr =>
    refine h.of_same ⟨rfl, rfl, rfl, rfl, rfl⟩ ?_ h.params
    intro p' rb' hp
    simp only at hp
    rw [AMap.get_set] at hp
    by_cases hpp : p' = p
    · rw [if_pos hpp] at hp; injection hp with hp; subst hp; exact hr
    · rw [if_neg hpp] at hp; exact h.rings _ _ hp
  | @params st q hq ht =>
    refine h.of_same ⟨rfl, rfl, rfl, rfl, rfl⟩ h.rings ?_
    intro p' q' hp
    simp only at hp
    rw [AMap.get_set] at hp
    by_cases hpp : p' = p
    · rw [if_pos hpp] at hp; injection hp with hp; subst hp; exact ⟨by rw [hq, hpp], ht⟩
    · rw [if_neg hpp] at hp; exact h.params _ _ hp
  | trans _ _ ih1 ih2 => exact ih2 (ih1 h)

theorem DeviceParams.decode_phone {env : Env} {phone : Str} {n : UInt8} {s : Slice} {i j : Nat} {q : DeviceParams}
    (h : DeviceParams.decode env phone n s i = .ok (q, j)) : q.phone = phone := by
  unfold DeviceParams.decode at h
  obtain ⟨ps, k, -, h2⟩ := rd_bind_ok h
  injection h2 with h2; injection h2 with h2 _; rw [← h2]

theorem onRest_ok {α : Type} {r : Rd α} {s : Slice} {i j : Nat} {a : α} (h : Rd.onRest r s i = .ok (a, j)) :
    ∃ s' k, r s' 0 = .ok (a, k) := by
  unfold Rd.onRest at h
  cases h1 : s.from' i with
  | ok s' =>
    rw [h1] at h; simp only at h
    cases h2 : r s' 0 with
    | ok x =>
      obtain ⟨b, k⟩ := x
      rw [h2] at h; simp only at h
      injection h with h; injection h with h _; subst h
      exact ⟨s', k, h2⟩
    | err e => rw [h2] at h; cases h
    | panic => rw [h2] at h; cases h
  | err e => rw [h1] at h; cases h
  | panic => rw [h1] at h; cases h

/-- The parameters of a decoded 0x8103 belong to the phone in the header. -/
theorem decode_8103_phone {env : Env} {now : Civil} {h : Header} {t : MType} {s : Slice} {i j : Nat} {m : SetParams}
    (hd : t.decode env now h s i = .ok (.m8103 m, j)) :
    m.params.phone = h.phone ∧ m.params.Typed := by
  cases t
  case t8103 =>
    unfold MType.decode at hd
    obtain ⟨a, k, h1, h2⟩ := rd_bind_ok hd
    injection h2 with h2; injection h2 with h2 _; injection h2 with h2; subst h2
    unfold SetParams.decode at h1
    obtain ⟨n, k1, -, h3⟩ := rd_bind_ok h1
    obtain ⟨ps, k2, h4, h5⟩ := rd_bind_ok h3
    injection h5 with h5; injection h5 with h5 _; subst h5
    obtain ⟨s', k', h6⟩ := onRest_ok h4
    exact ⟨DeviceParams.decode_phone h6, DeviceParams.decode_typed h6⟩
  case t0002 => unfold MType.decode at hd; cases hd
  case t0003 => unfold MType.decode at hd; cases hd
  case t8104 => unfold MType.decode at hd; cases hd
  all_goals
    unfold MType.decode at hd
    obtain ⟨a, k, -, h2⟩ := rd_bind_ok hd
    cases h2

theorem update_phone (ord : List ParamData → List ParamData) (p q : DeviceParams) : (p.update ord q).phone = p.phone := rfl

theorem process0002_eff {clk : Clock} {c : Conn} {st : Store} (h : StoreInv st) (hd : Header) :
    Eff hd.phone c st (process0002 clk st hd).1 := by
  unfold process0002 Store.devByPhone
  cases hr : st.byPhone.get hd.phone with
  | none => exact Eff.refl _ _ _
  | some r =>
    have hs : SameIdent (st.heap r) ((st.heap r).seen clk) := ⟨rfl, rfl, rfl, rfl, rfl, rfl, rfl, rfl⟩
    simp only
    rw [h.touch hr hs]
    exact .touch hr hs

theorem process0003_eff {c : Conn} {st : Store} (h : StoreInv st) (hd : Header) :
    Eff hd.phone c st (process0003 st hd).1 := by
  unfold process0003 Store.devByPhone
  cases hr : st.byPhone.get hd.phone with
  | none => exact Eff.refl _ _ _
  | some r =>
    simp only
    rw [(h.phoneOK _ _ hr).2.1]
    exact .drop hr

theorem hasPlate_false {st : Store} {q : Str} (h : ¬ (st.hasPlate q = true)) : st.byPlate.get q = none := by
  unfold Store.hasPlate Store.devByPlate at h
  cases hg : st.byPlate.get q with
  | none => rfl
  | some r => rw [hg] at h; simp at h

theorem hasPhone_false {st : Store} {q : Str} (h : ¬ (st.hasPhone q = true)) : st.byPhone.get q = none := by
  unfold Store.hasPhone Store.devByPhone at h
  cases hg : st.byPhone.get q with
  | none => rfl
  | some r => rw [hg] at h; simp at h

theorem process0100_eff {clk : Clock} {c : Conn} {st : Store} (hd : Header) (m : Register) :
    Eff hd.phone c st (process0100 clk c st hd m).1 := by
  unfold process0100
  by_cases h1 : st.hasPlate m.plate = true
  · rw [if_pos h1]; exact Eff.refl _ _ _
  · rw [if_neg h1]
    by_cases h2 : st.hasPhone hd.phone = true
    · rw [if_pos h2]; exact Eff.refl _ _ _
    · rw [if_neg h2]
      simp only
      rw [Store.register_eq]
      exact .reg rfl rfl rfl rfl rfl (hasPlate_false h1) (hasPhone_false h2)

theorem process0102_eff {clk : Clock} {c : Conn} {st : Store} (h : StoreInv st) (hd : Header) (m : AuthMsg) :
    Eff hd.phone c st (process0102 clk st hd m).1 := by
  unfold process0102 Store.devByPhone
  cases hr : st.byPhone.get hd.phone with
  | none => exact Eff.refl _ _ _
  | some r =>
    simp only
    by_cases hc : m.code ≠ (st.heap r).code
    · rw [if_pos hc, (h.phoneOK _ _ hr).2.1]
      exact .drop hr
    · rw [if_neg hc]
      have hs : SameIdent (st.heap r) ((st.heap r).authed clk m) :=
        ⟨rfl, rfl, rfl, rfl, rfl, rfl, rfl, rfl⟩
      simp only
      rw [h.touch hr hs]
      exact .touch hr hs

theorem process8001_eff {clk : Clock} {c : Conn} {st : Store} (h : StoreInv st) (hd : Header) (m : GeneralAck) :
    Eff hd.phone c st (process8001 clk st hd m).1 := by
  unfold process8001 Store.devByPhone
  by_cases h0 : m.result = 0
  · rw [if_pos h0]
    cases hr : st.byPhone.get hd.phone with
    | none => exact Eff.refl _ _ _
    | some r =>
      simp only
      by_cases hc : (st.heap r).status ≠ .offline
      · rw [if_pos hc]; exact Eff.refl _ _ _
      · rw [if_neg hc]
        have hs : SameIdent (st.heap r) ((st.heap r).awake clk) :=
          ⟨rfl, rfl, rfl, rfl, rfl, rfl, rfl, rfl⟩
        simp only
        rw [h.touch hr hs]
        exact .touch hr hs
  · rw [if_neg h0]; exact Eff.refl _ _ _

/-- The device store part of a location report. -/
def accStore (clk : Clock) (st : Store) (r : Ref) (acc : UInt8) : Store :=
  if acc = 0 then st.setDev r ((st.heap r).asleep clk) else st

/-- A location report of a registered phone: what exactly it does. -/
theorem process0200_eq {clk : Clock} {st : Store} (h : StoreInv st) {hd : Header} {r : Ref}
    (hr : st.byPhone.get hd.phone = some r) (m : LocMsg) :
    ∃ rb', ((st.geos.get hd.phone).getD (Ring.new ringCapacity)).write (some (DeviceGeo.decode clk.civil hd.phone m))
        = .ok rb' ∧ RingOK rb' ∧
      process0200 clk st hd m =
        ({ accStore clk st r (GeoMeta.decode m.status).acc with geos := st.geos.set hd.phone rb' },
         .ok (some (gen8001 hd 0))) := by
  have hp := (h.phoneOK _ _ hr).2.1
  have hs : SameIdent (st.heap r) ((st.heap r).asleep clk) :=
    ⟨rfl, rfl, rfl, rfl, rfl, rfl, rfl, rfl⟩
  have key : ∀ st' : Store, (st'.heap r).phone = hd.phone → st'.geos = st.geos →
      ∃ rb', ((st.geos.get hd.phone).getD (Ring.new ringCapacity)).write (some (DeviceGeo.decode clk.civil hd.phone m))
        = .ok rb' ∧ RingOK rb' ∧
      st'.writeGeo (st'.heap r).phone (DeviceGeo.decode clk.civil hd.phone m) =
        ({ st' with geos := st.geos.set hd.phone rb' }, .ok ()) := by
    intro st' h1 h2
    obtain ⟨rb, rb', e1, e2, e3, e4⟩ := Store.writeGeo_ok (st := st') (by rw [h2]; exact h.rings) hd.phone
      (DeviceGeo.decode clk.civil hd.phone m)
    rw [h2] at e1 e4
    subst e1
    exact ⟨rb', e2, e3, by rw [h1, e4]⟩
  unfold accStore
  by_cases ha : (GeoMeta.decode m.status).acc = 0
  · obtain ⟨rb', e1, e2, e3⟩ := key (st.setDev r ((st.heap r).asleep clk))
      (by rw [Store.setDev_heap_self]; exact hp) rfl
    refine ⟨rb', e1, e2, ?_⟩
    rw [if_pos ha]
    unfold process0200 Store.devByPhone
    rw [hr]
    have hacc : (DeviceGeo.decode clk.civil (st.heap r).phone m).geo.acc = 0 := ha
    simp only [hacc, if_true]
    rw [h.touch hr hs]
    rw [hp, e3]
  · obtain ⟨rb', e1, e2, e3⟩ := key st hp rfl
    refine ⟨rb', e1, e2, ?_⟩
    rw [if_neg ha]
    unfold process0200 Store.devByPhone
    rw [hr]
    have hacc : ¬ (DeviceGeo.decode clk.civil (st.heap r).phone m).geo.acc = 0 := ha
    simp only [hacc, if_false]
    rw [hp] at e3 ⊢
    rw [e3]

theorem accStore_eff {clk : Clock} {c : Conn} {st : Store} {p : Str} {r : Ref} (hr : st.byPhone.get p = some r)
    (a : UInt8) : Eff p c st (accStore clk st r a) := by
  unfold accStore
  by_cases ha : a = 0
  · rw [if_pos ha]; exact .touch hr ⟨rfl, rfl, rfl, rfl, rfl, rfl, rfl, rfl⟩
  · rw [if_neg ha]; exact Eff.refl _ _ _

theorem accStore_geos (clk : Clock) (st : Store) (r : Ref) (a : UInt8) : (accStore clk st r a).geos = st.geos := by
  unfold accStore
  by_cases ha : a = 0
  · rw [if_pos ha]; rfl
  · rw [if_neg ha]

theorem process0200_eff {clk : Clock} {c : Conn} {st : Store} (h : StoreInv st) (hd : Header) (m : LocMsg) :
    Eff hd.phone c st (process0200 clk st hd m).1 := by
  cases hr : st.byPhone.get hd.phone with
  | none => unfold process0200 Store.devByPhone; rw [hr]; exact Eff.refl _ _ _
  | some r =>
    obtain ⟨rb', -, h2, h3⟩ := process0200_eq (clk := clk) h hr m
    rw [h3]
    refine Eff.trans (accStore_eff (clk := clk) hr (GeoMeta.decode m.status).acc) ?_
    have := Eff.geo (p := hd.phone) (c := c) (st := accStore clk st r (GeoMeta.decode m.status).acc) h2
    rw [accStore_geos] at this
    exact this

theorem process8100_eff {c : Conn} {st : Store} (hd : Header) (m : RegisterAck) :
    Eff hd.phone c st (process8100 st hd m).1 := by
  unfold process8100 Store.devByPhone
  cases hr : st.byPhone.get hd.phone with
  | none => exact Eff.refl _ _ _
  | some r => exact Eff.refl _ _ _

theorem process8103_eff {c : Conn} {st : Store} (h : StoreInv st) (hd : Header) (m : SetParams)
    (hm : m.params.phone = hd.phone ∧ m.params.Typed) : Eff hd.phone c st (process8103 st hd m).1 := by
  unfold process8103 Store.paramsOf Store.cacheParams
  cases hr : st.params.get hd.phone with
  | none => simp only; rw [hm.1]; exact .params hm.1 hm.2
  | some q =>
    simp only
    have hq : (q.update id m.params).phone = hd.phone := (update_phone _ _ _).trans (h.params _ _ hr).1
    rw [hq]
    exact .params hq ((h.params _ _ hr).2.update hm.2)

theorem fixedDecode_phone {env : Env} {phone : Str} {q : DeviceParams} {j : Nat}
    (h : fixedDecode env phone = .ok (q, j)) : q.phone = phone := by
  unfold fixedDecode at h
  exact DeviceParams.decode_phone h

theorem process8104_eff {env : Env} {c : Conn} {st : Store} (hd : Header) :
    Eff hd.phone c st (process8104 env st hd).1 := by
  unfold process8104 Store.paramsOf
  cases hr : st.params.get hd.phone with
  | some q => simp only; exact Eff.refl _ _ _
  | none =>
    simp only
    split
    · rename_i q j hx
      have hq := fixedDecode_phone hx
      simp only [Store.cacheParams]
      rw [hq]; exact .params hq (DeviceParams.decode_typed hx)
    · exact Eff.refl _ _ _
    · exact Eff.refl _ _ _

theorem handle_eff {env : Env} {clk : Clock} {c : Conn} {st : Store} (h : StoreInv st) (hd : Header) (m : Msg)
    (hm : ∀ q, m = .m8103 q → q.params.phone = hd.phone ∧ q.params.Typed) : Eff hd.phone c st (st.handle env clk c hd m).1 := by
  cases m with
  | m0001 => exact Eff.refl _ _ _
  | m0002 => exact process0002_eff h hd
  | m0003 => exact process0003_eff h hd
  | m0100 m => exact process0100_eff hd m
  | m0102 m => exact process0102_eff h hd m
  | m0104 => exact Eff.refl _ _ _
  | m0200 m => exact process0200_eff h hd m
  | m1205 => exact Eff.refl _ _ _
  | m8001 m => exact process8001_eff h hd m
  | m8100 m => exact process8100_eff hd m
  | m8103 m => exact process8103_eff h hd m (hm m rfl)
  | m8104 => simp only [Store.handle]; exact process8104_eff (env := env) (c := c) (st := st) hd
  | m9205 => exact Eff.refl _ _ _

theorem processSegment_eff {c : Conn} {st : Store} (hd : Header) : Eff hd.phone c st (st.processSegment hd).1 := by
  unfold Store.processSegment
  cases st.devByPhone hd.phone with
  | none => exact Eff.refl _ _ _
  | some r =>
    simp only
    cases st.session (st.heap r).sessionID with
    | none => exact Eff.refl _ _ _
    | some c' => exact .quiet ⟨rfl, rfl, rfl, rfl, rfl⟩ rfl rfl

theorem process_eff {env : Env} {clk : Clock} {c : Conn} {st : Store} (h : StoreInv st) (pkt : Packet) :
    Eff pkt.header.phone c st (st.process env clk c pkt).1 := by
  unfold Store.process
  cases MType.ofID pkt.header.msgID with
  | none => exact Eff.refl _ _ _
  | some t =>
    simp only
    by_cases hf : (pkt.header.isFragmented && !pkt.segCompleted) = true
    · rw [if_pos hf]; exact processSegment_eff _
    · rw [if_neg hf]
      cases hd : t.decode env clk.civil pkt.header pkt.body 0 with
      | err e => exact Eff.refl _ _ _
      | panic => exact Eff.refl _ _ _
      | ok x =>
        obtain ⟨m, j⟩ := x
        exact handle_eff h _ _ (fun q hq => by subst hq; exact decode_8103_phone hd)

/-- Decoding a packet touches only the fragments. -/
theorem cacheSegment_segs (st : Store) (seg : Segment) :
    ∃ sg, (st.cacheSegment seg).1 = { st with segs := sg } := by
  unfold Store.cacheSegment
  simp only
  cases st.segs.get (segKey seg.phone seg.msgID) with
  | none => exact ⟨_, rfl⟩
  | some s => exact ⟨_, rfl⟩

theorem decodePacket_segs (env : Env) (st : Store) (frame : List UInt8) :
    ∃ sg, (st.decodePacket env frame).1 = { st with segs := sg } := by
  unfold Store.decodePacket
  cases decodeFrame env frame with
  | err e => exact ⟨st.segs, rfl⟩
  | panic => exact ⟨st.segs, rfl⟩
  | ok pd =>
    simp only
    by_cases hf : pd.header.isFragmented = true
    · rw [if_pos hf]
      cases pd.header.frag with
      | none => exact ⟨st.segs, rfl⟩
      | some f =>
        simp only
        obtain ⟨sg, h⟩ := cacheSegment_segs st (Segment.ofPacket pd.header f pd.body.data)
        cases hc : st.cacheSegment (Segment.ofPacket pd.header f pd.body.data) with
        | mk st' r =>
          rw [hc] at h
          cases r <;> exact ⟨sg, h⟩
    · rw [if_neg hf]; exact ⟨st.segs, rfl⟩

theorem decodePacket_header {env : Env} {st st' : Store} {frame : List UInt8} {pkt : Packet}
    (h : st.decodePacket env frame = (st', .ok pkt)) :
    ∃ pd, decodeFrame env frame = .ok pd ∧ pkt.header = pd.header ∧ pkt.body = pd.body := by
  unfold Store.decodePacket at h
  cases hd : decodeFrame env frame with
  | err e => rw [hd] at h; cases h
  | panic => rw [hd] at h; cases h
  | ok pd =>
    rw [hd] at h
    simp only at h
    refine ⟨pd, rfl, ?_⟩
    by_cases hf : pd.header.isFragmented = true
    · rw [if_pos hf] at h
      cases hg : pd.header.frag with
      | none => rw [hg] at h; cases h
      | some f =>
        rw [hg] at h
        simp only at h
        cases hc : st.cacheSegment (Segment.ofPacket pd.header f pd.body.data) with
        | mk st1 r =>
          rw [hc] at h
          cases r with
          | ok b => simp only [Prod.mk.injEq, Res.ok.injEq] at h; rw [← h.2]; exact ⟨rfl, rfl⟩
          | err e => cases h
          | panic => cases h
    · rw [if_neg hf] at h; injection h with _ h; injection h with h; subst h; exact ⟨rfl, rfl⟩

/-- Handling a frame: the phone whose data it may touch is the one in its header. -/
theorem handleFrame_eff {env : Env} {clk : Clock} {c : Conn} {st : Store} (h : StoreInv st) (frame : List UInt8)
    (p : Str) (hp : ∀ pd, decodeFrame env frame = .ok pd → pd.header.phone = p) :
    Eff p c st (st.handleFrame env clk c frame).1 := by
  obtain ⟨sg, hsg⟩ := decodePacket_segs env st frame
  have hq : Eff p c st { st with segs := sg } := .quiet ⟨rfl, rfl, rfl, rfl, rfl⟩ rfl rfl
  unfold Store.handleFrame
  cases hd : st.decodePacket env frame with
  | mk st1 r =>
    rw [hd] at hsg; simp only at hsg; subst hsg
    cases r with
    | err e => exact hq
    | panic => exact hq
    | ok pkt =>
      simp only
      obtain ⟨pd, h1, h2, -⟩ := decodePacket_header hd
      have hpp : pkt.header.phone = p := by rw [h2]; exact hp pd h1
      have hi := hq.inv h
      have he := process_eff (env := env) (clk := clk) (c := c) hi pkt
      rw [hpp] at he
      cases hx : Store.process env clk c { st with segs := sg } pkt with
      | mk st2 r2 =>
        rw [hx] at he
        cases r2 with
        | err e => exact hq.trans he
        | panic => exact hq.trans he
        | ok o =>
          cases o with
          | none => exact hq.trans he
          | some o =>
            simp only
            cases Out.encode env o <;> exact hq.trans he

/-- Some phone can always be given. -/
theorem handleFrame_eff' {env : Env} {clk : Clock} {c : Conn} {st : Store} (h : StoreInv st) (frame : List UInt8) :
    ∃ p, Eff p c st (st.handleFrame env clk c frame).1 := by
  cases hd : decodeFrame env frame with
  | ok pd => exact ⟨pd.header.phone, handleFrame_eff h frame _ (fun pd' h' => by rw [hd] at h'; injection h' with h'; rw [h'])⟩
  | err e => exact ⟨[], handleFrame_eff h frame _ (fun pd' h' => by rw [hd] at h'; cases h')⟩
  | panic => exact ⟨[], handleFrame_eff h frame _ (fun pd' h' => by rw [hd] at h'; cases h')⟩

theorem remove_quiet (p : Str) (c c' : Conn) (st : Store) : Eff p c st (st.remove c') :=
  .quiet ⟨rfl, rfl, rfl, rfl, rfl⟩ rfl rfl

theorem serveFrame_eff {env : Env} {clk : Clock} {c : Conn} {werr : Option Err} {st : Store} (h : StoreInv st)
    (frame : List UInt8) (p : Str) (hp : ∀ pd, decodeFrame env frame = .ok pd → pd.header.phone = p) :
    Eff p c st (st.serveFrame env clk c werr frame).1 := by
  have he := handleFrame_eff (clk := clk) (c := c) h frame p hp
  unfold Store.serveFrame
  cases hx : st.handleFrame env clk c frame with
  | mk st1 o =>
    rw [hx] at he
    cases o with
    | silent => exact he
    | reply f =>
      cases werr with
      | none => exact he
      | some e =>
        simp only
        by_cases hc : e.endsServe = true
        · rw [if_pos hc]; exact he.trans (remove_quiet _ _ _ _)
        · rw [if_neg hc]; exact he
    | failed e =>
      simp only
      by_cases hc : e.endsServe = true
      · rw [if_pos hc]; exact he.trans (remove_quiet _ _ _ _)
      · rw [if_neg hc]; exact he
    | panicked => exact he.trans (remove_quiet _ _ _ _)

theorem serveFrame_eff' {env : Env} {clk : Clock} {c : Conn} {werr : Option Err} {st : Store} (h : StoreInv st)
    (frame : List UInt8) : ∃ p, Eff p c st (st.serveFrame env clk c werr frame).1 := by
  cases hd : decodeFrame env frame with
  | ok pd => exact ⟨pd.header.phone, serveFrame_eff h frame _ (fun pd' h' => by rw [hd] at h'; injection h' with h'; rw [h'])⟩
  | err e => exact ⟨[], serveFrame_eff h frame _ (fun pd' h' => by rw [hd] at h'; cases h')⟩
  | panic => exact ⟨[], serveFrame_eff h frame _ (fun pd' h' => by rw [hd] at h'; cases h')⟩

/-! ### Keepalive checks and HTTP requests -/

/-- The three outcomes of a keepalive check of a registered phone. -/
theorem check_registered {clk : Clock} {st : Store} (h : StoreInv st) {p : Str} {r : Ref}
    (hr : st.byPhone.get p = some r) :
    ∃ cn, (st.heap r).conn = some cn ∧ st.check clk p =
      (if (st.heap r).shouldTurnOffline clk.ms then st.setDev r ((st.heap r).lost)
       else if (st.heap r).shouldClear clk.ms then (((st.closeConn cn).delByPhone p).delGeo p).cancelJob p
       else st, .ok ()) := by
  have hc := h.conn _ _ hr
  obtain ⟨cn, hcn⟩ := Option.isSome_iff_exists.1 hc
  refine ⟨cn, hcn, ?_⟩
  unfold Store.check Store.devByPhone
  rw [hr]
  simp only [hcn]
  have hs : SameIdent (st.heap r) ((st.heap r).lost) := ⟨rfl, rfl, rfl, rfl, rfl, rfl, rfl, rfl⟩
  by_cases h1 : (st.heap r).shouldTurnOffline clk.ms = true
  · rw [if_pos h1, if_pos h1]
    rw [h.touch hr hs]
  · rw [if_neg h1, if_neg h1]
    by_cases h2 : (st.heap r).shouldClear clk.ms = true
    · rw [if_pos h2, if_pos h2]
    · rw [if_neg h2, if_neg h2]

theorem delByPhone_cancel_comm (st : Store) (p : Str) : (st.delByPhone p).cancelJob p = (st.cancelJob p).delByPhone p := by
  unfold Store.delByPhone Store.cancelJob
  cases st.byPhone.get p <;> simp

theorem clear_eq (st : Store) (cn : Conn) (p : Str) :
    (((st.closeConn cn).delByPhone p).delGeo p).cancelJob p =
      (((st.closeConn cn).cancelJob p).delByPhone p).delGeo p := by
  rw [← delByPhone_cancel_comm]
  rfl

theorem delByPhone_geos (st : Store) (p : Str) : (st.delByPhone p).geos = st.geos ∧ (st.delByPhone p).params = st.params := by
  unfold Store.delByPhone
  cases st.byPhone.get p <;> exact ⟨rfl, rfl⟩

theorem check_inv {clk : Clock} {st : Store} (h : StoreInv st) {p : Str} (hj : p ∈ st.jobs) :
    StoreInv (st.check clk p).1 ∧ (st.check clk p).2 = .ok () := by
  obtain ⟨r, hr⟩ := Option.isSome_iff_exists.1 ((h.jobs p).1 hj)
  obtain ⟨cn, -, h2⟩ := check_registered (clk := clk) h hr
  rw [h2]
  refine ⟨?_, rfl⟩
  simp only
  by_cases h1 : (st.heap r).shouldTurnOffline clk.ms = true
  · rw [if_pos h1]; exact h.setDev ⟨rfl, rfl, rfl, rfl, rfl, rfl, rfl, rfl⟩
  · rw [if_neg h1]
    by_cases h3 : (st.heap r).shouldClear clk.ms = true
    · rw [if_pos h3, clear_eq]
      have h4 : StoreInv (st.closeConn cn) := h.of_same ⟨rfl, rfl, rfl, rfl, rfl⟩ h.rings h.params
      have h5 := h4.drop (p := p) (r := r) hr
      refine h5.of_same ⟨rfl, rfl, rfl, rfl, rfl⟩ ?_ h5.params
      intro p' rb hp
      simp only [Store.delGeo] at hp
      rw [AMap.get_del] at hp
      by_cases hpp : p' = p
      · rw [if_pos hpp] at hp; cases hp
      · rw [if_neg hpp] at hp; exact h5.rings _ _ hp
    · rw [if_neg h3]; exact h

theorem apiGeo_inv {st : Store} (h : StoreInv st) (p : Str) : StoreInv (st.apiGeo p).1 := by
  unfold Store.apiGeo
  cases st.devByPhone p with
  | none => exact h
  | some r =>
    simp only
    obtain ⟨h1, h2, h3⟩ := Store.geoRing_ok h.rings p
    obtain ⟨v, hv⟩ := h1.latest
    have hi : StoreInv (st.geoRing p).1 := h.of_same h2 h3 (by
      have : (st.geoRing p).1.params = st.params := by unfold Store.geoRing; cases st.geos.get p <;> rfl
      rw [this]; exact h.params)
    unfold Store.geoLatest
    simp only [hv]
    cases v <;> exact hi

/-- HTTP requests that send something leave devices, locations and parameters alone. -/
theorem serverSend_quiet {env : Env} {werr : Option Err} (p : Str) (c : Conn) (st : Store) (id : Str) (o : Out) :
    Eff p c st (st.serverSend env werr id o).1 := by
  unfold Store.serverSend
  cases st.session id with
  | none => exact Eff.refl _ _ _
  | some c' =>
    simp only
    cases Out.encode env o with
    | panic => exact Eff.refl _ _ _
    | err e => exact Eff.refl _ _ _
    | ok f =>
      cases werr with
      | none => exact Eff.refl _ _ _
      | some e => cases e <;> first | exact Eff.refl _ _ _ | exact remove_quiet _ _ _ _

theorem apiSend_quiet {env : Env} {werr : Option Err} (p : Str) (c : Conn) (st : Store) (r : Ref) (code : Option Nat)
    (id : UInt16) (m : Msg) : Eff p c st (st.apiSend env werr r code id m).1 := by
  unfold Store.apiSend
  simp only
  cases st.session (st.heap r).sessionID with
  | none => exact Eff.refl _ _ _
  | some c' =>
    simp only
    have h1 : Eff p c st (st.takeSerial c').1 := .quiet ⟨rfl, rfl, rfl, rfl, rfl⟩ rfl rfl
    generalize hx : genMsgHeader (st.heap r).phone (st.heap r).ver (st.heap r).protoVer id (st.takeSerial c').2 = hd
    have h2 := serverSend_quiet (env := env) (werr := werr) p c (st.takeSerial c').1 c'.addr (hd, m)
    cases hs : (st.takeSerial c').1.serverSend env werr c'.addr (hd, m) with
    | mk st2 r2 =>
      rw [hs] at h2
      cases r2 <;> exact h1.trans h2

theorem apiQuery_quiet {env : Env} {werr : Option Err} (p : Str) (c : Conn) (st : Store) (phone : Str) :
    Eff p c st (st.apiQuery env werr phone).1 := by
  unfold Store.apiQuery
  cases st.devByPhone phone with
  | none => exact Eff.refl _ _ _
  | some r => exact apiSend_quiet _ _ _ _ _ _ _

theorem apiSet_quiet {env : Env} {werr : Option Err} (p : Str) (c : Conn) (st : Store) (phone : Str)
    (bound : DeviceParams) (bad : Bool) : Eff p c st (st.apiSet env werr phone bound bad).1 := by
  unfold Store.apiSet
  cases st.devByPhone phone with
  | none => exact Eff.refl _ _ _
  | some r => exact apiSend_quiet _ _ _ _ _ _ _

/-! ### Histories -/

theorem step_inv (env : Env) (s : Sys) (e : Ev) (h : StoreInv s.st) :
    StoreInv (s.step env e).1.st ∧ (s.crashed = false → (s.step env e).1.crashed = false) := by
  unfold Sys.step
  by_cases hcr : s.crashed = true
  · rw [if_pos hcr]; exact ⟨h, fun hh => by rw [hcr] at hh; cases hh⟩
  · rw [if_neg hcr]
    have hcf : s.crashed = false := by simpa using hcr
    cases e with
    | accept addr =>
      exact ⟨h.of_same ⟨rfl, rfl, rfl, rfl, rfl⟩ h.rings h.params, fun _ => hcf⟩
    | frame clk c bytes werr =>
      simp only
      by_cases hc : c ∈ s.live
      · rw [if_pos hc]
        obtain ⟨p, he⟩ := serveFrame_eff' (env := env) (clk := clk) (c := c) (werr := werr) h bytes
        exact ⟨he.inv h, fun _ => hcf⟩
      · rw [if_neg hc]; exact ⟨h, fun _ => hcf⟩
    | readErr c e =>
      simp only
      by_cases hc : c ∈ s.live
      · rw [if_pos hc]
        refine ⟨?_, fun _ => hcf⟩
        unfold Store.serveErr
        by_cases he : e.endsServe = true
        · rw [if_pos he]; exact (remove_quiet [] c c s.st).inv h
        · rw [if_neg he]; exact h
      · rw [if_neg hc]; exact ⟨h, fun _ => hcf⟩
    | check clk phone =>
      simp only
      by_cases hj : phone ∈ s.st.jobs
      · rw [if_pos hj]
        obtain ⟨h1, h2⟩ := check_inv (clk := clk) h hj
        refine ⟨h1, fun _ => ?_⟩
        simp only [h2]; decide
      · rw [if_neg hj]; exact ⟨h, fun _ => hcf⟩
    | httpList => exact ⟨h, fun _ => hcf⟩
    | httpGeo phone => exact ⟨apiGeo_inv h phone, fun _ => hcf⟩
    | httpQuery phone werr => exact ⟨(apiQuery_quiet [] ⟨0, []⟩ s.st phone).inv h, fun _ => hcf⟩
    | httpSet phone bound bad werr => exact ⟨(apiSet_quiet [] ⟨0, []⟩ s.st phone bound bad).inv h, fun _ => hcf⟩

theorem run_inv (env : Env) (evs : List Ev) (s : Sys) (h : StoreInv s.st) :
    StoreInv (s.run env evs).1.st ∧ (s.crashed = false → (s.run env evs).1.crashed = false) := by
  induction evs generalizing s with
  | nil => exact ⟨h, id⟩
  | cons e evs ih =>
    obtain ⟨h1, h2⟩ := step_inv env s e h
    obtain ⟨h3, h4⟩ := ih (s.step env e).1 h1
    exact ⟨h3, fun hc => h4 (h2 hc)⟩

/-- Every reachable state satisfies the invariant and has not crashed. -/
theorem reachable_inv (env : Env) (evs : List Ev) :
    StoreInv (Sys.start.run env evs).1.st ∧ (Sys.start.run env evs).1.crashed = false := by
  obtain ⟨h1, h2⟩ := run_inv env evs Sys.start StoreInv.empty
  exact ⟨h1, h2 rfl⟩

end JT808
