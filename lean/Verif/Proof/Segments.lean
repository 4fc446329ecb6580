import Verif.Proof.Sessions
import Verif.Proof.Types
/-
The segment cache over histories.
-/
namespace JT808
open Spec

theorem cacheDevice_segs (st : Store) (r : Ref) : (st.cacheDevice r).segs = st.segs := rfl

theorem delByPhone_segs (st : Store) (p : Str) : (st.delByPhone p).segs = st.segs := by
  unfold Store.delByPhone
  split <;> rfl

theorem registerJob_segs (st : Store) (p : Str) : (st.registerJob p).segs = st.segs := by
  unfold Store.registerJob
  split <;> rfl

theorem writeGeo_segs (st : Store) (p : Str) (g : DeviceGeo) : (st.writeGeo p g).1.segs = st.segs := by
  unfold Store.writeGeo Store.geoRing
  cases st.geos.get p with
  | none => simp only; split <;> rfl
  | some rb => simp only; split <;> rfl

theorem handle_segs (env : Env) (clk : Clock) (c : Conn) (st : Store) (h : Header) (m : Msg) :
    (st.handle env clk c h m).1.segs = st.segs := by
  cases m with
  | m0001 m => rfl
  | m0002 => simp only [Store.handle, process0002]; split <;> rfl
  | m0003 =>
    simp only [Store.handle, process0003]
    split
    · rfl
    · simp only [delByPhone_segs]; rfl
  | m0100 m =>
    simp only [Store.handle, process0100]
    split
    · rfl
    · split
      · rfl
      · simp only [registerJob_segs]; rfl
  | m0102 m =>
    simp only [Store.handle, process0102]
    split
    · rfl
    · split
      · simp only [delByPhone_segs]; rfl
      · rfl
  | m0104 m => rfl
  | m0200 m =>
    simp only [Store.handle, process0200]
    cases hd : st.devByPhone h.phone with
    | none => rfl
    | some r =>
      simp only
      generalize hst : (if (DeviceGeo.decode clk.civil (st.heap r).phone m).geo.acc = 0 then
        (st.setDev r ((st.heap r).asleep clk)).cacheDevice r else st) = st2
      have h2 : st2.segs = st.segs := by
        rw [← hst]; split <;> rfl
      have h3 := writeGeo_segs st2 (st2.heap r).phone (DeviceGeo.decode clk.civil (st.heap r).phone m)
      cases hw : st2.writeGeo (st2.heap r).phone (DeviceGeo.decode clk.civil (st.heap r).phone m) with
      | mk s3 r3 =>
        rw [hw] at h3
        cases r3 <;> exact h3.trans h2
  | m1205 m => rfl
  | m8001 m =>
    simp only [Store.handle, process8001]
    split
    · split
      · rfl
      · split <;> rfl
    · rfl
  | m8100 m => simp only [Store.handle, process8100]; split <;> rfl
  | m8103 m => rfl
  | m8104 =>
    simp only [Store.handle, process8104]
    split
    · rfl
    · split <;> rfl
  | m9205 m => rfl

theorem process_segs (env : Env) (clk : Clock) (c : Conn) (st : Store) (pkt : Packet) :
    (st.process env clk c pkt).1.segs = st.segs := by
  unfold Store.process
  split
  · rfl
  · split
    · unfold Store.processSegment
      split
      · rfl
      · simp only
        split <;> rfl
    · split
      · rfl
      · rfl
      · exact handle_segs ..

theorem handleFrame_segs (env : Env) (clk : Clock) (c : Conn) (st : Store) (frame : List UInt8) :
    (st.handleFrame env clk c frame).1.segs = (st.decodePacket env frame).1.segs := by
  unfold Store.handleFrame
  cases hd : st.decodePacket env frame with
  | mk s r =>
    cases r with
    | err e => rfl
    | panic => rfl
    | ok pkt =>
      simp only
      have := process_segs env clk c s pkt
      cases hp : s.process env clk c pkt with
      | mk s2 r2 =>
        rw [hp] at this
        cases r2 with
        | err e => exact this
        | panic => exact this
        | ok o =>
          cases o with
          | none => exact this
          | some o =>
            simp only
            cases Out.encode env o <;> exact this

theorem serveFrame_segs (env : Env) (clk : Clock) (c : Conn) (werr : Option Err) (st : Store) (frame : List UInt8) :
    (st.serveFrame env clk c werr frame).1.segs = (st.decodePacket env frame).1.segs := by
  have := handleFrame_segs env clk c st frame
  unfold Store.serveFrame
  cases hh : st.handleFrame env clk c frame with
  | mk s o =>
    rw [hh] at this
    cases o with
    | silent => exact this
    | reply f =>
      cases werr with
      | none => exact this
      | some e => simp only; split <;> exact this
    | failed e => simp only; split <;> exact this
    | panicked => exact this

theorem serverSend_segs (env : Env) (werr : Option Err) (st : Store) (id : Str) (o : Out) :
    (st.serverSend env werr id o).1.segs = st.segs := by
  unfold Store.serverSend
  cases st.session id with
  | none => rfl
  | some c =>
    simp only
    cases Out.encode env o with
    | panic => rfl
    | err e => rfl
    | ok f =>
      cases werr with
      | none => rfl
      | some e => cases e <;> rfl

theorem apiSend_segs (env : Env) (werr : Option Err) (st : Store) (r : Ref) (code : Option Nat) (id : UInt16) (m : Msg) :
    (st.apiSend env werr r code id m).1.segs = st.segs := by
  unfold Store.apiSend
  simp only
  cases st.session (st.heap r).sessionID with
  | none => rfl
  | some c =>
    simp only
    generalize genMsgHeader (st.heap r).phone (st.heap r).ver (st.heap r).protoVer id (st.takeSerial c).2 = hd
    have := serverSend_segs env werr (st.takeSerial c).1 c.addr (hd, m)
    cases hs : (st.takeSerial c).1.serverSend env werr c.addr (hd, m) with
    | mk s2 r2 => rw [hs] at this; cases r2 <;> exact this

theorem check_segs (clk : Clock) (st : Store) (p : Str) : (st.check clk p).1.segs = st.segs := by
  unfold Store.check
  split
  · rfl
  · simp only
    split
    · rfl
    · split
      · split
        · rfl
        · simp only [Store.cancelJob, Store.delGeo, delByPhone_segs]; rfl
      · rfl

theorem apiGeo_segs (st : Store) (p : Str) : (st.apiGeo p).1.segs = st.segs := by
  unfold Store.apiGeo Store.geoLatest Store.geoRing
  cases st.devByPhone p with
  | none => rfl
  | some r =>
    simp only
    cases st.geos.get p with
    | some rb =>
      simp only
      cases rb.latest with
      | ok o => cases o <;> rfl
      | err e => rfl
      | panic => rfl
    | none => rfl

/-- Only received frames touch the segment cache. -/
theorem step_segs (env : Env) (s : Sys) (e : Ev) :
    (s.step env e).1.st.segs = s.st.segs ∨
    ∃ clk c bytes werr, e = .frame clk c bytes werr ∧ (s.step env e).1.st.segs = (s.st.decodePacket env bytes).1.segs := by
  unfold Sys.step
  by_cases hc : s.crashed = true
  · rw [if_pos hc]; exact .inl rfl
  · rw [if_neg hc]
    cases e with
    | accept a => exact .inl rfl
    | frame clk c bytes werr =>
      simp only
      by_cases hl : c ∈ s.live
      · rw [if_pos hl]
        exact .inr ⟨_, _, _, _, rfl, serveFrame_segs ..⟩
      · rw [if_neg hl]; exact .inl rfl
    | readErr c e =>
      left
      simp only
      by_cases hl : c ∈ s.live
      · rw [if_pos hl]
        unfold Store.serveErr
        split <;> rfl
      · rw [if_neg hl]
    | check clk p =>
      left
      simp only
      by_cases hl : p ∈ s.st.jobs
      · rw [if_pos hl]; exact check_segs ..
      · rw [if_neg hl]
    | httpList => exact .inl rfl
    | httpGeo p => exact .inl (apiGeo_segs ..)
    | httpQuery p werr =>
      left
      simp only [Store.apiQuery]
      split
      · rfl
      · exact apiSend_segs ..
    | httpSet p b bad werr =>
      left
      simp only [Store.apiSet]
      split
      · rfl
      · exact apiSend_segs ..

/-- What every entry of the segment cache looks like: it is filed under its own phone and id, and the phone is a text
of hexadecimal digits. -/
def SegInv (m : AMap Segment) : Prop :=
  ∀ k s, m.get k = some s → k = segKey s.phone s.msgID ∧ ∀ x ∈ s.phone, bcdChar x

theorem cacheSegment_inv {st : Store} (h : SegInv st.segs) (seg : Segment) (hp : ∀ x ∈ seg.phone, bcdChar x) :
    SegInv (st.cacheSegment seg).1.segs := by
  intro k s hs
  unfold Store.cacheSegment at hs
  cases hg : st.segs.get (segKey seg.phone seg.msgID) with
  | none =>
    simp only [hg] at hs
    rw [AMap.get_set] at hs
    by_cases hx : k = segKey seg.phone seg.msgID
    · rw [if_pos hx] at hs; cases hs; exact ⟨hx, hp⟩
    · rw [if_neg hx] at hs; exact h k s hs
  | some s0 =>
    simp only [hg] at hs
    rw [AMap.get_set] at hs
    by_cases hx : k = segKey seg.phone seg.msgID
    · rw [if_pos hx] at hs
      cases hs
      have := h _ _ hg
      exact ⟨hx.trans this.1, this.2⟩
    · rw [if_neg hx] at hs; exact h k s hs

theorem decodePacket_inv {env : Env} {st : Store} (h : SegInv st.segs) (frame : List UInt8) :
    SegInv (st.decodePacket env frame).1.segs := by
  unfold Store.decodePacket
  cases hd : decodeFrame env frame with
  | err e => exact h
  | panic => exact h
  | ok pd =>
    simp only
    by_cases hf : pd.header.isFragmented = true
    · rw [if_pos hf]
      cases hg : pd.header.frag with
      | none => exact h
      | some f =>
        simp only
        obtain ⟨s, j, hh⟩ := decodeFrame_header hd
        have hi := cacheSegment_inv h (Segment.ofPacket pd.header f pd.body.data) (Header.decode_facts hh).2.1
        cases hx : st.cacheSegment (Segment.ofPacket pd.header f pd.body.data) with
        | mk st' r => rw [hx] at hi; cases r <;> exact hi
    · rw [if_neg hf]; exact h

theorem step_segInv {env : Env} {s : Sys} (h : SegInv s.st.segs) (e : Ev) : SegInv (s.step env e).1.st.segs := by
  rcases step_segs env s e with e1 | ⟨_, _, bytes, _, _, e1⟩
  · rw [e1]; exact h
  · rw [e1]; exact decodePacket_inv h bytes

theorem run_segInv {env : Env} (evs : List Ev) : ∀ {s : Sys}, SegInv s.st.segs → SegInv (s.run env evs).1.st.segs := by
  induction evs with
  | nil => intro s h; exact h
  | cons e es ih => intro s h; exact ih (step_segInv h e)

theorem Reachable.segInv {env : Env} {st : Store} (h : Reachable env st) : SegInv st.segs := by
  obtain ⟨evs, rfl⟩ := h
  exact run_segInv evs (fun k s hs => by cases hs)

end JT808
