import Verif.Proof.SimProcess
import Verif.Proof.Groups
import Verif.Proof.Types
import Verif.Props.SimProcess
import Verif.Model.SimTalk
/-
The stores of a process of simulators, as one of its terminals sees them.
-/
namespace JT808
open Spec

/-- The stores of the simulator: each device and each set of parameters is filed under its own phone, and there are no
sessions and no keepalive jobs. -/
structure Cli (st : Store) : Prop where
  keyed : Keyed st
  params : ∀ p q, st.params.get p = some q → q.phone = p
  sess : st.sessions = []
  jobs : st.jobs = []

/-- Two stores look the same to the terminal with phone `ph`. -/
structure SameTo (ph : Str) (st st' : Store) : Prop where
  look : st'.look ph = st.look ph
  geos : st'.geos.get ph = st.geos.get ph
  params : st'.params.get ph = st.params.get ph
  segs : (∀ x ∈ ph, bcdChar x) → ∀ id, st'.segs.get (segKey ph id) = st.segs.get (segKey ph id)

theorem SameTo.refl (ph : Str) (st : Store) : SameTo ph st st := ⟨rfl, rfl, rfl, fun _ _ => rfl⟩

theorem SameTo.trans {ph : Str} {a b c : Store} (h : SameTo ph a b) (k : SameTo ph b c) : SameTo ph a c :=
  ⟨k.look.trans h.look, k.geos.trans h.geos, k.params.trans h.params, fun hx id => (k.segs hx id).trans (h.segs hx id)⟩

theorem SameTo.symm {ph : Str} {a b : Store} (h : SameTo ph a b) : SameTo ph b a :=
  ⟨h.look.symm, h.geos.symm, h.params.symm, fun hx id => (h.segs hx id).symm⟩

theorem cli_empty : Cli Store.empty := ⟨keyed_empty, (fun p q h => by cases h), rfl, rfl⟩

theorem Cli.segs {st : Store} (h : Cli st) (sg : AMap Segment) : Cli { st with segs := sg } :=
  ⟨h.keyed.of_same rfl rfl rfl, h.params, h.sess, h.jobs⟩

theorem touch_look {st : Store} (hk : Keyed st) {p : Str} {r : Ref} (hr : st.byPhone.get p = some r) {d : Device}
    (hd : d.phone = (st.heap r).phone) (q : Str) :
    ((st.setDev r d).cacheDevice r).look q = if q = p then some d else st.look q := by
  obtain ⟨h1, -⟩ := hk p r hr
  unfold Store.look Store.devByPhone
  simp only [Store.cacheDevice, Store.setDev, if_true, AMap.get_set, hd, h1]
  by_cases hq : q = p
  · simp [hq]
  · rw [if_neg hq, if_neg hq]
    cases hx : st.byPhone.get q with
    | none => rfl
    | some r' =>
      have : r' ≠ r := by
        intro e; subst e
        exact hq ((hk q r' hx).1.symm.trans h1)
      simp [this]

theorem touch_other {st : Store} (hk : Keyed st) {p : Str} {r : Ref} (hr : st.byPhone.get p = some r) {d : Device}
    (hd : d.phone = (st.heap r).phone) {q : Str} (hq : q ≠ p) : ((st.setDev r d).cacheDevice r).look q = st.look q := by
  rw [touch_look hk hr hd, if_neg hq]

theorem touch_both {st st' : Store} (hk : Keyed st) (hk' : Keyed st') {p : Str} {r r' : Ref} (hr : st.byPhone.get p = some r)
    (hr' : st'.byPhone.get p = some r') {d d' : Device} (hd : d.phone = (st.heap r).phone) (hd' : d'.phone = (st'.heap r').phone)
    (e : d' = d) : ((st'.setDev r' d').cacheDevice r').look p = ((st.setDev r d).cacheDevice r).look p := by
  rw [touch_look hk hr hd, touch_look hk' hr' hd', if_pos rfl, if_pos rfl, e]

theorem writeGeo_same {st st' : Store} {p : Str} (h : st'.geos.get p = st.geos.get p) (dg : DeviceGeo) :
    (st'.writeGeo p dg).2 = (st.writeGeo p dg).2 ∧
    (st'.writeGeo p dg).1.geos.get p = (st.writeGeo p dg).1.geos.get p ∧
    (st.writeGeo p dg).1.params = st.params ∧ (st.writeGeo p dg).1.sessions = st.sessions ∧
    ∀ q, q ≠ p → (st.writeGeo p dg).1.geos.get q = st.geos.get q := by
  unfold Store.writeGeo Store.geoRing
  rw [h]
  cases hg : st.geos.get p with
  | none =>
    dsimp only
    cases (Ring.new ringCapacity : Ring DeviceGeo).write (some dg) with
    | ok rb => simp +contextual [AMap.get_set]
    | err e => simp +contextual [AMap.get_set]
    | panic => simp +contextual [AMap.get_set]
  | some rb =>
    dsimp only
    cases rb.write (some dg) with
    | ok rb => simp +contextual [AMap.get_set]
    | err e => simp +contextual [h, hg]
    | panic => simp +contextual [h, hg]

/-- A message of terminal `h.phone`: its effects on what terminal `ph` sees, and what the stores keep. -/
theorem handle_elsewhere (env : Env) (clk : Clock) (c : Conn) {st : Store} (hc : Cli st) (h : Header) (m : Msg)
    (hm : Spec.Signing m = false) (hq : ∀ q, m = .m8103 q → q.params.phone = h.phone) :
    Cli (st.handle env clk c h m).1 ∧ ∀ ph, ph ≠ h.phone → SameTo ph st (st.handle env clk c h m).1 := by
  have hs := handle_segs env clk c st h m
  have hk := handle_keeps env clk c st h m hm
  have key : (∀ p q, (st.handle env clk c h m).1.params.get p = some q → q.phone = p) ∧
      (st.handle env clk c h m).1.sessions = st.sessions ∧
      ∀ ph, ph ≠ h.phone → (st.handle env clk c h m).1.look ph = st.look ph ∧
        (st.handle env clk c h m).1.geos.get ph = st.geos.get ph ∧
        (st.handle env clk c h m).1.params.get ph = st.params.get ph := by
    have refl : (∀ p q, st.params.get p = some q → q.phone = p) ∧ st.sessions = st.sessions ∧
      ∀ ph, ph ≠ h.phone → st.look ph = st.look ph ∧ st.geos.get ph = st.geos.get ph ∧
        st.params.get ph = st.params.get ph := ⟨hc.params, rfl, fun _ _ => ⟨rfl, rfl, rfl⟩⟩
    cases m with
    | m0003 => cases hm
    | m0100 m => cases hm
    | m0102 m => cases hm
    | m0001 m => exact refl
    | m0104 m => exact refl
    | m1205 m => exact refl
    | m9205 m => exact refl
    | m0002 =>
      simp only [Store.handle, process0002, Store.devByPhone]
      cases hr : st.byPhone.get h.phone with
      | none => exact refl
      | some r => exact ⟨hc.params, rfl, fun ph hp => ⟨by dsimp only; refine touch_other hc.keyed hr ?_ hp; rfl, rfl, rfl⟩⟩
    | m0200 m =>
      simp only [Store.handle, process0200, Store.devByPhone]
      cases hr : st.byPhone.get h.phone with
      | none => exact refl
      | some r =>
        dsimp only
        have hph := (hc.keyed _ _ hr).1
        have key : ∀ (st1 : Store) (dg : DeviceGeo), ((∀ p q, st1.params.get p = some q → q.phone = p) ∧ st1.sessions = st.sessions ∧
            ∀ ph, ph ≠ h.phone → st1.look ph = st.look ph ∧ st1.geos.get ph = st.geos.get ph ∧
              st1.params.get ph = st.params.get ph) → (st1.heap r).phone = h.phone →
            (fun X : Store => (∀ p q, X.params.get p = some q → q.phone = p) ∧ X.sessions = st.sessions ∧
            ∀ ph, ph ≠ h.phone → X.look ph = st.look ph ∧ X.geos.get ph = st.geos.get ph ∧
              X.params.get ph = st.params.get ph) (match st1.writeGeo (st1.heap r).phone dg with
            | (st, .ok _) => (st, (.ok (some (gen8001 h 0)) : Res (Option Out)))
            | (st, .err e) => (st, .err e)
            | (st, .panic) => (st, .panic)).1 := by
          intro st1 dg hk1 hp1
          have hc1 := writeGeo_rest st1 (st1.heap r).phone dg
          have hc2 := writeGeo_same (st := st1) (st' := st1) (p := (st1.heap r).phone) rfl dg
          cases hw : st1.writeGeo (st1.heap r).phone dg with
          | mk st2 res =>
            rw [hw] at hc1 hc2
            have : (∀ p q, st2.params.get p = some q → q.phone = p) ∧ st2.sessions = st.sessions ∧
                ∀ ph, ph ≠ h.phone → st2.look ph = st.look ph ∧ st2.geos.get ph = st.geos.get ph ∧
                st2.params.get ph = st.params.get ph := by
              obtain ⟨a, b, d⟩ := hk1
              obtain ⟨-, -, x, y, z⟩ := hc2
              refine ⟨by rw [show st2.params = st1.params from x]; exact a, (show st2.sessions = st1.sessions from y).trans b, ?_⟩
              intro ph hp
              obtain ⟨d1, d2, d3⟩ := d ph hp
              refine ⟨?_, (z ph (by rw [hp1]; exact hp)).trans d2, by rw [show st2.params = st1.params from x]; exact d3⟩
              rw [← d1]
              unfold Store.look Store.devByPhone
              rw [show st2.byPhone = st1.byPhone from hc1.1, show st2.heap = st1.heap from hc1.2.1]
            cases res <;> exact this
        apply key
        · split
          · exact ⟨hc.params, rfl, fun ph hp => ⟨by refine touch_other hc.keyed hr ?_ hp; rfl, rfl, rfl⟩⟩
          · exact refl
        · split
          · simp only [Store.cacheDevice, Store.setDev, if_true]; exact hph
          · exact hph
    | m8001 m =>
      simp only [Store.handle, process8001, Store.devByPhone]
      split
      · cases hr : st.byPhone.get h.phone with
        | none => exact refl
        | some r =>
          dsimp only
          split
          · exact refl
          · exact ⟨hc.params, rfl, fun ph hp => ⟨by refine touch_other hc.keyed hr ?_ hp; rfl, rfl, rfl⟩⟩
      · exact refl
    | m8100 m =>
      simp only [Store.handle, process8100, Store.devByPhone]
      cases hr : st.byPhone.get h.phone <;> exact refl
    | m8103 m =>
      have hp := hq m rfl
      have any : ∀ x : DeviceParams, x.phone = h.phone →
          (∀ p q, (st.params.set x.phone x).get p = some q → q.phone = p) ∧
          ∀ ph, ph ≠ h.phone → (st.params.set x.phone x).get ph = st.params.get ph := by
        intro x hx
        constructor
        · intro p q hg
          rw [AMap.get_set] at hg
          split at hg
          · next e => cases hg; exact e.symm
          · exact hc.params p q hg
        · intro ph hne
          rw [AMap.get_set, hx, if_neg hne]
      simp only [Store.handle, process8103, Store.paramsOf, Store.cacheParams]
      cases hx : st.params.get h.phone with
      | none =>
        dsimp only
        obtain ⟨a, b⟩ := any m.params hp
        exact ⟨a, trivial, fun ph hne => ⟨rfl, trivial, b ph hne⟩⟩
      | some old =>
        dsimp only
        obtain ⟨a, b⟩ := any (old.update id m.params) (by rw [update_phone]; exact hc.params _ _ hx)
        exact ⟨a, trivial, fun ph hne => ⟨rfl, trivial, b ph hne⟩⟩
    | m8104 =>
      simp only [Store.handle, process8104, Store.paramsOf]
      cases hx : st.params.get h.phone with
      | some q => exact refl
      | none =>
        simp only
        cases hf : fixedDecode env h.phone with
        | ok x =>
          obtain ⟨x, j⟩ := x
          have hp := fixedDecode_phone hf
          simp only [Store.cacheParams]
          refine ⟨?_, trivial, fun ph hne => ⟨rfl, trivial, ?_⟩⟩
          · intro p q hg
            rw [AMap.get_set] at hg
            split at hg
            · next e => cases hg; exact e.symm
            · exact hc.params p q hg
          · rw [AMap.get_set, hp, if_neg hne]
        | err e => exact refl
        | panic => exact refl
  obtain ⟨a, b, d⟩ := key
  refine ⟨⟨hk.keyed hc.keyed, a, b.trans hc.sess, hk.jobs.trans hc.jobs⟩, fun ph hp => ?_⟩
  obtain ⟨d1, d2, d3⟩ := d ph hp
  exact ⟨d1, d2, d3, fun _ _ => by rw [hs]⟩

/-- A message of terminal `h.phone` itself. -/
theorem handle_alike (env : Env) (clk : Clock) (c : Conn) {st st' : Store} (hc : Cli st) (hc' : Cli st') (h : Header) (m : Msg)
    (hm : Spec.Signing m = false) (hq : ∀ q, m = .m8103 q → q.params.phone = h.phone) (hr : SameTo h.phone st st') :
    (st'.handle env clk c h m).2 = (st.handle env clk c h m).2 ∧
    SameTo h.phone (st.handle env clk c h m).1 (st'.handle env clk c h m).1 := by
  have hs := handle_segs env clk c st h m
  have hs' := handle_segs env clk c st' h m
  have key : (st'.handle env clk c h m).2 = (st.handle env clk c h m).2 ∧
      (st'.handle env clk c h m).1.look h.phone = (st.handle env clk c h m).1.look h.phone ∧
      (st'.handle env clk c h m).1.geos.get h.phone = (st.handle env clk c h m).1.geos.get h.phone ∧
      (st'.handle env clk c h m).1.params.get h.phone = (st.handle env clk c h m).1.params.get h.phone := by
    obtain ⟨hl, hg, hp, -⟩ := hr
    cases m with
    | m0003 => cases hm
    | m0100 m => cases hm
    | m0102 m => cases hm
    | m0001 m => exact ⟨rfl, hl, hg, hp⟩
    | m0104 m => exact ⟨rfl, hl, hg, hp⟩
    | m1205 m => exact ⟨rfl, hl, hg, hp⟩
    | m9205 m => exact ⟨rfl, hl, hg, hp⟩
    | m0002 =>
      simp only [Store.handle, process0002, Store.devByPhone]
      rcases look_split hl with ⟨a, b⟩ | ⟨r, r', a, b, e⟩ <;> rw [a, b]
      · exact ⟨rfl, hl, hg, hp⟩
      · exact ⟨rfl, touch_both hc.keyed hc'.keyed a b rfl rfl (by rw [e]), hg, hp⟩
    | m0200 m =>
      simp only [Store.handle, process0200, Store.devByPhone]
      rcases look_split hl with ⟨a, b⟩ | ⟨r, r', a, b, e⟩ <;> rw [a, b]
      · exact ⟨rfl, hl, hg, hp⟩
      · have hph := (hc.keyed _ _ a).1
        have hph' := (hc'.keyed _ _ b).1
        simp only [e]
        generalize hdg : DeviceGeo.decode clk.civil (st.heap r).phone m = dg
        have key : ∀ (s s' : Store), s'.look h.phone = s.look h.phone → s'.geos.get h.phone = s.geos.get h.phone →
            s'.params.get h.phone = s.params.get h.phone → (s.heap r).phone = h.phone → (s'.heap r').phone = h.phone →
            (fun X Y : Store × Res (Option Out) => Y.2 = X.2 ∧ Y.1.look h.phone = X.1.look h.phone ∧
              Y.1.geos.get h.phone = X.1.geos.get h.phone ∧ Y.1.params.get h.phone = X.1.params.get h.phone)
            (match s.writeGeo (s.heap r).phone dg with
            | (st, .ok _) => (st, (.ok (some (gen8001 h 0)) : Res (Option Out)))
            | (st, .err e) => (st, .err e)
            | (st, .panic) => (st, .panic))
            (match s'.writeGeo (s'.heap r').phone dg with
            | (st, .ok _) => (st, (.ok (some (gen8001 h 0)) : Res (Option Out)))
            | (st, .err e) => (st, .err e)
            | (st, .panic) => (st, .panic)) := by
          intro s s' k1 k2 k3 k4 k5
          rw [k4, k5]
          have x1 := writeGeo_rest s h.phone dg
          have x2 := writeGeo_rest s' h.phone dg
          have x3 := writeGeo_same k2 dg
          have x4 := writeGeo_same k2.symm dg
          cases hw : s.writeGeo h.phone dg with
          | mk t v =>
            cases hw' : s'.writeGeo h.phone dg with
            | mk t' v' =>
              rw [hw, hw'] at x3 x4
              rw [hw] at x1; rw [hw'] at x2
              simp only at x1 x2 x3 x4
              obtain ⟨y1, y2, y3, -, -⟩ := x3
              subst y1
              have : t'.look h.phone = t.look h.phone ∧ t'.geos.get h.phone = t.geos.get h.phone ∧
                  t'.params.get h.phone = t.params.get h.phone := by
                refine ⟨?_, y2, by rw [y3, x4.2.2.1]; exact k3⟩
                unfold Store.look Store.devByPhone at k1 ⊢
                rw [x1.1, x1.2.1, x2.1, x2.2.1]; exact k1
              cases v' <;> exact ⟨rfl, this⟩
        apply key
        · split
          · exact touch_both hc.keyed hc'.keyed a b rfl (by rw [e]; rfl) rfl
          · exact hl
        · split <;> exact hg
        · split <;> exact hp
        · split
          · simp only [Store.cacheDevice, Store.setDev, if_true]; exact hph
          · exact hph
        · split
          · simp only [Store.cacheDevice, Store.setDev, if_true]; exact hph
          · exact hph'
    | m8001 m =>
      simp only [Store.handle, process8001, Store.devByPhone]
      rcases look_split hl with ⟨a, b⟩ | ⟨r, r', a, b, e⟩ <;> rw [a, b]
      · split <;> exact ⟨rfl, hl, hg, hp⟩
      · simp only [e]
        split
        · split
          · exact ⟨rfl, hl, hg, hp⟩
          · exact ⟨rfl, touch_both hc.keyed hc'.keyed a b rfl (by rw [e]; rfl) rfl, hg, hp⟩
        · exact ⟨rfl, hl, hg, hp⟩
    | m8100 m =>
      simp only [Store.handle, process8100, Store.devByPhone]
      rcases look_split hl with ⟨a, b⟩ | ⟨r, r', a, b, e⟩ <;> rw [a, b]
      · exact ⟨rfl, hl, hg, hp⟩
      · simp only [e]; exact ⟨trivial, hl, hg, hp⟩
    | m8103 m =>
      have hm := hq m rfl
      simp only [Store.handle, process8103, Store.paramsOf, Store.cacheParams]
      rw [hp]
      cases hx : st.params.get h.phone with
      | none =>
        refine ⟨trivial, hl, hg, ?_⟩
        simp only [hm, AMap.get_set, if_true]
      | some old =>
        refine ⟨trivial, hl, hg, ?_⟩
        have := hc.params _ _ hx
        simp only [update_phone, this, AMap.get_set, if_true]
    | m8104 =>
      simp only [Store.handle, process8104, Store.paramsOf]
      rw [hp]
      cases hx : st.params.get h.phone with
      | some q => exact ⟨rfl, hl, hg, by rw [hp]⟩
      | none =>
        simp only
        cases hf : fixedDecode env h.phone with
        | ok x =>
          obtain ⟨q, j⟩ := x
          refine ⟨rfl, hl, hg, ?_⟩
          have := (fixedDecode_phone hf)
          simp only [Store.cacheParams, this, AMap.get_set, if_true]
        | err e => exact ⟨rfl, hl, hg, hp⟩
        | panic => exact ⟨rfl, hl, hg, hp⟩
  obtain ⟨a, b, d, e⟩ := key
  exact ⟨a, b, d, e, fun hx id => by rw [hs, hs']; exact hr.segs hx id⟩

/-- The id of a message that neither registers, nor authenticates, nor deregisters. -/
def Spec.Unsigned (id : UInt16) : Prop := id ≠ 0x0003 ∧ id ≠ 0x0100 ∧ id ≠ 0x0102

theorem decode_unsigned {env : Env} {now : Civil} {h : Header} {t : MType} {s : Slice} {m : Msg} {j : Nat}
    (ht : MType.ofID h.msgID = some t) (hd : t.decode env now h s 0 = .ok (m, j)) (hu : Spec.Unsigned h.msgID) :
    Spec.Signing m = false := by
  have hi := decode_id ht hd
  obtain ⟨h1, h2, h3⟩ := hu
  cases m <;> first | rfl | skip
  case m0003 => exact absurd (UInt16.toNat_inj.1 (by rw [← hi]; rfl)) h1
  case m0100 => exact absurd (UInt16.toNat_inj.1 (by rw [← hi]; rfl)) h2
  case m0102 => exact absurd (UInt16.toNat_inj.1 (by rw [← hi]; rfl)) h3

theorem packet_elsewhere {env : Env} {ph : Str} {st : Store} (frame : List UInt8)
    (hf : ∀ pd, decodeFrame env frame = .ok pd → pd.header.phone ≠ ph) : SameTo ph st (st.decodePacket env frame).1 := by
  obtain ⟨sg, e⟩ := decodePacket_segs env st frame
  have hs := fun hx id => foreign_segs (env := env) (g := ⟨fun q => decide (q = ph), fun _ => true, fun _ => true⟩) st frame
    (fun pd h => by simpa using hf pd h) (p := ph) (by simp) hx id
  rw [e] at hs ⊢
  exact ⟨rfl, rfl, rfl, fun hx id => hs hx id⟩

theorem packet_alike {env : Env} {ph : Str} {st st' : Store} (hr : SameTo ph st st') (frame : List UInt8)
    (hf : ∀ pd, decodeFrame env frame = .ok pd → pd.header.phone = ph) :
    (st'.decodePacket env frame).2 = (st.decodePacket env frame).2 ∧
    SameTo ph (st.decodePacket env frame).1 (st'.decodePacket env frame).1 := by
  unfold Store.decodePacket
  cases hd : decodeFrame env frame with
  | err e => exact ⟨rfl, hr⟩
  | panic => exact ⟨rfl, hr⟩
  | ok pd =>
    simp only
    by_cases hx : pd.header.isFragmented = true
    · rw [if_pos hx, if_pos hx]
      cases hg : pd.header.frag with
      | none => exact ⟨rfl, hr⟩
      | some f =>
        simp only
        obtain ⟨s, j, hh⟩ := decodeFrame_header hd
        have hb := (Header.decode_facts hh).2.1
        have hp := hf pd hd
        have key : (st'.cacheSegment (Segment.ofPacket pd.header f pd.body.data)).2 =
            (st.cacheSegment (Segment.ofPacket pd.header f pd.body.data)).2 ∧
            SameTo ph (st.cacheSegment (Segment.ofPacket pd.header f pd.body.data)).1
              (st'.cacheSegment (Segment.ofPacket pd.header f pd.body.data)).1 := by
          unfold Store.cacheSegment
          simp only [Segment.ofPacket]
          rw [hp] at hb ⊢
          rw [hr.segs hb]
          cases st.segs.get (segKey ph pd.header.msgID) with
          | none => exact ⟨rfl, hr.look, hr.geos, hr.params, fun h2 id => set_agree _ (hr.segs h2 id)⟩
          | some s => exact ⟨rfl, hr.look, hr.geos, hr.params, fun h2 id => set_agree _ (hr.segs h2 id)⟩
        obtain ⟨a, b⟩ := key
        cases hc : st.cacheSegment (Segment.ofPacket pd.header f pd.body.data) with
        | mk t r =>
          cases hc' : st'.cacheSegment (Segment.ofPacket pd.header f pd.body.data) with
          | mk t' r' =>
            rw [hc, hc'] at a b
            simp only at a b
            subst a
            cases r' <;> exact ⟨rfl, b⟩
    · rw [if_neg hx, if_neg hx]; exact ⟨rfl, hr⟩

theorem segment_idle {st : Store} (hc : Cli st) (h : Header) : (st.processSegment h).1 = st ∧
    (st.processSegment h).2 = match st.look h.phone with | none => .err .deviceNotFound | some _ => .panic := by
  unfold Store.processSegment Store.look Store.session
  cases st.devByPhone h.phone with
  | none => exact ⟨rfl, rfl⟩
  | some r => rw [hc.sess]; exact ⟨rfl, rfl⟩

theorem process_elsewhere (env : Env) (clk : Clock) (c : Conn) {st : Store} (hc : Cli st) (pkt : Packet)
    (hu : Spec.Unsigned pkt.header.msgID) :
    Cli (st.process env clk c pkt).1 ∧ ∀ ph, ph ≠ pkt.header.phone → SameTo ph st (st.process env clk c pkt).1 := by
  unfold Store.process
  cases hm : MType.ofID pkt.header.msgID with
  | none => exact ⟨hc, fun ph _ => .refl ph st⟩
  | some t =>
    simp only
    split
    · rw [(segment_idle hc _).1]; exact ⟨hc, fun ph _ => .refl ph st⟩
    · cases hd : t.decode env clk.civil pkt.header pkt.body 0 with
      | err e => exact ⟨hc, fun ph _ => .refl ph st⟩
      | panic => exact ⟨hc, fun ph _ => .refl ph st⟩
      | ok x =>
        obtain ⟨m, j⟩ := x
        exact handle_elsewhere env clk c hc _ m (decode_unsigned hm hd hu)
          (fun q e => by subst e; exact (decode_8103_phone hd).1)

theorem process_alike (env : Env) (clk : Clock) (c : Conn) {st st' : Store} (hc : Cli st) (hc' : Cli st') (pkt : Packet)
    (hu : Spec.Unsigned pkt.header.msgID) (hr : SameTo pkt.header.phone st st') :
    (st'.process env clk c pkt).2 = (st.process env clk c pkt).2 ∧
    SameTo pkt.header.phone (st.process env clk c pkt).1 (st'.process env clk c pkt).1 := by
  unfold Store.process
  cases hm : MType.ofID pkt.header.msgID with
  | none => exact ⟨rfl, hr⟩
  | some t =>
    simp only
    split
    · obtain ⟨a, b⟩ := segment_idle hc pkt.header
      obtain ⟨a', b'⟩ := segment_idle hc' pkt.header
      rw [a, b, a', b', hr.look]; exact ⟨rfl, hr⟩
    · cases hd : t.decode env clk.civil pkt.header pkt.body 0 with
      | err e => exact ⟨rfl, hr⟩
      | panic => exact ⟨rfl, hr⟩
      | ok x =>
        obtain ⟨m, j⟩ := x
        exact handle_alike env clk c hc hc' _ m (decode_unsigned hm hd hu)
          (fun q e => by subst e; exact (decode_8103_phone hd).1) hr

/-- The outcome of a frame, apart from the stores. -/
def outcomeOf (env : Env) : Res (Option Out) → Outcome
  | .err e => .failed e
  | .panic => .panicked
  | .ok none => .silent
  | .ok (some o) => match Out.encode env o with
    | .ok f => .reply f
    | .err e => .failed e
    | .panic => .panicked

theorem handleFrame_parts (env : Env) (clk : Clock) (c : Conn) (st : Store) (frame : List UInt8) :
    st.handleFrame env clk c frame = match st.decodePacket env frame with
      | (st, .err e) => (st, .failed e)
      | (st, .panic) => (st, .panicked)
      | (st, .ok pkt) => ((st.process env clk c pkt).1, outcomeOf env (st.process env clk c pkt).2) := by
  unfold Store.handleFrame
  cases st.decodePacket env frame with
  | mk t r =>
    cases r with
    | err e => rfl
    | panic => rfl
    | ok pkt =>
      simp only
      cases Store.process env clk c t pkt with
      | mk u v =>
        cases v with
        | err e => rfl
        | panic => rfl
        | ok o =>
          cases o with
          | none => rfl
          | some o => simp only [outcomeOf]; cases Out.encode env o <;> rfl

/-- A frame of another terminal. -/
theorem simFrame_elsewhere (env : Env) (clk : Clock) (c : Conn) {st : Store} (hc : Cli st) (frame : List UInt8) (ph : Str)
    (hu : ∀ pd, decodeFrame env frame = .ok pd → Spec.Unsigned pd.header.msgID) :
    Cli (st.handleFrame env clk c frame).1 ∧ ((∀ pd, decodeFrame env frame = .ok pd → pd.header.phone ≠ ph) →
      SameTo ph st (st.handleFrame env clk c frame).1) := by
  rw [handleFrame_parts]
  have hp := fun hf => packet_elsewhere (env := env) (ph := ph) (st := st) frame hf
  obtain ⟨sg, e⟩ := decodePacket_segs env st frame
  cases hd : st.decodePacket env frame with
  | mk t r =>
    rw [hd] at e hp
    simp only at e hp
    have hct : Cli t := by rw [e]; exact hc.segs sg
    cases r with
    | err e => exact ⟨hct, hp⟩
    | panic => exact ⟨hct, hp⟩
    | ok pkt =>
      simp only
      obtain ⟨pd, h1, h2, -⟩ := decodePacket_header hd
      obtain ⟨x, y⟩ := process_elsewhere env clk c hct pkt (by rw [h2]; exact hu pd h1)
      exact ⟨x, fun hf => (hp hf).trans (y ph (by rw [h2]; exact fun e => hf pd h1 e.symm))⟩

/-- A frame of the terminal itself. -/
theorem simFrame_alike (env : Env) (clk : Clock) (c : Conn) {st st' : Store} (hc : Cli st) (hc' : Cli st') (frame : List UInt8)
    (ph : Str) (hu : ∀ pd, decodeFrame env frame = .ok pd → Spec.Unsigned pd.header.msgID)
    (hf : ∀ pd, decodeFrame env frame = .ok pd → pd.header.phone = ph) (hr : SameTo ph st st') :
    (st'.handleFrame env clk c frame).2 = (st.handleFrame env clk c frame).2 ∧
    SameTo ph (st.handleFrame env clk c frame).1 (st'.handleFrame env clk c frame).1 := by
  rw [handleFrame_parts, handleFrame_parts]
  obtain ⟨a, b⟩ := packet_alike hr frame hf
  obtain ⟨sg, e⟩ := decodePacket_segs env st frame
  obtain ⟨sg', e'⟩ := decodePacket_segs env st' frame
  cases hd : st.decodePacket env frame with
  | mk t r =>
    cases hd' : st'.decodePacket env frame with
    | mk t' r' =>
      rw [hd, hd'] at a b
      rw [hd] at e; rw [hd'] at e'
      simp only at a b e e'
      subst a
      have hct : Cli t := by rw [e]; exact hc.segs sg
      have hct' : Cli t' := by rw [e']; exact hc'.segs sg'
      cases r' with
      | err e => exact ⟨rfl, b⟩
      | panic => exact ⟨rfl, b⟩
      | ok pkt =>
        simp only
        obtain ⟨pd, h1, h2, -⟩ := decodePacket_header hd
        have hp : pkt.header.phone = ph := by rw [h2]; exact hf pd h1
        obtain ⟨x, y⟩ := process_alike env clk c hct hct' pkt (by rw [h2]; exact hu pd h1) (by rw [hp]; exact b)
        exact ⟨by rw [x], by rw [← hp]; exact y⟩

theorem build_cli {st : Store} (hc : Cli st) (d : Device) : Cli (st.buildDevice d) :=
  ⟨hc.keyed.put d, hc.params, hc.sess, hc.jobs⟩

theorem build_look {st : Store} (hc : Cli st) (d : Device) (q : Str) :
    (st.buildDevice d).look q = if q = d.phone then some d else st.look q := by
  unfold Store.look Store.devByPhone
  simp only [Store.buildDevice, Store.alloc, Store.cacheDevice, if_true, AMap.get_set]
  by_cases hq : q = d.phone
  · simp [hq]
  · rw [if_neg hq, if_neg hq]
    cases hx : st.byPhone.get q with
    | none => rfl
    | some r => simp [Nat.ne_of_lt (hc.keyed q r hx).2]

theorem build_elsewhere {st : Store} (hc : Cli st) (d : Device) {ph : Str} (hp : d.phone ≠ ph) : SameTo ph st (st.buildDevice d) :=
  ⟨by rw [build_look hc, if_neg (Ne.symm hp)], rfl, rfl, fun _ _ => rfl⟩

theorem build_alike {st st' : Store} (hc : Cli st) (hc' : Cli st') (d : Device) (hr : SameTo d.phone st st') :
    SameTo d.phone (st.buildDevice d) (st'.buildDevice d) :=
  ⟨by rw [build_look hc, build_look hc', if_pos rfl, if_pos rfl], hr.geos, hr.params, hr.segs⟩

end JT808
