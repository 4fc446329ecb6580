import Verif.Proof.SimProcess
import Verif.Model.SimTalk
/-
What puts a device of the simulator online (for C130).
-/
namespace JT808

/-- The messages that put the device of their phone online: a positive general reply (msg_processor.go:376-397), and an
authentication (317-321), which no platform sends. -/
def Spec.Releases : Msg → Bool
  | .m8001 m => m.result == 0
  | .m0102 _ => true
  | _ => false

/-- The device found under a phone, if any, is online. -/
def Spec.OnlineAt (st : Store) (p : Str) : Prop := ∃ r, st.byPhone.get p = some r ∧ (st.heap r).status = .online

/-- Nothing comes online under phone `p`. -/
def Rests (st st' : Store) (p : Str) : Prop := Keyed st → Spec.OnlineAt st' p → Spec.OnlineAt st p

theorem Rests.same {st st' : Store} {p : Str} (h1 : st'.byPhone = st.byPhone) (h2 : st'.heap = st.heap) : Rests st st' p := by
  rintro - ⟨r, a, b⟩; rw [h1] at a; rw [h2] at b; exact ⟨r, a, b⟩

theorem Rests.touch {st : Store} {p q : Str} {r : Ref} (hr : st.byPhone.get q = some r) {d : Device}
    (hd : d.phone = (st.heap r).phone) (hs : q = p → d.status = .online → (st.heap r).status = .online) :
    Rests st ((st.setDev r d).cacheDevice r) p := by
  rintro hk ⟨r', a, b⟩
  obtain ⟨h1, h2⟩ := hk q r hr
  simp only [Store.cacheDevice, Store.setDev, if_true, AMap.get_set] at a b
  rw [hd, h1] at a
  split at a
  · next hq =>
    injection a with a; subst a; subst hq
    rw [if_pos rfl] at b
    exact ⟨r, hr, hs rfl b⟩
  · next hq =>
    have hx : r' ≠ r := by
      rintro rfl
      exact hq ((hk p r' a).1.symm.trans h1)
    rw [if_neg hx] at b
    exact ⟨r', a, b⟩

theorem Rests.drop {st : Store} {p q : Str} : Rests st (st.delByPhone q) p := by
  unfold Store.delByPhone
  cases hr : st.byPhone.get q with
  | none => exact .same rfl rfl
  | some r =>
    rintro - ⟨r', a, b⟩
    simp only [AMap.get_del] at a
    split at a
    · cases a
    · exact ⟨r', a, b⟩

theorem Rests.put {st : Store} {p : Str} {d : Device} (hd : d.status ≠ .online) :
    Rests st ((st.alloc d).1.cacheDevice (st.alloc d).2) p := by
  rintro hk ⟨r', a, b⟩
  simp only [Store.alloc, Store.cacheDevice, if_true, AMap.get_set] at a b
  split at a
  · injection a with a; subst a
    rw [if_pos rfl] at b
    exact absurd b hd
  · have := (hk p r' a).2
    rw [if_neg (Nat.ne_of_lt this)] at b
    exact ⟨r', a, b⟩

/-- A device that has just been cached is the one found, so it is as it was made. -/
theorem put_online {st : Store} {d : Device} (hd : d.status ≠ .online) :
    ¬ Spec.OnlineAt ((st.alloc d).1.cacheDevice (st.alloc d).2) d.phone := by
  rintro ⟨r', a, b⟩
  simp only [Store.alloc, Store.cacheDevice, if_true, AMap.get_set] at a b
  injection a with a; subst a
  rw [if_pos rfl] at b
  exact hd b

theorem handle_rests (env : Env) (clk : Clock) (c : Conn) (st : Store) (h : Header) (m : Msg) (p : Str)
    (hm : h.phone = p → Spec.Releases m = false) : Rests st (st.handle env clk c h m).1 p := by
  have refl : Rests st st p := .same rfl rfl
  cases m with
  | m0001 m => exact refl
  | m0104 m => exact refl
  | m1205 m => exact refl
  | m9205 m => exact refl
  | m0002 =>
    simp only [Store.handle, process0002, Store.devByPhone]
    cases hr : st.byPhone.get h.phone with
    | none => exact refl
    | some r => exact .touch hr rfl (fun _ hx => hx)
  | m0003 =>
    simp only [Store.handle, process0003, Store.devByPhone]
    cases hr : st.byPhone.get h.phone with
    | none => exact refl
    | some r =>
      intro hk ho
      have := Rests.drop (st := st.cancelJob (st.heap r).phone) (hk.of_same rfl rfl rfl) ho
      exact Rests.same (st := st) rfl rfl hk this
  | m0100 m =>
    simp only [Store.handle, process0100]
    split
    · exact refl
    · split
      · exact refl
      · dsimp only
        have hp : Rests st ((st.alloc (Device.new clk c h m)).1.cacheDevice (st.alloc (Device.new clk c h m)).2) p :=
          Rests.put (by simp [Device.new])
        unfold Store.registerJob
        split
        · exact hp
        · exact hp
  | m0102 m =>
    simp only [Store.handle, process0102, Store.devByPhone]
    cases hr : st.byPhone.get h.phone with
    | none => exact refl
    | some r =>
      dsimp only
      split
      · intro hk ho
        have := Rests.drop (st := st.cancelJob (st.heap r).phone) (hk.of_same rfl rfl rfl) ho
        exact Rests.same (st := st) rfl rfl hk this
      · exact .touch hr rfl (fun hq => absurd (hm hq) (by simp [Spec.Releases]))
  | m0200 m =>
    simp only [Store.handle, process0200, Store.devByPhone]
    cases hr : st.byPhone.get h.phone with
    | none => exact refl
    | some r =>
      dsimp only
      have key : ∀ (st1 : Store) (dg : DeviceGeo), Rests st st1 p → Rests st (match st1.writeGeo (st1.heap r).phone dg with
          | (st, .ok _) => (st, (.ok (some (gen8001 h 0)) : Res (Option Out)))
          | (st, .err e) => (st, .err e)
          | (st, .panic) => (st, .panic)).1 p := by
        intro st1 dg hk
        have hc := writeGeo_rest st1 (st1.heap r).phone dg
        cases hw : st1.writeGeo (st1.heap r).phone dg with
        | mk st2 res =>
          rw [hw] at hc
          have : Rests st st2 p := by
            rintro k ⟨r', a, b⟩
            rw [hc.1] at a; rw [hc.2.1] at b
            exact hk k ⟨r', a, b⟩
          cases res <;> exact this
      apply key
      split
      · exact .touch hr rfl (fun _ hx => by simp [Device.asleep] at hx)
      · exact refl
  | m8001 m =>
    simp only [Store.handle, process8001, Store.devByPhone]
    split
    · next hz =>
      cases hr : st.byPhone.get h.phone with
      | none => exact refl
      | some r =>
        dsimp only
        split
        · exact refl
        · exact .touch hr rfl (fun hq => absurd (hm hq) (by simp [Spec.Releases, hz]))
    · exact refl
  | m8100 m =>
    simp only [Store.handle, process8100, Store.devByPhone]
    cases hr : st.byPhone.get h.phone <;> exact refl
  | m8103 m => exact .same rfl rfl
  | m8104 =>
    obtain ⟨a, b, c, d⟩ := process8104_core env st h
    exact .same a b

theorem handleFrame_rests (env : Env) (clk : Clock) (c : Conn) (st : Store) (f : List UInt8) (p : Str)
    (hn : ∀ h m, Delivers env clk.civil st f h m → h.phone = p → Spec.Releases m = false) :
    Rests st (st.handleFrame env clk c f).1 p := by
  by_cases hd : ∃ h m, Delivers env clk.civil st f h m
  · obtain ⟨h, m, hd⟩ := hd
    obtain ⟨sg, e⟩ := hd.handle c
    rw [e, finish_fst]
    have := handle_rests env clk c { st with segs := sg } h m p (hn h m hd)
    exact fun hk ho => this (hk.of_same rfl rfl rfl) ho
  · obtain ⟨sg, sr, e⟩ := handleFrame_none (env := env) (clk := clk) (c := c) (st := st) (frame := f)
      (fun h m hx => hd ⟨h, m, hx⟩)
    rw [e]
    exact .same rfl rfl

theorem check_rests (clk : Clock) (st : Store) (q p : Str) : Rests st (st.check clk q).1 p := by
  unfold Store.check Store.devByPhone
  cases hr : st.byPhone.get q with
  | none => exact .same rfl rfl
  | some r =>
    dsimp only
    split
    · exact .touch hr rfl (fun _ hx => by simp [Device.lost] at hx)
    · split
      · cases hc : (st.heap r).conn with
        | none => exact .same rfl rfl
        | some c =>
          intro hk ho
          have := Rests.drop (st := st.closeConn c) (q := q) (hk.of_same rfl rfl rfl) ho
          exact Rests.same (st := st) rfl rfl hk this
      · exact .same rfl rfl

end JT808
