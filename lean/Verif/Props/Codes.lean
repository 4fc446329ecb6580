import Verif.Props.Replies
import Verif.Props.Auth
/-
C81: authorisation codes of different terminals.
-/
namespace JT808
open Spec

/-! ## C81 -/

/-- Some server issues `code` to a terminal that registers with this id, plate and phone. -/
def Issues (env : Env) (code id plate phone : Str) : Prop :=
  ∃ (clk : Clock) (c : Conn) (st st' : Store) (frame : List UInt8) (h : Header) (m : Register),
    Holds env clk.civil frame h (.m0100 m) ∧ m.deviceID = id ∧ m.plate = plate ∧ h.phone = phone ∧
    st.handleFrame env clk c frame = (st', .reply (registerReply h 0 code))

/-- Two texts that differ in exactly one byte. -/
def OneByteApart (s s' : List UInt8) : Prop := ∃ a b b' c, s = a ++ b :: c ∧ s' = a ++ b' :: c ∧ b ≠ b'

theorem Issues.eq {env : Env} {code id plate phone : Str} (h : Issues env code id plate phone) :
    code = authCodeOf id plate phone := by
  obtain ⟨clk, c, st, st', frame, h, m, hh, rfl, rfl, rfl, e⟩ := h
  rw [hh.handle] at e
  simp only [Store.handle, process0100] at e
  split at e
  · rw [finish_gen8100] at e
    have := registerReply_injective (by decide) (by decide) (Outcome.reply.inj (Prod.mk.inj e).2)
    exact absurd this.1 (by decide)
  · split at e
    · rw [finish_gen8100] at e
      have := registerReply_injective (by decide) (by decide) (Outcome.reply.inj (Prod.mk.inj e).2)
      exact absurd this.1 (by decide)
    · rw [finish_gen8100] at e
      have := registerReply_injective (by decide) (by decide) (Outcome.reply.inj (Prod.mk.inj e).2)
      exact this.2.symm

theorem fnv_mul_cancel {x y : UInt32} (h : x * 16777619 = y * 16777619) : x = y := by
  have : x * 16777619 * 899433627 = y * 16777619 * 899433627 := by rw [h]
  rw [UInt32.mul_assoc, UInt32.mul_assoc] at this
  have e : (16777619 : UInt32) * 899433627 = 1 := by decide
  rw [e, UInt32.mul_one, UInt32.mul_one] at this
  exact this

theorem fnv_fold_cancel (s : Str) : ∀ a b : UInt32,
    s.foldl (fun h b => (h ^^^ b.toUInt32) * 16777619) a = s.foldl (fun h b => (h ^^^ b.toUInt32) * 16777619) b → a = b := by
  induction s with
  | nil => intro a b h; exact h
  | cons x s ih =>
    intro a b h
    have := fnv_mul_cancel (ih _ _ h)
    exact (UInt32.xor_left_inj _).1 this

theorem fnv32_one_byte {s s' : Str} (h : OneByteApart s s') : fnv32 s ≠ fnv32 s' := by
  obtain ⟨a, b, b', c, rfl, rfl, hb⟩ := h
  intro hx
  unfold fnv32 at hx
  rw [List.foldl_append, List.foldl_append, List.foldl_cons, List.foldl_cons] at hx
  have := (UInt32.xor_right_inj _).1 (fnv_mul_cancel (fnv_fold_cancel c _ _ hx))
  apply hb
  rw [← UInt8.toNat_inj]
  have := congrArg UInt32.toNat this
  simpa using this

theorem authCodeOf_inj {id plate phone id' plate' phone' : Str}
    (h : authCodeOf id plate phone = authCodeOf id' plate' phone') :
    fnv32 (identityText id plate phone) = fnv32 (identityText id' plate' phone') := by
  unfold authCodeOf at h
  have := decimal_injective h
  rw [← UInt32.toNat_inj]
  simpa [identityText] using this

/-- What holds of C81: terminals whose identities differ in exactly one byte, for instance in one digit of the phone,
get different codes.  Missing: all other pairs, where it is false. -/
theorem C81_one_byte_partial (env : Env) (code code' id id' plate plate' phone phone' : Str)
    (h : Issues env code id plate phone) (h' : Issues env code' id' plate' phone')
    (ho : OneByteApart (identityText id plate phone) (identityText id' plate' phone')) : code ≠ code' := by
  intro hx
  rw [h.eq, h'.eq] at hx
  exact fnv32_one_byte ho (authCodeOf_inj hx)

/-- The opposite of C81, first: the separator may be part of an id or a plate, so moving the boundary does not change
the code. -/
theorem C81_boundary_moved (env : Env) (code code' a b c phone : Str) (h : Issues env code (a ++ [0x5f] ++ b) c phone)
    (h' : Issues env code' a (b ++ [0x5f] ++ c) phone) : code = code' := by
  rw [h.eq, h'.eq]
  unfold authCodeOf
  simp

/-- The opposite of C81, second: if the hashes of two ids collide, the codes of the two terminals are equal for every
plate and every phone. -/
theorem C81_colliding_ids (env : Env) (code code' id id' plate phone : Str) (hc : fnv1a id = fnv1a id')
    (h : Issues env code id plate phone) (h' : Issues env code' id' plate phone) : code = code' := by
  rw [h.eq, h'.eq]
  have hc' : fnv32 id = fnv32 id' := by rw [← UInt32.toNat_inj, fnv32_spec, fnv32_spec]; exact hc
  unfold authCodeOf
  have : ∀ i : Str, fnv32 (i ++ 0x5f :: plate ++ 0x5f :: phone) =
      (0x5f :: plate ++ 0x5f :: phone).foldl (fun h b => (h ^^^ b.toUInt32) * 16777619) (fnv32 i) := by
    intro i
    unfold fnv32
    rw [← List.foldl_append]
    simp
  rw [this, this, hc']

/-- Two ids of seven capital letters and digits with the same hash: "UG6ZYY0" and "0LSS6NL". -/
def idA : Str := [0x55, 0x47, 0x36, 0x5a, 0x59, 0x59, 0x30]
def idB : Str := [0x30, 0x4c, 0x53, 0x53, 0x36, 0x4e, 0x4c]
example : idA ≠ idB ∧ fnv1a idA = fnv1a idB := by decide

/-- Two phones, 013845148422 and 013831497200. -/
def phoneA : Str := [0x30, 0x31, 0x33, 0x38, 0x34, 0x35, 0x31, 0x34, 0x38, 0x34, 0x32, 0x32]
def phoneB : Str := [0x30, 0x31, 0x33, 0x38, 0x33, 0x31, 0x34, 0x39, 0x37, 0x32, 0x30, 0x30]
/-- The registration of "ID00001" with plate "A12345". -/
def regA : Register := ⟨31, 115, [0x61, 0x62], [0x6d], [0x49, 0x44, 0x30, 0x30, 0x30, 0x30, 0x31], 1,
  [0x41, 0x31, 0x32, 0x33, 0x34, 0x35], []⟩
/-- The header of a frame from `phone`. -/
def hdrOf (phone : Str) (id : UInt16) : Header := { hdr2013 id with phone := phone }

/-- The opposite of C81, third: a terminal authenticates with the code that was issued to another phone.  The first
terminal registers, gets its code and deregisters; the second registers under the same id and plate and shows the code of
the first. -/
def borrowedCodeEvs (code : Str) : List Ev :=
  [.accept [0x61], .accept [0x62],
   .frame (demoClk 1000) demoC (msgFrame (hdrOf phoneA 0x0100) (regA.encode goEnv .v2013)) none,
   .frame (demoClk 2000) demoC (msgFrame (hdrOf phoneA 0x0003) []) none,
   .frame (demoClk 3000) demoC' (msgFrame (hdrOf phoneB 0x0100) (regA.encode goEnv .v2013)) none,
   .frame (demoClk 4000) demoC' (msgFrame (hdrOf phoneB 0x0102) code) none]

/-- "648626577", issued to the first phone, authenticates the second. -/
theorem C81_borrowed_code : phoneA ≠ phoneB ∧
    ∃ code, (Sys.start.run goEnv (borrowedCodeEvs code)).2[2]? =
        some ⟨some (demoC, registerReply ((hdrOf phoneA 0x0100).withBodyLength 43) 0 code), false, none⟩ ∧
      ((Sys.start.run goEnv (borrowedCodeEvs code)).1.st.look phoneB).map (·.status) = some .online := by
  refine ⟨by decide, [0x36, 0x34, 0x38, 0x36, 0x32, 0x36, 0x35, 0x37, 0x37], ?_, ?_⟩ <;> decide +kernel

/-- The demonstration terminal is issued a code. -/
theorem demo_issues : Issues goEnv demoCode demoRegMsg.deviceID demoRegMsg.plate (hdr2013 0).phone :=
  ⟨demoClk 1000, demoC, Store.empty, _, demoReg, _, demoRegMsg, demoReg_holds _, rfl, rfl, rfl, rfl⟩
-- the next phone number, one digit away, gets another code
example : OneByteApart (identityText demoRegMsg.deviceID demoRegMsg.plate (hdr2013 0).phone)
    (identityText demoRegMsg.deviceID demoRegMsg.plate ((hdr2013 0).phone.dropLast ++ [0x39])) :=
  ⟨identityText demoRegMsg.deviceID demoRegMsg.plate (hdr2013 0).phone.dropLast, (hdr2013 0).phone.getLast (by decide),
    0x39, [], by decide, by decide, by decide⟩
-- ids "A_B" with plate "C", and "A" with plate "B_C"
example : ([0x41] ++ [0x5f] ++ [0x42] : Str) ≠ [0x41] ∧
    authCodeOf ([0x41] ++ [0x5f] ++ [0x42]) [0x43] phoneA = authCodeOf [0x41] ([0x42] ++ [0x5f] ++ [0x43]) phoneA := by decide

end JT808
