import Verif.Proof.Extra
import Verif.Props.Messages
/-
C131: a message with additional data at its end is taken as the message without.
-/
namespace JT808
open Spec

/-- The kinds whose layout says where they end: all but a registration, whose plate is the rest of the body, the answer
to one, whose code is, and the authentication of the older layouts, which is nothing but its code. -/
def Spec.Extensible (id : Nat) (v2019 : Bool) : Prop :=
  id ≠ 0x0100 ∧ id ≠ 0x8100 ∧ (id = 0x0102 → v2019 = true)

theorem type_of_id {id : UInt16} {t : MType} (ht : MType.ofID id = some t) : (id, t) ∈ msgTable := by
  unfold MType.ofID at ht
  obtain ⟨l1, l2, e, -⟩ := List.lookup_eq_some_iff.mp ht
  rw [e]; simp

theorem decode_relen {env : Env} {now : Civil} {h : Header} {t : MType} (ht : MType.ofID h.msgID = some t)
    (hx : Spec.Extensible h.msgID.toNat (h.attr.verDesc = .v2019)) (n : Nat) :
    t.decode env now (h.withBodyLength n) = t.decode env now h := by
  have hm := type_of_id ht
  obtain ⟨h1, h2, h3⟩ := hx
  have hid : ∀ y ∈ msgTable, (y.2 = .t0100 → y.1.toNat = 0x0100) ∧ (y.2 = .t8100 → y.1.toNat = 0x8100) ∧
      (y.2 = .t0102 → y.1.toNat = 0x0102) := by decide
  obtain ⟨g1, g2, g3⟩ := hid _ hm
  cases t with
  | t0100 => exact absurd (g1 rfl) h1
  | t8100 => exact absurd (g2 rfl) h2
  | t0102 =>
    have hv : h.attr.verDesc = .v2019 := by simpa using h3 (g3 rfl)
    have hv' : (h.withBodyLength n).attr.verDesc = .v2019 := hv
    simp only [MType.decode, AuthMsg.decode, hv, hv']
  | _ => rfl

/-- C131, the part that holds: additional data at the end of a message whose layout says where it ends makes no
difference, to the server or to what it answers.  Missing: the three other kinds, for which it is false. -/
theorem C131_same_partial (env : Env) (clk : Clock) (c : Conn) (st : Store) (h : Header) (hw : h.WF)
    (hf : h.isFragmented = false) (body extra : List UInt8) (hl : (body ++ extra).length ≤ 1023)
    (hx : Spec.Extensible h.msgID.toNat (h.attr.verDesc = .v2019))
    (hs : Spec.Sized h.msgID.toNat (h.attr.verDesc = .v2019) body.length body) :
    st.handleFrame env clk c (encodeFrame (writeHeader h (body ++ extra))) =
      st.handleFrame env clk c (encodeFrame (writeHeader h body)) := by
  have hl' : body.length ≤ 1023 := by rw [List.length_append] at hl; omega
  obtain ⟨s1, e1⟩ := decodeFrame_encodeFrame env (Header.withBodyLength_wf hw (body ++ extra).length (by omega)) (body ++ extra)
  obtain ⟨s2, e2⟩ := decodeFrame_encodeFrame env (Header.withBodyLength_wf hw body.length (by omega)) body
  unfold writeHeader
  rw [handleFrame_packet e1 hf, handleFrame_packet e2 hf]
  unfold Store.process
  have hid : ∀ n, (h.withBodyLength n).msgID = h.msgID := fun _ => rfl
  have hfr : ∀ n, (h.withBodyLength n).isFragmented = false := fun _ => hf
  simp only [hid, hfr]
  cases ht : MType.ofID h.msgID with
  | none => rfl
  | some t =>
    simp only [Bool.false_and, Bool.false_eq_true, if_false]
    rw [decode_relen ht hx, decode_relen ht hx]
    have hne : t ≠ .t0100 := by
      rintro rfl
      have := type_of_id ht
      have hall : ∀ y ∈ msgTable, y.2 = .t0100 → y.1.toNat = 0x0100 := by decide
      exact hx.1 (hall _ this rfl)
    have hsz : Spec.Sized (h.withBodyLength body.length).msgID.toNat ((h.withBodyLength body.length).attr.verDesc = .v2019)
        (h.withBodyLength body.length).attr.bodyLength.toNat (Slice.mk body []).data := by
      have : (h.withBodyLength body.length).attr.bodyLength.toNat = body.length := by
        simp only [Header.withBodyLength, UInt16.toNat_ofNat']; omega
      rw [this]; exact hs
    have hnp := decode_sized env clk.civil (h.withBodyLength body.length) t ⟨body, []⟩ ht hsz
    rw [decode_relen ht hx] at hnp
    cases hd : t.decode env clk.civil h ⟨body, []⟩ 0 with
    | panic => exact absurd hd hnp
    | err e => exact absurd hd (decode_noErr env clk.civil h t hne _ _ _)
    | ok a =>
      obtain ⟨m, j⟩ := a
      obtain ⟨-, g2, g3⟩ := Local.msg env clk.civil h t _ _ _ _ hd
      have hj : j ≤ body.length := by simpa [Slice.mem] using g2 (Nat.zero_le _)
      have d1 : t.decode env clk.civil h ⟨body ++ extra, s1⟩ 0 = .ok (m, j) := by
        refine g3 _ (by simp only [List.length_append]; omega) ?_
        simp only [Slice.mem, List.append_nil]
        rw [List.take_append_of_le_length hj]
      have d2 : t.decode env clk.civil h ⟨body, s2⟩ 0 = .ok (m, j) := by
        refine g3 _ hj ?_
        simp only [Slice.mem, List.append_nil]
      simp only [d1, d2]
      rw [handle_relen, handle_relen, finish_relen, finish_relen]

/-! The frame of the README (FramePayload): a location report with two additional items, altogether 38 bytes. -/

def readmeHeader : Header := ⟨0x0200, ⟨0, 0, 0, 0, 0, .none, false, .v2013⟩, 0, digitStr [1,2,3,4,5,6,7,8,9,0,1,2], 0x7e, none⟩
def readmeBody : List UInt8 :=
  [0x00, 0x00, 0x00, 0x01, 0x00, 0x00, 0x00, 0x02, 0x00, 0xBA, 0x7F, 0x0E, 0x07, 0xE4, 0xF1, 0x1C, 0x00, 0x28, 0x00, 0x3C,
   0x00, 0x00, 0x18, 0x10, 0x15, 0x10, 0x10, 0x10]
def readmeItems : List UInt8 := [0x01, 0x04, 0x00, 0x00, 0x00, 0x64, 0x02, 0x02, 0x00, 0x7D]

example : encodeFrame (writeHeader readmeHeader (readmeBody ++ readmeItems)) =
  [0x7E, 0x02, 0x00, 0x00, 0x26, 0x12, 0x34, 0x56, 0x78, 0x90, 0x12, 0x00, 0x7D, 0x02, 0x00, 0x00, 0x00, 0x01, 0x00, 0x00,
   0x00, 0x02, 0x00, 0xBA, 0x7F, 0x0E, 0x07, 0xE4, 0xF1, 0x1C, 0x00, 0x28, 0x00, 0x3C, 0x00, 0x00, 0x18, 0x10, 0x15, 0x10,
   0x10, 0x10, 0x01, 0x04, 0x00, 0x00, 0x00, 0x64, 0x02, 0x02, 0x00, 0x7D, 0x01, 0x13, 0x7E] := by decide +kernel

theorem readmeHeader_wf : readmeHeader.WF where
  attr := ⟨by decide, by decide, by decide, by decide, by decide, by decide, by decide, by decide⟩
  phone := ⟨by decide, by decide⟩
  pv := fun _ => rfl
  frag := rfl

/-- The hypotheses of C131_same_partial are met: that frame is handled like the one without the two items. -/
example (env : Env) (clk : Clock) (c : Conn) (st : Store) :
    st.handleFrame env clk c (encodeFrame (writeHeader readmeHeader (readmeBody ++ readmeItems))) =
      st.handleFrame env clk c (encodeFrame (writeHeader readmeHeader readmeBody)) :=
  C131_same_partial env clk c st readmeHeader readmeHeader_wf rfl readmeBody readmeItems (by decide)
    ⟨by decide, by decide, by decide⟩
    ⟨by decide, by decide, fun h => absurd h (by decide), fun h => absurd h (by decide), fun h => absurd h (by decide)⟩

/-! ### The kinds for which it is false -/

/-- A byte more at the end of a registration, and the terminal is registered with another plate. -/
theorem C131_plate :
    ((Sys.start.run goEnv [.accept [0x61], .frame (demoClk 1000) demoC
      (msgFrame (hdr2013 0x0100) (demoRegMsg.encode goEnv .v2013 ++ [0x78])) none]).1.st.look (hdr2013 0).phone).map (·.plate) =
      some (demoRegMsg.plate ++ [0x78]) ∧
    ((Sys.start.run goEnv [.accept [0x61], .frame (demoClk 1000) demoC
      (msgFrame (hdr2013 0x0100) (demoRegMsg.encode goEnv .v2013)) none]).1.st.look (hdr2013 0).phone).map (·.plate) =
      some demoRegMsg.plate := by decide +kernel

/-- A registration of the 2011 layout that is made longer is taken for one of the 2013 layout: another device, another
plate. -/
theorem C131_layout :
    let body := demoRegMsg.encode goEnv .v2011
    (∃ m j, Register.decode goEnv ((hdr2013 0x0100).withBodyLength body.length) ⟨body, []⟩ 0 = .ok (m, j) ∧
      m.deviceID = demoRegMsg.deviceID ∧ m.plate = demoRegMsg.plate) ∧
    ∃ m j, Register.decode goEnv ((hdr2013 0x0100).withBodyLength (body.length + 12)) ⟨body ++ List.replicate 12 0x20, []⟩ 0 = .ok (m, j) ∧
      m.deviceID ≠ demoRegMsg.deviceID ∧ m.plate ≠ demoRegMsg.plate := by
  refine ⟨⟨_, _, rfl, by decide, by decide⟩, ⟨_, _, rfl, by decide, by decide⟩⟩

/-- A byte more at the end of an authentication of the older layouts, and the terminal is refused and forgotten. -/
theorem C131_code :
    ((demoSys.st.handleFrame goEnv (demoClk 2000) demoC (demoAuth demoCode)).1.look (hdr2013 0).phone).map (·.status) =
      some .online ∧
    (demoSys.st.handleFrame goEnv (demoClk 2000) demoC (demoAuth (demoCode ++ [0]))).1.look (hdr2013 0).phone = none := by
  decide +kernel

/-- What follows the answer to a registration is taken as part of the code. -/
theorem C131_answer (env : Env) (h : Header) (hw : h.WF) (m : RegisterAck) (extra : List UInt8)
    (hc : (m.code ++ extra).length ≤ 1020) :
    FrameCarries env h (m.encode ++ extra) RegisterAck.decode { m with code := m.code ++ extra } := by
  have e : m.encode ++ extra = RegisterAck.encode { m with code := m.code ++ extra } := by
    simp [RegisterAck.encode, writeWord, writeByte, writeString, writeBytes]
  rw [e]
  exact C19_register_reply env h hw _ hc

example : readmeHeader.WF ∧ ([0x41, 0x42] ++ [0x43] : List UInt8).length ≤ 1020 := ⟨readmeHeader_wf, by decide⟩

end JT808
