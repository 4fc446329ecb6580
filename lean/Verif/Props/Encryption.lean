import Verif.Props.Replies
/-
C98: the encryption bits of a header.
-/
namespace JT808
open Spec

/-- The same header with other encryption bits. -/
def Spec.marked (k : UInt8) (d : EncDesc) (h : Header) : Header := { h with attr := { h.attr with encryption := k, encDesc := d } }

/-- The same message under a header with other encryption bits. -/
def Spec.markedOut (k : UInt8) (d : EncDesc) (o : Out) : Out := (marked k d o.1, o.2)

theorem handle_marked (env : Env) (clk : Clock) (c : Conn) (st : Store) (h : Header) (m : Msg) (k : UInt8) (d : EncDesc) :
    (st.handle env clk c (marked k d h) m).1 = (st.handle env clk c h m).1 ∧
    ((∃ o id, (st.handle env clk c h m).2 = .ok (some o) ∧ o.1 = { h with msgID := id } ∧
        (st.handle env clk c (marked k d h) m).2 = .ok (some (markedOut k d o))) ∨
      ((st.handle env clk c (marked k d h) m).2 = (st.handle env clk c h m).2 ∧
        ∀ o, (st.handle env clk c h m).2 ≠ .ok (some o))) := by
  cases m with
  | m0001 m => exact ⟨rfl, .inr ⟨rfl, by intro o h; cases h⟩⟩
  | m0104 m => exact ⟨rfl, .inr ⟨rfl, by intro o h; cases h⟩⟩
  | m1205 m => exact ⟨rfl, .inr ⟨rfl, by intro o h; cases h⟩⟩
  | m0002 =>
    simp only [Store.handle, process0002, marked]
    cases st.devByPhone h.phone with
    | none => exact ⟨rfl, .inr ⟨rfl, by intro o h; cases h⟩⟩
    | some r => exact ⟨rfl, .inl ⟨_, _, rfl, rfl, rfl⟩⟩
  | m0003 =>
    simp only [Store.handle, process0003, marked]
    cases st.devByPhone h.phone with
    | none => exact ⟨rfl, .inr ⟨rfl, by intro o h; cases h⟩⟩
    | some r => exact ⟨rfl, .inl ⟨_, _, rfl, rfl, rfl⟩⟩
  | m0100 m =>
    simp only [Store.handle, process0100, marked]
    by_cases hq : st.hasPlate m.plate = true
    · rw [if_pos hq, if_pos hq]; exact ⟨rfl, .inl ⟨_, _, rfl, rfl, rfl⟩⟩
    · rw [if_neg hq, if_neg hq]
      by_cases hp : st.hasPhone h.phone = true
      · simp only [hp, if_true]; exact ⟨trivial, .inl ⟨_, _, rfl, rfl, rfl⟩⟩
      · simp only [hp]; exact ⟨rfl, .inl ⟨_, _, rfl, rfl, rfl⟩⟩
  | m0102 m =>
    simp only [Store.handle, process0102, marked]
    cases st.devByPhone h.phone with
    | none => exact ⟨rfl, .inr ⟨rfl, by intro o h; cases h⟩⟩
    | some r =>
      simp only
      by_cases hc : m.code ≠ (st.heap r).code
      · rw [if_pos hc, if_pos hc]; exact ⟨rfl, .inl ⟨_, _, rfl, rfl, rfl⟩⟩
      · rw [if_neg hc, if_neg hc]; exact ⟨rfl, .inl ⟨_, _, rfl, rfl, rfl⟩⟩
  | m0200 m =>
    simp only [Store.handle, process0200, marked]
    cases st.devByPhone h.phone with
    | none => exact ⟨rfl, .inr ⟨rfl, by intro o h; cases h⟩⟩
    | some r =>
      simp only
      generalize (Store.writeGeo _ _ _) = w
      obtain ⟨s, w⟩ := w
      cases w with
      | ok u => exact ⟨rfl, .inl ⟨_, _, rfl, rfl, rfl⟩⟩
      | err e => exact ⟨rfl, .inr ⟨rfl, by intro o h; cases h⟩⟩
      | panic => exact ⟨rfl, .inr ⟨rfl, by intro o h; cases h⟩⟩
  | m8001 m =>
    have hn : ∀ h : Header, ∀ o, (process8001 clk st h m).2 ≠ .ok (some o) := by
      intro h o; unfold process8001
      split
      · split
        · intro h; cases h
        · split <;> (intro h; cases h)
      · intro h; cases h
    exact ⟨rfl, .inr ⟨rfl, hn h⟩⟩
  | m8100 m =>
    simp only [Store.handle, process8100, marked]
    cases st.devByPhone h.phone with
    | none => exact ⟨rfl, .inr ⟨rfl, by intro o h; cases h⟩⟩
    | some r => exact ⟨rfl, .inl ⟨_, _, rfl, rfl, rfl⟩⟩
  | m8103 m => exact ⟨rfl, .inl ⟨_, _, rfl, rfl, rfl⟩⟩
  | m8104 =>
    simp only [Store.handle, process8104, marked]
    cases st.paramsOf h.phone with
    | some p => exact ⟨rfl, .inl ⟨_, _, rfl, rfl, rfl⟩⟩
    | none =>
      simp only
      cases fixedDecode env h.phone with
      | ok x => exact ⟨rfl, .inl ⟨_, _, rfl, rfl, rfl⟩⟩
      | err e => exact ⟨rfl, .inr ⟨rfl, by intro o h; cases h⟩⟩
      | panic => exact ⟨rfl, .inr ⟨rfl, by intro o h; cases h⟩⟩
  | m9205 m => exact ⟨rfl, .inl ⟨_, _, rfl, rfl, rfl⟩⟩

/-- The opposite of C98: what a message does on the server does not depend on whether its header says that the body is
encrypted.  The body is taken as it is, the effect is the same, and the answer, if there is one, has the same plain body
under a header that repeats the encryption bits of the request. -/
theorem C98_marks_ignored (env : Env) (clk : Clock) (c : Conn) (st : Store) (frame frame' : List UInt8) (h : Header) (m : Msg)
    (k : UInt8) (d : EncDesc) (hh : Holds env clk.civil frame h m) (hh' : Holds env clk.civil frame' (marked k d h) m) :
    (st.handleFrame env clk c frame').1 = (st.handleFrame env clk c frame).1 ∧
    ((∃ id body, (st.handleFrame env clk c frame).2 = .reply (answer h id body) ∧
        (st.handleFrame env clk c frame').2 = .reply (answer (marked k d h) id body)) ∨
      ((st.handleFrame env clk c frame').2 = (st.handleFrame env clk c frame).2 ∧
        ∀ f, (st.handleFrame env clk c frame).2 ≠ .reply f)) := by
  rw [hh.handle, hh'.handle]
  obtain ⟨e1, e2⟩ := handle_marked env clk c st h m k d
  generalize st.handle env clk c h m = x at e1 e2
  generalize st.handle env clk c (marked k d h) m = x' at e1 e2
  obtain ⟨s, r⟩ := x
  obtain ⟨s', r'⟩ := x'
  simp only at e1 e2
  subst e1
  rcases e2 with ⟨o, id, rfl, ho, rfl⟩ | ⟨rfl, hn⟩
  · obtain ⟨oh, om⟩ := o
    simp only at ho
    subst ho
    have hb : om.encodeBody env (marked k d { h with msgID := id }) = om.encodeBody env { h with msgID := id } := by
      cases om <;> rfl
    simp only [finish, Out.encode, markedOut, hb]
    cases om.encodeBody env { h with msgID := id } with
    | ok body => exact ⟨rfl, .inl ⟨id, body, rfl, rfl⟩⟩
    | err e => exact ⟨rfl, .inr ⟨rfl, by intro f h; cases h⟩⟩
    | panic => exact ⟨rfl, .inr ⟨rfl, by intro f h; cases h⟩⟩
  · refine ⟨rfl, .inr ⟨rfl, ?_⟩⟩
    intro f hf
    cases r' with
    | err e => cases hf
    | panic => cases hf
    | ok x =>
      cases x with
      | none => cases hf
      | some o => exact hn o rfl

/-- Where C98 holds: the answer to a message that is not marked as encrypted is not marked either, as long as its body
fits the length field.  Missing for the full C98: messages that are marked. -/
theorem C98_unmarked_partial (env : Env) (clk : Clock) (c : Conn) (st : Store) (frame f : List UInt8) (h : Header) (m : Msg)
    (hh : Holds env clk.civil frame h m) (hp : h.phone.length = 2 * h.attr.verDesc.phoneBytes) (h0 : h.attr.encryption = 0)
    (e : (st.handleFrame env clk c frame).2 = .reply f) :
    ∃ id body, f = answer h id body ∧ (body.length ≤ 1023 →
      ∃ pd, decodeFrame env f = .ok pd ∧ pd.header.attr.encryption = 0 ∧ pd.header.attr.encDesc = .none) := by
  have hw := hh.wf hp
  rcases (C98_marks_ignored env clk c st frame frame h m h.attr.encryption h.attr.encDesc hh hh).2 with
    ⟨id, body, e1, -⟩ | ⟨-, hn⟩
  · rw [e] at e1; injection e1 with e1
    refine ⟨id, body, e1, fun hb => ?_⟩
    have hw' : Header.WF { h with msgID := id } := ⟨hw.attr, hw.phone, hw.pv, hw.frag⟩
    obtain ⟨slack, e2⟩ := decodeFrame_encodeFrame env (Header.withBodyLength_wf hw' body.length (by omega)) body
    subst e1
    refine ⟨_, e2, h0, ?_⟩
    have := hw.attr.encD
    rw [if_pos h0] at this
    exact this
  · exact absurd e (hn f)

/-- A location report, and the same with the header saying that it is encrypted. -/
def demoLocMarked (k : UInt8) (d : EncDesc) : List UInt8 := msgFrame (marked k d (hdr2013 0x0200)) (demoLocMsg 3 31230000).encode

theorem demoLocMarked_holds (now : Civil) : Holds goEnv now (demoLocMarked 1 .rsa) (marked 1 .rsa ((hdr2013 0x0200).withBodyLength 28))
    (.m0200 (demoLocMsg 3 31230000)) :=
  ⟨_, .t0200, _, rfl, rfl, rfl, rfl, rfl⟩

-- the position under an RSA mark is recorded like the plain one; the answer claims to be encrypted and is not
example (st : Store) := C98_marks_ignored goEnv (demoClk 5) demoC st _ _ _ _ 1 .rsa (demoLoc_holds _) (demoLocMarked_holds _)
example : (demoSys.st.handleFrame goEnv (demoClk 5) demoC (demoLocMarked 1 .rsa)).2 =
      .reply (generalReply (marked 1 .rsa ((hdr2013 0x0200).withBodyLength 28)) 0) ∧
    ((demoSys.st.handleFrame goEnv (demoClk 5) demoC (demoLocMarked 1 .rsa)).1.apiGeo (hdr2013 0).phone).2.2.map (·.2.lat) =
      some 31230000 := by decide +kernel
-- and so for every other value of the three bits
example : ∀ k ∈ [2, 3, 4, 5, 6, 7], ((demoSys.st.handleFrame goEnv (demoClk 5) demoC (demoLocMarked k .unknown)).1.apiGeo
    (hdr2013 0).phone).2.2.map (·.2.lat) = some 31230000 := by decide +kernel
example : (hdr2013 0x0200).phone.length = 2 * (hdr2013 0x0200).attr.verDesc.phoneBytes ∧
    (hdr2013 0x0200).attr.encryption = 0 := by decide

end JT808
