import Verif.Model.Pair
import Verif.Proof.Devices
/-
Which errors the decoders and encoders can return: none of those that end a receive loop.
-/
namespace JT808

/-- The error ends a receive loop of the server or of the simulator. -/
def Err.ends (e : Err) : Bool := e.endsServe || e.endsClient

/-- A reader that never returns such an error. -/
def Rd.Mild {α : Type} (r : Rd α) : Prop := ∀ s i e, r s i = .err e → e.ends = false

namespace Rd.Mild

theorem pure {α : Type} (a : α) : Rd.Mild (Pure.pure a : Rd α) := fun _ _ _ h => nomatch h

theorem bind {α β : Type} {r : Rd α} {f : α → Rd β} (hr : r.Mild) (hf : ∀ a, (f a).Mild) : Rd.Mild (r >>= f) := by
  intro s i e h
  change Rd.bind r f s i = _ at h
  unfold Rd.bind at h
  split at h
  · exact hf _ _ _ _ h
  · next e' h' => cases h; exact hr _ _ _ h'
  · cases h

theorem fail {α : Type} {e : Err} (he : e.ends = false) : Rd.Mild (Rd.fail e : Rd α) := by
  intro s i e' h; cases h; exact he

theorem panic {α : Type} : Rd.Mild (Rd.panic : Rd α) := fun _ _ _ h => nomatch h

theorem getIdx : Rd.Mild Rd.getIdx := fun _ _ _ h => nomatch h

theorem index {s : Slice} {i : Nat} {e : Err} : s.index i ≠ .err e := by
  unfold Slice.index; split <;> simp

theorem sub {s : Slice} {i : Nat} {n : Int} {e : Err} : s.sub i n ≠ .err e := by
  unfold Slice.sub; split <;> simp

theorem from' {s : Slice} {i : Nat} {e : Err} : s.from' i ≠ .err e := by
  unfold Slice.from'; split <;> simp

theorem byte : Rd.Mild readByte := by
  intro s i e h
  unfold readByte at h
  split at h
  · cases h
  · next h' => exact absurd h' index
  · cases h

theorem bytes (n : Int) : Rd.Mild (readBytes n) := by
  intro s i e h
  unfold readBytes at h
  split at h
  · cases h
  · next h' => exact absurd h' sub
  · cases h

theorem onRest {α : Type} {r : Rd α} (hr : r.Mild) : Rd.Mild (Rd.onRest r) := by
  intro s i e h
  unfold Rd.onRest at h
  split at h
  · split at h
    · cases h
    · next h' => cases h; exact hr _ _ _ h'
    · cases h
  · next h' => exact absurd h' from'
  · cases h

theorem word : Rd.Mild readWord := by
  unfold readWord
  refine bind (bytes _) fun bs => ?_
  split
  · exact pure _
  · exact panic

theorem dword : Rd.Mild readDWord := by
  unfold readDWord
  refine bind (bytes _) fun bs => ?_
  split
  · exact pure _
  · exact panic

theorem string (n : Int) : Rd.Mild (readString n) := bytes n

theorem bcd (n : Int) : Rd.Mild (readBCD n) := by
  unfold readBCD
  exact bind (bytes _) fun _ => pure _

theorem gbk (env : Env) (n : Int) : Rd.Mild (readGBK env n) := by
  unfold readGBK
  refine bind (bytes _) fun bs => ?_
  split <;> exact pure _

theorem time (now : Civil) : Rd.Mild (readTime now) := by
  unfold readTime
  exact bind (bcd _) fun _ => pure _

theorem ack : Rd.Mild GeneralAck.decode := by
  unfold GeneralAck.decode
  exact bind word fun _ => bind word fun _ => bind byte fun _ => pure _

theorem query (now : Civil) : Rd.Mild (MediaQuery.decode now) := by
  unfold MediaQuery.decode
  exact bind byte fun _ => bind (time _) fun _ => bind (time _) fun _ => bind dword fun _ => bind dword fun _ =>
    bind byte fun _ => bind byte fun _ => bind byte fun _ => pure _

theorem media (now : Civil) : Rd.Mild (MediaList.decode now) := by
  unfold MediaList.decode
  refine bind word fun _ => bind dword fun _ => bind (onRest ?_) fun _ => pure _
  unfold mediaDecode
  exact bind (query _) fun _ => bind dword fun _ => pure _

theorem register (env : Env) (h : Header) : Rd.Mild (Register.decode env h) := by
  unfold Register.decode
  refine bind word fun _ => bind word fun _ => bind ?_ fun _ => bind (string _) fun _ => bind (string _) fun _ =>
    bind (string _) fun _ => bind byte fun _ => bind getIdx fun _ => bind (gbk _ _) fun _ => pure _
  unfold Register.widths
  split
  · exact pure _
  · split <;> exact pure _
  · exact fail rfl

theorem auth (h : Header) : Rd.Mild (AuthMsg.decode h) := by
  unfold AuthMsg.decode
  split
  · exact bind (string _) fun _ => pure _
  · exact bind byte fun _ => bind (string _) fun _ => bind (string _) fun _ => bind (string _) fun _ => pure _
  · exact pure _

theorem loc : Rd.Mild LocMsg.decode := by
  unfold LocMsg.decode
  exact bind dword fun _ => bind dword fun _ => bind dword fun _ => bind dword fun _ => bind word fun _ =>
    bind word fun _ => bind word fun _ => bind (bcd _) fun _ => pure _

theorem value (env : Env) (n : Nat) (k : PKind) : Rd.Mild (k.decode env n) := by
  cases k <;> unfold PKind.decode
  · exact bind byte fun _ => pure _
  · exact bind word fun _ => pure _
  · exact bind dword fun _ => pure _
  · exact bind (bcd _) fun _ => pure _
  · exact bind (string _) fun _ => pure _
  · exact bind (gbk _ _) fun _ => pure _

theorem param (env : Env) : Rd.Mild (ParamData.decode env) := by
  unfold ParamData.decode
  refine bind dword fun _ => bind byte fun _ => bind ?_ fun _ => pure _
  unfold ParamData.decodeValue
  split
  · exact value _ _ _
  · exact panic

theorem paramN (env : Env) : ∀ n, Rd.Mild (ParamData.decodeN env n)
  | 0 => pure _
  | n + 1 => bind (param env) fun _ => bind (paramN env n) fun _ => pure _

theorem params (env : Env) (phone : Str) (n : UInt8) : Rd.Mild (DeviceParams.decode env phone n) := by
  unfold DeviceParams.decode
  exact bind (paramN _ _) fun _ => pure _

theorem report (env : Env) (h : Header) : Rd.Mild (ParamsMsg.decode env h) := by
  unfold ParamsMsg.decode
  exact bind word fun _ => bind byte fun _ => bind (onRest (params _ _ _)) fun _ => pure _

theorem header : Rd.Mild Header.decode := by
  unfold Header.decode
  refine bind word fun _ => bind word fun a => bind ?_ fun _ => bind ?_ fun _ => bind word fun _ => bind ?_ fun _ => pure _
  · unfold Header.decodePV
    split
    · exact byte
    · exact pure _
  · unfold Header.decodePhone
    split
    · exact bcd _
    · exact bcd _
    · exact fail rfl
  · unfold Header.decodeFrag
    split
    · refine bind ?_ fun _ => pure _
      unfold Frag.decode
      exact bind word fun _ => bind word fun _ => pure _
    · exact pure _

theorem regAck (h : Header) : Rd.Mild (RegisterAck.decode h) := by
  unfold RegisterAck.decode
  exact bind word fun _ => bind byte fun _ => bind getIdx fun _ => bind (string _) fun _ => pure _

theorem set (env : Env) (h : Header) : Rd.Mild (SetParams.decode env h) := by
  unfold SetParams.decode
  exact bind byte fun _ => bind (onRest (params _ _ _)) fun _ => pure _

theorem msg (env : Env) (now : Civil) (h : Header) (t : MType) : Rd.Mild (t.decode env now h) := by
  cases t <;> unfold MType.decode
  · exact bind ack fun _ => pure _
  · exact pure _
  · exact pure _
  · exact bind (register _ _) fun _ => pure _
  · exact bind (auth _) fun _ => pure _
  · exact bind (report _ _) fun _ => pure _
  · exact bind loc fun _ => pure _
  · exact bind (media _) fun _ => pure _
  · exact bind ack fun _ => pure _
  · exact bind (regAck _) fun _ => pure _
  · exact bind (set _ _) fun _ => pure _
  · exact pure _
  · exact bind (query _) fun _ => pure _

end Rd.Mild

theorem decodeFrame_mild {env : Env} {frame : List UInt8} {e : Err} (h : decodeFrame env frame = .err e) :
    e.ends = false := by
  unfold decodeFrame at h
  simp only at h
  split at h
  · cases h
  · split at h
    · next e' h' =>
      cases h
      unfold verify at h'
      split at h'
      · cases h'; rfl
      · split at h'
        · cases h'
        · cases h'; rfl
    · cases h
    · split at h
      · next h' => cases h; exact Rd.Mild.header _ _ _ h'
      · cases h
      · split at h
        · next h' => exact absurd h' Rd.Mild.from'
        · cases h
        · cases h

theorem decodePacket_mild {env : Env} {st st' : Store} {frame : List UInt8} {e : Err}
    (h : st.decodePacket env frame = (st', .err e)) : e.ends = false := by
  unfold Store.decodePacket at h
  split at h
  · next h' => cases h; exact decodeFrame_mild h'
  · cases h
  · split at h
    · split at h
      · cases h
      · split at h
        · cases h
        · next h' =>
          cases h
          unfold Store.cacheSegment at h'
          simp only at h'
          split at h' <;> cases h'
        · cases h
    · cases h

theorem PKind.encode_mild {env : Env} {k : PKind} {v : PV} {e : Err} : k.encode env v ≠ .err e := by
  cases k <;> cases v <;> simp [PKind.encode, any2uint8, any2uint16, any2uint32, anyStr]

theorem encodeAll_mild {env : Env} {ps : List ParamData} {e : Err} : ParamData.encodeAll env ps ≠ .err e := by
  induction ps generalizing e with
  | nil => simp [ParamData.encodeAll]
  | cons p ps ih =>
    unfold ParamData.encodeAll
    split
    · split
      · simp
      · next h => exact absurd h ih
      · simp
    · exact ih
    · simp

theorem DeviceParams.encode_mild {env : Env} {p : DeviceParams} {e : Err} : p.encode env ≠ .err e := by
  unfold DeviceParams.encode
  split
  · simp
  · next h => exact absurd h encodeAll_mild
  · simp

/-- Encoding never returns an error. -/
theorem Out.encode_mild {env : Env} {o : Out} {e : Err} : Out.encode env o ≠ .err e := by
  unfold Out.encode
  split
  · simp
  · next e' h =>
    exfalso
    obtain ⟨hd, m⟩ := o
    cases m <;> simp only [Msg.encodeBody] at h
    case m0104 m =>
      unfold ParamsMsg.encode at h
      split at h
      · cases h
      · split at h
        · cases h
        · next h' => exact DeviceParams.encode_mild h'
        · cases h
    case m8103 m =>
      unfold SetParams.encode at h
      split at h
      · cases h
      · next h' => exact DeviceParams.encode_mild h'
      · cases h
    all_goals cases h
  · simp

theorem writeGeo_mild {st st' : Store} {p : Str} {g : DeviceGeo} {e : Err} : st.writeGeo p g ≠ (st', .err e) := by
  unfold Store.writeGeo
  simp only
  split
  · simp
  · next h =>
    unfold Ring.write at h
    split at h <;> cases h
  · simp

/-- The messages of a terminal that need a registered device. -/
def Spec.ForRegistered : Msg → Bool
  | .m0002 | .m0003 | .m0102 _ | .m0200 _ => true
  | _ => false

/-- The messages of a platform that need a known device. -/
def Spec.ForKnown : Msg → Bool
  | .m8001 m => m.result = 0
  | .m8100 _ => true
  | _ => false

/-- The errors of a handler. -/
theorem handle_err {env : Env} {clk : Clock} {c : Conn} {st : Store} {h : Header} {m : Msg} {e : Err}
    (he : (st.handle env clk c h m).2 = .err e) (hm : e.ends = true) :
    st.look h.phone = none ∧
      ((Spec.ForRegistered m = true ∧ e = .deviceNotFound) ∨ (Spec.ForKnown m = true ∧ e = .activeClose)) := by
  cases m <;> simp only [Store.handle] at he
  case m0002 =>
    unfold process0002 at he
    split at he
    · next hn => cases he; exact ⟨Store.look_none.2 hn, .inl ⟨rfl, rfl⟩⟩
    · cases he
  case m0003 =>
    unfold process0003 at he
    split at he
    · next hn => cases he; exact ⟨Store.look_none.2 hn, .inl ⟨rfl, rfl⟩⟩
    · cases he
  case m0100 m =>
    unfold process0100 at he
    split at he
    · cases he
    · split at he <;> cases he
  case m0102 m =>
    unfold process0102 at he
    split at he
    · next hn => cases he; exact ⟨Store.look_none.2 hn, .inl ⟨rfl, rfl⟩⟩
    · simp only at he
      split at he <;> cases he
  case m0200 m =>
    unfold process0200 at he
    split at he
    · next hn => cases he; exact ⟨Store.look_none.2 hn, .inl ⟨rfl, rfl⟩⟩
    · simp only at he
      split at he
      · cases he
      · next h' => exact absurd h' writeGeo_mild
      · cases he
  case m8001 m =>
    unfold process8001 at he
    split at he
    · next hr =>
      split at he
      · next hn => cases he; exact ⟨Store.look_none.2 hn, .inr ⟨by simp [Spec.ForKnown, hr], rfl⟩⟩
      · split at he <;> cases he
    · cases he
  case m8100 m =>
    unfold process8100 at he
    split at he
    · next hn => cases he; exact ⟨Store.look_none.2 hn, .inr ⟨rfl, rfl⟩⟩
    · cases he
  case m8104 =>
    unfold process8104 at he
    split at he
    · cases he
    · split at he
      · cases he
      · next h' =>
        cases he
        have := Rd.Mild.params env h.phone 39 _ _ _ h'
        rw [this] at hm; cases hm
      · cases he
  all_goals cases he

/-- And conversely. -/
theorem handle_unknown {env : Env} {clk : Clock} {c : Conn} {st : Store} {h : Header} {m : Msg}
    (hl : st.look h.phone = none) :
    (Spec.ForRegistered m = true → st.handle env clk c h m = (st, .err .deviceNotFound)) ∧
    (Spec.ForKnown m = true → st.handle env clk c h m = (st, .err .activeClose)) := by
  have hn : st.devByPhone h.phone = none := Store.look_none.1 hl
  constructor
  · intro hm
    cases m <;> simp only [Spec.ForRegistered, reduceCtorEq] at hm <;> simp only [Store.handle]
    · simp only [process0002, hn]
    · simp only [process0003, hn]
    · simp only [process0102, hn]
    · simp only [process0200, hn]
  · intro hm
    cases m <;> simp only [Spec.ForKnown, reduceCtorEq] at hm <;> simp only [Store.handle]
    · simp only [decide_eq_true_eq] at hm
      simp only [process8001, hn, hm, if_true]
    · simp only [process8100, hn]

end JT808
