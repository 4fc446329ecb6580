import Verif.Proof.Errors
import Verif.Props.Panics
/-
Messages with additional data at their end (for C131).
-/
namespace JT808
open Spec

/-- A reader that returns no error. -/
def Rd.NoErr {α : Type} (r : Rd α) : Prop := ∀ s i e, r s i ≠ .err e

namespace Rd.NoErr

theorem pure {α : Type} (a : α) : Rd.NoErr (Pure.pure a : Rd α) := fun _ _ _ h => nomatch h

theorem bind {α β : Type} {r : Rd α} {f : α → Rd β} (hr : r.NoErr) (hf : ∀ a, (f a).NoErr) : Rd.NoErr (r >>= f) := by
  intro s i e h
  change Rd.bind r f s i = _ at h
  unfold Rd.bind at h
  split at h
  · exact hf _ _ _ _ h
  · next e' h' => exact hr _ _ _ h'
  · cases h

theorem panic {α : Type} : Rd.NoErr (Rd.panic : Rd α) := fun _ _ _ h => nomatch h

theorem byte : Rd.NoErr readByte := by
  intro s i e h
  unfold readByte at h
  split at h
  · cases h
  · next h' => exact absurd h' Rd.Mild.index
  · cases h

theorem bytes (n : Int) : Rd.NoErr (readBytes n) := by
  intro s i e h
  unfold readBytes at h
  split at h
  · cases h
  · next h' => exact absurd h' Rd.Mild.sub
  · cases h

theorem onRest {α : Type} {r : Rd α} (hr : r.NoErr) : Rd.NoErr (Rd.onRest r) := by
  intro s i e h
  unfold Rd.onRest at h
  split at h
  · split at h
    · cases h
    · next h' => exact hr _ _ _ h'
    · cases h
  · next h' => exact absurd h' Rd.Mild.from'
  · cases h

theorem word : Rd.NoErr readWord := by
  refine .bind (.bytes _) fun bs => ?_
  split
  · exact .pure _
  · exact .panic

theorem dword : Rd.NoErr readDWord := by
  refine .bind (.bytes _) fun bs => ?_
  split
  · exact .pure _
  · exact .panic

theorem bcd (n : Int) : Rd.NoErr (readBCD n) := .bind (.bytes _) fun _ => .pure _

theorem gbk (env : Env) (n : Int) : Rd.NoErr (readGBK env n) := by
  refine .bind (.bytes _) fun bs => ?_
  split <;> exact .pure _

theorem time (now : Civil) : Rd.NoErr (readTime now) := .bind (.bcd _) fun _ => .pure _

theorem kind (env : Env) (k : PKind) (n : Nat) : Rd.NoErr (k.decode env n) := by
  cases k
  · exact .bind .byte fun _ => .pure _
  · exact .bind .word fun _ => .pure _
  · exact .bind .dword fun _ => .pure _
  · exact .bind (.bcd _) fun _ => .pure _
  · exact .bind (.bytes _) fun _ => .pure _
  · exact .bind (.gbk _ _) fun _ => .pure _

theorem param (env : Env) : Rd.NoErr (ParamData.decode env) := by
  refine .bind .dword fun _ => .bind .byte fun _ => .bind ?_ fun _ => .pure _
  unfold ParamData.decodeValue
  split
  · exact .kind _ _ _
  · exact .panic

theorem params (env : Env) (phone : Str) (n : UInt8) : Rd.NoErr (DeviceParams.decode env phone n) := by
  refine .bind ?_ fun _ => .pure _
  generalize n.toNat = k
  induction k with
  | zero => exact .pure _
  | succ k ih => exact .bind (.param env) fun _ => .bind ih fun _ => .pure _

theorem query (now : Civil) : Rd.NoErr (MediaQuery.decode now) :=
  .bind .byte fun _ => .bind (.time _) fun _ => .bind (.time _) fun _ => .bind .dword fun _ => .bind .dword fun _ =>
    .bind .byte fun _ => .bind .byte fun _ => .bind .byte fun _ => .pure _

end Rd.NoErr

/-- Only a registration of the 2011 layout is an error: every other decoder returns a message or panics. -/
theorem decode_noErr (env : Env) (now : Civil) (h : Header) (t : MType) (ht : t ≠ .t0100) : Rd.NoErr (t.decode env now h) := by
  cases t with
  | t0001 => exact .bind (.bind .word fun _ => .bind .word fun _ => .bind .byte fun _ => .pure _) fun _ => .pure _
  | t0002 => exact .pure _
  | t0003 => exact .pure _
  | t0100 => exact absurd rfl ht
  | t0102 =>
    refine .bind ?_ fun _ => .pure _
    unfold AuthMsg.decode
    split
    · exact .bind (.bytes _) fun _ => .pure _
    · exact .bind .byte fun _ => .bind (.bytes _) fun _ => .bind (.bytes _) fun _ => .bind (.bytes _) fun _ => .pure _
    · exact .pure _
  | t0104 =>
    exact .bind (.bind .word fun _ => .bind .byte fun _ => .bind (.onRest (.params _ _ _)) fun _ => .pure _) fun _ => .pure _
  | t0200 =>
    exact .bind (.bind .dword fun _ => .bind .dword fun _ => .bind .dword fun _ => .bind .dword fun _ => .bind .word fun _ =>
      .bind .word fun _ => .bind .word fun _ => .bind (.bcd _) fun _ => .pure _) fun _ => .pure _
  | t1205 =>
    exact .bind (.bind .word fun _ => .bind .dword fun _ => .bind (.onRest (.bind (.query _) fun _ => .bind .dword fun _ =>
      .pure _)) fun _ => .pure _) fun _ => .pure _
  | t8001 => exact .bind (.bind .word fun _ => .bind .word fun _ => .bind .byte fun _ => .pure _) fun _ => .pure _
  | t8100 =>
    exact .bind (.bind .word fun _ => .bind .byte fun _ => .bind (fun _ _ _ h => nomatch h) fun _ => .bind (.bytes _) fun _ =>
      .pure _) fun _ => .pure _
  | t8103 => exact .bind (.bind .byte fun _ => .bind (.onRest (.params _ _ _)) fun _ => .pure _) fun _ => .pure _
  | t8104 => exact .pure _
  | t9205 => exact .bind (.query _) fun _ => .pure _

/-- The outgoing message with another body length in its header. -/
def relen (n : Nat) : Store × Res (Option Out) → Store × Res (Option Out)
  | (st, .ok (some o)) => (st, .ok (some (o.1.withBodyLength n, o.2)))
  | x => x

theorem finish_relen (env : Env) (n : Nat) (x : Store × Res (Option Out)) : finish env (relen n x) = finish env x := by
  obtain ⟨st, r⟩ := x
  cases r with
  | err e => rfl
  | panic => rfl
  | ok o =>
    cases o with
    | none => rfl
    | some o =>
      have : Out.encode env (o.1.withBodyLength n, o.2) = Out.encode env o := by
        obtain ⟨h, m⟩ := o
        have e1 : m.encodeBody env (h.withBodyLength n) = m.encodeBody env h := by cases m <;> rfl
        unfold Out.encode
        dsimp only
        rw [e1]
        rfl
      simp only [relen, finish, this]

/-- The handlers do not look at the body length in the header. -/
theorem handle_relen (env : Env) (clk : Clock) (c : Conn) (st : Store) (h : Header) (m : Msg) (n : Nat) :
    st.handle env clk c (h.withBodyLength n) m = relen n (st.handle env clk c h m) := by
  have hp : (h.withBodyLength n).phone = h.phone := rfl
  cases m with
  | m0001 m => rfl
  | m0104 m => rfl
  | m1205 m => rfl
  | m9205 m => rfl
  | m0002 => simp only [Store.handle, process0002, hp]; cases st.devByPhone h.phone <;> rfl
  | m0003 => simp only [Store.handle, process0003, hp]; cases st.devByPhone h.phone <;> rfl
  | m0100 m =>
    simp only [Store.handle, process0100, hp]
    split
    · rfl
    · split <;> rfl
  | m0102 m =>
    simp only [Store.handle, process0102, hp]
    cases st.devByPhone h.phone with
    | none => rfl
    | some r => dsimp only; split <;> rfl
  | m0200 m =>
    simp only [Store.handle, process0200, hp]
    cases st.devByPhone h.phone with
    | none => rfl
    | some r =>
      dsimp only
      generalize (if (DeviceGeo.decode clk.civil (st.heap r).phone m).geo.acc = 0 then
        (st.setDev r ((st.heap r).asleep clk)).cacheDevice r else st) = st1
      cases st1.writeGeo (st1.heap r).phone (DeviceGeo.decode clk.civil (st.heap r).phone m) with
      | mk st2 res => cases res <;> rfl
  | m8001 m =>
    simp only [Store.handle, process8001, hp]
    split
    · cases st.devByPhone h.phone with
      | none => rfl
      | some r => dsimp only; split <;> rfl
    · rfl
  | m8100 m => simp only [Store.handle, process8100, hp]; cases st.devByPhone h.phone <;> rfl
  | m8103 m => rfl
  | m8104 =>
    simp only [Store.handle, process8104, hp]
    cases st.paramsOf h.phone with
    | some p => rfl
    | none => dsimp only; cases fixedDecode env h.phone <;> rfl

end JT808
