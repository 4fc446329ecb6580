import Verif.Proof.Effects
import Verif.Props.Messages
import Verif.Spec.Observe
/-
Handling a frame that holds a message, in terms of the message.
-/
namespace JT808
open Spec

/-- Encoding of what a handler returned. -/
def finish (env : Env) : Store × Res (Option Out) → Store × Outcome
  | (st, .err e) => (st, .failed e)
  | (st, .panic) => (st, .panicked)
  | (st, .ok none) => (st, .silent)
  | (st, .ok (some o)) =>
    match Out.encode env o with
    | .ok f => (st, .reply f)
    | .err e => (st, .failed e)
    | .panic => (st, .panicked)

theorem decodePacket_unfrag {env : Env} {st : Store} {frame : List UInt8} {pd : Packet}
    (h : decodeFrame env frame = .ok pd) (hf : pd.header.isFragmented = false) :
    st.decodePacket env frame = (st, .ok pd) := by
  unfold Store.decodePacket
  rw [h]; simp [hf]

theorem handleFrame_packet {env : Env} {clk : Clock} {c : Conn} {st : Store} {frame : List UInt8} {pd : Packet}
    (h : decodeFrame env frame = .ok pd) (hf : pd.header.isFragmented = false) :
    st.handleFrame env clk c frame = finish env (st.process env clk c pd) := by
  unfold Store.handleFrame
  rw [decodePacket_unfrag h hf]
  simp only
  cases st.process env clk c pd with
  | mk st' r =>
    cases r with
    | err e => rfl
    | panic => rfl
    | ok o =>
      cases o with
      | none => rfl
      | some o => simp only [finish]; cases Out.encode env o <;> rfl

theorem Holds.handle {env : Env} {clk : Clock} {frame : List UInt8} {h : Header} {m : Msg}
    (hh : Holds env clk.civil frame h m) (c : Conn) (st : Store) :
    st.handleFrame env clk c frame = finish env (st.handle env clk c h m) := by
  obtain ⟨pd, t, j, e1, e2, e3, e4, e5⟩ := hh
  subst e2
  rw [handleFrame_packet e1 e3]
  unfold Store.process
  rw [e4]
  simp only [e3, Bool.false_and, Bool.false_eq_true, if_false, e5]

theorem ackEncode (s i : UInt16) (r : UInt8) :
    (GeneralAck.mk s i r).encode = ackBody s.toNat i.toNat r.toNat := by
  simp [GeneralAck.encode, writeWord, writeByte, ackBody, put16_word]

theorem registerAckEncode (s : UInt16) (r : UInt8) (code : Str) :
    (RegisterAck.mk s r code).encode = registerAckBody s.toNat r.toNat code := by
  simp [RegisterAck.encode, writeWord, writeByte, writeString, writeBytes, registerAckBody, put16_word]

theorem finish_gen8001 (env : Env) (st : Store) (h : Header) (r : UInt8) :
    finish env (st, .ok (some (gen8001 h r))) = (st, .reply (generalReply h r.toNat)) := by
  simp only [finish, gen8001, Out.encode, Msg.encodeBody, ackEncode]
  rfl

theorem finish_gen8100 (env : Env) (st : Store) (h : Header) (r : UInt8) (code : Str) :
    finish env (st, .ok (some (gen8100 h r code))) = (st, .reply (registerReply h r.toNat code)) := by
  simp only [finish, gen8100, Out.encode, Msg.encodeBody, registerAckEncode]
  rfl

theorem finish_gen0001 (env : Env) (st : Store) (h : Header) :
    finish env (st, .ok (some (gen0001 h))) =
      (st, .reply (answer h 0x0001 (ackBody h.serial.toNat h.msgID.toNat 0))) := by
  simp only [finish, gen0001, Out.encode, Msg.encodeBody, ackEncode]
  rfl

theorem Store.look_some {st : Store} {p : Str} {d : Device} :
    st.look p = some d ↔ ∃ r, st.byPhone.get p = some r ∧ st.heap r = d := by
  unfold Store.look Store.devByPhone
  simp

theorem Store.lookPlate_some {st : Store} {p : Str} {d : Device} :
    st.lookPlate p = some d ↔ ∃ r, st.byPlate.get p = some r ∧ st.heap r = d := by
  unfold Store.lookPlate Store.devByPlate
  simp

theorem Store.look_none {st : Store} {p : Str} : st.look p = none ↔ st.byPhone.get p = none := by
  unfold Store.look Store.devByPhone
  simp

theorem Store.lookPlate_none {st : Store} {p : Str} : st.lookPlate p = none ↔ st.byPlate.get p = none := by
  unfold Store.lookPlate Store.devByPlate
  simp

/-- Lookups after a change of one registered device. -/
theorem look_setDev {st : Store} (h : StoreInv st) {p : Str} {r : Ref} (hr : st.byPhone.get p = some r) (d : Device)
    (p' : Str) : (st.setDev r d).look p' = if p' = p then some d else st.look p' := by
  by_cases hp : p' = p
  · subst hp
    rw [if_pos rfl, Store.look_some]
    exact ⟨r, hr, Store.setDev_heap_self _ _ _⟩
  · rw [if_neg hp]
    unfold Store.look Store.devByPhone
    cases hx : st.byPhone.get p' with
    | none =>
      have : (st.setDev r d).byPhone.get p' = none := hx
      rw [this]; rfl
    | some x =>
      have : (st.setDev r d).byPhone.get p' = some x := hx
      rw [this]
      simp only [Option.map_some]
      rw [Store.setDev_heap_ne]
      intro hxr; subst hxr
      have a := (h.phoneOK _ _ hx).2.1
      have b := (h.phoneOK _ _ hr).2.1
      rw [a] at b; exact hp b

theorem lookPlate_setDev {st : Store} (h : StoreInv st) {p : Str} {r : Ref} (hr : st.byPhone.get p = some r) (d : Device)
    (q : Str) : (st.setDev r d).lookPlate q = if q = (st.heap r).plate then some d else st.lookPlate q := by
  have hq := (h.phoneOK _ _ hr).2.2
  by_cases hp : q = (st.heap r).plate
  · subst hp
    rw [if_pos rfl, Store.lookPlate_some]
    exact ⟨r, hq, Store.setDev_heap_self _ _ _⟩
  · rw [if_neg hp]
    unfold Store.lookPlate Store.devByPlate
    cases hx : st.byPlate.get q with
    | none =>
      have : (st.setDev r d).byPlate.get q = none := hx
      rw [this]; rfl
    | some x =>
      have : (st.setDev r d).byPlate.get q = some x := hx
      rw [this]
      simp only [Option.map_some]
      rw [Store.setDev_heap_ne]
      intro hxr; subst hxr
      exact hp (h.plateOK _ _ hx).2.1.symm

/-- Lookups after the removal of a registered device. -/
theorem look_drop {st : Store} (h : StoreInv st) {p : Str} {r : Ref} (hr : st.byPhone.get p = some r) (p' : Str) :
    ((st.cancelJob p).delByPhone p).look p' = if p' = p then none else st.look p' := by
  rw [Store.delByPhone_eq (st := st.cancelJob p) hr (h.phoneOK _ _ hr).2.1]
  unfold Store.look Store.devByPhone
  simp only [AMap.get_del, Store.cancelJob]
  by_cases hp : p' = p <;> simp [hp]

theorem lookPlate_drop {st : Store} (h : StoreInv st) {p : Str} {r : Ref} (hr : st.byPhone.get p = some r) (q : Str) :
    ((st.cancelJob p).delByPhone p).lookPlate q = if q = (st.heap r).plate then none else st.lookPlate q := by
  rw [Store.delByPhone_eq (st := st.cancelJob p) hr (h.phoneOK _ _ hr).2.1]
  unfold Store.lookPlate Store.devByPlate
  simp only [AMap.get_del, Store.cancelJob]
  by_cases hp : q = (st.heap r).plate <;> simp [hp]

/-- Lookups after a registration. -/
theorem look_register {st : Store} (h : StoreInv st) (d : Device) (p' : Str) :
    (st.register d).look p' = if p' = d.phone then some d else st.look p' := by
  unfold Store.look Store.devByPhone Store.register
  simp only [AMap.get_set]
  by_cases hp : p' = d.phone
  · simp [hp]
  · simp only [hp, if_false]
    cases hx : st.byPhone.get p' with
    | none => rfl
    | some x =>
      have : x ≠ st.next := Nat.ne_of_lt (h.phoneOK _ _ hx).1
      simp [this]

theorem lookPlate_register {st : Store} (h : StoreInv st) (d : Device) (q : Str) :
    (st.register d).lookPlate q = if q = d.plate then some d else st.lookPlate q := by
  unfold Store.lookPlate Store.devByPlate Store.register
  simp only [AMap.get_set]
  by_cases hp : q = d.plate
  · simp [hp]
  · simp only [hp, if_false]
    cases hx : st.byPlate.get q with
    | none => rfl
    | some x =>
      have : x ≠ st.next := Nat.ne_of_lt (h.plateOK _ _ hx).1
      simp [this]

/-- States a server can get into. -/
def Reachable (env : Env) (st : Store) : Prop := ∃ evs, st = (Sys.start.run env evs).1.st

theorem Reachable.inv {env : Env} {st : Store} (h : Reachable env st) : StoreInv st := by
  obtain ⟨evs, rfl⟩ := h
  exact (reachable_inv env evs).1

end JT808
