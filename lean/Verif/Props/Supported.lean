import Verif.Props.Replies
import Verif.Props.Serving
import Verif.Props.Handlers
/-
C122: the messages the project says it supports, README.md:34-43.
-/
namespace JT808
open Spec

/-- The terminal's side of the table, README.md:36-43, with the answer from the platform's side that the protocol has for
the message; the two terminal answers (0001, 0104) are not answered. -/
def Spec.supported : List (Nat × Option Nat) :=
  [(0x0001, none), (0x0002, some 0x8001), (0x0003, some 0x8001), (0x0004, some 0x8004), (0x0100, some 0x8100),
   (0x0102, some 0x8001), (0x0104, none), (0x0200, some 0x8001)]

theorem handle_replies {env : Env} {clk : Clock} {c : Conn} {st : Store} (hi : StoreInv st) {h : Header} {m : Msg}
    (hm : m.id = 0x0002 ∨ m.id = 0x0003 ∨ m.id = 0x0100 ∨ m.id = 0x0102 ∨ m.id = 0x0200)
    (hr : m.id ≠ 0x0100 → (st.look h.phone).isSome) :
    ∃ st' f, finish env (st.handle env clk c h m) = (st', .reply f) := by
  have dev : m.id ≠ 0x0100 → ∃ r, st.byPhone.get h.phone = some r := by
    intro hne
    have := hr hne
    unfold Store.look Store.devByPhone at this
    cases hb : st.byPhone.get h.phone with
    | none => rw [hb] at this; cases this
    | some r => exact ⟨r, rfl⟩
  cases m with
  | m0002 =>
    obtain ⟨r, hb⟩ := dev (by decide)
    simp only [Store.handle, process0002, Store.devByPhone, hb]
    exact ⟨_, _, rfl⟩
  | m0003 =>
    obtain ⟨r, hb⟩ := dev (by decide)
    simp only [Store.handle, process0003, Store.devByPhone, hb]
    exact ⟨_, _, rfl⟩
  | m0100 m =>
    simp only [Store.handle, process0100]
    split
    · exact ⟨_, _, rfl⟩
    · split
      · exact ⟨_, _, rfl⟩
      · exact ⟨_, _, rfl⟩
  | m0102 m =>
    obtain ⟨r, hb⟩ := dev (by simp [Msg.id])
    simp only [Store.handle, process0102, Store.devByPhone, hb]
    split
    · exact ⟨_, _, rfl⟩
    · exact ⟨_, _, rfl⟩
  | m0200 m =>
    obtain ⟨r, hb⟩ := dev (by simp [Msg.id])
    obtain ⟨rb, -, -, e⟩ := process0200_eq (clk := clk) hi hb m
    simp only [Store.handle, e]
    exact ⟨_, _, rfl⟩
  | _ => simp [Msg.id] at hm

/-- Every listed message that calls for an answer gets the listed one, whatever state the server is in: registrations
always, everything else when the terminal is registered.  Missing: 0x0004, to which the next two theorems apply, and
phone numbers with a digit F (C29_phone_with_F). -/
theorem C122_answered_partial (env : Env) (clk : Clock) (c : Conn) (st : Store) (hr : Reachable env st) (frame : List UInt8)
    (h : Header) (m : Msg) (hh : Holds env clk.civil frame h m) (a : Nat) (hl : (h.msgID.toNat, some a) ∈ supported)
    (hne : h.msgID.toNat ≠ 0x0004) (hreg : h.msgID.toNat ≠ 0x0100 → (st.look h.phone).isSome)
    (hp : h.phone.length = 2 * h.attr.verDesc.phoneBytes) :
    ∃ st' f pd, st.handleFrame env clk c frame = (st', .reply f) ∧ decodeFrame env f = .ok pd ∧
      pd.header.msgID.toNat = a ∧ pd.header.phone = h.phone ∧ ∃ rest, pd.body.data = word h.serial.toNat ++ rest := by
  have hid := hh.id
  have hm : h.msgID.toNat ∈ [0x0002, 0x0003, 0x0100, 0x0102, 0x0200] := by
    simp only [supported, List.mem_cons, Prod.mk.injEq, List.not_mem_nil, or_false, Option.some.injEq, reduceCtorEq,
      and_false, false_or] at hl
    simp only [List.mem_cons, List.not_mem_nil, or_false]
    omega
  have hm' : m.id = 0x0002 ∨ m.id = 0x0003 ∨ m.id = 0x0100 ∨ m.id = 0x0102 ∨ m.id = 0x0200 := by
    rw [hid]; simpa using hm
  obtain ⟨st', f, e⟩ := handle_replies (env := env) (clk := clk) (c := c) hr.inv (h := h) hm' (by rw [hid]; exact hreg)
  rw [← hh.handle c st] at e
  obtain ⟨pd, h1, h2, h3, -, -, -, -, -, h8, -⟩ := C29_platform_replies_partial env clk c st st' frame f h m hh hm hp e
  have ha : pd.header.msgID.toNat = a := by
    simp only [supported, List.mem_cons, Prod.mk.injEq, List.not_mem_nil, or_false, Option.some.injEq] at hl
    simp only [prescribed, List.mem_cons, Prod.mk.injEq, List.not_mem_nil, or_false] at h2
    omega
  refine ⟨st', f, pd, e, h1, ha, h3, h8 ?_⟩
  rw [ha]
  simp only [supported, List.mem_cons, Prod.mk.injEq, List.not_mem_nil, or_false, Option.some.injEq] at hl
  omega

-- a heartbeat of the registered terminal of the examples
example : (0x0002, some 0x8001) ∈ supported ∧ Holds goEnv (demoClk 2000).civil demoBeat (hdr2013 0x0002) .m0002 ∧
    (demoSys.st.look (hdr2013 0x0002).phone).isSome := ⟨by decide, demoBeat_holds _, by decide +kernel⟩

/-- The listed messages that do not call for an answer get none. -/
theorem C122_unanswered (env : Env) (clk : Clock) (c : Conn) (st : Store) (frame : List UInt8) (h : Header) (m : Msg)
    (hh : Holds env clk.civil frame h m) (hl : (h.msgID.toNat, none) ∈ supported) :
    st.handleFrame env clk c frame = (st, .silent) := by
  refine C29_no_reply_to_replies env clk c st frame h m hh ?_
  simp only [supported, List.mem_cons, Prod.mk.injEq, List.not_mem_nil, or_false, reduceCtorEq, and_false, false_or,
    and_true] at hl
  simp only [List.mem_cons, List.not_mem_nil, or_false]
  omega

-- the acknowledgement of a terminal
example : (0x0001, none) ∈ supported ∧ Holds goEnv (demoClk 0).civil
    (msgFrame (hdr2013 0x0001) (GeneralAck.mk 7 0x8103 0).encode) ((hdr2013 0x0001).withBodyLength 5)
    (.m0001 ⟨7, 0x8103, 0⟩) := ⟨by decide, _, .t0001, _, rfl, rfl, rfl, rfl, rfl⟩

/-- The opposite of C122 for 0x0004: a terminal that asks for the time of the server is not answered, in whatever state
the server is, and nothing is changed. -/
theorem C122_time_ignored (env : Env) (clk : Clock) (c : Conn) (werr : Option Err) (st : Store) (frame : List UInt8)
    (pd : Packet) (hd : decodeFrame env frame = .ok pd) (hf : pd.header.isFragmented = false)
    (hm : pd.header.msgID.toNat = 0x0004) : st.serveFrame env clk c werr frame = (st, ⟨none, false, none⟩) :=
  C27_unknown_id_partial env clk c werr st frame pd hd hf (by rw [hm]; decide)

/-- A 2019 terminal asks for the time. -/
example : ∃ pd, decodeFrame goEnv (msgFrame (hdr2019 0x0004) []) = .ok pd ∧ pd.header.isFragmented = false ∧
    pd.header.msgID.toNat = 0x0004 := ⟨_, rfl, rfl, by decide⟩

/-- The ids of what the server can send: README.md:36-40 without 0x8004, and what the handlers of the simulator, which
the server shares, would send. -/
def sendable : List UInt16 := [0x8001, 0x8100, 0x8103, 0x8104, 0x0001, 0x0102, 0x0104, 0x1205]

theorem sendable_8001 : (0x8001 : UInt16) ∈ sendable := by decide
theorem sendable_8100 : (0x8100 : UInt16) ∈ sendable := by decide
theorem sendable_0102 : (0x0102 : UInt16) ∈ sendable := by decide
theorem sendable_0001 : (0x0001 : UInt16) ∈ sendable := by decide
theorem sendable_0104 : (0x0104 : UInt16) ∈ sendable := by decide
theorem sendable_1205 : (0x1205 : UInt16) ∈ sendable := by decide

macro "can_send" : tactic => `(tactic|
  first
  | exact sendable_8001
  | exact sendable_8100
  | exact sendable_0102
  | exact sendable_0001
  | exact sendable_0104
  | exact sendable_1205)

theorem handle_out_id {env : Env} {clk : Clock} {c : Conn} {st st' : Store} {h : Header} {m : Msg} {o : Out}
    (e : st.handle env clk c h m = (st', .ok (some o))) : o.1.msgID ∈ sendable := by
  cases m with
  | m0001 m => cases e
  | m0002 => 
    simp only [Store.handle, process0002] at e
    split at e <;> cases e; exact sendable_8001
  | m0003 =>
    simp only [Store.handle, process0003] at e
    split at e <;> cases e; can_send
  | m0100 m =>
    simp only [Store.handle, process0100] at e
    split at e
    · cases e; can_send
    · split at e <;> cases e <;> can_send
  | m0102 m =>
    simp only [Store.handle, process0102] at e
    split at e
    · cases e
    · split at e <;> cases e <;> can_send
  | m0104 m => cases e
  | m0200 m =>
    simp only [Store.handle, process0200] at e
    split at e
    · cases e
    · split at e <;> cases e; can_send
  | m1205 m => cases e
  | m8001 m =>
    simp only [Store.handle, process8001] at e
    split at e
    · split at e
      · cases e
      · split at e <;> cases e
    · cases e
  | m8100 m =>
    simp only [Store.handle, process8100] at e
    split at e <;> cases e; can_send
  | m8103 m =>
    simp only [Store.handle, process8103] at e
    cases e; can_send
  | m8104 =>
    simp only [Store.handle, process8104] at e
    split at e
    · cases e; can_send
    · split at e <;> cases e; can_send
  | m9205 m =>
    simp only [Store.handle] at e
    cases e; can_send

theorem process_out_id {env : Env} {clk : Clock} {c : Conn} {st st' : Store} {pkt : Packet} {o : Out}
    (e : st.process env clk c pkt = (st', .ok (some o))) : o.1.msgID ∈ sendable := by
  unfold Store.process at e
  split at e
  · cases e
  · split at e
    · unfold Store.processSegment at e
      split at e
      · cases e
      · simp only at e
        split at e
        · cases e
        · cases e; can_send
    · split at e
      · cases e
      · cases e
      · exact handle_out_id e

theorem apiSend_out {env : Env} {werr : Option Err} {st : Store} {r : Ref} {code : Option Nat} {id : UInt16} {m : Msg}
    {c : Conn} {f : List UInt8} (h : (st.apiSend env werr r code id m).2.sent = some (c, f)) :
    ∃ o : Out, Out.encode env o = .ok f ∧ o.1.msgID = id := by
  unfold Store.apiSend at h
  simp only at h
  split at h
  · cases h
  · unfold Store.serverSend at h
    split at h
    all_goals rename_i h1
    · split at h1
      · injection h1 with _ h1; injection h1 with h1; subst h1; cases h
      · split at h1
        · cases h1
        · injection h1 with _ h1; injection h1 with h1; subst h1; cases h
        · rename_i hf
          split at h1
          · injection h1 with _ h1; injection h1 with h1; subst h1
            injection h with h; injection h with _ h; subst h
            exact ⟨_, hf, rfl⟩
          · injection h1 with _ h1; injection h1 with h1; subst h1; cases h
          · injection h1 with _ h1; injection h1 with h1; subst h1; cases h
    · cases h
    · cases h

theorem step_out_id {env : Env} {s : Sys} {e : Ev} {c : Conn} {f : List UInt8}
    (h : (s.step env e).2.sent = some (c, f)) : ∃ o : Out, Out.encode env o = .ok f ∧ o.1.msgID ∈ sendable := by
  unfold Sys.step at h
  split at h
  · cases h
  · cases e with
    | accept a => cases h
    | frame clk c' b werr =>
      simp only at h
      split at h
      · obtain ⟨-, -, -, st1, pkt, st2, o, -, e, ho, -⟩ := C30_reply_only_on_success env clk c' c werr s.st b f h
        exact ⟨o, ho, process_out_id e⟩
      · cases h
    | readErr c' e =>
      simp only at h
      split at h
      · rw [serveErr_sent] at h; cases h
      · cases h
    | check clk p =>
      simp only at h
      split at h <;> cases h
    | httpList => cases h
    | httpGeo p => cases h
    | httpQuery p werr =>
      simp only [Store.apiQuery] at h
      split at h
      · cases h
      · obtain ⟨o, ho, e⟩ := apiSend_out h
        exact ⟨o, ho, by rw [e]; decide⟩
    | httpSet p b bad werr =>
      simp only [Store.apiSet] at h
      split at h
      · cases h
      · obtain ⟨o, ho, e⟩ := apiSend_out h
        exact ⟨o, ho, by rw [e]; decide⟩

/-- Whatever a header holds, its message id comes first. -/
theorem encode_id (h : Header) : ∃ rest, h.encode = put16 h.msgID ++ rest := by
  unfold Header.encode
  simp only [writeWord, writeByte, writeBCD, List.nil_append, List.append_assoc]
  cases h.frag with
  | none =>
    simp only
    split
    · exact ⟨_, by simp [List.append_assoc]; rfl⟩
    · exact ⟨_, by simp [List.append_assoc]; rfl⟩
  | some f =>
    simp only
    split
    · exact ⟨_, by simp [List.append_assoc]; rfl⟩
    · exact ⟨_, by simp [List.append_assoc]; rfl⟩

theorem out_id {env : Env} {o : Out} {f : List UInt8} {pd : Packet} (h : Out.encode env o = .ok f)
    (hd : decodeFrame env f = .ok pd) : pd.header.msgID = o.1.msgID := by
  unfold Out.encode at h
  split at h
  · next body _ =>
    injection h with h; subst h
    obtain ⟨rest, hr⟩ := encode_id (o.1.withBodyLength body.length)
    rw [encodeFrame, escape_eq, decodeFrame_frameOf, writeHeader, hr] at hd
    split at hd
    · cases hd
    · cases hd
    · next pkt hv =>
      obtain ⟨-, -, c, hp, -⟩ := (verify_ok_iff _ _).1 hv
      simp only [genVerifier] at hp
      obtain ⟨hp, -⟩ := List.append_inj' hp rfl
      split at hd
      · cases hd
      · cases hd
      · next hh idx he =>
        have hid : hh.msgID = o.1.msgID := by
          have hs : pkt = ⟨put16 o.1.msgID ++ (rest ++ body), pkt.slack⟩ := by
            cases pkt with
            | mk d s => simp only [Slice.mk.injEq, and_true]; rw [← List.append_assoc]; exact hp.symm
          rw [(Header.decode_inv he).1, hs]
          simp [Slice.mem, put16, put16_be16]
        split at hd
        · cases hd
        · cases hd
        · injection hd with hd; subst hd; exact hid
  · cases h
  · cases h

/-- Nor is the answer, 0x8004, ever sent: in no history is there a frame on the wire that reads as one. -/
theorem C122_time_never_sent (env : Env) (evs : List Ev) (c : Conn) (f : List UInt8)
    (hs : (c, f) ∈ sentOf (Sys.start.run env evs).2) (pd : Packet) (hd : decodeFrame env f = .ok pd) :
    pd.header.msgID.toNat ≠ 0x8004 := by
  have key : ∃ o : Out, Out.encode env o = .ok f ∧ o.1.msgID ∈ sendable := by
    revert hs
    generalize Sys.start = s
    induction evs generalizing s with
    | nil => intro hs; cases hs
    | cons e evs ih =>
      intro hs
      simp only [sentOf, Sys.run, List.filterMap_cons] at hs
      split at hs
      · exact ih _ hs
      · next x hx =>
        rcases List.mem_cons.1 hs with rfl | hs
        · exact step_out_id hx
        · exact ih _ hs
  obtain ⟨o, ho, hm⟩ := key
  rw [out_id ho hd]
  simp only [sendable, List.mem_cons, List.not_mem_nil, or_false] at hm
  rcases hm with h | h | h | h | h | h | h | h <;> rw [h] <;> decide

-- the history of the examples: the server has sent a frame, and it reads as the answer to the registration
example : ((sentOf (Sys.start.run goEnv demoEvs).2).map fun x => match decodeFrame goEnv x.2 with
    | .ok pd => pd.header.msgID.toNat
    | _ => 0) = [0x8100] := by decide +kernel

end JT808
