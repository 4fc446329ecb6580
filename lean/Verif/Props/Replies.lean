import Verif.Proof.Types
import Verif.Proof.Decimal
import Verif.Props.Handlers
/-
C29: replies answer their requests.  C59: authorisation codes.
-/
namespace JT808
open Spec

/-! ## C29 replies -/

/-- The id of the reply that the protocol prescribes for a request. -/
def prescribed : List (Nat × Nat) :=
  [(0x0002, 0x8001), (0x0003, 0x8001), (0x0102, 0x8001), (0x0200, 0x8001), (0x0100, 0x8100), (0x8100, 0x0102),
   (0x8103, 0x0001), (0x8104, 0x0104), (0x9205, 0x1205)]

/-- `f` is a frame that the sender of a request with header `h` decodes to the answer of that request: the prescribed
id; phone, layout, protocol version and serial number of the request; the serial number of the request at the start of
the body (except in 0x0102, which has no such field); and in general replies the id of the request. -/
def Answers (env : Env) (h : Header) (f : List UInt8) : Prop :=
  ∃ pd, decodeFrame env f = .ok pd ∧ (h.msgID.toNat, pd.header.msgID.toNat) ∈ prescribed ∧
    pd.header.phone = h.phone ∧ pd.header.attr.verDesc = h.attr.verDesc ∧ pd.header.protoVer = h.protoVer ∧
    pd.header.serial = h.serial ∧ pd.header.frag = none ∧ pd.header.attr.bodyLength.toNat = pd.body.data.length ∧
    (pd.header.msgID.toNat ≠ 0x0102 → ∃ rest, pd.body.data = word h.serial.toNat ++ rest) ∧
    (pd.header.msgID.toNat = 0x8001 ∨ pd.header.msgID.toNat = 0x0001 →
      ∃ r, pd.body.data = ackBody h.serial.toNat h.msgID.toNat r)

theorem answers_of {env : Env} {h : Header} (hw : h.WF) (hn : h.isFragmented = false) (id : UInt16) (body : List UInt8)
    (hb : body.length ≤ 1023) (hp : (h.msgID.toNat, id.toNat) ∈ prescribed)
    (h1 : id.toNat ≠ 0x0102 → ∃ rest, body = word h.serial.toNat ++ rest)
    (h2 : id.toNat = 0x8001 ∨ id.toNat = 0x0001 → ∃ r, body = ackBody h.serial.toNat h.msgID.toNat r) :
    Answers env h (answer h id body) := by
  have hw' : Header.WF { h with msgID := id } := ⟨hw.attr, hw.phone, hw.pv, hw.frag⟩
  obtain ⟨slack, e⟩ := decodeFrame_encodeFrame env (Header.withBodyLength_wf hw' body.length (by omega)) body
  refine ⟨_, e, hp, rfl, rfl, rfl, rfl, ?_, ?_, h1, h2⟩
  · have hf := hw.frag
    have : h.attr.fragDesc = false := by
      rw [hw.attr.fragD]
      exact hn
    rw [this] at hf
    show h.frag = none
    cases hx : h.frag with
    | none => rfl
    | some f => rw [hx] at hf; cases hf
  · show (UInt16.ofNat body.length).toNat = body.length
    rw [UInt16.toNat_ofNat']; omega

theorem Holds.unfragmented {env : Env} {now : Civil} {frame : List UInt8} {h : Header} {m : Msg}
    (hh : Holds env now frame h m) : h.isFragmented = false := by
  obtain ⟨pd, t, j, -, -, e, -⟩ := hh
  exact e

theorem code_length (d : Device) : d.code.length ≤ 10 :=
  decimal_length (Nat.lt_trans (fnv32_lt _) (by decide)) (by decide)

/-- What the terminal-facing handlers return if they return a message. -/
theorem handle_server_out {env : Env} {clk : Clock} {c : Conn} {st st' : Store} {h : Header} {m : Msg} {o : Out}
    (hm : m.id = 0x0002 ∨ m.id = 0x0003 ∨ m.id = 0x0100 ∨ m.id = 0x0102 ∨ m.id = 0x0200)
    (e : st.handle env clk c h m = (st', .ok (some o))) :
    (m.id ≠ 0x0100 ∧ ∃ r, o = gen8001 h r) ∨ (m.id = 0x0100 ∧ ∃ r code, o = gen8100 h r code ∧ code.length ≤ 10) := by
  cases m with
  | m0002 =>
    left
    refine ⟨by decide, ?_⟩
    simp only [Store.handle, process0002] at e
    split at e
    · cases e
    · cases e; exact ⟨_, rfl⟩
  | m0003 =>
    left
    refine ⟨by decide, ?_⟩
    simp only [Store.handle, process0003] at e
    split at e
    · cases e
    · cases e; exact ⟨_, rfl⟩
  | m0100 m =>
    right
    refine ⟨rfl, ?_⟩
    simp only [Store.handle, process0100] at e
    split at e
    · cases e; exact ⟨_, _, rfl, by decide⟩
    · split at e
      · cases e; exact ⟨_, _, rfl, by decide⟩
      · cases e; exact ⟨_, _, rfl, code_length _⟩
  | m0102 m =>
    left
    refine ⟨by simp [Msg.id], ?_⟩
    simp only [Store.handle, process0102] at e
    split at e
    · cases e
    · split at e
      · cases e; exact ⟨_, rfl⟩
      · cases e; exact ⟨_, rfl⟩
  | m0200 m =>
    left
    refine ⟨by simp [Msg.id], ?_⟩
    simp only [Store.handle, process0200] at e
    split at e
    · cases e
    · split at e
      · cases e; exact ⟨_, rfl⟩
      · cases e
      · cases e
  | m0001 m => simp [Msg.id] at hm
  | m0104 m => simp [Msg.id] at hm
  | m1205 m => simp [Msg.id] at hm
  | m8001 m => simp [Msg.id] at hm
  | m8100 m => simp [Msg.id] at hm
  | m8103 m => simp [Msg.id] at hm
  | m8104 => simp [Msg.id] at hm
  | m9205 m => simp [Msg.id] at hm

theorem finish_reply {env : Env} {x : Store × Res (Option Out)} {st' : Store} {f : List UInt8}
    (e : finish env x = (st', .reply f)) : ∃ o, x = (st', .ok (some o)) ∧ Out.encode env o = .ok f := by
  obtain ⟨s, r⟩ := x
  cases r with
  | err e' => cases e
  | panic => cases e
  | ok oo =>
    cases oo with
    | none => cases e
    | some o =>
      simp only [finish] at e
      cases he : Out.encode env o with
      | ok f' => rw [he] at e; cases e; exact ⟨o, rfl, he⟩
      | err e' => rw [he] at e; cases e
      | panic => rw [he] at e; cases e

/-- Messages from terminals to the platform: every reply answers its request, in whatever state the server is, if the
phone number fills its field (a number with a hexadecimal digit F does not; next theorem but one). -/
theorem C29_platform_replies_partial (env : Env) (clk : Clock) (c : Conn) (st st' : Store) (frame f : List UInt8)
    (h : Header) (m : Msg) (hh : Holds env clk.civil frame h m)
    (hm : h.msgID.toNat ∈ [0x0002, 0x0003, 0x0100, 0x0102, 0x0200])
    (hp : h.phone.length = 2 * h.attr.verDesc.phoneBytes)
    (e : st.handleFrame env clk c frame = (st', .reply f)) : Answers env h f := by
  have hid := hh.id
  have hw := hh.wf hp
  have hn := hh.unfragmented
  rw [hh.handle] at e
  obtain ⟨o, e1, e2⟩ := finish_reply e
  have hm' : m.id = 0x0002 ∨ m.id = 0x0003 ∨ m.id = 0x0100 ∨ m.id = 0x0102 ∨ m.id = 0x0200 := by
    rw [hid]; simpa using hm
  rcases handle_server_out hm' e1 with ⟨hne, r, rfl⟩ | ⟨heq, r, code, rfl, hl⟩
  · have : f = answer h 0x8001 (ackBody h.serial.toNat h.msgID.toNat r.toNat) := by
      simp only [gen8001, Out.encode, Msg.encodeBody, ackEncode] at e2
      cases e2; rfl
    subst this
    refine answers_of hw hn _ _ (by simp [ackBody, word]) ?_ (fun _ => ⟨_, by rw [ackBody, List.append_assoc]⟩)
      (fun _ => ⟨_, rfl⟩)
    rw [← hid]
    rcases hm' with h' | h' | h' | h' | h'
    · rw [h']; decide
    · rw [h']; decide
    · exact absurd h' hne
    · rw [h']; decide
    · rw [h']; decide
  · have : f = answer h 0x8100 (registerAckBody h.serial.toNat r.toNat code) := by
      simp only [gen8100, Out.encode, Msg.encodeBody, registerAckEncode] at e2
      cases e2; rfl
    subst this
    refine answers_of hw hn _ _ (by simp [registerAckBody, word]; omega) ?_
      (fun _ => ⟨_, by rw [registerAckBody, List.append_assoc]⟩) ?_
    · rw [← hid, heq]; decide
    · intro hx; rcases hx with hx | hx <;> exact absurd hx (by decide)

/-- What the simulator-facing handlers return if they return a message. -/
theorem handle_terminal_out {env : Env} {clk : Clock} {c : Conn} {st st' : Store} {h : Header} {m : Msg} {o : Out}
    (hm : m.id = 0x8001 ∨ m.id = 0x8100 ∨ m.id = 0x8103 ∨ m.id = 0x8104 ∨ m.id = 0x9205)
    (e : st.handle env clk c h m = (st', .ok (some o))) :
    (m.id = 0x8100 ∧ ∃ m' i s, o = gen0102 h m' i s) ∨ (m.id = 0x8103 ∧ o = gen0001 h) ∨
      (m.id = 0x8104 ∧ ∃ p, o = gen0104 h p) ∨ (m.id = 0x9205 ∧ ∃ q, o = gen1205 h q) := by
  cases m with
  | m8001 m =>
    simp only [Store.handle, process8001] at e
    split at e
    · split at e
      · cases e
      · split at e <;> cases e
    · cases e
  | m8100 m =>
    left
    refine ⟨rfl, ?_⟩
    simp only [Store.handle, process8100] at e
    split at e
    · cases e
    · cases e; exact ⟨_, _, _, rfl⟩
  | m8103 m =>
    right; left
    simp only [Store.handle, process8103] at e
    cases e
    exact ⟨rfl, rfl⟩
  | m8104 =>
    right; right; left
    refine ⟨rfl, ?_⟩
    simp only [Store.handle, process8104] at e
    split at e
    · cases e; exact ⟨_, rfl⟩
    · split at e
      · cases e; exact ⟨_, rfl⟩
      · cases e
      · cases e
  | m9205 m =>
    right; right; right
    simp only [Store.handle] at e
    cases e
    exact ⟨rfl, _, rfl⟩
  | m0001 m => simp [Msg.id] at hm
  | m0002 => simp [Msg.id] at hm
  | m0003 => simp [Msg.id] at hm
  | m0100 m => simp [Msg.id] at hm
  | m0102 m => simp [Msg.id] at hm
  | m0104 m => simp [Msg.id] at hm
  | m0200 m => simp [Msg.id] at hm
  | m1205 m => simp [Msg.id] at hm

/-- Messages from the platform to terminals, as the same processor answers them in the simulator: every reply whose
body fits into a message answers its request.  Missing: longer bodies (a parameter list of more than 1023 bytes does
not fit; C18_overlong_body) and phone numbers with a digit F. -/
theorem C29_terminal_replies_partial (env : Env) (clk : Clock) (c : Conn) (st st' : Store) (frame f : List UInt8)
    (h : Header) (m : Msg) (hh : Holds env clk.civil frame h m)
    (hm : h.msgID.toNat ∈ [0x8001, 0x8100, 0x8103, 0x8104, 0x9205])
    (hp : h.phone.length = 2 * h.attr.verDesc.phoneBytes)
    (e : st.handleFrame env clk c frame = (st', .reply f)) :
    ∃ id body, f = answer h id body ∧ (h.msgID.toNat, id.toNat) ∈ prescribed ∧
      (body.length ≤ 1023 → Answers env h f) := by
  have hid := hh.id
  have hw := hh.wf hp
  have hn := hh.unfragmented
  rw [hh.handle] at e
  obtain ⟨o, e1, e2⟩ := finish_reply e
  have hm' : m.id = 0x8001 ∨ m.id = 0x8100 ∨ m.id = 0x8103 ∨ m.id = 0x8104 ∨ m.id = 0x9205 := by
    rw [hid]; simpa using hm
  rcases handle_terminal_out hm' e1 with ⟨hx, m', i, s, rfl⟩ | ⟨hx, rfl⟩ | ⟨hx, p, rfl⟩ | ⟨hx, q, rfl⟩
  · rw [hid] at hx
    have : f = answer h 0x0102 ((AuthMsg.mk (UInt8.ofNat m'.code.length) m'.code i s).encode h.attr.verDesc) := by
      simp only [gen0102, Out.encode, Msg.encodeBody] at e2
      cases e2; rfl
    subst this
    have hpr : (h.msgID.toNat, (0x0102 : UInt16).toNat) ∈ prescribed := by rw [hx]; decide
    refine ⟨_, _, rfl, hpr, fun hb => answers_of hw hn _ _ hb hpr (fun hy => absurd rfl hy) ?_⟩
    intro hy; rcases hy with hy | hy <;> exact absurd hy (by decide)
  · rw [hid] at hx
    have : f = answer h 0x0001 (ackBody h.serial.toNat h.msgID.toNat 0) := by
      simp only [gen0001, Out.encode, Msg.encodeBody, ackEncode] at e2
      cases e2; rfl
    subst this
    have hpr : (h.msgID.toNat, (0x0001 : UInt16).toNat) ∈ prescribed := by rw [hx]; decide
    exact ⟨_, _, rfl, hpr, fun hb => answers_of hw hn _ _ hb hpr
      (fun _ => ⟨_, by rw [ackBody, List.append_assoc]⟩) (fun _ => ⟨_, rfl⟩)⟩
  · rw [hid] at hx
    have hpr : (h.msgID.toNat, (0x0104 : UInt16).toNat) ∈ prescribed := by rw [hx]; decide
    simp only [gen0104, Out.encode, Msg.encodeBody, ParamsMsg.encode] at e2
    cases he : p.encode env with
    | err e' => rw [he] at e2; cases e2
    | panic => rw [he] at e2; cases e2
    | ok bs =>
      rw [he] at e2
      have : f = answer h 0x0104 (word h.serial.toNat ++ bs) := by
        rw [← put16_word]
        cases e2; rfl
      subst this
      refine ⟨_, _, rfl, hpr, fun hb => answers_of hw hn _ _ hb hpr (fun _ => ⟨_, rfl⟩) ?_⟩
      intro hy; rcases hy with hy | hy <;> exact absurd hy (by decide)
  · rw [hid] at hx
    have hpr : (h.msgID.toNat, (0x1205 : UInt16).toNat) ∈ prescribed := by rw [hx]; decide
    simp only [gen1205, Out.encode, Msg.encodeBody, MediaList.encode] at e2
    have : ∃ bs, f = answer h 0x1205 (word h.serial.toNat ++ bs) := by
      rw [← put16_word]
      cases e2
      exact ⟨_, by simp only [writeWord, writeDWord, writeBytes, List.nil_append, List.append_assoc]; rfl⟩
    obtain ⟨bs, rfl⟩ := this
    refine ⟨_, _, rfl, hpr, fun hb => answers_of hw hn _ _ hb hpr (fun _ => ⟨_, rfl⟩) ?_⟩
    intro hy; rcases hy with hy | hy <;> exact absurd hy (by decide)

/-- Replies are never sent to replies: 0x0001, 0x0104 and 0x1205 are answered with silence. -/
theorem C29_no_reply_to_replies (env : Env) (clk : Clock) (c : Conn) (st : Store) (frame : List UInt8)
    (h : Header) (m : Msg) (hh : Holds env clk.civil frame h m) (hm : h.msgID.toNat ∈ [0x0001, 0x0104, 0x1205]) :
    st.handleFrame env clk c frame = (st, .silent) := by
  have hid := hh.id
  rw [hh.handle]
  have hm' : m.id = 0x0001 ∨ m.id = 0x0104 ∨ m.id = 0x1205 := by rw [hid]; simpa using hm
  cases m <;> simp [Msg.id] at hm' <;> rfl

/-- A registration whose phone number has the hexadecimal digit F. -/
def regF : List UInt8 :=
  encodeFrame ([0x01, 0x00, 0x00, 0x29, 0x01, 0x23, 0x4f, 0x67, 0x89, 0x01, 0x00, 0x07] ++
    demoRegMsg.encode goEnv .v2013)

/-- The phone number of a frame, as its receiver decodes it. -/
def phoneIn (f : List UInt8) : Option (Str × Nat) :=
  match decodeFrame goEnv f with
  | .ok pd => some (pd.header.phone, pd.header.serial.toNat)
  | _ => none

/-- The reply in an outcome. -/
def Outcome.frame? : Outcome → Option (List UInt8)
  | .reply f => some f
  | _ => none

/-- Why the phone number has to fill its field: with a digit F only the digits behind it are kept, the reply has a
phone field of four bytes, and the terminal reads another number from it (and everything behind it two bytes late). -/
theorem C29_phone_with_F :
    phoneIn regF = some (digitStr [6, 7, 8, 9, 0, 1], 7) ∧
    (((Store.empty.handleFrame goEnv (demoClk 0) demoC regF).2.frame?).bind phoneIn) =
      some (digitStr [6, 7, 8, 9, 0, 1, 0, 0, 0, 7], 7) := by
  refine ⟨?_, ?_⟩ <;> decide +kernel

-- the hypotheses: a heartbeat of a registered terminal, and the reply
example : Holds goEnv (demoClk 2000).civil demoBeat (hdr2013 0x0002) .m0002 ∧
    (hdr2013 0x0002).msgID.toNat ∈ [0x0002, 0x0003, 0x0100, 0x0102, 0x0200] ∧
    (hdr2013 0x0002).phone.length = 2 * (hdr2013 0x0002).attr.verDesc.phoneBytes ∧
    (demoSys.st.handleFrame goEnv (demoClk 2000) demoC demoBeat).2 = .reply (generalReply (hdr2013 0x0002) 0) :=
  ⟨demoBeat_holds _, by decide, by decide, by decide +kernel⟩
-- a parameter query, and the reply of a terminal without stored parameters
example : Holds goEnv (demoClk 0).civil (msgFrame (hdr2013 0x8104) []) (hdr2013 0x8104) .m8104 :=
  ⟨_, .t8104, _, rfl, rfl, rfl, rfl, rfl⟩
example : Holds goEnv (demoClk 0).civil (msgFrame (hdr2013 0x0001) [0, 1, 0x81, 0x03, 0])
    ((hdr2013 0x0001).withBodyLength 5) (.m0001 ⟨1, 0x8103, 0⟩) := ⟨_, .t0001, _, rfl, rfl, rfl, rfl, rfl⟩

/-! ## C59 authorisation codes -/

/-- The code sent with an accepted registration is the decimal text of the FNV-1a hash of device id, plate and phone,
in any state of the server, at any time, on any connection: one to ten digits, a number below 2^32. -/
theorem C59_code (env : Env) (clk : Clock) (c : Conn) (st st' : Store) (frame : List UInt8) (h : Header) (m : Register)
    (hh : Holds env clk.civil frame h (.m0100 m)) (code : Str)
    (e : st.handleFrame env clk c frame = (st', .reply (registerReply h 0 code))) :
    AllDigits code ∧ 1 ≤ code.length ∧ code.length ≤ 10 ∧ decimalValue code < 2 ^ 32 ∧
      decimalValue code = fnv1a (identityText m.deviceID m.plate h.phone) := by
  have hc : code = authCodeOf m.deviceID m.plate h.phone := by
    rw [hh.handle] at e
    simp only [Store.handle, process0100] at e
    split at e
    · rw [finish_gen8100] at e
      have := registerReply_injective (by decide) (by decide) (Outcome.reply.inj (Prod.mk.inj e).2)
      exact absurd this.1 (by decide)
    · split at e
      · rw [finish_gen8100] at e
        have := registerReply_injective (by decide) (by decide) (Outcome.reply.inj (Prod.mk.inj e).2)
        exact absurd this.1 (by decide)
      · rw [finish_gen8100] at e
        have := registerReply_injective (by decide) (by decide) (Outcome.reply.inj (Prod.mk.inj e).2)
        exact this.2.symm
  subst hc
  refine ⟨decimal_digits _, ?_, ?_, ?_, ?_⟩
  · have := decimal_ne_nil (fnv32 (m.deviceID ++ 0x5f :: m.plate ++ 0x5f :: h.phone)).toNat
    exact List.length_pos_iff.2 this
  · exact decimal_length (Nat.lt_trans (fnv32_lt _) (by decide)) (by decide)
  · unfold authCodeOf; rw [decimalValue_decimal]; exact fnv32_lt _
  · unfold authCodeOf; rw [decimalValue_decimal, fnv32_spec]; simp [identityText]

/-- Registering the same identity again gets the same code, whatever happened in between. -/
theorem C59_same_code (env : Env) (clk clk' : Clock) (c c' : Conn) (st st' su su' : Store) (f f' : List UInt8)
    (h h' : Header) (m m' : Register) (hh : Holds env clk.civil f h (.m0100 m))
    (hh' : Holds env clk'.civil f' h' (.m0100 m')) (h1 : m.deviceID = m'.deviceID) (h2 : m.plate = m'.plate)
    (h3 : h.phone = h'.phone) (code code' : Str)
    (e : st.handleFrame env clk c f = (st', .reply (registerReply h 0 code)))
    (e' : su.handleFrame env clk' c' f' = (su', .reply (registerReply h' 0 code'))) : code = code' := by
  have key : ∀ {clk : Clock} {c : Conn} {st st' : Store} {f : List UInt8} {h : Header} {m : Register} {code : Str},
      Holds env clk.civil f h (.m0100 m) → st.handleFrame env clk c f = (st', .reply (registerReply h 0 code)) →
      code = authCodeOf m.deviceID m.plate h.phone := by
    intro clk c st st' f h m code hh e
    rw [hh.handle] at e
    simp only [Store.handle, process0100] at e
    split at e
    · rw [finish_gen8100] at e
      have := registerReply_injective (by decide) (by decide) (Outcome.reply.inj (Prod.mk.inj e).2)
      exact absurd this.1 (by decide)
    · split at e
      · rw [finish_gen8100] at e
        have := registerReply_injective (by decide) (by decide) (Outcome.reply.inj (Prod.mk.inj e).2)
        exact absurd this.1 (by decide)
      · rw [finish_gen8100] at e
        have := registerReply_injective (by decide) (by decide) (Outcome.reply.inj (Prod.mk.inj e).2)
        exact this.2.symm
  rw [key hh e, key hh' e', h1, h2, h3]

/-- "AuthCode" in bytes. -/
def refusedCode : Str := [0x41, 0x75, 0x74, 0x68, 0x43, 0x6f, 0x64, 0x65]

/-- A refused registration carries the text "AuthCode", and no registered terminal is ever authenticated with it. -/
theorem C59_placeholder (env : Env) (st : Store) :
    (∀ (clk : Clock) (c : Conn) (st' : Store) (frame : List UInt8) (h : Header) (m : Register) (r : Nat) (code : Str),
      Holds env clk.civil frame h (.m0100 m) → r ≠ 0 → r < 256 →
      st.handleFrame env clk c frame = (st', .reply (registerReply h r code)) → code = refusedCode) ∧
    (∀ (clk : Clock) (c : Conn) (frame : List UInt8) (h : Header) (m : AuthMsg),
      Holds env clk.civil frame h (.m0102 m) → (st.look h.phone).isSome → m.code = refusedCode →
      (st.handleFrame env clk c frame).2 = .reply (generalReply h 1)) := by
  refine ⟨?_, ?_⟩
  · intro clk c st' frame h m r code hh hr hr' e
    rw [hh.handle] at e
    simp only [Store.handle, process0100] at e
    split at e
    · rw [finish_gen8100] at e
      exact (registerReply_injective (by decide) hr' (Outcome.reply.inj (Prod.mk.inj e).2)).2.symm
    · split at e
      · rw [finish_gen8100] at e
        exact (registerReply_injective (by decide) hr' (Outcome.reply.inj (Prod.mk.inj e).2)).2.symm
      · rw [finish_gen8100] at e
        have := registerReply_injective (by decide) hr' (Outcome.reply.inj (Prod.mk.inj e).2)
        exact absurd this.1.symm hr
  · intro clk c frame h m hh hs hm
    obtain ⟨d, hd⟩ := Option.isSome_iff_exists.1 hs
    obtain ⟨r, hg, rfl⟩ := Store.look_some.1 hd
    have hne : m.code ≠ (st.heap r).code := by
      rw [hm]
      intro hx
      have := decimal_digits (fnv32 ((st.heap r).id ++ 0x5f :: (st.heap r).plate ++ 0x5f :: (st.heap r).phone)).toNat 0x41
        (by
          have : refusedCode = decimal (fnv32 ((st.heap r).id ++ 0x5f :: (st.heap r).plate ++ 0x5f :: (st.heap r).phone)).toNat := hx
          rw [← this]; decide)
      exact absurd this.2 (by decide)
    rw [hh.handle]
    simp only [Store.handle, process0102, Store.devByPhone, hg]
    rw [if_pos hne, finish_gen8001]
    rfl

-- the code of the terminal of the examples
example : (Store.empty.handleFrame goEnv (demoClk 0) demoC demoReg).2 =
    .reply (registerReply ((hdr2013 0x0100).withBodyLength 41) 0 demoCode) := by decide +kernel
example : Holds goEnv (demoClk 0).civil demoReg ((hdr2013 0x0100).withBodyLength 41) (.m0100 demoRegMsg) := demoReg_holds _
example : (demoSys.st.handleFrame goEnv (demoClk 0) demoC demoReg).2 =
    .reply (registerReply ((hdr2013 0x0100).withBodyLength 41) 1 refusedCode) := by decide +kernel

end JT808
