import Verif.Props.Canonical
import Verif.Props.Handlers
import Verif.Proof.Effects
import Verif.Proof.Tracks
import Verif.Proof.Demo
import Verif.Props.Extra
/-
C146: how much the server sends for what it gets.
-/
namespace JT808
open Spec

theorem unescapeBody_shorter : ∀ l : List UInt8, (unescapeBody l).length ≤ l.length
  | [] => by simp [unescapeBody]
  | [_] => by simp [unescapeBody]
  | a :: b :: rest => by
    have h1 := unescapeBody_shorter rest
    have h2 := unescapeBody_shorter (b :: rest)
    unfold unescapeBody
    simp only [List.length_cons] at h2
    split
    · simp only [List.length_cons]; omega
    · split
      · simp only [List.length_cons]; omega
      · simp only [List.length_cons]; omega

/-- What is not empty and has been decoded, has at least fifteen bytes, and a phone number of at most twenty digits. -/
theorem decoded_size {env : Env} {payload : List UInt8} {pd : Packet} (h : decodeFrame env payload = .ok pd) :
    15 ≤ payload.length ∧ pd.header.phone.length ≤ 20 := by
  have hsame : decodeFrame env (frameOf (unescapeBody ((payload.drop 1).dropLast))) = .ok { pd with verifyCode := 0x7e } := by
    have h3 : (frameOf (unescapeBody ((payload.drop 1).dropLast))).getLast? = some 0x7e := by
      unfold frameOf; rw [List.getLast?_append]; rfl
    have h1 : unescape env payload = unescape env (frameOf (unescapeBody ((payload.drop 1).dropLast))) := by
      rw [unescape_frameOf]; rfl
    unfold decodeFrame at h ⊢
    rw [h3]
    rw [← h1]
    cases hl : payload.getLast? with
    | none => rw [hl] at h; cases h
    | some vc =>
      rw [hl] at h
      simp only at h ⊢
      cases hv : verify (unescape env payload) with
      | err e => rw [hv] at h; cases h
      | panic => rw [hv] at h; cases h
      | ok r =>
        rw [hv] at h
        simp only at h ⊢
        cases hd : Header.decode r 0 with
        | err e => rw [hd] at h; cases h
        | panic => rw [hd] at h; cases h
        | ok x =>
          rw [hd] at h
          simp only at h ⊢
          cases hb : r.from' x.2 with
          | err e => rw [hb] at h; cases h
          | panic => rw [hb] at h; cases h
          | ok body =>
            rw [hb] at h
            cases h
            rfl
  constructor
  · have h1 := ((C16_accepted_iff env _).1 ⟨_, hsame⟩).2
    have h2 := unescapeBody_shorter ((payload.drop 1).dropLast)
    rw [List.length_dropLast, List.length_drop] at h2
    have h3 : 12 ≤ headerLen ((attrAt (unescapeBody ((payload.drop 1).dropLast))).testBit 14)
        ((attrAt (unescapeBody ((payload.drop 1).dropLast))).testBit 13) := by
      generalize (attrAt (unescapeBody ((payload.drop 1).dropLast))).testBit 14 = a
      generalize (attrAt (unescapeBody ((payload.drop 1).dropLast))).testBit 13 = b
      cases a <;> cases b <;> decide
    omega
  · obtain ⟨h1, h2⟩ := phone_of hsame
    show pd.header.phone.length ≤ 20
    have h1 : pd.header.phone = _ := h1
    have := bcd2NumberStr_length_le (phoneField (unescapeBody ((payload.drop 1).dropLast))) (by rw [h2]; split <;> decide)
    rw [h1]
    split at h2 <;> omega

theorem stuffed_length (p : List UInt8) : (p.flatMap stuff).length ≤ 2 * p.length := by
  induction p with
  | nil => simp
  | cons v p ih =>
    rw [List.flatMap_cons, List.length_append]
    have : (stuff v).length ≤ 2 := by
      unfold stuff
      split
      · decide
      · split
        · exact Nat.le_refl 2
        · exact Nat.le_succ 1
    simp only [List.length_cons]; omega

/-- The length of a frame: header, body and checksum, twice at most, and the two delimiters. -/
theorem encoded_size {h : Header} (hp : h.phone.length ≤ 20) (body : List UInt8) :
    (encodeFrame (writeHeader h body)).length ≤ 46 + 2 * body.length := by
  have he : (h.withBodyLength body.length).encode.length ≤ 21 := by
    rw [Header.encode_eq]
    simp only [List.length_append, put16_length]
    have h1 := str2Byte_length_le (List.replicate (8 - h.phone.length) 0x66 ++ h.phone)
    rw [List.length_append, List.length_replicate] at h1
    have h2 : (numberStr2BCD (h.withBodyLength body.length).phone).length ≤ 10 := by
      show (str2Byte (List.replicate (8 - h.phone.length) 0x66 ++ h.phone)).length ≤ 10
      omega
    have h3 : ((h.withBodyLength body.length).frag.elim [] Frag.encode).length ≤ 4 := by
      cases (h.withBodyLength body.length).frag with
      | none => exact Nat.zero_le _
      | some f => exact Nat.le_refl 4
    have h4 : (if (h.withBodyLength body.length).attr.verDesc = .v2019 then [(h.withBodyLength body.length).protoVer] else []).length ≤ 1 := by
      split <;> simp
    omega
  unfold encodeFrame genVerifier writeHeader
  rw [escape_eq]
  have := stuffed_length ((h.withBodyLength body.length).encode ++ body ++ [xorAll ((h.withBodyLength body.length).encode ++ body)])
  simp only [List.length_append, List.length_cons, List.length_nil, frameOf] at this ⊢
  omega

/-- A frame of a message a terminal may send: below 0x8000 (section 8 of the standard; the platform's own start there). -/
def Spec.FromTerminal (env : Env) (frame : List UInt8) : Prop :=
  ∀ pd, decodeFrame env frame = .ok pd → pd.header.msgID.toNat < 0x8000

theorem ack_frame_size {env : Env} {h : Header} (hp : h.phone.length ≤ 20) (a : GeneralAck) {f : List UInt8}
    (hf : Out.encode env (h, .m8001 a) = .ok f) : f.length ≤ 72 := by
  have h1 : f = encodeFrame (writeHeader h a.encode) := by
    have : Res.ok (encodeFrame (writeHeader h a.encode)) = .ok f := hf
    injection this with this; exact this.symm
  have h2 := encoded_size hp a.encode
  have h3 : a.encode.length = 5 := rfl
  rw [h1]; omega

theorem regack_frame_size {env : Env} {h : Header} (hp : h.phone.length ≤ 20) {n : UInt16} {r : UInt8} {code : Str}
    (hc : code.length ≤ 10) {f : List UInt8} (hf : Out.encode env (h, .m8100 ⟨n, r, code⟩) = .ok f) : f.length ≤ 72 := by
  have h1 : f = encodeFrame (writeHeader h (RegisterAck.encode ⟨n, r, code⟩)) := by
    have : Res.ok (encodeFrame (writeHeader h (RegisterAck.encode ⟨n, r, code⟩))) = .ok f := hf
    injection this with this; exact this.symm
  have h2 := encoded_size hp (RegisterAck.encode ⟨n, r, code⟩)
  have h3 : (RegisterAck.encode ⟨n, r, code⟩).length = 3 + code.length := by
    unfold RegisterAck.encode writeString writeBytes
    rw [List.length_append]; rfl
  rw [h1]; omega

theorem code_size (id plate phone : Str) : (authCodeOf id plate phone).length ≤ 10 := by
  unfold authCodeOf
  exact decimal_length (Nat.lt_trans (UInt32.toNat_lt _) (by decide)) (by decide)

/-- Not a message that makes the server talk as a terminal would. -/
def Msg.small : Msg → Prop
  | .m8100 _ => False
  | .m8103 _ => False
  | .m8104 => False
  | .m9205 _ => False
  | _ => True

/-- What a handler answers to a message of a terminal. -/
theorem handle_small {env : Env} {clk : Clock} {c : Conn} {st st' : Store} {h : Header} {m : Msg} {o : Out} {f : List UInt8}
    (hp : h.phone.length ≤ 20) (ht : m.small)
    (hh : st.handle env clk c h m = (st', .ok (some o))) (hf : Out.encode env o = .ok f) : f.length ≤ 72 := by
  have ack : ∀ res : UInt8, o = gen8001 h res → f.length ≤ 72 := by
    intro res he; subst he; exact ack_frame_size (h := { h with msgID := 0x8001 }) hp _ hf
  cases m with
  | m0001 _ => cases hh
  | m0104 _ => cases hh
  | m1205 _ => cases hh
  | m8100 _ => exact ht.elim
  | m8103 _ => exact ht.elim
  | m8104 => exact ht.elim
  | m9205 _ => exact ht.elim
  | m0002 =>
    have hh : process0002 clk st h = _ := hh
    unfold process0002 at hh
    cases hd : st.devByPhone h.phone with
    | none => rw [hd] at hh; cases hh
    | some r => rw [hd] at hh; cases hh; exact ack 0 rfl
  | m0003 =>
    have hh : process0003 st h = _ := hh
    unfold process0003 at hh
    cases hd : st.devByPhone h.phone with
    | none => rw [hd] at hh; cases hh
    | some r => rw [hd] at hh; cases hh; exact ack 0 rfl
  | m0100 m =>
    have hh : process0100 clk c st h m = _ := hh
    unfold process0100 at hh
    by_cases h1 : st.hasPlate m.plate = true
    · rw [if_pos h1] at hh; cases hh
      exact regack_frame_size (h := { h with msgID := 0x8100 }) hp (by decide) hf
    · rw [if_neg h1] at hh
      by_cases h2 : st.hasPhone h.phone = true
      · rw [if_pos h2] at hh; cases hh
        exact regack_frame_size (h := { h with msgID := 0x8100 }) hp (by decide) hf
      · rw [if_neg h2] at hh; cases hh
        exact regack_frame_size (h := { h with msgID := 0x8100 }) hp (code_size _ _ _) hf
  | m0102 m =>
    have hh : process0102 clk st h m = _ := hh
    unfold process0102 at hh
    cases hd : st.devByPhone h.phone with
    | none => rw [hd] at hh; cases hh
    | some r =>
      rw [hd] at hh
      simp only at hh
      by_cases hc : m.code ≠ (st.heap r).code
      · rw [if_pos hc] at hh; cases hh; exact ack 1 rfl
      · rw [if_neg hc] at hh; cases hh; exact ack 0 rfl
  | m0200 m =>
    have hh : process0200 clk st h m = _ := hh
    unfold process0200 at hh
    cases hd : st.devByPhone h.phone with
    | none => rw [hd] at hh; cases hh
    | some r =>
      rw [hd] at hh
      simp only at hh
      generalize (if (DeviceGeo.decode clk.civil (st.heap r).phone m).geo.acc = 0 then
        (st.setDev r ((st.heap r).asleep clk)).cacheDevice r else st) = sa at hh
      cases hw : sa.writeGeo (sa.heap r).phone (DeviceGeo.decode clk.civil (st.heap r).phone m) with
      | mk sb res =>
        rw [hw] at hh
        cases res with
        | ok _ => cases hh; exact ack 0 rfl
        | err _ => cases hh
        | panic => cases hh
  | m8001 m =>
    have hh : process8001 clk st h m = _ := hh
    unfold process8001 at hh
    by_cases h1 : m.result = 0
    · rw [if_pos h1] at hh
      cases hd : st.devByPhone h.phone with
      | none => rw [hd] at hh; cases hh
      | some r =>
        rw [hd] at hh
        simp only at hh
        by_cases h2 : (st.heap r).status ≠ .offline
        · rw [if_pos h2] at hh; cases hh
        · rw [if_neg h2] at hh; cases hh
    · rw [if_neg h1] at hh; cases hh

theorem terminal_type {id : UInt16} {t : MType} (h : MType.ofID id = some t) (hid : id.toNat < 0x8000) :
    t ≠ .t8001 ∧ t ≠ .t8100 ∧ t ≠ .t8103 ∧ t ≠ .t8104 ∧ t ≠ .t9205 := by
  have : ∀ y ∈ msgTable, y.1.toNat < 0x8000 → y.2 ≠ .t8001 ∧ y.2 ≠ .t8100 ∧ y.2 ≠ .t8103 ∧ y.2 ≠ .t8104 ∧ y.2 ≠ .t9205 := by decide
  exact this _ (type_of_id h) hid

theorem rd_then_pure {α β : Type} {x : Rd α} {g : α → β} {s : Slice} {i : Nat} {y : β} {j : Nat}
    (h : (do let m ← x; pure (g m) : Rd β) s i = .ok (y, j)) : ∃ m, y = g m := by
  have h : (match x s i with | .ok (a, k) => (pure (g a) : Rd β) s k | .err e => .err e | .panic => .panic) = .ok (y, j) := h
  cases hx : x s i with
  | err e => rw [hx] at h; cases h
  | panic => rw [hx] at h; cases h
  | ok p => rw [hx] at h; cases h; exact ⟨_, rfl⟩

theorem decoded_kind {env : Env} {now : Civil} {h : Header} {t : MType} {s : Slice} {i j : Nat} {m : Msg}
    (ht : t ≠ .t8001 ∧ t ≠ .t8100 ∧ t ≠ .t8103 ∧ t ≠ .t8104 ∧ t ≠ .t9205) (hd : t.decode env now h s i = .ok (m, j)) :
    m.small := by
  obtain ⟨h1, h2, h3, h4, h5⟩ := ht
  cases t with
  | t8001 => exact absurd rfl h1
  | t8100 => exact absurd rfl h2
  | t8103 => exact absurd rfl h3
  | t8104 => exact absurd rfl h4
  | t9205 => exact absurd rfl h5
  | t0002 => cases hd; trivial
  | t0003 => cases hd; trivial
  | t0001 => obtain ⟨x, rfl⟩ := rd_then_pure (g := Msg.m0001) hd; trivial
  | t0100 => obtain ⟨x, rfl⟩ := rd_then_pure (g := Msg.m0100) hd; trivial
  | t0102 => obtain ⟨x, rfl⟩ := rd_then_pure (g := Msg.m0102) hd; trivial
  | t0104 => obtain ⟨x, rfl⟩ := rd_then_pure (g := Msg.m0104) hd; trivial
  | t0200 => obtain ⟨x, rfl⟩ := rd_then_pure (g := Msg.m0200) hd; trivial
  | t1205 => obtain ⟨x, rfl⟩ := rd_then_pure (g := Msg.m1205) hd; trivial

theorem reply_small {env : Env} {clk : Clock} {c c' : Conn} {werr : Option Err} {st : Store} (hi : StoreInv st)
    {frame f : List UInt8} (ht : Spec.FromTerminal env frame)
    (hs : (st.serveFrame env clk c werr frame).2.sent = some (c', f)) : c' = c ∧ 15 ≤ frame.length ∧ f.length ≤ 72 := by
  obtain ⟨h1, -, -, st1, pkt, st2, o, hd, hp, he, -⟩ := C30_reply_only_on_success env clk c c' werr st frame f hs
  obtain ⟨pd, hpd, hh, hb⟩ := decodePacket_header hd
  obtain ⟨h15, h20⟩ := decoded_size hpd
  refine ⟨h1, h15, ?_⟩
  rw [← hh] at h20
  have hid : pkt.header.msgID.toNat < 0x8000 := by rw [hh]; exact ht _ hpd
  unfold Store.process at hp
  cases hty : MType.ofID pkt.header.msgID with
  | none => rw [hty] at hp; cases hp
  | some t =>
    rw [hty] at hp
    simp only at hp
    by_cases hg : (pkt.header.isFragmented && !pkt.segCompleted) = true
    · rw [if_pos hg] at hp
      obtain ⟨sg, hsg⟩ := decodePacket_segs env st frame
      rw [hd] at hsg
      unfold Store.processSegment at hp
      cases hdv : st1.devByPhone pkt.header.phone with
      | none => rw [hdv] at hp; cases hp
      | some r =>
        rw [hdv] at hp
        simp only at hp
        have hph : (st1.heap r).phone = pkt.header.phone := by
          have hsg : st1 = _ := hsg
          rw [hsg] at hdv ⊢
          exact (hi.phoneOK _ r hdv).2.1
        cases hss : st1.session (st1.heap r).sessionID with
        | none => rw [hss] at hp; cases hp
        | some c2 =>
          rw [hss] at hp
          simp only at hp
          cases hts : st1.takeSerial c2 with
          | mk sx n =>
            rw [hts] at hp
            cases hp
            exact ack_frame_size (by show (st1.heap r).phone.length ≤ 20; rw [hph]; exact h20) _ he
    · rw [if_neg hg] at hp
      cases hm : t.decode env clk.civil pkt.header pkt.body 0 with
      | err e => rw [hm] at hp; cases hp
      | panic => rw [hm] at hp; cases hp
      | ok x =>
        obtain ⟨m, j⟩ := x
        rw [hm] at hp
        exact handle_small h20 (decoded_kind (terminal_type hty hid) hm) hp he

/-- C146, one frame (missing: messages only the platform should send, for which it is false): whatever the server has seen before, a message of a terminal is answered with at most 72 bytes, and
with at most five for each byte of the message. -/
theorem C146_each_partial (env : Env) (evs : List Ev) (clk : Clock) (c c' : Conn) (werr : Option Err) (frame f : List UInt8)
    (ht : Spec.FromTerminal env frame)
    (hs : ((Sys.start.run env evs).1.st.serveFrame env clk c werr frame).2.sent = some (c', f)) :
    f.length ≤ 72 ∧ f.length ≤ 5 * frame.length := by
  obtain ⟨-, h1, h2⟩ := reply_small (reachable_inv env evs).1 ht hs
  exact ⟨h2, by omega⟩

example : Spec.FromTerminal goEnv demoReg ∧ demoReg.length = 56 ∧
    ∃ f, (Store.empty.serveFrame goEnv (demoClk 0) demoC none demoReg).2.sent = some (demoC, f) ∧ f.length = 28 := by
  refine ⟨?_, by decide +kernel, _, rfl, by decide +kernel⟩
  intro pd h
  obtain ⟨pd', t, j, h1, h2, -⟩ := demoReg_holds (demoClk 0).civil
  rw [h] at h1; cases h1; rw [h2]; decide

/-- The bytes of the frames received on a connection. -/
def Spec.received (c : Conn) : List Ev → Nat
  | [] => 0
  | .frame _ c' b _ :: es => (if c' = c then b.length else 0) + Spec.received c es
  | _ :: es => Spec.received c es

/-- The bytes sent on a connection in answer to frames (not those an HTTP request made the server send). -/
def Spec.answered (c : Conn) : List Ev → List Obs → Nat
  | .frame _ _ _ _ :: es, o :: os =>
    (match o.sent with | some (c', f) => if c' = c then f.length else 0 | none => 0) + Spec.answered c es os
  | _ :: es, _ :: os => Spec.answered c es os
  | _, _ => 0

theorem said_bounded (env : Env) (c : Conn) : ∀ (evs : List Ev) (s : Sys), StoreInv s.st →
    (∀ clk b werr, Ev.frame clk c b werr ∈ evs → Spec.FromTerminal env b) →
    Spec.answered c evs (s.run env evs).2 ≤ 5 * Spec.received c evs
  | [], _, _, _ => Nat.le_refl 0
  | e :: evs, s, hi, ht => by
    have ih := said_bounded env c evs (s.step env e).1 (step_inv env s e hi).1
      (fun clk b werr hm => ht clk b werr (List.mem_cons_of_mem _ hm))
    have hr : (s.run env (e :: evs)).2 = (s.step env e).2 :: ((s.step env e).1.run env evs).2 := rfl
    rw [hr]
    cases e with
    | frame clk c' b werr =>
      show _ + Spec.answered c evs _ ≤ 5 * ((if c' = c then b.length else 0) + Spec.received c evs)
      have : (match (s.step env (.frame clk c' b werr)).2.sent with
          | some (c2, f) => if c2 = c then f.length else 0 | none => 0) ≤ 5 * (if c' = c then b.length else 0) := by
        cases ho : (s.step env (.frame clk c' b werr)).2.sent with
        | none => exact Nat.zero_le _
        | some x =>
          obtain ⟨c2, f⟩ := x
          show (if c2 = c then f.length else 0) ≤ _
          by_cases hc2 : c2 = c
          · rw [if_pos hc2]
            have hs : (s.st.serveFrame env clk c' werr b).2.sent = some (c2, f) := by
              unfold Sys.step at ho
              by_cases hcr : s.crashed = true
              · rw [if_pos hcr] at ho; cases ho
              · rw [if_neg hcr] at ho
                simp only at ho
                by_cases hl : c' ∈ s.live
                · rw [if_pos hl] at ho; exact ho
                · rw [if_neg hl] at ho; cases ho
            have hcc : c2 = c' := (C30_reply_only_on_success env clk c' c2 werr s.st b f hs).1
            have hc' : c' = c := hcc ▸ hc2
            subst hc'
            obtain ⟨-, h1, h2⟩ := reply_small hi (ht clk b werr (List.mem_cons_self ..)) hs
            rw [if_pos rfl]; omega
          · rw [if_neg hc2]; exact Nat.zero_le _
      rw [Nat.mul_add]
      exact Nat.add_le_add this ih
    | _ => exact ih

/-- C146, a whole connection: over any history, the server sends in answer to the frames of a connection at most five
bytes for each byte it received there, if they are messages of a terminal.  Other connections may send anything. -/
theorem C146_total_partial (env : Env) (evs : List Ev) (c : Conn)
    (ht : ∀ clk b werr, Ev.frame clk c b werr ∈ evs → Spec.FromTerminal env b) :
    Spec.answered c evs (Sys.start.run env evs).2 ≤ 5 * Spec.received c evs :=
  said_bounded env c evs Sys.start StoreInv.empty ht

example : let evs := demoEvs ++ [Ev.frame (demoClk 2000) demoC demoBeat none, .httpQuery (hdr2013 0).phone none]
    (Spec.received demoC evs, Spec.answered demoC evs (Sys.start.run goEnv evs).2) = (71, 48) := by decide +kernel

/-- What is missing from the above is false: a query of the parameters, which only the platform should send, from a
phone nobody registered, on a new connection, is answered with the built-in list: over thirty times what was sent. -/
theorem C146_query_amplified :
    let evs := [Ev.accept [0x61], .frame (demoClk 0) demoC (msgFrame (hdr2013 0x8104) []) none]
    Spec.received demoC evs = 15 ∧ 30 * Spec.received demoC evs < Spec.answered demoC evs (Sys.start.run goEnv evs).2 := by
  decide +kernel

end JT808
