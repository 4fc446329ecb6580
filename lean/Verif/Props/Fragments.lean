import Verif.Proof.Segments
import Verif.Props.Handlers
/-
C52, C53: fragmented messages.
-/
namespace JT808
open Spec

/-! ## C53 keys of the segment cache -/

/-- Ids that are not the code point of a character, and U+FFFD, which stands for all of them. -/
def Ambiguous (id : UInt16) : Prop := (0xD800 ≤ id.toNat ∧ id.toNat ≤ 0xDFFF) ∨ id.toNat = 0xFFFD

instance (id : UInt16) : Decidable (Ambiguous id) := by unfold Ambiguous; infer_instance

theorem runeUtf8_eq {i j : UInt16} (h : runeUtf8 i = runeUtf8 j) : i = j ∨ (Ambiguous i ∧ Ambiguous j) := by
  have hi := i.toNat_lt
  have hj := j.toNat_lt
  have ofNat_eq : ∀ a b, UInt8.ofNat a = UInt8.ofNat b → a % 256 = b % 256 := by
    intro a b hab
    have := congrArg UInt8.toNat hab
    simpa using this
  unfold runeUtf8 at h
  simp only at h
  unfold Ambiguous
  rw [← UInt16.toNat_inj]
  by_cases a1 : i.toNat < 0x80
  · rw [if_pos a1] at h
    by_cases b1 : j.toNat < 0x80
    · rw [if_pos b1] at h
      have := ofNat_eq _ _ (List.cons.inj h).1
      left; omega
    · rw [if_neg b1] at h
      split at h
      · simp at h
      · split at h <;> simp at h
  · rw [if_neg a1] at h
    by_cases a2 : i.toNat < 0x800
    · rw [if_pos a2] at h
      by_cases b1 : j.toNat < 0x80
      · rw [if_pos b1] at h; simp at h
      · rw [if_neg b1] at h
        by_cases b2 : j.toNat < 0x800
        · rw [if_pos b2] at h
          have e1 := ofNat_eq _ _ (List.cons.inj h).1
          have e2 := ofNat_eq _ _ (List.cons.inj (List.cons.inj h).2).1
          left; omega
        · rw [if_neg b2] at h
          split at h <;> simp at h
    · rw [if_neg a2] at h
      by_cases b1 : j.toNat < 0x80
      · rw [if_pos b1] at h
        split at h <;> simp at h
      · rw [if_neg b1] at h
        by_cases b2 : j.toNat < 0x800
        · rw [if_pos b2] at h
          split at h <;> simp at h
        · rw [if_neg b2] at h
          by_cases a3 : 0xD800 ≤ i.toNat ∧ i.toNat ≤ 0xDFFF
          · rw [if_pos a3] at h
            by_cases b3 : 0xD800 ≤ j.toNat ∧ j.toNat ≤ 0xDFFF
            · exact .inr ⟨.inl a3, .inl b3⟩
            · rw [if_neg b3] at h
              have e1 := congrArg UInt8.toNat (List.cons.inj h).1
              have e2 := congrArg UInt8.toNat (List.cons.inj (List.cons.inj h).2).1
              have e3 := congrArg UInt8.toNat (List.cons.inj (List.cons.inj (List.cons.inj h).2).2).1
              simp at e1 e2 e3
              right; refine ⟨.inl a3, .inr ?_⟩; omega
          · rw [if_neg a3] at h
            by_cases b3 : 0xD800 ≤ j.toNat ∧ j.toNat ≤ 0xDFFF
            · rw [if_pos b3] at h
              have e1 := congrArg UInt8.toNat (List.cons.inj h).1
              have e2 := congrArg UInt8.toNat (List.cons.inj (List.cons.inj h).2).1
              have e3 := congrArg UInt8.toNat (List.cons.inj (List.cons.inj (List.cons.inj h).2).2).1
              simp at e1 e2 e3
              right; refine ⟨.inr ?_, .inl b3⟩; omega
            · rw [if_neg b3] at h
              have e1 := ofNat_eq _ _ (List.cons.inj h).1
              have e2 := ofNat_eq _ _ (List.cons.inj (List.cons.inj h).2).1
              have e3 := ofNat_eq _ _ (List.cons.inj (List.cons.inj (List.cons.inj h).2).2).1
              left; omega

theorem split_at_slash {p p' r r' : Str} (hp : (0x2f : UInt8) ∉ p) (hp' : (0x2f : UInt8) ∉ p')
    (h : p ++ 0x2f :: r = p' ++ 0x2f :: r') : p = p' ∧ r = r' := by
  induction p generalizing p' with
  | nil =>
    cases p' with
    | nil => exact ⟨rfl, (List.cons.inj h).2⟩
    | cons x p' =>
      exact absurd (by rw [(List.cons.inj h).1]; exact List.mem_cons_self) hp'
  | cons x p ih =>
    cases p' with
    | nil => exact absurd (by rw [← (List.cons.inj h).1]; exact List.mem_cons_self) hp
    | cons x' p' =>
      obtain ⟨e1, e2⟩ := List.cons.inj h
      obtain ⟨e3, e4⟩ := ih (fun hx => hp (List.mem_cons_of_mem _ hx)) (fun hx => hp' (List.mem_cons_of_mem _ hx)) e2
      exact ⟨by rw [e1, e3], e4⟩

theorem bcd_no_slash {p : Str} (h : ∀ x ∈ p, bcdChar x) : (0x2f : UInt8) ∉ p := by
  intro hx
  exact absurd (h _ hx) (by decide)

theorem segKey_eq {p p' : Str} {i i' : UInt16} (hp : (0x2f : UInt8) ∉ p) (hp' : (0x2f : UInt8) ∉ p')
    (h : segKey p i = segKey p' i') : p = p' ∧ (i = i' ∨ (Ambiguous i ∧ Ambiguous i')) := by
  obtain ⟨e1, e2⟩ := split_at_slash hp hp' h
  exact ⟨e1, runeUtf8_eq e2⟩

/-- What the server keeps for the fragments of message `id` from `phone`. -/
def Store.pending (st : Store) (phone : Str) (id : UInt16) : List UInt8 :=
  match st.segs.get (segKey phone id) with
  | some s => s.data
  | none => []

/-- The body of a fragment of message `id` from `phone`; nothing for every other frame. -/
def fragmentBody (env : Env) (phone : Str) (id : UInt16) (frame : List UInt8) : List UInt8 :=
  match decodeFrame env frame with
  | .ok pd => if pd.header.isFragmented ∧ pd.header.phone = phone ∧ pd.header.msgID = id then pd.body.data else []
  | _ => []

/-- The body an event contributes: that of a frame received on a served connection. -/
def Ev.fragmentBody (env : Env) (phone : Str) (id : UInt16) (s : Sys) : Ev → List UInt8
  | .frame _ c bytes _ => if c ∈ s.live ∧ s.crashed = false then JT808.fragmentBody env phone id bytes else []
  | _ => []

/-- All bodies of fragments of message `id` from `phone` in a history, in order of arrival. -/
def fragmentBodies (env : Env) (phone : Str) (id : UInt16) (s : Sys) : List Ev → List UInt8
  | [] => []
  | e :: es => e.fragmentBody env phone id s ++ fragmentBodies env phone id (s.step env e).1 es

theorem pending_decodePacket {env : Env} {st : Store} (frame : List UInt8) {p : Str} {i : UInt16}
    (hp : (0x2f : UInt8) ∉ p) (ha : ¬ Ambiguous i) :
    (st.decodePacket env frame).1.pending p i = st.pending p i ++ fragmentBody env p i frame := by
  unfold Store.decodePacket fragmentBody
  cases hd : decodeFrame env frame with
  | err e => simp
  | panic => simp
  | ok pd =>
    obtain ⟨s, j, hh⟩ := decodeFrame_header hd
    obtain ⟨hw, hph, -, hfr, -⟩ := Header.decode_facts hh
    simp only
    by_cases hf : pd.header.isFragmented = true
    · rw [if_pos hf]
      have hfd : pd.header.attr.fragDesc = true := by rw [hw.fragD]; exact hf
      rw [hfd] at hfr
      obtain ⟨f, hg⟩ := Option.isSome_iff_exists.1 hfr
      rw [hg]
      simp only
      have key : (st.cacheSegment (Segment.ofPacket pd.header f pd.body.data)).1.pending p i =
          st.pending p i ++ if pd.header.isFragmented = true ∧ pd.header.phone = p ∧ pd.header.msgID = i
            then pd.body.data else [] := by
        unfold Store.cacheSegment Store.pending Segment.ofPacket
        simp only
        by_cases hk : segKey p i = segKey pd.header.phone pd.header.msgID
        · obtain ⟨e1, e2⟩ := segKey_eq hp (bcd_no_slash hph) hk
          have e2 : i = pd.header.msgID := e2.resolve_right (fun hx => ha hx.1)
          rw [if_pos ⟨hf, e1.symm, e2.symm⟩, ← hk]
          cases hs : st.segs.get (segKey p i) with
          | none => simp [AMap.get_set_self]
          | some s0 => simp [AMap.get_set_self, Segment.merge]
        · rw [if_neg (fun hx => hk (by rw [hx.2.1, hx.2.2]))]
          cases hs : st.segs.get (segKey pd.header.phone pd.header.msgID) with
          | none => simp [AMap.get_set, hk]
          | some s0 => simp [AMap.get_set, hk]
      cases hx : st.cacheSegment (Segment.ofPacket pd.header f pd.body.data) with
      | mk st' r => rw [hx] at key; cases r <;> exact key
    · rw [if_neg hf, if_neg (fun hx => hf hx.1)]; simp

theorem pending_of_segs {st st' : Store} (h : st'.segs = st.segs) (p : Str) (i : UInt16) :
    st'.pending p i = st.pending p i := by
  unfold Store.pending; rw [h]

theorem pending_step (env : Env) (s : Sys) (e : Ev) {p : Str} {i : UInt16} (hp : (0x2f : UInt8) ∉ p)
    (ha : ¬ Ambiguous i) :
    (s.step env e).1.st.pending p i = s.st.pending p i ++ e.fragmentBody env p i s := by
  cases e with
  | frame clk c bytes werr =>
    have efb : Ev.fragmentBody env p i s (.frame clk c bytes werr) =
        if c ∈ s.live ∧ s.crashed = false then JT808.fragmentBody env p i bytes else [] := rfl
    rw [efb]
    unfold Sys.step
    by_cases hc : s.crashed = true
    · rw [if_pos hc, if_neg (by simp [hc])]; simp
    · rw [if_neg hc]
      by_cases hl : c ∈ s.live
      · simp only
        have hcond : c ∈ s.live ∧ s.crashed = false := ⟨hl, by simpa using hc⟩
        rw [if_pos hl, if_pos hcond]
        simp only
        rw [pending_of_segs (serveFrame_segs env clk c werr s.st bytes)]
        exact pending_decodePacket bytes hp ha
      · simp only
        rw [if_neg hl, if_neg (fun hx => hl hx.1)]; simp
  | accept a =>
    rcases step_segs env s (.accept a) with h | ⟨_, _, _, _, h, -⟩
    · rw [pending_of_segs h]; simp [Ev.fragmentBody]
    · cases h
  | readErr c er =>
    rcases step_segs env s (.readErr c er) with h | ⟨_, _, _, _, h, -⟩
    · rw [pending_of_segs h]; simp [Ev.fragmentBody]
    · cases h
  | check clk q =>
    rcases step_segs env s (.check clk q) with h | ⟨_, _, _, _, h, -⟩
    · rw [pending_of_segs h]; simp [Ev.fragmentBody]
    · cases h
  | httpList =>
    rcases step_segs env s .httpList with h | ⟨_, _, _, _, h, -⟩
    · rw [pending_of_segs h]; simp [Ev.fragmentBody]
    · cases h
  | httpGeo q =>
    rcases step_segs env s (.httpGeo q) with h | ⟨_, _, _, _, h, -⟩
    · rw [pending_of_segs h]; simp [Ev.fragmentBody]
    · cases h
  | httpQuery q werr =>
    rcases step_segs env s (.httpQuery q werr) with h | ⟨_, _, _, _, h, -⟩
    · rw [pending_of_segs h]; simp [Ev.fragmentBody]
    · cases h
  | httpSet q b bad werr =>
    rcases step_segs env s (.httpSet q b bad werr) with h | ⟨_, _, _, _, h, -⟩
    · rw [pending_of_segs h]; simp [Ev.fragmentBody]
    · cases h

theorem pending_run (env : Env) (evs : List Ev) {p : Str} {i : UInt16} (hp : (0x2f : UInt8) ∉ p)
    (ha : ¬ Ambiguous i) : ∀ s : Sys,
    (s.run env evs).1.st.pending p i = s.st.pending p i ++ fragmentBodies env p i s evs := by
  induction evs with
  | nil => intro s; simp [Sys.run, fragmentBodies]
  | cons e es ih =>
    intro s
    have : (s.run env (e :: es)).1 = ((s.step env e).1.run env es).1 := rfl
    rw [this, ih, pending_step env s e hp ha, fragmentBodies, List.append_assoc]

/-- What the server has collected for a message is made of exactly the bodies of the fragments with that phone and
message id, in order of arrival, over the whole life of the server; nothing of another terminal or message is in it.
Missing for C53: ids in the surrogate range, which share one key (next theorem). -/
theorem C53_only_own_fragments_partial (env : Env) (evs : List Ev) (p : Str) (hp : (0x2f : UInt8) ∉ p) (id : UInt16)
    (ha : ¬ Ambiguous id) :
    (Sys.start.run env evs).1.st.pending p id = fragmentBodies env p id Sys.start evs := by
  rw [pending_run env evs hp ha]; rfl

/-- Every id the server supports is unambiguous. -/
theorem C53_supported_ids (id : UInt16) (h : id.toNat ∈ supportedIDs) : ¬ Ambiguous id := by
  have : ∀ n ∈ supportedIDs, ¬ ((0xD800 ≤ n ∧ n ≤ 0xDFFF) ∨ n = 0xFFFD) := by decide
  exact this _ h

/-- A fragment frame. -/
def fragFrame (id : UInt16) (total index : UInt16) (body : List UInt8) : List UInt8 :=
  msgFrame { hdr2013 id with attr := ⟨0, 0, 1, 0, 0, .none, true, .v2013⟩, frag := some ⟨total, index⟩ } body

/-- The opposite for two ids that are not characters: their fragments are put together. -/
theorem C53_surrogate_ids_mixed :
    (Sys.start.run goEnv [.accept [0x61], .accept [0x62], .frame (demoClk 0) demoC (fragFrame 0xD801 2 1 [1, 2]) none,
      .frame (demoClk 0) demoC' (fragFrame 0xDFFF 2 2 [3, 4]) none]).1.st.pending (hdr2013 0).phone 0xD801
      = [1, 2, 3, 4] ∧ Ambiguous 0xD801 ∧ Ambiguous 0xDFFF := by
  refine ⟨by decide +kernel, by decide, by decide⟩

-- two messages of one terminal, interleaved on two connections
example : fragmentBodies goEnv (hdr2013 0).phone 0x0200 Sys.start
    [.accept [0x61], .accept [0x62], .accept [0x63], .frame (demoClk 0) demoC (fragFrame 0x0200 3 1 [1, 2]) none,
      .frame (demoClk 0) demoC' (fragFrame 0x0102 2 1 [9]) none,
      .frame (demoClk 0) ⟨2, [0x63]⟩ (fragFrame 0x0200 3 2 [3, 4]) none] = [1, 2, 3, 4] := by decide +kernel

/-! ## C52 reassembly -/

/-- The opposite of C52, first fragments: whatever the message, the first fragment that arrives for it is not
acknowledged; the connection is closed instead. -/
theorem C52_first_fragment_closes (env : Env) (clk : Clock) (c : Conn) (werr : Option Err) (st : Store)
    (frame : List UInt8) (pd : Packet) (f : Frag) (hd : decodeFrame env frame = .ok pd)
    (hf : pd.header.isFragmented = true) (hg : pd.header.frag = some f)
    (hn : st.segs.get (segKey pd.header.phone pd.header.msgID) = none) :
    (st.serveFrame env clk c werr frame).2 = ⟨none, true, none⟩ :=
  (C27_fragment_closes env clk c werr st frame pd f hd hf hg hn).1

/-- The opposite of C52, bodies: the message handled when the last fragment arrives is the one in the body of that
fragment alone, whatever was collected before. -/
theorem C52_only_last_fragment (env : Env) (clk : Clock) (c : Conn) (st : Store) (frame : List UInt8) (pd : Packet)
    (f : Frag) (hd : decodeFrame env frame = .ok pd) (hf : pd.header.isFragmented = true) (hg : pd.header.frag = some f)
    (s : Segment) (hs : st.segs.get (segKey pd.header.phone pd.header.msgID) = some s) (hl : f.index = s.total)
    (t : MType) (ht : MType.ofID pd.header.msgID = some t) (m : Msg) (j : Nat)
    (hm : t.decode env clk.civil pd.header pd.body 0 = .ok (m, j)) :
    ∃ sg, st.handleFrame env clk c frame = finish env (Store.handle env clk c { st with segs := sg } pd.header m) := by
  have e : Delivers env clk.civil st frame pd.header m := by
    let sg := st.segs.set (segKey pd.header.phone pd.header.msgID) (s.merge (Segment.ofPacket pd.header f pd.body.data))
    refine ⟨{ st with segs := sg }, { pd with segCompleted := true }, t, j, ?_, rfl, ht, by simp, hm⟩
    unfold Store.decodePacket
    rw [hd]
    simp only [hf, hg, if_true, Store.cacheSegment, Segment.ofPacket, hs, Segment.merge, Segment.isComplete, hl,
      beq_self_eq_true, sg]
  exact e.handle c

/-- The opposite of C52, end to end: a location report of 28 bytes cut after 10 bytes, from a registered terminal whose
earlier fragments got past the crash, is recorded with speed and
direction as its latitude. -/
def cutEvs : List Ev :=
  demoEvs ++ [.frame (demoClk 1) demoC' (fragFrame 0x0200 2 1 ((demoLocMsg 3 31230000).encode.take 10)) none,
    .frame (demoClk 2) demoC (fragFrame 0x0200 2 2 ((demoLocMsg 3 31230000).encode.drop 10)) none]

theorem C52_wrong_position :
    (((Sys.start.run goEnv cutEvs).1.st.apiGeo (hdr2013 0).phone).2.2.map (fun e => e.2.lat.toNat)) =
      some (600 * 65536 + 90) := by decide +kernel

/-- Neither is the collected data ever dropped: a message that was completed is still there when the next one with the
same id starts, and its fragments are appended to it. -/
theorem C52_never_cleared (env : Env) (evs evs' : List Ev) (p : Str) (hp : (0x2f : UInt8) ∉ p) (id : UInt16)
    (ha : ¬ Ambiguous id) :
    ∃ more, (Sys.start.run env (evs ++ evs')).1.st.pending p id = (Sys.start.run env evs).1.st.pending p id ++ more := by
  rw [run_append]
  exact ⟨_, pending_run env evs' hp ha _⟩

/-- The reply to a middle fragment. -/
theorem middle_reply (env : Env) (clk : Clock) (c : Conn) (st : Store) (frame : List UInt8)
    (pd : Packet) (f : Frag) (hd : decodeFrame env frame = .ok pd) (hf : pd.header.isFragmented = true)
    (hg : pd.header.frag = some f) (s : Segment)
    (hs : st.segs.get (segKey pd.header.phone pd.header.msgID) = some s) (hl : f.index ≠ s.total)
    (hi : pd.header.msgID.toNat ∈ supportedIDs) (d : Device) (hp : st.look pd.header.phone = some d) (c' : Conn)
    (hc : st.session d.sessionID = some c') :
    ∃ st', st.handleFrame env clk c frame =
        (st', .reply (encodeFrame (writeHeader
          (genMsgHeader d.phone d.ver d.protoVer 0x8001 (nextSerial (st.serial c'.id)).2)
          (ackBody pd.header.serial.toNat pd.header.msgID.toNat 0)))) := by
  obtain ⟨r, hr, rfl⟩ := Store.look_some.1 hp
  obtain ⟨t, ht⟩ : ∃ t, MType.ofID pd.header.msgID = some t := by
    cases ht : MType.ofID pd.header.msgID with
    | some t => exact ⟨t, rfl⟩
    | none => exact absurd hi ((ofID_none_iff _).1 ht)
  let sg := st.segs.set (segKey pd.header.phone pd.header.msgID) (s.merge (Segment.ofPacket pd.header f pd.body.data))
  have hb : (f.index == s.total) = false := by simpa using hl
  have e1 : st.decodePacket env frame = ({ st with segs := sg }, .ok { pd with segCompleted := false }) := by
    unfold Store.decodePacket
    rw [hd]
    simp only [hf, hg, if_true, Store.cacheSegment, Segment.ofPacket, hs, Segment.merge, Segment.isComplete, hb, sg]
  have e2 : Store.devByPhone { st with segs := sg } pd.header.phone = some r := hr
  have e3 : Store.session { st with segs := sg } (st.heap r).sessionID = some c' := hc
  refine ⟨(Store.takeSerial { st with segs := sg } c').1, ?_⟩
  unfold Store.handleFrame
  rw [e1]
  simp only [Store.process, ht, hf, Bool.not_false, Bool.and_self, if_true, Store.processSegment, e2, e3, Out.encode,
    Msg.encodeBody, ackEncode]
  rfl

/-- What holds of C52: a fragment that is neither the first to arrive nor the last of its message, from a registered
terminal whose session is still known, is acknowledged with the serial number and id of the fragment.
Missing: the first fragment, and the processing of the whole message (theorems above). -/
theorem C52_middle_acknowledged_partial (env : Env) (clk : Clock) (c : Conn) (st : Store) (frame : List UInt8)
    (pd : Packet) (f : Frag) (hd : decodeFrame env frame = .ok pd) (hf : pd.header.isFragmented = true)
    (hg : pd.header.frag = some f) (s : Segment)
    (hs : st.segs.get (segKey pd.header.phone pd.header.msgID) = some s) (hl : f.index ≠ s.total)
    (hi : pd.header.msgID.toNat ∈ supportedIDs) (d : Device) (hp : st.look pd.header.phone = some d) (c' : Conn)
    (hc : st.session d.sessionID = some c') :
    ∃ st' h', st.handleFrame env clk c frame =
        (st', .reply (encodeFrame (writeHeader h' (ackBody pd.header.serial.toNat pd.header.msgID.toNat 0)))) ∧
      h'.msgID = 0x8001 ∧ h'.phone = d.phone ∧ h'.frag = none := by
  obtain ⟨st', e⟩ := middle_reply env clk c st frame pd f hd hf hg s hs hl hi d hp c' hc
  exact ⟨st', _, e, rfl, rfl, rfl⟩

-- a second fragment of three, after the first one crashed its connection
example : let st := (Sys.start.run goEnv (demoEvs ++
      [.frame (demoClk 1) demoC' (fragFrame 0x0200 3 1 [1, 2]) none])).1.st
    (∃ pd, decodeFrame goEnv (fragFrame 0x0200 3 2 [3]) = .ok pd ∧ pd.header.isFragmented = true ∧
      pd.header.frag = some ⟨3, 2⟩ ∧ pd.header.msgID.toNat ∈ supportedIDs) ∧
    ((st.segs.get (segKey (hdr2013 0).phone 0x0200)).map (·.total)) = some 3 ∧
    ((st.look (hdr2013 0).phone).bind fun d => st.session d.sessionID) = some demoC := by
  refine ⟨⟨_, rfl, rfl, rfl, by decide⟩, ?_, ?_⟩ <;> decide +kernel

end JT808
