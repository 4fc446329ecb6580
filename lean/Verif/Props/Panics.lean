import Verif.Proof.Panics
import Verif.Props.Endings
/-
C95: which frames make the handling of a frame panic.
-/
namespace JT808
open Spec

/-- The body is as long as its kind demands.  `declared`: the body length in the header. -/
structure Spec.Sized (id : Nat) (v2019 : Bool) (declared : Nat) (body : List UInt8) : Prop where
  /-- the fixed part is there -/
  fixed : minBodyLen id v2019 ≤ body.length
  /-- the rest of these bodies is delimited by the declared length -/
  rest : id = 0x0100 ∨ id = 0x8100 ∨ (id = 0x0102 ∧ v2019 = false) → minBodyLen id v2019 ≤ declared ∧ declared ≤ body.length
  /-- 2019: the code has its own length byte -/
  code : id = 0x0102 ∧ v2019 = true → ∃ n rest, body = n :: rest ∧ n.toNat + 35 ≤ rest.length
  /-- parameter lists have as many items, with supported ids, as they announce -/
  report : id = 0x0104 → ∃ a b n items, body = a :: b :: n :: items ∧ Spec.Items n.toNat items
  set : id = 0x8103 → ∃ n items, body = n :: items ∧ Spec.Items n.toNat items

/-- A body as long as its kind demands does not make its decoder panic. -/
theorem decode_sized (env : Env) (now : Civil) (h : Header) (t : MType) (s : Slice) (ht : MType.ofID h.msgID = some t)
    (hs : Spec.Sized h.msgID.toNat (h.attr.verDesc = .v2019) h.attr.bodyLength.toNat s.data) :
    t.decode env now h s 0 ≠ .panic := by
  have hid : ∀ x ∈ msgTable, x.2 = t → x.1 = h.msgID := by
    have hall : ∀ x ∈ msgTable, ∀ y ∈ msgTable, x.2 = y.2 → x.1 = y.1 := by decide
    intro x hx hxt
    have hm : (h.msgID, t) ∈ msgTable := by
      unfold MType.ofID at ht
      obtain ⟨l1, l2, e, -⟩ := List.lookup_eq_some_iff.mp ht
      rw [e]; simp
    exact hall x hx _ hm hxt
  obtain ⟨h1, h2, h3, h4, h5⟩ := hs
  refine Rd.Wp.noPanic (Q := fun _ _ => True) ?_
  cases t with
  | t0001 =>
    have e := hid (0x0001, .t0001) (by decide) rfl
    rw [← e] at h1; exact .bind ((wp_ack (by simpa [minBodyLen] using h1)).mono fun _ _ _ => .pure trivial)
  | t0002 => exact .pure trivial
  | t0003 => exact .pure trivial
  | t0100 =>
    have e := hid (0x0100, .t0100) (by decide) rfl
    rw [← e] at h2
    have := h2 (.inl rfl)
    refine .bind ((wp_register ?_ this.2).mono fun _ _ _ => .pure trivial)
    have := this.1
    by_cases hv9 : h.attr.verDesc = .v2019 <;> simp [hv9, minBodyLen] at this ⊢ <;> exact this
  | t0102 =>
    have e := hid (0x0102, .t0102) (by decide) rfl
    rw [← e] at h2 h3
    refine .bind ((wp_auth (fun hv => ?_) (fun hv => ?_)).mono fun _ _ _ => .pure trivial)
    · exact (h2 (.inr (.inr ⟨rfl, by simp [hv]⟩))).2
    · exact h3 ⟨rfl, by simp [hv]⟩
  | t0104 =>
    have e := hid (0x0104, .t0104) (by decide) rfl
    rw [← e] at h4
    obtain ⟨a, b, n, items, hb, hi⟩ := h4 rfl
    have hl : s.data.length = items.length + 3 := by rw [hb]; rfl
    refine .bind (Rd.Wp.mono (P := fun _ _ => True) ?_ fun _ _ _ => .pure trivial)
    unfold ParamsMsg.decode
    refine .bind (wp_word (by omega) fun _ => .bind (wp_byte (by omega) fun x hx => .bind (wp_onRest (by omega) ?_)))
    rw [hb] at hx
    simp at hx
    subst hx
    unfold DeviceParams.decode
    refine .bind ?_
    have hd : s.data.drop (0 + 2 + 1) = items := by rw [hb]; rfl
    rw [hd]
    exact (wp_items hi [] s.slack).mono fun _ _ _ => .pure (.pure trivial)
  | t0200 =>
    have e := hid (0x0200, .t0200) (by decide) rfl
    rw [← e] at h1; exact .bind ((wp_loc (by simpa [minBodyLen] using h1)).mono fun _ _ _ => .pure trivial)
  | t1205 =>
    have e := hid (0x1205, .t1205) (by decide) rfl
    rw [← e] at h1; exact .bind ((wp_media (by simpa [minBodyLen] using h1)).mono fun _ _ _ => .pure trivial)
  | t8001 =>
    have e := hid (0x8001, .t8001) (by decide) rfl
    rw [← e] at h1; exact .bind ((wp_ack (by simpa [minBodyLen] using h1)).mono fun _ _ _ => .pure trivial)
  | t8100 =>
    have e := hid (0x8100, .t8100) (by decide) rfl
    rw [← e] at h2
    have := h2 (.inr (.inl rfl))
    exact .bind ((wp_registerAck (by simpa [minBodyLen] using this.1) this.2).mono fun _ _ _ => .pure trivial)
  | t8103 =>
    have e := hid (0x8103, .t8103) (by decide) rfl
    rw [← e] at h5
    obtain ⟨n, items, hb, hi⟩ := h5 rfl
    have hl : s.data.length = items.length + 1 := by rw [hb]; rfl
    refine .bind (Rd.Wp.mono (P := fun _ _ => True) ?_ fun _ _ _ => .pure trivial)
    unfold SetParams.decode
    refine .bind (wp_byte (by omega) fun x hx => .bind (wp_onRest (by omega) ?_))
    rw [hb] at hx
    simp at hx
    subst hx
    unfold DeviceParams.decode
    refine .bind ?_
    have hd : s.data.drop (0 + 1) = items := by rw [hb]; rfl
    rw [hd]
    exact (wp_items hi [] s.slack).mono fun _ _ _ => .pure (.pure trivial)
  | t8104 => exact .pure trivial
  | t9205 =>
    have e := hid (0x9205, .t9205) (by decide) rfl
    rw [← e] at h1
    exact .bind ((wp_query (Q := fun _ _ => True) (by simpa [minBodyLen] using h1) fun _ => trivial).mono fun _ _ _ => .pure trivial)

/-- No handler panics on a decoded message, and what it answers can be encoded. -/
theorem finish_handle_no_panic {env : Env} {clk : Clock} {c : Conn} {st : Store} (hi : StoreInv st) (h : Header) (m : Msg)
    (hm : ∀ q, m = .m8103 q → q.params.phone = h.phone ∧ q.params.Typed) :
    (finish env (st.handle env clk c h m)).2 ≠ .panicked := by
  have typed : ∀ q : DeviceParams, q.Typed → (finish env (st, .ok (some (gen0104 h q)))).2 ≠ .panicked ∧
      ∀ st', (finish env (st', .ok (some (gen0104 h q)))).2 ≠ .panicked := by
    intro q hq
    obtain ⟨bs, e⟩ := hq.encode (env := env)
    constructor
    · simp [finish, gen0104, Out.encode, Msg.encodeBody, ParamsMsg.encode, e]
    · intro st'; simp [finish, gen0104, Out.encode, Msg.encodeBody, ParamsMsg.encode, e]
  cases m with
  | m0001 => simp [Store.handle, finish]
  | m0002 =>
    simp only [Store.handle, process0002]
    split
    · simp [finish]
    · simp [finish_gen8001]
  | m0003 =>
    simp only [Store.handle, process0003]
    split
    · simp [finish]
    · simp [finish_gen8001]
  | m0100 m =>
    simp only [Store.handle, process0100]
    split
    · simp [finish_gen8100]
    · split <;> simp [finish_gen8100]
  | m0102 m =>
    simp only [Store.handle, process0102]
    split
    · simp [finish]
    · split <;> simp [finish_gen8001]
  | m0104 => simp [Store.handle, finish]
  | m0200 m =>
    simp only [Store.handle]
    cases hr : st.byPhone.get h.phone with
    | none => simp [process0200, Store.devByPhone, hr, finish]
    | some r =>
      obtain ⟨rb', -, -, h3⟩ := process0200_eq (clk := clk) hi hr m
      rw [h3, finish_gen8001]; simp
  | m1205 => simp [Store.handle, finish]
  | m8001 m =>
    simp only [Store.handle, process8001]
    split
    · split
      · simp [finish]
      · split <;> simp [finish]
    · simp [finish]
  | m8100 m =>
    simp only [Store.handle, process8100]
    split <;> simp [finish, gen0102, Out.encode, Msg.encodeBody]
  | m8103 m => simp [Store.handle, process8103, finish_gen0001]
  | m8104 =>
    simp only [Store.handle, process8104, Store.paramsOf]
    cases hp : st.params.get h.phone with
    | some q => exact (typed q (hi.params _ _ hp).2).1
    | none =>
      obtain ⟨q, j, e⟩ := fixedDecode_ok env h.phone
      simp only [e]
      exact (typed q (DeviceParams.decode_typed e)).2 _
  | m9205 m => simp [Store.handle, finish, gen1205, Out.encode, Msg.encodeBody]

/-- Handling a frame that brought a whole message never panics, in whatever state the server is. -/
theorem C95_whole_message (env : Env) (clk : Clock) (c : Conn) (st : Store) (hr : Reachable env st) (frame : List UInt8)
    (h : Header) (m : Msg) (hd : Delivers env clk.civil st frame h m) :
    (st.handleFrame env clk c frame).2 ≠ .panicked := by
  obtain ⟨st1, pkt, t, j, e1, e2, e3, e4, e5⟩ := hd
  have hi : StoreInv st1 := by
    obtain ⟨sg, hs⟩ := decodePacket_segs env st frame
    rw [e1] at hs; simp only at hs; subst hs
    exact hr.inv.of_same ⟨rfl, rfl, rfl, rfl, rfl⟩ hr.inv.rings hr.inv.params
  have hh : (st.handleFrame env clk c frame).2 = (finish env (st1.handle env clk c h m)).2 := by
    unfold Store.handleFrame
    rw [e1]
    simp only [Store.process]
    rw [e2, e3]
    simp only
    rw [e4, if_neg (by simp), e5]
    simp only
    rcases st1.handle env clk c h m with ⟨st2, r⟩
    cases r with
    | err e => rfl
    | panic => rfl
    | ok o =>
      cases o with
      | none => rfl
      | some o => simp only [finish]; cases Out.encode env o <;> rfl
  rw [hh]
  exact finish_handle_no_panic hi h m fun q hq => by subst hq; exact decode_8103_phone e5

/-- A frame with a whole message, with a body as long as its kind demands, never makes the handling panic. -/
theorem C95_sized (env : Env) (clk : Clock) (c : Conn) (st : Store) (hr : Reachable env st) (frame : List UInt8)
    (pd : Packet) (hd : decodeFrame env frame = .ok pd) (hf : pd.header.isFragmented = false)
    (hs : Spec.Sized pd.header.msgID.toNat (pd.header.attr.verDesc = .v2019) pd.header.attr.bodyLength.toNat pd.body.data) :
    (st.handleFrame env clk c frame).2 ≠ .panicked := by
  cases ht : MType.ofID pd.header.msgID with
  | none =>
    rw [handleFrame_packet hd hf]
    simp [Store.process, ht, finish]
  | some t =>
    cases hm : t.decode env clk.civil pd.header pd.body 0 with
    | ok a =>
      refine C95_whole_message env clk c st hr frame pd.header a.1 ⟨st, pd, t, a.2, decodePacket_unfrag hd hf, rfl, ht, ?_, hm⟩
      simp [hf]
    | err e =>
      rw [handleFrame_packet hd hf]
      simp [Store.process, ht, hf, hm, finish]
    | panic =>
      exact absurd hm (decode_sized env clk.civil pd.header t pd.body ht hs)

theorem header_frag {s : Slice} {i j : Nat} {h : Header} (hd : Header.decode s i = .ok (h, j))
    (hf : h.isFragmented = true) : ∃ f, h.frag = some f := by
  unfold Header.decode at hd
  obtain ⟨_, _, -, hd⟩ := rd_bind_ok hd
  obtain ⟨w, _, -, hd⟩ := rd_bind_ok hd
  obtain ⟨_, _, -, hd⟩ := rd_bind_ok hd
  obtain ⟨_, _, -, hd⟩ := rd_bind_ok hd
  obtain ⟨_, _, -, hd⟩ := rd_bind_ok hd
  obtain ⟨f, _, h1, hd⟩ := rd_bind_ok hd
  injection hd with hd; injection hd with hd _; subst hd
  have hw : (Attr.decode w).fragDesc = true := hf
  unfold Header.decodeFrag at h1
  rw [if_pos hw] at h1
  obtain ⟨g, _, -, h2⟩ := rd_bind_ok h1
  injection h2 with h2; injection h2 with h2 _
  exact ⟨g, h2.symm⟩

theorem decodeFrame_frag {env : Env} {frame : List UInt8} {pd : Packet} (hd : decodeFrame env frame = .ok pd)
    (hf : pd.header.isFragmented = true) : ∃ f, pd.header.frag = some f := by
  unfold decodeFrame at hd
  simp only at hd
  split at hd
  · cases hd
  · split at hd
    · cases hd
    · cases hd
    · split at hd
      · cases hd
      · cases hd
      · next h _ hh =>
        split at hd
        · cases hd
        · cases hd
        · injection hd with hd; subst hd; exact header_frag hh hf

/-- The frames that do make it panic: no header, a first fragment, a body its decoder runs out of, and a further
fragment for a terminal whose session is gone. -/
theorem C95_exact (env : Env) (clk : Clock) (c : Conn) (st : Store) (hr : Reachable env st) (frame : List UInt8) :
    (st.handleFrame env clk c frame).2 = .panicked ↔
      decodeFrame env frame = .panic ∨
      ∃ pd, decodeFrame env frame = .ok pd ∧
        ((pd.header.isFragmented = true ∧ st.segs.get (segKey pd.header.phone pd.header.msgID) = none) ∨
         (pd.header.isFragmented = false ∧
            ∃ t, MType.ofID pd.header.msgID = some t ∧ t.decode env clk.civil pd.header pd.body 0 = .panic) ∨
         (∃ f, pd.header.isFragmented = true ∧ pd.header.frag = some f ∧
            ∃ s, st.segs.get (segKey pd.header.phone pd.header.msgID) = some s ∧
              ∃ t, MType.ofID pd.header.msgID = some t ∧
                ((f.index = s.total ∧ t.decode env clk.civil pd.header pd.body 0 = .panic) ∨
                 (f.index ≠ s.total ∧ ∃ d, st.look pd.header.phone = some d ∧ st.session d.sessionID = none)))) := by
  have fin : ∀ (st1 : Store) (pkt : Packet), st.decodePacket env frame = (st1, .ok pkt) →
      st.handleFrame env clk c frame = finish env (st1.process env clk c pkt) := by
    intro st1 pkt e
    unfold Store.handleFrame
    rw [e]
    simp only
    rcases st1.process env clk c pkt with ⟨st2, r⟩
    cases r with
    | err e => rfl
    | panic => rfl
    | ok o =>
      cases o with
      | none => rfl
      | some o => simp only [finish]; cases Out.encode env o <;> rfl
  cases hd : decodeFrame env frame with
  | panic =>
    have : st.decodePacket env frame = (st, .panic) := by unfold Store.decodePacket; rw [hd]
    unfold Store.handleFrame
    rw [this]
    simp
  | err e =>
    have : st.decodePacket env frame = (st, .err e) := by unfold Store.decodePacket; rw [hd]
    unfold Store.handleFrame
    rw [this]
    simp
  | ok pd =>
    simp only [reduceCtorEq, Res.ok.injEq, exists_eq_left', false_or]
    -- a whole message
    have whole : ∀ (st1 : Store) (b : Bool) (t : MType), st.decodePacket env frame = (st1, .ok { pd with segCompleted := b }) →
        MType.ofID pd.header.msgID = some t → (pd.header.isFragmented && !b) = false →
        ((st.handleFrame env clk c frame).2 = .panicked ↔ t.decode env clk.civil pd.header pd.body 0 = .panic) := by
      intro st1 b t e ht hb
      cases hm : t.decode env clk.civil pd.header pd.body 0 with
      | ok a =>
        have := C95_whole_message env clk c st hr frame pd.header a.1 ⟨st1, _, t, a.2, e, rfl, ht, hb, hm⟩
        simp [this]
      | err e' =>
        rw [fin _ _ e]
        simp [Store.process, ht, hb, hm, finish]
      | panic =>
        rw [fin _ _ e]
        simp [Store.process, ht, hb, hm, finish]
    by_cases hf : pd.header.isFragmented = true
    · obtain ⟨f, hfr⟩ := decodeFrame_frag hd hf
      simp only [hf, hfr, true_and, Bool.true_eq_false, false_and, Option.some.injEq, exists_eq_left', false_or]
      cases hs : st.segs.get (segKey pd.header.phone pd.header.msgID) with
      | none =>
        have : (st.decodePacket env frame).2 = .panic := by
          unfold Store.decodePacket Store.cacheSegment
          simp [hd, hf, hfr, Segment.ofPacket, hs]
        have h2 : (st.handleFrame env clk c frame).2 = .panicked := by
          unfold Store.handleFrame
          rcases h1 : st.decodePacket env frame with ⟨st1, r⟩
          rw [h1] at this; simp only at this; subst this; rfl
        simp [h2]
      | some s =>
        simp only [reduceCtorEq, Option.some.injEq, exists_eq_left', false_or]
        have hdec : ∃ sg, st.decodePacket env frame = ({ st with segs := sg }, .ok { pd with segCompleted := f.index == s.total }) := by
          unfold Store.decodePacket Store.cacheSegment
          simp [hd, hf, hfr, Segment.ofPacket, hs, Segment.merge, Segment.isComplete]
        obtain ⟨sg, hdec⟩ := hdec
        cases ht : MType.ofID pd.header.msgID with
        | none =>
          rw [fin _ _ hdec]
          simp [Store.process, ht, finish]
        | some t =>
          simp only [Option.some.injEq, exists_eq_left']
          by_cases hb : f.index = s.total
          · rw [whole _ _ t hdec ht (by simp [hb])]
            simp [hb]
          · rw [fin _ _ hdec]
            have hb' : (f.index == s.total) = false := by simpa using hb
            simp only [Store.process, ht, hf, hb', Bool.not_false, Bool.and_self, if_true, hb, not_false_eq_true,
              false_and, true_and, false_or, ne_eq]
            unfold Store.processSegment Store.look
            have hdv : Store.devByPhone { st with segs := sg } pd.header.phone = st.devByPhone pd.header.phone := rfl
            rw [hdv]
            cases hp : st.devByPhone pd.header.phone with
            | none => simp [finish]
            | some r =>
              simp only [Option.map_some, Option.some.injEq, exists_eq_left']
              have hse : ∀ a, Store.session { st with segs := sg } a = st.session a := fun _ => rfl
              rw [hse]
              cases hx : st.session (st.heap r).sessionID with
              | none => simp [finish]
              | some cn => simp [finish, Out.encode, Msg.encodeBody]
    · have hf' : pd.header.isFragmented = false := by simpa using hf
      simp only [hf', Bool.false_eq_true, false_and, true_and, false_or, exists_false, or_false]
      cases ht : MType.ofID pd.header.msgID with
      | none =>
        rw [handleFrame_packet hd hf']
        simp [Store.process, ht, finish]
      | some t =>
        simp only [Option.some.injEq, exists_eq_left']
        have e : st.decodePacket env frame = (st, .ok pd) := decodePacket_unfrag hd hf'
        exact whole st pd.segCompleted t e ht (by simp [hf'])

-- a location report of the demo terminal is long enough
example : (demoSys.st.handleFrame goEnv (demoClk 2000) demoC (demoLoc 3 31230000)).2 ≠ .panicked := by
  have hs : Spec.Sized 0x0200 false 28 (demoLocMsg 3 31230000).encode :=
    ⟨by decide, fun h => absurd h (by decide), fun h => absurd h (by decide), fun h => absurd h (by decide),
      fun h => absurd h (by decide)⟩
  exact C95_sized goEnv _ _ _ demo_reachable _ _ rfl rfl hs
-- a list of two parameters, as many as announced
example : Spec.Items 2 [0,0,0,1, 4, 0,0,0,30, 0,0,0,0x84, 1, 2] :=
  .cons (id := 1) (t := .dword) (len := 4) (value := [0,0,0,30]) (by decide) rfl
    (.cons (id := 0x84) (t := .byte) (len := 1) (value := [2]) (rest := []) (by decide) rfl (.nil _))
-- panics: a general reply without its result, an unsupported parameter id, a first fragment
example : (demoSys.st.handleFrame goEnv (demoClk 2000) demoC (msgFrame (hdr2013 0x0001) [0, 1, 2, 0])).2 = .panicked ∧
    (demoSys.st.handleFrame goEnv (demoClk 2000) demoC (msgFrame (hdr2013 0x8103) [1, 0,0,0xff,0xff, 1, 0])).2 = .panicked ∧
    (demoSys.st.handleFrame goEnv (demoClk 2000) demoC (demoFrag 1)).2 = .panicked := by decide +kernel

end JT808
