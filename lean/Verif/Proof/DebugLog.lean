import Verif.Proof.LogText
/-
The way of a frame with its log.
-/
namespace JT808
open Spec

/-! ### Times of decoded messages -/

/-- What a decoder returns has the property. -/
def Rd.Gives {α : Type} (r : Rd α) (P : α → Prop) : Prop := ∀ s i a j, r s i = .ok (a, j) → P a

theorem Rd.Gives.bind {α β : Type} {r : Rd α} {f : α → Rd β} {Q : α → Prop} {P : β → Prop} (hr : r.Gives Q)
    (hf : ∀ a, Q a → (f a).Gives P) : (r >>= f).Gives P := by
  intro s i b j h
  change Rd.bind r f s i = _ at h
  unfold Rd.bind at h
  split at h
  · rename_i a k hk
    exact hf a (hr s i a k hk) s k b j h
  · cases h
  · cases h

theorem Rd.Gives.pure {α : Type} {a : α} {P : α → Prop} (h : P a) : (Pure.pure a : Rd α).Gives P := by
  intro s i b j e
  change Res.ok (a, i) = .ok (b, j) at e
  cases e
  exact h

theorem Rd.Gives.any {α : Type} (r : Rd α) : r.Gives fun _ => True := fun _ _ _ _ _ => trivial

theorem Rd.Gives.onRest {α : Type} {r : Rd α} {P : α → Prop} (h : r.Gives P) : r.onRest.Gives P := by
  intro s i a j e
  unfold Rd.onRest at e
  split at e
  · split at e
    · rename_i s' _ x k hk
      cases e
      exact h _ _ _ _ hk
    · cases e
    · cases e
  · cases e
  · cases e

theorem parseYear_lt {s r : Str} {y : Nat} (h : parseYear s = some (y, r)) : y < 10000 := by
  unfold parseYear at h
  split at h
  · rename_i a b rest
    split at h
    · simp only [Option.some.injEq, Prod.mk.injEq] at h
      have ha := a.toNat_lt
      have hb := b.toNat_lt
      unfold digitVal at h
      obtain ⟨h, _⟩ := h
      split at h <;> omega
    · cases h
  · cases h

theorem timeParse_year {s : Str} {t : Civil} (h : timeParse s = some t) : t.year < 10000 := by
  unfold timeParse at h
  split at h
  · cases h
  rename_i y s1 hy
  repeat' split at h
  all_goals try cases h
  exact parseYear_lt hy

theorem readTime_year {now : Civil} (hn : now.year < 10000) : (readTime now).Gives fun t => t.year < 10000 := by
  refine (Rd.Gives.any _).bind fun s _ => .pure ?_
  unfold parseTime
  split
  · rename_i t h; exact timeParse_year h
  · exact hn

theorem query_years {now : Civil} (hn : now.year < 10000) :
    (MediaQuery.decode now).Gives fun q => q.start.year < 10000 ∧ q.stop.year < 10000 := by
  unfold MediaQuery.decode
  refine (Rd.Gives.any _).bind fun _ _ => (readTime_year hn).bind fun a ha => (readTime_year hn).bind fun b hb => ?_
  refine (Rd.Gives.any _).bind fun _ _ => (Rd.Gives.any _).bind fun _ _ => (Rd.Gives.any _).bind fun _ _ => ?_
  exact (Rd.Gives.any _).bind fun _ _ => (Rd.Gives.any _).bind fun _ _ => .pure ⟨ha, hb⟩

theorem decode_timely {env : Env} {now : Civil} (hn : now.year < 10000) (h : Header) (t : MType) :
    (t.decode env now h).Gives Msg.timely := by
  cases t with
  | t9205 => exact (query_years hn).bind fun q hq => .pure hq
  | t1205 =>
    refine Rd.Gives.bind (Q := fun m : MediaList => m.query.start.year < 10000 ∧ m.query.stop.year < 10000) ?_
      fun m hm => .pure hm
    unfold MediaList.decode
    refine (Rd.Gives.any _).bind fun _ _ => (Rd.Gives.any _).bind fun _ _ => ?_
    refine Rd.Gives.bind (Q := fun p : MediaQuery × UInt32 => p.1.start.year < 10000 ∧ p.1.stop.year < 10000) ?_
      fun p hp => .pure hp
    refine Rd.Gives.onRest ?_
    unfold mediaDecode
    exact (query_years hn).bind fun q hq => (Rd.Gives.any _).bind fun _ _ => .pure hq
  | t0002 => exact .pure trivial
  | t0003 => exact .pure trivial
  | t8104 => exact .pure trivial
  | t0001 => exact (Rd.Gives.any _).bind fun _ _ => .pure trivial
  | t0100 => exact (Rd.Gives.any _).bind fun _ _ => .pure trivial
  | t0102 => exact (Rd.Gives.any _).bind fun _ _ => .pure trivial
  | t0104 => exact (Rd.Gives.any _).bind fun _ _ => .pure trivial
  | t0200 => exact (Rd.Gives.any _).bind fun _ _ => .pure trivial
  | t8001 => exact (Rd.Gives.any _).bind fun _ _ => .pure trivial
  | t8100 => exact (Rd.Gives.any _).bind fun _ _ => .pure trivial
  | t8103 => exact (Rd.Gives.any _).bind fun _ _ => .pure trivial

/-! ### What is done is the same -/

/-- An answer carries no other times than the message. -/
theorem handle_timely {env : Env} {clk : Clock} {c : Conn} {st : Store} {h : Header} {m : Msg} (hm : m.timely) {o : Out}
    (ho : (st.handle env clk c h m).2 = .ok (some o)) : o.2.timely := by
  cases m with
  | m9205 m => cases ho; exact hm
  | m0001 m => cases ho
  | m0104 m => cases ho
  | m1205 m => cases ho
  | m0002 =>
    simp only [Store.handle, process0002] at ho
    repeat' split at ho
    all_goals cases ho
    all_goals exact trivial
  | m0003 =>
    simp only [Store.handle, process0003] at ho
    repeat' split at ho
    all_goals cases ho
    all_goals exact trivial
  | m0100 m =>
    simp only [Store.handle, process0100] at ho
    repeat' split at ho
    all_goals cases ho
    all_goals exact trivial
  | m0102 m =>
    simp only [Store.handle, process0102] at ho
    repeat' split at ho
    all_goals cases ho
    all_goals exact trivial
  | m0200 m =>
    simp only [Store.handle, process0200] at ho
    split at ho
    · cases ho
    · split at ho <;> cases ho
      exact trivial
  | m8001 m =>
    simp only [Store.handle, process8001] at ho
    repeat' split at ho
    all_goals cases ho
  | m8100 m =>
    simp only [Store.handle, process8100] at ho
    repeat' split at ho
    all_goals cases ho
    all_goals exact trivial
  | m8103 m =>
    simp only [Store.handle, process8103] at ho
    cases ho
    exact trivial
  | m8104 =>
    simp only [Store.handle, process8104] at ho
    split at ho
    · cases ho; exact trivial
    · split at ho <;> cases ho
      exact trivial

theorem pending_timely {h : Header} {m : Msg} (hm : m.timely) {o : Out} (ho : pendingOut h m = some o) : o.2.timely := by
  cases m with
  | m9205 m => cases ho; exact hm
  | _ => cases ho <;> exact trivial

/-- The lines of a message are JSON objects. -/
def LogEv.sound : LogEv → Prop
  | .incoming _ _ t => ∃ kvs, JText t (.obj kvs)
  | .outgoing _ _ t => ∃ kvs, JText t (.obj kvs)
  | _ => True

/-- The lines about frames. -/
def LogEv.aboutFrame : LogEv → Bool
  | .received _ _ => true
  | .sent _ => true
  | _ => false

/-- Writing a time gives characters within quotation marks. -/
def LogSetup.shows (L : LogSetup) (time : Civil → List Nat) : Prop := ∀ t, JChars (L.showTime t) (time t)

theorem outgoing_shown {L : LogSetup} {time : Civil → List Nat} (ht : L.shows time) (id : Str) (o : Out) (ho : o.2.timely) :
    ∃ text v, L.outgoingEv id o = .outgoing id o.1.msgID text ∧ MsgShown time o.1 o.2 v ∧ JText text v := by
  obtain ⟨text, v, h1, h2, h3⟩ := marshal_shown ht L.nilParams o.1 o.2 ho
  exact ⟨text, v, by unfold LogSetup.outgoingEv; rw [h1], h2, h3⟩

/-- Process does the same with the log as without, and logs nothing of frames. -/
theorem processLogged_same {L : LogSetup} {time : Civil → List Nat} (ht : L.shows time) (env : Env) {clk : Clock}
    (hy : clk.civil.year < 10000) (c s : Conn) (st : Store) (pkt : Packet) :
    (st.processLogged L env clk c (some s) pkt).1 = st.process env clk c pkt ∧
    ∀ e ∈ (st.processLogged L env clk c (some s) pkt).2, e.sound ∧ e.aboutFrame = false := by
  unfold Store.processLogged Store.process
  cases MType.ofID pkt.header.msgID with
  | none => exact ⟨rfl, by intro e he; cases he⟩
  | some t =>
    simp only
    split
    · exact ⟨rfl, by intro e he; cases he⟩
    · cases hd : t.decode env clk.civil pkt.header pkt.body 0 with
      | err e => exact ⟨rfl, by intro e he; cases he⟩
      | panic => exact ⟨rfl, by intro e he; cases he⟩
      | ok x =>
        obtain ⟨m, j⟩ := x
        have hm := decode_timely hy pkt.header t _ _ _ _ hd
        simp only
        split
        · obtain ⟨text, v, h1, h2, h3⟩ := marshal_shown ht true pkt.header m hm
          simp only [h1]
          refine ⟨trivial, ?_⟩
          intro e he
          rcases List.mem_cons.1 he with rfl | he
          · obtain ⟨hv, kvs, _, _, rfl⟩ := h2
            exact ⟨⟨_, h3⟩, rfl⟩
          · have key : ∀ o : Option Out, (∀ x, o = some x → x.2.timely) →
                e ∈ (o.map (L.outgoingEv s.addr)).toList → e.sound ∧ e.aboutFrame = false := by
              intro o ho he
              cases o with
              | none => cases he
              | some o =>
                simp only [Option.map_some, Option.toList_some, List.mem_singleton] at he
                obtain ⟨text, v, h4, ⟨hv, kvs, _, _, e⟩, h5⟩ := outgoing_shown ht s.addr o (ho o rfl)
                subst e
                rw [he, h4]
                exact ⟨⟨_, h5⟩, rfl⟩
            refine key _ ?_ he
            intro o ho
            split at ho
            · rename_i x hx
              subst ho
              exact handle_timely hm hx
            · exact pending_timely hm ho
        · exact ⟨rfl, by intro e he; cases he⟩

theorem handleLogged_same {L : LogSetup} {time : Civil → List Nat} (ht : L.shows time) (env : Env) {clk : Clock}
    (hy : clk.civil.year < 10000) (c : Conn) (st : Store) (frame : List UInt8) :
    (st.handleLogged L env clk c (some c) frame).1 = st.handleFrame env clk c frame ∧
    ∃ rest, (st.handleLogged L env clk c (some c) frame).2 = L.recvLog (some c) frame ++ rest ∧
      ∀ e ∈ rest, e.sound ∧ e.aboutFrame = false := by
  unfold Store.handleLogged Store.handleFrame
  rw [if_neg (by simp)]
  simp only
  cases st.decodePacket env frame with
  | mk t r =>
    cases r with
    | err e => exact ⟨rfl, [], by simp, by intro e he; cases he⟩
    | panic => exact ⟨rfl, [], by simp, by intro e he; cases he⟩
    | ok pkt =>
      simp only
      obtain ⟨h1, h2⟩ := processLogged_same ht env hy c c t pkt
      revert h1 h2
      cases t.processLogged L env clk c (some c) pkt with
      | mk a log =>
        intro h1 h2
        simp only at h1 h2
        rw [← h1]
        obtain ⟨u, v⟩ := a
        cases v with
        | err e => exact ⟨rfl, log, rfl, h2⟩
        | panic => exact ⟨rfl, log, rfl, h2⟩
        | ok o =>
          cases o with
          | none => exact ⟨rfl, log, rfl, h2⟩
          | some o =>
            simp only
            cases Out.encode env o with
            | ok f => exact ⟨rfl, log, rfl, h2⟩
            | err e => exact ⟨rfl, log, rfl, h2⟩
            | panic => exact ⟨rfl, log, rfl, h2⟩

theorem kept_debug {L : LogSetup} (h : L.debug = true) (es : List LogEv) : L.kept es = es := by
  unfold LogSetup.kept
  rw [List.filter_eq_self]
  intro e _
  unfold LogSetup.debug at h
  unfold writes
  have : parseLevel L.level = 0 := by simpa [Level.num] using h
  rw [this]
  exact decide_eq_true (Nat.zero_le _)

theorem kept_quiet {L : LogSetup} (h : L.debug = false) {es : List LogEv} {e : LogEv} (he : e ∈ L.kept es) :
    ∃ id x, e = .failed id x := by
  unfold LogSetup.kept at he
  rw [List.mem_filter] at he
  unfold LogSetup.debug at h
  have h0 : parseLevel L.level ≠ 0 := by simpa [Level.num] using h
  have h1 : parseLevel L.level ≤ e.level.num := of_decide_eq_true he.2
  cases e with
  | failed id x => exact ⟨id, x, rfl⟩
  | _ => simp only [LogEv.level, Level.num] at h1; omega

theorem kept_subset {L : LogSetup} {es : List LogEv} {e : LogEv} (he : e ∈ L.kept es) : e ∈ es :=
  (List.mem_filter.1 he).1

theorem kept_append {L : LogSetup} (a b : List LogEv) : L.kept (a ++ b) = L.kept a ++ L.kept b := List.filter_append ..

/-- The lines about frames, in order. -/
def frameLines (es : List LogEv) : List LogEv := es.filter LogEv.aboutFrame

theorem frameLines_append (a b : List LogEv) : frameLines (a ++ b) = frameLines a ++ frameLines b := List.filter_append ..

theorem frameLines_none {es : List LogEv} (h : ∀ e ∈ es, e.aboutFrame = false) : frameLines es = [] := by
  unfold frameLines
  rw [List.filter_eq_nil_iff]
  intro e he
  rw [h e he]
  decide

/-- What a pass should say of frames at debug level: the one received, then the one sent. -/
def Spec.frameLog (c : Conn) (frame : List UInt8) (o : Obs) : List LogEv :=
  (if frame = [] then [] else [.received c.addr frame]) ++ (match o.sent with
    | some (_, f) => [.sent f]
    | none => [])

theorem firstLine_debug {L : LogSetup} (h : L.debug = true) (c : Conn) (frame : List UInt8) :
    L.recvLog (some c) frame = if frame = [] then [] else [.received c.addr frame] := by
  unfold LogSetup.recvLog
  simp only [if_pos h]
  cases frame <;> rfl

theorem firstLine_sound {L : LogSetup} {c : Conn} {frame : List UInt8} {e : LogEv} (he : e ∈ L.recvLog (some c) frame) : e.sound := by
  simp only [LogSetup.recvLog] at he
  repeat' split at he
  all_goals simp only [List.mem_singleton, List.not_mem_nil] at he
  subst he; trivial

theorem serveLogged_same {L : LogSetup} {time : Civil → List Nat} (ht : L.shows time) (env : Env) {clk : Clock}
    (hy : clk.civil.year < 10000) (c : Conn) (werr : Option Err) (st : Store) (frame : List UInt8) :
    (st.serveLogged L env clk c werr frame).1 = st.serveFrame env clk c werr frame ∧
    (∀ e ∈ (st.serveLogged L env clk c werr frame).2, e.sound) ∧
    (L.debug = true → frameLines (st.serveLogged L env clk c werr frame).2 =
      Spec.frameLog c frame (st.serveFrame env clk c werr frame).2) ∧
    (L.debug = false → ∀ e ∈ (st.serveLogged L env clk c werr frame).2, ∃ id x, e = .failed id x) := by
  obtain ⟨h1, rest, h2, h3⟩ := handleLogged_same ht env hy c st frame
  unfold Store.serveLogged Store.serveFrame
  rw [← h1]
  revert h2
  cases st.handleLogged L env clk c (some c) frame with
  | mk a log =>
    intro h2
    simp only at h2
    subst h2
    have snd : ∀ tl : List LogEv, (∀ e ∈ tl, e.sound) → ∀ e ∈ L.kept (L.recvLog (some c) frame ++ rest ++ tl), e.sound := by
      intro tl htl e he
      have he := kept_subset he
      rcases List.mem_append.1 he with he | he
      · rcases List.mem_append.1 he with he | he
        · exact firstLine_sound he
        · exact (h3 e he).1
      · exact htl e he
    have lin : ∀ tl : List LogEv, L.debug = true → frameLines (L.kept (L.recvLog (some c) frame ++ rest ++ tl)) =
        (if frame = [] then [] else [.received c.addr frame]) ++ frameLines tl := by
      intro tl hd
      rw [kept_debug hd, frameLines_append, frameLines_append, frameLines_none fun e he => (h3 e he).2, List.append_nil,
        firstLine_debug hd]
      by_cases hf : frame = []
      · rw [if_pos hf]; rfl
      · rw [if_neg hf]; rfl
    have snd0 := snd [] (by intro e he; cases he)
    have lin0 := lin []
    rw [List.append_nil] at snd0 lin0
    obtain ⟨st', o⟩ := a
    cases o with
    | silent => exact ⟨rfl, snd0, lin0, fun hq e he => kept_quiet hq he⟩
    | panicked =>
      exact ⟨rfl, snd _ (by intro e he; rw [List.mem_singleton.1 he]; trivial), lin _, fun hq e he => kept_quiet hq he⟩
    | failed x =>
      simp only
      split
      · refine ⟨rfl, snd _ ?_, lin _, fun hq e he => kept_quiet hq he⟩
        intro e he
        simp only [List.mem_cons, List.not_mem_nil, or_false] at he
        rcases he with rfl | rfl <;> trivial
      · exact ⟨rfl, snd _ (by intro e he; rw [List.mem_singleton.1 he]; trivial), lin _, fun hq e he => kept_quiet hq he⟩
    | reply f =>
      simp only
      cases werr with
      | none =>
        exact ⟨rfl, snd _ (by intro e he; rw [List.mem_singleton.1 he]; trivial), lin _, fun hq e he => kept_quiet hq he⟩
      | some x =>
        simp only
        split
        · refine ⟨rfl, snd _ ?_, lin _, fun hq e he => kept_quiet hq he⟩
          intro e he
          simp only [List.mem_cons, List.not_mem_nil, or_false] at he
          rcases he with rfl | rfl <;> trivial
        · exact ⟨rfl, snd _ (by intro e he; rw [List.mem_singleton.1 he]; trivial), lin _, fun hq e he => kept_quiet hq he⟩

theorem serveErrLogged_same (L : LogSetup) (c : Conn) (st : Store) (x : Err) :
    (st.serveErrLogged L c x).1 = st.serveErr c x ∧ (∀ e ∈ (st.serveErrLogged L c x).2, e.sound ∧ e.aboutFrame = false) ∧
    (st.serveErr c x).2.sent = none ∧ (L.debug = false → ∀ e ∈ (st.serveErrLogged L c x).2, ∃ id x, e = .failed id x) := by
  unfold Store.serveErrLogged Store.serveErr
  split
  · refine ⟨rfl, ?_, rfl, fun hq e he => kept_quiet hq he⟩
    intro e he
    have he := kept_subset he
    simp only [List.mem_cons, List.not_mem_nil, or_false] at he
    rcases he with rfl | rfl <;> exact ⟨trivial, rfl⟩
  · refine ⟨rfl, ?_, rfl, fun hq e he => kept_quiet hq he⟩
    intro e he
    have he := kept_subset he
    rw [List.mem_singleton.1 he]; exact ⟨trivial, rfl⟩

/-- What an event should say of frames. -/
def Spec.eventLog (s : Sys) (e : Ev) (o : Obs) : List LogEv :=
  (match e with
   | .frame _ c bytes _ => if s.crashed = false ∧ c ∈ s.live ∧ bytes ≠ [] then [.received c.addr bytes] else []
   | _ => []) ++ (match o.sent with
    | some (_, f) => [.sent f]
    | none => [])

theorem stepLogged_same {L : LogSetup} {time : Civil → List Nat} (ht : L.shows time) (env : Env) (s : Sys) (e : Ev)
    (hy : Spec.Ev.fourDigitYear e) :
    (s.stepLogged L env e).1 = s.step env e ∧ (∀ x ∈ (s.stepLogged L env e).2, x.sound) ∧
    (L.debug = true → frameLines (s.stepLogged L env e).2 = Spec.eventLog s e (s.step env e).2) ∧
    (L.debug = false → ∀ x ∈ (s.stepLogged L env e).2, ∃ id y, x = .failed id y) := by
  have other : ∀ (o : Sys × Obs), (∀ x ∈ L.kept ((o.2.sent.map fun p => LogEv.sent p.2).toList), x.sound) ∧
      (L.debug = true → frameLines (L.kept ((o.2.sent.map fun p => LogEv.sent p.2).toList)) = match o.2.sent with
        | some (_, f) => [.sent f]
        | none => []) := by
    intro o
    constructor
    · intro x hx
      have hx := kept_subset hx
      cases ho : o.2.sent with
      | none => rw [ho] at hx; cases hx
      | some p =>
        rw [ho] at hx
        rw [List.mem_singleton.1 hx]; trivial
    · intro hd
      rw [kept_debug hd]
      cases ho : o.2.sent with
      | none => rfl
      | some p => rfl
  by_cases hc : s.crashed
  · unfold Sys.stepLogged Sys.step
    rw [if_pos hc, if_pos hc]
    refine ⟨rfl, (by intro x hx; cases hx), fun _ => ?_, (by intro _ x hx; cases hx)⟩
    cases e <;> simp [Spec.eventLog, Obs.none, hc, frameLines]
  have hc' : s.crashed = false := by simpa using hc
  cases e with
  | frame clk c bytes werr =>
    unfold Sys.stepLogged Sys.step
    rw [if_neg hc, if_neg hc]
    simp only
    by_cases hl : c ∈ s.live
    · rw [if_pos hl, if_pos hl]
      obtain ⟨a, b, d, q⟩ := serveLogged_same ht env hy c werr s.st bytes
      revert a b d q
      cases s.st.serveLogged L env clk c werr bytes with
      | mk p log =>
        intro a b d q
        simp only at a b d q
        rw [← a] at d ⊢
        refine ⟨rfl, b, fun hd => ?_, q⟩
        rw [d hd]
        unfold Spec.frameLog Spec.eventLog
        by_cases hb : bytes = []
        · simp [hb]
        · simp [hb, hc', hl]
    · rw [if_neg hl, if_neg hl]
      refine ⟨rfl, (by intro x hx; cases hx), fun _ => ?_, (by intro _ x hx; cases hx)⟩
      simp [Spec.eventLog, Obs.none, hl, frameLines]
  | readErr c x =>
    unfold Sys.stepLogged Sys.step
    rw [if_neg hc, if_neg hc]
    simp only
    by_cases hl : c ∈ s.live
    · rw [if_pos hl, if_pos hl]
      obtain ⟨a, b, d, q⟩ := serveErrLogged_same L c s.st x
      revert a b d q
      cases s.st.serveErrLogged L c x with
      | mk p log =>
        intro a b d q
        simp only at a b d q
        rw [← a] at d ⊢
        refine ⟨rfl, fun x hx => (b x hx).1, fun hd => ?_, q⟩
        rw [frameLines_none fun x hx => (b x hx).2]
        simp [Spec.eventLog, d]
    · rw [if_neg hl, if_neg hl]
      refine ⟨rfl, (by intro x hx; cases hx), fun _ => ?_, (by intro _ x hx; cases hx)⟩
      simp [Spec.eventLog, Obs.none, frameLines]
  | accept addr =>
    unfold Sys.stepLogged; rw [if_neg hc]
    exact ⟨rfl, (other _).1, (other _).2, fun hq x hx => kept_quiet hq hx⟩
  | check clk phone =>
    unfold Sys.stepLogged; rw [if_neg hc]
    exact ⟨rfl, (other _).1, (other _).2, fun hq x hx => kept_quiet hq hx⟩
  | httpList =>
    unfold Sys.stepLogged; rw [if_neg hc]
    exact ⟨rfl, (other _).1, (other _).2, fun hq x hx => kept_quiet hq hx⟩
  | httpGeo phone =>
    unfold Sys.stepLogged; rw [if_neg hc]
    exact ⟨rfl, (other _).1, (other _).2, fun hq x hx => kept_quiet hq hx⟩
  | httpQuery phone werr =>
    unfold Sys.stepLogged; rw [if_neg hc]
    exact ⟨rfl, (other _).1, (other _).2, fun hq x hx => kept_quiet hq hx⟩
  | httpSet phone bound bad werr =>
    unfold Sys.stepLogged; rw [if_neg hc]
    exact ⟨rfl, (other _).1, (other _).2, fun hq x hx => kept_quiet hq hx⟩

/-- What a history should say of frames. -/
def Spec.historyLog (env : Env) (s : Sys) : List Ev → List LogEv
  | [] => []
  | e :: es => Spec.eventLog s e (s.step env e).2 ++ Spec.historyLog env (s.step env e).1 es

theorem runLogged_same {L : LogSetup} {time : Civil → List Nat} (ht : L.shows time) (env : Env) (s : Sys) (evs : List Ev)
    (hy : ∀ e ∈ evs, Spec.Ev.fourDigitYear e) :
    (s.runLogged L env evs).1 = s.run env evs ∧ (∀ x ∈ (s.runLogged L env evs).2, x.sound) ∧
    (L.debug = true → frameLines (s.runLogged L env evs).2 = Spec.historyLog env s evs) ∧
    (L.debug = false → ∀ x ∈ (s.runLogged L env evs).2, ∃ id y, x = .failed id y) := by
  induction evs generalizing s with
  | nil => exact ⟨rfl, (by intro x hx; cases hx), fun _ => rfl, (by intro _ x hx; cases hx)⟩
  | cons e es ih =>
    obtain ⟨a, b, d, q⟩ := stepLogged_same ht env s e (hy e List.mem_cons_self)
    unfold Sys.runLogged Sys.run Spec.historyLog
    revert a b d q
    cases s.stepLogged L env e with
    | mk p log =>
      intro a b d q
      simp only at a b d q
      rw [← a] at d ⊢
      obtain ⟨s', o⟩ := p
      obtain ⟨a', b', d', q'⟩ := ih s' fun x hx => hy x (List.mem_cons_of_mem _ hx)
      revert a' b' d' q'
      simp only
      cases s'.runLogged L env es with
      | mk p' log' =>
        intro a' b' d' q'
        simp only at a' b' d' q'
        rw [← a']
        obtain ⟨s'', os⟩ := p'
        refine ⟨rfl, ?_, fun hd => ?_, ?_⟩
        · intro x hx
          rcases List.mem_append.1 hx with hx | hx
          · exact b x hx
          · exact b' x hx
        · rw [frameLines_append, d hd, d' hd]
        · intro hq x hx
          rcases List.mem_append.1 hx with hx | hx
          · exact q hq x hx
          · exact q' hq x hx

end JT808
