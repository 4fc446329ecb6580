import Verif.Proof.DebugLog
/-
C141: the level of the log makes no difference to what the server does, and at debug level the log tells the frames.
-/
namespace JT808
open Spec

theorem hexDigitLow_val {n : UInt8} (h : n.toNat < 16) :
    Spec.hexVal (hexDigitLow n).toNat = some n.toNat ∧ (hexDigitLow n).toNat < 0x80 ∧ 0x20 ≤ (hexDigitLow n).toNat ∧
    (hexDigitLow n).toNat = hexLetter n.toNat := by
  have : ∀ k : Fin 16, Spec.hexVal (hexDigitLow (UInt8.ofNat k.1)).toNat = some k.1 ∧ (hexDigitLow (UInt8.ofNat k.1)).toNat < 0x80 ∧
      0x20 ≤ (hexDigitLow (UInt8.ofNat k.1)).toNat ∧ (hexDigitLow (UInt8.ofNat k.1)).toNat = hexLetter k.1 := by decide
  have := this ⟨n.toNat, h⟩
  simpa using this

theorem nibbles (b : UInt8) : (b / 16).toNat = b.toNat / 16 ∧ (b % 16).toNat = b.toNat % 16 ∧ b.toNat / 16 < 16 ∧
    (b / 16).toNat < 16 ∧ (b % 16).toNat < 16 := by
  have h16 : UInt8.toNat 16 = 16 := rfl
  have := b.toNat_lt
  have h1 : (b / 16).toNat = b.toNat / 16 := by rw [UInt8.toNat_div, h16]
  have h2 : (b % 16).toNat = b.toNat % 16 := by rw [UInt8.toNat_mod, h16]
  exact ⟨h1, h2, by omega, by omega, by omega⟩

theorem byte2Str_ascii (f : List UInt8) : ∀ b ∈ byte2Str f, b.toNat < 0x80 := by
  intro b hb
  unfold byte2Str at hb
  obtain ⟨x, _, hx⟩ := List.mem_flatMap.1 hb
  obtain ⟨h1, h2, h3, h4, h5⟩ := nibbles x
  simp only [List.mem_cons, List.not_mem_nil, or_false] at hx
  rcases hx with rfl | rfl
  · exact (hexDigitLow_val (by omega)).2.1
  · exact (hexDigitLow_val (by omega)).2.1

theorem unhex_byte2Str (f : List UInt8) : unhex ((byte2Str f).map UInt8.toNat) = some f := by
  induction f with
  | nil => rfl
  | cons b f ih =>
    obtain ⟨h1, h2, h3, h4, h5⟩ := nibbles b
    have e : byte2Str (b :: f) = hexDigitLow (b / 16) :: hexDigitLow (b % 16) :: byte2Str f := rfl
    rw [e, List.map_cons, List.map_cons, unhex, (hexDigitLow_val h4).1, (hexDigitLow_val h5).1, ih, h1, h2]
    show some (UInt8.ofNat (16 * (b.toNat / 16) + b.toNat % 16) :: f) = _
    rw [show 16 * (b.toNat / 16) + b.toNat % 16 = b.toNat by omega, UInt8.ofNat_toNat]

theorem jchars_hex (f : List UInt8) : JChars (byte2Str f) ((byte2Str f).map UInt8.toNat) := by
  induction f with
  | nil => exact .nil
  | cons b f ih =>
    obtain ⟨h1, h2, h3, h4, h5⟩ := nibbles b
    have one : ∀ n : UInt8, n.toNat < 16 → JChar [hexDigitLow n] (hexDigitLow n).toNat := by
      intro n hn
      have key : ∀ k : Fin 16, (hexDigitLow (UInt8.ofNat k.1)).toNat ≠ 0x22 ∧ (hexDigitLow (UInt8.ofNat k.1)).toNat ≠ 0x5c := by
        decide
      have key := key ⟨n.toNat, hn⟩
      simp only [UInt8.ofNat_toNat] at key
      obtain ⟨_, g4, g5, _⟩ := hexDigitLow_val hn
      have e : utf8Of (hexDigitLow n).toNat = [hexDigitLow n] := by unfold utf8Of; rw [if_pos g4, UInt8.ofNat_toNat]
      rw [← e]
      exact .plain (by unfold Scalar; omega) g5 key.1 key.2
    have := JChars.cons (one _ h4) (.cons (one _ h5) ih)
    exact this

theorem jtext_hex (f : List UInt8) : JText (0x22 :: byte2Str f ++ [0x22]) (.str ((byte2Str f).map UInt8.toNat)) :=
  .str (jchars_hex f)

theorem jtext_number (n : UInt16) : JText (zeroString (rawMsgID n)) (.str (numberText n.toNat)) := by
  obtain ⟨t, h1, h2⟩ := jtext_zero (rawMsgID n)
  have h3 : Seen (rawMsgID n) ((rawMsgID n).map UInt8.toNat) := by
    refine seen_ascii fun b hb => ?_
    rcases List.mem_append.1 hb with hb | hb
    · have : ∀ b ∈ jsonName "0x", b.toNat < 0x80 := by decide
      exact this b hb
    · exact byte2Str_ascii _ b hb
  rw [seen_unique h1 h3] at h2
  have e : (rawMsgID n).map UInt8.toNat = numberText n.toNat := by
    have hn := n.toNat_lt
    unfold rawMsgID numberText
    rw [List.map_append]
    congr 1
    have hw : writeWord [] n = [UInt8.ofNat (n.toNat / 256), UInt8.ofNat (n.toNat % 256)] := by
      show [(n >>> 8).toUInt8, n.toUInt8] = _
      have a1 : (n >>> 8).toUInt8 = UInt8.ofNat (n.toNat / 256) := by
        apply UInt8.toNat_inj.1
        simp [UInt16.toNat_shiftRight, Nat.shiftRight_eq_div_pow]
      have a2 : n.toUInt8 = UInt8.ofNat (n.toNat % 256) := by
        apply UInt8.toNat_inj.1
        simp
      rw [a1, a2]
    have b1 : (UInt8.ofNat (n.toNat / 256)).toNat = n.toNat / 256 := by rw [UInt8.toNat_ofNat']; omega
    have b2 : (UInt8.ofNat (n.toNat % 256)).toNat = n.toNat % 256 := by rw [UInt8.toNat_ofNat']; omega
    obtain ⟨p1, p2, p3, p4, p5⟩ := nibbles (UInt8.ofNat (n.toNat / 256))
    obtain ⟨q1, q2, q3, q4, q5⟩ := nibbles (UInt8.ofNat (n.toNat % 256))
    rw [b1] at p1 p2 p3
    rw [b2] at q1 q2 q3
    rw [hw]
    simp only [byte2Str, List.flatMap_cons, List.flatMap_nil, List.append_nil, List.cons_append, List.nil_append, List.map_cons,
      List.map_nil]
    rw [(hexDigitLow_val p4).2.2.2, (hexDigitLow_val p5).2.2.2, (hexDigitLow_val q4).2.2.2,
      (hexDigitLow_val q5).2.2.2, p1, p2, q1, q2]
    rw [show n.toNat / 256 / 16 = n.toNat / 4096 by omega, show n.toNat % 256 / 16 = n.toNat / 16 % 16 by omega,
      show n.toNat % 256 % 16 = n.toNat % 16 by omega]
  rwa [e] at h2

theorem receivedIn_other {v : JVal} {m : String} (h : field "m" v = some (.str (chars m))) (hm : chars m ≠ chars "Received frame.") :
    receivedIn v = none := by simp [receivedIn, h, asText, hm]

theorem sentIn_other {v : JVal} {m : String} (h : field "m" v = some (.str (chars m))) (hm : chars m ≠ chars "Sent frame.") :
    sentIn v = none := by simp [sentIn, h, asText, hm]

theorem receivedIn_of {v : JVal} {t p : List Nat} (h : field "m" v = some (.str (chars "Received frame.")))
    (h1 : field "id" v = some (.str t)) (h2 : field "frame_payload" v = some (.str p)) :
    receivedIn v = (unhex p).bind fun x => some (t, x) := by
  simp [receivedIn, h, h1, h2, asText]

theorem sentIn_of {v : JVal} {p : List Nat} (h : field "m" v = some (.str (chars "Sent frame.")))
    (h2 : field "frame_payload" v = some (.str p)) : sentIn v = unhex p := by
  simp [sentIn, h, h2, asText]

/-- What a line says of frames. -/
def Tells (e : LogEv) (v : JVal) : Prop :=
  match e with
  | .received id f => ∃ t, Seen id t ∧ receivedIn v = some (t, f) ∧ sentIn v = none
  | .sent f => receivedIn v = none ∧ sentIn v = some f
  | _ => receivedIn v = none ∧ sentIn v = none

/-- The members of a line. -/
def lineVal (lv : String) (kvs : List (List Nat × JVal)) (c w : List Nat) (said : String) : JVal :=
  .obj ((chars "level", .str (chars lv)) :: (kvs ++ [(chars "c", .str c), (chars "time", .str w), (chars "m", .str (chars said))]))

theorem plain_level (lv : Level) : PlainName lv.text := by cases lv <;> (unfold PlainName; decide)

theorem plain_msg (e : LogEv) : PlainName e.msg := by cases e <;> (simp only [LogEv.msg]; unfold PlainName; decide)

theorem line_text (L : LogSetup) {time : Str} {w : List Nat} (hw : JChars time w) (e : LogEv) {kvs : List (List Nat × JVal)}
    (hf : FieldsTail (e.fields L) kvs) :
    ∃ c s, Seen (callerText (L.root ++ jsonName e.site.1) e.site.2) c ∧ e.line L time = s ++ [0x0a] ∧
      JText s (lineVal e.level.text kvs c w e.msg) := by
  obtain ⟨c, h1, h2⟩ := jtext_zero (callerText (L.root ++ jsonName e.site.1) e.site.2)
  refine ⟨c, _, h1, rfl, jsonStruct_text ?_⟩
  refine FieldsTail.fields ?_ (jtext_zeroName (plain_level _)) (hf.append
    (.cons ?_ h2 (.cons ?_ (.str hw) (.cons ?_ (jtext_zeroName (plain_msg e)) .nil))))
  all_goals (unfold PlainName; decide)

theorem line_says (L : LogSetup) {time : Str} {w : List Nat} (hw : JChars time w) (e : LogEv) (hs : e.sound) :
    ∃ s v, e.line L time = s ++ [0x0a] ∧ JText s v ∧ field "m" v = some (.str (chars e.msg)) ∧ Tells e v := by
  cases e with
  | received id f =>
    obtain ⟨t, a, b⟩ := jtext_zero id
    obtain ⟨c, s, _, h1, h2⟩ := line_text L hw (.received id f) (.cons (by unfold PlainName; decide) b
      (.cons (by unfold PlainName; decide) (jtext_decimal _) (.cons (by unfold PlainName; decide) (jtext_hex f) .nil)))
    refine ⟨s, _, h1, h2, rfl, t, a, ?_, sentIn_other (m := "Received frame.") rfl (by decide)⟩
    have : receivedIn (lineVal (LogEv.received id f).level.text
        [(chars "id", .str t), (chars "frame_len", .num f.length), (chars "frame_payload", .str ((byte2Str f).map UInt8.toNat))]
        c w (LogEv.received id f).msg) = (unhex ((byte2Str f).map UInt8.toNat)).bind fun x => some (t, x) := receivedIn_of rfl rfl rfl
    rw [this, unhex_byte2Str]; rfl
  | sent f =>
    obtain ⟨c, s, _, h1, h2⟩ := line_text L hw (.sent f)
      (.cons (by unfold PlainName; decide) (jtext_decimal _) (.cons (by unfold PlainName; decide) (jtext_hex f) .nil))
    refine ⟨s, _, h1, h2, rfl, receivedIn_other (m := "Sent frame.") rfl (by decide), ?_⟩
    have : sentIn (lineVal (LogEv.sent f).level.text
        [(chars "frame_len", .num f.length), (chars "frame_payload", .str ((byte2Str f).map UInt8.toNat))]
        c w (LogEv.sent f).msg) = unhex ((byte2Str f).map UInt8.toNat) := sentIn_of rfl rfl
    rw [this, unhex_byte2Str]
  | incoming id n x =>
    obtain ⟨t, a, b⟩ := jtext_zero id
    obtain ⟨v, hv⟩ := hs
    obtain ⟨c, s, _, h1, h2⟩ := line_text L hw (.incoming id n x) (.cons (by unfold PlainName; decide) b
      (.cons (by unfold PlainName; decide) (jtext_number n) (.cons (by unfold PlainName; decide) hv .nil)))
    exact ⟨s, _, h1, h2, rfl, receivedIn_other (m := "Received jt808 msg.") rfl (by decide), sentIn_other (m := "Received jt808 msg.") rfl (by decide)⟩
  | outgoing id n x =>
    obtain ⟨t, a, b⟩ := jtext_zero id
    obtain ⟨v, hv⟩ := hs
    obtain ⟨c, s, _, h1, h2⟩ := line_text L hw (.outgoing id n x) (.cons (by unfold PlainName; decide) b
      (.cons (by unfold PlainName; decide) (jtext_number n) (.cons (by unfold PlainName; decide) hv .nil)))
    exact ⟨s, _, h1, h2, rfl, receivedIn_other (m := "Generating jt808 outgoing msg.") rfl (by decide), sentIn_other (m := "Generating jt808 outgoing msg.") rfl (by decide)⟩
  | failed id x =>
    obtain ⟨t, a, b⟩ := jtext_zero id
    obtain ⟨t', a', b'⟩ := jtext_zero (L.errText x)
    obtain ⟨c, s, _, h1, h2⟩ := line_text L hw (.failed id x) (.cons (by unfold PlainName; decide) b'
      (.cons (by unfold PlainName; decide) b .nil))
    exact ⟨s, _, h1, h2, rfl, receivedIn_other (m := "Failed to serve session") rfl (by decide), sentIn_other (m := "Failed to serve session") rfl (by decide)⟩
  | closing id =>
    obtain ⟨t, a, b⟩ := jtext_zero id
    obtain ⟨c, s, _, h1, h2⟩ := line_text L hw (.closing id) (.cons (by unfold PlainName; decide) b .nil)
    exact ⟨s, _, h1, h2, rfl, receivedIn_other (m := "Closing connection from remote.") rfl (by decide), sentIn_other (m := "Closing connection from remote.") rfl (by decide)⟩

/-! ### The whole file -/

/-- The frame a line says was received. -/
def LogEv.recv : LogEv → Option (Str × List UInt8)
  | .received id f => some (id, f)
  | _ => none

/-- The frame a line says was sent. -/
def LogEv.out : LogEv → Option (List UInt8)
  | .sent f => some f
  | _ => none

theorem file_says (L : LogSetup) (es : List (Str × LogEv)) (hs : ∀ e ∈ es, e.2.sound ∧ ∃ w, JChars e.1 w) :
    ∃ vs, FileSays (logFile L es) vs ∧ vs.length = es.length ∧
      (∀ v ∈ vs, ∃ e ∈ es, field "m" v = some (.str (chars e.2.msg))) ∧
      (∀ e ∈ es, ∃ v ∈ vs, ∃ s w, JChars e.1 w ∧ e.2.line L e.1 = s ++ [0x0a] ∧ JText s v) ∧
      SeenFrom ((es.map Prod.snd).filterMap LogEv.recv) (vs.filterMap receivedIn) ∧
      vs.filterMap sentIn = (es.map Prod.snd).filterMap LogEv.out := by
  induction es with
  | nil => exact ⟨[], .nil, rfl, (by intro v hv; cases hv), (by intro v hv; cases hv), .nil, rfl⟩
  | cons e es ih =>
    obtain ⟨vs, h1, h2, h3, h4, h5, h6⟩ := ih fun x hx => hs x (List.mem_cons_of_mem _ hx)
    obtain ⟨he, w, hw⟩ := hs e List.mem_cons_self
    obtain ⟨s, v, g1, g2, g3, g4⟩ := line_says L hw e.2 he
    refine ⟨v :: vs, ?_, by simp [h2], ?_, ?_, ?_⟩
    · have : logFile L (e :: es) = s ++ 0x0a :: logFile L es := by
        show e.2.line L e.1 ++ logFile L es = _
        rw [g1, List.append_assoc]; rfl
      rw [this]
      exact .line g2 h1
    · intro x hx
      rcases List.mem_cons.1 hx with rfl | hx
      · exact ⟨e, List.mem_cons_self, g3⟩
      · obtain ⟨y, hy, h⟩ := h3 x hx
        exact ⟨y, List.mem_cons_of_mem _ hy, h⟩
    · intro x hx
      rcases List.mem_cons.1 hx with rfl | hx
      · exact ⟨v, List.mem_cons_self, s, w, hw, g1, g2⟩
      · obtain ⟨y, hy, h⟩ := h4 x hx
        exact ⟨y, List.mem_cons_of_mem _ hy, h⟩
    · obtain ⟨t, e⟩ := e
      cases e with
      | received id f =>
        obtain ⟨i, a, b, d⟩ := g4
        simp only [List.map_cons, List.filterMap_cons, b, d, LogEv.recv, LogEv.out]
        exact ⟨.cons a h5, h6⟩
      | sent f =>
        obtain ⟨b, d⟩ := g4
        simp only [List.map_cons, List.filterMap_cons, b, d, LogEv.recv, LogEv.out]
        exact ⟨h5, by rw [h6]⟩
      | incoming id n x =>
        obtain ⟨b, d⟩ := g4
        simp only [List.map_cons, List.filterMap_cons, b, d, LogEv.recv, LogEv.out]
        exact ⟨h5, h6⟩
      | outgoing id n x =>
        obtain ⟨b, d⟩ := g4
        simp only [List.map_cons, List.filterMap_cons, b, d, LogEv.recv, LogEv.out]
        exact ⟨h5, h6⟩
      | failed id x =>
        obtain ⟨b, d⟩ := g4
        simp only [List.map_cons, List.filterMap_cons, b, d, LogEv.recv, LogEv.out]
        exact ⟨h5, h6⟩
      | closing id =>
        obtain ⟨b, d⟩ := g4
        simp only [List.map_cons, List.filterMap_cons, b, d, LogEv.recv, LogEv.out]
        exact ⟨h5, h6⟩

theorem recv_frameLines (es : List LogEv) : (frameLines es).filterMap LogEv.recv = es.filterMap LogEv.recv ∧
    (frameLines es).filterMap LogEv.out = es.filterMap LogEv.out := by
  induction es with
  | nil => exact ⟨rfl, rfl⟩
  | cons e es ih =>
    unfold frameLines at ih ⊢
    cases e <;> simp only [List.filter_cons, LogEv.aboutFrame, if_true, Bool.false_eq_true, if_false, List.filterMap_cons, LogEv.recv,
      LogEv.out, ih, and_self]

theorem historyLog_frames (env : Env) (s : Sys) (evs : List Ev) :
    (Spec.historyLog env s evs).filterMap LogEv.recv = arrivals env s evs ∧
    (Spec.historyLog env s evs).filterMap LogEv.out = departures env s evs := by
  induction evs generalizing s with
  | nil => exact ⟨rfl, rfl⟩
  | cons e es ih =>
    obtain ⟨h1, h2⟩ := ih (s.step env e).1
    have dep : departures env s (e :: es) = ((s.step env e).2.sent.map (·.2)).toList ++ departures env (s.step env e).1 es := by
      unfold departures
      rw [Sys.run]
      simp only [List.filterMap_cons]
      cases (s.step env e).2.sent <;> rfl
    unfold Spec.historyLog arrivals
    rw [dep]
    unfold Spec.eventLog
    generalize (s.step env e).2.sent = o
    simp only [List.filterMap_append, h1, h2]
    cases o with
    | none =>
      cases e with
      | frame clk c bytes werr => simp only; split <;> exact ⟨rfl, rfl⟩
      | _ => exact ⟨rfl, rfl⟩
    | some o =>
      obtain ⟨o1, o2⟩ := o
      cases e with
      | frame clk c bytes werr => simp only; split <;> exact ⟨rfl, rfl⟩
      | _ => exact ⟨rfl, rfl⟩

theorem debug_of {L : LogSetup} (h : L.level ∉ ["INFO", "WARN", "ERROR", "FATAl"]) : L.debug = true := by
  simp only [List.mem_cons, List.not_mem_nil, or_false, not_or] at h
  obtain ⟨a, b, c, d⟩ := h
  unfold LogSetup.debug parseLevel
  rw [if_neg a, if_neg b, if_neg c, if_neg d]
  split <;> rfl

theorem quiet_of {L : LogSetup} (h : L.level ∈ ["INFO", "WARN", "ERROR", "FATAl"]) : L.debug = false := by
  simp only [List.mem_cons, List.not_mem_nil, or_false] at h
  unfold LogSetup.debug
  rcases h with h | h | h | h <;> rw [h] <;> rfl

theorem short_caller (a b : Str) (ha : a ≠ []) (hb : (0x2f : UInt8) ∉ b) (k : Nat) (hk : k ≤ b.length) :
    shortFrom (a ++ 0x2f :: b) (a.length + k) = b := by
  induction k with
  | zero =>
    obtain ⟨n, hn⟩ : ∃ n, a.length = n + 1 := ⟨a.length - 1, by cases a; exact absurd rfl ha; simp⟩
    rw [Nat.add_zero, hn, shortFrom]
    rw [if_pos (by rw [← hn]; simp), show n + 2 = a.length + 1 by omega]
    simp
  | succ k ih =>
    rw [← Nat.add_assoc, shortFrom, if_neg, ih (by omega)]
    rw [show a.length + k + 1 = a.length + (k + 1) by omega, List.getElem?_append_right (by omega)]
    simp only [Nat.add_sub_cancel_left, List.getElem?_cons_succ]
    intro h
    exact hb (List.mem_of_getElem? h)

theorem caller_short (a b : Str) (ha : a ≠ []) (hb : (0x2f : UInt8) ∉ b) (n : Nat) :
    callerText (a ++ 0x2f :: b) n = b ++ 0x3a :: decimal n := by
  unfold callerText
  rw [show (a ++ 0x2f :: b).length - 1 = a.length + b.length by simp, short_caller a b ha hb _ (Nat.le_refl _)]

/-- Where the two lines about messages come from. -/
def Spec.placeIn : String := "msg_processor.go:173"
def Spec.placeOut : String := "msg_processor.go:194"

theorem caller_in (root : Str) :
    Seen (callerText (root ++ jsonName "/internal/protocol/msg_processor.go") 173) (chars Spec.placeIn) ∧
    Seen (callerText (root ++ jsonName "/internal/protocol/msg_processor.go") 194) (chars Spec.placeOut) := by
  have e : root ++ jsonName "/internal/protocol/msg_processor.go" =
      (root ++ jsonName "/internal/protocol") ++ 0x2f :: jsonName "msg_processor.go" := by
    rw [List.append_assoc]; congr 1
  have ha : root ++ jsonName "/internal/protocol" ≠ [] := by
    intro h
    have := (List.append_eq_nil_iff.1 h).2
    revert this; decide
  rw [e, caller_short _ _ ha (by decide), caller_short _ _ ha (by decide)]
  have k1 : chars Spec.placeIn = (jsonName "msg_processor.go" ++ 0x3a :: decimal 173).map UInt8.toNat := by decide +kernel
  have k2 : chars Spec.placeOut = (jsonName "msg_processor.go" ++ 0x3a :: decimal 194).map UInt8.toNat := by decide +kernel
  rw [k1, k2]
  exact ⟨seen_ascii (by decide +kernel), seen_ascii (by decide +kernel)⟩

/-- The log of the pass of a frame that holds a whole message. -/
theorem handleLogged_holds {L : LogSetup} {time : Civil → List Nat} (ht : L.shows time) (hd : L.debug = true) {env : Env}
    {clk : Clock} (hy : clk.civil.year < 10000) {frame : List UInt8} {h : Header} {m : Msg} (hh : Holds env clk.civil frame h m)
    (c : Conn) (st : Store) :
    (∃ text msg, MsgShown time h m msg ∧ JText text msg ∧
      .incoming c.addr h.msgID text ∈ (st.handleLogged L env clk c (some c) frame).2) ∧
    ∀ f, (st.handleFrame env clk c frame).2 = .reply f → ∃ o : Out, Out.encode env o = .ok f ∧ ∃ text msg,
      MsgShown time o.1 o.2 msg ∧ JText text msg ∧
        .outgoing c.addr o.1.msgID text ∈ (st.handleLogged L env clk c (some c) frame).2 := by
  rw [hh.handle]
  obtain ⟨pd, t, j, e1, e2, e3, e4, e5⟩ := hh
  subst e2
  have hm := decode_timely hy pd.header t _ _ _ _ e5
  obtain ⟨text, v, h1, h2, h3⟩ := marshal_shown ht true pd.header m hm
  have hp : st.processLogged L env clk c (some c) pd = (st.handle env clk c pd.header m,
      .incoming c.addr pd.header.msgID text :: ((match (st.handle env clk c pd.header m).2 with
        | .ok o => o
        | _ => pendingOut pd.header m).map (L.outgoingEv c.addr)).toList) := by
    unfold Store.processLogged
    rw [e4]
    simp only [e3, Bool.false_and, Bool.false_eq_true, if_false, e5, hd, if_true, h1]
    cases st.handle env clk c pd.header m with
    | mk a r => cases r <;> rfl
  have hl : ∀ e ∈ (st.processLogged L env clk c (some c) pd).2, e ∈ (st.handleLogged L env clk c (some c) frame).2 := by
    unfold Store.handleLogged
    rw [if_neg (by simp), decodePacket_unfrag e1 e3]
    simp only
    cases st.processLogged L env clk c (some c) pd with
    | mk a log =>
      obtain ⟨u, r⟩ := a
      intro e he
      cases r with
      | err x => exact List.mem_append_right _ he
      | panic => exact List.mem_append_right _ he
      | ok o =>
        cases o with
        | none => exact List.mem_append_right _ he
        | some o =>
          simp only
          cases Out.encode env o <;> exact List.mem_append_right _ he
  rw [hp] at hl
  refine ⟨⟨text, v, h2, h3, hl _ List.mem_cons_self⟩, fun f hf => ?_⟩
  cases hr : (st.handle env clk c pd.header m).2 with
  | err x => rw [show st.handle env clk c pd.header m = (_, .err x) from Prod.ext rfl hr] at hf; cases hf
  | panic => rw [show st.handle env clk c pd.header m = (_, .panic) from Prod.ext rfl hr] at hf; cases hf
  | ok o =>
    rw [show st.handle env clk c pd.header m = (_, .ok o) from Prod.ext rfl hr] at hf
    cases o with
    | none => cases hf
    | some o =>
      have ho := handle_timely hm hr
      obtain ⟨text', v', g1, g2, g3⟩ := outgoing_shown ht c.addr o ho
      refine ⟨o, ?_, text', v', g2, g3, hl _ ?_⟩
      · unfold finish at hf
        simp only at hf
        cases he : Out.encode env o with
        | ok f' => rw [he] at hf; cases hf; rfl
        | err x => rw [he] at hf; cases hf
        | panic => rw [he] at hf; cases hf
      · rw [hr]
        simp only [Option.map_some, Option.toList_some, g1]
        exact List.mem_cons_of_mem _ List.mem_cons_self

/-- What is logged on the way of a frame is logged in the history. -/
theorem frame_logged {L : LogSetup} (hdb : L.debug = true) {env : Env} {s : Sys} (hc : s.crashed = false) {clk : Clock} {c : Conn}
    (hl : c ∈ s.live) {frame : List UInt8} (werr : Option Err) :
    ∀ e ∈ (s.st.handleLogged L env clk c (some c) frame).2, e ∈ (s.runLogged L env [.frame clk c frame werr]).2 := by
  intro e hm
  have : e ∈ (s.st.serveLogged L env clk c werr frame).2 := by
    revert hm
    unfold Store.serveLogged
    cases s.st.handleLogged L env clk c (some c) frame with
    | mk a log =>
      obtain ⟨u, r⟩ := a
      intro hm
      simp only at hm
      cases r with
      | silent => simp only; rw [kept_debug hdb]; exact hm
      | reply f =>
        simp only
        cases werr with
        | none => simp only; rw [kept_debug hdb]; exact List.mem_append_left _ hm
        | some x => simp only; split <;> (simp only; rw [kept_debug hdb]; exact List.mem_append_left _ hm)
      | failed x => simp only; split <;> (simp only; rw [kept_debug hdb]; exact List.mem_append_left _ hm)
      | panicked => simp only; rw [kept_debug hdb]; exact List.mem_append_left _ hm
  unfold Sys.runLogged Sys.runLogged Sys.stepLogged
  rw [if_neg (by simp [hc])]
  simp only
  rw [if_pos hl]
  simp only [List.append_nil]
  exact this

/-- What is sent at a frame is the answer of its pass. -/
theorem frame_replied {env : Env} {s : Sys} (hc : s.crashed = false) {clk : Clock} {c : Conn}
    (hl : c ∈ s.live) {frame : List UInt8} {werr : Option Err} {d : Conn} {f : List UInt8}
    (hf : (s.step env (.frame clk c frame werr)).2.sent = some (d, f)) : (s.st.handleFrame env clk c frame).2 = .reply f := by
  revert hf
  unfold Sys.step
  rw [if_neg (by simp [hc])]
  simp only
  rw [if_pos hl]
  unfold Store.serveFrame
  cases s.st.handleFrame env clk c frame with
  | mk u r =>
    cases r with
    | silent => intro h; cases h
    | reply f' =>
      cases werr with
      | none => intro h; cases h; rfl
      | some x => simp only; split <;> (intro h; cases h)
    | failed x => simp only; split <;> (intro h; cases h)
    | panicked => intro h; cases h

/-! ### C141 -/

/-- C141: whatever the level of the log, the server does the same: the log changes neither what is kept nor what is sent, nor does
it end a connection or the process, as long as the years have four digits. -/
theorem C141_level {L : LogSetup} {time : Civil → List Nat} (ht : L.shows time) (env : Env) (s : Sys) (evs : List Ev)
    (hy : ∀ e ∈ evs, Spec.Ev.fourDigitYear e) : (s.runLogged L env evs).1 = s.run env evs :=
  (runLogged_same ht env s evs hy).1

/-- C141: at debug level, which is every name but those of the other four levels, the file is lines of JSON that can be read in one
way only, one for each thing logged, and they tell every frame that arrived, with the address of its connection as far as it is
UTF-8, and every frame that left, byte for byte and in order. Whatever the terminals send, no line is cut or made up. -/
theorem C141_replay {L : LogSetup} {time : Civil → List Nat} (ht : L.shows time)
    (hd : L.level ∉ ["INFO", "WARN", "ERROR", "FATAl"]) (env : Env) (s : Sys) (evs : List Ev)
    (hy : ∀ e ∈ evs, Spec.Ev.fourDigitYear e) (es : List (Str × LogEv)) (he : es.map Prod.snd = (s.runLogged L env evs).2)
    (hw : ∀ e ∈ es, ∃ w, JChars e.1 w) :
    ∃ vs, FileSays (logFile L es) vs ∧ (∀ vs', FileSays (logFile L es) vs' → vs' = vs) ∧ vs.length = es.length ∧
      SeenFrom (arrivals env s evs) (vs.filterMap receivedIn) ∧ vs.filterMap sentIn = departures env s evs := by
  obtain ⟨_, h2, h3, _⟩ := runLogged_same ht env s evs hy
  obtain ⟨vs, g1, g2, _, _, g3, g4⟩ := file_says L es fun e hm =>
    ⟨h2 _ (he ▸ List.mem_map_of_mem hm), hw e hm⟩
  refine ⟨vs, g1, fun vs' h => fileSays_unique h g1, g2, ?_, ?_⟩
  · rw [he, ← (recv_frameLines _).1, h3 (debug_of hd), (historyLog_frames env s evs).1] at g3
    exact g3
  · rw [he, ← (recv_frameLines _).2, h3 (debug_of hd), (historyLog_frames env s evs).2] at g4
    exact g4

/-- C141: at any other level the file has no line but those of errors of connections: nothing of what terminals sent is in it,
besides what the text of an error says. -/
theorem C141_quiet {L : LogSetup} {time : Civil → List Nat} (ht : L.shows time)
    (hq : L.level ∈ ["INFO", "WARN", "ERROR", "FATAl"]) (env : Env) (s : Sys) (evs : List Ev)
    (hy : ∀ e ∈ evs, Spec.Ev.fourDigitYear e) (es : List (Str × LogEv)) (he : es.map Prod.snd = (s.runLogged L env evs).2)
    (hw : ∀ e ∈ es, ∃ w, JChars e.1 w) :
    ∃ vs, FileSays (logFile L es) vs ∧ (∀ vs', FileSays (logFile L es) vs' → vs' = vs) ∧
      ∀ v ∈ vs, field "m" v = some (.str (chars "Failed to serve session")) := by
  obtain ⟨_, h2, _, h4⟩ := runLogged_same ht env s evs hy
  obtain ⟨vs, g1, _, g3, _⟩ := file_says L es fun e hm =>
    ⟨h2 _ (he ▸ List.mem_map_of_mem hm), hw e hm⟩
  refine ⟨vs, g1, fun vs' h => fileSays_unique h g1, fun v hv => ?_⟩
  obtain ⟨e, hm, h⟩ := g3 v hv
  obtain ⟨id, x, hx⟩ := h4 (quiet_of hq) e.2 (he ▸ List.mem_map_of_mem hm)
  rw [h, hx]; rfl

/-- C141: at debug level a frame that holds a whole message is in the file as a message too: a line with the connection, the number
and every field of its header and body, and, when an answer is sent, a line with every field of the message whose encoding was
sent. -/
theorem C141_content {L : LogSetup} {time : Civil → List Nat} (ht : L.shows time)
    (hd : L.level ∉ ["INFO", "WARN", "ERROR", "FATAl"]) {env : Env} {s : Sys} (hc : s.crashed = false) {clk : Clock}
    (hy : clk.civil.year < 10000) {c : Conn} (hl : c ∈ s.live) {frame : List UInt8} {h : Header} {m : Msg}
    (hh : Holds env clk.civil frame h m) (werr : Option Err) (es : List (Str × LogEv))
    (he : es.map Prod.snd = (s.runLogged L env [.frame clk c frame werr]).2) (hw : ∀ e ∈ es, ∃ w, JChars e.1 w) :
    ∃ vs, FileSays (logFile L es) vs ∧ (∀ vs', FileSays (logFile L es) vs' → vs' = vs) ∧
      (∃ v ∈ vs, ∃ msg, MsgShown time h m msg ∧
        LineAbout "incoming" "msg_processor.go:173" "Received jt808 msg." c.addr h.msgID msg v) ∧
      ∀ d f, (s.step env (.frame clk c frame werr)).2.sent = some (d, f) →
        ∃ o : Out, Out.encode env o = .ok f ∧ ∃ v ∈ vs, ∃ msg, MsgShown time o.1 o.2 msg ∧
          LineAbout "outgoing" "msg_processor.go:194" "Generating jt808 outgoing msg." c.addr o.1.msgID msg v := by
  have hdb := debug_of hd
  obtain ⟨_, h2, _⟩ := runLogged_same ht env s [.frame clk c frame werr] (by
    intro e hm; rw [List.mem_singleton] at hm; subst hm; exact hy)
  obtain ⟨vs, g1, _, _, g3, _⟩ := file_says L es fun e hm =>
    ⟨h2 _ (he ▸ List.mem_map_of_mem hm), hw e hm⟩
  obtain ⟨⟨text, msg, k1, k2, k3⟩, k4⟩ := handleLogged_holds ht hdb hy hh c s.st
  have sub : ∀ e ∈ (s.st.handleLogged L env clk c (some c) frame).2, e ∈ es.map Prod.snd := by
    rw [he]; exact frame_logged hdb hc hl werr
  obtain ⟨c1, c2⟩ := caller_in L.root
  refine ⟨vs, g1, fun vs' h => fileSays_unique h g1, ?_, ?_⟩
  · obtain ⟨e, hm, hx⟩ := List.mem_map.1 (sub _ k3)
    obtain ⟨v, hv, sl, w, j1, j2, j3⟩ := g3 e hm
    rw [hx] at j2
    obtain ⟨t, a, b⟩ := jtext_zero c.addr
    obtain ⟨cc, s', q1, q2, q3⟩ := line_text L j1 (.incoming c.addr h.msgID text) (.cons (by unfold PlainName; decide) b
      (.cons (by unfold PlainName; decide) (jtext_number h.msgID) (.cons (by unfold PlainName; decide) k2 .nil)))
    have : s' = sl := List.append_cancel_right (q2.symm.trans j2)
    subst this
    have e1 := seen_unique q1 c1
    subst e1
    exact ⟨v, hv, msg, k1, t, w, a, jtext_unique j3 q3⟩
  · intro d f hf
    have hr := frame_replied hc hl hf
    obtain ⟨o, o1, text', msg', p1, p2, p3⟩ := k4 f hr
    obtain ⟨e, hm, hx⟩ := List.mem_map.1 (sub _ p3)
    obtain ⟨v, hv, sl, w, j1, j2, j3⟩ := g3 e hm
    rw [hx] at j2
    obtain ⟨t, a, b⟩ := jtext_zero c.addr
    obtain ⟨cc, s', q1, q2, q3⟩ := line_text L j1 (.outgoing c.addr o.1.msgID text') (.cons (by unfold PlainName; decide) b
      (.cons (by unfold PlainName; decide) (jtext_number o.1.msgID) (.cons (by unfold PlainName; decide) p2 .nil)))
    have : s' = sl := List.append_cancel_right (q2.symm.trans j2)
    subst this
    have e1 := seen_unique q1 c2
    subst e1
    exact ⟨o, o1, v, hv, msg', p1, t, w, a, jtext_unique j3 q3⟩

/-! ### The hypotheses can be met -/

/-- A log at debug level; times as RFC3339 would show the date. -/
def demoLog (level : String) : LogSetup :=
  ⟨level, jsonName "/src", fun _ => jsonName "2024-02-29T12:00:00Z", fun _ => jsonName "device not found", true⟩

theorem demoLog_shows (level : String) : (demoLog level).shows fun _ => chars "2024-02-29T12:00:00Z" := by
  intro t
  exact jchars_name (by unfold PlainName; decide)

/-- Two terminals connect, one registers and sends a heartbeat. -/
def demoTalk : List Ev := demoEvs ++ [.frame (demoClk 2000) demoC demoBeat none]

theorem demoTalk_years : ∀ e ∈ demoTalk, Spec.Ev.fourDigitYear e := by
  intro e he
  simp only [demoTalk, demoEvs, List.cons_append, List.nil_append, List.mem_cons, List.not_mem_nil, or_false] at he
  rcases he with rfl | rfl | rfl | rfl <;> first | trivial | (show (_ : Nat) < _; decide)

/-- What it logs, each line at the same time. -/
def demoLogged (level : String) : List (Str × LogEv) :=
  (Sys.start.runLogged (demoLog level) goEnv demoTalk).2.map fun e => (jsonName "2024-02-29T12:00:00.1Z", e)

theorem demoLogged_events (level : String) :
    (demoLogged level).map Prod.snd = (Sys.start.runLogged (demoLog level) goEnv demoTalk).2 := by
  unfold demoLogged
  rw [List.map_map]
  exact List.map_id _

theorem demoLogged_times (level : String) : ∀ e ∈ demoLogged level, ∃ w, JChars e.1 w := by
  intro e he
  obtain ⟨x, _, rfl⟩ := List.mem_map.1 he
  exact ⟨_, jchars_name (by unfold PlainName; decide)⟩

example : (Sys.start.runLogged (demoLog "DEBUG") goEnv demoTalk).1 = Sys.start.run goEnv demoTalk :=
  C141_level (demoLog_shows _) goEnv Sys.start demoTalk demoTalk_years

example : ∃ vs, FileSays (logFile (demoLog "DEBUG") (demoLogged "DEBUG")) vs ∧
    (∀ vs', FileSays (logFile (demoLog "DEBUG") (demoLogged "DEBUG")) vs' → vs' = vs) ∧ vs.length = (demoLogged "DEBUG").length ∧
    SeenFrom (arrivals goEnv Sys.start demoTalk) (vs.filterMap receivedIn) ∧
    vs.filterMap sentIn = departures goEnv Sys.start demoTalk :=
  C141_replay (demoLog_shows _) (by show "DEBUG" ∉ _; decide) goEnv Sys.start demoTalk demoTalk_years _ (demoLogged_events _)
    (demoLogged_times _)

/-- Two frames arrive and two answers leave; eight lines. -/
example : arrivals goEnv Sys.start demoTalk = [([0x61], demoReg), ([0x61], demoBeat)] ∧
    (departures goEnv Sys.start demoTalk).length = 2 ∧ (demoLogged "DEBUG").length = 8 ∧ demoLogged "ERROR" = [] := by decide +kernel

/-- The lines about the heartbeat that arrives. -/
example : ((demoLogged "DEBUG").map fun e => e.2.line (demoLog "DEBUG") e.1)[4]? = some (jsonName
    "{\"level\":\"debug\",\"id\":\"a\",\"frame_len\":15,\"frame_payload\":\"7e000200000138001380000007af7e\",\"c\":\"frame_handler.go:82\",\"time\":\"2024-02-29T12:00:00.1Z\",\"m\":\"Received frame.\"}\n") := by
  decide +kernel

/-- A connection that ends, at level ERROR: one line. -/
example : (Sys.start.runLogged (demoLog "ERROR") goEnv (demoEvs ++ [.readErr demoC' .eof])).2 = [.failed [0x62] .eof] := by
  decide +kernel

/-- The message and its answer in the file of the registration. -/
example : ∃ vs, FileSays (logFile (demoLog "debug") ((Sys.runLogged (demoLog "debug") goEnv
      (Sys.start.run goEnv [.accept [0x61]]).1 [.frame (demoClk 1000) demoC demoReg none]).2.map fun e => (jsonName "now", e))) vs ∧
    ∃ v ∈ vs, ∃ msg, MsgShown (fun _ => chars "2024-02-29T12:00:00Z") ((hdr2013 0x0100).withBodyLength 41) (.m0100 demoRegMsg) msg ∧
      LineAbout "incoming" "msg_processor.go:173" "Received jt808 msg." [0x61] 0x0100 msg v := by
  obtain ⟨vs, h1, _, h2, _⟩ := C141_content (demoLog_shows "debug") (by show "debug" ∉ _; decide)
    (s := (Sys.start.run goEnv [.accept [0x61]]).1) (by decide +kernel) (clk := demoClk 1000) (by decide) (c := demoC)
    (by decide +kernel) (demoReg_holds _) none
    ((Sys.runLogged (demoLog "debug") goEnv (Sys.start.run goEnv [.accept [0x61]]).1
      [.frame (demoClk 1000) demoC demoReg none]).2.map fun e => (jsonName "now", e))
    (by rw [List.map_map]; exact List.map_id _)
    (by
      intro e he
      obtain ⟨x, _, rfl⟩ := List.mem_map.1 he
      exact ⟨_, jchars_name (by unfold PlainName; decide)⟩)
  exact ⟨vs, h1, h2⟩

/-- A year with five digits, and a query for media without a date: the time of the server is put in its place, and cannot be
written in the log. -/
def demoLate : List Ev :=
  [.accept [0x61], .frame ⟨0, ⟨10000, 1, 1, 0, 0, 0⟩⟩ demoC (msgFrame (hdr2013 0x9205) (List.replicate 25 0)) none]

/-- C141: without the condition on the years it is not so: the message is answered at level INFO, and not at level DEBUG. -/
theorem C141_late : (Sys.start.runLogged (demoLog "INFO") goEnv demoLate).1.2.map (·.sent.isSome) = [false, true] ∧
    (Sys.start.runLogged (demoLog "DEBUG") goEnv demoLate).1.2.map (·.sent.isSome) = [false, false] := by decide +kernel

end JT808
