import Verif.Proof.ConsoleText
/-
C143: the log in text form, as shipped: what can be read from its lines.
-/
namespace JT808
open Spec

/-- Where an event is logged. -/
def LogEv.place : LogEv → String
  | .received _ _ => "frame_handler.go:82"
  | .incoming _ _ _ => "msg_processor.go:173"
  | .outgoing _ _ _ => "msg_processor.go:194"
  | .sent _ => "frame_handler.go:107"
  | .failed _ _ => "tcp_server.go:100"
  | .closing _ => "tcp_server.go:82"

theorem caller_file (root : Str) (path dir name place : String) (n : Nat)
    (hs : jsonName path = jsonName dir ++ 0x2f :: jsonName name) (hn : (0x2f : UInt8) ∉ jsonName name)
    (hp : PlainName place) (h : jsonName name ++ 0x3a :: decimal n = jsonName place) (hd : jsonName dir ≠ []) :
    Seen (callerText (root ++ jsonName path) n) (chars place) := by
  have ha : root ++ jsonName dir ≠ [] := fun e => hd (List.append_eq_nil_iff.1 e).2
  rw [hs, ← List.append_assoc, caller_short _ _ ha hn, h]
  exact seen_name hp

theorem caller_site (root : Str) (e : LogEv) : Seen (callerText (root ++ jsonName e.site.1) e.site.2) (chars e.place) := by
  cases e with
  | received id f =>
    exact caller_file root "/internal/protocol/frame_handler.go" "/internal/protocol" "frame_handler.go" "frame_handler.go:82" 82 (by decide +kernel) (by decide +kernel) (by unfold PlainName; decide +kernel)
      (by decide +kernel) (by decide +kernel)
  | sent f =>
    exact caller_file root "/internal/protocol/frame_handler.go" "/internal/protocol" "frame_handler.go" "frame_handler.go:107" 107 (by decide +kernel) (by decide +kernel) (by unfold PlainName; decide +kernel)
      (by decide +kernel) (by decide +kernel)
  | incoming id n x =>
    exact caller_file root "/internal/protocol/msg_processor.go" "/internal/protocol" "msg_processor.go" "msg_processor.go:173" 173 (by decide +kernel) (by decide +kernel) (by unfold PlainName; decide +kernel)
      (by decide +kernel) (by decide +kernel)
  | outgoing id n x =>
    exact caller_file root "/internal/protocol/msg_processor.go" "/internal/protocol" "msg_processor.go" "msg_processor.go:194" 194 (by decide +kernel) (by decide +kernel) (by unfold PlainName; decide +kernel)
      (by decide +kernel) (by decide +kernel)
  | failed id x =>
    exact caller_file root "/internal/server/tcp_server.go" "/internal/server" "tcp_server.go" "tcp_server.go:100" 100 (by decide +kernel) (by decide +kernel) (by unfold PlainName; decide +kernel)
      (by decide +kernel) (by decide +kernel)
  | closing id =>
    exact caller_file root "/internal/server/tcp_server.go" "/internal/server" "tcp_server.go" "tcp_server.go:82" 82 (by decide +kernel) (by decide +kernel) (by unfold PlainName; decide +kernel)
      (by decide +kernel) (by decide +kernel)

/-- A time as it is written: printable characters without a space. -/
def Spec.PlainTime (s : List UInt8) : Prop := ∀ b ∈ s, 0x20 < b.toNat ∧ b.toNat < 0x7f ∧ b.toNat ≠ 0x22 ∧ b.toNat ≠ 0x5c

theorem utf8_ascii {s : List UInt8} (h : ∀ b ∈ s, b.toNat < 0x80) : utf8Text (s.map UInt8.toNat) = s := by
  induction s with
  | nil => rfl
  | cons b s ih =>
    have e : utf8Of b.toNat = [b] := by unfold utf8Of; rw [if_pos (h b List.mem_cons_self), UInt8.ofNat_toNat]
    show utf8Of b.toNat ++ utf8Text (s.map UInt8.toNat) = _
    rw [e, ih fun x hx => h x (List.mem_cons_of_mem _ hx)]; rfl

theorem jchars_time {s : List UInt8} (h : PlainTime s) : JChars s (s.map UInt8.toNat) := by
  induction s with
  | nil => exact .nil
  | cons b s ih =>
    obtain ⟨h1, h2, h3, h4⟩ := h b List.mem_cons_self
    have e : utf8Of b.toNat = [b] := by unfold utf8Of; rw [if_pos (by omega), UInt8.ofNat_toNat]
    have : JChar [b] b.toNat := by
      rw [← e]
      exact .plain (by unfold Scalar; omega) (by omega) h3 h4
    exact .cons this (ih fun x hx => h x (List.mem_cons_of_mem _ hx))

theorem jtext_scalars {s : List UInt8} {t : List Nat} (h : JText s (.str t)) : ∀ n ∈ t, Scalar n := by
  cases h with
  | str h => exact jchars_scalar h

/-- A field with a string. -/
theorem Readable.str {pr : Nat → Bool} {name : Str} {t : List Nat} {fs : List (Str × Str × Str)} (h1 : ¬ MsgName name)
    (h2 : (0x3d : UInt8) ∉ name) (h3 : High name) (ht : ∀ n ∈ t, Scalar n) (hf : Readable fs) :
    Readable ((name, consoleValue pr (.str t), utf8Text t) :: fs) :=
  .word h1 h2 h3 (value_high pr ht) (fun _ hr => word_value pr ht hr) hf

/-- A field with a number. -/
theorem Readable.num {pr : Nat → Bool} {name : Str} {n : Nat} {fs : List (Str × Str × Str)} (h1 : ¬ MsgName name)
    (h2 : (0x3d : UInt8) ∉ name) (h3 : High name) (hf : Readable fs) :
    Readable ((name, consoleValue pr (.num n), decimal n) :: fs) :=
  .word h1 h2 h3 (High.digits (decimal_digits n)) (fun _ hr => word_number n hr) hf

/-- The level as printed. -/
def Spec.levelText : Level → String
  | .debug => "DEBUG"
  | .info => "INFO"
  | .warn => "WARN"
  | .error => "ERROR"
  | .fatal => "FATAL"

theorem consoleLevel_text (lv : Level) : consoleLevel (utf8Text (chars lv.text)) =
    [0x7c, 0x20] ++ utf8Text (chars (levelText lv)) ++
      List.replicate (6 - (utf8Text (chars (levelText lv))).length) 0x20 ++ [0x7c] := by
  cases lv <;> decide +kernel

/-- The line of an event whose fields can be read. -/
theorem console_reads (pr : Nat → Bool) (e : LogEv) {time : Str} (ht : PlainTime time) {kvs : List (List Nat × JVal)}
    {fs : List (Str × Str × Str)} {ms : List (List Nat × JVal)}
    (hv : lineVal e.level.text kvs (chars e.place) (time.map UInt8.toNat) e.msg = .obj ms)
    (h1 : partText ms "time" = utf8Text (time.map UInt8.toNat)) (h2 : partText ms "level" = utf8Text (chars e.level.text))
    (h3 : partText ms "c" = utf8Text (chars e.place)) (h4 : partText ms "m" = utf8Text (chars e.msg))
    (h5 : (consoleFields ms).map (fun x => (x.1, consoleValue pr x.2)) = fs.map fun f => (f.1, f.2.1)) (hf : Readable fs) :
    ∃ p, consoleLine pr (lineVal e.level.text kvs (chars e.place) (time.map UInt8.toNat) e.msg) = p ++ [0x0a] ∧ High p ∧
      lineIn p = some ⟨time, utf8Text (chars (levelText e.level)), utf8Text (chars e.place), utf8Text (chars e.msg),
        fs.map fun f => (f.1, f.2.2)⟩ := by
  have ht1 : (0x20 : UInt8) ∉ time := by
    intro h; have := (ht _ h).1; revert this; decide
  have ht2 : High time := by intro b hb; have := (ht b hb).1; omega
  have hft : (consoleFields ms).flatMap (fun x => 0x20 :: x.1 ++ 0x3d :: consoleValue pr x.2) = fieldsText fs := by
    have := congrArg (fun l => List.flatMap (fun x : Str × Str => 0x20 :: x.1 ++ 0x3d :: x.2) l) h5
    simp only [List.flatMap_map] at this
    exact this
  have hp : High (utf8Text (chars e.place)) ∧ (0x20 : UInt8) ∉ utf8Text (chars e.place) := by
    cases e <;> (simp only [LogEv.place]; unfold High; decide +kernel)
  have hm : High (utf8Text (chars e.msg)) ∧ (0x7c : UInt8) ∉ utf8Text (chars e.msg) := by
    cases e <;> (simp only [LogEv.msg]; unfold High; decide +kernel)
  have hl : High (utf8Text (chars (levelText e.level))) ∧ (0x20 : UInt8) ∉ utf8Text (chars (levelText e.level)) ∧
      (utf8Text (chars (levelText e.level))).length ≤ 5 := by
    cases e <;> (simp only [LogEv.level]; unfold High; decide +kernel)
  refine ⟨consoleText pr ms, by rw [hv]; rfl, ?_, ?_⟩
  · unfold consoleText
    rw [hft, h1, h2, h3, h4, consoleLevel_text, utf8_ascii fun b hb => by have := (ht b hb).2.1; omega]
    have hlv : High ([0x7c, 0x20] ++ utf8Text (chars (levelText e.level)) ++
        List.replicate (6 - (utf8Text (chars (levelText e.level))).length) 0x20 ++ [0x7c]) :=
      ((High.append (by unfold High; decide) hl.1).append (by
        intro b hb; rw [(List.mem_replicate.1 hb).2]; decide)).append (by unfold High; decide)
    exact ((((((ht2.append (.cons (by decide) hlv)).append (.cons (by decide) hp.1)).append
      (by unfold High; decide)).append hm.1).append (by unfold High; decide)).append hf.high)
  · unfold consoleText
    rw [hft, h1, h2, h3, h4, consoleLevel_text, utf8_ascii fun b hb => by have := (ht b hb).2.1; omega]
    exact line_read ht1 hl.2.1 hl.2.2 hp.2 hm.2 hf

/-- What a line in text form says. -/
def TellsText (L : LogSetup) (e : LogEv) (l : LogLine) : Prop :=
  match e with
  | .received id f => ∃ t, Seen id t ∧ receivedOn l = some (utf8Text t, f) ∧ sentOn l = none
  | .sent f => receivedOn l = none ∧ sentOn l = some f
  | .incoming id n x => receivedOn l = none ∧ sentOn l = none ∧
      ∀ msg, JText x msg → TextAbout "incoming" "msg_processor.go:173" "Received jt808 msg." id n msg l
  | .outgoing id n x => receivedOn l = none ∧ sentOn l = none ∧
      ∀ msg, JText x msg → TextAbout "outgoing" "msg_processor.go:194" "Generating jt808 outgoing msg." id n msg l
  | .failed id x => receivedOn l = none ∧ sentOn l = none ∧ ∃ t u, Seen id t ∧ Seen (L.errText x) u ∧
      l.get "id" = some (utf8Text t) ∧ l.get "error" = some (utf8Text u)
  | .closing id => receivedOn l = none ∧ sentOn l = none ∧ ∃ t, Seen id t ∧ l.get "id" = some (utf8Text t)

theorem receivedOn_other (m : String) {l : LogLine} (hl : l.said = utf8Text (chars m))
    (h : utf8Text (chars m) ≠ utf8Text (chars "Received frame.")) : receivedOn l = none := if_neg (hl ▸ h)

theorem sentOn_other (m : String) {l : LogLine} (hl : l.said = utf8Text (chars m))
    (h : utf8Text (chars m) ≠ utf8Text (chars "Sent frame.")) : sentOn l = none := if_neg (hl ▸ h)

/-- A name that is no message's, without `=`. -/
def NiceName (s : String) : Prop :=
  ¬ MsgName (utf8Text (chars s)) ∧ (0x3d : UInt8) ∉ utf8Text (chars s) ∧ High (utf8Text (chars s))

theorem nice_names : NiceName "id" ∧ NiceName "frame_len" ∧ NiceName "frame_payload" ∧ NiceName "RawMsgID" ∧ NiceName "error" := by
  unfold NiceName MsgName High
  decide +kernel

theorem message_names : (MsgName (utf8Text (chars "incoming")) ∧ (0x3d : UInt8) ∉ utf8Text (chars "incoming") ∧
    High (utf8Text (chars "incoming"))) ∧ MsgName (utf8Text (chars "outgoing")) ∧ (0x3d : UInt8) ∉ utf8Text (chars "outgoing") ∧
    High (utf8Text (chars "outgoing")) := by
  unfold MsgName High
  decide +kernel

/-- An event whose fields can be read, by what its line denotes. -/
theorem event_console (L : LogSetup) (pr : Nat → Bool) {time : Str} (ht : PlainTime time) (e : LogEv)
    (kvs : List (List Nat × JVal)) (hk : FieldsTail (e.fields L) kvs) {fs : List (Str × Str × Str)}
    (ms : List (List Nat × JVal))
    (hv : lineVal e.level.text kvs (chars e.place) (time.map UInt8.toNat) e.msg = .obj ms)
    (h1 : partText ms "time" = utf8Text (time.map UInt8.toNat)) (h2 : partText ms "level" = utf8Text (chars e.level.text))
    (h3 : partText ms "c" = utf8Text (chars e.place)) (h4 : partText ms "m" = utf8Text (chars e.msg))
    (h5 : (consoleFields ms).map (fun x => (x.1, consoleValue pr x.2)) = fs.map fun f => (f.1, f.2.1)) (hf : Readable fs)
    (P : LogLine → Prop) (lv pl sd : String) (e1 : levelText e.level = lv) (e2 : e.place = pl) (e3 : e.msg = sd)
    (hP : P ⟨time, utf8Text (chars lv), utf8Text (chars pl), utf8Text (chars sd), fs.map fun f => (f.1, f.2.2)⟩) :
    ∃ s v p l, e.line L time = s ++ [0x0a] ∧ JText s v ∧ consoleLine pr v = p ++ [0x0a] ∧ High p ∧ lineIn p = some l ∧
      l.time = time ∧ l.said = utf8Text (chars e.msg) ∧ P l := by
  obtain ⟨c, s, hc, g1, g2⟩ := line_text L (jchars_time ht) e hk
  rw [seen_unique hc (caller_site L.root e)] at g2
  obtain ⟨p, q1, q2, q3⟩ := console_reads pr e ht hv h1 h2 h3 h4 h5 hf
  rw [e1, e2, e3] at q3
  exact ⟨s, _, p, _, g1, g2, q1, q2, q3, rfl, by rw [e3], hP⟩

theorem unhexBytes_text (f : List UInt8) : unhexBytes (utf8Text ((byte2Str f).map UInt8.toNat)) = some f := by
  rw [utf8_ascii (byte2Str_ascii f)]
  exact unhex_byte2Str f

theorem line_console (L : LogSetup) (pr : Nat → Bool) {time : Str} (ht : PlainTime time) (e : LogEv) (hs : e.sound) :
    ∃ s v p l, e.line L time = s ++ [0x0a] ∧ JText s v ∧ consoleLine pr v = p ++ [0x0a] ∧ High p ∧ lineIn p = some l ∧
      l.time = time ∧ l.said = utf8Text (chars e.msg) ∧ TellsText L e l := by
  obtain ⟨n1, n2, n3, n4, n5⟩ := nice_names
  cases e with
  | received id f =>
    obtain ⟨t, a, b⟩ := jtext_zero id
    refine event_console L pr ht (.received id f)
      [(chars "id", .str t), (chars "frame_len", .num f.length), (chars "frame_payload", .str ((byte2Str f).map UInt8.toNat))]
      (.cons (by unfold PlainName; decide) b
        (.cons (by unfold PlainName; decide) (jtext_decimal _) (.cons (by unfold PlainName; decide) (jtext_hex f) .nil)))
      (fs := [(utf8Text (chars "frame_len"), consoleValue pr (.num f.length), decimal f.length),
       (utf8Text (chars "frame_payload"), consoleValue pr (.str ((byte2Str f).map UInt8.toNat)), utf8Text ((byte2Str f).map UInt8.toNat)),
       (utf8Text (chars "id"), consoleValue pr (.str t), utf8Text t)]) _ rfl rfl rfl rfl rfl rfl
      (.num n2.1 n2.2.1 n2.2.2 (.str n3.1 n3.2.1 n3.2.2 (jtext_scalars (jtext_hex f)) (.str n1.1 n1.2.1 n1.2.2 (jtext_scalars b) .nil)))
      (TellsText L (.received id f)) "DEBUG" "frame_handler.go:82" "Received frame." rfl rfl rfl ⟨t, a, ?_, sentOn_other "Received frame." rfl (by decide +kernel)⟩
    unfold receivedOn
    rw [if_pos rfl]
    show (some (utf8Text t)).bind (fun i => ((some (utf8Text ((byte2Str f).map UInt8.toNat))).bind unhexBytes).bind fun x => some (i, x)) = _
    rw [Option.bind_some, Option.bind_some, unhexBytes_text]; rfl
  | sent f =>
    refine event_console L pr ht (.sent f)
      [(chars "frame_len", .num f.length), (chars "frame_payload", .str ((byte2Str f).map UInt8.toNat))]
      (.cons (by unfold PlainName; decide) (jtext_decimal _) (.cons (by unfold PlainName; decide) (jtext_hex f) .nil))
      (fs := [(utf8Text (chars "frame_len"), consoleValue pr (.num f.length), decimal f.length),
       (utf8Text (chars "frame_payload"), consoleValue pr (.str ((byte2Str f).map UInt8.toNat)), utf8Text ((byte2Str f).map UInt8.toNat))])
      _ rfl rfl rfl rfl rfl rfl
      (.num n2.1 n2.2.1 n2.2.2 (.str n3.1 n3.2.1 n3.2.2 (jtext_scalars (jtext_hex f)) .nil))
      (TellsText L (.sent f)) "DEBUG" "frame_handler.go:107" "Sent frame." rfl rfl rfl ⟨receivedOn_other "Sent frame." rfl (by decide +kernel), ?_⟩
    unfold sentOn
    rw [if_pos rfl]
    show (some (utf8Text ((byte2Str f).map UInt8.toNat))).bind unhexBytes = _
    rw [Option.bind_some, unhexBytes_text]
  | incoming id n x =>
    obtain ⟨t, a, b⟩ := jtext_zero id
    obtain ⟨kvs, hv⟩ := hs
    obtain ⟨w, w1, w2⟩ := marshal_text hv
    obtain ⟨m1, m2, m3⟩ := message_names.1
    refine event_console L pr ht (.incoming id n x)
      [(chars "id", .str t), (chars "RawMsgID", .str (numberText n.toNat)), (chars "incoming", .obj kvs)]
      (.cons (by unfold PlainName; decide) b
        (.cons (by unfold PlainName; decide) (jtext_number n) (.cons (by unfold PlainName; decide) hv .nil)))
      (fs := [(utf8Text (chars "RawMsgID"), consoleValue pr (.str (numberText n.toNat)), utf8Text (numberText n.toNat)),
       (utf8Text (chars "id"), consoleValue pr (.str t), utf8Text t),
       (utf8Text (chars "incoming"), marshalVal (.obj kvs), marshalVal (.obj kvs))]) _ rfl rfl rfl rfl rfl rfl
      (.str n4.1 n4.2.1 n4.2.2 (jtext_scalars (jtext_number n)) (.str n1.1 n1.2.1 n1.2.2 (jtext_scalars b)
        (.message m1 m2 m3 (jtext_high w2))))
      (TellsText L (.incoming id n x)) "DEBUG" "msg_processor.go:173" "Received jt808 msg." rfl rfl rfl ⟨receivedOn_other "Received jt808 msg." rfl (by decide +kernel), sentOn_other "Received jt808 msg." rfl (by decide +kernel), fun msg hm => ?_⟩
    rw [jtext_unique hm hv]
    exact ⟨rfl, rfl, rfl, ⟨t, a, rfl⟩, rfl, _, w, rfl, w2, w1⟩
  | outgoing id n x =>
    obtain ⟨t, a, b⟩ := jtext_zero id
    obtain ⟨kvs, hv⟩ := hs
    obtain ⟨w, w1, w2⟩ := marshal_text hv
    obtain ⟨m1, m2, m3⟩ := message_names.2
    refine event_console L pr ht (.outgoing id n x)
      [(chars "id", .str t), (chars "RawMsgID", .str (numberText n.toNat)), (chars "outgoing", .obj kvs)]
      (.cons (by unfold PlainName; decide) b
        (.cons (by unfold PlainName; decide) (jtext_number n) (.cons (by unfold PlainName; decide) hv .nil)))
      (fs := [(utf8Text (chars "RawMsgID"), consoleValue pr (.str (numberText n.toNat)), utf8Text (numberText n.toNat)),
       (utf8Text (chars "id"), consoleValue pr (.str t), utf8Text t),
       (utf8Text (chars "outgoing"), marshalVal (.obj kvs), marshalVal (.obj kvs))]) _ rfl rfl rfl rfl rfl rfl
      (.str n4.1 n4.2.1 n4.2.2 (jtext_scalars (jtext_number n)) (.str n1.1 n1.2.1 n1.2.2 (jtext_scalars b)
        (.message m1 m2 m3 (jtext_high w2))))
      (TellsText L (.outgoing id n x)) "DEBUG" "msg_processor.go:194" "Generating jt808 outgoing msg." rfl rfl rfl ⟨receivedOn_other "Generating jt808 outgoing msg." rfl (by decide +kernel), sentOn_other "Generating jt808 outgoing msg." rfl (by decide +kernel), fun msg hm => ?_⟩
    rw [jtext_unique hm hv]
    exact ⟨rfl, rfl, rfl, ⟨t, a, rfl⟩, rfl, _, w, rfl, w2, w1⟩
  | failed id x =>
    obtain ⟨t, a, b⟩ := jtext_zero id
    obtain ⟨u, a', b'⟩ := jtext_zero (L.errText x)
    exact event_console L pr ht (.failed id x) [(chars "error", .str u), (chars "id", .str t)]
      (.cons (by unfold PlainName; decide) b' (.cons (by unfold PlainName; decide) b .nil))
      (fs := [(utf8Text (chars "error"), consoleValue pr (.str u), utf8Text u),
       (utf8Text (chars "id"), consoleValue pr (.str t), utf8Text t)]) _ rfl rfl rfl rfl rfl rfl
      (.str n5.1 n5.2.1 n5.2.2 (jtext_scalars b') (.str n1.1 n1.2.1 n1.2.2 (jtext_scalars b) .nil))
      (TellsText L (.failed id x)) "ERROR" "tcp_server.go:100" "Failed to serve session" rfl rfl rfl
      ⟨receivedOn_other "Failed to serve session" rfl (by decide +kernel), sentOn_other "Failed to serve session" rfl (by decide +kernel), t, u, a, a', rfl, rfl⟩
  | closing id =>
    obtain ⟨t, a, b⟩ := jtext_zero id
    exact event_console L pr ht (.closing id) [(chars "id", .str t)] (.cons (by unfold PlainName; decide) b .nil)
      (fs := [(utf8Text (chars "id"), consoleValue pr (.str t), utf8Text t)]) _ rfl rfl rfl rfl rfl rfl
      (.str n1.1 n1.2.1 n1.2.2 (jtext_scalars b) .nil) (TellsText L (.closing id)) "DEBUG" "tcp_server.go:82" "Closing connection from remote." rfl rfl rfl
      ⟨receivedOn_other "Closing connection from remote." rfl (by decide +kernel), sentOn_other "Closing connection from remote." rfl (by decide +kernel), t, a, rfl⟩

/-! ### The whole file -/

/-- A file in text form with its lines as read. -/
def Spec.ReadsAs (file : List UInt8) (ls : List LogLine) : Prop :=
  (linesIn [] file).map lineIn = ls.map some ∧ (linesIn [] file).flatMap (· ++ [0x0a]) = file

theorem file_console (L : LogSetup) (pr : Nat → Bool) (es : List (Str × LogEv))
    (hs : ∀ e ∈ es, e.2.sound ∧ PlainTime e.1) :
    ∃ vs ls, FileSays (logFile L es) vs ∧ ReadsAs (consoleFile pr vs) ls ∧ ls.map (·.time) = es.map Prod.fst ∧
      ls.map (·.said) = es.map (fun e => utf8Text (chars e.2.msg)) ∧
      (∀ e ∈ es, ∃ l ∈ ls, TellsText L e.2 l) ∧
      ShownFrom ((es.map Prod.snd).filterMap LogEv.recv) (ls.filterMap receivedOn) ∧
      ls.filterMap sentOn = (es.map Prod.snd).filterMap LogEv.out := by
  induction es with
  | nil => exact ⟨[], [], .nil, ⟨rfl, rfl⟩, rfl, rfl, (by intro v hv; cases hv), .nil, rfl⟩
  | cons e es ih =>
    obtain ⟨vs, ls, h1, ⟨h2, h2'⟩, h3, h4, h5, h6, h7⟩ := ih fun x hx => hs x (List.mem_cons_of_mem _ hx)
    obtain ⟨he, hw⟩ := hs e List.mem_cons_self
    obtain ⟨s, v, p, l, g1, g2, g3, g4, g5, g6, g7, g8⟩ := line_console L pr hw e.2 he
    have hfile : logFile L (e :: es) = s ++ 0x0a :: logFile L es := by
      show e.2.line L e.1 ++ logFile L es = _
      rw [g1, List.append_assoc]; rfl
    have hcons : consoleFile pr (v :: vs) = p ++ 0x0a :: consoleFile pr vs := by
      show consoleLine pr v ++ consoleFile pr vs = _
      rw [g3, List.append_assoc]; rfl
    have hl : linesIn [] (consoleFile pr (v :: vs)) = p :: linesIn [] (consoleFile pr vs) := by
      rw [hcons, linesIn_cut g4]; rfl
    refine ⟨v :: vs, l :: ls, ?_, ⟨?_, ?_⟩, ?_, ?_, ?_, ?_⟩
    · rw [hfile]; exact .line g2 h1
    · rw [hl, List.map_cons, List.map_cons, g5, h2]
    · rw [hl, List.flatMap_cons, h2', hcons, List.append_assoc]; rfl
    · rw [List.map_cons, List.map_cons, g6, h3]
    · rw [List.map_cons, List.map_cons, g7, h4]
    · intro x hx
      rcases List.mem_cons.1 hx with rfl | hx
      · exact ⟨l, List.mem_cons_self, g8⟩
      · obtain ⟨y, hy, h⟩ := h5 x hx
        exact ⟨y, List.mem_cons_of_mem _ hy, h⟩
    · obtain ⟨t, e⟩ := e
      cases e with
      | received id f =>
        obtain ⟨i, a, b, d⟩ := g8
        simp only [List.map_cons, List.filterMap_cons, b, d, LogEv.recv, LogEv.out]
        exact ⟨.cons a h6, h7⟩
      | sent f =>
        obtain ⟨b, d⟩ := g8
        simp only [List.map_cons, List.filterMap_cons, b, d, LogEv.recv, LogEv.out]
        exact ⟨h6, by rw [h7]⟩
      | incoming id n x =>
        obtain ⟨b, d, _⟩ := g8
        simp only [List.map_cons, List.filterMap_cons, b, d, LogEv.recv, LogEv.out]
        exact ⟨h6, h7⟩
      | outgoing id n x =>
        obtain ⟨b, d, _⟩ := g8
        simp only [List.map_cons, List.filterMap_cons, b, d, LogEv.recv, LogEv.out]
        exact ⟨h6, h7⟩
      | failed id x =>
        obtain ⟨b, d, _⟩ := g8
        simp only [List.map_cons, List.filterMap_cons, b, d, LogEv.recv, LogEv.out]
        exact ⟨h6, h7⟩
      | closing id =>
        obtain ⟨b, d, _⟩ := g8
        simp only [List.map_cons, List.filterMap_cons, b, d, LogEv.recv, LogEv.out]
        exact ⟨h6, h7⟩

/-! ### C143 -/

/-- C143: the log in text form, at debug level: one line for each thing logged, with its time; every line can be read, nothing stands
between them, and they tell every frame that arrived with the address of its connection, and every frame that left, byte for byte and
in order. Whatever the terminals send, no line is cut or made up. `vs` is what the writer decodes from what is handed to it. -/
theorem C143_replay {L : LogSetup} {time : Civil → List Nat} (ht : L.shows time)
    (hd : L.level ∉ ["INFO", "WARN", "ERROR", "FATAl"]) (pr : Nat → Bool) (env : Env) (s : Sys) (evs : List Ev)
    (hy : ∀ e ∈ evs, Spec.Ev.fourDigitYear e) (es : List (Str × LogEv)) (he : es.map Prod.snd = (s.runLogged L env evs).2)
    (hw : ∀ e ∈ es, PlainTime e.1) (vs : List JVal) (hv : FileSays (logFile L es) vs) :
    ∃ ls, ReadsAs (consoleFile pr vs) ls ∧ ls.map (·.time) = es.map Prod.fst ∧
      ls.map (·.said) = es.map (fun e => utf8Text (chars e.2.msg)) ∧
      ShownFrom (arrivals env s evs) (ls.filterMap receivedOn) ∧ ls.filterMap sentOn = departures env s evs := by
  obtain ⟨_, h2, h3, _⟩ := runLogged_same ht env s evs hy
  obtain ⟨vs', ls, g1, g2, g3, g4, _, g5, g6⟩ := file_console L pr es fun e hm =>
    ⟨h2 _ (he ▸ List.mem_map_of_mem hm), hw e hm⟩
  rw [fileSays_unique hv g1]
  refine ⟨ls, g2, g3, g4, ?_, ?_⟩
  · rw [he, ← (recv_frameLines _).1, h3 (debug_of hd), (historyLog_frames env s evs).1] at g5
    exact g5
  · rw [he, ← (recv_frameLines _).2, h3 (debug_of hd), (historyLog_frames env s evs).2] at g6
    exact g6

/-- C143: at any other level every line can be read as well, and there is none but those of errors of connections. -/
theorem C143_quiet {L : LogSetup} {time : Civil → List Nat} (ht : L.shows time)
    (hq : L.level ∈ ["INFO", "WARN", "ERROR", "FATAl"]) (pr : Nat → Bool) (env : Env) (s : Sys) (evs : List Ev)
    (hy : ∀ e ∈ evs, Spec.Ev.fourDigitYear e) (es : List (Str × LogEv)) (he : es.map Prod.snd = (s.runLogged L env evs).2)
    (hw : ∀ e ∈ es, PlainTime e.1) (vs : List JVal) (hv : FileSays (logFile L es) vs) :
    ∃ ls, ReadsAs (consoleFile pr vs) ls ∧ ls.map (·.time) = es.map Prod.fst ∧
      (∀ l ∈ ls, l.said = utf8Text (chars "Failed to serve session")) ∧
      ∀ t id x, (t, LogEv.failed id x) ∈ es → ∃ l ∈ ls, ∃ i u, Seen id i ∧ Seen (L.errText x) u ∧
        l.get "id" = some (utf8Text i) ∧ l.get "error" = some (utf8Text u) := by
  obtain ⟨_, h2, _, h4⟩ := runLogged_same ht env s evs hy
  obtain ⟨vs', ls, g1, g2, g3, g4, g5, _⟩ := file_console L pr es fun e hm =>
    ⟨h2 _ (he ▸ List.mem_map_of_mem hm), hw e hm⟩
  rw [fileSays_unique hv g1]
  refine ⟨ls, g2, g3, fun l hl => ?_, fun t id x hm => ?_⟩
  · have : l.said ∈ es.map (fun e => utf8Text (chars e.2.msg)) := g4 ▸ List.mem_map_of_mem hl
    obtain ⟨e, hm, h⟩ := List.mem_map.1 this
    obtain ⟨id, x, hx⟩ := h4 (quiet_of hq) e.2 (he ▸ List.mem_map_of_mem hm)
    rw [← h, hx]; rfl
  · obtain ⟨l, hl, _, _, i, u, h⟩ := g5 _ hm
    exact ⟨l, hl, i, u, h⟩

/-- C143: at debug level a frame that holds a whole message is in the text as a message too, with every field of its header and
body in JSON up to the order of names, and so is the message whose encoding was sent. -/
theorem C143_content {L : LogSetup} {time : Civil → List Nat} (ht : L.shows time)
    (hd : L.level ∉ ["INFO", "WARN", "ERROR", "FATAl"]) (pr : Nat → Bool) {env : Env} {s : Sys} (hc : s.crashed = false)
    {clk : Clock} (hy : clk.civil.year < 10000) {c : Conn} (hl : c ∈ s.live) {frame : List UInt8} {h : Header} {m : Msg}
    (hh : Holds env clk.civil frame h m) (werr : Option Err) (es : List (Str × LogEv))
    (he : es.map Prod.snd = (s.runLogged L env [.frame clk c frame werr]).2) (hw : ∀ e ∈ es, PlainTime e.1)
    (vs : List JVal) (hv : FileSays (logFile L es) vs) :
    ∃ ls, ReadsAs (consoleFile pr vs) ls ∧
      (∃ l ∈ ls, ∃ msg, MsgShown time h m msg ∧
        TextAbout "incoming" "msg_processor.go:173" "Received jt808 msg." c.addr h.msgID msg l) ∧
      ∀ d f, (s.step env (.frame clk c frame werr)).2.sent = some (d, f) →
        ∃ o : Out, Out.encode env o = .ok f ∧ ∃ l ∈ ls, ∃ msg, MsgShown time o.1 o.2 msg ∧
          TextAbout "outgoing" "msg_processor.go:194" "Generating jt808 outgoing msg." c.addr o.1.msgID msg l := by
  have hdb := debug_of hd
  obtain ⟨_, h2, _⟩ := runLogged_same ht env s [.frame clk c frame werr] (by
    intro e hm; rw [List.mem_singleton] at hm; subst hm; exact hy)
  obtain ⟨vs', ls, g1, g2, _, _, g3, _⟩ := file_console L pr es fun e hm =>
    ⟨h2 _ (he ▸ List.mem_map_of_mem hm), hw e hm⟩
  rw [fileSays_unique hv g1]
  obtain ⟨⟨text, msg, k1, k2, k3⟩, k4⟩ := handleLogged_holds ht hdb hy hh c s.st
  have sub : ∀ e ∈ (s.st.handleLogged L env clk c (some c) frame).2, e ∈ es.map Prod.snd := by
    rw [he]; exact frame_logged hdb hc hl werr
  refine ⟨ls, g2, ?_, ?_⟩
  · obtain ⟨⟨t, e⟩, hm, hx⟩ := List.mem_map.1 (sub _ k3)
    simp only at hx
    subst hx
    obtain ⟨l, hl, _, _, q⟩ := g3 _ hm
    exact ⟨l, hl, msg, k1, q msg k2⟩
  · intro d f hf
    obtain ⟨o, o1, text', msg', p1, p2, p3⟩ := k4 f (frame_replied hc hl hf)
    obtain ⟨⟨t, e⟩, hm, hx⟩ := List.mem_map.1 (sub _ p3)
    simp only at hx
    subst hx
    obtain ⟨l, hl, _, _, q⟩ := g3 _ hm
    exact ⟨o, o1, l, hl, msg', p1, q msg' p2⟩

theorem linesIn_count (acc s : List UInt8) : (linesIn acc s).length = s.count 0x0a := by
  induction s generalizing acc with
  | nil => rfl
  | cons b s ih =>
    unfold linesIn
    split
    · rename_i h; subst h; simp [ih]
    · rename_i h; rw [ih, List.count_cons_of_ne (by simpa using h)]

/-- C143: the report of a panic is another matter: its text goes to the file as it is, so it takes one line more for every line
feed of what was reported and of the stack. -/
theorem C143_panic (L : LogSetup) (pr : Nat → Bool) {time : Str} (ht : PlainTime time) {tp ts : List Nat}
    (hp : ∀ n ∈ tp, Scalar n) (hs : ∀ n ∈ ts, Scalar n) :
    ∃ s v, panicLine L time (utf8Text tp) (utf8Text ts) = s ++ [0x0a] ∧ JText s v ∧
      (linesIn [] (consoleLine pr v)).length = 1 + (utf8Text tp).count 0x0a + (utf8Text ts).count 0x0a := by
  have k1 : jsonName "err=" = utf8Text (chars "err=") := by decide +kernel
  have k2 : jsonName ", stack=" = utf8Text (chars ", stack=") := by decide +kernel
  have happ : ∀ a b : List Nat, utf8Text a ++ utf8Text b = utf8Text (a ++ b) := fun a b => by simp [utf8Text]
  have hc : ∀ n ∈ chars "err=" ++ tp ++ chars ", stack=" ++ ts, Scalar n := by
    have c1 : ∀ n ∈ chars "err=", Scalar n := by unfold Scalar; decide
    have c2 : ∀ n ∈ chars ", stack=", Scalar n := by unfold Scalar; decide
    intro n hn
    rcases List.mem_append.1 hn with hn | hn
    · rcases List.mem_append.1 hn with hn | hn
      · rcases List.mem_append.1 hn with hn | hn
        · exact c1 n hn
        · exact hp n hn
      · exact c2 n hn
    · exact hs n hn
  obtain ⟨c, b1, b2⟩ := jtext_zero (callerText (L.root ++ jsonName "/pkg/routines/safe.go") 32)
  have hcall := caller_file L.root "/pkg/routines/safe.go" "/pkg/routines" "safe.go" "safe.go:32" 32 (by decide +kernel)
    (by decide +kernel) (by unfold PlainName; decide +kernel) (by decide +kernel) (by decide +kernel)
  rw [seen_unique b1 hcall] at b2
  obtain ⟨t, a1, a2⟩ := jtext_zero (utf8Text (chars "err=" ++ tp ++ chars ", stack=" ++ ts))
  rw [seen_unique a1 (seen_utf8Text hc)] at a2
  refine ⟨_, .obj [(chars "level", .str (chars "error")), (chars "c", .str (chars "safe.go:32")),
    (chars "time", .str (time.map UInt8.toNat)), (chars "m", .str (chars "err=" ++ tp ++ chars ", stack=" ++ ts))], rfl, ?_, ?_⟩
  · rw [k1, k2, happ, happ, happ]
    refine jsonStruct_text (FieldsTail.fields ?_ (jtext_zeroName ?_) (.cons ?_ b2 (.cons ?_ (.str (jchars_time ht)) (.cons ?_ a2 .nil))))
    all_goals (unfold PlainName; decide)
  · rw [linesIn_count]
    show List.count 0x0a ((utf8Text (time.map UInt8.toNat) ++ 0x20 :: consoleLevel (utf8Text (chars "error")) ++
      0x20 :: utf8Text (chars "safe.go:32") ++ [0x20, 0x3e, 0x20] ++ utf8Text (chars "err=" ++ tp ++ chars ", stack=" ++ ts) ++
      [0x20, 0x7c] ++ []) ++ [0x0a]) = _
    have h0 : List.count 0x0a time = 0 := by
      refine List.count_eq_zero.2 fun h => ?_
      have := (ht _ h).1
      revert this; decide
    have h1 : List.count 0x0a (consoleLevel (utf8Text (chars "error"))) = 0 := by decide +kernel
    have h2 : List.count 0x0a (utf8Text (chars "safe.go:32")) = 0 := by decide +kernel
    have h3 : List.count 0x0a (utf8Text (chars "err=")) = 0 := by decide +kernel
    have h4 : List.count 0x0a (utf8Text (chars ", stack=")) = 0 := by decide +kernel
    rw [utf8_ascii fun b hb => by have := (ht b hb).2.1; omega, ← happ, ← happ, ← happ]
    simp only [List.count_append, List.count_cons, List.count_nil, h0, h1, h2, h3, h4]
    simp
    omega

/-! ### The hypotheses can be met -/

theorem demoLogged_plain (level : String) : ∀ e ∈ demoLogged level, PlainTime e.1 := by
  intro e he
  obtain ⟨x, _, rfl⟩ := List.mem_map.1 he
  show PlainTime (jsonName "2024-02-29T12:00:00.1Z")
  unfold PlainTime
  decide +kernel

/-- The registration and the heartbeat in text form. -/
example : ∃ vs ls, FileSays (logFile (demoLog "DEBUG") (demoLogged "DEBUG")) vs ∧
    ReadsAs (consoleFile (fun _ => false) vs) ls ∧ ls.length = 8 ∧
    ShownFrom [([0x61], demoReg), ([0x61], demoBeat)] (ls.filterMap receivedOn) := by
  obtain ⟨vs, h1, _, _⟩ := C141_replay (demoLog_shows _) (by show "DEBUG" ∉ _; decide) goEnv Sys.start demoTalk demoTalk_years _
    (demoLogged_events _) (demoLogged_times _)
  obtain ⟨ls, h2, h3, _, h4, _⟩ := C143_replay (demoLog_shows _) (by show "DEBUG" ∉ _; decide) (fun _ => false) goEnv Sys.start
    demoTalk demoTalk_years _ (demoLogged_events _) (demoLogged_plain _) vs h1
  have h5 : ls.length = (demoLogged "DEBUG").length := by
    have := congrArg List.length h3
    simpa using this
  have h6 : (demoLogged "DEBUG").length = 8 := by decide +kernel
  have h7 : arrivals goEnv Sys.start demoTalk = [([0x61], demoReg), ([0x61], demoBeat)] := by decide +kernel
  exact ⟨vs, ls, h1, h2, by rw [h5, h6], h7 ▸ h4⟩

/-- A line as it stands in the file, and what is read from it. The text of an error that comes from afar is quoted. -/
example : consoleText (fun _ => false)
      [(chars "level", .str (chars "error")), (chars "error", .str (chars "a b\n2024 | FAKE")), (chars "id", .str (chars "[::1]:7")),
       (chars "c", .str (chars "tcp_server.go:100")), (chars "time", .str (chars "12:00")), (chars "m", .str (chars "Failed to serve session"))] =
    jsonName "12:00 | ERROR | tcp_server.go:100 > Failed to serve session | error=\"a b\\n2024 | FAKE\" id=[::1]:7" ∧
    lineIn (jsonName "12:00 | ERROR | tcp_server.go:100 > Failed to serve session | error=\"a b\\n2024 | FAKE\" id=[::1]:7") =
      some ⟨jsonName "12:00", jsonName "ERROR", jsonName "tcp_server.go:100", jsonName "Failed to serve session",
        [(jsonName "error", jsonName "a b\n2024 | FAKE"), (jsonName "id", jsonName "[::1]:7")]⟩ := by
  decide +kernel

/-- A connection that ends, at level ERROR. -/
example : ∃ vs ls, FileSays (logFile (demoLog "ERROR") [(jsonName "now", .failed [0x62] .eof)]) vs ∧
    ReadsAs (consoleFile (fun _ => false) vs) ls ∧ ∃ l ∈ ls, l.get "error" = some (jsonName "device not found") := by
  have hev : [(jsonName "now", LogEv.failed [0x62] .eof)].map Prod.snd =
      (Sys.start.runLogged (demoLog "ERROR") goEnv (demoEvs ++ [.readErr demoC' .eof])).2 := by decide +kernel
  have hy : ∀ e ∈ demoEvs ++ [.readErr demoC' .eof], Spec.Ev.fourDigitYear e := by
    intro e he
    rcases List.mem_append.1 he with he | he
    · exact demoTalk_years e (List.mem_append_left _ he)
    · rw [List.mem_singleton] at he; subst he; trivial
  have hw : ∀ e ∈ [(jsonName "now", LogEv.failed [0x62] .eof)], PlainTime e.1 := by unfold PlainTime; decide +kernel
  obtain ⟨vs, h1, _⟩ := C141_quiet (demoLog_shows _) (by show "ERROR" ∈ _; decide) goEnv Sys.start _ hy _ hev (by
    intro e he
    exact ⟨_, jchars_time (hw e he)⟩)
  obtain ⟨ls, h2, _, _, h3⟩ := C143_quiet (demoLog_shows _) (by show "ERROR" ∈ _; decide) (fun _ => false) goEnv Sys.start _ hy _
    hev hw vs h1
  obtain ⟨l, hl, i, u, _, h4, _, h5⟩ := h3 _ _ _ List.mem_cons_self
  refine ⟨vs, ls, h1, h2, l, hl, ?_⟩
  have : Seen ((demoLog "ERROR").errText .eof) (chars "device not found") := seen_name (by unfold PlainName; decide)
  rw [h5, seen_unique h4 this]
  decide +kernel

/-- The message and its answer in the text of the registration. -/
example : ∃ vs ls, ReadsAs (consoleFile (fun _ => true) vs) ls ∧
    ∃ l ∈ ls, ∃ msg, MsgShown (fun _ => chars "2024-02-29T12:00:00Z") ((hdr2013 0x0100).withBodyLength 41) (.m0100 demoRegMsg) msg ∧
      TextAbout "incoming" "msg_processor.go:173" "Received jt808 msg." [0x61] 0x0100 msg l := by
  have hw : ∀ e ∈ (Sys.runLogged (demoLog "debug") goEnv (Sys.start.run goEnv [.accept [0x61]]).1
      [.frame (demoClk 1000) demoC demoReg none]).2.map fun e => (jsonName "now", e), PlainTime e.1 := by
    intro e he
    obtain ⟨x, _, rfl⟩ := List.mem_map.1 he
    show PlainTime (jsonName "now")
    unfold PlainTime
    decide +kernel
  obtain ⟨vs, h1, _⟩ := C141_content (demoLog_shows "debug") (by show "debug" ∉ _; decide)
    (s := (Sys.start.run goEnv [.accept [0x61]]).1) (by decide +kernel) (clk := demoClk 1000) (by decide) (c := demoC)
    (by decide +kernel) (demoReg_holds _) none _ (by rw [List.map_map]; exact List.map_id _) (fun e he => ⟨_, jchars_time (hw e he)⟩)
  obtain ⟨ls, h2, h3, _⟩ := C143_content (demoLog_shows "debug") (by show "debug" ∉ _; decide) (fun _ => true)
    (s := (Sys.start.run goEnv [.accept [0x61]]).1) (by decide +kernel) (clk := demoClk 1000) (by decide) (c := demoC)
    (by decide +kernel) (demoReg_holds _) none _ (by rw [List.map_map]; exact List.map_id _) hw vs h1
  exact ⟨vs, ls, h2, h3⟩

/-- A panic with a stack of two lines. -/
example : ∃ s v, panicLine (demoLog "DEBUG") (jsonName "now") (utf8Text (chars "index out of range")) (utf8Text (chars "main()\n\tmain.go:1\n")) =
    s ++ [0x0a] ∧ JText s v ∧ (linesIn [] (consoleLine (fun _ => false) v)).length = 3 := by
  obtain ⟨s, v, h1, h2, h3⟩ := C143_panic (demoLog "DEBUG") (fun _ => false) (time := jsonName "now") (by unfold PlainTime; decide +kernel)
    (tp := chars "index out of range") (ts := chars "main()\n\tmain.go:1\n") (by unfold Scalar; decide +kernel) (by unfold Scalar; decide +kernel)
  exact ⟨s, v, h1, h2, h3.trans (by decide +kernel)⟩

end JT808
