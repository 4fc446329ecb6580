import Verif.Model.JsonText
import Verif.Model.Config
/-
The lines the server logs on the way of a frame, and what is done for them: internal/protocol/frame_handler.go,
internal/protocol/msg_processor.go, internal/server/tcp_server.go, with pkg/logger/logger.go and the writer of zerolog v1.28.0.

Left out: the lines other places write (codec warnings, verify mismatch, keepalive jobs, accept, the panic GoSafe reports), the
rotation of the file (lumberjack); the console format is in Model/ConsoleLog.lean.
-/
namespace JT808

/-- What the lines depend on besides the frames: the level of the configuration, the directory the program was compiled in, how
a time.Time is written (RFC3339 with the zone of the server, without the quotation marks), the texts of wrapped errors, and
whether an empty parameter list out of the cache is a nil slice (the model of the cache does not tell an empty list from a nil
one: Decode leaves nil for no parameters, device_params.go:29-37, Update never does, device_params.go:67). -/
structure LogSetup where
  level : String
  root : Str
  showTime : Civil → Str
  errText : Err → Str
  nilParams : Bool

/-- `log.Logger.GetLevel() == zerolog.DebugLevel`, frame_handler.go:75, msg_processor.go:165 and 186. -/
def LogSetup.debug (L : LogSetup) : Bool := parseLevel L.level == Level.debug.num

/-! ### json.Marshal of headers and messages (msg_processor.go:168 and 190) -/

/-- EncryptionType as a number, header.go:106-110. -/
def EncDesc.json : EncDesc → Str
  | .none => decimal 0
  | .rsa => decimal 1
  | .unknown => 0x2d :: decimal 1

/-- A truth value, encoding/json. -/
def jsonBool (b : Bool) : Str := jsonName (if b then "true" else "false")

/-- MsgBodyAttr with its tags, header.go:128-138. -/
def Attr.json (a : Attr) : Str :=
  jsonStruct
    [("bodyLength", decimal a.bodyLength.toNat), ("encryption", decimal a.encryption.toNat),
     ("packetFragmented", decimal a.packetFragmented.toNat), ("versionSign", decimal a.versionSign.toNat),
     ("extra", decimal a.extra.toNat), ("encryptionDesc", a.encDesc.json), ("packetFragmentedDesc", jsonBool a.fragDesc),
     ("versionDesc", decimal a.verDesc.num)]

/-- MsgFragmentation with its tags, header.go:183-186; nil is null. -/
def fragJson : Option Frag → Str
  | none => jsonName "null"
  | some f => jsonStruct [("total", decimal f.total.toNat), ("index", decimal f.index.toNat)]

/-- MsgHeader with its tags, header.go:15-24 (Idx is left out by its tag). -/
def Header.json (h : Header) : Str :=
  jsonStruct
    [("msgID", decimal h.msgID.toNat), ("attr", h.attr.json), ("protocolVersion", decimal h.protoVer.toNat),
     ("phoneNumber", jsonString h.phone), ("serialNumber", decimal h.serial.toNat), ("frag", fragJson h.frag)]

/-- A ParamValue, device_params.go:80. `other` is never the value of a decoded parameter and stands as null. -/
def PV.json : PV → Str
  | .byte v => decimal v.toNat
  | .word v => decimal v.toNat
  | .dword v => decimal v.toNat
  | .str s => jsonString s
  | .num n => decimal n
  | .other => jsonName "null"

/-- ParamData with its tags, device_params.go:77-81. -/
def ParamData.json (p : ParamData) : Str :=
  jsonStruct [("paramId", decimal p.id.toNat), ("paramLen", decimal p.len.toNat), ("paramValue", p.value.json)]

/-- DeviceParams with its tags, device_params.go:19-23 (DevicePhone is left out by its tag); `isNil` says whether an empty list
is a nil slice. -/
def DeviceParams.json (isNil : Bool) (p : DeviceParams) : Str :=
  jsonStruct
    [("paramCnt", decimal p.cnt.toNat),
     ("params", if p.params.isEmpty && isNil then jsonName "null"
                else 0x5b :: jsonSep (p.params.map ParamData.json) ++ [0x5d])]

/-- time.Time's MarshalJSON: an error outside of the years 0 to 9999. The error is none of those anybody tests for; `encodeMsg`
stands for it. -/
def LogSetup.timeJson (L : LogSetup) (t : Civil) : Res Str :=
  if t.year < 10000 then .ok (0x22 :: L.showTime t ++ [0x22]) else .err .encodeMsg

/-- DeviceMediaQuery with its tags, device_media.go:9-18, as fields of the struct it is embedded in. -/
def LogSetup.queryFields (L : LogSetup) (q : MediaQuery) : Res (List (String × Str)) :=
  match L.timeJson q.start, L.timeJson q.stop with
  | .ok a, .ok b => .ok
      [("logicChannelId", decimal q.channel.toNat), ("startTime", a), ("endTime", b), ("alarmSign", decimal q.alarm.toNat),
       ("alarmSignExt", decimal q.alarmExt.toNat), ("mediaType", decimal q.mediaType.toNat),
       ("streamType", decimal q.streamType.toNat), ("storageType", decimal q.storageType.toNat)]
  | _, _ => .err .encodeMsg

/-- The fields of a message after its header: the structs of msg_*.go and device_media.go. `Size` has no tag,
device_media.go:45. -/
def LogSetup.fields (L : LogSetup) (isNil : Bool) : Msg → Res (List (String × Str))
  | .m0001 m | .m8001 m => .ok
      [("answerSerialNumber", decimal m.ansSerial.toNat), ("answerMessageId", decimal m.ansID.toNat),
       ("result", decimal m.result.toNat)]
  | .m0002 | .m0003 | .m8104 => .ok []
  | .m0100 m => .ok
      [("provinceId", decimal m.province.toNat), ("cityId", decimal m.city.toNat),
       ("manufacturerId", jsonString m.manufacturer), ("deviceMode", jsonString m.mode), ("deviceId", jsonString m.deviceID),
       ("plateColor", decimal m.color.toNat), ("plateNumber", jsonString m.plate), ("locationDesc", jsonString m.locationDesc)]
  | .m0102 m => .ok
      [("authCodeLen", decimal m.codeLen.toNat), ("authCode", jsonString m.code), ("imei", jsonString m.imei),
       ("softwareVersion", jsonString m.software)]
  | .m0104 m => .ok
      [("answerSerialNumber", decimal m.ansSerial.toNat), ("answerParamCnt", decimal m.cnt.toNat),
       ("parameters", match m.params with
         | none => jsonName "null"
         | some p => p.json isNil)]
  | .m0200 m => .ok
      [("alarmSign", decimal m.alarm.toNat), ("statusSign", decimal m.status.toNat), ("latitude", decimal m.lat.toNat),
       ("longitude", decimal m.long.toNat), ("altitude", decimal m.alt.toNat), ("speed", decimal m.speed.toNat),
       ("direction", decimal m.dir.toNat), ("time", jsonString m.time)]
  | .m1205 m =>
    match L.queryFields m.query with
    | .ok fs => .ok
        ([("answerSerialNumber", decimal m.ansSerial.toNat), ("mediaCount", decimal m.count.toNat)] ++ fs ++
         [("Size", decimal m.size.toNat)])
    | .err e => .err e
    | .panic => .panic
  | .m8100 m => .ok
      [("answerSerialNumber", decimal m.ansSerial.toNat), ("result", decimal m.result.toNat), ("authCode", jsonString m.code)]
  | .m8103 m => .ok [("paramCnt", decimal m.cnt.toNat), ("parameters", m.params.json isNil)]
  | .m9205 m => L.queryFields m

/-- json.Marshal of a message, msg_processor.go:168 and 190. -/
def LogSetup.marshal (L : LogSetup) (isNil : Bool) (h : Header) (m : Msg) : Res Str :=
  match L.fields isNil m with
  | .ok fs => .ok (jsonStruct (("header", h.json) :: fs))
  | .err e => .err e
  | .panic => .panic

/-! ### The lines -/

/-- What is logged: a received frame (frame_handler.go:82), a decoded message (msg_processor.go:173), an answer
(msg_processor.go:193-194), a frame sent (frame_handler.go:107), an error of the serve loop (tcp_server.go:100) and its end
(tcp_server.go:82). `id` is the session's. The messages are given as the JSON text handed to RawJSON. -/
inductive LogEv where
  | received (id : Str) (frame : List UInt8)
  | incoming (id : Str) (msgID : UInt16) (text : Str)
  | outgoing (id : Str) (msgID : UInt16) (text : Str)
  | sent (frame : List UInt8)
  | failed (id : Str) (e : Err)
  | closing (id : Str)
  deriving DecidableEq, Repr

/-- The level of the call that writes it. -/
def LogEv.level : LogEv → Level
  | .failed _ _ => .error
  | _ => .debug

/-- A byte below 0x80, appendStringComplex of zerolog's internal/json/string.go, used by every `.Str(...)`. -/
def zeroByte (b : UInt8) : Str :=
  if b = 0x22 ∨ b = 0x5c then [0x5c, b]
  else if b = 0x08 then [0x5c, 0x62]
  else if b = 0x0c then [0x5c, 0x66]
  else if b = 0x0a then [0x5c, 0x6e]
  else if b = 0x0d then [0x5c, 0x72]
  else if b = 0x09 then [0x5c, 0x74]
  else if b < 0x20 ∨ b = 0x7f then [0x5c, 0x75, 0x30, 0x30, jsonHex (b / 16), jsonHex (b % 16)]
  else [b]

/-- The loop of AppendString; `k` bounds the number of rounds. Bytes that are no UTF-8 become the escape of U+FFFD. -/
def zeroCharsN : Nat → Str → Str
  | 0, _ => []
  | _, [] => []
  | k + 1, b :: s =>
    if b < 0x80 then zeroByte b ++ zeroCharsN k s
    else
      match runeSize (b :: s) with
      | 0 => [0x5c, 0x75, 0x66, 0x66, 0x66, 0x64] ++ zeroCharsN k s
      | n + 1 => (b :: s).take (n + 1) ++ zeroCharsN k ((b :: s).drop (n + 1))

/-- A Go string as zerolog writes it. -/
def zeroString (s : Str) : Str := 0x22 :: zeroCharsN s.length s ++ [0x22]

/-- The loop of CallerMarshalFunc, logger.go:144-150, from an index downwards; index 0 is not looked at. -/
def shortFrom (file : Str) : Nat → Str
  | 0 => file
  | i + 1 => if file[i + 1]? = some 0x2f then file.drop (i + 2) else shortFrom file i

/-- CallerMarshalFunc, logger.go:143-153. -/
def callerText (file : Str) (line : Nat) : Str := shortFrom file (file.length - 1) ++ 0x3a :: decimal line

/-- Where the call stands: file below the root of the module and line. -/
def LogEv.site : LogEv → String × Nat
  | .received _ _ => ("/internal/protocol/frame_handler.go", 82)
  | .incoming _ _ _ => ("/internal/protocol/msg_processor.go", 173)
  | .outgoing _ _ _ => ("/internal/protocol/msg_processor.go", 194)
  | .sent _ => ("/internal/protocol/frame_handler.go", 107)
  | .failed _ _ => ("/internal/server/tcp_server.go", 100)
  | .closing _ => ("/internal/server/tcp_server.go", 82)

/-- `fmt.Sprintf("0x%04x", id)`, msg_processor.go:173 and 193. -/
def rawMsgID (id : UInt16) : Str := jsonName "0x" ++ byte2Str (writeWord [] id)

/-- The fields of the call, in its order. -/
def LogEv.fields (L : LogSetup) : LogEv → List (String × Str)
  | .received id f =>
    [("id", zeroString id), ("frame_len", decimal f.length), ("frame_payload", 0x22 :: byte2Str f ++ [0x22])]
  | .incoming id n t => [("id", zeroString id), ("RawMsgID", zeroString (rawMsgID n)), ("incoming", t)]
  | .outgoing id n t => [("id", zeroString id), ("RawMsgID", zeroString (rawMsgID n)), ("outgoing", t)]
  | .sent f => [("frame_len", decimal f.length), ("frame_payload", 0x22 :: byte2Str f ++ [0x22])]
  | .failed id e => [("error", zeroString (L.errText e)), ("id", zeroString id)]
  | .closing id => [("id", zeroString id)]

/-- The text given to Msg. -/
def LogEv.msg : LogEv → String
  | .received _ _ => "Received frame."
  | .incoming _ _ _ => "Received jt808 msg."
  | .outgoing _ _ _ => "Generating jt808 outgoing msg."
  | .sent _ => "Sent frame."
  | .failed _ _ => "Failed to serve session"
  | .closing _ => "Closing connection from remote."

/-- A level as zerolog writes it. -/
def Level.text : Level → String
  | .debug => "debug"
  | .info => "info"
  | .warn => "warn"
  | .error => "error"
  | .fatal => "fatal"

/-- One line of the file when it is written as JSON (logger.go:72-73): the level, the fields, then what the hooks of
`With().Caller().Timestamp()` add (logger.go:80, names in 156-157), the text, a line feed. `time` is time.Now() in RFC3339Nano. -/
def LogEv.line (L : LogSetup) (time : Str) (e : LogEv) : Str :=
  jsonStruct
    ([("level", zeroString (jsonName e.level.text))] ++ e.fields L ++
     [("c", zeroString (callerText (L.root ++ jsonName e.site.1) e.site.2)), ("time", 0x22 :: time ++ [0x22]),
      ("m", zeroString (jsonName e.msg))]) ++ [0x0a]

/-- The lines that are written: zerolog drops events below the level. -/
def LogSetup.kept (L : LogSetup) (es : List LogEv) : List LogEv := es.filter fun e => writes L.level e.level

/-- The file: each event with the time at which it was logged. -/
def logFile (L : LogSetup) (es : List (Str × LogEv)) : Str := es.flatMap fun e => e.2.line L e.1

/-! ### The way of a frame, with the log -/

/-- What is in `out` when the process function fails after GenOutgoing, for the deferred line of msg_processor.go:185-195: none of
the process functions touches `out` before it fails. -/
def pendingOut (h : Header) : Msg → Option Out
  | .m0002 | .m0003 | .m0102 _ | .m0200 _ => some (gen8001 h 0)
  | .m0100 _ => some (gen8100 h 0 placeholderCode)
  | .m8100 m => some (gen0102 h m [] [])
  | .m8103 _ => some (gen0001 h)
  | .m8104 => some ({ h with msgID := 0x0104 }, .m0104 ⟨h.serial, 0, none⟩)
  | .m9205 m => some (gen1205 h m)
  | .m0001 _ | .m0104 _ | .m1205 _ | .m8001 _ => none

/-- The deferred line: the error of json.Marshal is dropped and leaves an empty text, msg_processor.go:190-194. -/
def LogSetup.outgoingEv (L : LogSetup) (id : Str) (o : Out) : LogEv :=
  .outgoing id o.1.msgID (match L.marshal L.nilParams o.1 o.2 with | .ok t => t | _ => [])

/-- Process with its log, msg_processor.go:141-211. `sess` is what `ctx.Value(SessionCtxKey{})` holds; the type assertion on an
absent value panics. -/
def Store.processLogged (L : LogSetup) (env : Env) (clk : Clock) (c : Conn) (sess : Option Conn) (st : Store) (pkt : Packet) :
    (Store × Res (Option Out)) × List LogEv :=
  match MType.ofID pkt.header.msgID with
  | none => ((st, .err .msgIDNotSupported), [])
  | some t =>
    if pkt.header.isFragmented && !pkt.segCompleted then (st.processSegment pkt.header, [])
    else
      match t.decode env clk.civil pkt.header pkt.body 0 with
      | .err e => ((st, .err e), [])
      | .panic => ((st, .panic), [])
      | .ok (m, _) =>
        if L.debug then
          match sess with
          | none => ((st, .panic), [])
          | some s =>
            match L.marshal true pkt.header m with
            | .err e => ((st, .err e), [])
            | .panic => ((st, .panic), [])
            | .ok text =>
              let r := st.handle env clk c pkt.header m
              let out := match r.2 with
                | .ok o => o
                | _ => pendingOut pkt.header m
              (r, .incoming s.addr pkt.header.msgID text :: (out.map (L.outgoingEv s.addr)).toList)
        else (st.handle env clk c pkt.header m, [])

/-- The line of Recv, frame_handler.go:75-83. -/
def LogSetup.recvLog (L : LogSetup) (sess : Option Conn) (frame : List UInt8) : List LogEv :=
  match sess with
  | none => []
  | some s => if L.debug then (if frame.isEmpty then [] else [.received s.addr frame]) else []

/-- The pass of the pipeline with its log: Recv's line, decode, process, encode, pipeline.go:28-37 and 68-99,
frame_handler.go:70-85. An empty frame is an error of Recv before its line (71-73). -/
def Store.handleLogged (L : LogSetup) (env : Env) (clk : Clock) (c : Conn) (sess : Option Conn) (st : Store)
    (frame : List UInt8) : (Store × Outcome) × List LogEv :=
  if L.debug && sess.isNone then ((st, .panicked), [])
  else
    let first := L.recvLog sess frame
    match st.decodePacket env frame with
    | (st, .err e) => ((st, .failed e), first)
    | (st, .panic) => ((st, .panicked), first)
    | (st, .ok pkt) =>
      match st.processLogged L env clk c sess pkt with
      | ((st, .err e), log) => ((st, .failed e), first ++ log)
      | ((st, .panic), log) => ((st, .panicked), first ++ log)
      | ((st, .ok none), log) => ((st, .silent), first ++ log)
      | ((st, .ok (some o)), log) =>
        match Out.encode env o with
        | .ok f => ((st, .reply f), first ++ log)
        | .err e => ((st, .failed e), first ++ log)
        | .panic => ((st, .panicked), first ++ log)

/-- One pass of the loop of serve with its log, tcp_server.go:86-109: the context holds the session (line 91). -/
def Store.serveLogged (L : LogSetup) (env : Env) (clk : Clock) (c : Conn) (werr : Option Err) (st : Store)
    (frame : List UInt8) : (Store × Obs) × List LogEv :=
  match st.handleLogged L env clk c (some c) frame with
  | ((st, .silent), log) => ((st, ⟨none, false, none⟩), L.kept log)
  | ((st, .reply f), log) =>
    match werr with
    | none => ((st, ⟨some (c, f), false, none⟩), L.kept (log ++ [.sent f]))
    | some e =>
      if e.endsServe then ((st.remove c, ⟨none, true, none⟩), L.kept (log ++ [.failed c.addr e, .closing c.addr]))
      else ((st, ⟨none, false, none⟩), L.kept (log ++ [.failed c.addr e]))
  | ((st, .failed e), log) =>
    if e.endsServe then ((st.remove c, ⟨none, true, none⟩), L.kept (log ++ [.failed c.addr e, .closing c.addr]))
    else ((st, ⟨none, false, none⟩), L.kept (log ++ [.failed c.addr e]))
  | ((st, .panicked), log) => ((st.remove c, ⟨none, true, none⟩), L.kept (log ++ [.closing c.addr]))

/-- One pass when Recv fails, with its log. -/
def Store.serveErrLogged (L : LogSetup) (c : Conn) (st : Store) (e : Err) : (Store × Obs) × List LogEv :=
  if e.endsServe then ((st.remove c, ⟨none, true, none⟩), L.kept [.failed c.addr e, .closing c.addr])
  else ((st, ⟨none, false, none⟩), L.kept [.failed c.addr e])

/-- One event of the process with its log. Requests of the HTTP interface log the frame they send, frame_handler.go:107, by way of
tcp_server.go:112-136; their context holds no session and nobody asks for it. -/
def Sys.stepLogged (L : LogSetup) (env : Env) (s : Sys) (e : Ev) : (Sys × Obs) × List LogEv :=
  if s.crashed then ((s, Obs.none), [])
  else
    match e with
    | .frame clk c bytes werr =>
      if c ∈ s.live then
        let ((st, o), log) := s.st.serveLogged L env clk c werr bytes
        (({ s with st := st, live := if o.ended then s.live.filter (· ≠ c) else s.live }, o), log)
      else ((s, Obs.none), [])
    | .readErr c e =>
      if c ∈ s.live then
        let ((st, o), log) := s.st.serveErrLogged L c e
        (({ s with st := st, live := if o.ended then s.live.filter (· ≠ c) else s.live }, o), log)
      else ((s, Obs.none), [])
    | e =>
      let r := s.step env e
      (r, L.kept ((r.2.sent.map fun p => LogEv.sent p.2).toList))

/-- A history with its log. -/
def Sys.runLogged (L : LogSetup) (env : Env) (s : Sys) : List Ev → (Sys × List Obs) × List LogEv
  | [] => ((s, []), [])
  | e :: es =>
    let ((s', o), log) := s.stepLogged L env e
    let ((s'', os), log') := s'.runLogged L env es
    ((s'', o :: os), log ++ log')

end JT808
