import Verif.Model.Store
/-
internal/protocol/msg_processor.go, pipeline.go, internal/codec/hash/hash.go and the GenOutgoing methods of
internal/protocol/model/msg_*.go.

Simplifications: debug logging (msg_processor.go:165-174, 185-195) is left out.  A reply shares the header object of
the message it answers; nothing reads the incoming header after GenOutgoing changed its MsgID, so the reply simply has
a changed copy.
-/
namespace JT808

/-- FNV32, internal/codec/hash/hash.go:6-10: 32-bit FNV-1a of the standard library. -/
def fnv32 (s : Str) : UInt32 := s.foldl (fun h b => (h ^^^ b.toUInt32) * 16777619) 2166136261

/-- genAuthCode, msg_processor.go:328-337. -/
def authCodeOf (id plate phone : Str) : Str :=
  decimal (fnv32 (id ++ 0x5f :: plate ++ 0x5f :: phone)).toNat

/-- `genAuthCode(device)` -/
def Device.code (d : Device) : Str := authCodeOf d.id d.plate d.phone

/-- An outgoing message: its header and its body. -/
abbrev Out := Header × Msg

/-- (*Msg8001).GenOutgoing, msg_8001.go:47-57. -/
def gen8001 (h : Header) (result : UInt8) : Out := ({ h with msgID := 0x8001 }, .m8001 ⟨h.serial, h.msgID, result⟩)

/-- (*Msg0001).GenOutgoing, msg_0001.go:38-47. -/
def gen0001 (h : Header) : Out := ({ h with msgID := 0x0001 }, .m0001 ⟨h.serial, h.msgID, 0⟩)

/-- "AuthCode", msg_8100.go:54. -/
def placeholderCode : Str := [0x41, 0x75, 0x74, 0x68, 0x43, 0x6f, 0x64, 0x65]

/-- (*Msg8100).GenOutgoing, msg_8100.go:47-60, with result and code as set later. -/
def gen8100 (h : Header) (result : UInt8) (code : Str) : Out :=
  ({ h with msgID := 0x8100 }, .m8100 ⟨h.serial, result, code⟩)

/-- (*Msg0102).GenOutgoing, msg_0102.go:67-78, with IMEI and version as set later. -/
def gen0102 (h : Header) (m : RegisterAck) (imei software : Str) : Out :=
  ({ h with msgID := 0x0102 }, .m0102 ⟨UInt8.ofNat m.code.length, m.code, imei, software⟩)

/-- (*Msg0104).GenOutgoing, msg_0104.go:51-61, with the parameters as set later. -/
def gen0104 (h : Header) (p : DeviceParams) : Out := ({ h with msgID := 0x0104 }, .m0104 ⟨h.serial, 0, some p⟩)

/-- (*Msg1205).GenOutgoing, msg_1205.go:39-49, and processMsg9205, msg_processor.go:487-502. -/
def gen1205 (h : Header) (m : MediaQuery) : Out :=
  ({ h with msgID := 0x1205 }, .m1205 ⟨h.serial, 1, ⟨m.channel, m.start, m.stop, 0, 0, 0, 0, 0⟩, 0⟩)

/-- `device.LastestComTime = time.Now()`, msg_processor.go:243. -/
def Device.seen (d : Device) (clk : Clock) : Device := { d with last := clk.ms }

/-- `device.Status = Sleeping; device.LastestComTime = time.Now()`, msg_processor.go:364-365. -/
def Device.asleep (d : Device) (clk : Clock) : Device := { d with status := .sleeping, last := clk.ms }

/-- `device.Status = Online; device.LastestComTime = time.Now()`, msg_processor.go:391-392. -/
def Device.awake (d : Device) (clk : Clock) : Device := { d with status := .online, last := clk.ms }

/-- The assignments of msg_processor.go:317-321. -/
def Device.authed (d : Device) (clk : Clock) (m : AuthMsg) : Device :=
  { d with status := .online, last := clk.ms, authCode := m.code, imei := m.imei, software := m.software }

/-- `d.Status = Offline`, keepalive.go:76. -/
def Device.lost (d : Device) : Device := { d with status := .offline }

/-- processMsg0002, msg_processor.go:234-247. -/
def process0002 (clk : Clock) (st : Store) (h : Header) : Store × Res (Option Out) :=
  match st.devByPhone h.phone with
  | none => (st, .err .deviceNotFound)
  | some r =>
    let st := st.setDev r ((st.heap r).seen clk)
    (st.cacheDevice r, .ok (some (gen8001 h 0)))

/-- `timer.Cancel(phone)`, keepalive.go:42-44.  The gron fork is not in the sandbox; Cancel is taken to remove every
entry whose JobID is the phone. -/
def Store.cancelJob (st : Store) (phone : Str) : Store := { st with jobs := st.jobs.filter (· ≠ phone) }

/-- `timer.Register(phone)`, keepalive.go:31-40: adds a job if the device is cached. -/
def Store.registerJob (st : Store) (phone : Str) : Store :=
  match st.devByPhone phone with
  | none => st
  | some _ => { st with jobs := st.jobs ++ [phone] }

/-- processMsg0003, msg_processor.go:250-264. -/
def process0003 (st : Store) (h : Header) : Store × Res (Option Out) :=
  match st.devByPhone h.phone with
  | none => (st, .err .deviceNotFound)
  | some r =>
    let phone := (st.heap r).phone
    ((st.cancelJob phone).delByPhone phone, .ok (some (gen8001 h 0)))

/-- processMsg0100, msg_processor.go:267-293. -/
def process0100 (clk : Clock) (c : Conn) (st : Store) (h : Header) (m : Register) : Store × Res (Option Out) :=
  if st.hasPlate m.plate then (st, .ok (some (gen8100 h 1 placeholderCode)))
  else if st.hasPhone h.phone then (st, .ok (some (gen8100 h 3 placeholderCode)))
  else
    let d := Device.new clk c h m
    let (st, r) := st.alloc d
    let st := st.cacheDevice r
    (st.registerJob d.phone, .ok (some (gen8100 h 0 d.code)))

/-- processMsg0102, msg_processor.go:296-326. -/
def process0102 (clk : Clock) (st : Store) (h : Header) (m : AuthMsg) : Store × Res (Option Out) :=
  match st.devByPhone h.phone with
  | none => (st, .err .deviceNotFound)
  | some r =>
    let d := st.heap r
    if m.code ≠ d.code then
      ((st.cancelJob d.phone).delByPhone d.phone, .ok (some (gen8001 h 1)))
    else
      let st := st.setDev r (d.authed clk m)
      (st.cacheDevice r, .ok (some (gen8001 h 0)))

/-- processMsg0200, msg_processor.go:346-374 (DeviceGeo.Decode never returns an error). -/
def process0200 (clk : Clock) (st : Store) (h : Header) (m : LocMsg) : Store × Res (Option Out) :=
  match st.devByPhone h.phone with
  | none => (st, .err .deviceNotFound)
  | some r =>
    let dg := DeviceGeo.decode clk.civil (st.heap r).phone m
    let st :=
      if dg.geo.acc = 0 then
        (st.setDev r ((st.heap r).asleep clk)).cacheDevice r
      else st
    match st.writeGeo (st.heap r).phone dg with
    | (st, .ok _) => (st, .ok (some (gen8001 h 0)))
    | (st, .err e) => (st, .err e)
    | (st, .panic) => (st, .panic)

/-- processMsg8001, msg_processor.go:376-397. -/
def process8001 (clk : Clock) (st : Store) (h : Header) (m : GeneralAck) : Store × Res (Option Out) :=
  if m.result = 0 then
    match st.devByPhone h.phone with
    | none => (st, .err .activeClose)
    | some r =>
      if (st.heap r).status ≠ .offline then (st, .ok none)
      else ((st.setDev r ((st.heap r).awake clk)).cacheDevice r, .ok none)
  else (st, .ok none)

/-- processMsg8100, msg_processor.go:400-414. -/
def process8100 (st : Store) (h : Header) (m : RegisterAck) : Store × Res (Option Out) :=
  match st.devByPhone h.phone with
  | none => (st, .err .activeClose)
  | some r => (st, .ok (some (gen0102 h m (st.heap r).imei (st.heap r).software)))

/-- processMsg8103, msg_processor.go:417-429.  The order in which Update ranges over its map makes no difference
(C25), so the identity stands for it. -/
def process8103 (st : Store) (h : Header) (m : SetParams) : Store × Res (Option Out) :=
  let p :=
    match st.paramsOf h.phone with
    | none => m.params
    | some old => old.update id m.params
  (st.cacheParams p, .ok (some (gen0001 h)))

/-- The hex text of msg_processor.go:441-477, decoded (528 bytes, one item per line or two). -/
def fixedParamBytes : List UInt8 := [
   0x00, 0x00, 0x00, 0x01, 0x04, 0x4b, 0x68, 0x76, 0x73,
   0x00, 0x00, 0x00, 0x02, 0x04, 0x6e, 0x76, 0x4e, 0x65,
   0x00, 0x00, 0x00, 0x03, 0x04, 0x49, 0x71, 0x6b, 0x57,
   0x00, 0x00, 0x00, 0x04, 0x04, 0x52, 0x70, 0x4a, 0x36,
   0x00, 0x00, 0x00, 0x05, 0x04, 0x52, 0x4d, 0x6d, 0x52,
   0x00, 0x00, 0x00, 0x06, 0x04, 0x35, 0x35, 0x77, 0x4e,
   0x00, 0x00, 0x00, 0x07, 0x04, 0x47, 0x43, 0x52, 0x5a,
   0x00, 0x00, 0x00, 0x10, 0x10, 0x58, 0x67, 0x67, 0x67, 0x37, 0x5a, 0x35, 0x58, 0x58, 0x4b, 0x44, 0x37,
   0x6e, 0x62, 0x56, 0x61,
   0x00, 0x00, 0x00, 0x11, 0x10, 0x35, 0x62, 0x50, 0x67, 0x56, 0x4c, 0x37, 0x53, 0x7a, 0x4c, 0x61, 0x66,
   0x72, 0x77, 0x4e, 0x36,
   0x00, 0x00, 0x00, 0x12, 0x10, 0x48, 0x68, 0x4e, 0x76, 0x69, 0x57, 0x67, 0x77, 0x49, 0x4d, 0x6e, 0x49,
   0x35, 0x55, 0x62, 0x4d,
   0x00, 0x00, 0x00, 0x13, 0x10, 0x64, 0x52, 0x74, 0x32, 0x65, 0x59, 0x67, 0x74, 0x64, 0x79, 0x31, 0x6a,
   0x46, 0x48, 0x57, 0x45,
   0x00, 0x00, 0x00, 0x14, 0x10, 0x67, 0x65, 0x54, 0x65, 0x79, 0x49, 0x56, 0x5f, 0x7a, 0x53, 0x73, 0x62,
   0x69, 0x4a, 0x6e, 0x54,
   0x00, 0x00, 0x00, 0x15, 0x10, 0x55, 0x6f, 0x68, 0x68, 0x58, 0x51, 0x71, 0x53, 0x35, 0x65, 0x77, 0x35,
   0x75, 0x38, 0x55, 0x62,
   0x00, 0x00, 0x00, 0x16, 0x10, 0x68, 0x33, 0x6d, 0x75, 0x50, 0x79, 0x6a, 0x6e, 0x58, 0x4d, 0x38, 0x79,
   0x33, 0x58, 0x71, 0x73,
   0x00, 0x00, 0x00, 0x17, 0x10, 0x75, 0x39, 0x7a, 0x57, 0x59, 0x74, 0x52, 0x44, 0x4c, 0x48, 0x63, 0x61,
   0x4e, 0x6a, 0x52, 0x78,
   0x00, 0x00, 0x00, 0x18, 0x04, 0x4e, 0x58, 0x6a, 0x4f,
   0x00, 0x00, 0x00, 0x19, 0x04, 0x38, 0x64, 0x6c, 0x69,
   0x00, 0x00, 0x00, 0x1a, 0x10, 0x4e, 0x30, 0x77, 0x56, 0x35, 0x78, 0x6d, 0x4a, 0x66, 0x4d, 0x6f, 0x63,
   0x38, 0x61, 0x66, 0x50,
   0x00, 0x00, 0x00, 0x1b, 0x04, 0x62, 0x6c, 0x36, 0x76,
   0x00, 0x00, 0x00, 0x1c, 0x04, 0x38, 0x36, 0x65, 0x37,
   0x00, 0x00, 0x00, 0x1d, 0x10, 0x4f, 0x34, 0x4c, 0x42, 0x70, 0x4b, 0x73, 0x74, 0x45, 0x68, 0x7a, 0x4f,
   0x4c, 0x56, 0x46, 0x35,
   0x00, 0x00, 0x00, 0x20, 0x04, 0x38, 0x6c, 0x52, 0x55,
   0x00, 0x00, 0x00, 0x21, 0x04, 0x50, 0x41, 0x66, 0x6e,
   0x00, 0x00, 0x00, 0x22, 0x04, 0x57, 0x45, 0x6b, 0x39,
   0x00, 0x00, 0x00, 0x23, 0x10, 0x61, 0x38, 0x33, 0x4c, 0x43, 0x76, 0x57, 0x37, 0x54, 0x6d, 0x50, 0x51,
   0x73, 0x6e, 0x31, 0x52,
   0x00, 0x00, 0x00, 0x24, 0x10, 0x42, 0x75, 0x59, 0x78, 0x5f, 0x49, 0x37, 0x58, 0x4e, 0x69, 0x4f, 0x63,
   0x36, 0x4e, 0x4d, 0x49,
   0x00, 0x00, 0x00, 0x25, 0x10, 0x65, 0x37, 0x56, 0x70, 0x7a, 0x59, 0x55, 0x79, 0x76, 0x35, 0x76, 0x59,
   0x64, 0x33, 0x34, 0x6c,
   0x00, 0x00, 0x00, 0x26, 0x10, 0x54, 0x4e, 0x37, 0x6c, 0x47, 0x66, 0x43, 0x38, 0x6a, 0x4b, 0x4d, 0x49,
   0x6e, 0x4c, 0x39, 0x67,
   0x00, 0x00, 0x00, 0x27, 0x04, 0x50, 0x57, 0x58, 0x6e,
   0x00, 0x00, 0x00, 0x28, 0x04, 0x67, 0x4c, 0x63, 0x6c,
   0x00, 0x00, 0x00, 0x29, 0x04, 0x47, 0x4f, 0x6a, 0x64,
   0x00, 0x00, 0x00, 0x2c, 0x04, 0x45, 0x49, 0x31, 0x57,
   0x00, 0x00, 0x00, 0x2d, 0x04, 0x63, 0x4e, 0x50, 0x7a,
   0x00, 0x00, 0x00, 0x2e, 0x04, 0x53, 0x44, 0x54, 0x42,
   0x00, 0x00, 0x00, 0x2f, 0x04, 0x52, 0x5f, 0x64, 0x7a,
   0x00, 0x00, 0x00, 0x30, 0x04, 0x5a, 0x4a, 0x68, 0x30,
   0x00, 0x00, 0x00, 0x31, 0x02, 0x6c, 0x64,
   0x00, 0x00, 0x00, 0x32, 0x04, 0x09, 0x30, 0x21, 0x30,
   0x00, 0x00, 0x00, 0x76, 0x23, 0x03, 0x00, 0x00, 0x01, 0x01, 0x00, 0x01, 0x02, 0x02, 0x00, 0x01, 0x03,
   0x03, 0x00, 0x01 ]

/-- `hex.Str2Byte(paramByteStr)`, msg_processor.go:478.  In Go 1.19 (go.mod) hex.DecodeString decodes in place, so the
spare capacity still holds the second half of the text; the last item, whose length byte is 35 with 15 bytes left, reads
into it. -/
def fixedParams : Slice := ⟨fixedParamBytes, (fixedParamBytes.flatMap hex2).drop fixedParamBytes.length⟩

/-- `out.Parameters.Decode(out.Header.PhoneNumber, uint8(paramCnt), ...)`, msg_processor.go:478. -/
def fixedDecode (env : Env) (phone : Str) : Res (DeviceParams × Nat) := DeviceParams.decode env phone 39 fixedParams 0

/-- processMsg8104, msg_processor.go:432-485. -/
def process8104 (env : Env) (st : Store) (h : Header) : Store × Res (Option Out) :=
  match st.paramsOf h.phone with
  | some p => (st, .ok (some (gen0104 h p)))
  | none =>
    match fixedDecode env h.phone with
    | .ok (p, _) => (st.cacheParams p, .ok (some (gen0104 h p)))
    | .err e => (st, .err e)
    | .panic => (st, .panic)

/-- GenOutgoing and the process function of the message's type, msg_processor.go:176-210.  Types without an outgoing
message or without a process function (0x0001, 0x0104, 0x1205) reply nothing. -/
def Store.handle (env : Env) (clk : Clock) (c : Conn) (st : Store) (h : Header) : Msg → Store × Res (Option Out)
  | .m0001 _ => (st, .ok none)
  | .m0002 => process0002 clk st h
  | .m0003 => process0003 st h
  | .m0100 m => process0100 clk c st h m
  | .m0102 m => process0102 clk st h m
  | .m0104 _ => (st, .ok none)
  | .m0200 m => process0200 clk st h m
  | .m1205 _ => (st, .ok none)
  | .m8001 m => process8001 clk st h m
  | .m8100 m => process8100 st h m
  | .m8103 m => process8103 st h m
  | .m8104 => process8104 env st h
  | .m9205 m => (st, .ok (some (gen1205 h m)))

/-- processSegmentPacket, msg_processor.go:213-231.  The error of GetSession is dropped: without a session the call of
GetNextSerialNum dereferences nil. -/
def Store.processSegment (st : Store) (h : Header) : Store × Res (Option Out) :=
  match st.devByPhone h.phone with
  | none => (st, .err .deviceNotFound)
  | some r =>
    let d := st.heap r
    match st.session d.sessionID with
    | none => (st, .panic)
    | some c =>
      let (st, n) := st.takeSerial c
      (st, .ok (some (genMsgHeader d.phone d.ver d.protoVer 0x8001 n, .m8001 ⟨h.serial, h.msgID, 0⟩)))

/-- Process, msg_processor.go:141-211. -/
def Store.process (env : Env) (clk : Clock) (c : Conn) (st : Store) (pkt : Packet) : Store × Res (Option Out) :=
  match MType.ofID pkt.header.msgID with
  | none => (st, .err .msgIDNotSupported)
  | some t =>
    if pkt.header.isFragmented && !pkt.segCompleted then st.processSegment pkt.header
    else
      match t.decode env clk.civil pkt.header pkt.body 0 with
      | .err e => (st, .err e)
      | .panic => (st, .panic)
      | .ok (m, _) => st.handle env clk c pkt.header m

/-- The body bytes written by the Encode method of a message, up to its call of writeHeader. -/
def Msg.encodeBody (env : Env) (h : Header) : Msg → Res (List UInt8)
  | .m0001 m => .ok m.encode
  | .m0002 => .ok []
  | .m0003 => .ok []
  | .m0100 m => .ok (m.encode env h.attr.verDesc)
  | .m0102 m => .ok (m.encode h.attr.verDesc)
  | .m0104 m => m.encode env
  | .m0200 m => .ok m.encode
  | .m1205 m => .ok m.encode
  | .m8001 m => .ok m.encode
  | .m8100 m => .ok m.encode
  | .m8103 m => m.encode env
  | .m8104 => .ok []
  | .m9205 m => .ok m.encode

/-- Encode, packet_codec.go:84-100. -/
def Out.encode (env : Env) (o : Out) : Res (List UInt8) :=
  match o.2.encodeBody env o.1 with
  | .ok body => .ok (encodeFrame (writeHeader o.1 body))
  | .err e => .err e
  | .panic => .panic

/-- How one pass of ProcessConnRead ends, after a frame was received: nothing sent, a frame handed to Send, an error,
or a panic. -/
inductive Outcome where
  | silent
  | reply (frame : List UInt8)
  | failed (e : Err)
  | panicked
  deriving DecidableEq, Repr

/-- decode, process and encode of pipeline.go:68-99, run by callWithBlocking (47-58). -/
def Store.handleFrame (env : Env) (clk : Clock) (c : Conn) (st : Store) (frame : List UInt8) : Store × Outcome :=
  match st.decodePacket env frame with
  | (st, .err e) => (st, .failed e)
  | (st, .panic) => (st, .panicked)
  | (st, .ok pkt) =>
    match st.process env clk c pkt with
    | (st, .err e) => (st, .failed e)
    | (st, .panic) => (st, .panicked)
    | (st, .ok none) => (st, .silent)
    | (st, .ok (some o)) =>
      match Out.encode env o with
      | .ok f => (st, .reply f)
      | .err e => (st, .failed e)
      | .panic => (st, .panicked)

end JT808
