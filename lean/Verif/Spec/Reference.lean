import Verif.Model.Server
import Verif.Spec.Observe
import Verif.Spec.Registry
/-
A reference server: what the server is for everybody around it, without pointers, indexes, rings, jobs and locks.  It reads
frames with the decoder of the model and writes them with its encoders, which have properties of their own; everything
between the two is written down here again.
-/
namespace JT808.Spec
open JT808

/-- A registered terminal. -/
structure Terminal where
  id : Str
  plate : Str
  conn : Conn
  last : Nat
  presence : Presence
  ver : Ver
  protoVer : UInt8
  /-- the authentication accepted last -/
  auth : Option AuthMsg
  deriving DecidableEq, Repr

/-- All the reference server remembers. -/
structure Book where
  /-- registered terminals by phone -/
  terminals : List (Str × Terminal)
  /-- the location reports of a phone, the newest last -/
  reports : Str → List DeviceGeo
  /-- the parameters under a phone -/
  params : Str → Option DeviceParams
  /-- of a message in fragments: how many the first fragment announced -/
  pieces : Str → Nat → Option UInt16
  /-- the connection behind an address -/
  line : Str → Option Conn
  /-- the last serial number used on a connection -/
  serial : Nat → Nat
  /-- connections being read, connections hung up on, connections so far -/
  live : List Conn
  closed : Nat → Bool
  accepted : Nat

def Book.start : Book := ⟨[], fun _ => [], fun _ => none, fun _ _ => none, fun _ => none, fun _ => 0, [], fun _ => false, 0⟩

/-- A function changed in one place. -/
def upd {α β : Type} [DecidableEq α] (f : α → β) (a : α) (b : β) : α → β := fun x => if x = a then b else f x

def Book.terminal (b : Book) (phone : Str) : Option Terminal := (b.terminals.find? fun e => e.1 == phone).map (·.2)

/-- Without the terminal. -/
def Book.drop (b : Book) (phone : Str) : Book := { b with terminals := b.terminals.filter fun e => e.1 != phone }

/-- With this terminal under the phone. -/
def Book.put (b : Book) (phone : Str) (t : Terminal) : Book :=
  { b with terminals := (phone, t) :: b.terminals.filter fun e => e.1 != phone }

def Book.hasPlate (b : Book) (plate : Str) : Bool := b.terminals.any fun e => e.2.plate == plate

/-- What the server does for a frame on the connection it came from: answer, stay silent, or hang up. -/
inductive Act where
  | say (frame : List UInt8)
  | quiet
  | hangUp
  deriving DecidableEq, Repr

/-- Errors of reading and writing that end a connection. -/
def fatal (e : Err) : Bool := e == .eof || e == .closed || e == .deviceNotFound

/-- An answer that may fail to be written down. -/
def sayIt : Res (List UInt8) → Act
  | .ok f => .say f
  | .err e => if fatal e then .hangUp else .quiet
  | .panic => .hangUp

/-- Ids of messages that cannot be told apart when fragmented. -/
def pieceId (id : UInt16) : Nat := if 0xD800 ≤ id.toNat ∧ id.toNat ≤ 0xDFFF then 0xFFFD else id.toNat

/-- The next serial number. -/
def bump (n : Nat) : Nat := (n + 1) % 65536

/-- A message of a terminal to its handler. -/
def Book.hear (env : Env) (clk : Clock) (c : Conn) (b : Book) (h : Header) : Msg → Book × Act
  | .m0002 =>
    match b.terminal h.phone with
    | none => (b, .hangUp)
    | some t => (b.put h.phone { t with last := clk.ms }, .say (generalReply h 0))
  | .m0003 =>
    match b.terminal h.phone with
    | none => (b, .hangUp)
    | some _ => (b.drop h.phone, .say (generalReply h 0))
  | .m0100 m =>
    if b.hasPlate m.plate then (b, .say (registerReply h 1 [0x41, 0x75, 0x74, 0x68, 0x43, 0x6f, 0x64, 0x65]))
    else if (b.terminal h.phone).isSome then (b, .say (registerReply h 3 [0x41, 0x75, 0x74, 0x68, 0x43, 0x6f, 0x64, 0x65]))
    else
      (b.put h.phone ⟨m.deviceID, m.plate, c, clk.ms, .offline, h.attr.verDesc, h.protoVer, none⟩,
        .say (registerReply h 0 (codeText m.deviceID m.plate h.phone)))
  | .m0102 m =>
    match b.terminal h.phone with
    | none => (b, .hangUp)
    | some t =>
      if m.code = codeText t.id t.plate h.phone then
        (b.put h.phone { t with last := clk.ms, presence := .online, auth := some m }, .say (generalReply h 0))
      else (b.drop h.phone, .say (generalReply h 1))
  | .m0200 m =>
    match b.terminal h.phone with
    | none => (b, .hangUp)
    | some t =>
      let b := { b with reports := upd b.reports h.phone (b.reports h.phone ++ [DeviceGeo.decode clk.civil h.phone m]) }
      (if m.status.toNat.testBit 0 then b else b.put h.phone { t with last := clk.ms, presence := .sleeping },
        .say (generalReply h 0))
  | .m8001 m =>
    match b.terminal h.phone with
    | none => (b, .quiet)
    | some t =>
      if m.result = 0 ∧ t.presence = .offline then (b.put h.phone { t with last := clk.ms, presence := .online }, .quiet)
      else (b, .quiet)
  | .m8100 m =>
    match b.terminal h.phone with
    | none => (b, .quiet)
    | some t =>
      (b, .say (answer h 0x0102 (AuthMsg.encode h.attr.verDesc
        ⟨UInt8.ofNat m.code.length, m.code, (t.auth.map (·.imei)).getD [], (t.auth.map (·.software)).getD []⟩)))
  | .m8103 m =>
    ({ b with params := upd b.params h.phone (some (match b.params h.phone with | none => m.params | some old => old.update id m.params)) },
      .say (answer h 0x0001 (ackBody h.serial.toNat h.msgID.toNat 0)))
  | .m8104 =>
    let told := fun (q : DeviceParams) =>
      match q.encode env with
      | .ok bs => sayIt (.ok (answer h 0x0104 (word h.serial.toNat ++ bs)))
      | .err _ => .quiet
      | .panic => .hangUp
    match b.params h.phone with
    | some q => (b, told q)
    | none =>
      match fixedDecode env h.phone with
      | .ok (q, _) => ({ b with params := upd b.params h.phone (some q) }, told q)
      | .err e => (b, sayIt (.err e))
      | .panic => (b, .hangUp)
  | .m9205 m => (b, .say (answer h 0x1205 (MediaList.encode ⟨h.serial, 1, ⟨m.channel, m.start, m.stop, 0, 0, 0, 0, 0⟩, 0⟩)))
  | .m0001 _ | .m0104 _ | .m1205 _ => (b, .quiet)

/-- A packet whose message is there as a whole. -/
def Book.whole (env : Env) (clk : Clock) (c : Conn) (b : Book) (pd : Packet) : Book × Act :=
  match MType.ofID pd.header.msgID with
  | none => (b, .quiet)
  | some t =>
    match t.decode env clk.civil pd.header pd.body 0 with
    | .ok (m, _) => b.hear env clk c pd.header m
    | .err e => (b, sayIt (.err e))
    | .panic => (b, .hangUp)

/-- A fragment that is not the last one, of a known message. -/
def Book.piece (b : Book) (h : Header) : Book × Act :=
  match MType.ofID h.msgID with
  | none => (b, .quiet)
  | some _ =>
    match b.terminal h.phone with
    | none => (b, .hangUp)
    | some t =>
      match b.line t.conn.addr with
      | none => (b, .hangUp)
      | some c =>
        let n := bump (b.serial c.id)
        ({ b with serial := upd b.serial c.id n },
          .say (encodeFrame (writeHeader (genMsgHeader h.phone t.ver t.protoVer 0x8001 (UInt16.ofNat n))
            (ackBody h.serial.toNat h.msgID.toNat 0))))

/-- A frame. -/
def Book.frame (env : Env) (clk : Clock) (c : Conn) (b : Book) (bytes : List UInt8) : Book × Act :=
  match decodeFrame env bytes with
  | .err e => (b, sayIt (.err e))
  | .panic => (b, .hangUp)
  | .ok pd =>
    if pd.header.isFragmented then
      match pd.header.frag with
      | none => (b, .hangUp)
      | some f =>
        match b.pieces pd.header.phone (pieceId pd.header.msgID) with
        | none =>
          ({ b with pieces := upd b.pieces pd.header.phone (upd (b.pieces pd.header.phone) (pieceId pd.header.msgID) (some f.total)) },
            .hangUp)
        | some total => if f.index = total then b.whole env clk c pd else b.piece pd.header
    else b.whole env clk c pd

/-- The connection is closed and forgotten. -/
def Book.hang (b : Book) (c : Conn) : Book :=
  { b with closed := upd b.closed c.id true, line := upd b.line c.addr none }

/-- A message to a terminal on its line. -/
def Book.send (werr : Option Err) (b : Book) (phone : Str) (t : Terminal) (code : Option Nat) (id : UInt16)
    (body : Res (List UInt8)) : Book × Obs :=
  match b.line t.conn.addr with
  | none => (b, ⟨none, false, some (code.getD 400)⟩)
  | some c =>
    let n := bump (b.serial c.id)
    let b := { b with serial := upd b.serial c.id n }
    match body, werr with
    | .ok bs, none =>
      (b, ⟨some (c, encodeFrame (writeHeader (genMsgHeader phone t.ver t.protoVer id (UInt16.ofNat n)) bs)), false, some (code.getD 200)⟩)
    | .ok _, some e => (if e = .closed then b.hang c else b, ⟨none, false, some (code.getD 200)⟩)
    | .err _, _ => (b, ⟨none, false, some (code.getD 200)⟩)
    | .panic, _ => (b, ⟨none, false, some (code.getD 500)⟩)

/-- No frame, no line hung up, no request answered. -/
def nothing : Obs := ⟨none, false, none⟩

/-- One event. -/
def Book.step (env : Env) (b : Book) : Ev → Book × Obs
  | .accept addr =>
    let c : Conn := ⟨b.accepted, addr⟩
    ({ b with line := upd b.line addr (some c), live := c :: b.live, accepted := b.accepted + 1 }, nothing)
  | .frame clk c bytes werr =>
    if c ∈ b.live then
      match b.frame env clk c bytes, werr with
      | (b, .say f), none => (b, ⟨some (c, f), false, none⟩)
      | (b, .say _), some e =>
        if fatal e then ({ b.hang c with live := b.live.filter (· ≠ c) }, ⟨none, true, none⟩) else (b, nothing)
      | (b, .quiet), _ => (b, nothing)
      | (b, .hangUp), _ => ({ b.hang c with live := b.live.filter (· ≠ c) }, ⟨none, true, none⟩)
    else (b, nothing)
  | .readErr c e =>
    if c ∈ b.live ∧ fatal e then ({ b.hang c with live := b.live.filter (· ≠ c) }, ⟨none, true, none⟩) else (b, nothing)
  | .check clk phone =>
    match b.terminal phone with
    | none => (b, nothing)
    | some t =>
      if t.last + 60000 < clk.ms then
        if t.presence = .offline then
          ({ b.drop phone with closed := upd b.closed t.conn.id true, reports := upd b.reports phone [] }, nothing)
        else (b.put phone { t with presence := .offline }, nothing)
      else (b, nothing)
  | .httpList => (b, ⟨none, false, some 200⟩)
  | .httpGeo phone => (b, ⟨none, false, some (if (b.terminal phone).isSome then 200 else 400)⟩)
  | .httpQuery phone werr =>
    match b.terminal phone with
    | none => (b, ⟨none, false, some 400⟩)
    | some t => b.send werr phone t none 0x8104 (.ok [])
  | .httpSet phone bound bad werr =>
    match b.terminal phone with
    | none => (b, ⟨none, false, some 400⟩)
    | some t => b.send werr phone t (if bad then some 400 else none) 0x8103 (bound.encode env)

/-- A history. -/
def Book.run (env : Env) (b : Book) : List Ev → Book × List Obs
  | [] => (b, [])
  | e :: es =>
    let (b', o) := b.step env e
    let (b'', os) := b'.run env es
    (b'', o :: os)

/-- What is shown of a terminal. -/
def Terminal.device (phone : Str) (t : Terminal) : Device :=
  { id := t.id, plate := t.plate, phone := phone, sessionID := t.conn.addr, conn := some t.conn, keepalive := 60000
    last := t.last, status := match t.presence with | .offline => .offline | .online => .online | .sleeping => .sleeping
    ver := t.ver, protoVer := t.protoVer, authCode := (t.auth.map (·.code)).getD []
    imei := (t.auth.map (·.imei)).getD [], software := (t.auth.map (·.software)).getD [] }

/-- The answer to GET /device: one entry for each terminal. -/
def Book.listing (b : Book) : List Device := b.terminals.map fun e => e.2.device e.1

/-- The answer to GET /device/:phone/geo: the newest report, except that none is shown when their number is a multiple of
100. -/
def Book.position (b : Book) (phone : Str) : Option (Device × DeviceGeo) :=
  match b.terminal phone with
  | none => none
  | some t =>
    if (b.reports phone).length % 100 = 0 then none else (b.reports phone).getLast?.map fun g => (t.device phone, g)

end JT808.Spec
