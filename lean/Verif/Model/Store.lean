import Verif.Model.Geo
import Verif.Model.Ring
import Verif.Model.Codec
/-
internal/storage and the state behind it: device, location, parameter, segment and session caches, keepalive jobs,
connections; internal/protocol/model/device.go, segment.go, session.go.

The singletons created with sync.Once (device_cache.go:23-32 and its siblings) are one record here.
-/
namespace JT808

/-- Go `map[string]T` as an association list; at most one entry per key when built by `set`.  The order of the entries
stands for nothing. -/
abbrev AMap (β : Type) := List (Str × β)

/-- `v, ok := m[k]` -/
def AMap.get {β : Type} (m : AMap β) (k : Str) : Option β := m.lookup k

/-- `m[k] = v` -/
def AMap.set {β : Type} : AMap β → Str → β → AMap β
  | [], k, v => [(k, v)]
  | e :: m, k, v => if e.1 = k then (k, v) :: m else e :: AMap.set m k v

/-- `delete(m, k)` -/
def AMap.del {β : Type} (m : AMap β) (k : Str) : AMap β := m.filter (·.1 ≠ k)

/-- DeviceStatus, device.go:10-16. -/
inductive DStatus where
  | offline | online | sleeping
  deriving DecidableEq, Repr

/-- An accepted connection.  `id` tells accepts apart, `addr` is `conn.RemoteAddr().String()`.  A model.Session
(session.go:32-36) is identified with its connection; its counter is `Store.serial`. -/
structure Conn where
  id : Nat
  addr : Str
  deriving DecidableEq, Repr

/-- Device, device.go:19-40.  Times are Unix milliseconds; `Keepalive` is in milliseconds. `conn` is the pair
SessionID/Conn: NewDevice takes both from one session.  TransProto is TCP when there is a connection
(session.go:38-43), so it is left out. -/
structure Device where
  id : Str
  plate : Str
  phone : Str
  sessionID : Str
  conn : Option Conn
  keepalive : Nat
  last : Nat
  status : DStatus
  ver : Ver
  protoVer : UInt8
  authCode : Str
  imei : Str
  software : Str
  deriving DecidableEq, Repr

/-- Pointers to devices. -/
abbrev Ref := Nat

/-- Segment, segment.go:4-10. -/
structure Segment where
  phone : Str
  msgID : UInt16
  total : UInt16
  no : UInt16
  data : List UInt8
  deriving DecidableEq, Repr

/-- What a running process holds.  `heap` and `next`: the devices allocated so far, addressed by `Ref`.
`byPlate`/`byPhone`: device_cache.go:14-18.  `geos`: geo_cache.go:16-19.  `params`: param_cache.go:13-16.
`segs`: segment_cache.go:10-13.  `sessions`: session_cache.go:18-21, with the counter of every session in `serial`
(session.go:35).  `jobs`: the keepalive jobs in the cron table (keepalive.go:14-16).  `closed`: connections closed by
this process. -/
structure Store where
  heap : Ref → Device
  next : Ref
  byPlate : AMap Ref
  byPhone : AMap Ref
  geos : AMap (Ring DeviceGeo)
  params : AMap DeviceParams
  segs : AMap Segment
  sessions : AMap Conn
  serial : Nat → UInt32
  jobs : List Str
  closed : Nat → Bool

/-- The zero Device. -/
def Device.zero : Device := ⟨[], [], [], [], none, 0, 0, .offline, .v2011, 0, [], [], []⟩

/-- A process at start. -/
def Store.empty : Store :=
  ⟨fun _ => Device.zero, 0, [], [], [], [], [], [], fun _ => 0, [], fun _ => false⟩

/-- The wall clock at an event: `time.Now().UnixMilli()` and `time.Now()` as civil time. -/
structure Clock where
  ms : Nat
  civil : Civil
  deriving DecidableEq, Repr

/-! ### Device cache -/

/-- `d.F = x` through a pointer. -/
def Store.setDev (st : Store) (r : Ref) (d : Device) : Store :=
  { st with heap := fun x => if x = r then d else st.heap x }

/-- GetDeviceByPlate, device_cache.go:38-45 (`none` = ErrDeviceNotFound). -/
def Store.devByPlate (st : Store) (plate : Str) : Option Ref := st.byPlate.get plate

/-- GetDeviceByPhone, device_cache.go:52-59. -/
def Store.devByPhone (st : Store) (phone : Str) : Option Ref := st.byPhone.get phone

/-- HasPlate, device_cache.go:47-50 (cached pointers are never nil). -/
def Store.hasPlate (st : Store) (plate : Str) : Bool := (st.devByPlate plate).isSome

/-- HasPhone, device_cache.go:61-64. -/
def Store.hasPhone (st : Store) (phone : Str) : Bool := (st.devByPhone phone).isSome

/-- CacheDevice, device_cache.go:66-75. -/
def Store.cacheDevice (st : Store) (r : Ref) : Store :=
  { st with byPlate := st.byPlate.set (st.heap r).plate r
            byPhone := st.byPhone.set (st.heap r).phone r }

/-- DelDeviceByPhone, device_cache.go:77-91, 99-103. -/
def Store.delByPhone (st : Store) (phone : Str) : Store :=
  match st.byPhone.get phone with
  | none => st
  | some r => { st with byPlate := st.byPlate.del (st.heap r).plate
                        byPhone := st.byPhone.del (st.heap r).phone }

/-- DelDeviceByCarPlate, device_cache.go:77-97. -/
def Store.delByPlate (st : Store) (plate : Str) : Store :=
  match st.byPlate.get plate with
  | none => st
  | some r => { st with byPlate := st.byPlate.del (st.heap r).plate
                        byPhone := st.byPhone.del (st.heap r).phone }

/-- ListDevice, device_cache.go:34-36: `maps.Values`, in some order. -/
def Store.listDevice (st : Store) : List Device := st.byPhone.map fun e => st.heap e.2

/-- `&model.Device{...}`. -/
def Store.alloc (st : Store) (d : Device) : Store × Ref :=
  ({ st with heap := fun x => if x = st.next then d else st.heap x, next := st.next + 1 }, st.next)

/-- NewDevice, device.go:42-56, with the keepalive of one minute. -/
def Device.new (clk : Clock) (c : Conn) (h : Header) (m : Register) : Device :=
  { id := m.deviceID, plate := m.plate, phone := h.phone, sessionID := c.addr, conn := some c
    keepalive := 60000, last := clk.ms, status := .offline, ver := h.attr.verDesc, protoVer := h.protoVer
    authCode := [], imei := [], software := [] }

/-- ShouleTurnOffline, device.go:58-61. -/
def Device.shouldTurnOffline (d : Device) (now : Nat) : Bool := d.status != .offline && decide (now > d.keepalive + d.last)

/-- ShouldClear, device.go:63-66. -/
def Device.shouldClear (d : Device) (now : Nat) : Bool := d.status == .offline && decide (now > d.keepalive + d.last)

/-! ### Location cache -/

/-- RingCapacity, geo_cache.go:12. -/
def ringCapacity : Nat := 100

/-- GetGeoRingByPhone, geo_cache.go:34-43: creates a ring when there is none. -/
def Store.geoRing (st : Store) (phone : Str) : Store × Ring DeviceGeo :=
  match st.geos.get phone with
  | some rb => (st, rb)
  | none => ({ st with geos := st.geos.set phone (Ring.new ringCapacity) }, Ring.new ringCapacity)

/-- `rb := GetGeoRingByPhone(phone); rb.Write(dg)`, msg_processor.go:369-371. -/
def Store.writeGeo (st : Store) (phone : Str) (dg : DeviceGeo) : Store × Res Unit :=
  let (st, rb) := st.geoRing phone
  match rb.write (some dg) with
  | .ok rb' => ({ st with geos := st.geos.set phone rb' }, .ok ())
  | .err e => (st, .err e)
  | .panic => (st, .panic)

/-- GetGeoLatestByPhone, geo_cache.go:45-51. -/
def Store.geoLatest (st : Store) (phone : Str) : Store × Res DeviceGeo :=
  let (st, rb) := st.geoRing phone
  match rb.latest with
  | .ok (some g) => (st, .ok g)
  | .ok none => (st, .err .gisNotFound)
  | .err e => (st, .err e)
  | .panic => (st, .panic)

/-- DelGeoByPhone, geo_cache.go:53-57. -/
def Store.delGeo (st : Store) (phone : Str) : Store := { st with geos := st.geos.del phone }

/-! ### Parameter cache -/

/-- GetDeviceParamsByPhone, param_cache.go:31-38. -/
def Store.paramsOf (st : Store) (phone : Str) : Option DeviceParams := st.params.get phone

/-- CacheDeviceParams, param_cache.go:40-44.  Simplification: the cached pointer is not shared, because every holder
of it (a message being answered) is encoded before the next event. -/
def Store.cacheParams (st : Store) (p : DeviceParams) : Store := { st with params := st.params.set p.phone p }

/-! ### Session cache and connections -/

/-- GetSession, session_cache.go:48-56. -/
def Store.session (st : Store) (id : Str) : Option Conn := st.sessions.get id

/-- StoreSession, session_cache.go:59-64. -/
def Store.storeSession (st : Store) (c : Conn) : Store := { st with sessions := st.sessions.set c.addr c }

/-- ClearSession, session_cache.go:67-72. -/
def Store.clearSession (st : Store) (id : Str) : Store := { st with sessions := st.sessions.del id }

/-- `conn.Close()` -/
def Store.closeConn (st : Store) (c : Conn) : Store :=
  { st with closed := fun x => if x = c.id then true else st.closed x }

/-- GetNextSerialNum, session.go:45-52, for one caller at a time (Verif/Model/Conc.lean has concurrent callers). -/
def nextSerial (n : UInt32) : UInt32 × UInt16 :=
  let next := n + 1
  if next ≤ 0xffff then (next, next.toUInt16) else (0, 0)

/-- `session.GetNextSerialNum()` on the session of a connection. -/
def Store.takeSerial (st : Store) (c : Conn) : Store × UInt16 :=
  let r := nextSerial (st.serial c.id)
  ({ st with serial := fun x => if x = c.id then r.1 else st.serial x }, r.2)

/-! ### Segment cache -/

/-- `string(rune(id))` as written by strings.Builder.WriteRune, segment_cache.go:32: UTF-8 of the code point, and
U+FFFD (ef bf bd) for surrogates. -/
def runeUtf8 (id : UInt16) : Str :=
  let n := id.toNat
  if n < 0x80 then [UInt8.ofNat n]
  else if n < 0x800 then [UInt8.ofNat (0xC0 + n / 64), UInt8.ofNat (0x80 + n % 64)]
  else if 0xD800 ≤ n ∧ n ≤ 0xDFFF then [0xEF, 0xBF, 0xBD]
  else [UInt8.ofNat (0xE0 + n / 4096), UInt8.ofNat (0x80 + n / 64 % 64), UInt8.ofNat (0x80 + n % 64)]

/-- The key built by CacheSegment, segment_cache.go:29-33. -/
def segKey (phone : Str) (id : UInt16) : Str := phone ++ 0x2f :: runeUtf8 id

/-- Merge, segment.go:16-19. -/
def Segment.merge (s ns : Segment) : Segment := { s with no := ns.no, data := s.data ++ ns.data }

/-- IsComplete, segment.go:12-14. -/
def Segment.isComplete (s : Segment) : Bool := s.no == s.total

/-- CacheSegment, segment_cache.go:28-45.  On a miss `s` is nil and `s.IsComplete()` panics, after the segment was
stored; the mutex is released by the deferred Unlock. -/
def Store.cacheSegment (st : Store) (seg : Segment) : Store × Res Bool :=
  let key := segKey seg.phone seg.msgID
  match st.segs.get key with
  | none => ({ st with segs := st.segs.set key seg }, .panic)
  | some s =>
    let s' := s.merge seg
    ({ st with segs := st.segs.set key s' }, .ok s'.isComplete)

/-- NewSegment, segment.go:21-29.  (`Frag` is set whenever the header is fragmented, header.go:52-58.) -/
def Segment.ofPacket (h : Header) (f : Frag) (body : List UInt8) : Segment :=
  ⟨h.phone, h.msgID, f.total, f.index, body⟩

/-- Decode, packet_codec.go:48-79, with the segment cache of lines 69-74: the body stays the one of this fragment. -/
def Store.decodePacket (env : Env) (st : Store) (payload : List UInt8) : Store × Res Packet :=
  match decodeFrame env payload with
  | .err e => (st, .err e)
  | .panic => (st, .panic)
  | .ok pd =>
    if pd.header.isFragmented then
      match pd.header.frag with
      | none => (st, .panic)
      | some f =>
        match st.cacheSegment (Segment.ofPacket pd.header f pd.body.data) with
        | (st', .ok b) => (st', .ok { pd with segCompleted := b })
        | (st', .err e) => (st', .err e)
        | (st', .panic) => (st', .panic)
    else (st, .ok pd)

end JT808
