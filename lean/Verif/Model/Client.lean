import Verif.Model.Processor
/-
The terminal simulator: test/datagen/datagen.go and test/client/main.go.  It runs the same packet code and the same
message handlers (internal/client/tcp_client.go:39-61 calls ProcessConnRead) on its own store.
-/
namespace JT808

/-- fillDevicePhone, test/datagen/datagen.go:54-61. -/
def fillDevicePhone (phone : Str) (n : Nat) : Str := List.replicate (n - phone.length) 0x30 ++ phone

/-- "fakeyanss.github.io", test/datagen/datagen.go:37. -/
def clientSoftware : Str :=
  [0x66, 0x61, 0x6b, 0x65, 0x79, 0x61, 0x6e, 0x73, 0x73, 0x2e, 0x67, 0x69, 0x74, 0x68, 0x75, 0x62, 0x2e, 0x69, 0x6f]

/-- "fakeyanss", test/datagen/datagen.go:103-104. -/
def clientMaker : Str := [0x66, 0x61, 0x6b, 0x65, 0x79, 0x61, 0x6e, 0x73, 0x73]

/-- GenDevice, test/datagen/datagen.go:30-52, and buildDevice, test/client/main.go:35-42.  The four texts generated from
regular expressions are arguments; the keepalive is in milliseconds; a zero `time.Time` is 0. -/
def genDevice (v : Ver) (id plate phone imei : Str) (keepalive : Nat) (c : Conn) : Device :=
  { id := id, plate := plate, phone := fillDevicePhone phone (if v = .v2019 then 20 else 12), sessionID := c.addr
    conn := some c, keepalive := keepalive, last := 0, status := .offline, ver := v, protoVer := 0, authCode := []
    imei := imei, software := clientSoftware }

/-- `cache.CacheDevice(device)` of a new device, test/client/main.go:42. -/
def Store.buildDevice (st : Store) (d : Device) : Store :=
  let (st, r) := st.alloc d
  st.cacheDevice r

/-- genMsgHeader of the simulator, test/datagen/datagen.go:63-90. -/
def clientHeader (id : UInt16) (d : Device) : Header :=
  if d.ver = .v2019 then ⟨id, ⟨0, 0, 0, 1, 0, .none, false, .v2019⟩, 1, d.phone, 1, none⟩
  else ⟨id, ⟨0, 0, 0, 0, 0, .none, false, .v2013⟩, 0, d.phone, 1, none⟩

/-- GenMsg0002, test/datagen/datagen.go:92-96. -/
def clientBeat (d : Device) : Out := (clientHeader 0x0002 d, .m0002)

/-- GenMsg0100, test/datagen/datagen.go:98-109; the three generated numbers are arguments. -/
def clientRegister (d : Device) (province city : UInt16) (color : UInt8) : Out :=
  (clientHeader 0x0100 d, .m0100 ⟨province, city, clientMaker, clientMaker, d.id, color, d.plate, []⟩)

/-- What GenMsg0200 draws before it builds the message, test/datagen/datagen.go:156-171: a generated status, the results
of converting the shifted floating-point latitude, longitude and speed to integers (lines 165, 166, 168; any value, the
conversion of a negative float is not defined by Go), the altitude of the stored position and its offset (line 167), the
direction `rand.Intn(360)` (line 161) and the time (line 171). -/
structure LocDraw where
  geo : GeoMeta
  lat : UInt32
  long : UInt32
  alt : UInt16
  altOff : UInt16
  speed : UInt16
  dir : Fin 360
  now : Civil

/-- GenMsg0200, test/datagen/datagen.go:155-189. -/
def clientLocation (d : Device) (x : LocDraw) : Out :=
  let alt := x.alt + x.altOff
  (clientHeader 0x0200 d, .m0200
    { alarm := 1024, status := x.geo.encode
      lat := if x.lat > 90000000 then 90000000 else x.lat
      long := if x.long > 180000000 then 180000000 else x.long
      alt := if alt > 5000 then 1000 else alt
      speed := if x.speed > 3000 then 1000 else x.speed
      dir := UInt16.ofNat x.dir.val, time := formatTime x.now })

/-- GenDevice, test/datagen/datagen.go:30-52, by the text of protocolVersion in the configuration: with any other text than
the three of the switch the version keeps its zero value, Version2011 (header.go:122), and the phone is not filled up. -/
def genDeviceAs (text : Str) (id plate phone imei : Str) (keepalive : Nat) (c : Conn) : Device :=
  if text = [0x32, 0x30, 0x31, 0x39] then genDevice .v2019 id plate phone imei keepalive c
  else if text = [0x32, 0x30, 0x31, 0x33] then genDevice .v2013 id plate phone imei keepalive c
  else if text = [0x32, 0x30, 0x31, 0x31] then genDevice .v2011 id plate phone imei keepalive c
  else { genDevice .v2011 id plate phone imei keepalive c with phone := phone }

end JT808
