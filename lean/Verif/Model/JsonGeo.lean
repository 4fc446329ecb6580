import Verif.Model.JsonText
import Verif.Model.Float
/-
The body of GET /device/:phone/geo, internal/api/api.go:28-50: mapstructure.Decode (version 1.5.0) makes a map of the device,
the position is put into it, and gin writes it with json.Marshal.
-/
namespace JT808

/-- `a * 10^e` as strconv.FormatFloat writes it in format 'f': encoding/json uses that format for numbers from 1e-6 to 1e21
and for zero, and all numbers of device.go:97-112 are among these. -/
def fixedText (a : Nat) (e : Int) : Str :=
  if a = 0 then [0x30]
  else if 0 ≤ e then decimal (a * 10 ^ e.toNat)
  else decimal (a / 10 ^ (-e).toNat) ++ 0x2e :: decimalPad (-e).toNat (a % 10 ^ (-e).toNat)

/-- A GeoMeta with its tags, device.go:143-169. -/
def GeoMeta.json (g : GeoMeta) : Str :=
  jsonStruct
    [("accStatus", decimal g.acc.toNat), ("locationStatus", decimal g.located.toNat),
     ("latitudeType", decimal g.latType.toNat), ("longitudeType", decimal g.longType.toNat),
     ("operatingStatus", decimal g.operating.toNat), ("geoEncryptionStatus", decimal g.geoEnc.toNat),
     ("loadStatus", decimal g.load.toNat), ("FuelSystemStatus", decimal g.fuel.toNat),
     ("AlternatorSystemStatus", decimal g.alternator.toNat), ("DoorLockedStatus", decimal g.doorLocked.toNat),
     ("frontDoorStatus", decimal g.frontDoor.toNat), ("midDoorStatus", decimal g.midDoor.toNat),
     ("backDoorStatus", decimal g.backDoor.toNat), ("driverDoorStatus", decimal g.driverDoor.toNat),
     ("customDoorStatus", decimal g.customDoor.toNat), ("gpsLocationStatus", decimal g.gps.toNat),
     ("beidouLocationStatus", decimal g.beidou.toNat), ("glonassLocationStatus", decimal g.glonass.toNat),
     ("galileoLocationStatus", decimal g.galileo.toNat), ("drivingStatus", decimal g.driving.toNat)]

/-- A DeviceGeo with its tags, device.go:69-75, 97-101, 109-112. `fmt` gives the digits and the exponent strconv chooses for
a float64, `showTime` is time.Time's MarshalJSON without the quotation marks. -/
def DeviceGeo.json (fmt : F64 → Nat × Int) (showTime : Civil → Str) (g : DeviceGeo) : Str :=
  jsonStruct
    [("phone", jsonString g.phone), ("gis", g.geo.json),
     ("location", jsonStruct
       [("latitude", fixedText (fmt g.latitude).1 (fmt g.latitude).2),
        ("longitude", fixedText (fmt g.longitude).1 (fmt g.longitude).2), ("altitude", decimal g.alt.toNat)]),
     ("drive", jsonStruct [("speed", fixedText (fmt g.kmh).1 (fmt g.kmh).2), ("direction", decimal g.dir.toNat)]),
     ("time", 0x22 :: showTime g.time ++ [0x22])]

/-- The body, api.go:37-49. mapstructure takes the names of the fields, as they have no tag of its own, and turns a struct in a
field into a map of its exported fields: time.Time has none, and a *net.TCPConn is written as an object without members too.
The keys of a map are written in the order of their bytes. Simplification: a device without a connection, which only the
simulator has, is not served. -/
def geoBody (fmt : F64 → Nat × Int) (showTime : Civil → Str) (d : Device) (g : DeviceGeo) : Str :=
  jsonStruct
    [("AuthCode", jsonString d.authCode), ("Conn", [0x7b, 0x7d]), ("ID", jsonString d.id), ("IMEI", jsonString d.imei),
     ("Keepalive", decimal (d.keepalive * 1000000)), ("LastestComTime", [0x7b, 0x7d]), ("Phone", jsonString d.phone),
     ("Plate", jsonString d.plate), ("ProtocolVersion", decimal d.protoVer.toNat), ("SessionID", jsonString d.sessionID),
     ("SoftwareVersion", jsonString d.software), ("Status", decimal d.status.num),
     ("TransProto", jsonString (jsonName (if d.conn.isSome then "TCP" else "UDP"))), ("VersionDesc", decimal d.ver.num),
     ("gis", g.json fmt showTime)]

end JT808
