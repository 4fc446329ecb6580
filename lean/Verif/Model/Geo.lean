import Verif.Model.Msgs
/-
Location status word and stored locations: internal/protocol/model/device.go:68-218
-/
namespace JT808

/-- GeoMeta, device.go:143-169. -/
structure GeoMeta where
  acc : UInt8
  located : UInt8
  latType : UInt8
  longType : UInt8
  operating : UInt8
  geoEnc : UInt8
  load : UInt8
  fuel : UInt8
  alternator : UInt8
  doorLocked : UInt8
  frontDoor : UInt8
  midDoor : UInt8
  backDoor : UInt8
  driverDoor : UInt8
  customDoor : UInt8
  gps : UInt8
  beidou : UInt8
  glonass : UInt8
  galileo : UInt8
  driving : UInt8
  deriving DecidableEq, Repr

/-- (*GeoMeta).Decode, device.go:172-193, with the masks of device.go:120-141. -/
def GeoMeta.decode (status : UInt32) : GeoMeta where
  acc := (status &&& 0x1).toUInt8
  located := ((status &&& 0x2) >>> 1).toUInt8
  latType := ((status &&& 0x4) >>> 2).toUInt8
  longType := ((status &&& 0x8) >>> 3).toUInt8
  operating := ((status &&& 0x10) >>> 4).toUInt8
  geoEnc := ((status &&& 0x20) >>> 5).toUInt8
  load := ((status &&& 0x300) >>> 8).toUInt8
  fuel := ((status &&& 0x400) >>> 10).toUInt8
  alternator := ((status &&& 0x800) >>> 11).toUInt8
  doorLocked := ((status &&& 0x1000) >>> 12).toUInt8
  frontDoor := ((status &&& 0x2000) >>> 13).toUInt8
  midDoor := ((status &&& 0x4000) >>> 14).toUInt8
  backDoor := ((status &&& 0x8000) >>> 15).toUInt8
  driverDoor := ((status &&& 0x10000) >>> 16).toUInt8
  customDoor := ((status &&& 0x20000) >>> 17).toUInt8
  gps := ((status &&& 0x40000) >>> 18).toUInt8
  beidou := ((status &&& 0x80000) >>> 19).toUInt8
  glonass := ((status &&& 0x100000) >>> 20).toUInt8
  galileo := ((status &&& 0x200000) >>> 21).toUInt8
  driving := ((status &&& 0x400000) >>> 22).toUInt8

/-- (*GeoMeta).Encode, device.go:195-218.  Lines 199-200 shift LongitudeType by 2 and LatitudeType by 3, the
other way round than Decode. -/
def GeoMeta.encode (g : GeoMeta) : UInt32 :=
  g.acc.toUInt32
    + (g.located.toUInt32 <<< 1)
    + (g.longType.toUInt32 <<< 2)
    + (g.latType.toUInt32 <<< 3)
    + (g.operating.toUInt32 <<< 4)
    + (g.geoEnc.toUInt32 <<< 5)
    + (g.load.toUInt32 <<< 8)
    + (g.fuel.toUInt32 <<< 10)
    + (g.alternator.toUInt32 <<< 11)
    + (g.doorLocked.toUInt32 <<< 12)
    + (g.frontDoor.toUInt32 <<< 13)
    + (g.midDoor.toUInt32 <<< 14)
    + (g.backDoor.toUInt32 <<< 15)
    + (g.driverDoor.toUInt32 <<< 16)
    + (g.customDoor.toUInt32 <<< 17)
    + (g.gps.toUInt32 <<< 18)
    + (g.beidou.toUInt32 <<< 19)
    + (g.glonass.toUInt32 <<< 20)
    + (g.galileo.toUInt32 <<< 21)
    + (g.driving.toUInt32 <<< 22)

/-- DeviceGeo, device.go:69-75, with Location (97-101) and Drive (109-112) inlined.  Simplification: latitude,
longitude (float64(raw)/1000000) and speed (float64(raw)/10) are kept as the raw integers before the division;
Verif/Model/Float.lean has the division and C102 shows that no information is lost. -/
structure DeviceGeo where
  phone : Str
  geo : GeoMeta
  lat : UInt32
  long : UInt32
  alt : UInt16
  speed : UInt16
  dir : UInt16
  time : Civil
  deriving DecidableEq, Repr

/-- (*DeviceGeo).Decode, device.go:77-90, 103-107, 114-117. -/
def DeviceGeo.decode (now : Civil) (phone : Str) (m : LocMsg) : DeviceGeo :=
  { phone := phone, geo := GeoMeta.decode m.status, lat := m.lat, long := m.long, alt := m.alt
    speed := m.speed, dir := m.dir, time := parseTime now m.time }

end JT808
