import Verif.Model.Yaml
import Verif.Model.SimStart
/-
What the simulator makes of the patterns and numbers in its configuration file: test/datagen/datagen.go, test/client/main.go:35-104.
-/
namespace JT808

/-- matchTokenAndGen of a field, datagen.go:17-20: the text is one of those that may come out. -/
def YamlFile.Yields (y : YamlFile) (path : List String) (t : Str) : Prop := ∃ p, y.pattern path = some p ∧ p.Makes t

/-- GenDevice, datagen.go:30-52, with buildDevice, main.go:35-44: the device is one of those that may come out for a connection.
The keepalive, which GenDevice multiplies by a thousand million to have nanoseconds, is in milliseconds; that the product may
overflow is left out. -/
def YamlFile.MakesDevice (y : YamlFile) (c : Conn) (d : Device) : Prop :=
  ∃ id plate phone imei ver keepalive,
    y.Yields ["client", "device", "idreg"] id ∧ y.Yields ["client", "device", "platereg"] plate ∧
    y.Yields ["client", "device", "phonereg"] phone ∧ y.Yields ["client", "device", "imeireg"] imei ∧
    y.text ["client", "device", "protocolversion"] = some ver ∧ y.num ["client", "device", "keepalive"] = some keepalive ∧
    d = genDeviceAs ver id plate phone imei (keepalive * 1000) c

/-- register, main.go:56-61, with GenMsg0100, datagen.go:98-109: the message is one of those that may come out. -/
def YamlFile.MakesRegistration (y : YamlFile) (d : Device) (o : Out) : Prop :=
  ∃ t : Texts, (∀ key ∈ ["provinceidreg", "cityidreg", "platecolorreg"], y.Yields ["client", "device", key] (t key)) ∧
    o = registerMsg t d

/-- genGeoMeta, datagen.go:111-134: the status is one of those that may come out. -/
def YamlFile.MakesStatus (y : YamlFile) (g : GeoMeta) : Prop :=
  ∃ t : Texts, (∀ key ∈ ["accstatusreg", "locationstatusreg", "latitudetypereg", "longitudetypereg", "operatingstatusreg",
    "geoencryptionstatusreg", "loadstatusreg", "fuelsystemstatusreg", "alternatorsystemstatusreg", "doorlockedstatusreg",
    "frontdoorstatusreg", "middoorstatusreg", "backdoorstatusreg", "driverdoorstatusreg", "customdoorstatusreg",
    "gpslocationstatusreg", "beidoulocationstatusreg", "glonasslocationstatusreg", "galileolocationstatusreg",
    "drivingstatusreg"], y.Yields ["client", "devicegeo", "geo", key] (t key)) ∧ g = genGeoMeta t

/-- GenDeviceGeo, datagen.go:136-152, with buildDeviceGeo, main.go:78-85: the position is one of those that may come out. -/
def YamlFile.MakesPlace (y : YamlFile) (g : SimGeo) : Prop :=
  ∃ t : Texts, (∀ key ∈ ["latitudereg", "longitudereg", "altitudereg"], y.Yields ["client", "devicegeo", "location", key] (t key)) ∧
    (∀ key ∈ ["speedreg", "directionreg"], y.Yields ["client", "devicegeo", "drive", key] (t key)) ∧ g = genSimGeo t

end JT808
