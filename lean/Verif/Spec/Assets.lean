import Verif.Spec.Json
/-
The files of the repository that are built into the program, as they are in the repository.
-/
namespace JT808.Spec

/-- A text in UTF-8. -/
def encoded (s : String) : List UInt8 := utf8Text (s.toList.map (·.toNat))

/-- configs/banner.txt of the repository, by lines. -/
def bannerFile : List String :=
  ["       _ __  ____  ____  ____                                                       \n",
   "      (_) /_( __ )/ __ \\( __ )      ________  ______   _____  _____      ____ _____ \n",
   "     / / __/ __  / / / / __  |_____/ ___/ _ \\/ ___/ | / / _ \\/ ___/_____/ __ `/ __ \\\n",
   "    / / /_/ /_/ / /_/ / /_/ /_____(__  )  __/ /   | |/ /  __/ /  /_____/ /_/ / /_/ /\n",
   " __/ /\\__/\\____/\\____/\\____/     /____/\\___/_/    |___/\\___/_/         \\__, /\\____/ \n",
   "/___/                                                                 /____/        "]

/-- configs/default.yaml of the repository, by lines. -/
def serverFile : List String :=
  ["log:\n",
   "  consoleEnable: true\n",
   "  fileEnable: true\n",
   "  printAsJson: false\n",
   "  logLevel: \"DEBUG\"\n",
   "  logDirectory: \"./logs/\"\n",
   "  logFile: \"jt808-server-go.log\"\n",
   "  maxSizeOfRolling: 50\n",
   "  maxBackupsOfRolling: 128\n",
   "  maxAgeOfRolling: 7\n",
   "\n",
   "server:\n",
   "  name: \"jt808-server-go\"\n",
   "  port:\n",
   "    tcpPort: \"8080\"\n",
   "    udpPort: \"8081\"\n",
   "    httpPort: \"8008\"\n",
   "  banner:\n",
   "    enable: true\n",
   "    bannerPath: \"configs/banner.txt\"\n"]

/-- test/client/configs/default.yaml of the repository, by lines. -/
def clientFile : List String :=
  ["log:\n",
   "  consoleEnable: true\n",
   "  fileEnable: true\n",
   "  printAsJson: false\n",
   "  logLevel: \"DEBUG\"\n",
   "  logDirectory: \"./logs/\"\n",
   "  logFile: \"jt808-client-go.log\"\n",
   "  maxSizeOfRolling: 50\n",
   "  maxBackupsOfRolling: 128\n",
   "  maxAgeOfRolling: 7\n",
   "client:\n",
   "  name: \"jt808-client-go\"\n",
   "  concurrency: 1\n",
   "  conn:\n",
   "    # remoteAddr: \"localhost:8080\"\n",
   "    # remoteAddr: \"119.249.49.110:5080\"\n",
   "    remoteAddr: \"119.249.51.166:5080\"\n",
   "  device:\n",
   "    idReg: \"[0-9]{7}\"\n",
   "    imeiReg: \"[0-9]{15}\"\n",
   "    # phoneReg: \"130[0-9]{8}\"\n",
   "    phoneReg: \"13012345678\"\n",
   "    # plateReg: \"京A[A-Z0-9]{5}\"\n",
   "    plateReg: \"京A12345\"\n",
   "    protocolVersion: \"2019\"\n",
   "    transProto: \"TCP\"\n",
   "    keepalive: 20 # 保活周期，单位s\n",
   "    provinceIdReg: \"[0-9]{2}\"\n",
   "    cityIdReg: \"[0-9]{4}\"\n",
   "    plateColorReg: \"[0123459]{1}\"\n",
   "  deviceGeo:\n",
   "    locationReportInterval: 10\n",
   "    geo:\n",
   "      accStatusReg: \"0|1\"\n",
   "      locationStatusReg: \"0|1\"\n",
   "      latitudeTypeReg: \"0|1\"\n",
   "      longitudeTypeReg: \"0|1\"\n",
   "      operatingStatusReg: \"0|1\"\n",
   "      geoEncryptionStatusReg: \"0|1\"\n",
   "      loadStatusReg: \"0|1\"\n",
   "      FuelSystemStatusReg: \"0|1\"\n",
   "      AlternatorSystemStatusReg: \"0|1\"\n",
   "      DoorLockedStatusReg: \"0|1\"\n",
   "      frontDoorStatusReg: \"0|1\"\n",
   "      midDoorStatusReg: \"0|1\"\n",
   "      backDoorStatusReg: \"0|1\"\n",
   "      driverDoorStatusReg: \"0|1\"\n",
   "      customDoorStatusReg: \"0|1\"\n",
   "      gpsLocationStatusReg: \"0|1\"\n",
   "      beidouLocationStatusReg: \"0|1\"\n",
   "      glonassLocationStatusReg: \"0|1\"\n",
   "      galileoLocationStatusReg: \"0|1\"\n",
   "      drivingStatusReg: \"0|1\"\n",
   "    location:\n",
   "      latitudeReg: \"[0-8][0-9]|90\"\n",
   "      longitudeReg: \"[0-9]{2}|1[0-7][0-9]|180\"\n",
   "      altitudeReg: \"[0-9]{4}\"\n",
   "    drive:\n",
   "      speedReg: \"[0-9]{2}\"\n",
   "      directionReg: \"[0-9]{2}|[1-2][0-9]{2}|3[0-5][0-9]\"\n"]

/-- A file: the directories that lead to it, its name, its lines. -/
structure SourceFile where
  path : List String
  text : List String

def files : List SourceFile :=
  [⟨["configs", "banner.txt"], bannerFile⟩, ⟨["configs", "default.yaml"], serverFile⟩,
   ⟨["test", "client", "configs", "default.yaml"], clientFile⟩]

/-- The bytes of a file. -/
def SourceFile.bytes (f : SourceFile) : List UInt8 := f.text.flatMap encoded

/-- Names with slashes between them. -/
def joined : List (List UInt8) → List UInt8
  | [] => []
  | [p] => p
  | p :: ps => p ++ 0x2f :: joined ps

/-- A path in bytes. -/
def SourceFile.parts (f : SourceFile) : List (List UInt8) := f.path.map encoded

/-- `name` is `path`, perhaps written with backslashes. -/
inductive Written : List UInt8 → List UInt8 → Prop
  | nil : Written [] []
  | same {b : UInt8} {n p : List UInt8} : b ≠ 0x5c → Written n p → Written (b :: n) (b :: p)
  | back {n p : List UInt8} : Written n p → Written (0x5c :: n) (0x2f :: p)

/-- The parts of a name: what is between its slashes or backslashes; the empty name has none. -/
def PartsOf (name : List UInt8) (ps : List (List UInt8)) : Prop :=
  (name = [] ∧ ps = []) ∨
  (name ≠ [] ∧ ps ≠ [] ∧ (∀ p ∈ ps, (0x2f : UInt8) ∉ p ∧ (0x5c : UInt8) ∉ p) ∧ Written name (joined ps))

/-- There is a file or a directory called `x` in a directory. -/
def InDir (dir : List (List UInt8)) (x : List UInt8) : Prop := ∃ f ∈ files, ∃ rest, f.parts = dir ++ x :: rest

end JT808.Spec
