import Verif.Proof.Handle
/-
A concrete terminal and its frames, used to show that the hypotheses of the theorems can be met.
-/
namespace JT808
open Spec

/-- Two connections. -/
def demoC : Conn := ⟨0, [0x61]⟩
def demoC' : Conn := ⟨1, [0x62]⟩

/-- A moment. -/
def demoClk (ms : Nat) : Clock := ⟨ms, ⟨2024, 2, 29, 12, 0, 0⟩⟩

/-- A registration. -/
def demoRegMsg : Register := ⟨31, 115, [0x61, 0x62], [0x6d], [0x69, 0x64, 0x31], 1, [0x41, 0x31, 0x32, 0x33], []⟩

/-- The frame of a message with header `h`. -/
def msgFrame (h : Header) (body : List UInt8) : List UInt8 := encodeFrame (writeHeader h body)

def demoReg : List UInt8 := msgFrame (hdr2013 0x0100) (demoRegMsg.encode goEnv .v2013)
def demoBeat : List UInt8 := msgFrame (hdr2013 0x0002) []
def demoBye : List UInt8 := msgFrame (hdr2013 0x0003) []
def demoCode : Str := authCodeOf demoRegMsg.deviceID demoRegMsg.plate (hdr2013 0).phone
def demoAuth (code : Str) : List UInt8 := msgFrame (hdr2013 0x0102) code
/-- Status bit 0 is the ACC switch. -/
def demoLocMsg (status lat : UInt32) : LocMsg := ⟨0, status, lat, 121470000, 15, 600, 90, digitStr [2,4,0,2,2,9,2,3,5,9,5,8]⟩
def demoLoc (status lat : UInt32) : List UInt8 := msgFrame (hdr2013 0x0200) (demoLocMsg status lat).encode
def demoAck (result : UInt8) : List UInt8 := msgFrame (hdr2013 0x8001) (GeneralAck.mk 1 0x0102 result).encode

theorem demoReg_holds (now : Civil) :
    Holds goEnv now demoReg ((hdr2013 0x0100).withBodyLength 41) (.m0100 demoRegMsg) :=
  ⟨_, .t0100, _, rfl, rfl, rfl, rfl, rfl⟩

theorem demoBeat_holds (now : Civil) : Holds goEnv now demoBeat (hdr2013 0x0002) .m0002 :=
  ⟨_, .t0002, _, rfl, rfl, rfl, rfl, rfl⟩

theorem demoBye_holds (now : Civil) : Holds goEnv now demoBye (hdr2013 0x0003) .m0003 :=
  ⟨_, .t0003, _, rfl, rfl, rfl, rfl, rfl⟩

theorem demoAuth_holds (now : Civil) : Holds goEnv now (demoAuth [0x78, 0x79]) ((hdr2013 0x0102).withBodyLength 2)
    (.m0102 ⟨0, [0x78, 0x79], [], []⟩) :=
  ⟨_, .t0102, _, rfl, rfl, rfl, rfl, rfl⟩

theorem demoLoc_holds (now : Civil) : Holds goEnv now (demoLoc 3 31230000) ((hdr2013 0x0200).withBodyLength 28)
    (.m0200 (demoLocMsg 3 31230000)) :=
  ⟨_, .t0200, _, rfl, rfl, rfl, rfl, rfl⟩

/-- A terminal connects and registers. -/
def demoEvs : List Ev := [.accept [0x61], .accept [0x62], .frame (demoClk 1000) demoC demoReg none]

/-- The server after that. -/
def demoSys : Sys := (Sys.start.run goEnv demoEvs).1

theorem demo_reachable : Reachable goEnv demoSys.st := ⟨demoEvs, rfl⟩

example : demoSys.st.look (hdr2013 0).phone = some
    { id := demoRegMsg.deviceID, plate := demoRegMsg.plate, phone := (hdr2013 0).phone, sessionID := [0x61],
      conn := some demoC, keepalive := 60000, last := 1000, status := .offline, ver := .v2013, protoVer := 0,
      authCode := [], imei := [], software := [] } := by decide +kernel

end JT808
