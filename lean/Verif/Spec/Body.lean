import Verif.Spec.Header
import Verif.Spec.Calendar
/-
Specification of the message bodies with a fixed layout (JT/T 808 and JT/T 1078 tables), as byte strings
built from natural numbers; no reference to the model.
-/
namespace JT808.Spec

/-- Big-endian DWORD. -/
def dword (n : Nat) : List UInt8 :=
  [UInt8.ofNat (n / 2 ^ 24), UInt8.ofNat (n / 2 ^ 16 % 256), UInt8.ofNat (n / 2 ^ 8 % 256), UInt8.ofNat (n % 256)]

/-- General reply (0x0001, 0x8001): answered serial, answered id, result. -/
def ackBody (serial id result : Nat) : List UInt8 := word serial ++ word id ++ [UInt8.ofNat result]

/-- Location report (0x0200) up to the time. -/
def locationBody (alarm status lat long alt speed dir : Nat) (timeDigits : List Nat) : List UInt8 :=
  dword alarm ++ dword status ++ dword lat ++ dword long ++ word alt ++ word speed ++ word dir ++ packBcd timeDigits

/-- Registration reply (0x8100). -/
def registerAckBody (serial result : Nat) (code : List UInt8) : List UInt8 :=
  word serial ++ [UInt8.ofNat result] ++ code

/-- A field of exactly `n` bytes, filled up with 0x00 at the end. -/
def padded (n : Nat) (s : List UInt8) : List UInt8 := s ++ List.replicate (n - s.length) 0

/-- Registration (0x0100): widths of manufacturer, model and terminal id. -/
def registerBody (wManu wMode wID province city color : Nat) (manu mode id plateGBK : List UInt8) : List UInt8 :=
  word province ++ word city ++ padded wManu manu ++ padded wMode mode ++ padded wID id ++ [UInt8.ofNat color] ++ plateGBK

/-- Bytes every body of a message type has at least (fixed part of its layout; for 0x0100 of the 2011 and 2013
layouts the shorter one). -/
def minBodyLen (id : Nat) (v2019 : Bool) : Nat :=
  if id = 0x0001 ∨ id = 0x8001 then 5
  else if id = 0x0100 then (if v2019 then 76 else 25)
  else if id = 0x0102 then (if v2019 then 36 else 0)
  else if id = 0x0104 ∨ id = 0x8100 then 3
  else if id = 0x0200 then 28
  else if id = 0x1205 then 34
  else if id = 0x8103 then 1
  else if id = 0x9205 then 24
  else 0

end JT808.Spec
