import Verif.Model.Server
import Verif.Spec.Body
/-
What a user can see of a running server: lookups, and the messages inside frames.  The statements about handlers are
made in these terms.
-/
namespace JT808
open Spec

/-- The device a lookup by phone returns. -/
def Store.look (st : Store) (phone : Str) : Option Device := (st.devByPhone phone).map st.heap

/-- The device a lookup by plate returns. -/
def Store.lookPlate (st : Store) (plate : Str) : Option Device := (st.devByPlate plate).map st.heap

/-- `frame` is a well-formed frame with one whole message: header `h` and decoded body `m`. -/
def Holds (env : Env) (now : Civil) (frame : List UInt8) (h : Header) (m : Msg) : Prop :=
  ∃ pd t j, decodeFrame env frame = .ok pd ∧ pd.header = h ∧ h.isFragmented = false ∧
    MType.ofID h.msgID = some t ∧ t.decode env now h pd.body 0 = .ok (m, j)

/-- The frame of a message with the header of `h` except for the id. -/
def answer (h : Header) (id : UInt16) (body : List UInt8) : List UInt8 :=
  encodeFrame (writeHeader { h with msgID := id } body)

/-- The platform's general reply to a message with header `h`. -/
def generalReply (h : Header) (result : Nat) : List UInt8 :=
  answer h 0x8001 (ackBody h.serial.toNat h.msgID.toNat result)

/-- The registration reply to a message with header `h`. -/
def registerReply (h : Header) (result : Nat) (code : Str) : List UInt8 :=
  answer h 0x8100 (registerAckBody h.serial.toNat result code)

end JT808
