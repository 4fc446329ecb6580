import Verif.Props.Replies
import Verif.Props.EndToEnd
import Verif.Props.Serials
/-
C111: the serial numbers of what either side sends.
-/
namespace JT808
open Spec

namespace Spec

/-- What the simulator of a device sends of its own accord: registration, heartbeat, location report. -/
inductive Starts (d : Device) : Out → Prop
  | register (province city : UInt16) (color : UInt8) : Starts d (clientRegister d province city color)
  | beat : Starts d (clientBeat d)
  | locate (x : LocDraw) : Starts d (clientLocation d x)

end Spec

/-- The opposite of C111 for the server: an answer has the serial number of the request, so two requests with the same
serial number are answered with the same serial number, on whatever connections, in whatever states and however many
messages the server has sent in between. -/
theorem C111_replies_copy (env : Env) (clk clk' : Clock) (c c' : Conn) (s s' t t' : Store) (f f' r r' : List UInt8)
    (h h' : Header) (m m' : Msg) (hh : Holds env clk.civil f h m) (hh' : Holds env clk'.civil f' h' m')
    (hm : h.msgID.toNat ∈ [0x0002, 0x0003, 0x0100, 0x0102, 0x0200])
    (hm' : h'.msgID.toNat ∈ [0x0002, 0x0003, 0x0100, 0x0102, 0x0200])
    (hp : h.phone.length = 2 * h.attr.verDesc.phoneBytes) (hp' : h'.phone.length = 2 * h'.attr.verDesc.phoneBytes)
    (e : s.handleFrame env clk c f = (t, .reply r)) (e' : s'.handleFrame env clk' c' f' = (t', .reply r'))
    (hs : h.serial = h'.serial) :
    ∃ a a', decodeFrame env r = .ok a ∧ decodeFrame env r' = .ok a' ∧ a.header.serial = a'.header.serial := by
  obtain ⟨a, a1, -, -, -, -, a2, -⟩ := C29_platform_replies_partial env clk c s t f r h m hh hm hp e
  obtain ⟨b, b1, -, -, -, -, b2, -⟩ := C29_platform_replies_partial env clk' c' s' t' f' r' h' m' hh' hm' hp' e'
  exact ⟨a, b, a1, b1, by rw [a2, b2, hs]⟩

/-- The opposite of C111 for the simulator: everything it sends of its own accord has serial number 1 (and, from a 2019
simulator, protocol version 1). -/
theorem C111_simulator_one (env : Env) (d : Device) (hp : PhoneWF (if d.ver = .v2019 then .v2019 else .v2013) d.phone)
    (o : Out) (ho : Starts d o) (body : List UInt8) (hb : o.2.encodeBody env o.1 = .ok body) (hl : body.length ≤ 1023) :
    ∃ f a, Out.encode env o = .ok f ∧ decodeFrame env f = .ok a ∧ a.header.phone = d.phone ∧ a.header.serial = 1 ∧
      a.header.protoVer = if d.ver = .v2019 then 1 else 0 := by
  obtain ⟨id, hid⟩ : ∃ id, o.1 = clientHeader id d := by
    cases ho with
    | register => exact ⟨_, rfl⟩
    | beat => exact ⟨_, rfl⟩
    | locate => exact ⟨_, rfl⟩
  have hw := clientHeader_wf id d hp
  obtain ⟨slack, e⟩ := decodeFrame_encodeFrame env (Header.withBodyLength_wf hw body.length (by omega)) body
  refine ⟨encodeFrame (writeHeader o.1 body), _, by simp only [Out.encode, hb], by rw [hid]; exact e, ?_, ?_, ?_⟩ <;>
    (simp only [clientHeader]; split <;> rfl)

/-- A parameter request that sends a frame on a connection uses up a number of this connection. -/
theorem sent_drawn (env : Env) (evs : List Ev) (p : Str) (e : Ev)
    (he : (∃ werr, e = .httpQuery p werr) ∨ ∃ b bad werr, e = .httpSet p b bad werr) (c : Conn) (f : List UInt8)
    (hs : ((Sys.start.run env evs).1.step env e).2.sent = some (c, f)) :
    drawn env (Sys.start.run env evs).1 e = some c := by
  have hi := reachable_inv env evs
  have hse := reachable_sess env evs
  generalize (Sys.start.run env evs).1 = s at *
  have main : ∀ (r : Ref) (code : Option Nat) (id : UInt16) (m : Msg) (werr : Option Err),
      s.st.devByPhone p = some r → (s.st.apiSend env werr r code id m).2.sent = some (c, f) → connFor s.st p = some c := by
    intro r code id m werr hr hx
    obtain ⟨c1, h4, h5⟩ := apiSend_found hx
    have hcc : c1 = c := by
      have := (hse.served _ _ h4).2
      rw [this] at h5
      rw [h4] at h5
      injection h5
    subst hcc
    simp [connFor, Store.look, hr, h4]
  unfold Sys.step at hs
  rw [if_neg (by rw [hi.2]; simp)] at hs
  rcases he with ⟨werr, rfl⟩ | ⟨b, bad, werr, rfl⟩
  · simp only [Store.apiQuery] at hs
    cases hr : s.st.devByPhone p with
    | none => rw [hr] at hs; cases hs
    | some r => rw [hr] at hs; exact main r _ _ _ werr hr hs
  · simp only [Store.apiSet] at hs
    cases hr : s.st.devByPhone p with
    | none => rw [hr] at hs; cases hs
    | some r => rw [hr] at hs; exact main r _ _ _ werr hr hs

/-- What holds of C111: of two parameter requests that send on the same connection the later one has the higher number,
by one more than the numbers used up on this connection in between; so the numbers differ unless 65536 were used up.
Missing: everything else that the server sends (C111_replies_copy, C111_collision) and what the simulator sends
(C111_simulator_one). -/
theorem C111_own_partial (env : Env) (evs mid : List Ev) (p p' : Str) (e e' : Ev)
    (he : (∃ werr, e = .httpQuery p werr) ∨ ∃ b bad werr, e = .httpSet p b bad werr)
    (he' : (∃ werr, e' = .httpQuery p' werr) ∨ ∃ b bad werr, e' = .httpSet p' b bad werr) (c : Conn) (f f' : List UInt8)
    (hs : ((Sys.start.run env evs).1.step env e).2.sent = some (c, f))
    (hs' : ((Sys.start.run env (evs ++ e :: mid)).1.step env e').2.sent = some (c, f')) :
    ∃ h h' body body', f = encodeFrame (writeHeader h body) ∧ f' = encodeFrame (writeHeader h' body') ∧
      h'.serial.toNat =
        (h.serial.toNat + 1 + drawsOn env ((Sys.start.run env evs).1.step env e).1 c mid) % 65536 := by
  obtain ⟨d, id, n, body, -, -, hf, hn⟩ := C49_on_the_wire env evs p e he c f hs
  obtain ⟨d', id', n', body', -, -, hf', hn'⟩ := C49_on_the_wire env _ p' e' he' c f' hs'
  refine ⟨_, _, body, body', hf, hf', ?_⟩
  show n'.toNat = (n.toNat + 1 + _) % 65536
  rw [hn', hn, drawsOn_append]
  simp only [drawsOn, sent_drawn env evs p e he c f hs, Option.map_some, if_true]
  omega

/-- A heartbeat with serial number 1, as the simulator sends it. -/
def firstBeat : List UInt8 := msgFrame { hdr2013 0x0002 with serial := 1 } []

/-- Message id and serial number of what was sent, as a decoder of this library reads them. -/
def numbered (o : Obs) : Option (Conn × UInt16 × UInt16) :=
  o.sent.bind fun x => match decodeFrame goEnv x.2 with
    | .ok a => some (x.1, a.header.msgID, a.header.serial)
    | _ => none

/-- Two messages in a row from the server on one connection, with the same serial number: the answer to a heartbeat with
serial number 1, and then the server's own first message, a query of the parameters. -/
theorem C111_collision :
    let r := demoSys.step goEnv (.frame (demoClk 6) demoC firstBeat none)
    let q := r.1.step goEnv (.httpQuery (hdr2013 0).phone none)
    numbered r.2 = some (demoC, 0x8001, 1) ∧ numbered q.2 = some (demoC, 0x8104, 1) := by decide +kernel

/-- Two heartbeats on two connections, answered alike. -/
example : Holds goEnv (demoClk 6).civil demoBeat (hdr2013 0x0002) .m0002 ∧
    (demoSys.st.handleFrame goEnv (demoClk 6) demoC demoBeat).2 = .reply (generalReply (hdr2013 0x0002) 0) ∧
    (demoSys.st.handleFrame goEnv (demoClk 7) demoC' demoBeat).2 = .reply (generalReply (hdr2013 0x0002) 0) :=
  ⟨demoBeat_holds _, by decide +kernel, by decide +kernel⟩

/-- Two queries on one connection, with a heartbeat in between. -/
example : numbered ((Sys.start.run goEnv demoEvs).1.step goEnv (.httpQuery (hdr2013 0).phone none)).2 =
      some (demoC, 0x8104, 1) ∧
    numbered ((Sys.start.run goEnv (demoEvs ++ .httpQuery (hdr2013 0).phone none ::
      [.frame (demoClk 6) demoC firstBeat none])).1.step goEnv (.httpQuery (hdr2013 0).phone none)).2 =
      some (demoC, 0x8104, 2) := by decide +kernel

/-- The heartbeat of a 2013 simulator. -/
example : Starts (genDevice .v2013 [0x31] [0x41] [0x31] [] 1 demoC) (clientBeat (genDevice .v2013 [0x31] [0x41] [0x31] [] 1 demoC)) ∧
    (clientBeat (genDevice .v2013 [0x31] [0x41] [0x31] [] 1 demoC)).2.encodeBody goEnv
      (clientBeat (genDevice .v2013 [0x31] [0x41] [0x31] [] 1 demoC)).1 = .ok [] := ⟨.beat, rfl⟩

end JT808
