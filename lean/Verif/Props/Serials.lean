import Verif.Props.Concurrency
import Verif.Props.Query
import Verif.Props.Groups
import Verif.Props.Reconnect
import Verif.Proof.Groups
/-
C49 over whole histories: the numbers of the messages the server starts on each connection.
-/
namespace JT808
open Spec

/-- The phone of an unfinished fragment of a known kind, which the server acknowledges with a message of its own. -/
def Spec.unfinished (env : Env) (st : Store) (bytes : List UInt8) : Option Str :=
  match (st.decodePacket env bytes).2 with
  | .ok pkt => if (MType.ofID pkt.header.msgID).isSome && (pkt.header.isFragmented && !pkt.segCompleted)
      then some pkt.header.phone else none
  | _ => none

/-- The connection the server keeps for the terminal with phone `p`. -/
def Spec.connFor (st : Store) (p : Str) : Option Conn := (st.look p).bind fun d => st.session d.sessionID

/-- The connection on which an event makes the server use up a serial number: that of the terminal a parameter request
names, or of the terminal an unfinished fragment speaks for. -/
def Spec.drawn (env : Env) (s : Sys) : Ev → Option Conn
  | .httpQuery p _ => connFor s.st p
  | .httpSet p _ _ _ => connFor s.st p
  | .frame _ c bytes _ => if c ∈ s.live then (unfinished env s.st bytes).bind (connFor s.st) else none
  | _ => none

/-- How many numbers were used up on connection `c` in a history. -/
def Spec.drawsOn (env : Env) (s : Sys) (c : Conn) : List Ev → Nat
  | [] => 0
  | e :: es => (if (drawn env s e).map (·.id) = some c.id then 1 else 0) + drawsOn env (s.step env e).1 c es

theorem handleFrame_draws (env : Env) (clk : Clock) (c : Conn) {st : Store} (hi : StoreInv st) (frame : List UInt8) :
    (st.handleFrame env clk c frame).1.serial =
      match (unfinished env st frame).bind (connFor st) with
      | none => st.serial
      | some c' => (st.takeSerial c').1.serial := by
  obtain ⟨sg, hsg⟩ := decodePacket_segs env st frame
  have hi1 : StoreInv { st with segs := sg } := hi.of_same ⟨rfl, rfl, rfl, rfl, rfl⟩ hi.rings hi.params
  unfold Store.handleFrame unfinished
  cases hd : st.decodePacket env frame with
  | mk t r =>
    rw [hd] at hsg; simp only at hsg; subst hsg
    cases r with
    | err e => rfl
    | panic => rfl
    | ok pkt =>
      simp only
      have key : (Store.process env clk c { st with segs := sg } pkt).1.serial =
          match (if (MType.ofID pkt.header.msgID).isSome && (pkt.header.isFragmented && !pkt.segCompleted)
              then some pkt.header.phone else none).bind (connFor st) with
          | none => st.serial
          | some c' => (st.takeSerial c').1.serial := by
        unfold Store.process
        cases MType.ofID pkt.header.msgID with
        | none => rfl
        | some t =>
          simp only [Option.isSome_some, Bool.true_and]
          by_cases hf : (pkt.header.isFragmented && !pkt.segCompleted) = true
          · rw [if_pos hf, if_pos hf]
            unfold Store.processSegment connFor Store.look
            have e1 : Store.devByPhone { st with segs := sg } pkt.header.phone = st.devByPhone pkt.header.phone := rfl
            rw [e1]
            simp only [Option.bind_some]
            cases hr : st.devByPhone pkt.header.phone with
            | none => rfl
            | some r =>
              simp only [Option.map_some, Option.bind_some]
              have e2 : Store.session { st with segs := sg } (st.heap r).sessionID = st.session (st.heap r).sessionID := rfl
              rw [e2]
              cases hs : st.session (st.heap r).sessionID with
              | none => rfl
              | some c' => rfl
          · rw [if_neg hf, if_neg hf]
            cases t.decode env clk.civil pkt.header pkt.body 0 with
            | err e => rfl
            | panic => rfl
            | ok x => exact handle_serial env clk c hi1 _ _
      revert key
      generalize Store.process env clk c { st with segs := sg } pkt = A
      obtain ⟨A1, A2⟩ := A
      intro key
      cases A2 with
      | err e => exact key
      | panic => exact key
      | ok o =>
        cases o with
        | none => exact key
        | some o => simp only; cases Out.encode env o <;> exact key

theorem serveFrame_draws (env : Env) (clk : Clock) (c : Conn) (werr : Option Err) {st : Store} (hi : StoreInv st)
    (frame : List UInt8) :
    (st.serveFrame env clk c werr frame).1.serial =
      match (unfinished env st frame).bind (connFor st) with
      | none => st.serial
      | some c' => (st.takeSerial c').1.serial := by
  rw [← handleFrame_draws env clk c hi frame]
  unfold Store.serveFrame
  cases st.handleFrame env clk c frame with
  | mk t o =>
    cases o with
    | silent => rfl
    | panicked => rfl
    | failed e => simp only; split <;> rfl
    | reply f =>
      cases werr with
      | none => rfl
      | some e => simp only; split <;> rfl

theorem serverSend_serial (env : Env) (werr : Option Err) (st : Store) (id : Str) (o : Out) :
    (st.serverSend env werr id o).1.serial = st.serial := by
  unfold Store.serverSend
  cases st.session id with
  | none => rfl
  | some c =>
    simp only
    cases Out.encode env o with
    | panic => rfl
    | err e => rfl
    | ok f =>
      cases werr with
      | none => rfl
      | some e => cases e <;> rfl

theorem apiSend_draws (env : Env) (werr : Option Err) (st : Store) (r : Ref) (code : Option Nat) (id : UInt16) (m : Msg) :
    (st.apiSend env werr r code id m).1.serial =
      match st.session (st.heap r).sessionID with
      | none => st.serial
      | some c' => (st.takeSerial c').1.serial := by
  unfold Store.apiSend
  simp only
  cases st.session (st.heap r).sessionID with
  | none => rfl
  | some c =>
    simp only
    have := serverSend_serial env werr (st.takeSerial c).1 c.addr
      (genMsgHeader (st.heap r).phone (st.heap r).ver (st.heap r).protoVer id (st.takeSerial c).2, m)
    revert this
    generalize (st.takeSerial c).1.serverSend env werr c.addr _ = A
    obtain ⟨A1, A2⟩ := A
    intro this
    cases A2 <;> exact this

theorem step_draws (env : Env) (s : Sys) (e : Ev) (hi : StoreInv s.st) (hc : s.crashed = false) :
    (s.step env e).1.st.serial =
      match drawn env s e with
      | none => s.st.serial
      | some c => (s.st.takeSerial c).1.serial := by
  unfold Sys.step
  rw [if_neg (by rw [hc]; simp)]
  cases e with
  | accept a => rfl
  | frame clk c bytes werr =>
    simp only [drawn]
    by_cases hl : c ∈ s.live
    · rw [if_pos hl, if_pos hl]; exact serveFrame_draws env clk c werr hi bytes
    · rw [if_neg hl, if_neg hl]
  | readErr c e =>
    simp only [drawn]
    split
    · unfold Store.serveErr; split <;> rfl
    · rfl
  | check clk p =>
    simp only [drawn]
    split
    · exact check_serial clk s.st p
    · rfl
  | httpList => rfl
  | httpGeo p =>
    exact apiGeo_serial s.st p
  | httpQuery p werr =>
    simp only [drawn, connFor, Store.look, Store.apiQuery]
    cases s.st.devByPhone p with
    | none => rfl
    | some r => exact apiSend_draws _ _ _ _ _ _ _
  | httpSet p b bad werr =>
    simp only [drawn, connFor, Store.look, Store.apiSet]
    cases s.st.devByPhone p with
    | none => rfl
    | some r => exact apiSend_draws _ _ _ _ _ _ _

theorem drawsOn_append (env : Env) (c : Conn) (es es' : List Ev) (s : Sys) :
    drawsOn env s c (es ++ es') = drawsOn env s c es + drawsOn env (s.run env es).1 c es' := by
  induction es generalizing s with
  | nil => simp [drawsOn, Sys.run]
  | cons e es ih => simp only [List.cons_append, drawsOn, ih, Sys.run]; omega

/-- Every connection has its own numbers: after any history the counter of a connection has advanced once for each
event that used up a number on that connection, and for nothing else. -/
theorem C49_counts (env : Env) (evs : List Ev) (c : Conn) :
    ((Sys.start.run env evs).1.st.serial c.id).toNat = drawsOn env Sys.start c evs % 65536 := by
  have : (Sys.start.run env evs).1.st.serial c.id = serialAfter (drawsOn env Sys.start c evs) := by
    induction evs using snoc_ind with
    | h0 => rfl
    | h1 evs e ih =>
      have hi := reachable_inv env evs
      rw [run_snoc, step_draws env _ e hi.1 hi.2, drawsOn_append]
      simp only [drawsOn, Nat.add_zero]
      cases hd : drawn env (Sys.start.run env evs).1 e with
      | none => simpa using ih
      | some c' =>
        simp only [Option.map_some, Option.some.injEq, Store.takeSerial]
        by_cases hc : c'.id = c.id
        · rw [if_pos hc, if_pos hc.symm, hc, ih]; rfl
        · rw [if_neg hc, if_neg (fun h => hc h.symm)]; exact ih
  rw [this, serialAfter_toNat]

theorem apiSend_number {env : Env} {werr : Option Err} {st : Store} {r : Ref} {code : Option Nat} {id : UInt16} {m : Msg}
    {c c' : Conn} {f : List UInt8} (hs : (st.apiSend env werr r code id m).2.sent = some (c', f))
    (hc : st.session (st.heap r).sessionID = some c) :
    ∃ body, f = encodeFrame (writeHeader (genMsgHeader (st.heap r).phone (st.heap r).ver (st.heap r).protoVer id
      (nextSerial (st.serial c.id)).2) body) := by
  unfold Store.apiSend at hs
  simp only [hc] at hs
  have h2 : (st.takeSerial c).2 = (nextSerial (st.serial c.id)).2 := rfl
  rw [h2] at hs
  unfold Store.serverSend at hs
  cases hx : (st.takeSerial c).1.session c.addr with
  | none => rw [hx] at hs; cases hs
  | some c1 =>
    simp only [hx] at hs
    unfold Out.encode at hs
    cases hb : m.encodeBody env (genMsgHeader (st.heap r).phone (st.heap r).ver (st.heap r).protoVer id
        (nextSerial (st.serial c.id)).2) with
    | panic => simp only [hb] at hs; cases hs
    | err e => simp only [hb] at hs; cases hs
    | ok body =>
      simp only [hb] at hs
      cases werr with
      | none =>
        simp only [Option.some.injEq, Prod.mk.injEq] at hs
        exact ⟨body, hs.2.symm⟩
      | some e => cases e <;> cases hs

/-- The `k`-th number of a connection is on the message it was used for: a parameter request that sends a frame to a
connection puts on it the number of numbers used on this connection so far plus one, modulo 65536, whatever happened on
other connections. -/
theorem C49_on_the_wire (env : Env) (evs : List Ev) (p : Str) (e : Ev)
    (he : (∃ werr, e = .httpQuery p werr) ∨ ∃ b bad werr, e = .httpSet p b bad werr) (c : Conn) (f : List UInt8)
    (hs : ((Sys.start.run env evs).1.step env e).2.sent = some (c, f)) :
    ∃ d id n body, (Sys.start.run env evs).1.st.look p = some d ∧ (id = 0x8104 ∨ id = 0x8103) ∧
      f = encodeFrame (writeHeader (genMsgHeader d.phone d.ver d.protoVer id n) body) ∧
      n.toNat = (drawsOn env Sys.start c evs + 1) % 65536 := by
  have hi := reachable_inv env evs
  have hse := reachable_sess env evs
  have hct := C49_counts env evs c
  generalize (Sys.start.run env evs).1 = s at *
  have main : ∀ (r : Ref) (code : Option Nat) (id : UInt16) (m : Msg) (werr : Option Err),
      s.st.devByPhone p = some r → (id = 0x8104 ∨ id = 0x8103) →
      (s.st.apiSend env werr r code id m).2.sent = some (c, f) →
      ∃ d id n body, s.st.look p = some d ∧ (id = 0x8104 ∨ id = 0x8103) ∧
        f = encodeFrame (writeHeader (genMsgHeader d.phone d.ver d.protoVer id n) body) ∧
        n.toNat = (drawsOn env Sys.start c evs + 1) % 65536 := by
    intro r code id m werr hr hid hx
    obtain ⟨c1, h4, h5⟩ := apiSend_found hx
    have hcc : c1 = c := by
      have := (hse.served _ _ h4).2
      rw [this] at h5
      rw [h4] at h5
      injection h5
    subst hcc
    obtain ⟨body, hf⟩ := apiSend_number hx h4
    refine ⟨s.st.heap r, id, _, body, by simp [Store.look, hr], hid, hf, ?_⟩
    rw [(nextSerial_toNat (by rw [hct]; omega)).2, hct]
    omega
  unfold Sys.step at hs
  rw [if_neg (by rw [hi.2]; simp)] at hs
  rcases he with ⟨werr, rfl⟩ | ⟨b, bad, werr, rfl⟩
  · simp only [Store.apiQuery] at hs
    cases hr : s.st.devByPhone p with
    | none => rw [hr] at hs; cases hs
    | some r => rw [hr] at hs; exact main r _ _ _ werr hr (.inl rfl) hs
  · simp only [Store.apiSet] at hs
    cases hr : s.st.devByPhone p with
    | none => rw [hr] at hs; cases hs
    | some r => rw [hr] at hs; exact main r _ _ _ werr hr (.inr rfl) hs

/-- Two terminals on two connections; the first is asked twice, the second time the write fails. -/
def askedEvs : List Ev := demoEvs ++ [.frame (demoClk 1100) demoC' otherReg none,
  .httpQuery (hdr2013 0).phone none, .httpQuery (hdr2013 0).phone (some .io)]

example : drawsOn goEnv Sys.start demoC askedEvs = 2 ∧ drawsOn goEnv Sys.start demoC' askedEvs = 0 := by
  constructor <;> decide +kernel
-- the next message on the first connection has number 3, on the second number 1
example : ((Sys.start.run goEnv askedEvs).1.step goEnv (.httpQuery (hdr2013 0).phone none)).2.sent =
      some (demoC, encodeFrame (writeHeader (genMsgHeader (hdr2013 0).phone .v2013 0 0x8104 3) [])) ∧
    ((Sys.start.run goEnv askedEvs).1.step goEnv (.httpQuery (otherHdr 0).phone none)).2.sent =
      some (demoC', encodeFrame (writeHeader (genMsgHeader (otherHdr 0).phone .v2013 0 0x8104 1) [])) := by
  constructor <;> decide +kernel

end JT808
