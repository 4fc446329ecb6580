import Verif.Proof.Errors
import Verif.Props.Fragments
/-
C94: which received frames end a receive loop, on the server and in the simulator.
-/
namespace JT808
open Spec

/-- `frame` is a fragment of a message the server knows that does not complete the message. -/
def Spec.Unfinished (env : Env) (st : Store) (frame : List UInt8) (h : Header) : Prop :=
  ∃ st1 pkt, st.decodePacket env frame = (st1, .ok pkt) ∧ pkt.header = h ∧ (MType.ofID h.msgID).isSome ∧
    (h.isFragmented && !pkt.segCompleted) = true

theorem decodePacket_look {env : Env} {st st1 : Store} {frame : List UInt8} {r : Res Packet}
    (e : st.decodePacket env frame = (st1, r)) (p : Str) : st1.look p = st.look p := by
  obtain ⟨s, hs⟩ := decodePacket_segs env st frame
  rw [e] at hs
  simp only at hs
  subst hs; rfl

/-- The errors of one pass that end a loop. -/
theorem failed_exact (env : Env) (clk : Clock) (c : Conn) (st : Store) (frame : List UInt8) (e : Err)
    (he : e.ends = true) :
    (st.handleFrame env clk c frame).2 = .failed e ↔
      (e = .deviceNotFound ∧ ((∃ h m, Delivers env clk.civil st frame h m ∧ Spec.ForRegistered m = true ∧ st.look h.phone = none) ∨
        (∃ h, Spec.Unfinished env st frame h ∧ st.look h.phone = none))) ∨
      (e = .activeClose ∧ ∃ h m, Delivers env clk.civil st frame h m ∧ Spec.ForKnown m = true ∧ st.look h.phone = none) := by
  unfold Store.handleFrame
  split
  · next st1 e' h1 =>
    have := decodePacket_mild h1
    constructor
    · intro h; cases h; rw [this] at he; cases he
    · rintro (⟨-, ⟨h, m, ⟨_, _, _, _, d, -⟩, -⟩ | ⟨h, ⟨_, _, d, -⟩, -⟩⟩ | ⟨-, h, m, ⟨_, _, _, _, d, -⟩, -⟩) <;>
        (rw [h1] at d; cases d)
  · next st1 h1 =>
    constructor
    · intro h; cases h
    · rintro (⟨-, ⟨h, m, ⟨_, _, _, _, d, -⟩, -⟩ | ⟨h, ⟨_, _, d, -⟩, -⟩⟩ | ⟨-, h, m, ⟨_, _, _, _, d, -⟩, -⟩) <;>
        (rw [h1] at d; cases d)
  · next st1 pkt h1 =>
    have hl := decodePacket_look h1
    -- what the two sides say about the packet
    have right : ((e = .deviceNotFound ∧ ((∃ h m, Delivers env clk.civil st frame h m ∧ Spec.ForRegistered m = true ∧ st.look h.phone = none) ∨
        (∃ h, Spec.Unfinished env st frame h ∧ st.look h.phone = none))) ∨
        (e = .activeClose ∧ ∃ h m, Delivers env clk.civil st frame h m ∧ Spec.ForKnown m = true ∧ st.look h.phone = none)) ↔
        (st1.process env clk c pkt).2 = .err e := by
      unfold Store.process
      cases ht : MType.ofID pkt.header.msgID with
      | none =>
        constructor
        · rintro (⟨-, ⟨h, m, ⟨_, _, _, _, d, d2, d3, -⟩, -⟩ | ⟨h, ⟨_, _, d, d2, d3, -⟩, -⟩⟩ | ⟨-, h, m, ⟨_, _, _, _, d, d2, d3, -⟩, -⟩) <;>
            (rw [h1] at d; cases d; rw [← d2, ht] at d3; cases d3)
        · intro h; cases h; cases he
      | some t =>
        simp only
        by_cases hf : (pkt.header.isFragmented && !pkt.segCompleted) = true
        · rw [if_pos hf]
          have nod : ∀ h m, ¬ Delivers env clk.civil st frame h m := by
            rintro h m ⟨_, _, _, _, d, d2, d3, d4, -⟩
            rw [h1] at d; cases d; subst d2
            rw [hf] at d4; cases d4
          constructor
          · rintro (⟨e1, ⟨h, m, d, -⟩ | ⟨h, ⟨_, _, d, d2, -⟩, d3⟩⟩ | ⟨-, h, m, d, -⟩)
            · exact absurd d (nod _ _)
            · rw [h1] at d; cases d; subst d2
              have hn : st1.devByPhone pkt.header.phone = none := Store.look_none.1 (by rw [hl]; exact d3)
              unfold Store.processSegment
              rw [hn, e1]
            · exact absurd d (nod _ _)
          · intro hs
            unfold Store.processSegment at hs
            split at hs
            · next hn =>
              cases hs
              refine .inl ⟨rfl, .inr ⟨_, ⟨_, _, h1, rfl, by rw [ht]; rfl, hf⟩, ?_⟩⟩
              rw [← hl]; exact Store.look_none.2 hn
            · simp only at hs
              split at hs <;> cases hs
        · rw [if_neg hf]
          have hf' : (pkt.header.isFragmented && !pkt.segCompleted) = false := by simpa using hf
          have nou : ∀ h, ¬ Spec.Unfinished env st frame h := by
            rintro h ⟨_, _, d, d2, -, d4⟩
            rw [h1] at d; cases d; subst d2
            exact hf d4
          cases hd : t.decode env clk.civil pkt.header pkt.body 0 with
          | ok a =>
            obtain ⟨m, j⟩ := a
            simp only
            have hdel : Delivers env clk.civil st frame pkt.header m := ⟨_, _, _, _, h1, rfl, ht, hf', hd⟩
            constructor
            · rintro (⟨e1, ⟨h, m', d, d2, d3⟩ | ⟨h, d, -⟩⟩ | ⟨e1, h, m', d, d2, d3⟩)
              · obtain ⟨rfl, rfl⟩ := hdel.unique d
                rw [e1, (handle_unknown (by rw [hl]; exact d3)).1 d2]
              · exact absurd d (nou _)
              · obtain ⟨rfl, rfl⟩ := hdel.unique d
                rw [e1, (handle_unknown (by rw [hl]; exact d3)).2 d2]
            · intro h
              obtain ⟨h2, ⟨h3, h4⟩ | ⟨h3, h4⟩⟩ := handle_err h he
              · exact .inl ⟨h4, .inl ⟨_, _, hdel, h3, by rw [← hl]; exact h2⟩⟩
              · exact .inr ⟨h4, _, _, hdel, h3, by rw [← hl]; exact h2⟩
          | err e' =>
            simp only
            constructor
            · rintro (⟨e1, ⟨h, m', ⟨_, _, _, _, d, d2, d3, d4, d5⟩, -⟩ | ⟨h, d, -⟩⟩ | ⟨e1, h, m', ⟨_, _, _, _, d, d2, d3, d4, d5⟩, -⟩)
              · rw [h1] at d; cases d; subst d2; rw [ht] at d3; cases d3; rw [hd] at d5; cases d5
              · exact absurd d (nou _)
              · rw [h1] at d; cases d; subst d2; rw [ht] at d3; cases d3; rw [hd] at d5; cases d5
            · intro h; cases h
              have := Rd.Mild.msg env clk.civil pkt.header t _ _ _ hd
              rw [this] at he; cases he
          | panic =>
            simp only
            constructor
            · rintro (⟨e1, ⟨h, m', ⟨_, _, _, _, d, d2, d3, d4, d5⟩, -⟩ | ⟨h, d, -⟩⟩ | ⟨e1, h, m', ⟨_, _, _, _, d, d2, d3, d4, d5⟩, -⟩)
              · rw [h1] at d; cases d; subst d2; rw [ht] at d3; cases d3; rw [hd] at d5; cases d5
              · exact absurd d (nou _)
              · rw [h1] at d; cases d; subst d2; rw [ht] at d3; cases d3; rw [hd] at d5; cases d5
            · intro h; cases h
    rw [right]
    constructor
    · intro h
      split at h
      · next h' => cases h; rw [h']
      · cases h
      · cases h
      · split at h
        · cases h
        · next h' => exact absurd h' Out.encode_mild
        · cases h
    · intro h
      split
      · next h' => rw [h'] at h; cases h; rfl
      · next h' => rw [h'] at h; cases h
      · next h' => rw [h'] at h; cases h
      · next h' => rw [h'] at h; cases h

/-- A received frame whose answer can be written ends the loop of the server exactly when it makes the server panic,
or is a heartbeat, deregistration, authentication, location report or unfinished fragment of a phone that is not
registered. -/
theorem C94_server_exact (env : Env) (clk : Clock) (c : Conn) (st : Store) (frame : List UInt8) :
    (st.serveFrame env clk c none frame).2.ended = true ↔
      (st.handleFrame env clk c frame).2 = .panicked ∨
      (∃ h m, Delivers env clk.civil st frame h m ∧ Spec.ForRegistered m = true ∧ st.look h.phone = none) ∨
      (∃ h, Spec.Unfinished env st frame h ∧ st.look h.phone = none) := by
  have key := failed_exact env clk c st frame .deviceNotFound rfl
  have k1 := failed_exact env clk c st frame .eof rfl
  have k2 := failed_exact env clk c st frame .closed rfl
  simp only [reduceCtorEq, false_and, or_false, iff_false, true_and] at key k1 k2
  unfold Store.serveFrame
  rcases hh : st.handleFrame env clk c frame with ⟨st', o⟩
  rw [hh] at key k1 k2
  cases o with
  | silent => simp only [reduceCtorEq, false_iff] at key ⊢; simpa using key
  | reply f => simp only [reduceCtorEq, false_iff] at key ⊢; simpa using key
  | panicked => simp
  | failed e =>
    simp only [reduceCtorEq, false_or, Outcome.failed.injEq] at key k1 k2 ⊢
    rw [← key]
    cases e <;> simp_all [Err.endsServe]

-- a heartbeat of an unknown phone ends the loop; a registration and a positive general reply of the same phone do not
example : (Store.empty.serveFrame goEnv (demoClk 5) demoC none demoBeat).2.ended = true :=
  (C94_server_exact _ _ _ _ _).2 (.inr (.inl ⟨_, _, (demoBeat_holds _).delivers _, rfl, rfl⟩))
example : (Store.empty.serveFrame goEnv (demoClk 5) demoC none demoReg).2.ended = false ∧
    (Store.empty.serveFrame goEnv (demoClk 5) demoC none (demoAck 0)).2.ended = false := by decide +kernel
/-- Fragment `i` of three of a registration. -/
def demoFrag (i : UInt16) : List UInt8 :=
  msgFrame { (hdr2013 0x0100) with attr := Attr.decode 0x2003, frag := some ⟨3, i⟩ } [1, 2, 3]
-- so does the second of three fragments of an unknown phone, after the first has made the server panic
example : Spec.Unfinished goEnv (Store.empty.handleFrame goEnv (demoClk 5) demoC (demoFrag 1)).1 (demoFrag 2)
    { (hdr2013 0x0100) with attr := Attr.decode 0x2003, frag := some ⟨3, 2⟩ } := ⟨_, _, rfl, rfl, rfl, rfl⟩
example : (Store.empty.handleFrame goEnv (demoClk 5) demoC (demoFrag 1)).2 = .panicked ∧
    ((Store.empty.handleFrame goEnv (demoClk 5) demoC (demoFrag 1)).1.serveFrame goEnv (demoClk 5) demoC none
      (demoFrag 2)).2.ended = true := by decide +kernel

/-- A received frame ends the loop of the simulator exactly when it makes it panic, or is a positive general reply or a
registration reply for a phone the simulator does not have. -/
theorem C94_client_exact (env : Env) (clk : Clock) (p : Pair) (f : List UInt8) (rest : List (List UInt8))
    (hd : p.down = f :: rest) (hs : p.stopped = false) :
    (p.step env (.clientReads clk)).stopped = true ↔
      (p.client.handleFrame env clk p.cc f).2 = .panicked ∨
      (∃ h m, Delivers env clk.civil p.client f h m ∧ Spec.ForKnown m = true ∧ p.client.look h.phone = none) := by
  have key := failed_exact env clk p.cc p.client f .activeClose rfl
  have k1 := failed_exact env clk p.cc p.client f .eof rfl
  have k2 := failed_exact env clk p.cc p.client f .closed rfl
  simp only [reduceCtorEq, false_and, or_false, false_or, iff_false, true_and] at key k1 k2
  simp only [Pair.step, hs, hd]
  rcases hh : p.client.handleFrame env clk p.cc f with ⟨st', o⟩
  rw [hh] at key k1 k2
  cases o with
  | silent => simp only [reduceCtorEq, false_iff] at key ⊢; simpa [hs] using key
  | reply f => simp only [reduceCtorEq, false_iff] at key ⊢; simpa [hs] using key
  | panicked => simp
  | failed e =>
    simp only [reduceCtorEq, false_or, Outcome.failed.injEq] at key k1 k2 ⊢
    rw [← key]
    cases e <;> simp_all [Err.endsClient]

/-- A simulator that has not registered its device, with `f` on the way to it. -/
def emptySim (f : List UInt8) : Pair := ⟨Sys.start, demoC, Store.empty, demoC', [], [], [f], false, false, 0, 0⟩

-- a positive general reply for a phone it does not have stops the simulator; a negative one, or a heartbeat, does not
example : ((emptySim (demoAck 0)).step goEnv (.clientReads (demoClk 5))).stopped = true ∧
    ((emptySim (demoAck 1)).step goEnv (.clientReads (demoClk 5))).stopped = false ∧
    ((emptySim demoBeat).step goEnv (.clientReads (demoClk 5))).stopped = false := by decide +kernel

/-- Nothing else ends the loops: in particular the answers themselves can always be encoded. -/
theorem C94_encoding_never_fails (env : Env) (clk : Clock) (c : Conn) (st : Store) (frame : List UInt8) (o : Out) (e : Err) :
    Out.encode env o ≠ .err e ∧ (st.handleFrame env clk c frame).2 ≠ .failed .eof ∧
    (st.handleFrame env clk c frame).2 ≠ .failed .closed := by
  refine ⟨Out.encode_mild, ?_, ?_⟩
  · have k := failed_exact env clk c st frame .eof rfl
    simpa using k
  · have k := failed_exact env clk c st frame .closed rfl
    simpa using k

end JT808
