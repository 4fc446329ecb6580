import Verif.Props.Conversation
/-
C89: a simulator whose registration is refused.
-/
namespace JT808
open Spec

/-- A simulator whose registration the server can read. -/
structure Spec.Proper (env : Env) (v : Ver) (id plate phone imei : Str) : Prop where
  okId : ∀ c ∈ id, c ≠ 0
  okPlate : ∃ g, env.gbkEnc plate = some g ∧ env.gbkDec g = some plate ∧ g.length ≤ 947 ∧ (v ≠ .v2019 → g ≠ [])
  digits : ∀ c ∈ phone, bcdChar c
  len : phone.length ≤ if v = .v2019 then 20 else 12
  okImei : imei.length ≤ 15

/-- The code of a registered terminal is never the text a refusal carries. -/
theorem code_ne_placeholder (d : Device) : placeholderCode ≠ d.code := by
  intro hx
  have := decimal_digits (fnv32 (d.id ++ 0x5f :: d.plate ++ 0x5f :: d.phone)).toNat 0x41 (by
    have : placeholderCode = decimal (fnv32 (d.id ++ 0x5f :: d.plate ++ 0x5f :: d.phone)).toNat := hx
    rw [← this]; decide)
  exact absurd this.2 (by decide)

/-- The first two frames of a refused simulator: the server changes nothing, the simulator answers with the text of the
refusal as its code. -/
theorem refused_start {env : Env} {s : Sys} (hs : ∃ evs, s = (Sys.start.run env evs).1) {v : Ver}
    {id plate phone imei : Str} (hp : Spec.Proper env v id plate phone imei) (addr : Str) (client : Store) (cc : Conn)
    (keepalive : Nat) (province city : UInt16) (color : UInt8) (k1 k2 : Clock)
    (hno : (s.st.lookPlate plate).isSome ∨ (s.st.look (fillDevicePhone phone (if v = .v2019 then 20 else 12))).isSome) :
    ∃ h3 a auth p, p = (Pair.start env s addr client cc (genDevice v id plate phone imei keepalive cc) province city color).run
        env [.serverReads k1, .clientReads k2] ∧
      p.server = (s.step env (.accept addr)).1 ∧ p.sc = ⟨s.accepted, addr⟩ ∧ p.up = [auth] ∧ p.down = [] ∧
      p.client = client.buildDevice (genDevice v id plate phone imei keepalive cc) ∧ p.began = false ∧ p.stopped = false ∧
      p.phone = fillDevicePhone phone (if v = .v2019 then 20 else 12) ∧
      (∀ now, Holds env now auth h3 (.m0102 a)) ∧ h3.WF ∧ h3.phone = fillDevicePhone phone (if v = .v2019 then 20 else 12) ∧
      a.code = placeholderCode := by
  obtain ⟨g, g1, g2, g3, g4⟩ := hp.okPlate
  obtain ⟨f, h, m, e1, e2, e3, e4, e5⟩ := register_holds env v cc id plate phone imei g keepalive province city color hp.okId
    g1 g2 g4 g3 hp.digits hp.len
  obtain ⟨evs, he⟩ := hs
  have hi := reachable_inv env evs
  rw [← he] at hi
  have hb := buildDevice_get client (genDevice v id plate phone imei keepalive cc)
  have hstep : (s.step env (.accept addr)).1 =
      { s with st := s.st.storeSession ⟨s.accepted, addr⟩, live := ⟨s.accepted, addr⟩ :: s.live, accepted := s.accepted + 1 } := by
    simp only [Sys.step, hi.2]; rfl
  generalize hs1 : (s.step env (.accept addr)).1 = s1 at hstep ⊢
  have hph : h.phone = fillDevicePhone phone (if v = .v2019 then 20 else 12) := e4
  have hl1 : ∀ q, s1.st.look q = s.st.look q := by intro q; rw [hstep]; rfl
  have hl2 : ∀ q, s1.st.lookPlate q = s.st.lookPlate q := by intro q; rw [hstep]; rfl
  -- the refusal
  have href : ∃ k : UInt8, s1.st.handleFrame env k1 ⟨s.accepted, addr⟩ f =
      (s1.st, .reply (registerReply h k.toNat placeholderCode)) := by
    by_cases hpl : (s1.st.lookPlate m.plate).isSome
    · exact ⟨1, C32_plate_taken env k1 _ s1.st f h m (e2 _) hpl⟩
    · refine ⟨3, C32_phone_taken env k1 _ s1.st f h m (e2 _) (by simpa using hpl) ?_⟩
      rw [e5, hl2] at hpl
      rw [hl1, hph]
      rcases hno with h1 | h1
      · exact absurd h1 hpl
      · exact h1
  obtain ⟨k, href⟩ := href
  obtain ⟨h3, a, auth, a1, a2, a3, a4, a5, -⟩ := client_answers_any env k2 cc
    (client.buildDevice (genDevice v id plate phone imei keepalive cc)) h e3 (holds_unfrag (e2 k1.civil)) k placeholderCode
    (by decide) client.next (by rw [e4]; exact hb.1) (by rw [hb.2]; exact hp.okImei) (by rw [hb.2]; exact clientSoftware_fits)
  have hlive : (⟨s.accepted, addr⟩ : Conn) ∈ s1.live := by rw [hstep]; exact List.mem_cons_self
  have hcr : s1.crashed = false := by rw [hstep]; exact hi.2
  refine ⟨h3, a, auth, _, rfl, ?_⟩
  have hrun : (Pair.start env s addr client cc (genDevice v id plate phone imei keepalive cc) province city color).run env
      [.serverReads k1, .clientReads k2] =
      ⟨s1, ⟨s.accepted, addr⟩, client.buildDevice (genDevice v id plate phone imei keepalive cc), cc,
        (genDevice v id plate phone imei keepalive cc).phone, [auth], [], false, false, 2, 1⟩ := by
    unfold Pair.start Pair.put
    simp only [e1, List.nil_append, hs1]
    simp only [Pair.run, List.foldl_cons, List.foldl_nil]
    have s1' : Pair.step env ⟨s1, ⟨s.accepted, addr⟩, client.buildDevice (genDevice v id plate phone imei keepalive cc), cc,
        (genDevice v id plate phone imei keepalive cc).phone, [f], [], false, false, 0 + 1, 0⟩ (.serverReads k1) =
        ⟨s1, ⟨s.accepted, addr⟩, client.buildDevice (genDevice v id plate phone imei keepalive cc), cc,
        (genDevice v id plate phone imei keepalive cc).phone, [], [registerReply h k.toNat placeholderCode], false, false,
        0 + 1, 0⟩ := by
      simp only [Pair.step, step_reply hcr hlive href, Pair.sentDown, if_true, List.nil_append]
    rw [s1']
    simp only [Pair.step, a1]
    rfl
  rw [hrun]
  exact ⟨rfl, rfl, rfl, rfl, rfl, rfl, rfl, rfl, a2, a3, by rw [a4]; exact hph, a5⟩

/-- The opposite of C89: a simulator with the phone of a registered terminal is refused, answers with the text of the
refusal as its code, and thereby removes the registered terminal; nobody has the phone then, and the simulator never
begins. -/
theorem C89_evicts (env : Env) (s : Sys) (hs : ∃ evs, s = (Sys.start.run env evs).1) (v : Ver)
    (id plate phone imei : Str) (hp : Spec.Proper env v id plate phone imei) (addr : Str) (client : Store) (cc : Conn)
    (keepalive : Nat) (province city : UInt16) (color : UInt8) (k1 k2 k3 k4 : Clock) (d : Device)
    (hd : s.st.look (fillDevicePhone phone (if v = .v2019 then 20 else 12)) = some d) :
    let p := (Pair.start env s addr client cc (genDevice v id plate phone imei keepalive cc) province city color).run env
      [.serverReads k1, .clientReads k2, .serverReads k3, .clientReads k4, .notice]
    p.server.st.look (fillDevicePhone phone (if v = .v2019 then 20 else 12)) = none ∧
    p.server.st.lookPlate d.plate = none ∧ p.up = [] ∧ p.down = [] ∧ p.began = false ∧
    (p.client.look (fillDevicePhone phone (if v = .v2019 then 20 else 12))).map (·.status) = some .offline := by
  obtain ⟨h3, a, auth, q, hq, q1, q2, q3, q4, q5, q6, q7, q8, hh, hw, hph, hcode⟩ :=
    refused_start hs hp addr client cc keepalive province city color k1 k2 (.inr (by rw [hd]; rfl))
  obtain ⟨evs, he⟩ := hs
  have hi := reachable_inv env evs
  rw [← he] at hi
  have hstep : (s.step env (.accept addr)).1 =
      { s with st := s.st.storeSession ⟨s.accepted, addr⟩, live := ⟨s.accepted, addr⟩ :: s.live, accepted := s.accepted + 1 } := by
    simp only [Sys.step, hi.2]; rfl
  have hb := buildDevice_get client (genDevice v id plate phone imei keepalive cc)
  have hr : Reachable env q.server.st := by
    refine ⟨evs ++ [.accept addr], ?_⟩
    rw [run_snoc, ← he, q1]
  have hl : q.server.st.look h3.phone = some d := by rw [q1, hph, hstep]; exact hd
  have hlive : q.sc ∈ q.server.live := by rw [q1, q2, hstep]; exact List.mem_cons_self
  have hcr : q.server.crashed = false := by rw [q1, hstep]; exact hi.2
  obtain ⟨rr, hg, hgd⟩ := Store.look_some.1 hl
  obtain ⟨st', w1, w2, w3⟩ : ∃ st', q.server.st.handleFrame env k3 q.sc auth = (st', .reply (generalReply h3 1)) ∧
      st'.look h3.phone = none ∧ st'.lookPlate d.plate = none := by
    refine ⟨(q.server.st.cancelJob h3.phone).delByPhone h3.phone, ?_, by rw [look_drop hr.inv hg, if_pos rfl],
      by rw [lookPlate_drop hr.inv hg, hgd, if_pos rfl]⟩
    rw [(hh k3.civil).handle]
    simp only [Store.handle, process0102, Store.devByPhone, hg]
    rw [if_pos (by rw [hcode]; exact code_ne_placeholder _), (hr.inv.phoneOK _ _ hg).2.1]
    exact finish_gen8001 env _ h3 1
  -- the simulator reads the refusal
  have w4 : Header.WF { h3 with msgID := 0x8001 } := ⟨hw.attr, hw.phone, hw.pv, hw.frag⟩
  have c4 := C19_general_reply env _ w4 ⟨h3.serial, h3.msgID, 1⟩
  have hnf : h3.isFragmented = false := holds_unfrag (hh k3.civil)
  have hold4 := c4.holds k4.civil hnf .t8001 .m8001 rfl (fun _ => rfl)
  have key : q.client.handleFrame env k4 q.cc (generalReply h3 1) = (q.client, .silent) := by
    rw [generalReply, answer, ← (by rfl : (1 : UInt8).toNat = 1), ← ackEncode, hold4.handle]
    simp only [Store.handle, process8001]
    rfl
  have hoff : (q.client.look q.phone).map (·.status) = some .offline := by
    have : q.client.byPhone.get q.phone = some client.next := by rw [q5, q8]; exact hb.1
    simp only [Store.look, Store.devByPhone, this, Option.map_some]
    rw [q5, hb.2]; rfl
  have hrun : q.run env [.serverReads k3, .clientReads k4, .notice] =
      { q with server := { q.server with st := st' }, up := [], down := [], got := q.got + 1 } := by
    have r1 : q.step env (.serverReads k3) =
        { q with server := { q.server with st := st' }, up := [], down := [generalReply h3 1] } := by
      simp only [Pair.step, q3, step_reply hcr hlive w1, Pair.sentDown, if_true, q4, List.nil_append]
    simp only [Pair.run, List.foldl_cons, List.foldl_nil]
    rw [r1]
    have r2 : Pair.step env { q with server := { q.server with st := st' }, up := [], down := [generalReply h3 1] }
        (.clientReads k4) = { q with server := { q.server with st := st' }, up := [], down := [], got := q.got + 1 } := by
      simp only [Pair.step, q7, key]; rfl
    rw [r2]
    simp only [Store.look, Option.map_map] at hoff
    simp only [Pair.step]
    cases hx : q.client.devByPhone q.phone with
    | none => rfl
    | some r =>
      rw [hx] at hoff
      have hst : (q.client.heap r).status = .offline := Option.some.inj hoff
      simp only [hst]; rfl
  intro p
  have hpe : p = q.run env [.serverReads k3, .clientReads k4, .notice] := by rw [hq]; rfl
  rw [hpe, hrun]
  refine ⟨by rw [← hph]; exact w2, w3, rfl, rfl, q6, ?_⟩
  rw [← q8]; exact hoff

/-- What holds of C89: if only the plate is taken, the registered terminals are left as they are, and the simulator's
connection is closed.  Missing: the phone being taken (C89_evicts). -/
theorem C89_plate_taken_partial (env : Env) (s : Sys) (hs : ∃ evs, s = (Sys.start.run env evs).1) (v : Ver)
    (id plate phone imei : Str) (hp : Spec.Proper env v id plate phone imei) (addr : Str) (client : Store) (cc : Conn)
    (keepalive : Nat) (province city : UInt16) (color : UInt8) (k1 k2 k3 : Clock)
    (hpl : (s.st.lookPlate plate).isSome)
    (hd : s.st.look (fillDevicePhone phone (if v = .v2019 then 20 else 12)) = none) :
    let p := (Pair.start env s addr client cc (genDevice v id plate phone imei keepalive cc) province city color).run env
      [.serverReads k1, .clientReads k2, .serverReads k3]
    (∀ q, p.server.st.look q = s.st.look q) ∧ (∀ q, p.server.st.lookPlate q = s.st.lookPlate q) ∧
    p.server.st.closed s.accepted = true ∧ (⟨s.accepted, addr⟩ : Conn) ∉ p.server.live ∧ p.down = [] := by
  obtain ⟨h3, a, auth, q, hq, q1, q2, q3, q4, q5, q6, q7, q8, hh, hw, hph, hcode⟩ :=
    refused_start hs hp addr client cc keepalive province city color k1 k2 (.inl hpl)
  obtain ⟨evs, he⟩ := hs
  have hi := reachable_inv env evs
  rw [← he] at hi
  have hstep : (s.step env (.accept addr)).1 =
      { s with st := s.st.storeSession ⟨s.accepted, addr⟩, live := ⟨s.accepted, addr⟩ :: s.live, accepted := s.accepted + 1 } := by
    simp only [Sys.step, hi.2]; rfl
  have hlive : q.sc ∈ q.server.live := by rw [q1, q2, hstep]; exact List.mem_cons_self
  have hcr : q.server.crashed = false := by rw [q1, hstep]; exact hi.2
  have hl : q.server.st.devByPhone h3.phone = none := by
    have : q.server.st.look h3.phone = none := by rw [q1, hph, hstep]; exact hd
    exact Store.look_none.1 this
  have w1 : q.server.st.handleFrame env k3 q.sc auth = (q.server.st, .failed .deviceNotFound) := by
    rw [(hh k3.civil).handle]
    simp only [Store.handle, process0102, hl, finish]
  have hs3 : q.server.step env (.frame k3 q.sc auth none) =
      ({ q.server with st := q.server.st.remove q.sc, live := q.server.live.filter (· ≠ q.sc) }, ⟨none, true, none⟩) := by
    unfold Sys.step
    rw [if_neg (by rw [hcr]; simp)]
    simp only
    rw [if_pos hlive]
    simp only [Store.serveFrame, w1, Err.endsServe, if_true]
  intro p
  have hpe : p = { q with server := { q.server with st := q.server.st.remove q.sc, live := q.server.live.filter (· ≠ q.sc) }
                          up := [], down := [] } := by
    have : p = q.run env [.serverReads k3] := by rw [hq]; rfl
    rw [this]
    simp only [Pair.run, List.foldl_cons, List.foldl_nil, Pair.step, q3, hs3, Pair.sentDown, q4, List.nil_append]
  rw [hpe]
  refine ⟨?_, ?_, ?_, ?_, rfl⟩
  · intro x; show (q.server.st.remove q.sc).look x = _; rw [q1, hstep]; rfl
  · intro x; show (q.server.st.remove q.sc).lookPlate x = _; rw [q1, hstep]; rfl
  · show (q.server.st.remove q.sc).closed s.accepted = true
    rw [closed_remove, q2, if_pos rfl]
  · show _ ∉ q.server.live.filter (· ≠ q.sc)
    rw [q2]; simp

/-! The terminal of the examples is evicted by a simulator with its phone and another plate; a simulator with its plate
and another phone only loses its own connection. -/

def doublePhone : Str := digitStr [0, 1, 3, 8, 0, 0, 1, 3, 8, 0, 0, 0]

example : Spec.Proper goEnv .v2013 [0x69, 0x64] [0x42, 0x31] doublePhone [] where
  okId := by decide
  okPlate := ⟨[0x42, 0x31], by decide, by decide, by decide, fun _ => by decide⟩
  digits := by decide
  len := by decide
  okImei := by decide

example : (demoSys.st.look (fillDevicePhone doublePhone 12)).isSome ∧ (demoSys.st.lookPlate [0x42, 0x31]).isNone ∧
    let p := (Pair.start goEnv demoSys [0x39] Store.empty demoC (genDevice .v2013 [0x69, 0x64] [0x42, 0x31] doublePhone [] 30000 demoC)
      31 115 1).run goEnv [.serverReads (demoClk 1), .clientReads (demoClk 2), .serverReads (demoClk 3)]
    (p.server.st.look (fillDevicePhone doublePhone 12)).isNone ∧ (p.server.st.lookPlate demoRegMsg.plate).isNone := by
  decide +kernel

example : (demoSys.st.lookPlate demoRegMsg.plate).isSome ∧
    (demoSys.st.look (fillDevicePhone (digitStr [1, 3, 9, 1, 2, 3, 4, 5, 6, 7, 8]) 12)).isNone ∧
    let p := (Pair.start goEnv demoSys [0x39] Store.empty demoC (genDevice .v2013 [0x69, 0x64] demoRegMsg.plate
      (digitStr [1, 3, 9, 1, 2, 3, 4, 5, 6, 7, 8]) [] 30000 demoC) 31 115 1).run goEnv
      [.serverReads (demoClk 1), .clientReads (demoClk 2), .serverReads (demoClk 3)]
    (p.server.st.lookPlate demoRegMsg.plate).isSome ∧ p.server.live = demoSys.live := by
  decide +kernel
end JT808
