import Verif.Proof.BytePair
/-
C87 in bytes: the simulator and the server keep talking, however their bytes are read.
-/
namespace JT808
open Spec

/-- Which steps are considered, as `Pair.Allows`. -/
def Spec.AllowsBytes (env : Env) (plate : Str) (b : BPair) : BPairEv → Prop
  | .locate x => x.now.Valid
  | .other e => e.aside env b.sc b.phone plate b.server
  | _ => True

/-- Schedules in which nothing interferes. -/
inductive Spec.ByteSchedule (env : Env) (plate : Str) : BPair → List BPairEv → Prop
  | nil (b : BPair) : ByteSchedule env plate b []
  | cons (b : BPair) (e : BPairEv) (es : List BPairEv) : AllowsBytes env plate b e →
      ByteSchedule env plate (b.step env e) es → ByteSchedule env plate b (e :: es)

/-- Behind every conversation in bytes there is one in frames. -/
theorem bytes_refine {env : Env} {plate : Str} {b : BPair} {es : List BPairEv} (hs : ByteSchedule env plate b es) :
    ∀ {p : Pair}, Corr b p → ∃ fs, Schedule env plate p fs ∧ Corr (b.run env es) (p.run env fs) := by
  induction hs with
  | nil b => intro p h; exact ⟨[], .nil p, h⟩
  | cons b e es ha _ ih =>
    intro p h
    obtain ⟨x, hx, hc⟩ := h.step env e
    obtain ⟨fs, h1, h2⟩ := ih hc
    cases x with
    | none => exact ⟨fs, h1, h2⟩
    | some y =>
      refine ⟨y :: fs, .cons p y fs ?_ h1, h2⟩
      cases e with
      | serverByte clk =>
        rcases hx with hx | hx
        · cases hx
        · injection hx with hx; subst hx; trivial
      | clientByte clk =>
        rcases hx with hx | hx
        · cases hx
        · injection hx with hx; subst hx; trivial
      | notice => injection hx with hx; subst hx; trivial
      | beat => injection hx with hx; subst hx; trivial
      | locate z => injection hx with hx; subst hx; exact ha
      | other z =>
        injection hx with hx; subst hx
        show z.aside env p.sc p.phone plate p.server
        rw [← h.sc, ← h.phone, ← h.server]; exact ha

/-- As `Spec.GoesWell`: when no byte is under way, both sides wait for the beginning of a frame and every frame of the
simulator has been answered by exactly one. -/
structure Spec.GoesWellBytes (phone plate : Str) (c : Conn) (b : BPair) : Prop where
  going : b.stopped = false
  served : c ∈ b.server.live
  opened : b.server.st.closed c.id = false
  answers : b.got ≤ b.sent
  quiet : b.up = [] → b.down = [] → b.got = b.sent ∧ b.sRecv = RecvSt.fresh ∧ b.cRecv = RecvSt.fresh ∧
    (b.client.look phone).map (·.status) = some .online ∧
    ∃ d, b.server.st.look phone = some d ∧ d.plate = plate ∧ d.conn = some c ∧ d.status ≠ .offline

theorem Corr.goesWell {b : BPair} {p : Pair} (h : Corr b p) {phone plate : Str} {c : Conn} (hw : GoesWell phone plate c p) :
    GoesWellBytes phone plate c b := by
  refine ⟨h.stopped.trans hw.going, h.server ▸ hw.served, h.server ▸ hw.opened, ?_, fun hu hd => ?_⟩
  · rw [h.got, h.sent, hw.answers]; omega
  · have u := h.up
    have d := h.down
    have fu := u.empty.1 hu
    have fd := d.empty.1 hd
    rw [hu] at u; rw [hd] at d
    refine ⟨?_, u.fresh, d.fresh, ?_⟩
    · rw [h.got, h.sent, hw.answers, fu, fd]; rfl
    · have := hw.quiet fu fd
      rw [← h.client, ← h.server] at this; exact this

/-- C87 in bytes: however the bytes of the two directions are read, one at a time and in any order with the sending of the
simulator and the server's other business, the conversation goes well. -/
theorem C87_bytes (env : Env) (s : Sys) (v : Ver) (id plate phone imei : Str)
    (hr : Ready env s v id plate phone imei) (addr : Str) (client : Store) (cc : Conn) (keepalive : Nat)
    (province city : UInt16) (color : UInt8) (es : List BPairEv)
    (hs : ByteSchedule env plate
      (BPair.start env s addr client cc (genDevice v id plate phone imei keepalive cc) province city color) es) :
    GoesWellBytes (fillDevicePhone phone (if v = .v2019 then 20 else 12)) plate ⟨s.accepted, addr⟩
      ((BPair.start env s addr client cc (genDevice v id plate phone imei keepalive cc) province city color).run env es) := by
  obtain ⟨fs, h1, h2⟩ := bytes_refine hs (start_corr env s addr client cc _ province city color)
  exact h2.goesWell (C87_conversation env s v id plate phone imei hr addr client cc keepalive province city color fs h1)

/-- And at any moment, a finite number of bytes read later everything is answered and both sides show the terminal as
registered and present. -/
theorem C87_bytes_settle (env : Env) (s : Sys) (v : Ver) (id plate phone imei : Str)
    (hr : Ready env s v id plate phone imei) (addr : Str) (client : Store) (cc : Conn) (keepalive : Nat)
    (province city : UInt16) (color : UInt8) (es : List BPairEv)
    (hs : ByteSchedule env plate
      (BPair.start env s addr client cc (genDevice v id plate phone imei keepalive cc) province city color) es)
    (clk : Clock) :
    ∃ rs, (∀ e ∈ rs, e = .serverByte clk ∨ e = .clientByte clk) ∧
      let b := (BPair.start env s addr client cc (genDevice v id plate phone imei keepalive cc) province city color).run env
        (es ++ rs)
      b.up = [] ∧ b.down = [] ∧
      GoesWellBytes (fillDevicePhone phone (if v = .v2019 then 20 else 12)) plate ⟨s.accepted, addr⟩ b := by
  obtain ⟨fs, h1, h2⟩ := bytes_refine hs (start_corr env s addr client cc _ province city color)
  obtain ⟨n, ht⟩ := talk_run (start_talk hr addr client cc keepalive province city color) h1
  obtain ⟨rs, -, h3, h4, h5⟩ := ht.drains clk
  obtain ⟨bs, h6, h7⟩ := h2.reads clk rs h3
  refine ⟨bs, h6, ?_⟩
  have happ : ∀ q : BPair, q.run env (es ++ bs) = (q.run env es).run env bs := fun q => List.foldl_append ..
  have hsch : ∀ (q : BPair) (bs : List BPairEv), (∀ e ∈ bs, e = .serverByte clk ∨ e = .clientByte clk) →
      ByteSchedule env plate q bs := by
    intro q bs
    induction bs generalizing q with
    | nil => intro _; exact .nil q
    | cons e bs ih =>
      intro he
      refine .cons q e bs ?_ (ih _ (fun e' h' => he e' (List.mem_cons_of_mem _ h')))
      rcases he e List.mem_cons_self with rfl | rfl <;> trivial
  have hcat : ∀ (q : BPair) (xs ys : List BPairEv), ByteSchedule env plate q xs → ByteSchedule env plate (q.run env xs) ys →
      ByteSchedule env plate q (xs ++ ys) := by
    intro q xs ys hx hy
    induction hx with
    | nil q => exact hy
    | cons q e es ha _ ih => exact .cons q e _ ha (ih hy)
  have hw := C87_bytes env s v id plate phone imei hr addr client cc keepalive province city color (es ++ bs)
    (hcat _ _ _ hs (hsch _ _ h6))
  simp only [happ] at hw ⊢
  exact ⟨h7.up.empty.2 h4, h7.down.empty.2 h5, hw⟩

/-! The conversation of Verif/Props/Conversation.lean, with the registration read in two parts and the connection of another
terminal accepted in between. -/

def convBytes : BPair := BPair.start goEnv demoSys [0x39] Store.empty demoC convDevice 31 115 1
def convByteEvs : List BPairEv :=
  List.replicate 20 (.serverByte (demoClk 1)) ++ [.other (.accept [0x38]), .beat] ++
  List.replicate 100 (.serverByte (demoClk 2)) ++ List.replicate 100 (.clientByte (demoClk 3)) ++ [.notice] ++
  List.replicate 100 (.serverByte (demoClk 4)) ++ List.replicate 100 (.clientByte (demoClk 5)) ++
  [.notice, .beat, .locate southDraw] ++ List.replicate 20 (.serverByte (demoClk 6))

example : (convBytes.run goEnv convByteEvs).sent = 4 ∧ (convBytes.run goEnv convByteEvs).got = 2 ∧
    (convBytes.run goEnv convByteEvs).sRecv.inMsg = true ∧ (convBytes.run goEnv convByteEvs).down ≠ [] := by
  decide +kernel

theorem convByteEvs_schedule : ByteSchedule goEnv [0x42, 0x31] convBytes convByteEvs := by
  have key : ∀ (es : List BPairEv) (b : BPair), (∀ e ∈ es, ∀ b, AllowsBytes goEnv [0x42, 0x31] b e) →
      ByteSchedule goEnv [0x42, 0x31] b es := by
    intro es
    induction es with
    | nil => intro b _; exact .nil b
    | cons e es ih =>
      intro b h
      exact .cons b e es (h e (by simp) b) (ih _ (fun e' h' => h e' (by simp [h'])))
  refine key _ _ (fun e he b => ?_)
  simp only [convByteEvs, List.mem_append, List.mem_replicate, List.mem_cons, List.not_mem_nil, or_false] at he
  rcases he with (((((((⟨_, rfl⟩ | rfl | rfl) | ⟨_, rfl⟩) | ⟨_, rfl⟩) | rfl) | ⟨_, rfl⟩) | ⟨_, rfl⟩) | rfl | rfl | rfl) | ⟨_, rfl⟩
  all_goals first
    | trivial
    | (simp only [AllowsBytes, southDraw, Civil.Valid]; decide)

example : GoesWellBytes (fillDevicePhone (digitStr [1, 3, 9, 1, 2, 3, 4, 5, 6, 7, 8]) 12) [0x42, 0x31] ⟨demoSys.accepted, [0x39]⟩
    (convBytes.run goEnv convByteEvs) :=
  C87_bytes goEnv demoSys .v2013 _ _ _ _ convReady _ _ _ _ _ _ _ _ convByteEvs_schedule

end JT808
