import Verif.Model.Lives
import Verif.Props.Codes
import Verif.Props.Auth
import Verif.Props.Handlers
import Verif.Props.Registry
import Verif.Props.Refinement
/-
C148: authorisation codes and restarts of the server.
-/
namespace JT808
open Spec

/-- Event `e`, in state `s`, is a registration with this id, plate and phone on a served connection, answered with success and
`code`. -/
def Spec.GaveCode (env : Env) (s : Sys) (e : Ev) (id plate phone code : Str) : Prop :=
  ∃ clk c bytes werr h m, e = .frame clk c bytes werr ∧ c ∈ s.live ∧ Delivers env clk.civil s.st bytes h (.m0100 m) ∧
    h.phone = phone ∧ m.plate = plate ∧ m.deviceID = id ∧
    (s.st.handleFrame env clk c bytes).2 = .reply (registerReply h 0 code)

theorem lives_append (env : Env) (s : Sys) (a b : List LEv) : (s.lives env (a ++ b)).1 = ((s.lives env a).1.lives env b).1 := by
  induction a generalizing s with
  | nil => rfl
  | cons e a ih => exact ih _

theorem lives_evs (env : Env) (s : Sys) (evs : List Ev) : (s.lives env (evs.map .ev)).1 = (s.run env evs).1 := by
  induction evs generalizing s with
  | nil => rfl
  | cons e evs ih => exact ih _

/-- A process knows nothing of what was before it. -/
theorem lives_restart (env : Env) (past : List LEv) (evs : List Ev) :
    (Sys.start.lives env (past ++ .restart :: evs.map .ev)).1 = (Sys.start.run env evs).1 := by
  rw [lives_append]
  exact lives_evs env Sys.start evs

/-- Every history ends in a life. -/
theorem lives_last (L : List LEv) : ∃ evs : List Ev, (L = evs.map .ev) ∨ ∃ past, L = past ++ .restart :: evs.map .ev := by
  induction L with
  | nil => exact ⟨[], .inl rfl⟩
  | cons e L ih =>
    obtain ⟨evs, h⟩ := ih
    rcases h with h | ⟨past, h⟩
    · cases e with
      | ev e => exact ⟨e :: evs, .inl (by rw [h]; rfl)⟩
      | restart => exact ⟨evs, .inr ⟨[], by rw [h]; rfl⟩⟩
    · exact ⟨evs, .inr ⟨e :: past, by rw [h]; rfl⟩⟩

theorem lives_reach (env : Env) (L : List LEv) : ∃ evs, (Sys.start.lives env L).1 = (Sys.start.run env evs).1 := by
  obtain ⟨evs, h | ⟨past, h⟩⟩ := lives_last L
  · exact ⟨evs, by rw [h, lives_evs]⟩
  · exact ⟨evs, by rw [h, lives_restart]⟩

theorem gave_code {env : Env} {s : Sys} {e : Ev} {id plate phone code : Str} (h : GaveCode env s e id plate phone code) :
    code = authCodeOf id plate phone := by
  obtain ⟨clk, c, bytes, werr, hd, m, rfl, -, h1, rfl, rfl, rfl, h2⟩ := h
  rw [handleFrame_register h1] at h2
  injection h2 with h2
  by_cases a : s.st.taken m.plate = true
  · rw [if_pos a] at h2; exact absurd (registerReply_injective (by omega) (by omega) h2).1 (by omega)
  · rw [if_neg a] at h2
    by_cases b : (s.st.look hd.phone).isSome = true
    · rw [if_pos b] at h2; exact absurd (registerReply_injective (by omega) (by omega) h2).1 (by omega)
    · rw [if_neg b] at h2; exact (registerReply_injective (by omega) (by omega) h2).2.symm

/-- C148: while a terminal is known, the code that it was given for its id, plate and phone is the one that is accepted, from
whatever connection, in whatever life of the server (history `pre`) it was given. -/
theorem C148_saved_code (env : Env) (L pre : List LEv) (e : Ev) (p code : Str) (d : Device)
    (he : GaveCode env (Sys.start.lives env pre).1 e d.id d.plate p code)
    (hd : (Sys.start.lives env L).1.st.look p = some d)
    (clk : Clock) (c : Conn) (frame : List UInt8) (h : Header) (m : AuthMsg)
    (hh : Holds env clk.civil frame h (.m0102 m)) (hp : h.phone = p) :
    let r := (Sys.start.lives env L).1.st.handleFrame env clk c frame
    (m.code = code → r.2 = .reply (generalReply h 0) ∧ (r.1.look p).map (·.status) = some .online) ∧
    (m.code ≠ code → r.2 = .reply (generalReply h 1) ∧ r.1.look p = none) := by
  intro r
  obtain ⟨evs, hr⟩ := lives_reach env L
  have hd' : (Sys.start.run env evs).1.st.look p = some d := by rw [← hr]; exact hd
  have hc : code = d.code := by
    rw [gave_code he]
    unfold Device.code
    rw [look_phone (reachable_inv env evs).1 hd']
  subst hc
  rw [show r = (Sys.start.run env evs).1.st.handleFrame env clk c frame by rw [← hr]]
  exact auth_iff_code env evs p d hd' clk c frame h m hh hp

/-- C148, the opposite, for terminals that do not register again: after a restart, whatever the terminal was before, heartbeats,
positions, deregistrations and authentications with whatever code are not answered and close the connection, as long as the
phone has not registered. -/
theorem C148_refused (env : Env) (past : List LEv) (evs : List Ev) (p : Str)
    (hno : ∀ pre e post, evs = pre ++ e :: post → ∀ code, ¬ e.issues env (Sys.start.run env pre).1 p code)
    (clk : Clock) (c : Conn) (werr : Option Err) (frame : List UInt8) (h : Header) (m : Msg)
    (hh : Holds env clk.civil frame h m) (hp : h.phone = p)
    (hm : m = .m0002 ∨ m = .m0003 ∨ (∃ a, m = .m0102 a) ∨ (∃ l, m = .m0200 l)) :
    let s := (Sys.start.lives env (past ++ .restart :: evs.map .ev)).1
    s.st.look p = none ∧
    s.st.serveFrame env clk c werr frame = (s.st.remove c, ⟨none, true, none⟩) ∧ (s.st.remove c).look p = none := by
  intro s
  have hs : s = (Sys.start.run env evs).1 := lives_restart env past evs
  have hl : s.st.look p = none := by
    rw [hs]
    cases hd : (Sys.start.run env evs).1.st.look p with
    | none => rfl
    | some d =>
      obtain ⟨pre, e, post, h1, h2, -⟩ := registered_issued env evs p d hd
      exact absurd h2 (hno pre e post h1 d.code)
  refine ⟨hl, C38_unregistered_refused env clk c werr s.st frame h m hh hm (by rw [hp]; exact hl), hl⟩

/-- C148: a terminal that registers again after a restart, with plate and phone not taken meanwhile, gets the code that it was
given in another life. -/
theorem C148_same_code_again (env : Env) (past pre : List LEv) (evs : List Ev) (e : Ev) (code : Str)
    (clk : Clock) (c : Conn) (frame : List UInt8) (h : Header) (m : Register)
    (he : GaveCode env (Sys.start.lives env pre).1 e m.deviceID m.plate h.phone code)
    (hh : Holds env clk.civil frame h (.m0100 m))
    (hf : (Sys.start.run env evs).1.st.lookPlate m.plate = none) (hl : (Sys.start.run env evs).1.st.look h.phone = none) :
    let s := (Sys.start.lives env (past ++ .restart :: evs.map .ev)).1
    (s.st.handleFrame env clk c frame).2 = .reply (registerReply h 0 code) := by
  intro s
  have hs : s = (Sys.start.run env evs).1 := lives_restart env past evs
  rw [hs]
  obtain ⟨st', code', d, h1, -⟩ := C32_free env clk c _ ⟨evs, rfl⟩ frame h m hh hf hl
  rw [h1]
  have : Issues env code' m.deviceID m.plate h.phone := ⟨clk, c, _, st', frame, h, m, hh, rfl, rfl, rfl, h1⟩
  rw [this.eq, gave_code he]

/-! ### Cases -/

/-- A life in which the demonstration terminal registers and authenticates. -/
def demoLife : List LEv := (demoEvs ++ [Ev.frame (demoClk 2000) demoC (demoAuth demoCode) none]).map .ev

/-- Where the demonstration terminal is given its code. -/
theorem demo_gave : GaveCode goEnv (Sys.start.lives goEnv ([.accept [0x61], .accept [0x62]].map .ev)).1
    (.frame (demoClk 1000) demoC demoReg none) demoRegMsg.deviceID demoRegMsg.plate (hdr2013 0).phone demoCode :=
  ⟨demoClk 1000, demoC, demoReg, none, _, _, rfl, by decide +kernel, (demoReg_holds _).delivers _, rfl, rfl, rfl, by decide +kernel⟩

-- it registers again after a restart and gets this code
example : ((Sys.start.lives goEnv (demoLife ++ .restart :: [].map .ev)).1.st.handleFrame goEnv (demoClk 9000) demoC' demoReg).2 =
    .reply (registerReply ((hdr2013 0x0100).withBodyLength 41) 0 demoCode) :=
  C148_same_code_again goEnv demoLife _ [] _ demoCode (demoClk 9000) demoC' demoReg _ demoRegMsg demo_gave (demoReg_holds _) rfl rfl

-- and then another code is refused
example : ((Sys.start.lives goEnv (demoLife ++ .restart :: demoEvs.map .ev)).1.st.handleFrame goEnv (demoClk 9000) demoC'
      (demoAuth [0x78, 0x79])).2 = .reply (generalReply ((hdr2013 0x0102).withBodyLength 2) 1) :=
  ((C148_saved_code goEnv (demoLife ++ .restart :: demoEvs.map .ev) _ _ (hdr2013 0).phone demoCode
    (((Sys.start.lives goEnv (demoLife ++ .restart :: demoEvs.map .ev)).1.st.look (hdr2013 0).phone).get (by decide +kernel))
    demo_gave (Option.some_get _).symm (demoClk 9000) demoC' (demoAuth [0x78, 0x79]) _ _ (demoAuth_holds _) rfl).2 (by decide +kernel)).1

/-- After a restart and a new connection the same authentication ends the connection. -/
theorem C148_locked_out :
    (Sys.start.lives goEnv (demoLife ++ [.restart, .ev (.accept [0x61]), .ev (.frame (demoClk 3000) demoC (demoAuth demoCode) none)])).2.drop
      (demoLife.length + 2) = [⟨none, true, none⟩] ∧
    ((Sys.start.lives goEnv demoLife).1.st.look (hdr2013 0).phone).map (·.status) = some .online := by
  decide +kernel

end JT808
