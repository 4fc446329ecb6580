import Verif.Props.Initiated
import Verif.Props.Query
import Verif.Proof.Errors
/-
C107: what the status of an HTTP answer to a parameter request says.
-/
namespace JT808
open Spec

namespace Spec

/-- What encoding/json puts into a field of type `any`. -/
def FromJSON : PV → Prop
  | .num _ => True
  | .str _ => True
  | .other => True
  | _ => False

/-- The value has not the JSON type the parameter calls for: a number or a string.  No type is wrong for an id that is
not supported. -/
def Mistyped (q : ParamData) : Prop :=
  ((argTable q.id = some .byte ∨ argTable q.id = some .word ∨ argTable q.id = some .dword) ∧ ∀ n, q.value ≠ .num n) ∨
  ((argTable q.id = some .bytes ∨ argTable q.id = some .string ∨ argTable q.id = some .gbk) ∧ ∀ s, q.value ≠ .str s)

/-- The requests about the parameters of `p`: the query, or a setting with the given contents. -/
def Asks (p : Str) : Ev → List ParamData → Option Err → Prop
  | .httpQuery q w, ps, werr => q = p ∧ ps = [] ∧ w = werr
  | .httpSet q bound bad w, ps, werr => q = p ∧ bound.params = ps ∧ bad = false ∧ w = werr
  | _, _, _ => False

end Spec

theorem ParamData.encode_panic {env : Env} {q : ParamData} (h : FromJSON q.value) :
    q.encode env = .panic ↔ Mistyped q := by
  unfold ParamData.encode Mistyped
  cases hk : argTable q.id with
  | none => simp
  | some k =>
    cases k <;> cases hv : q.value <;> simp [hv, FromJSON] at h <;>
      simp [PKind.encode, any2uint8, any2uint16, any2uint32, anyStr]

theorem encodeAll_panic {env : Env} {ps : List ParamData} (h : ∀ q ∈ ps, FromJSON q.value) :
    ParamData.encodeAll env ps = .panic ↔ ∃ q ∈ ps, Mistyped q := by
  induction ps with
  | nil => simp [ParamData.encodeAll]
  | cons p ps ih =>
    have ih := ih (fun q hq => h q (List.mem_cons_of_mem _ hq))
    have hp := ParamData.encode_panic (env := env) (h p (by simp))
    unfold ParamData.encodeAll
    cases he : p.encode env with
    | ok bs =>
      have hn : ¬ Mistyped p := by rw [← hp, he]; simp
      simp only [List.mem_cons, exists_eq_or_imp, hn, false_or, ← ih]
      cases ParamData.encodeAll env ps <;> simp
    | err e =>
      have hn : ¬ Mistyped p := by rw [← hp, he]; simp
      simp only [List.mem_cons, exists_eq_or_imp, hn, false_or, ← ih]
    | panic =>
      have hn : Mistyped p := by rw [← hp, he]
      simp [hn]

theorem encodeAll_ok {env : Env} {ps : List ParamData} (h : ∀ q ∈ ps, FromJSON q.value) (hm : ¬ ∃ q ∈ ps, Mistyped q) :
    ∃ bs, ParamData.encodeAll env ps = .ok bs := by
  cases he : ParamData.encodeAll env ps with
  | ok bs => exact ⟨bs, rfl⟩
  | err e => exact absurd he encodeAll_mild
  | panic => exact absurd ((encodeAll_panic h).1 he) hm

/-- The common part of both requests, with a session. -/
theorem apiSend_status {env : Env} {st : Store} {r : Ref} {id : UInt16} {m : Msg} {c : Conn} {werr : Option Err}
    (hs : st.session (st.heap r).sessionID = some c) (ha : c.addr = (st.heap r).sessionID) :
    ((∃ body, ∀ h, m.encodeBody env h = .ok body) →
      (st.apiSend env werr r none id m).2.http = some 200 ∧
      ((st.apiSend env werr r none id m).2.sent.isSome = true ↔ werr = none)) ∧
    ((∀ h, m.encodeBody env h = .panic) →
      (st.apiSend env werr r none id m).2.http = some 500 ∧ (st.apiSend env werr r none id m).2.sent = none) := by
  have e : (st.takeSerial c).1.session c.addr = some c := by rw [ha]; exact hs
  constructor
  · rintro ⟨body, hb⟩
    simp only [Store.apiSend, hs, Store.serverSend, e, Out.encode, hb]
    cases werr with
    | none => simp
    | some w => cases w <;> simp
  · intro hb
    simp only [Store.apiSend, hs, Store.serverSend, e, Out.encode, hb]
    simp

/-- What holds of C107: after any history, a parameter request for a registered terminal is answered 400 if the terminal has no session, 500
if it has one and some value has not the JSON type its parameter calls for, and 200 otherwise; a message is sent exactly
when the answer is 200 and the write succeeds.  Missing: that 200 tells that the write has succeeded, which is false
(C107_unsent_200). -/
theorem C107_status_partial (env : Env) (evs : List Ev) (p : Str) (d : Device) (e : Ev) (ps : List ParamData) (werr : Option Err)
    (he : Asks p e ps werr) (hj : ∀ q ∈ ps, FromJSON q.value) (hd : (Sys.start.run env evs).1.st.look p = some d) :
    let s := (Sys.start.run env evs).1
    let o := (s.step env e).2
    (o.http = some 400 ↔ s.st.session d.sessionID = none) ∧
    (o.http = some 500 ↔ s.st.session d.sessionID ≠ none ∧ ∃ q ∈ ps, Mistyped q) ∧
    (o.http = some 200 ↔ s.st.session d.sessionID ≠ none ∧ ¬ ∃ q ∈ ps, Mistyped q) ∧
    (o.sent.isSome = true ↔ o.http = some 200 ∧ werr = none) := by
  intro s o
  have hi := reachable_inv env evs
  obtain ⟨r, hr, rfl⟩ := Store.look_some.1 hd
  have hc : ¬ s.crashed = true := by simp only [s]; rw [hi.2]; simp
  -- both requests are one call
  have key : ∃ id m, o = (s.st.apiSend env werr r none id m).2 ∧
      (¬ (∃ q ∈ ps, Mistyped q) → ∃ body, ∀ h, m.encodeBody env h = .ok body) ∧
      ((∃ q ∈ ps, Mistyped q) → ∀ h, m.encodeBody env h = .panic) := by
    cases e with
    | httpQuery q w =>
      obtain ⟨rfl, rfl, rfl⟩ := he
      refine ⟨0x8104, .m8104, ?_, fun _ => ⟨[], fun _ => rfl⟩, fun h => by simp at h⟩
      simp only [o, Sys.step, if_neg hc, Store.apiQuery, s, hr, Store.devByPhone]
    | httpSet q bound bad w =>
      obtain ⟨rfl, rfl, rfl, rfl⟩ := he
      refine ⟨0x8103, .m8103 ⟨0, bound⟩, ?_, fun h => ?_, fun h => ?_⟩
      · simp only [o, Sys.step, if_neg hc, Store.apiSet, s, hr, Store.devByPhone]; rfl
      · obtain ⟨bs, hbs⟩ := encodeAll_ok (env := env) hj h
        refine ⟨writeBytes [] (writeByte [] bound.cnt ++ bs), fun _ => ?_⟩
        simp only [Msg.encodeBody, SetParams.encode, DeviceParams.encode, hbs]
      · intro _
        simp only [Msg.encodeBody, SetParams.encode, DeviceParams.encode, (encodeAll_panic hj).2 h]
    | _ => exact he.elim
  obtain ⟨id, m, ho, h1, h2⟩ := key
  rw [ho]
  cases hs : s.st.session (s.st.heap r).sessionID with
  | none =>
    have hs' : (Sys.start.run env evs).1.st.session ((Sys.start.run env evs).1.st.heap r).sessionID = none := hs
    simp [Store.apiSend, hs]
  | some c =>
    have hs' : (Sys.start.run env evs).1.st.session ((Sys.start.run env evs).1.st.heap r).sessionID = some c := hs
    have ha := ((reachable_sess env evs).served _ _ hs').2
    obtain ⟨g1, g2⟩ := apiSend_status (env := env) (id := id) (m := m) (werr := werr) hs ha
    by_cases hm : ∃ q ∈ ps, Mistyped q
    · obtain ⟨k1, k2⟩ := g2 (h2 hm)
      rw [k1, k2]; simp [hm]
    · obtain ⟨k1, k2⟩ := g1 (h1 hm)
      rw [k1]; simp [hm, k2]

/-- A query and three settings for a registered terminal: well typed, a text where a number is called for, and a
parameter nobody supports. -/
example : Asks (hdr2013 0).phone (.httpQuery (hdr2013 0).phone none) [] none ∧
    (demoSys.step goEnv (.httpQuery (hdr2013 0).phone none)).2.http = some 200 ∧
    (demoSys.step goEnv (.httpSet (hdr2013 0).phone ⟨[], 1, [⟨1, 0, .num 30⟩]⟩ false none)).2.http = some 200 ∧
    (demoSys.step goEnv (.httpSet (hdr2013 0).phone ⟨[], 1, [⟨1, 0, .str [0x33]⟩]⟩ false none)).2.http = some 500 ∧
    (demoSys.step goEnv (.httpSet (hdr2013 0).phone ⟨[], 1, [⟨9, 0, .str [0x33]⟩]⟩ false none)).2.http = some 200 :=
  ⟨⟨rfl, rfl, rfl⟩, by decide +kernel⟩

example : Mistyped ⟨1, 0, .str [0x33]⟩ ∧ ¬ Mistyped ⟨1, 0, .num 30⟩ ∧ ¬ Mistyped ⟨9, 0, .str [0x33]⟩ := by
  have h1 : argTable 1 = some .dword := by decide
  have h9 : argTable 9 = none := by decide
  refine ⟨?_, ?_, ?_⟩ <;> simp [Mistyped, h1, h9]

/-- The opposite of C107: the answer is 200 although writing to the terminal's connection failed and nothing was sent. -/
theorem C107_unsent_200 :
    let r := (demoSys.step goEnv (.httpSet (hdr2013 0).phone ⟨[], 1, [⟨1, 0, .num 30⟩]⟩ false (some .closed))).2
    r.http = some 200 ∧ r.sent = none := by decide +kernel

/-- A parameter nobody supports is answered 200 too, and a setting that announces one parameter and holds none is
sent. -/
theorem C107_unsupported_200 :
    let r := (demoSys.step goEnv (.httpSet (hdr2013 0).phone ⟨[], 1, [⟨9, 0, .num 30⟩]⟩ false none)).2
    r.http = some 200 ∧ r.sent.map (·.2) = (demoSys.step goEnv (.httpSet (hdr2013 0).phone ⟨[], 1, []⟩ false none)).2.sent.map (·.2) := by
  decide +kernel

end JT808
