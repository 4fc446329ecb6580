import Verif.Proof.Bytes
import Verif.Props.Serving
import Verif.Props.Registry
/-
C97: the server that reads bytes does what the server that is given frames does.
-/
namespace JT808
open Spec

/-- What one event of the byte level can be at the frame level: at most one event, of the same kind, on the same
connection, at the same time. -/
def BEv.yields : BEv → Option Ev → Prop
  | .byte clk c _ werr, x => x = none ∨ ∃ f, x = some (.frame clk c f werr)
  | .fail c e, x => x = some (.readErr c e)
  | .other e, x => x = if e.isRead then none else some e

/-- Every history of bytes and failed reads, on any number of connections and in any order, has a history of frames
behind it.  It grows with the history of bytes, one event at a time.  On every connection the frames are those the
stream of that connection consists of, each as soon as its last byte has been read.  And the server is in the same state
and has sent and answered the same. -/
theorem C97_bytes_are_frames (env : Env) : ∃ F : List BEv → List Ev,
    F [] = [] ∧
    (∀ evs e, ∃ x, BEv.yields e x ∧ F (evs ++ [e]) = F evs ++ x.toList) ∧
    (∀ evs c, Cut (evs.filterMap (BEv.readOn c)) ((F evs).filterMap (Ev.readOn c))) ∧
    (∀ evs, (ByteSys.start.run env evs).1.sys = (Sys.start.run env (F evs)).1 ∧
      (ByteSys.start.run env evs).2.filter (· ≠ Obs.none) = (Sys.start.run env (F evs)).2.filter (· ≠ Obs.none)) := by
  refine ⟨toFrames fun _ => RecvSt.fresh, rfl, fun evs e => ?_, fun evs c => ?_, fun evs => byte_run env evs ByteSys.start⟩
  · rw [toFrames_append]
    cases e with
    | byte clk c b werr =>
      simp only [toFrames]
      cases recvStep (recvAfter (fun _ => RecvSt.fresh) evs c) b with
      | inl f => exact ⟨some (.frame clk c f werr), .inr ⟨f, rfl⟩, rfl⟩
      | inr q => exact ⟨none, .inl rfl, rfl⟩
    | fail c e => exact ⟨some (.readErr c e), rfl, rfl⟩
    | other e =>
      refine ⟨if e.isRead then none else some e, rfl, ?_⟩
      simp only [toFrames]
      cases e.isRead <;> rfl
  · simpa using cut_frames c evs (fun _ => RecvSt.fresh) [] (.out [] (by simp))

/-- A stream is cut in one way only. -/
theorem C97_cut_unique {s : List (UInt8 ⊕ Err)} {o o' : List (List UInt8 ⊕ Err)} (h : Cut s o) (h' : Cut s o') : o = o' :=
  (cut_eq h).trans (cut_eq h').symm

/-- A frame-level history spelled out in bytes. -/
def spell : List Ev → List BEv
  | [] => []
  | .frame clk c f werr :: es => (f.map fun b => .byte clk c b werr) ++ spell es
  | .readErr c e :: es => .fail c e :: spell es
  | e :: es => .other e :: spell es

theorem spell_frames (evs : List Ev) (h : ∀ clk c f werr, .frame clk c f werr ∈ evs → Delimited f) (r : Conn → RecvSt)
    (hr : ∀ c, r c = RecvSt.fresh) : toFrames r (spell evs) = evs := by
  have hr' : r = fun _ => RecvSt.fresh := funext hr
  subst hr'
  induction evs with
  | nil => rfl
  | cons e evs ih =>
    have ih := ih fun clk c f werr hm => h clk c f werr (by simp [hm])
    have hid : ∀ c, (fun x => if x = c then RecvSt.fresh else RecvSt.fresh) = fun _ : Conn => RecvSt.fresh := by
      intro c; funext x; simp
    cases e with
    | frame clk c f werr =>
      obtain ⟨h1, h2⟩ := dribble_frame clk c werr f (h clk c f werr (by simp)) (fun _ => RecvSt.fresh) rfl
      rw [spell, toFrames_append, h1, h2, ih]
      rfl
    | readErr c e =>
      simp only [spell, toFrames, hid]
      rw [ih]
    | accept a => exact congrArg _ ih
    | check a b => exact congrArg _ ih
    | httpList => exact congrArg _ ih
    | httpGeo a => exact congrArg _ ih
    | httpQuery a b => exact congrArg _ ih
    | httpSet a b c d => exact congrArg _ ih

/-- Every history of frames comes about: spelled out in bytes it does the same. -/
theorem C97_frames_arise (env : Env) (evs : List Ev) (h : ∀ clk c f werr, .frame clk c f werr ∈ evs → Delimited f) :
    (ByteSys.start.run env (spell evs)).1.sys = (Sys.start.run env evs).1 ∧
      (ByteSys.start.run env (spell evs)).2.filter (· ≠ Obs.none) = (Sys.start.run env evs).2.filter (· ≠ Obs.none) := by
  have := byte_run env (spell evs) ByteSys.start
  rwa [spell_frames evs h ByteSys.start.recv fun _ => rfl] at this

/-- So whatever bytes arrive, the server stays in the states the other theorems speak of. -/
theorem C97_reachable (env : Env) (evs : List BEv) : Reachable env (ByteSys.start.run env evs).1.sys.st := by
  obtain ⟨F, -, -, -, h⟩ := C97_bytes_are_frames env
  exact ⟨F evs, by rw [(h evs).1]⟩

theorem encode_delimited {env : Env} {o : Out} {f : List UInt8} (h : Out.encode env o = .ok f) : Delimited f := by
  unfold Out.encode at h
  split at h
  · injection h with h; subst h; exact C02_frame_shape _
  · cases h
  · cases h

theorem apiSend_delimited {env : Env} {werr : Option Err} {st : Store} {r : Ref} {code : Option Nat} {id : UInt16} {m : Msg}
    {c : Conn} {f : List UInt8} (h : (st.apiSend env werr r code id m).2.sent = some (c, f)) : Delimited f := by
  unfold Store.apiSend at h
  simp only at h
  split at h
  · cases h
  · unfold Store.serverSend at h
    split at h
    all_goals rename_i h1
    · split at h1
      · injection h1 with _ h1; injection h1 with h1; subst h1; cases h
      · split at h1
        · cases h1
        · injection h1 with _ h1; injection h1 with h1; subst h1; cases h
        · rename_i hf
          split at h1
          · injection h1 with _ h1; injection h1 with h1; subst h1
            injection h with h; injection h with _ h; subst h
            exact encode_delimited hf
          · injection h1 with _ h1; injection h1 with h1; subst h1; cases h
          · injection h1 with _ h1; injection h1 with h1; subst h1; cases h
    · cases h
    · cases h

theorem step_delimited {env : Env} {s : Sys} {e : Ev} {c : Conn} {f : List UInt8}
    (h : (s.step env e).2.sent = some (c, f)) : Delimited f := by
  unfold Sys.step at h
  split at h
  · cases h
  · cases e with
    | accept a => cases h
    | frame clk c' b werr =>
      simp only at h
      split at h
      · obtain ⟨-, -, -, st1, pkt, st2, o, -, -, ho, -⟩ := C30_reply_only_on_success env clk c' c werr s.st b f h
        exact encode_delimited ho
      · cases h
    | readErr c' e =>
      simp only at h
      split at h
      · rw [serveErr_sent] at h; cases h
      · cases h
    | check clk p =>
      simp only at h
      split at h <;> cases h
    | httpList => cases h
    | httpGeo p => cases h
    | httpQuery p werr =>
      simp only [Store.apiQuery] at h
      split at h
      · cases h
      · exact apiSend_delimited h
    | httpSet p b bad werr =>
      simp only [Store.apiSet] at h
      split at h
      · cases h
      · exact apiSend_delimited h

/-- The frames sent on connection `c`. -/
def sentTo (c : Conn) (os : List Obs) : List (List UInt8) := (sentOf os).filterMap fun x => if x.1 = c then some x.2 else none

theorem run_delimited (env : Env) (evs : List Ev) (s : Sys) (c : Conn) : ∀ f ∈ sentTo c (s.run env evs).2, Delimited f := by
  induction evs generalizing s with
  | nil => intro f h; cases h
  | cons e evs ih =>
    intro f h
    simp only [Sys.run, sentTo, sentOf, List.filterMap_cons] at h
    cases ho : (s.step env e).2.sent with
    | none => rw [ho] at h; exact ih _ f h
    | some x =>
      rw [ho] at h
      simp only [List.filterMap_cons] at h
      by_cases hx : x.1 = c
      · rw [if_pos hx] at h
        rcases List.mem_cons.1 h with rfl | h
        · exact step_delimited (c := x.1) ho
        · exact ih _ f h
      · rw [if_neg hx] at h
        exact ih _ f h

theorem sentTo_filter (c : Conn) (os : List Obs) : sentTo c (os.filter (· ≠ Obs.none)) = sentTo c os := by
  induction os with
  | nil => rfl
  | cons o os ih =>
    by_cases ho : o = Obs.none
    · subst ho
      simpa [sentTo, sentOf, Obs.none] using ih
    · rw [List.filter_cons, if_pos (by simpa using ho)]
      unfold sentTo sentOf at ih ⊢
      rw [List.filterMap_cons, List.filterMap_cons]
      cases hs : o.sent with
      | none => exact ih
      | some x => rw [List.filterMap_cons, List.filterMap_cons, ih]

theorem cut_flatten (fs : List (List UInt8)) (h : ∀ f ∈ fs, Delimited f) :
    Cut (ε := Err) (fs.flatten.map .inl) (fs.map .inl) := by
  induction fs with
  | nil => exact Cut.rest [] (by simp)
  | cons f fs ih =>
    have := Cut.frame [] f _ _ (by simp) (h f (by simp)) (ih fun g hg => h g (by simp [hg]))
    simpa using this

/-- In the other direction, the bytes that the server writes to a connection are cut by its reader into exactly the
frames that were sent. -/
theorem C97_replies_cut (env : Env) (evs : List BEv) (c : Conn) :
    Cut (ε := Err) ((sentTo c (ByteSys.start.run env evs).2).flatten.map .inl)
      ((sentTo c (ByteSys.start.run env evs).2).map .inl) := by
  refine cut_flatten _ ?_
  rw [← sentTo_filter, (byte_run env evs ByteSys.start).2, sentTo_filter]
  exact run_delimited env _ _ c

/-- Two terminals on two connections: noise and half of a registration on the first, the other registers, then the rest of
the first registration; the answers to both. -/
def mixedBytes : List BEv :=
  [.other (.accept [0x61]), .other (.accept [0x62])]
    ++ ([1, 2] ++ demoReg.take 20).map (fun b => .byte (demoClk 1) demoC b none)
    ++ demoBeat.map (fun b => .byte (demoClk 2) demoC' b none)
    ++ (demoReg.drop 20).map (fun b => .byte (demoClk 3) demoC b none)

example : sentOf (ByteSys.start.run goEnv mixedBytes).2 =
    [(demoC, registerReply ((hdr2013 0x0100).withBodyLength 41) 0 demoCode)] := by decide +kernel
example : (ByteSys.start.run goEnv mixedBytes).1.sys.st.look (hdr2013 0).phone ≠ none ∧
    (ByteSys.start.run goEnv mixedBytes).1.sys.live = [demoC] := by decide +kernel
-- a failed read that does not end the loop loses the frame that had begun, here the registration
example : sentOf (ByteSys.start.run goEnv ([.other (.accept [0x61])]
    ++ (demoReg.take 20).map (fun b => .byte (demoClk 1) demoC b none) ++ [.fail demoC .io]
    ++ (demoReg.drop 20).map (fun b => .byte (demoClk 3) demoC b none))).2 = [] := by decide +kernel
example : ∀ clk c f werr, Ev.frame clk c f werr ∈ demoEvs → Delimited f := by
  intro clk c f werr h
  simp [demoEvs] at h
  obtain ⟨-, -, rfl, -⟩ := h
  exact C02_frame_shape _
example : Cut (ε := Err) [.inl 1, .inl 0x7e, .inl 5, .inr .eof, .inl 0x7e, .inl 6, .inl 0x7e, .inl 7]
    [.inr .eof, .inl [0x7e, 6, 0x7e]] :=
  Cut.fail [1, 0x7e, 5] Err.eof [.inl 0x7e, .inl 6, .inl 0x7e, .inl 7] [.inl [0x7e, 6, 0x7e]] (by decide) (Cut.frame [] [0x7e, 6, 0x7e] [.inl 7] [] (by simp) ⟨[6], by decide, rfl⟩ (Cut.rest [7] (by decide)))

end JT808
