import Verif.Spec.Outside
import Verif.Props.Answer
/-
C139: the server seen from outside.
-/
namespace JT808
open Spec

/-- The event of the byte level behind an event. -/
def WEv.low : WEv → Option BEv
  | .byte clk c b werr => some (.byte clk c b werr)
  | .fail c e => some (.fail c e)
  | .accept addr => some (.other (.accept addr))
  | .job clk p => some (.other (.check clk p))
  | .request r werr => match route r.method r.target with
    | .op h p => some (.other (h.event r werr p))
    | .status _ => none

theorem low_reads (c : Conn) (evs : List WEv) : (evs.filterMap WEv.low).filterMap (BEv.readOn c) = evs.filterMap (readOn c) := by
  rw [List.filterMap_filterMap]
  congr 1
  funext e
  cases e with
  | request r werr =>
    simp only [WEv.low]
    cases route r.method r.target <;> rfl
  | _ => rfl

theorem event_notRead (h : Handler) (r : Request) (werr : Option Err) (p : Str) : (h.event r werr p).isRead = false := by
  cases h <;> rfl

theorem runOutside_snoc (env : Env) (wr : Writing) (evs : List WEv) (e : WEv) (w : ByteSys) :
    w.runOutside env wr (evs ++ [e]) =
      ((((w.runOutside env wr evs).1).outside env wr e).1, (w.runOutside env wr evs).2 ++ [(((w.runOutside env wr evs).1).outside env wr e).2]) := by
  induction evs generalizing w with
  | nil => rfl
  | cons x evs ih =>
    simp only [List.cons_append, ByteSys.runOutside]
    rw [ih]

/-- The state is the one after the frames, and the variables of the receive loops are those after the bytes. -/
structure Abreast (env : Env) (evs : List WEv) (w : ByteSys) : Prop where
  sys : w.sys = (Sys.start.run env (toFrames (fun _ => RecvSt.fresh) (evs.filterMap WEv.low))).1
  recv : w.recv = recvAfter (fun _ => RecvSt.fresh) (evs.filterMap WEv.low)

theorem sysRun_snoc (env : Env) (fs : List Ev) (e : Ev) :
    (Sys.start.run env (fs ++ [e])).1 = ((Sys.start.run env fs).1.step env e).1 := by
  have : ∀ (s : Sys), (s.run env (fs ++ [e])).1 = ((s.run env fs).1.step env e).1 := by
    induction fs with
    | nil => intro s; rfl
    | cons x fs ih => intro s; exact ih _
  exact this _

theorem abreast_step (env : Env) (wr : Writing) (instant : Nat → List Nat) (time : Civil → List Nat) (complaint : Str → List Nat)
    (hw : Sound wr instant time) (hc : ∀ t, Seen (wr.bindErr t) (complaint t)) (evs : List WEv) (e : WEv) (w : ByteSys)
    (h : Abreast env evs w) :
    Abreast env (evs ++ [e]) (w.outside env wr e).1 ∧ ∃ x,
      toFrames (fun _ => RecvSt.fresh) ((evs ++ [e]).filterMap WEv.low) =
        toFrames (fun _ => RecvSt.fresh) (evs.filterMap WEv.low) ++ Option.toList x ∧
      Shows env instant time complaint (Book.start.run env (toFrames (fun _ => RecvSt.fresh) (evs.filterMap WEv.low))).1 e x
        (w.outside env wr e).2 := by
  obtain ⟨h1, h2⟩ := h
  have hstep := fun x => ((reachable_follows env (toFrames (fun _ => RecvSt.fresh) (evs.filterMap WEv.low))).step env
    (reachable_inv env _).1 (reachable_inv env _).2 x).2
  have hans := C138_answer env wr instant time hw (toFrames (fun _ => RecvSt.fresh) (evs.filterMap WEv.low))
  have hreq := fun r werr => C134_request env (Sys.start.run env (toFrames (fun _ => RecvSt.fresh) (evs.filterMap WEv.low))).1
    (reachable_inv env _).2 r werr
  have snoc : ∀ b, WEv.low e = some b → (evs ++ [e]).filterMap WEv.low = evs.filterMap WEv.low ++ [b] := by
    intro b hb
    rw [List.filterMap_append]
    simp [hb]
  have same : WEv.low e = none → (evs ++ [e]).filterMap WEv.low = evs.filterMap WEv.low := by
    intro hb
    rw [List.filterMap_append]
    simp [hb]
  have step : ∀ x, WEv.low e = some (.other x) → x.isRead = false →
      (w.outside env wr e).1 = { w with sys := (w.sys.step env x).1 } →
      Abreast env (evs ++ [e]) (w.outside env wr e).1 ∧ toFrames (fun _ => RecvSt.fresh) ((evs ++ [e]).filterMap WEv.low) =
        toFrames (fun _ => RecvSt.fresh) (evs.filterMap WEv.low) ++ [x] := by
    intro x hx hr ho
    have hf : toFrames (fun _ => RecvSt.fresh) ((evs ++ [e]).filterMap WEv.low) =
        toFrames (fun _ => RecvSt.fresh) (evs.filterMap WEv.low) ++ [x] := by
      rw [snoc _ hx, toFrames_append]
      simp [toFrames, hr]
    refine ⟨⟨?_, ?_⟩, hf⟩
    · rw [ho, hf, sysRun_snoc, ← h1]
    · rw [ho, snoc _ hx, recvAfter_append]
      exact h2
  have hcr : (Sys.start.run env (toFrames (fun _ => RecvSt.fresh) (evs.filterMap WEv.low))).1.crashed = false := (reachable_inv env _).2
  cases e with
  | byte clk c b werr =>
    have hs := snoc (.byte clk c b werr) rfl
    cases hb : recvStep (w.recv c) b with
    | inl f =>
      have ho : w.outside env wr (.byte clk c b werr) =
          ({ w.setRecv c RecvSt.fresh with sys := (w.sys.step env (.frame clk c f werr)).1 }, ⟨(w.sys.step env (.frame clk c f werr)).2, none⟩) := by
        simp only [ByteSys.outside, ByteSys.step, hb]
      have hf : toFrames (fun _ => RecvSt.fresh) ((evs ++ [WEv.byte clk c b werr]).filterMap WEv.low) =
          toFrames (fun _ => RecvSt.fresh) (evs.filterMap WEv.low) ++ [.frame clk c f werr] := by
        rw [hs, toFrames_append, ← h2]
        simp [toFrames, hb]
      refine ⟨⟨?_, ?_⟩, some (.frame clk c f werr), hf, ?_⟩
      · rw [ho, hf, sysRun_snoc, ← h1]
      · rw [ho, hs, recvAfter_append, ← h2]
        simp [recvAfter, hb, ByteSys.setRecv]
      · rw [ho, h1, hstep]
        exact .frame f
    | inr q =>
      have ho : w.outside env wr (.byte clk c b werr) = (w.setRecv c q, ⟨Obs.none, none⟩) := by
        simp only [ByteSys.outside, ByteSys.step, hb]
      have hf : toFrames (fun _ => RecvSt.fresh) ((evs ++ [WEv.byte clk c b werr]).filterMap WEv.low) =
          toFrames (fun _ => RecvSt.fresh) (evs.filterMap WEv.low) ++ [] := by
        rw [hs, toFrames_append, ← h2]
        simp [toFrames, hb]
      refine ⟨⟨?_, ?_⟩, none, hf, ?_⟩
      · rw [ho, hf, List.append_nil, ← h1]; rfl
      · rw [ho, hs, recvAfter_append, ← h2]
        simp [recvAfter, hb, ByteSys.setRecv]
      · rw [ho]
        exact .within
  | fail c e =>
    have hs := snoc (.fail c e) rfl
    have hf : toFrames (fun _ => RecvSt.fresh) ((evs ++ [WEv.fail c e]).filterMap WEv.low) =
        toFrames (fun _ => RecvSt.fresh) (evs.filterMap WEv.low) ++ [.readErr c e] := by
      rw [hs, toFrames_append]
      simp [toFrames]
    have ho : w.outside env wr (.fail c e) =
        ({ w.setRecv c RecvSt.fresh with sys := (w.sys.step env (.readErr c e)).1 }, ⟨(w.sys.step env (.readErr c e)).2, none⟩) := rfl
    refine ⟨⟨?_, ?_⟩, some (.readErr c e), hf, ?_⟩
    · rw [ho, hf, sysRun_snoc, ← h1]
    · rw [ho, hs, recvAfter_append, ← h2]
      rfl
    · rw [ho, h1, hstep]
      exact .fail
  | accept addr =>
    obtain ⟨k1, k2⟩ := step (.accept addr) rfl rfl rfl
    refine ⟨k1, some (.accept addr), k2, ?_⟩
    have ho : (w.outside env wr (.accept addr)).2 = ⟨(w.sys.step env (.accept addr)).2, none⟩ := rfl
    rw [ho, h1, hstep]
    exact .accept
  | job clk p =>
    obtain ⟨k1, k2⟩ := step (.check clk p) rfl rfl rfl
    refine ⟨k1, some (.check clk p), k2, ?_⟩
    have ho : (w.outside env wr (.job clk p)).2 = ⟨(w.sys.step env (.check clk p)).2, none⟩ := rfl
    rw [ho, h1, hstep]
    exact .job
  | request r werr =>
    have ho : w.outside env wr (.request r werr) =
        ({ w with sys := (w.sys.request env r werr).1 }, ⟨(w.sys.request env r werr).2, (w.sys.answer env wr r werr).map (·.2)⟩) := rfl
    cases hr : route r.method r.target with
    | op h p =>
      obtain ⟨path, t1, t2⟩ := (C134_exact _ _ _ _).1 hr
      have hq := (hreq r werr).1 path h p t1 t2
      rw [← h1] at hq
      obtain ⟨k1, k2⟩ := step (h.event r werr p) (by simp only [WEv.low, hr]) (event_notRead h r werr p) (by rw [ho, hq])
      refine ⟨k1, some (h.event r werr p), k2, ?_⟩
      obtain ⟨code, body, cp, vs, a1, a2, a3, a4, a5⟩ := hans r werr path h p t1 t2
      have hcp : cp = if r.body.bad then some (complaint r.text) else none := by
        cases hb : r.body.bad with
        | false => rw [hb] at a3; simpa using a3
        | true =>
          rw [hb] at a3
          simp only [if_true] at a3
          obtain ⟨t, b1, b2⟩ := a3
          rw [b2, seen_unique b1 (hc _)]
          rfl
      subst hcp
      rw [ho, hq, h1, a1, hstep]
      exact .asked t1 t2 a4 a5 a2
    | status code =>
      have hno : ∀ path h p, IsTarget r.target path → ¬ AsksFor r.method path h p := fun path h p t1 t2 => by
        have := (C134_exact _ _ _ _).2 ⟨path, t1, t2⟩
        rw [hr] at this
        cases this
      obtain ⟨k1, code', k2, k3⟩ := (hreq r werr).2 hno
      have hsame := same (by simp only [WEv.low, hr])
      have ha : w.sys.answer env wr r werr = none := by simp only [Sys.answer, hr]
      refine ⟨⟨?_, ?_⟩, none, by rw [hsame]; simp, ?_⟩
      · rw [ho, hsame, h1, k1]
      · rw [ho, hsame]; exact h2
      · rw [ho, ha, h1, k3]
        exact .astray hno k2

/-- Whatever bytes arrive on whatever connections, whatever requests are made and whatever jobs run, in whatever order: what
leaves the server, byte for byte on the connections and with the bodies of the answers, is what the reference server and the
JSON standard say, and its frames are at any time those the bytes so far consist of. -/
theorem C139_outside (env : Env) (wr : Writing) (instant : Nat → List Nat) (time : Civil → List Nat) (complaint : Str → List Nat)
    (hw : Sound wr instant time) (hc : ∀ t, Seen (wr.bindErr t) (complaint t)) (evs : List WEv) :
    ∃ fs, Behaves env instant time complaint evs (ByteSys.start.runOutside env wr evs).2 fs := by
  have key : Behaves env instant time complaint evs (ByteSys.start.runOutside env wr evs).2
      (toFrames (fun _ => RecvSt.fresh) (evs.filterMap WEv.low)) ∧ Abreast env evs (ByteSys.start.runOutside env wr evs).1 := by
    induction evs using snoc_ind with
    | h0 => exact ⟨.start, rfl, rfl⟩
    | h1 evs e ih =>
      obtain ⟨i1, i2⟩ := ih
      rw [runOutside_snoc]
      obtain ⟨j1, x, j2, j3⟩ := abreast_step env wr instant time complaint hw hc evs e _ i2
      refine ⟨?_, j1⟩
      rw [j2]
      refine .step i1 j3 (fun c => ?_)
      rw [← j2, ← low_reads]
      simpa using cut_frames c ((evs ++ [e]).filterMap WEv.low) (fun _ => RecvSt.fresh) [] (.out [] (by simp))
  exact ⟨_, key.1⟩

theorem Spec.Behaves.none {env : Env} {instant : Nat → List Nat} {time : Civil → List Nat} {complaint : Str → List Nat}
    {l : List WEv} {outs : List WOut} {fs : List Ev} (h : Behaves env instant time complaint l outs fs) (hl : l = []) :
    outs = [] ∧ fs = [] := by
  cases h with
  | start => exact ⟨rfl, rfl⟩
  | step => simp at hl

theorem Spec.Behaves.last {env : Env} {instant : Nat → List Nat} {time : Civil → List Nat} {complaint : Str → List Nat}
    {l : List WEv} {outs : List WOut} {fs : List Ev} (h : Behaves env instant time complaint l outs fs) {evs : List WEv} {e : WEv}
    (hl : l = evs ++ [e]) : ∃ outs0 fs0 x o, outs = outs0 ++ [o] ∧ fs = fs0 ++ Option.toList x ∧
      Behaves env instant time complaint evs outs0 fs0 ∧ Shows env instant time complaint (Book.start.run env fs0).1 e x o ∧
      ∀ c, Cut ((evs ++ [e]).filterMap (readOn c)) ((fs0 ++ x.toList).filterMap (Ev.readOn c)) := by
  cases h with
  | start => simp at hl
  | step a b c =>
    obtain ⟨rfl, h2⟩ := List.append_inj' hl rfl
    injection h2 with h2 _
    subst h2
    exact ⟨_, _, _, _, rfl, rfl, a, b, c⟩

/-- And this leaves the server no choice, in what the frames are and in what it sends to whom and whom it hangs up on. -/
theorem C139_determined (env : Env) (instant : Nat → List Nat) (time : Civil → List Nat) (complaint : Str → List Nat)
    (evs : List WEv) (outs outs' : List WOut) (fs fs' : List Ev) (h : Behaves env instant time complaint evs outs fs)
    (h' : Behaves env instant time complaint evs outs' fs') :
    fs = fs' ∧ outs.map (fun o => (o.obs.sent, o.obs.ended)) = outs'.map (fun o => (o.obs.sent, o.obs.ended)) := by
  induction evs using snoc_ind generalizing outs outs' fs fs' with
  | h0 =>
    obtain ⟨rfl, rfl⟩ := h.none rfl
    obtain ⟨rfl, rfl⟩ := h'.none rfl
    exact ⟨rfl, rfl⟩
  | h1 evs e ih =>
    obtain ⟨outs1, fs1, x1, o1, rfl, rfl, a1, a2, a3⟩ := h.last rfl
    obtain ⟨outs2, fs2, x2, o2, rfl, rfl, b1, b2, b3⟩ := h'.last rfl
    obtain ⟨rfl, i2⟩ := ih _ _ _ _ a1 b1
    have hx : ∀ c, x1.toList.filterMap (Ev.readOn c) = x2.toList.filterMap (Ev.readOn c) := fun c => by
      have := C97_cut_unique (a3 c) (b3 c)
      rw [List.filterMap_append, List.filterMap_append] at this
      exact List.append_cancel_left this
    suffices x1 = x2 ∧ (o1.obs.sent, o1.obs.ended) = (o2.obs.sent, o2.obs.ended) by
      obtain ⟨rfl, e2⟩ := this
      exact ⟨rfl, by rw [List.map_append, List.map_append, i2]; simp only [List.map_cons, List.map_nil, e2]⟩
    cases a2 with
    | @within clk c x werr =>
      cases b2 with
      | within => exact ⟨rfl, rfl⟩
      | frame f => have := hx c; simp [Ev.readOn] at this
    | @frame clk c x werr f =>
      cases b2 with
      | within => have := hx c; simp [Ev.readOn] at this
      | frame f' =>
        have := hx c
        simp [Ev.readOn] at this
        subst this
        exact ⟨rfl, rfl⟩
    | fail => cases b2; exact ⟨rfl, rfl⟩
    | accept => cases b2; exact ⟨rfl, rfl⟩
    | job => cases b2; exact ⟨rfl, rfl⟩
    | asked t1 t2 _ _ _ =>
      cases b2 with
      | asked t1' t2' _ _ _ =>
        obtain ⟨-, rfl, rfl⟩ := C134_one_terminal _ _ _ _ _ _ _ _ t1 t2 t1' t2'
        exact ⟨rfl, rfl⟩
      | astray hn _ => exact absurd t2 (hn _ _ _ t1)
    | astray hn _ =>
      cases b2 with
      | asked t1' t2' _ _ _ => exact absurd t2' (hn _ _ _ t1')
      | astray _ _ => exact ⟨rfl, rfl⟩

/-! ## Examples -/

/-- Two connections are opened; on the first some noise and a registration arrive byte by byte, between them a request with a
target that names nothing; then positions are asked for, with an escape in the target. -/
def outsideEvs : List WEv :=
  [.accept [0x61], .accept [0x62], .byte (demoClk 1000) demoC 0x39 none, .request ⟨.get, demoTarget "/devices", false, []⟩ none] ++
  demoReg.map (fun b => WEv.byte (demoClk 1000) demoC b none) ++
  [.request ⟨.get, demoTarget "/device/" ++ (hdr2013 0).phone ++ demoTarget "/%67eo", false, []⟩ none,
   .request ⟨.put, demoTarget "/device/7/params", true, demoTarget "{}"⟩ none]

-- the registration is answered, the misspelt path is not found, there is no position yet, and no terminal 7
example : ((ByteSys.start.runOutside goEnv plainWriting outsideEvs).2.filterMap (fun o => o.obs.sent.map (·.1))) = [demoC] ∧
    ((ByteSys.start.runOutside goEnv plainWriting outsideEvs).2.filterMap (·.obs.http)) = [404, 200, 400] ∧
    ((ByteSys.start.runOutside goEnv plainWriting outsideEvs).2.filterMap (·.body)) =
      [[], demoTarget "{\"err\":\"device not found\"}"] := by decide +kernel

-- the hypothesis about complaints
example : ∀ t, Seen (plainWriting.bindErr t) (chars "EOF") := fun _ => seen_name (by unfold PlainName; decide)

end JT808
