import Verif.Props.Again
import Verif.Props.Serials
import Verif.Props.Initiated
import Verif.Props.Panics
import Verif.Props.Endings
/-
C101: what the server keeps, and what it never gives back.
-/
namespace JT808
open Spec

/-! ## Sessions are given back -/

/-- No address has two sessions. -/
def SessNodup (s : Sys) : Prop := (AMap.keys s.st.sessions).Nodup

theorem nodup_remove {st : Store} (c : Conn) (h : (AMap.keys st.sessions).Nodup) :
    (AMap.keys (st.remove c).sessions).Nodup := AMap.nodup_del c.addr h

theorem nodup_drops {st st' : Store} (hd : Drops st st') (h : (AMap.keys st.sessions).Nodup) :
    (AMap.keys st'.sessions).Nodup := by
  rcases hd with hd | ⟨id, c, -, e1, -⟩
  · rw [hd.1]; exact h
  · rw [e1]; exact nodup_remove c h

theorem step_nodup (env : Env) (s : Sys) (e : Ev) (hi : StoreInv s.st) (h : SessNodup s) : SessNodup (s.step env e).1 := by
  unfold SessNodup at *
  unfold Sys.step
  by_cases hcr : s.crashed = true
  · rw [if_pos hcr]; exact h
  · rw [if_neg hcr]
    cases e with
    | accept a => exact AMap.nodup_set _ _ h
    | frame clk c bytes werr =>
      simp only
      by_cases hl : c ∈ s.live
      · rw [if_pos hl]
        rcases serveFrame_conns env clk c werr hi bytes with ⟨-, e2, -⟩ | ⟨-, e2, -⟩
        · simp only [e2]; exact h
        · simp only [e2]; exact nodup_remove c h
      · rw [if_neg hl]; exact h
    | readErr c e =>
      simp only
      by_cases hl : c ∈ s.live
      · rw [if_pos hl]
        rcases serveErr_conns c s.st e with ⟨-, e2⟩ | ⟨-, e2⟩
        · simp only [e2]; exact h
        · simp only [e2]; exact nodup_remove c h
      · rw [if_neg hl]; exact h
    | check clk p =>
      simp only
      by_cases hj : p ∈ s.st.jobs
      · rw [if_pos hj]
        have := (check_conns (clk := clk) hi hj).1
        simp only [this]; exact h
      · rw [if_neg hj]; exact h
    | httpList => exact h
    | httpGeo p =>
      show (AMap.keys (s.st.apiGeo p).1.sessions).Nodup
      rw [(apiGeo_conns s.st p).1]; exact h
    | httpQuery p werr => exact nodup_drops (apiQuery_conns _ _) h
    | httpSet p b bad werr => exact nodup_drops (apiSet_conns _ _ _ _) h

theorem run_nodup (env : Env) (evs : List Ev) : SessNodup (Sys.start.run env evs).1 := by
  induction evs using snoc_ind with
  | h0 => exact List.nodup_nil
  | h1 evs e ih => rw [run_snoc]; exact step_nodup env _ e (reachable_inv env evs).1 ih

/-- Sessions are given back: after any history the server keeps no more sessions than connections it serves. -/
theorem C101_sessions_bounded (env : Env) (evs : List Ev) :
    (Sys.start.run env evs).1.st.sessions.length ≤ (Sys.start.run env evs).1.live.length := by
  have hn := run_nodup env evs
  have hs := reachable_sess env evs
  unfold SessNodup at hn
  generalize (Sys.start.run env evs).1 = s at hn hs
  have hv : (s.st.sessions.map (·.2)).Nodup := by
    have : (s.st.sessions.map (·.2)).map (·.addr) = AMap.keys s.st.sessions := by
      rw [List.map_map]
      refine List.map_congr_left ?_
      intro e he
      exact (hs.served e.1 e.2 ((AMap.mem_iff_get hn e.1 e.2).1 he)).2
    rw [← this] at hn
    exact List.Pairwise.of_map _ (fun a b hab e => hab (by rw [e])) hn
  have := hv.length_le_of_subset (l₂ := s.live) (fun c hc => by
    obtain ⟨e, he, rfl⟩ := List.mem_map.1 hc
    exact (hs.served e.1 e.2 ((AMap.mem_iff_get hn e.1 e.2).1 he)).1)
  simpa using this

/-! ## Parameters are not -/

theorem Eff.paramsKept {p : Str} {c : Conn} {st st' : Store} (e : Eff p c st st') (q : Str)
    (h : (st.params.get q).isSome) : (st'.params.get q).isSome := by
  induction e with
  | quiet _ _ hq => rw [hq]; exact h
  | touch _ _ => exact h
  | @drop st r _ => rw [(delByPhone_rest _ _).2.1]; exact h
  | @reg st d _ _ _ _ _ _ _ => exact h
  | geo _ => exact h
  | @params st q' _ _ =>
    show ((st.params.set p q').get q).isSome
    rw [AMap.get_set]
    split
    · rfl
    · exact h
  | trans _ _ ih1 ih2 => exact ih2 (ih1 h)

theorem check_params {clk : Clock} (st : Store) (p : Str) : (st.check clk p).1.params = st.params := by
  unfold Store.check
  split
  · rfl
  · simp only
    split
    · rfl
    · split
      · split
        · rfl
        · simp only [Store.cancelJob, Store.delGeo, (delByPhone_rest _ _).2.1]; rfl
      · rfl

theorem apiGeo_params (st : Store) (p : Str) : (st.apiGeo p).1.params = st.params := by
  unfold Store.apiGeo Store.geoLatest Store.geoRing
  cases st.devByPhone p with
  | none => rfl
  | some r =>
    simp only
    cases st.geos.get p with
    | some rb =>
      simp only
      cases rb.latest with
      | ok o => cases o <;> rfl
      | err e => rfl
      | panic => rfl
    | none => rfl

theorem step_params (env : Env) (s : Sys) (e : Ev) (hi : StoreInv s.st) (q : Str) (h : (s.st.paramsOf q).isSome) :
    ((s.step env e).1.st.paramsOf q).isSome := by
  unfold Store.paramsOf at *
  unfold Sys.step
  by_cases hcr : s.crashed = true
  · rw [if_pos hcr]; exact h
  · rw [if_neg hcr]
    cases e with
    | accept a => exact h
    | frame clk c bytes werr =>
      simp only
      by_cases hl : c ∈ s.live
      · rw [if_pos hl]
        obtain ⟨p, he⟩ := serveFrame_eff' (env := env) (clk := clk) (c := c) (werr := werr) hi bytes
        exact he.paramsKept q h
      · rw [if_neg hl]; exact h
    | readErr c e =>
      simp only
      by_cases hl : c ∈ s.live
      · rw [if_pos hl]
        rcases serveErr_conns c s.st e with ⟨-, e2⟩ | ⟨-, e2⟩ <;> simp only [e2] <;> exact h
      · rw [if_neg hl]; exact h
    | check clk p =>
      simp only
      by_cases hj : p ∈ s.st.jobs
      · rw [if_pos hj]; simp only [check_params]; exact h
      · rw [if_neg hj]; exact h
    | httpList => exact h
    | httpGeo p =>
      show ((s.st.apiGeo p).1.params.get q).isSome
      rw [apiGeo_params]; exact h
    | httpQuery p werr => exact (apiQuery_quiet p ⟨0, []⟩ s.st p).paramsKept q h
    | httpSet p b bad werr => exact (apiSet_quiet p ⟨0, []⟩ s.st p b bad).paramsKept q h

theorem run_params (env : Env) (evs : List Ev) (s : Sys) (hi : StoreInv s.st) (q : Str) (h : (s.st.paramsOf q).isSome) :
    ((s.run env evs).1.st.paramsOf q).isSome := by
  induction evs generalizing s with
  | nil => exact h
  | cons e evs ih => exact ih _ (step_inv env s e hi).1 (step_params env s e hi q h)

/-- Parameters are never given back: once the server keeps parameters for a phone, it does so for ever, whatever
happens to the terminal and its connections. -/
theorem C101_parameters_kept (env : Env) (evs evs' : List Ev) (p : Str)
    (h : ((Sys.start.run env evs).1.st.paramsOf p).isSome) :
    ((Sys.start.run env (evs ++ evs')).1.st.paramsOf p).isSome := by
  rw [run_append]
  exact run_params env evs' _ (reachable_inv env evs).1 p h

/-- Nor are the locations of a terminal that signed off: as long as nobody registers its phone again, its track is
kept unchanged, whatever else happens.  (Only a keepalive check that removes the terminal deletes its track.) -/
theorem C101_track_lingers (env : Env) (evs evs' : List Ev) (p : Str)
    (hn : ∀ k ≤ evs'.length, (Sys.start.run env (evs ++ evs'.take k)).1.st.look p = none) :
    (Sys.start.run env (evs ++ evs')).1.st.track p = (Sys.start.run env evs).1.st.track p := by
  induction evs' using snoc_ind with
  | h0 => rw [List.append_nil]
  | h1 l e ih =>
    have hl : (Sys.start.run env (evs ++ l)).1.st.look p = none := by
      have := hn l.length (by simp)
      rwa [List.take_left] at this
    rw [← List.append_assoc, run_snoc, step_other_track env _ e (reachable_inv env _).1 p, ih]
    · intro k hk
      have := hn k (by simp; omega)
      rwa [List.take_append_of_le_length hk] at this
    · rintro g ⟨clk, c, bytes, werr, h, m, -, -, -, -, hs, -⟩
      rw [hl] at hs; cases hs
    · rintro ⟨clk, d, -, hd, -⟩
      rw [hl] at hd; cases hd

/-- A terminal registers, reports where it is, signs off; two days pass. -/
def lingerEvs : List Ev :=
  demoEvs ++ [.frame (demoClk 2000) demoC (demoLoc 3 31230000) none, .frame (demoClk 3000) demoC demoBye none]
def lingerLater : List Ev := [.readErr demoC .eof, .check (demoClk 172800000) (hdr2013 0).phone]

example : (∀ k ≤ lingerLater.length, (Sys.start.run goEnv (lingerEvs ++ lingerLater.take k)).1.st.look (hdr2013 0).phone = none) ∧
    (((Sys.start.run goEnv (lingerEvs ++ lingerLater)).1.st.track (hdr2013 0).phone).cont.getD 0 none).isSome := by
  decide +kernel

/-! A peer that registers nobody asks for the parameters of as many phones as it likes, and leaves. -/

/-- The query for the parameters of a phone, in the 2013 layout: a frame of fifteen bytes and escapes. -/
def askHeader (p : Str) : Header := { hdr2013 0x8104 with phone := p }
def askFrame (p : Str) : List UInt8 := encodeFrame (writeHeader (askHeader p) [])

def leaver : Conn := ⟨0, [0x61]⟩

/-- Connect, ask for every phone of the list, hang up. -/
def askAll (clk : Clock) (phones : List Str) : List Ev :=
  [.accept [0x61]] ++ phones.map (fun p => .frame clk leaver (askFrame p) none) ++ [.readErr leaver .eof]

theorem askHeader_wf {p : Str} (hp : PhoneWF .v2013 p) : (askHeader p).WF :=
  ⟨(hdr2013_wf 0x8104).attr, hp, fun _ => rfl, rfl⟩

theorem askFrame_holds (env : Env) (now : Civil) {p : Str} (hp : PhoneWF .v2013 p) :
    Holds env now (askFrame p) ((askHeader p).withBodyLength 0) .m8104 := by
  have hcar : FrameCarries env (askHeader p) [] (fun _ => (pure () : Rd Unit)) () :=
    .of_reads env (askHeader_wf hp) [] (by decide) _ _ (by intro _ _ _ _; rfl)
  exact hcar.holds now rfl .t8104 (fun _ => .m8104) rfl (fun _ => rfl)

theorem Reachable.of_run (env : Env) (evs : List Ev) : Reachable env (Sys.start.run env evs).1.st := ⟨evs, rfl⟩

/-- Answering one of these queries. -/
theorem ask_step (env : Env) (clk : Clock) {p : Str} (hp : PhoneWF .v2013 p) (s : Sys) (hr : Reachable env s.st)
    (hc : s.crashed = false) (hl : s.live = [leaver]) (hn : ∀ q, s.st.look q = none) :
    let s' := (s.step env (.frame clk leaver (askFrame p) none)).1
    s'.crashed = false ∧ s'.live = [leaver] ∧ (∀ q, s'.st.look q = none) ∧ (s'.st.paramsOf p).isSome := by
  have hh := askFrame_holds env clk.civil hp
  have hd := hh.delivers s.st
  have hi := hr.inv
  have hend : (s.st.serveFrame env clk leaver none (askFrame p)).2.ended = false := by
    cases he : (s.st.serveFrame env clk leaver none (askFrame p)).2.ended with
    | false => rfl
    | true =>
      exfalso
      rcases (C94_server_exact env clk leaver s.st _).1 he with h1 | ⟨h, m, h1, h2, -⟩ | ⟨h, ⟨st1, pkt, h1, h2, -, h3⟩, -⟩
      · exact C95_whole_message env clk leaver s.st hr _ _ _ hd h1
      · obtain ⟨-, e⟩ := hd.unique h1; subst e; cases h2
      · obtain ⟨st2, pkt2, t, j, e1, e2, -, e4, -⟩ := hd
        rw [e1] at h1; cases h1
        rw [e2] at h2; subst h2
        rw [h3] at e4; cases e4
  have hst : (s.step env (.frame clk leaver (askFrame p) none)).1 =
      { s with st := (s.st.serveFrame env clk leaver none (askFrame p)).1 } := by
    simp only [Sys.step, hc, hl, List.mem_singleton, if_true, hend]
    simp
  simp only [hst]
  refine ⟨hc, hl, ?_, ?_⟩
  · intro q
    rw [look_serveFrame hi hd]
    split
    · rename_i hq; rw [← hq, hn]; rfl
    · exact hn q
  · have key : ((s.st.handleFrame env clk leaver (askFrame p)).1.params.get p).isSome := by
      rw [hh.handle]
      have hph : ((askHeader p).withBodyLength 0).phone = p := rfl
      have h1 : ((s.st.handle env clk leaver ((askHeader p).withBodyLength 0) .m8104).1.params.get p).isSome := by
        simp only [Store.handle, process8104, Store.paramsOf, hph]
        cases ho : s.st.params.get p with
        | some q => simp only [ho]; rfl
        | none =>
          obtain ⟨q, j, e⟩ := fixedDecode_ok env p
          simp only [e, Store.cacheParams, fixedDecode_phone e, AMap.get_set_self]; rfl
      rw [finish_fst]; exact h1
    rcases serveFrame_handle (env := env) (clk := clk) (c := leaver) (werr := none) (st := s.st) (frame := askFrame p)
      with e | e
    · simp only [Store.paramsOf]; rw [e]; exact key
    · simp only [Store.paramsOf]
      rw [e]
      generalize (s.st.handleFrame env clk leaver (askFrame p)).1 = st' at key
      exact key

/-- What is never given back can be piled up by anybody: a peer that connects, asks for the parameters of any phones
it likes and hangs up leaves no connection, no session and no terminal behind, but the built-in parameters of every
one of these phones, and they are kept whatever happens afterwards. -/
theorem C101_anyone_piles_up (env : Env) (clk : Clock) (phones : List Str) (hp : ∀ p ∈ phones, PhoneWF .v2013 p) :
    let s := (Sys.start.run env (askAll clk phones)).1
    s.live = [] ∧ s.st.sessions = [] ∧ s.st.apiList.1 = [] ∧
    ∀ evs', ∀ p ∈ phones, ((Sys.start.run env (askAll clk phones ++ evs')).1.st.paramsOf p).isSome := by
  have key : ∀ l : List Str, (∀ p ∈ l, PhoneWF .v2013 p) →
      let evs := [.accept [0x61]] ++ l.map (fun p => Ev.frame clk leaver (askFrame p) none)
      let s := (Sys.start.run env evs).1
      s.crashed = false ∧ s.live = [leaver] ∧ (∀ q, s.st.look q = none) ∧ ∀ p ∈ l, (s.st.paramsOf p).isSome := by
    intro l
    induction l using snoc_ind with
    | h0 => intro _; exact ⟨rfl, rfl, fun _ => rfl, fun p h => by cases h⟩
    | h1 l a ih =>
      intro h
      obtain ⟨h1, h2, h3, h4⟩ := ih (fun p hp => h p (List.mem_append_left _ hp))
      have hs := ask_step env clk (h a (by simp)) _ (.of_run env _) h1 h2 h3
      simp only [List.map_append, List.map_cons, List.map_nil, ← List.append_assoc, run_snoc] at hs ⊢
      refine ⟨hs.1, hs.2.1, hs.2.2.1, ?_⟩
      intro p hm
      rcases List.mem_append.1 hm with hm | hm
      · exact step_params env _ _ (reachable_inv env _).1 p (h4 p hm)
      · rw [List.mem_singleton] at hm; subst hm; exact hs.2.2.2
  obtain ⟨k1, k2, k3, k4⟩ := key phones hp
  have hrun : (Sys.start.run env (askAll clk phones)).1 =
      ((Sys.start.run env ([.accept [0x61]] ++ phones.map (fun p => Ev.frame clk leaver (askFrame p) none))).1.step env
        (.readErr leaver .eof)).1 := by
    unfold askAll; rw [run_snoc]
  have hlive : (Sys.start.run env (askAll clk phones)).1.live = [] := by
    rw [hrun]
    clear hrun k3 k4
    generalize (Sys.start.run env ([.accept [0x61]] ++ phones.map (fun p => Ev.frame clk leaver (askFrame p) none))).1 = s at k1 k2
    simp [Sys.step, k1, k2, Store.serveErr, Err.endsServe]
  refine ⟨hlive, ?_, ?_, ?_⟩
  · have := C101_sessions_bounded env (askAll clk phones)
    rw [hlive] at this
    exact List.length_eq_zero_iff.1 (Nat.le_zero.1 this)
  · have hlen := C62_length env _ (.of_run env (askAll clk phones))
    have hj : (Sys.start.run env (askAll clk phones)).1.st.jobs = [] := by
      have hi := (reachable_inv env (askAll clk phones)).1
      have hn : ∀ q, (Sys.start.run env (askAll clk phones)).1.st.look q = none := by
        intro q
        rw [hrun]
        simp only [Sys.step, k1, k2, List.mem_singleton, if_true]
        exact k3 q
      refine List.eq_nil_iff_forall_not_mem.2 ?_
      intro q hq
      have h1 := (hi.jobs q).1 hq
      have h2 := Store.look_none.1 (hn q)
      rw [h2] at h1; cases h1
    rw [hj] at hlen
    exact List.length_eq_zero_iff.1 hlen
  · intro evs' p hm
    refine C101_parameters_kept env _ evs' p ?_
    rw [hrun]
    exact step_params env _ _ (reachable_inv env _).1 p (k4 p hm)

-- a thousand-and-one phones of twelve digits are easily told apart
example : PhoneWF .v2013 (digitStr [0,1,3,8,0,0,1,3,8,0,0,1]) ∧ PhoneWF .v2013 (digitStr [9,9,9,9,9,9,9,9,9,9,9,9]) :=
  ⟨⟨by decide +kernel, by decide +kernel⟩, ⟨by decide +kernel, by decide +kernel⟩⟩
example : (askFrame (digitStr [0,1,3,8,0,0,1,3,8,0,0,1])).length = 15 := by decide +kernel
example : let s := (Sys.start.run goEnv (askAll (demoClk 0) [digitStr [0,1,3,8,0,0,1,3,8,0,0,1], (hdr2013 0).phone])).1
    s.st.params.length = 2 ∧ s.st.sessions = [] ∧ s.live = [] ∧
    (s.st.params.map fun e => e.2.params.length) = [39, 39] := by decide +kernel

end JT808
