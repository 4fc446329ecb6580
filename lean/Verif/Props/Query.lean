import Verif.Proof.Sessions
/-
C40, C50, C55, C56: what HTTP requests and session lookups return after whole histories.
-/
namespace JT808
open Spec

/-! ## C40 the newest location -/

theorem geoLatest_eq (st : Store) (p : Str) : (st.geoLatest p).2 =
    match (st.track p).latest with
    | .ok (some g) => .ok g
    | .ok none => .err .gisNotFound
    | .err e => .err e
    | .panic => .panic := by
  unfold Store.geoLatest Store.geoRing Store.track
  cases st.geos.get p with
  | some rb =>
    simp only [Option.getD_some]
    cases rb.latest with
    | ok o => cases o <;> rfl
    | err e => rfl
    | panic => rfl
  | none => rfl

theorem apiGeo_eq (st : Store) (p : Str) (d : Device) (o : Option DeviceGeo) (hd : st.look p = some d)
    (hl : (st.track p).latest = .ok o) : (st.apiGeo p).2 = (200, o.map fun g => (d, g)) := by
  obtain ⟨r, hr, rfl⟩ := Store.look_some.1 hd
  have hg := geoLatest_eq st p
  have hh : (st.geoLatest p).1.heap = st.heap := by
    unfold Store.geoLatest Store.geoRing
    cases st.geos.get p with
    | some rb =>
      simp only
      cases rb.latest with
      | ok o => cases o <;> rfl
      | err e => rfl
      | panic => rfl
    | none => rfl
  rw [hl] at hg
  unfold Store.apiGeo Store.devByPhone
  rw [hr]
  simp only
  cases hx : st.geoLatest p with
  | mk st1 res =>
    rw [hx] at hg hh
    simp only at hg hh
    subst hg
    cases o with
    | none => rfl
    | some g => simp only [hh]; rfl

/-- The location query of a registered phone after any history: let `gs` be the reports handled for it since a keepalive
check last removed it (`Track`, and there is exactly such a list for every history).  The answer is the last of them,
unless their number is a multiple of 100; then no location is returned.  Missing for the full C40: that case. -/
theorem C40_newest_partial (env : Env) (evs : List Ev) (p : Str) (gs : List DeviceGeo) (ht : Track env p evs gs)
    (d : Device) (hd : (Sys.start.run env evs).1.st.look p = some d) :
    ((Sys.start.run env evs).1.st.apiGeo p).2 =
      (200, if gs.length % 100 = 0 then none else gs.getLast?.map fun g => (d, g)) := by
  have hl := ht.ring.latest (by decide)
  have := apiGeo_eq _ p d _ hd hl
  rw [this]
  show (200, (if gs.length % 100 = 0 then none else gs.getLast?).map _) = _
  by_cases h : gs.length % 100 = 0
  · rw [if_pos h, if_pos h]; rfl
  · rw [if_neg h, if_neg h]

theorem reports_unique {env : Env} {s : Sys} {p : Str} {e : Ev} {g g' : DeviceGeo} (h : e.reports env s p g)
    (h' : e.reports env s p g') : g = g' := by
  obtain ⟨clk, c, bytes, werr, hd, m, rfl, -, hdl, -, -, rfl⟩ := h
  obtain ⟨clk', c', bytes', werr', hd', m', he, -, hdl', -, -, rfl⟩ := h'
  injection he with h1 h2 h3 h4
  subst h1; subst h3
  have := (hdl.unique hdl').2
  injection this with this
  rw [this]

theorem reports_not_clears {env : Env} {s : Sys} {p : Str} {e : Ev} {g : DeviceGeo} (h : e.reports env s p g) :
    ¬ e.clears s p := by
  obtain ⟨clk, c, bytes, werr, hd, m, rfl, -⟩ := h
  rintro ⟨clk', d, he, -⟩
  cases he

/-- Every history has exactly one such list. -/
theorem C40_track_exists_unique (env : Env) (p : Str) (evs : List Ev) :
    ∃ gs, Track env p evs gs ∧ ∀ gs', Track env p evs gs' → gs' = gs := by
  obtain ⟨gs, h⟩ := Track.exists env p evs
  refine ⟨gs, h, ?_⟩
  induction h with
  | nil =>
    intro gs' h'
    generalize he : ([] : List Ev) = evs' at h'
    cases h' with
    | nil => rfl
    | report => simp at he
    | clear => simp at he
    | other => simp at he
  | @report evs gs e g ht hr ih =>
    intro gs' h'
    generalize he : evs ++ [e] = evs' at h'
    cases h' with
    | nil => simp at he
    | report ht' hr' =>
      obtain ⟨rfl, h2⟩ := List.append_inj' he rfl; injection h2 with h2; subst h2
      rw [ih _ ht', reports_unique hr hr']
    | clear ht' hc' =>
      obtain ⟨rfl, h2⟩ := List.append_inj' he rfl; injection h2 with h2; subst h2
      exact absurd hc' (reports_not_clears hr)
    | other ht' hr' _ =>
      obtain ⟨rfl, h2⟩ := List.append_inj' he rfl; injection h2 with h2; subst h2
      exact absurd hr (hr' g)
  | @clear evs gs e ht hc ih =>
    intro gs' h'
    generalize he : evs ++ [e] = evs' at h'
    cases h' with
    | nil => rfl
    | report ht' hr' =>
      obtain ⟨rfl, h2⟩ := List.append_inj' he rfl; injection h2 with h2; subst h2
      exact absurd hc (reports_not_clears hr')
    | clear ht' hc' => rfl
    | other ht' hr' hc' =>
      obtain ⟨rfl, h2⟩ := List.append_inj' he rfl; injection h2 with h2; subst h2
      exact absurd hc hc'
  | @other evs gs e ht hr hc ih =>
    intro gs' h'
    generalize he : evs ++ [e] = evs' at h'
    cases h' with
    | nil => simp at he
    | report ht' hr' =>
      obtain ⟨rfl, h2⟩ := List.append_inj' he rfl; injection h2 with h2; subst h2
      exact absurd hr' (hr _)
    | clear ht' hc' =>
      obtain ⟨rfl, h2⟩ := List.append_inj' he rfl; injection h2 with h2; subst h2
      exact absurd hc' hc
    | other ht' hr' hc' =>
      obtain ⟨rfl, h2⟩ := List.append_inj' he rfl; injection h2 with h2; subst h2
      exact ih _ ht'

theorem location_keeps_serving {env : Env} {clk : Clock} {c : Conn} {st : Store} {bytes : List UInt8} {h : Header}
    {m : LocMsg} (hi : StoreInv st) (hdl : Delivers env clk.civil st bytes h (.m0200 m)) (hl : (st.look h.phone).isSome) :
    (st.serveFrame env clk c none bytes).2.ended = false := by
  unfold Store.serveFrame
  obtain ⟨sg, e⟩ := hdl.handle c
  obtain ⟨d, hd⟩ := Option.isSome_iff_exists.1 hl
  obtain ⟨r, hr, -⟩ := Store.look_some.1 hd
  have hi' : StoreInv { st with segs := sg } := hi.of_same ⟨rfl, rfl, rfl, rfl, rfl⟩ hi.rings hi.params
  obtain ⟨rb', -, -, e3⟩ := process0200_eq (clk := clk) hi' (hd := h) hr m
  rw [e]
  simp only [Store.handle]
  rw [e3, finish_gen8001]

/-- The demo terminal reports `n` times. -/
def reportEvs (n : Nat) : List Ev :=
  demoEvs ++ List.replicate n (.frame (demoClk 2000) demoC (demoLoc 3 31230000) none)

/-- Its state in between. -/
theorem reportEvs_track (n : Nat) :
    Track goEnv (hdr2013 0).phone (reportEvs n)
      (List.replicate n (DeviceGeo.decode (demoClk 2000).civil (hdr2013 0).phone (demoLocMsg 3 31230000))) ∧
    demoC ∈ (Sys.start.run goEnv (reportEvs n)).1.live ∧
    (Sys.start.run goEnv (reportEvs n)).1.st.look (hdr2013 0).phone = demoSys.st.look (hdr2013 0).phone := by
  induction n with
  | zero =>
    refine ⟨?_, by decide +kernel, by decide +kernel⟩
    have nf : ∀ (l : List Ev) (e : Ev) (gs : List DeviceGeo), Track goEnv (hdr2013 0).phone l gs →
        (∀ clk c bytes werr, e = .frame clk c bytes werr → (Sys.start.run goEnv l).1.st.look (hdr2013 0).phone = none) →
        (∀ clk p, e ≠ .check clk p) → Track goEnv (hdr2013 0).phone (l ++ [e]) gs := by
      intro l e gs ht h1 h2
      refine .other ht ?_ ?_
      · rintro g ⟨clk, c, bytes, werr, hd, m, he, -, -, -, hs, -⟩
        rw [h1 _ _ _ _ he] at hs; cases hs
      · rintro ⟨clk, d, he, -⟩
        exact h2 _ _ he
    have t1 := nf [] (.accept [0x61]) _ .nil (by intros; rfl) (by intro _ _ h; cases h)
    have t2 := nf _ (.accept [0x62]) _ t1 (by intros; rfl) (by intro _ _ h; cases h)
    exact nf _ (.frame (demoClk 1000) demoC demoReg none) _ t2 (by intros; decide +kernel) (by intro _ _ h; cases h)
  | succ n ih =>
    obtain ⟨h1, h2, h3⟩ := ih
    have e1 : reportEvs (n + 1) = reportEvs n ++ [.frame (demoClk 2000) demoC (demoLoc 3 31230000) none] := by
      unfold reportEvs
      rw [List.replicate_succ', List.append_assoc]
    have hi := reachable_inv goEnv (reportEvs n)
    have hdl := (demoLoc_holds (demoClk 2000).civil).delivers (Sys.start.run goEnv (reportEvs n)).1.st
    have hlk : ((Sys.start.run goEnv (reportEvs n)).1.st.look (hdr2013 0).phone).isSome := by
      rw [h3]; decide +kernel
    have hp : ((hdr2013 0x0200).withBodyLength 28).phone = (hdr2013 0).phone := rfl
    rw [e1]
    refine ⟨?_, ?_, ?_⟩
    · rw [List.replicate_succ']
      exact .report h1 ⟨_, _, _, _, _, _, rfl, h2, hdl, rfl, hlk, rfl⟩
    · rw [run_snoc]
      unfold Sys.step
      rw [if_neg (by rw [hi.2]; simp)]
      simp only
      rw [if_pos h2]
      simp only
      have : ((Sys.start.run goEnv (reportEvs n)).1.st.serveFrame goEnv (demoClk 2000) demoC none
          (demoLoc 3 31230000)).2.ended = false := by
        exact location_keeps_serving hi.1 hdl (by rw [hp]; exact hlk)
      rw [if_neg (by rw [this]; simp)]
      exact h2
    · rw [run_snoc]
      unfold Sys.step
      rw [if_neg (by rw [hi.2]; simp)]
      simp only
      rw [if_pos h2]
      simp only
      rw [look_serveFrame hi.1 hdl, hp, if_pos rfl, h3]
      obtain ⟨d, hd⟩ := Option.isSome_iff_exists.1 hlk
      rw [h3] at hd
      rw [hd]
      simp only [devNext]
      rw [if_neg (by decide)]

/-- The opposite of C40: after its hundredth report the terminal is registered and has no location. -/
theorem C40_hundredth_report_lost :
    ((Sys.start.run goEnv (reportEvs 99)).1.st.apiGeo (hdr2013 0).phone).2.2.isSome ∧
    ((Sys.start.run goEnv (reportEvs 100)).1.st.apiGeo (hdr2013 0).phone).2 = (200, none) := by
  have hd : ∃ d, demoSys.st.look (hdr2013 0).phone = some d :=
    Option.isSome_iff_exists.1 (by decide +kernel)
  obtain ⟨d, hd⟩ := hd
  obtain ⟨t1, -, l1⟩ := reportEvs_track 99
  obtain ⟨t2, -, l2⟩ := reportEvs_track 100
  have a := C40_newest_partial goEnv _ _ _ t1 d (l1.trans hd)
  have b := C40_newest_partial goEnv _ _ _ t2 d (l2.trans hd)
  rw [List.length_replicate] at a b
  rw [a, b]
  exact ⟨by rfl, by rfl⟩

/-! ## C50 sessions -/

/-- In every history the session found under an address belongs to a connection from that address that is still
served. -/
theorem C50_session_served (env : Env) (evs : List Ev) (a : Str) (c : Conn)
    (h : (Sys.start.run env evs).1.st.session a = some c) : c ∈ (Sys.start.run env evs).1.live ∧ c.addr = a :=
  (reachable_sess env evs).served a c h

/-- In histories without a connection accepted from an address that is still being served, every served connection that
the server has not closed is found under its address.  Missing for the full C50: reused addresses
(C50_reused_address_unreachable), and that connections closed by a keepalive check are no longer found
(C50_closed_still_found). -/
theorem C50_open_found_partial (env : Env) (evs : List Ev)
    (hf : ∀ pre a post, evs = pre ++ .accept a :: post → ∀ c ∈ (Sys.start.run env pre).1.live, c.addr ≠ a)
    (c : Conn) (hl : c ∈ (Sys.start.run env evs).1.live) (hc : (Sys.start.run env evs).1.st.closed c.id = false) :
    (Sys.start.run env evs).1.st.session c.addr = some c :=
  (reachable_distinct env evs hf).found c hl hc

/-- And then an address without a served connection has no session. -/
theorem C50_absent (env : Env) (evs : List Ev) (a : Str) (h : ∀ c ∈ (Sys.start.run env evs).1.live, c.addr ≠ a) :
    (Sys.start.run env evs).1.st.session a = none := by
  cases hs : (Sys.start.run env evs).1.st.session a with
  | none => rfl
  | some c => obtain ⟨h1, h2⟩ := C50_session_served env evs a c hs; exact absurd h2 (h c h1)

/-- The opposite of C50: the terminal reconnects from its old port before the old serve loop has ended; when that ends,
the new connection is open and served, and no session is found for it. -/
theorem C50_reused_address_unreachable :
    let s := (Sys.start.run goEnv [.accept [0x61], .accept [0x61], .readErr ⟨0, [0x61]⟩ .eof]).1
    (⟨1, [0x61]⟩ : Conn) ∈ s.live ∧ s.st.closed 1 = false ∧ s.st.session [0x61] = none := by decide +kernel

/-- And a session is found although a keepalive check has closed its connection. -/
theorem C50_closed_still_found :
    let s := (demoSys.step goEnv (.check (demoClk 110000) (hdr2013 0).phone)).1
    s.st.session [0x61] = some demoC ∧ s.st.closed demoC.id = true := by decide +kernel

example : demoC ∈ demoSys.live ∧ demoSys.st.closed demoC.id = false ∧ demoSys.st.session [0x61] = some demoC := by
  decide +kernel

/-! ## C55 unknown phones -/

/-- The HTTP requests that name a phone. -/
def Ev.asksFor (p : Str) : Ev → Prop
  | .httpGeo q => q = p
  | .httpQuery q _ => q = p
  | .httpSet q _ _ _ => q = p
  | _ => False

/-- After any history, an HTTP request naming an unregistered phone is answered 400, sends nothing and changes
nothing. -/
theorem C55_unknown_phone (env : Env) (evs : List Ev) (p : Str) (e : Ev) (he : e.asksFor p)
    (hp : (Sys.start.run env evs).1.st.look p = none) :
    (Sys.start.run env evs).1.step env e = ((Sys.start.run env evs).1, ⟨none, false, some 400⟩) := by
  have hc := (reachable_inv env evs).2
  have hd := Store.look_none.1 hp
  unfold Sys.step
  rw [if_neg (by rw [hc]; simp)]
  cases e with
  | httpGeo q => cases he; simp only [Store.apiGeo, Store.devByPhone, hd]
  | httpQuery q werr => cases he; simp only [Store.apiQuery, Store.devByPhone, hd]
  | httpSet q bound bad werr => cases he; simp only [Store.apiSet, Store.devByPhone, hd]
  | _ => cases he

example : Ev.asksFor [0x31] (.httpSet [0x31] ⟨[0x31], 0, []⟩ false none) ∧ demoSys.st.look [0x31] = none :=
  ⟨rfl, by decide +kernel⟩
-- a registered phone gets another answer
example : (demoSys.step goEnv (.httpGeo (hdr2013 0).phone)).2.http = some 200 := by decide +kernel

/-! ## C56 malformed bodies -/

/-- What holds of C56: a PUT whose body does not parse is answered 400.  Missing: that nothing is sent, which is false
(C56_malformed_body_sent). -/
theorem C56_answered_400_partial (env : Env) (evs : List Ev) (p : Str) (bound : DeviceParams) (werr : Option Err) :
    ((Sys.start.run env evs).1.step env (.httpSet p bound true werr)).2.http = some 400 := by
  have hc := (reachable_inv env evs).2
  unfold Sys.step
  rw [if_neg (by rw [hc]; simp)]
  simp only [Store.apiSet]
  cases (Sys.start.run env evs).1.st.devByPhone p with
  | none => rfl
  | some r =>
    simp only [if_true, Store.apiSend]
    cases (Sys.start.run env evs).1.st.session ((Sys.start.run env evs).1.st.heap r).sessionID with
    | none => rfl
    | some c =>
      simp only
      split <;> rfl

/-- The message id in a frame. -/
def idOf (frame : List UInt8) : Option UInt16 :=
  match decodeFrame goEnv frame with
  | .ok pd => some pd.header.msgID
  | _ => none

/-- The opposite of C56: a PUT for a connected terminal whose body does not parse (nothing was bound) still sends it a
parameter-setting message. -/
theorem C56_malformed_body_sent :
    let r := demoSys.step goEnv (.httpSet (hdr2013 0).phone ⟨[], 0, []⟩ true none)
    r.2.http = some 400 ∧ r.2.sent.map (fun x => (x.1, idOf x.2)) = some (demoC, some 0x8103) := by decide +kernel

end JT808
