import Verif.Proof.Tracks
/-
Sessions and connections over histories.
-/
namespace JT808
open Spec

/-- What an HTTP request can do to sessions and connections: nothing, or remove the session it wrote to. -/
theorem serverSend_conns {env : Env} {werr : Option Err} (st : Store) (id : Str) (o : Out) :
    ((st.serverSend env werr id o).1.sessions = st.sessions ∧ (st.serverSend env werr id o).1.closed = st.closed) ∨
    ∃ c, st.session id = some c ∧ (st.serverSend env werr id o).1 = st.remove c := by
  unfold Store.serverSend
  cases hs : st.session id with
  | none => exact .inl ⟨rfl, rfl⟩
  | some c' =>
    simp only
    cases Out.encode env o with
    | panic => exact .inl ⟨rfl, rfl⟩
    | err e => exact .inl ⟨rfl, rfl⟩
    | ok f =>
      cases werr with
      | none => exact .inl ⟨rfl, rfl⟩
      | some e => cases e <;> first | exact .inl ⟨rfl, rfl⟩ | exact .inr ⟨c', rfl, rfl⟩

/-- `st'` has the sessions and connections of `st`, or those with one session removed. -/
def Drops (st st' : Store) : Prop :=
  (st'.sessions = st.sessions ∧ st'.closed = st.closed) ∨
  ∃ id c, st.session id = some c ∧ st'.sessions = (st.remove c).sessions ∧ st'.closed = (st.remove c).closed

theorem apiSend_conns {env : Env} {werr : Option Err} (st : Store) (r : Ref) (code : Option Nat)
    (id : UInt16) (m : Msg) : Drops st (st.apiSend env werr r code id m).1 := by
  unfold Store.apiSend
  simp only
  cases st.session (st.heap r).sessionID with
  | none => exact .inl ⟨rfl, rfl⟩
  | some c' =>
    simp only
    generalize hx : genMsgHeader (st.heap r).phone (st.heap r).ver (st.heap r).protoVer id (st.takeSerial c').2 = hd
    have h2 := serverSend_conns (env := env) (werr := werr) (st.takeSerial c').1 c'.addr (hd, m)
    cases hs : (st.takeSerial c').1.serverSend env werr c'.addr (hd, m) with
    | mk st2 r2 =>
      rw [hs] at h2
      have h3 : Drops st st2 := by
        rcases h2 with h2 | ⟨c, e1, e2⟩
        · exact .inl h2
        · simp only at e2; subst e2; exact .inr ⟨_, c, e1, rfl, rfl⟩
      cases r2 <;> exact h3

theorem apiQuery_conns {env : Env} {werr : Option Err} (st : Store) (phone : Str) :
    Drops st (st.apiQuery env werr phone).1 := by
  unfold Store.apiQuery
  cases st.devByPhone phone with
  | none => exact .inl ⟨rfl, rfl⟩
  | some r => exact apiSend_conns _ _ _ _ _

theorem apiSet_conns {env : Env} {werr : Option Err} (st : Store) (phone : Str) (bound : DeviceParams) (bad : Bool) :
    Drops st (st.apiSet env werr phone bound bad).1 := by
  unfold Store.apiSet
  cases st.devByPhone phone with
  | none => exact .inl ⟨rfl, rfl⟩
  | some r => exact apiSend_conns _ _ _ _ _

theorem apiGeo_conns (st : Store) (phone : Str) :
    (st.apiGeo phone).1.sessions = st.sessions ∧ (st.apiGeo phone).1.closed = st.closed := by
  unfold Store.apiGeo Store.geoLatest Store.geoRing
  cases st.devByPhone phone with
  | none => exact ⟨rfl, rfl⟩
  | some r =>
    simp only
    cases st.geos.get phone with
    | some rb =>
      simp only
      cases rb.latest with
      | ok o => cases o <;> exact ⟨rfl, rfl⟩
      | err e => exact ⟨rfl, rfl⟩
      | panic => exact ⟨rfl, rfl⟩
    | none => exact ⟨rfl, rfl⟩

/-- A check may close connections but leaves the sessions. -/
theorem check_conns {clk : Clock} {st : Store} (h : StoreInv st) {p : Str} (hj : p ∈ st.jobs) :
    (st.check clk p).1.sessions = st.sessions ∧ ∀ i, (st.check clk p).1.closed i = false → st.closed i = false := by
  obtain ⟨r, hr⟩ := Option.isSome_iff_exists.1 ((h.jobs p).1 hj)
  obtain ⟨cn, -, h2⟩ := check_registered (clk := clk) h hr
  rw [h2]
  simp only
  by_cases h3 : (st.heap r).shouldTurnOffline clk.ms = true
  · rw [if_pos h3]; exact ⟨rfl, fun _ hx => hx⟩
  · rw [if_neg h3]
    by_cases h4 : (st.heap r).shouldClear clk.ms = true
    · rw [if_pos h4]
      have hd : ∀ (s : Store) (p : Str), (s.delByPhone p).closed = s.closed ∧ (s.delByPhone p).sessions = s.sessions := by
        intro s p; unfold Store.delByPhone; cases s.byPhone.get p <;> exact ⟨rfl, rfl⟩
      refine ⟨(hd _ _).2, ?_⟩
      intro i hi
      have : ((st.closeConn cn).delByPhone p).closed i = false := hi
      rw [(hd _ _).1] at this
      unfold Store.closeConn at this
      simp only at this
      split at this
      · cases this
      · exact this
    · rw [if_neg h4]; exact ⟨rfl, fun _ hx => hx⟩

/-- What holds of sessions in every history. -/
structure SessInv (s : Sys) : Prop where
  served : ∀ a c, s.st.session a = some c → c ∈ s.live ∧ c.addr = a

/-- And what holds if no address is accepted while a connection from it is still served. -/
structure SessDistinct (s : Sys) : Prop where
  addrs : ∀ c ∈ s.live, ∀ c' ∈ s.live, c.addr = c'.addr → c = c'
  found : ∀ c ∈ s.live, s.st.closed c.id = false → s.st.session c.addr = some c

theorem session_remove (st : Store) (c : Conn) (a : Str) :
    (st.remove c).session a = if a = c.addr then none else st.session a := AMap.get_del _ _ _

theorem closed_remove (st : Store) (c : Conn) (i : Nat) :
    (st.remove c).closed i = if i = c.id then true else st.closed i := rfl

/-- Removing a served connection, whose serve loop may or may not end. -/
theorem SessInv.drop {s : Sys} (h : SessInv s) {c : Conn} {st' : Store}
    (e1 : st'.sessions = (s.st.remove c).sessions) (live' : List Conn) (hl : ∀ c' ∈ s.live, c' ≠ c → c' ∈ live') :
    SessInv { s with st := st', live := live' } := by
  refine ⟨?_⟩
  intro a c' hs
  have hs' : (s.st.remove c).session a = some c' := by
    unfold Store.session at hs ⊢; simp only at hs; rw [← e1]; exact hs
  rw [session_remove] at hs'
  by_cases ha : a = c.addr
  · rw [if_pos ha] at hs'; cases hs'
  · rw [if_neg ha] at hs'
    obtain ⟨h1, h2⟩ := h.served a c' hs'
    exact ⟨hl c' h1 (fun hx => ha (by rw [← hx, h2])), h2⟩

theorem SessInv.same {s : Sys} (h : SessInv s) {st' : Store} (e1 : st'.sessions = s.st.sessions) :
    SessInv { s with st := st' } :=
  ⟨fun a c hs => h.served a c (by unfold Store.session at hs ⊢; simp only at hs; rw [← e1]; exact hs)⟩

theorem SessDistinct.drop {s : Sys} (h : SessDistinct s) {c : Conn} (hc : c ∈ s.live) {st' : Store}
    (e1 : st'.sessions = (s.st.remove c).sessions) (e2 : st'.closed = (s.st.remove c).closed) (live' : List Conn)
    (hl : ∀ c' ∈ live', c' ∈ s.live) : SessDistinct { s with st := st', live := live' } := by
  refine ⟨fun a ha b hb => h.addrs a (hl a ha) b (hl b hb), ?_⟩
  intro c' hc' hcl
  simp only at hcl hc'
  rw [e2, closed_remove] at hcl
  by_cases hid : c'.id = c.id
  · rw [if_pos hid] at hcl; cases hcl
  · rw [if_neg hid] at hcl
    have h1 := h.found c' (hl c' hc') hcl
    show AMap.get st'.sessions c'.addr = _
    rw [e1]
    have := session_remove s.st c c'.addr
    rw [if_neg (fun hx => hid (by rw [h.addrs c' (hl c' hc') c hc hx]))] at this
    exact this.trans h1

theorem SessDistinct.same {s : Sys} (h : SessDistinct s) {st' : Store} (e1 : st'.sessions = s.st.sessions)
    (e2 : ∀ i, st'.closed i = false → s.st.closed i = false) : SessDistinct { s with st := st' } :=
  ⟨h.addrs, fun c hc hcl => by
    have := h.found c hc (e2 _ hcl)
    show AMap.get st'.sessions c.addr = _
    rw [e1]; exact this⟩

theorem serveFrame_conns (env : Env) (clk : Clock) (c : Conn) (werr : Option Err) {st : Store} (h : StoreInv st)
    (frame : List UInt8) :
    ((st.serveFrame env clk c werr frame).2.ended = false ∧
      (st.serveFrame env clk c werr frame).1.sessions = st.sessions ∧
      (st.serveFrame env clk c werr frame).1.closed = st.closed) ∨
    ((st.serveFrame env clk c werr frame).2.ended = true ∧
      (st.serveFrame env clk c werr frame).1.sessions = (st.remove c).sessions ∧
      (st.serveFrame env clk c werr frame).1.closed = (st.remove c).closed) := by
  have hq := handleFrame_conns env clk c h frame
  have hr : ((st.handleFrame env clk c frame).1.remove c).sessions = (st.remove c).sessions ∧
      ((st.handleFrame env clk c frame).1.remove c).closed = (st.remove c).closed := by
    unfold Store.remove Store.clearSession Store.closeConn
    simp only
    rw [hq.1, hq.2]; exact ⟨rfl, rfl⟩
  unfold Store.serveFrame
  cases hx : st.handleFrame env clk c frame with
  | mk st1 o =>
    rw [hx] at hq hr
    simp only at hq hr
    have stop : ∀ e : Err,
        ((if e.endsServe = true then (st1.remove c, (⟨none, true, none⟩ : Obs)) else (st1, ⟨none, false, none⟩)).2.ended = false ∧
          (if e.endsServe = true then (st1.remove c, (⟨none, true, none⟩ : Obs)) else (st1, ⟨none, false, none⟩)).1.sessions
            = st.sessions ∧
          (if e.endsServe = true then (st1.remove c, (⟨none, true, none⟩ : Obs)) else (st1, ⟨none, false, none⟩)).1.closed
            = st.closed) ∨
        ((if e.endsServe = true then (st1.remove c, (⟨none, true, none⟩ : Obs)) else (st1, ⟨none, false, none⟩)).2.ended = true ∧
          (if e.endsServe = true then (st1.remove c, (⟨none, true, none⟩ : Obs)) else (st1, ⟨none, false, none⟩)).1.sessions
            = (st.remove c).sessions ∧
          (if e.endsServe = true then (st1.remove c, (⟨none, true, none⟩ : Obs)) else (st1, ⟨none, false, none⟩)).1.closed
            = (st.remove c).closed) := by
      intro e
      by_cases he : e.endsServe = true
      · rw [if_pos he]; exact .inr ⟨rfl, hr.1, hr.2⟩
      · rw [if_neg he]; exact .inl ⟨rfl, hq.2, hq.1⟩
    cases o with
    | silent => exact .inl ⟨rfl, hq.2, hq.1⟩
    | panicked => exact .inr ⟨rfl, hr.1, hr.2⟩
    | failed e => exact stop e
    | reply f =>
      cases werr with
      | none => exact .inl ⟨rfl, hq.2, hq.1⟩
      | some e => exact stop e

theorem SessInv.drops {s : Sys} (h : SessInv s) {st' : Store} (hd : Drops s.st st') : SessInv { s with st := st' } := by
  rcases hd with hd | ⟨id, c, -, e1, -⟩
  · exact h.same hd.1
  · exact h.drop e1 s.live (fun _ hc _ => hc)

theorem SessDistinct.drops {s : Sys} (h : SessDistinct s) (hs : SessInv s) {st' : Store} (hd : Drops s.st st') :
    SessDistinct { s with st := st' } := by
  rcases hd with hd | ⟨id, c, hc, e1, e2⟩
  · exact h.same hd.1 (fun i => by rw [hd.2]; exact id)
  · exact h.drop (hs.served _ _ hc).1 e1 e2 s.live (fun _ hc => hc)

theorem serveErr_conns (c : Conn) (st : Store) (e : Err) :
    ((st.serveErr c e).2.ended = false ∧ (st.serveErr c e).1 = st) ∨
    ((st.serveErr c e).2.ended = true ∧ (st.serveErr c e).1 = st.remove c) := by
  unfold Store.serveErr
  by_cases he : e.endsServe = true
  · rw [if_pos he]; exact .inr ⟨rfl, rfl⟩
  · rw [if_neg he]; exact .inl ⟨rfl, rfl⟩

theorem step_sess (env : Env) (s : Sys) (e : Ev) (h : StoreInv s.st) (hs : SessInv s) :
    SessInv (s.step env e).1 ∧
    (SessDistinct s → (∀ a, e = .accept a → ∀ c ∈ s.live, c.addr ≠ a) → SessDistinct (s.step env e).1) := by
  unfold Sys.step
  by_cases hcr : s.crashed = true
  · rw [if_pos hcr]; exact ⟨hs, fun hd _ => hd⟩
  · rw [if_neg hcr]
    cases e with
    | accept addr =>
      simp only
      constructor
      · refine ⟨?_⟩
        intro a c hx
        have hx' : AMap.get (AMap.set s.st.sessions addr ⟨s.accepted, addr⟩) a = some c := hx
        rw [AMap.get_set] at hx'
        by_cases ha : a = addr
        · rw [if_pos ha] at hx'; injection hx' with hx'; subst hx'; exact ⟨by simp, ha.symm⟩
        · rw [if_neg ha] at hx'
          have := hs.served a c hx'
          exact ⟨by simp [this.1], this.2⟩
      · intro hd hf
        have hf' := hf addr rfl
        refine ⟨?_, ?_⟩
        · intro a ha b hb hab
          simp only [List.mem_cons] at ha hb
          rcases ha with rfl | ha <;> rcases hb with rfl | hb
          · rfl
          · exact absurd hab.symm (hf' b hb)
          · exact absurd hab (hf' a ha)
          · exact hd.addrs a ha b hb hab
        · intro c hc hcl
          simp only [List.mem_cons] at hc
          show AMap.get (AMap.set s.st.sessions addr ⟨s.accepted, addr⟩) c.addr = some c
          rw [AMap.get_set]
          rcases hc with rfl | hc
          · rw [if_pos rfl]
          · rw [if_neg (hf' c hc)]; exact hd.found c hc hcl
    | frame clk c bytes werr =>
      simp only
      by_cases hl : c ∈ s.live
      · rw [if_pos hl]
        simp only
        rcases serveFrame_conns env clk c werr h bytes with ⟨e0, e1, e2⟩ | ⟨e0, e1, e2⟩
        · rw [if_neg (by rw [e0]; simp)]
          exact ⟨hs.same e1, fun hd _ => hd.same e1 (fun i => by rw [e2]; exact id)⟩
        · rw [if_pos e0]
          exact ⟨hs.drop e1 _ (fun c' h1 h2 => by simp [h1, h2]),
            fun hd _ => hd.drop hl e1 e2 _ (fun c' h1 => (List.mem_filter.1 h1).1)⟩
      · rw [if_neg hl]; exact ⟨hs, fun hd _ => hd⟩
    | readErr c e =>
      simp only
      by_cases hl : c ∈ s.live
      · rw [if_pos hl]
        simp only
        rcases serveErr_conns c s.st e with ⟨e0, e1⟩ | ⟨e0, e1⟩
        · rw [if_neg (by rw [e0]; simp), e1]
          exact ⟨hs, fun hd _ => hd⟩
        · rw [if_pos e0, e1]
          exact ⟨hs.drop rfl _ (fun c' h1 h2 => by simp [h1, h2]),
            fun hd _ => hd.drop hl rfl rfl _ (fun c' h1 => (List.mem_filter.1 h1).1)⟩
      · rw [if_neg hl]; exact ⟨hs, fun hd _ => hd⟩
    | check clk phone =>
      simp only
      by_cases hj : phone ∈ s.st.jobs
      · rw [if_pos hj]
        have hc := check_conns (clk := clk) h hj
        have hcc := (check_inv (clk := clk) h hj).2
        exact ⟨⟨fun a c hx => (hs.same hc.1).served a c hx⟩,
          fun hd _ => ⟨(hd.same hc.1 hc.2).addrs, (hd.same hc.1 hc.2).found⟩⟩
      · rw [if_neg hj]; exact ⟨hs, fun hd _ => hd⟩
    | httpList => exact ⟨hs, fun hd _ => hd⟩
    | httpGeo phone =>
      have hg := apiGeo_conns s.st phone
      exact ⟨hs.same hg.1, fun hd _ => hd.same hg.1 (fun i => by rw [hg.2]; exact id)⟩
    | httpQuery phone werr => exact ⟨hs.drops (apiQuery_conns _ _), fun hd _ => hd.drops hs (apiQuery_conns _ _)⟩
    | httpSet phone bound bad werr =>
      exact ⟨hs.drops (apiSet_conns _ _ _ _), fun hd _ => hd.drops hs (apiSet_conns _ _ _ _)⟩

theorem reachable_sess (env : Env) (evs : List Ev) : SessInv (Sys.start.run env evs).1 := by
  induction evs using snoc_ind with
  | h0 => exact ⟨fun a c h => by cases h⟩
  | h1 evs e ih => rw [run_snoc]; exact (step_sess env _ e (reachable_inv env evs).1 ih).1

theorem reachable_distinct (env : Env) (evs : List Ev)
    (hf : ∀ pre a post, evs = pre ++ .accept a :: post → ∀ c ∈ (Sys.start.run env pre).1.live, c.addr ≠ a) :
    SessDistinct (Sys.start.run env evs).1 := by
  induction evs using snoc_ind with
  | h0 => exact ⟨fun c hc => (by cases hc), fun c hc => (by cases hc)⟩
  | h1 evs e ih =>
    rw [run_snoc]
    refine (step_sess env _ e (reachable_inv env evs).1 (reachable_sess env evs)).2 (ih ?_) ?_
    · intro pre a post he c hc
      exact hf pre a (post ++ [e]) (by rw [he]; simp) c hc
    · intro a he c hc
      exact hf evs a [] (by rw [he]) c hc

end JT808
