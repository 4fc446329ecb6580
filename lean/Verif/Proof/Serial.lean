import Verif.Props.Lines
/-
For C160: the frames a goroutine has read, and the sequential server given the same frames.
-/
namespace JT808
open Spec

/-- What an event puts on the wire. -/
def Obs.bytes (o : Obs) : List UInt8 := match o.sent with
  | .none => []
  | .some (_, f) => f

namespace Spec

/-- The sequential server (Verif/Model/Server.lean) given one frame after the other on a connection, each at its moment, until
serve ends: what it has stored, all it has written, and whether serve has ended. -/
def serves (env : Env) (c : Conn) : Store → List (List UInt8 × Clock) → Store × List UInt8 × Bool
  | st, [] => (st, [], false)
  | st, (f, clk) :: l =>
    let x := st.serveFrame env clk c none f
    if x.2.ended then (x.1, x.2.bytes, true)
    else ((serves env c x.1 l).1, x.2.bytes ++ (serves env c x.1 l).2.1, (serves env c x.1 l).2.2)

end Spec

variable {env : Env} {c : Conn}

theorem serves_snoc (st : Store) (l : List (List UInt8 × Clock)) (f : List UInt8) (clk : Clock)
    (h : (serves env c st l).2.2 = false) :
    serves env c st (l ++ [(f, clk)]) =
      (((serves env c st l).1.serveFrame env clk c none f).1,
        (serves env c st l).2.1 ++ ((serves env c st l).1.serveFrame env clk c none f).2.bytes,
        ((serves env c st l).1.serveFrame env clk c none f).2.ended) := by
  induction l generalizing st with
  | nil =>
    simp only [List.nil_append, serves, List.append_nil]
    split <;> simp_all
  | cons x l ih =>
    obtain ⟨g, k⟩ := x
    have e : ∀ l, serves env c st ((g, k) :: l) = if (st.serveFrame env k c none g).2.ended then
        ((st.serveFrame env k c none g).1, (st.serveFrame env k c none g).2.bytes, true)
      else ((serves env c (st.serveFrame env k c none g).1 l).1, (st.serveFrame env k c none g).2.bytes ++
        (serves env c (st.serveFrame env k c none g).1 l).2.1, (serves env c (st.serveFrame env k c none g).1 l).2.2) :=
      fun _ => rfl
    rw [List.cons_append, e, e]
    rw [e] at h
    split
    · rename_i hh; rw [if_pos hh] at h; cases h
    · rename_i hh
      rw [if_neg hh] at h
      rw [ih _ h]
      simp

theorem inOrder_snoc (st : Store) (l : List (Task × Clock)) (t : Task) (clk : Clock) :
    inOrder env st (l ++ [(t, clk)]) = ((handled env clk (inOrder env st l).1 t).1,
      (inOrder env st l).2 ++ [(handled env clk (inOrder env st l).1 t).2]) := by
  induction l generalizing st with
  | nil => rfl
  | cons x l ih =>
    obtain ⟨u, k⟩ := x
    have e : ∀ l, inOrder env st ((u, k) :: l) = ((inOrder env (handled env k st u).1 l).1,
      (handled env k st u).2 :: (inOrder env (handled env k st u).1 l).2) := fun _ => rfl
    rw [List.cons_append, e, ih, e]
    rfl

/-- Not a fragment. -/
def Whole (env : Env) (f : List UInt8) : Prop := ∀ pd, decodeFrame env f = .ok pd → pd.header.isFragmented = false

theorem received_stop {clk : Clock} {f : List UInt8} (hw : Whole env f) (h : received env clk.civil c f = none) (st : Store) :
    st.serveFrame env clk c none f = (st.remove c, ⟨none, true, none⟩) := by
  unfold received at h
  unfold Store.serveFrame Store.handleFrame
  cases hd : decodeFrame env f with
  | err e =>
    rw [hd] at h
    simp only at h
    split at h
    · rename_i he
      simp [Store.decodePacket, hd, he]
    · cases h
  | panic => simp [Store.decodePacket, hd]
  | ok pd =>
    rw [hd] at h
    have hf := hw pd hd
    simp only [hf, Bool.false_eq_true, if_false] at h
    rw [decodePacket_unfrag hd hf]
    simp only [Store.process]
    cases ht : MType.ofID pd.header.msgID with
    | none => rw [ht] at h; cases h
    | some t =>
      rw [ht] at h
      simp only at h
      simp only [hf, Bool.false_and, Bool.false_eq_true, if_false]
      cases hm : t.decode env clk.civil pd.header pd.body 0 with
      | err e =>
        rw [hm] at h
        simp only at h
        split at h
        · rename_i he
          simp [he]
        · cases h
      | panic => rfl
      | ok m => rw [hm] at h; cases h

theorem received_skip {clk : Clock} {f : List UInt8} (h : received env clk.civil c f = some none) (st : Store) :
    st.serveFrame env clk c none f = (st, ⟨none, false, none⟩) := by
  unfold received at h
  unfold Store.serveFrame Store.handleFrame
  cases hd : decodeFrame env f with
  | err e =>
    rw [hd] at h
    simp only at h
    split at h
    · cases h
    · rename_i he
      simp [Store.decodePacket, hd, he]
  | panic => rw [hd] at h; cases h
  | ok pd =>
    rw [hd] at h
    simp only at h
    split at h
    · cases h
    · rename_i hf
      simp only [Bool.not_eq_true] at hf
      rw [decodePacket_unfrag hd hf]
      simp only [Store.process]
      cases ht : MType.ofID pd.header.msgID with
      | none => rfl
      | some t =>
        rw [ht] at h
        simp only at h
        simp only [hf, Bool.false_and, Bool.false_eq_true, if_false]
        cases hm : t.decode env clk.civil pd.header pd.body 0 with
        | err e =>
          rw [hm] at h
          simp only at h
          split at h
          · cases h
          · rename_i he
            simp [he]
        | panic => rw [hm] at h; cases h
        | ok m => rw [hm] at h; cases h

theorem finish_serve {clk : Clock} {f : List UInt8} {st st' : Store} {r : Res (Option Out)}
    (h : st.handleFrame env clk c f = finish env (st', r)) :
    (st.serveFrame env clk c none f).1 = (if (putsOut env r).2 then st'.remove c else st') ∧
      (st.serveFrame env clk c none f).2.bytes = (putsOut env r).1 ∧ (st.serveFrame env clk c none f).2.ended = (putsOut env r).2 := by
  unfold Store.serveFrame
  rw [h]
  cases r with
  | err e =>
    rcases Bool.eq_false_or_eq_true e.endsServe with he | he <;> simp [finish, putsOut, he, Obs.bytes]
  | panic => exact ⟨rfl, rfl, rfl⟩
  | ok o =>
    cases o with
    | none => exact ⟨rfl, rfl, rfl⟩
    | some o =>
      cases ho : Out.encode env o with
      | ok g => simp [finish, putsOut, ho, Obs.bytes]
      | panic => simp [finish, putsOut, ho, Obs.bytes]
      | err e => rcases Bool.eq_false_or_eq_true e.endsServe with he | he <;> simp [finish, putsOut, ho, he, Obs.bytes]

/-- A message read at one time and handled at another is handled by the sequential server at one of the two. -/
theorem received_msg {rclk : Clock} {f : List UInt8} {t : Task} (h : received env rclk.civil c f = some (some t)) (clk : Clock) :
    ∃ k, (k = rclk ∨ k = clk) ∧ ∀ st : Store,
      (st.serveFrame env k c none f).1 = (if (putsOut env (handled env clk st t).2).2 then (handled env clk st t).1.remove c
        else (handled env clk st t).1) ∧
      (st.serveFrame env k c none f).2.bytes = (putsOut env (handled env clk st t).2).1 ∧
      (st.serveFrame env k c none f).2.ended = (putsOut env (handled env clk st t).2).2 := by
  obtain ⟨hd, m, rfl, hh⟩ := received_iff.1 h
  obtain ⟨pd, mt, i, e1, e2, e3, e4, e5⟩ := id hh
  have fin : ∀ k : Clock, Holds env k.civil f hd m → (∀ st, handled env k st (.msg c hd m) = handled env clk st (.msg c hd m)) →
      ∀ st : Store, (st.serveFrame env k c none f).1 = (if (putsOut env (handled env clk st (.msg c hd m)).2).2 then
          (handled env clk st (.msg c hd m)).1.remove c else (handled env clk st (.msg c hd m)).1) ∧
        (st.serveFrame env k c none f).2.bytes = (putsOut env (handled env clk st (.msg c hd m)).2).1 ∧
        (st.serveFrame env k c none f).2.ended = (putsOut env (handled env clk st (.msg c hd m)).2).2 := by
    intro k hk hc st
    have hf := hk.handle c st
    have he : st.handle env k c hd m = handled env clk st (.msg c hd m) := hc st
    rw [he] at hf
    obtain ⟨a, b, d⟩ := finish_serve (st' := (handled env clk st (.msg c hd m)).1) (r := (handled env clk st (.msg c hd m)).2) hf
    exact ⟨a, b, d⟩
  by_cases hmt : mt = .t1205 ∨ mt = .t9205
  · refine ⟨rclk, .inl rfl, fin rclk hh fun st => ?_⟩
    rcases hmt with rfl | rfl
    · have : ∃ x, m = .m1205 x := by
        unfold MType.decode at e5
        obtain ⟨a, k, h1, h2⟩ := rd_bind_ok e5
        injection h2 with h2; injection h2 with h2 _
        exact ⟨a, h2.symm⟩
      obtain ⟨x, rfl⟩ := this
      rfl
    · have : ∃ x, m = .m9205 x := by
        unfold MType.decode at e5
        obtain ⟨a, k, h1, h2⟩ := rd_bind_ok e5
        injection h2 with h2; injection h2 with h2 _
        exact ⟨a, h2.symm⟩
      obtain ⟨x, rfl⟩ := this
      rfl
  · refine ⟨clk, .inr rfl, fin clk ⟨pd, mt, i, e1, e2, e3, e4, ?_⟩ fun _ => rfl⟩
    rw [← e5]
    cases mt with
    | t1205 => exact absurd (.inl rfl) hmt
    | t9205 => exact absurd (.inr rfl) hmt
    | _ => rfl

/-- The messages in the frames read so far: frames read at these times, none of which ended serve. -/
inductive Heard (env : Env) (c : Conn) (clks : List Clock) : List (List UInt8) → List Task → Prop
  | nil : Heard env c clks [] []
  | skip {fs ts f clk} : Heard env c clks fs ts → clk ∈ clks → received env clk.civil c f = some none → Heard env c clks (fs ++ [f]) ts
  | msg {fs ts f clk t} : Heard env c clks fs ts → clk ∈ clks → received env clk.civil c f = some (some t) →
      Heard env c clks (fs ++ [f]) (ts ++ [t])

/-- The sequential server given the frames does what it does given the messages. -/
theorem heard_serves {clks : List Clock} {st : Store} {fs : List (List UInt8)} {ts : List Task} (h : Heard env c clks fs ts)
    (ms : List Clock) (hms : ms.length = ts.length)
    (hgood : ∀ r ∈ (inOrder env st (ts.zip ms)).2, (putsOut env r).2 = false) :
    ∃ ks : List Clock, ks.length = fs.length ∧ (∀ k ∈ ks, k ∈ clks ∨ k ∈ ms) ∧
      serves env c st (fs.zip ks) = ((inOrder env st (ts.zip ms)).1,
        (inOrder env st (ts.zip ms)).2.flatMap (fun r => (putsOut env r).1), false) := by
  induction h generalizing ms with
  | nil => exact ⟨[], rfl, fun _ h => (by cases h), rfl⟩
  | @skip fs ts f clk hh hc hr ih =>
    obtain ⟨ks, h1, h2, h3⟩ := ih ms hms hgood
    refine ⟨ks ++ [clk], by simp [h1], fun k hk => ?_, ?_⟩
    · rcases List.mem_append.1 hk with hk | hk
      · exact h2 k hk
      · rw [List.mem_singleton.1 hk]; exact .inl hc
    · rw [List.zip_append h1.symm]
      show serves env c st (fs.zip ks ++ [(f, clk)]) = _
      rw [serves_snoc _ _ _ _ (by rw [h3]), h3]
      rw [received_skip hr]
      simp [Obs.bytes]
  | @msg fs ts f clk t hh hc hr ih =>
    obtain ⟨ms', m, rfl⟩ : ∃ ms' m, ms = ms' ++ [m] := by
      rcases List.eq_nil_or_concat ms with h | ⟨ms', m, h⟩
      · subst h; simp at hms
      · exact ⟨ms', m, by rw [h, List.concat_eq_append]⟩
    have hms' : ms'.length = ts.length := by simpa using hms
    have hz : (ts ++ [t]).zip (ms' ++ [m]) = ts.zip ms' ++ [(t, m)] := by rw [List.zip_append hms'.symm]; rfl
    rw [hz, inOrder_snoc] at hgood ⊢
    obtain ⟨ks, h1, h2, h3⟩ := ih ms' hms' (fun r hr => hgood r (List.mem_append_left _ hr))
    obtain ⟨k, hk, hserve⟩ := received_msg hr m
    obtain ⟨g1, g2, g3⟩ := hserve (inOrder env st (ts.zip ms')).1
    have hg := hgood _ (List.mem_append_right _ List.mem_cons_self)
    rw [hg] at g1 g3
    refine ⟨ks ++ [k], by simp [h1], fun x hx => ?_, ?_⟩
    · rcases List.mem_append.1 hx with hx | hx
      · exact (h2 x hx).imp id fun h => List.mem_append_left _ h
      · rw [List.mem_singleton.1 hx]
        rcases hk with rfl | rfl
        · exact .inl hc
        · exact .inr (List.mem_append_right _ List.mem_cons_self)
    · rw [List.zip_append h1.symm]
      show serves env c st (fs.zip ks ++ [(f, k)]) = _
      rw [serves_snoc _ _ _ _ (by rw [h3]), h3]
      simp only
      rw [g1, g2, g3]
      simp

/-- Where a goroutine that serves a connection with these bytes can be. -/
inductive Line.Log (env : Env) (c : Conn) (bytes : List UInt8) (clks : List Clock) : Line → Prop
  | waits {fs input recv done} : cut RecvSt.fresh bytes = fs ++ cut recv input → Heard env c clks fs (done.map (·.1)) →
      (∀ d ∈ done, (putsOut env d.2).2 = false) →
      Line.Log env c bytes clks ⟨c, [], input, recv, none, done, done.flatMap (fun d => (putsOut env d.2).1), false⟩
  | handles {fs f clk t q input recv done} : cut RecvSt.fresh bytes = fs ++ [f] ++ cut recv input →
      Heard env c clks fs (done.map (·.1)) → (∀ d ∈ done, (putsOut env d.2).2 = false) → clk ∈ clks →
      received env clk.civil c f = some (some t) →
      Line.Log env c bytes clks ⟨c, [], input, recv, some (t, q), done, done.flatMap (fun d => (putsOut env d.2).1), false⟩
  | stopped {fs f clk input recv done} : cut RecvSt.fresh bytes = fs ++ [f] ++ cut recv input →
      Heard env c clks fs (done.map (·.1)) → (∀ d ∈ done, (putsOut env d.2).2 = false) → clk ∈ clks →
      received env clk.civil c f = none →
      Line.Log env c bytes clks ⟨c, [], input, recv, none, done, done.flatMap (fun d => (putsOut env d.2).1), true⟩
  | failed {fs f clk t r input recv done} : cut RecvSt.fresh bytes = fs ++ [f] ++ cut recv input →
      Heard env c clks fs (done.map (·.1)) → (∀ d ∈ done, (putsOut env d.2).2 = false) → clk ∈ clks →
      received env clk.civil c f = some (some t) → (putsOut env r).2 = true →
      Line.Log env c bytes clks ⟨c, [], input, recv, none, done ++ [(t, r)],
        (done ++ [(t, r)]).flatMap (fun d => (putsOut env d.2).1), true⟩

theorem next_log {bytes : List UInt8} {clks : List Clock} {clk : Clock} {st : Store} {l : Line} (hc : clk ∈ clks)
    (h : l.Log env c bytes clks) : (l.next env clk st).2.Log env c bytes clks := by
  cases h with
  | @waits fs input recv done h1 h2 h3 =>
    cases input with
    | nil => exact .waits h1 h2 h3
    | cons b rest =>
      have hcut : cut recv (b :: rest) = match recvStep recv b with
        | .inl f => f :: cut RecvSt.fresh rest
        | .inr r' => cut r' rest := rfl
      rw [hcut] at h1
      cases hr : recvStep recv b with
      | inr r =>
        rw [hr] at h1
        simp only [Line.next, hr]
        exact .waits h1 h2 h3
      | inl f =>
        rw [hr] at h1
        have h1 : cut RecvSt.fresh bytes = fs ++ [f] ++ cut RecvSt.fresh rest := by rw [h1]; simp
        cases hf : received env clk.civil c f with
        | none => simp only [Line.next, hr, hf]; exact .stopped h1 h2 h3 hc hf
        | some o =>
          cases o with
          | none => simp only [Line.next, hr, hf]; exact .waits h1 (.skip h2 hc hf) h3
          | some t => simp only [Line.next, hr, hf]; exact .handles h1 h2 h3 hc hf
  | @handles fs f k t q input recv done h1 h2 h3 h4 h5 =>
    cases q with
    | step g kk => exact .handles h1 h2 h3 h4 h5
    | ret r =>
      have e : (Line.next env clk st ⟨c, [], input, recv, some (t, .ret r), done, done.flatMap (fun d => (putsOut env d.2).1),
          false⟩).2 = ⟨c, [], input, recv, none, done ++ [(t, r)], (done ++ [(t, r)]).flatMap (fun d => (putsOut env d.2).1),
            (putsOut env r).2⟩ := by simp [Line.next]
      rw [e]
      cases hs : (putsOut env r).2 with
      | true => exact .failed h1 h2 h3 h4 h5 hs
      | false =>
        refine .waits h1 (by rw [List.map_append]; exact .msg h2 h4 h5) fun d hd => ?_
        rcases List.mem_append.1 hd with hd | hd
        · exact h3 d hd
        · rw [List.mem_singleton.1 hd]; exact hs
  | stopped h1 h2 h3 h4 h5 => exact .stopped h1 h2 h3 h4 h5
  | failed h1 h2 h3 h4 h5 h6 => exact .failed h1 h2 h3 h4 h5 h6

/-- An invariant of the lines whose steps may use when they are made. -/
theorem lines_run_at {P : Nat → Line → Prop} (evs : List (Nat × Clock))
    (hP : ∀ i clk st l, (i, clk) ∈ evs → P i l → P i (l.next env clk st).2)
    (s : LSys) (h : ∀ (i : Nat) l, s.ls[i]? = some l → P i l) : ∀ (i : Nat) l, (s.run env evs).ls[i]? = some l → P i l := by
  induction evs generalizing s with
  | nil => exact h
  | cons e evs ih =>
    refine ih (fun i clk st l he => hP i clk st l (List.mem_cons_of_mem _ he)) (s.step env e) fun i l hl => ?_
    unfold LSys.step at hl
    cases hi : s.ls[e.1]? with
    | none => rw [hi] at hl; exact h i l hl
    | some y =>
      rw [hi] at hl
      rcases getset hi hl with ⟨rfl, rfl⟩ | ⟨-, hx⟩
      · exact hP _ _ _ _ List.mem_cons_self (h _ y hi)
      · exact h i l hx

/-- A goroutine that makes no steps stays where it is. -/
theorem workers_still (evs : List (Nat × Clock)) (s : WSys) (j : Nat) (h : timesOf j evs = []) :
    (s.run env evs).ws[j]? = s.ws[j]? := by
  induction evs generalizing s with
  | nil => rfl
  | cons e evs ih =>
    have hne : e.1 ≠ j := by
      intro he
      simp [timesOf, he] at h
    have ht : timesOf j evs = [] := by
      simpa [timesOf, hne] using h
    refine (ih (s.step env e) ht).trans ?_
    unfold WSys.step
    split
    · rfl
    · exact List.getElem?_set_ne hne

end JT808
