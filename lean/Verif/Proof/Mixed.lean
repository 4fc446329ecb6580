import Verif.Model.Mixed
import Verif.Props.Hub
/-
A run in which other connections have fragments is one in which these connections are handed their messages.
-/
namespace JT808
open Spec

variable {env : Env} {clk : Clock} {st : Store}

/-- The frame carries this message: whole, or as a fragment with this body. -/
def Spec.Bears (env : Env) (now : Civil) (frame : List UInt8) (h : Header) (m : Msg) : Prop :=
  ∃ pd t j, decodeFrame env frame = .ok pd ∧ pd.header = h ∧ MType.ofID h.msgID = some t ∧ t.decode env now h pd.body 0 = .ok (m, j)

/-- All messages of the goroutine, past and to come, are of a kind. -/
structure Line.All (env : Env) (Q : Task → Prop) (l : Line) : Prop where
  taken : ∀ t ∈ l.taken, Q t
  todo : ∀ t ∈ l.todo, Q t
  rest : ∀ f ∈ cut l.recv l.input, ∀ now h m, Bears env now f h m → Q (.msg l.conn h m)

theorem decodePacket_alike (f : List UInt8) : st.Alike (st.decodePacket env f).1 := by
  unfold Store.decodePacket
  cases decodeFrame env f with
  | err e => exact .refl _
  | panic => exact .refl _
  | ok pd =>
    simp only
    split
    · cases pd.header.frag with
      | none => exact .refl _
      | some fr =>
        simp only
        have h : st.Alike (st.cacheSegment (Segment.ofPacket pd.header fr pd.body.data)).1 := by
          unfold Store.cacheSegment
          simp only
          split <;> exact ⟨_, _, (st.closed, _), rfl⟩
        generalize st.cacheSegment (Segment.ofPacket pd.header fr pd.body.data) = x at h ⊢
        obtain ⟨st', r⟩ := x
        cases r <;> exact h
    · exact .refl _

theorem decodePacket_carries {f : List UInt8} {pd : Packet} (h : (st.decodePacket env f).2 = .ok pd) :
    ∃ pd', decodeFrame env f = .ok pd' ∧ pd'.header = pd.header ∧ pd'.body = pd.body := by
  unfold Store.decodePacket at h
  cases hd : decodeFrame env f with
  | err e => rw [hd] at h; cases h
  | panic => rw [hd] at h; cases h
  | ok pd' =>
    rw [hd] at h
    simp only at h
    refine ⟨pd', rfl, ?_⟩
    split at h
    · cases hf : pd'.header.frag with
      | none => rw [hf] at h; cases h
      | some fr =>
        rw [hf] at h
        simp only at h
        rcases hc : st.cacheSegment (Segment.ofPacket pd'.header fr pd'.body.data) with ⟨st', r⟩
        rw [hc] at h
        cases r <;> cases h
        exact ⟨rfl, rfl⟩
    · cases h; exact ⟨rfl, rfl⟩

theorem processSegment_alike (h : Header) : st.Alike (st.processSegment h).1 := by
  unfold Store.processSegment
  cases st.devByPhone h.phone with
  | none => exact .refl _
  | some r =>
    simp only
    cases st.session (st.heap r).sessionID with
    | none => exact .refl _
    | some c => exact alike_serial st c

/-- A fragment: nothing begins, or a message it carries. -/
theorem fragment_cases (l : Line) (rest f : List UInt8) (hc : l.cur = none) (he : l.ended = false) :
    let r := l.fragment env clk st rest f
    st.Alike r.1 ∧ r.2.done = l.done ∧ r.2.input = rest ∧ r.2.recv = RecvSt.fresh ∧ r.2.conn = l.conn ∧ r.2.todo = l.todo ∧
      (r.2.cur = none ∨ r.2.ended = false ∧ ∃ h m, r.2.cur = some (.msg l.conn h m, (Task.msg l.conn h m).prog env) ∧
        Bears env clk.civil f h m) := by
  intro r
  have ha := decodePacket_alike (env := env) (st := st) f
  have hcar : ∀ pd, (st.decodePacket env f).2 = .ok pd → _ := fun pd => decodePacket_carries
  simp only [r]
  unfold Line.fragment
  generalize st.decodePacket env f = x at ha hcar ⊢
  obtain ⟨st1, res⟩ := x
  cases res with
  | err e => exact ⟨ha, rfl, rfl, rfl, rfl, rfl, .inl hc⟩
  | panic => exact ⟨ha, rfl, rfl, rfl, rfl, rfl, .inl hc⟩
  | ok pd =>
    obtain ⟨pd', d1, d2, d3⟩ := hcar pd rfl
    simp only
    cases ht : MType.ofID pd.header.msgID with
    | none => exact ⟨ha, rfl, rfl, rfl, rfl, rfl, .inl hc⟩
    | some t =>
      simp only
      split
      · cases hm : t.decode env clk.civil pd.header pd.body 0 with
        | err e => exact ⟨ha, rfl, rfl, rfl, rfl, rfl, .inl hc⟩
        | panic => exact ⟨ha, rfl, rfl, rfl, rfl, rfl, .inl hc⟩
        | ok mj =>
          obtain ⟨m, k⟩ := mj
          exact ⟨ha, rfl, rfl, rfl, rfl, rfl, .inr ⟨he, _, m, rfl, pd', t, k, d1, d2, ht, by rw [d3]; exact hm⟩⟩
      · exact ⟨ha.trans (processSegment_alike _), rfl, rfl, rfl, rfl, rfl, .inl hc⟩

theorem carries_of_holds {now : Civil} {f : List UInt8} {h : Header} {m : Msg} (hh : Holds env now f h m) : Bears env now f h m := by
  obtain ⟨pd, t, k, e1, e2, -, e4, e5⟩ := hh
  exact ⟨pd, t, k, e1, e2, e4, e5⟩

/-- One step: of the message at hand; or one that begins a message; or one that begins none. -/
theorem frag_cases (l : Line) :
    let r := l.nextFrag env clk st
    (l.ended = false ∧ (∃ x, l.cur = some x) ∧ r = l.next env clk st) ∨
    (l.ended = false ∧ l.cur = none ∧ st.Alike r.1 ∧ r.2.ended = false ∧ r.2.done = l.done ∧ ∃ t, r.2.cur = some (t, t.prog env)) ∨
    (st.Alike r.1 ∧ r.2.cur = l.cur ∧ r.2.done = l.done ∧ (l.ended = true → r.2.ended = true)) := by
  obtain ⟨conn, todo, input, recv, cur, done, output, ended⟩ := l
  cases ended with
  | true => exact .inr (.inr ⟨.refl _, rfl, rfl, fun h => h⟩)
  | false =>
    cases cur with
    | some x => exact .inl ⟨rfl, ⟨x, rfl⟩, rfl⟩
    | none =>
      cases todo with
      | cons t ts => exact .inr (.inl ⟨rfl, rfl, .refl _, rfl, rfl, t, rfl⟩)
      | nil =>
        cases input with
        | nil => exact .inr (.inr ⟨.refl _, rfl, rfl, fun h => h⟩)
        | cons b rest =>
          cases hr : recvStep recv b with
          | inr r =>
            simp only [Line.nextFrag, Line.next, hr]
            exact .inr (.inr ⟨.refl _, rfl, rfl, fun h => h⟩)
          | inl f =>
            by_cases hf : isFragment env f = true
            · obtain ⟨a1, a2, -, -, -, -, a3⟩ := fragment_cases (env := env) (clk := clk) (st := st)
                ⟨conn, [], b :: rest, recv, none, done, output, false⟩ rest f rfl rfl
              simp only [Line.nextFrag, hr, hf]
              rcases a3 with a3 | ⟨a3, h, m, a4, -⟩
              · exact .inr (.inr ⟨a1, a3, a2, fun h => (by cases h)⟩)
              · exact .inr (.inl ⟨trivial, trivial, a1, a3, a2, _, a4⟩)
            · simp only [Line.nextFrag, Line.next, hr, hf]
              rcases received env clk.civil conn f with _ | _ | t
              · exact .inr (.inr ⟨.refl _, rfl, rfl, fun h => (by cases h)⟩)
              · exact .inr (.inr ⟨.refl _, rfl, rfl, fun h => (by cases h)⟩)
              · exact .inr (.inl ⟨trivial, trivial, .refl _, rfl, rfl, t, rfl⟩)

theorem all_next {Q : Task → Prop} {l : Line} (h : l.All env Q) : (l.nextFrag env clk st).2.All env Q := by
  obtain ⟨conn, todo, input, recv, cur, done, output, ended⟩ := l
  obtain ⟨h1, h2, h3⟩ := h
  cases ended with
  | true => exact ⟨h1, h2, h3⟩
  | false =>
    cases cur with
    | some x =>
      obtain ⟨t, q⟩ := x
      cases q with
      | step f k => exact ⟨h1, h2, h3⟩
      | ret r => exact ⟨fun t' ht => h1 t' (by simpa [Line.nextFrag, Line.next, Line.taken] using ht), h2, h3⟩
    | none =>
      cases todo with
      | cons t ts =>
        refine ⟨fun t' ht => ?_, fun t' ht => h2 t' (List.mem_cons_of_mem _ ht), h3⟩
        have ht : t' ∈ done.map (·.1) ++ [t] := ht
        rcases List.mem_append.1 ht with ht | ht
        · exact h1 t' (List.mem_append_left _ ht)
        · rw [List.mem_singleton.1 ht]; exact h2 t List.mem_cons_self
      | nil =>
        cases input with
        | nil => exact ⟨h1, h2, h3⟩
        | cons b rest =>
          have hcut : cut recv (b :: rest) = match recvStep recv b with
            | .inl f => f :: cut RecvSt.fresh rest
            | .inr r' => cut r' rest := rfl
          simp only [hcut] at h3
          have begins : ∀ t, Q t → ∀ t' ∈ done.map (·.1) ++ [t], Q t' := by
            intro t hq t' ht
            rcases List.mem_append.1 ht with ht | ht
            · exact h1 t' (List.mem_append_left _ ht)
            · rw [List.mem_singleton.1 ht]; exact hq
          cases hr : recvStep recv b with
          | inr r =>
            simp only [hr] at h3
            simp only [Line.nextFrag, Line.next, hr]
            exact ⟨h1, h2, h3⟩
          | inl f =>
            simp only [hr] at h3
            have h3' := fun g hg => h3 g (List.mem_cons_of_mem _ hg)
            by_cases hf : isFragment env f = true
            · obtain ⟨-, a2, b1, b2, b3, b4, a3⟩ := fragment_cases (env := env) (clk := clk) (st := st)
                ⟨conn, [], b :: rest, recv, none, done, output, false⟩ rest f rfl rfl
              have e : Line.nextFrag env clk st ⟨conn, [], b :: rest, recv, none, done, output, false⟩ =
                  Line.fragment env clk st ⟨conn, [], b :: rest, recv, none, done, output, false⟩ rest f := by
                simp only [Line.nextFrag, hr, hf]; rfl
              rw [e]
              refine ⟨fun t ht => ?_, fun t ht => (by rw [b4] at ht; cases ht), fun g hg => ?_⟩
              · rcases a3 with a3 | ⟨-, h, m, a4, a5⟩
                · simp only [Line.taken, a2, a3] at ht
                  exact h1 t (by simpa [Line.taken] using ht)
                · simp only [Line.taken, a2, a4] at ht
                  exact begins _ (h3 f List.mem_cons_self _ _ _ a5) t (by simpa using ht)
              · rw [b1, b2] at hg
                rw [b3]
                exact h3' g hg
            · simp only [Line.nextFrag, Line.next, hr, hf]
              cases hrec : received env clk.civil conn f with
              | none => exact ⟨h1, h2, h3'⟩
              | some o =>
                cases o with
                | none => exact ⟨h1, h2, h3'⟩
                | some t =>
                  obtain ⟨h, m, rfl, hh⟩ := received_iff.1 hrec
                  exact ⟨begins _ (h3 f List.mem_cons_self _ _ _ (carries_of_holds hh)), h2, h3'⟩

theorem frag_taken (l : Line) : l.taken <+: (l.nextFrag env clk st).2.taken := by
  rcases frag_cases (env := env) (clk := clk) (st := st) l with ⟨-, -, h⟩ | ⟨-, h1, -, -, h2, t, h3⟩ | ⟨-, h1, h2, -⟩
  · rw [h]; exact next_taken l
  · simp only [Line.taken, h1, h2, h3]
    exact ⟨[t], by simp⟩
  · simp only [Line.taken, h1, h2]
    exact List.prefix_refl _

theorem frag_handles {l : Line} (h : l.Handles) : (l.nextFrag env clk st).2.Handles := by
  rcases frag_cases (env := env) (clk := clk) (st := st) l with ⟨-, -, e⟩ | ⟨-, -, -, -, -, t, e⟩ | ⟨-, e, -, -⟩
  · rw [e]; exact (line_blind h (.refl _)).2.2
  · intro t' q he
    rw [e] at he
    cases he
    exact task_blind env _
  · intro t' q he
    rw [e] at he
    exact h t' q he

/-- Without fragments there is no difference. -/
theorem frag_whole {l : Line} (h : ∀ f ∈ cut l.recv l.input, Whole env f) : l.nextFrag env clk st = l.next env clk st := by
  obtain ⟨conn, todo, input, recv, cur, done, output, ended⟩ := l
  unfold Line.nextFrag
  split
  · rfl
  · split
    · rfl
    · rename_i b rest hb
      simp only at hb
      subst hb
      split
      · rfl
      · rename_i f hr
        simp only at hr h
        have hw : Whole env f := h f (by simp [cut, hr])
        have : isFragment env f = false := by
          unfold isFragment
          cases hd : decodeFrame env f with
          | ok pd => exact hw pd hd
          | err e => rfl
          | panic => rfl
        rw [this]
        rfl

/-! ### Runs -/

/-- A goroutine that is handed these messages, and reads nothing. -/
def Line.handed (ts : List Task) : Line := ⟨⟨0, []⟩, ts, [], RecvSt.fresh, none, [], [], false⟩

/-- The goroutine that is handed the messages is at the same point as the one that reads them. -/
structure Line.Shadow (l : Line) (ts : List Task) (l' : Line) : Prop where
  cur : l'.cur = l.cur
  done : l'.done = l.done
  input : l'.input = []
  ended : l.ended = false → l'.ended = false
  todo : l.ended = false → l.taken ++ l'.todo = ts

theorem shadow_works {l l' : Line} {ts : List Task} {st' : Store} (h : l.Shadow ts l') (he : l.ended = false)
    (hc : ∃ x, l.cur = some x) (hb : l.Handles) (ha : st'.Alike st) :
    (l.next env clk st).2.Shadow ts (l'.next env clk st').2 ∧ (l'.next env clk st').1.Alike (l.next env clk st).1 := by
  obtain ⟨conn, todo, input, recv, cur, done, output, ended⟩ := l
  obtain ⟨conn', todo', input', recv', cur', done', output', ended'⟩ := l'
  obtain ⟨h1, h2, h3, h4, h5⟩ := h
  simp only at h1 h2 h3 he
  subst h1 h2 h3 he
  have h4 : ended' = false := h4 rfl
  subst h4
  have h5 := h5 rfl
  obtain ⟨⟨t, q⟩, rfl⟩ := hc
  cases q with
  | step f k =>
    obtain ⟨-, g2, -⟩ := hb t _ rfl clk st'
    obtain ⟨e1, e2⟩ := g2 _ ha
    refine ⟨⟨?_, rfl, rfl, fun _ => rfl, fun _ => h5⟩, e2⟩
    simp only [Line.next, Bool.false_eq_true, if_false, e1]
  | ret r =>
    refine ⟨⟨rfl, rfl, rfl, fun h => h, fun _ => ?_⟩, ha⟩
    simpa [Line.next, Line.taken] using h5

theorem shadow_begins {l l' l1 : Line} {ts : List Task} {t : Task} (h : l.Shadow ts l') (he : l.ended = false) (hc : l.cur = none)
    (e2 : l1.done = l.done) (e3 : l1.cur = some (t, t.prog env)) (hp : l1.taken <+: ts) :
    l1.Shadow ts (l'.next env clk st).2 ∧ (l'.next env clk st).1 = st := by
  obtain ⟨h1, h2, h3, h4, h5⟩ := h
  have h4 := h4 he
  have h5 := h5 he
  have ht : l1.taken = l.taken ++ [t] := by simp [Line.taken, e2, e3, hc]
  obtain ⟨us, hus⟩ := hp
  have htodo : l'.todo = t :: us := by
    rw [ht, ← h5, List.append_assoc] at hus
    exact (List.append_cancel_left hus).symm
  obtain ⟨conn', todo', input', recv', cur', done', output', ended'⟩ := l'
  simp only at h1 h2 h3 h4 htodo
  subst h4 htodo
  rw [hc] at h1
  subst h1
  refine ⟨⟨?_, ?_, h3, fun _ => rfl, fun _ => hus⟩, rfl⟩
  · simp only [Line.next, Bool.false_eq_true, if_false]; exact e3.symm
  · simp only [Line.next, Bool.false_eq_true, if_false]; exact h2.trans e2.symm

/-- The two systems at the same point. -/
structure MixSys.Over (env : Env) (c : Conn) (fs : List (List UInt8)) (j : Nat) (jobs : List (List Task)) (s : MixSys) (u : LSys) : Prop where
  store : u.st.Alike s.st
  len : u.ls.length = s.ls.length
  njobs : jobs.length = s.ls.length
  own : u.ls[j]? = s.ls[j]?
  reads : ∀ l, s.ls[j]? = some l → l.Reads env c fs
  handles : ∀ (i : Nat) l, s.ls[i]? = some l → l.Handles
  line : ∀ (i : Nat) l l' ts, i ≠ j → s.ls[i]? = some l → u.ls[i]? = some l' → jobs[i]? = some ts → l.Shadow ts l'

/-- The times at which goroutine `j` makes steps. -/
def Spec.mixSteps (j : Nat) (evs : List MixEv) : List Clock :=
  evs.filterMap fun | .step i clk => if i = j then some clk else none | _ => none

theorem mix_ls {P : Nat → Line → Prop} (hP : ∀ i clk st l, P i l → P i (l.nextFrag env clk st).2) (evs : List MixEv) (s : MixSys)
    (h : ∀ (i : Nat) l, s.ls[i]? = some l → P i l) : ∀ (i : Nat) l, (s.run env evs).ls[i]? = some l → P i l := by
  induction evs generalizing s with
  | nil => exact h
  | cons e evs ih =>
    refine ih (s.step env e) ?_
    cases e with
    | step i clk =>
      simp only [MixSys.step]
      cases hl : s.ls[i]? with
      | none => exact h
      | some l =>
        intro k m hm
        simp only at hm
        by_cases hk : i = k
        · subst hk
          rw [List.getElem?_set_self (List.getElem?_eq_some_iff.1 hl).1] at hm
          cases hm
          exact hP i clk _ l (h i l hl)
        · rw [List.getElem?_set_ne hk] at hm
          exact h k m hm
    | accept c => exact h
    | gone c => exact h
    | request q => exact h
    | go i w =>
      simp only [MixSys.step]
      split
      · exact h
      · exact h

theorem mix_length (evs : List MixEv) (s : MixSys) : (s.run env evs).ls.length = s.ls.length := by
  induction evs generalizing s with
  | nil => rfl
  | cons e evs ih =>
    refine (ih (s.step env e)).trans ?_
    cases e with
    | step i clk => simp only [MixSys.step]; split <;> simp
    | go i w => simp only [MixSys.step]; split <;> rfl
    | _ => rfl

theorem mix_taken (evs : List MixEv) (s : MixSys) (i : Nat) (l : Line) (hl : s.ls[i]? = some l) :
    ∃ l', (s.run env evs).ls[i]? = some l' ∧ l.taken <+: l'.taken := by
  have hlt : i < (s.run env evs).ls.length := by rw [mix_length]; exact (List.getElem?_eq_some_iff.1 hl).1
  refine ⟨_, List.getElem?_eq_getElem hlt, ?_⟩
  refine mix_ls (env := env) (P := fun k l' => k = i → l.taken <+: l'.taken)
    (fun k clk st l' h e => (h e).trans (frag_taken l')) evs s ?_ i _ (List.getElem?_eq_getElem hlt) rfl
  rintro k l' hk rfl
  rw [hl] at hk
  cases hk
  exact List.prefix_refl _

theorem mix_run {c : Conn} {fs : List (List UInt8)} (hw : ∀ f ∈ fs, Whole env f) (j : Nat) (jobs : List (List Task)) (evs : List MixEv)
    (s : MixSys) (u : LSys) (h : s.Over env c fs j jobs u)
    (hp : ∀ (i : Nat) l ts, (s.run env evs).ls[i]? = some l → jobs[i]? = some ts → i ≠ j → l.taken <+: ts) :
    ∃ evs', (s.run env evs).Over env c fs j jobs (u.run env evs') ∧ timesOf j evs' = mixSteps j evs ∧
      ∀ n', ∃ n, (u.run env (evs'.take n')).st.Alike (s.run env (evs.take n)).st := by
  induction evs generalizing s u with
  | nil => exact ⟨[], h, rfl, fun n => ⟨0, by rw [List.take_nil]; exact h.store⟩⟩
  | cons e evs ih =>
    cases e with
    | accept c =>
      obtain ⟨evs', a1, a2, a3⟩ := ih (s.step env (.accept c)) u { h with store := h.store.trans (alike_session _ _) } hp
      exact ⟨evs', a1, a2, fun n' => (a3 n').elim fun n hn => ⟨n + 1, hn⟩⟩
    | gone c =>
      obtain ⟨evs', a1, a2, a3⟩ := ih (s.step env (.gone c)) u { h with store := h.store.trans (alike_remove _ _) } hp
      exact ⟨evs', a1, a2, fun n' => (a3 n').elim fun n hn => ⟨n + 1, hn⟩⟩
    | request q =>
      obtain ⟨evs', a1, a2, a3⟩ := ih (s.step env (.request q)) u { h with } hp
      exact ⟨evs', a1, a2, fun n' => (a3 n').elim fun n hn => ⟨n + 1, hn⟩⟩
    | go i w =>
      obtain ⟨evs', a1, a2, a3⟩ := ih (s.step env (.go i w)) u (by
        simp only [MixSys.step]
        split
        · exact h
        · exact { h with store := h.store.trans (next_alike _ _ _ _ _) }) hp
      exact ⟨evs', a1, a2, fun n' => (a3 n').elim fun n hn => ⟨n + 1, hn⟩⟩
    | step i clk =>
      cases hl : s.ls[i]? with
      | none =>
        have hst : s.step env (.step i clk) = s := by simp only [MixSys.step, hl]
        by_cases hi : i = j
        · have hu : u.step env (i, clk) = u := by
            have : u.ls[i]? = none := by rw [hi, h.own, ← hi]; exact hl
            simp only [LSys.step, this]
          obtain ⟨evs', a1, a2, a3⟩ := ih (s.step env (.step i clk)) (u.step env (i, clk)) (by rw [hst, hu]; exact h) hp
          refine ⟨(i, clk) :: evs', a1, ?_, fun n' => n'.casesOn ⟨0, h.store⟩ fun n' => (a3 n').elim fun n hn => ⟨n + 1, hn⟩⟩
          simp [timesOf, mixSteps, hi] at a2 ⊢
          exact a2
        · obtain ⟨evs', a1, a2, a3⟩ := ih (s.step env (.step i clk)) u (by rw [hst]; exact h) hp
          refine ⟨evs', a1, ?_, fun n' => (a3 n').elim fun n hn => ⟨n + 1, hn⟩⟩
          rw [a2]
          simp [mixSteps, hi]
      | some l =>
        have hilt := (List.getElem?_eq_some_iff.1 hl).1
        have hst : s.step env (.step i clk) = { s with st := (l.nextFrag env clk s.st).1, ls := s.ls.set i (l.nextFrag env clk s.st).2 } := by
          simp only [MixSys.step, hl]
        have hult : i < u.ls.length := by rw [h.len]; exact hilt
        have hjlt : i < jobs.length := by rw [h.njobs]; exact hilt
        have hul := List.getElem?_eq_getElem hult
        generalize u.ls[i] = l' at hul
        have hjb := List.getElem?_eq_getElem hjlt
        generalize jobs[i] = ts at hjb
        have hself : (s.step env (.step i clk)).ls[i]? = some (l.nextFrag env clk s.st).2 := by
          rw [hst]; exact List.getElem?_set_self hilt
        have hother : ∀ {k}, i ≠ k → (s.step env (.step i clk)).ls[k]? = s.ls[k]? := by
          intro k hk; rw [hst]; exact List.getElem?_set_ne hk
        have hlen : (s.step env (.step i clk)).ls.length = s.ls.length := by rw [hst]; exact List.length_set ..
        have hhand : ∀ (k : Nat) m, (s.step env (.step i clk)).ls[k]? = some m → m.Handles := by
          intro k m hm
          by_cases hk : i = k
          · subst hk
            rw [hself] at hm; cases hm
            exact frag_handles (h.handles i l hl)
          · rw [hother hk] at hm; exact h.handles k m hm
        by_cases hi : i = j
        · -- the connection itself
          subst hi
          have hll : l' = l := by
            have := h.own
            rw [hul, hl] at this
            exact Option.some.inj this
          subst hll
          have hrd := h.reads l' hl
          have hwh := frag_whole (env := env) (clk := clk) (st := s.st) (l := l') fun f hf => hw f (hrd.rest f hf)
          obtain ⟨b1, b2, -⟩ := line_blind (env := env) (clk := clk) (h.handles i l' hl) h.store
          have hust : u.step env (i, clk) = ⟨(l'.next env clk u.st).1, u.ls.set i (l'.next env clk u.st).2⟩ := by
            simp only [LSys.step, hul]
          obtain ⟨evs', a1, a2, a3⟩ := ih (s.step env (.step i clk)) (u.step env (i, clk)) ⟨by
              rw [hst, hust, hwh]; exact b2, by rw [hlen, hust]; simpa using h.len, by rw [hlen]; exact h.njobs, by
              rw [hself, hust, hwh, b1]; exact List.getElem?_set_self hult, fun m hm => by
              rw [hself, hwh] at hm; cases hm; exact next_reads hrd, hhand, fun k m m' us hk hm hm' hus => by
              rw [hother (Ne.symm hk)] at hm
              rw [hust] at hm'
              simp only at hm'
              rw [List.getElem?_set_ne (Ne.symm hk)] at hm'
              exact h.line k m m' us hk hm hm' hus⟩ hp
          refine ⟨(i, clk) :: evs', a1, ?_, fun n' => n'.casesOn ⟨0, h.store⟩ fun n' => (a3 n').elim fun n hn => ⟨n + 1, hn⟩⟩
          simp [timesOf, mixSteps] at a2 ⊢
          exact a2
        · -- another one
          have hsh := h.line i l l' ts hi hl hul hjb
          have hpre : (l.nextFrag env clk s.st).2.taken <+: ts := by
            obtain ⟨m, h1, h2⟩ := mix_taken (env := env) evs _ i _ hself
            exact h2.trans (hp i m ts h1 hjb hi)
          have hown : ∀ m, (s.step env (.step i clk)).ls[j]? = some m → m.Reads env c fs := by
            intro m hm
            rw [hother hi] at hm
            exact h.reads m hm
          have stay : (s.step env (.step i clk)).st = (l.nextFrag env clk s.st).1 := by rw [hst]
          have quiet : s.st.Alike (l.nextFrag env clk s.st).1 → (l.nextFrag env clk s.st).2.Shadow ts l' →
              ∃ evs', (MixSys.run env s (.step i clk :: evs)).Over env c fs j jobs (u.run env evs') ∧
                timesOf j evs' = mixSteps j (.step i clk :: evs) ∧
                  ∀ n', ∃ n, (u.run env (evs'.take n')).st.Alike (s.run env ((MixEv.step i clk :: evs).take n)).st := by
            intro g1 g2
            obtain ⟨evs', a1, a2, a3⟩ := ih (s.step env (.step i clk)) u ⟨by rw [stay]; exact h.store.trans g1, by
              rw [hlen]; exact h.len, by rw [hlen]; exact h.njobs, by rw [hother hi]; exact h.own, hown, hhand,
              fun k m m' us hk hm hm' hus => by
                by_cases hik : i = k
                · subst hik
                  rw [hself] at hm; rw [hul] at hm'; rw [hjb] at hus
                  cases hm; cases hm'; cases hus
                  exact g2
                · rw [hother hik] at hm
                  exact h.line k m m' us hk hm hm' hus⟩ hp
            refine ⟨evs', a1, ?_, fun n' => (a3 n').elim fun n hn => ⟨n + 1, hn⟩⟩
            rw [a2]
            simp [mixSteps, hi]
          have works : (l'.next env clk u.st).1.Alike (l.nextFrag env clk s.st).1 →
              (l.nextFrag env clk s.st).2.Shadow ts (l'.next env clk u.st).2 →
              ∃ evs', (MixSys.run env s (.step i clk :: evs)).Over env c fs j jobs (u.run env evs') ∧
                timesOf j evs' = mixSteps j (.step i clk :: evs) ∧
                  ∀ n', ∃ n, (u.run env (evs'.take n')).st.Alike (s.run env ((MixEv.step i clk :: evs).take n)).st := by
            intro g1 g2
            have hust : u.step env (i, clk) = ⟨(l'.next env clk u.st).1, u.ls.set i (l'.next env clk u.st).2⟩ := by
              simp only [LSys.step, hul]
            obtain ⟨evs', a1, a2, a3⟩ := ih (s.step env (.step i clk)) (u.step env (i, clk)) ⟨by rw [stay, hust]; exact g1, by
              rw [hlen, hust]; simpa using h.len, by rw [hlen]; exact h.njobs, by
              rw [hother hi, hust]; exact (List.getElem?_set_ne hi).trans h.own, hown, hhand,
              fun k m m' us hk hm hm' hus => by
                rw [hust] at hm'
                simp only at hm'
                by_cases hik : i = k
                · subst hik
                  rw [hself] at hm; rw [List.getElem?_set_self hult] at hm'; rw [hjb] at hus
                  cases hm; cases hm'; cases hus
                  exact g2
                · rw [hother hik] at hm; rw [List.getElem?_set_ne hik] at hm'
                  exact h.line k m m' us hk hm hm' hus⟩ hp
            refine ⟨(i, clk) :: evs', a1, ?_, fun n' => n'.casesOn ⟨0, h.store⟩ fun n' => (a3 n').elim fun n hn => ⟨n + 1, hn⟩⟩
            simp [timesOf, mixSteps, hi] at a2 ⊢
            exact a2
          rcases frag_cases (env := env) (clk := clk) (st := s.st) l with ⟨g1, g2, g3⟩ | ⟨g1, g2, g3, g4, g5, t, g6⟩ | ⟨g1, g2, g3, g4⟩
          · obtain ⟨k1, k2⟩ := shadow_works (env := env) (clk := clk) hsh g1 g2 (h.handles i l hl) h.store
            exact works (by rw [g3]; exact k2) (by rw [g3]; exact k1)
          · obtain ⟨k1, k2⟩ := shadow_begins (env := env) (clk := clk) (st := u.st) hsh g1 g2 g5 g6 hpre
            exact works (by rw [k2]; exact h.store.trans g3) k1
          · refine quiet g1 ⟨hsh.cur.trans g2.symm, hsh.done.trans g3.symm, hsh.input, fun he => hsh.ended ?_, fun he => ?_⟩
            · cases hx : l.ended with
              | false => rfl
              | true => rw [g4 hx] at he; cases he
            · have hx : l.ended = false := by
                cases hx : l.ended with
                | false => rfl
                | true => rw [g4 hx] at he; cases he
              have := hsh.todo hx
              simpa [Line.taken, g2, g3] using this

end JT808
