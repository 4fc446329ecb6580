import Verif.Proof.Lines
/-
C158: any number of terminals can come at once, from the bytes they send to the bytes they are sent.
-/
namespace JT808
open Spec

namespace Spec

/-- The bytes of a terminal: its messages in frames, with bytes other than 0x7e between them. -/
def Carries (env : Env) (x : Visitor) (bytes : List UInt8) : Prop :=
  ∃ items tail, bytes = streamOf items tail ∧ (∀ it ∈ items, (0x7e : UInt8) ∉ it.1) ∧ (∀ it ∈ items, Delimited it.2) ∧
    (0x7e : UInt8) ∉ tail ∧ items.length = x.script.length ∧
    ∀ (i : Nat) it t, items[i]? = some it → x.script[i]? = some t → ∀ now, ∃ h m, t = .msg x.conn h m ∧ Holds env now it.2 h m

/-- Bytes of somebody else: no message in them is of the terminal's phone or registers its plate, and no frame is a
fragment. -/
def Foreign (env : Env) (x : Visitor) (bytes : List UInt8) : Prop :=
  ∀ e fs rest, Recvs e bytes fs rest → ∀ f ∈ fs,
    (∀ pd, decodeFrame env f = .ok pd → pd.header.isFragmented = false) ∧
    ∀ now h m, Holds env now f h m → h.phone ≠ x.phone ∧ ∀ g, m = .m0100 g → g.plate ≠ x.reg.plate

/-- The bytes the terminal wants to receive. -/
def Visitor.hears (x : Visitor) : List UInt8 :=
  registerReply x.regHdr 0 x.code ++ generalReply x.authHdr 0 ++ x.rest.flatMap fun y => generalReply y.1 0

end Spec

/-! ### Terminals at any time -/

theorem worker_done {env : Env} {clk : Clock} {st : Store} (w : Worker) : w.done <+: (w.next env clk st).2.done := by
  obtain ⟨todo, cur, done⟩ := w
  cases cur with
  | none => cases todo <;> exact List.prefix_refl _
  | some tq =>
    obtain ⟨t, q⟩ := tq
    cases q with
    | ret r => exact List.prefix_append _ _
    | step f k => exact List.prefix_refl _

theorem workers_done {env : Env} (evs : List (Nat × Clock)) (s : WSys) (i : Nat) (w : Worker) (h : s.ws[i]? = some w) :
    ∃ w', (s.run env evs).ws[i]? = some w' ∧ w.done <+: w'.done := by
  induction evs generalizing s w with
  | nil => exact ⟨w, h, List.prefix_refl _⟩
  | cons e evs ih =>
    have : ∃ w1, (s.step env e).ws[i]? = some w1 ∧ w.done <+: w1.done := by
      unfold WSys.step
      cases hi : s.ws[e.1]? with
      | none => exact ⟨w, h, List.prefix_refl _⟩
      | some y =>
        by_cases he : e.1 = i
        · subst he
          rw [h] at hi; cases hi
          exact ⟨_, List.getElem?_set_self (List.getElem?_eq_some_iff.1 h).1, worker_done w⟩
        · exact ⟨w, (List.getElem?_set_ne he).trans h, List.prefix_refl _⟩
    obtain ⟨w1, h1, h2⟩ := this
    obtain ⟨w2, h3, h4⟩ := ih _ w1 h1
    exact ⟨w2, h3, h2.trans h4⟩

theorem timesOf_append (j : Nat) (a b : List (Nat × Clock)) : timesOf j (a ++ b) = timesOf j a ++ timesOf j b := by
  simp [timesOf]

theorem timesOf_replicate (j n : Nat) (clk : Clock) : (timesOf j (List.replicate n (j, clk))).length = n := by
  simp [timesOf]

theorem wrun_append {env : Env} (s : WSys) (a b : List (Nat × Clock)) : s.run env (a ++ b) = (s.run env a).run env b :=
  List.foldl_append

theorem welcome_length (x : Visitor) : x.welcome.length = x.script.length := by simp [Visitor.welcome, Visitor.script]

theorem welcome_sends (env : Env) (x : Visitor) : (∀ r ∈ x.welcome, (putsOut env r).2 = false) ∧
    x.welcome.flatMap (fun r => (putsOut env r).1) = x.hears := by
  have ack : ∀ h, putsOut env (success h) = (generalReply h 0, false) := by
    intro h
    simp only [success, putsOut, Out.encode, Msg.encodeBody, ackEncode]
    rfl
  have reg : putsOut env (.ok (some ({ x.regHdr with msgID := 0x8100 }, .m8100 ⟨x.regHdr.serial, 0, x.code⟩))) =
      (registerReply x.regHdr 0 x.code, false) := by
    simp only [putsOut, Out.encode, Msg.encodeBody, registerAckEncode]
    rfl
  constructor
  · intro r hr
    simp only [Visitor.welcome, List.mem_cons, List.mem_map] at hr
    rcases hr with rfl | rfl | ⟨y, -, rfl⟩
    · rw [reg]
    · rw [ack]
    · rw [ack]
  · simp only [Visitor.welcome, List.flatMap_cons, reg, ack, Visitor.hears, List.append_assoc, List.flatMap_map]

/-! ### What the lines read -/

/-- A line with the rest of a script before it. -/
structure Line.Scripted (env : Env) (c : Conn) (script : List Task) (l : Line) : Prop where
  conn : l.conn = c
  todo : l.todo = []
  output : l.output = l.done.flatMap fun d => (putsOut env d.2).1
  rest : (l.ended = false ∧ ∃ ts, l.taken ++ ts = script ∧
      ∀ now, (cut l.recv l.input).map (received env now c) = ts.map fun t => some (some t)) ∨
    (l.ended = true ∧ l.taken <+: script ∧ ∃ d ∈ l.done, (putsOut env d.2).2 = true)

theorem next_scripted {env : Env} {clk : Clock} {st : Store} {c : Conn} {script : List Task} {l : Line}
    (h : l.Scripted env c script) : (l.next env clk st).2.Scripted env c script := by
  obtain ⟨conn, todo, input, recv, cur, done, output, ended⟩ := l
  obtain ⟨h1, h2, h3, h4⟩ := h
  simp only at h1 h2 h3 h4
  subst h1 h2 h3
  cases ended with
  | true => exact ⟨rfl, rfl, rfl, h4⟩
  | false =>
    cases cur with
    | some tq =>
      obtain ⟨t, q⟩ := tq
      cases q with
      | step f k => exact ⟨rfl, rfl, rfl, h4⟩
      | ret r =>
        refine ⟨rfl, rfl, by simp [Line.next], ?_⟩
        have ht : (Line.next env clk st ⟨conn, [], input, recv, some (t, .ret r), done, done.flatMap fun d => (putsOut env d.2).1,
            false⟩).2.taken = done.map (·.1) ++ [t] := by simp [Line.next, Line.taken]
        rw [ht]
        rcases h4 with ⟨-, ts, h5, h6⟩ | ⟨h5, -⟩
        · have h5 : done.map (·.1) ++ [t] ++ ts = script := h5
          cases hs : (putsOut env r).2 with
          | false => exact .inl ⟨hs, ts, h5, h6⟩
          | true => exact .inr ⟨hs, ⟨ts, h5⟩, (t, r), by simp [Line.next], hs⟩
        · cases h5
    | none =>
      cases input with
      | nil => exact ⟨rfl, rfl, rfl, h4⟩
      | cons b rest =>
        have hcut : cut recv (b :: rest) = match recvStep recv b with
          | .inl f => f :: cut RecvSt.fresh rest
          | .inr r' => cut r' rest := rfl
        rw [hcut] at h4
        cases hr : recvStep recv b with
        | inr r =>
          rw [hr] at h4
          simp only [Line.next, hr]
          exact ⟨rfl, rfl, rfl, h4⟩
        | inl f =>
          rw [hr] at h4
          rcases h4 with ⟨-, ts, h5, h6⟩ | ⟨h5, -⟩
          · cases ts with
            | nil => exact absurd (h6 clk.civil) (by simp)
            | cons t ts =>
              have h7 := h6 clk.civil
              simp only [List.map_cons, List.cons.injEq] at h7
              simp only [Line.next, hr, h7.1]
              refine ⟨rfl, rfl, rfl, .inl ⟨rfl, ts, ?_, fun now => ?_⟩⟩
              · simpa [Line.taken] using h5
              · have := h6 now
                simp only [List.map_cons, List.cons.injEq] at this
                exact this.2
          · cases h5

/-- A line whose messages all come from these frames. -/
structure Line.Reads (env : Env) (c : Conn) (fs : List (List UInt8)) (l : Line) : Prop where
  conn : l.conn = c
  todo : l.todo = []
  rest : ∀ f ∈ cut l.recv l.input, f ∈ fs
  taken : ∀ t ∈ l.taken, ∃ f ∈ fs, ∃ now h m, t = .msg c h m ∧ Holds env now f h m

theorem next_reads {env : Env} {clk : Clock} {st : Store} {c : Conn} {fs : List (List UInt8)} {l : Line}
    (h : l.Reads env c fs) : (l.next env clk st).2.Reads env c fs := by
  obtain ⟨conn, todo, input, recv, cur, done, output, ended⟩ := l
  obtain ⟨h1, h2, h3, h4⟩ := h
  simp only at h1 h2 h3
  subst h1 h2
  cases ended with
  | true => exact ⟨rfl, rfl, h3, h4⟩
  | false =>
    cases cur with
    | some tq =>
      obtain ⟨t, q⟩ := tq
      cases q with
      | step f k => exact ⟨rfl, rfl, h3, h4⟩
      | ret r => exact ⟨rfl, rfl, h3, fun t' ht => h4 t' (by simpa [Line.next, Line.taken] using ht)⟩
    | none =>
      cases input with
      | nil => exact ⟨rfl, rfl, h3, h4⟩
      | cons b rest =>
        have hcut : cut recv (b :: rest) = match recvStep recv b with
          | .inl f => f :: cut RecvSt.fresh rest
          | .inr r' => cut r' rest := rfl
        rw [hcut] at h3
        cases hr : recvStep recv b with
        | inr r =>
          rw [hr] at h3
          simp only [Line.next, hr]
          exact ⟨rfl, rfl, h3, h4⟩
        | inl f =>
          rw [hr] at h3
          have h3' : ∀ g ∈ cut RecvSt.fresh rest, g ∈ fs := fun g hg => h3 g (List.mem_cons_of_mem _ hg)
          cases hf : received env clk.civil conn f with
          | none => simp only [Line.next, hr, hf]; exact ⟨rfl, rfl, h3', h4⟩
          | some o =>
            cases o with
            | none => simp only [Line.next, hr, hf]; exact ⟨rfl, rfl, h3', h4⟩
            | some t =>
              simp only [Line.next, hr, hf]
              refine ⟨rfl, rfl, h3', fun t' ht => ?_⟩
              have ht : t' ∈ done.map (·.1) ++ [t] := ht
              rcases List.mem_append.1 ht with ht | ht
              · exact h4 t' (by simpa [Line.taken] using ht)
              · rw [List.mem_singleton.1 ht]
                obtain ⟨h, m, e1, e2⟩ := received_iff.1 hf
                exact ⟨f, h3 f List.mem_cons_self, _, h, m, e1, e2⟩

theorem next_check {env : Env} {clk : Clock} {st : Store} {p : Str} {l : Line}
    (h : l.input = [] ∧ l.taken ++ l.todo = [.check p]) :
    (l.next env clk st).2.input = [] ∧ (l.next env clk st).2.taken ++ (l.next env clk st).2.todo = [.check p] := by
  obtain ⟨conn, todo, input, recv, cur, done, output, ended⟩ := l
  obtain ⟨h1, h2⟩ := h
  simp only at h1
  subst h1
  cases ended with
  | true => exact ⟨rfl, h2⟩
  | false =>
    cases cur with
    | some tq =>
      obtain ⟨t, q⟩ := tq
      cases q with
      | step f k => exact ⟨rfl, h2⟩
      | ret r => exact ⟨rfl, by simpa [Line.next, Line.taken] using h2⟩
    | none =>
      cases todo with
      | nil => exact ⟨rfl, h2⟩
      | cons t ts => exact ⟨rfl, by simpa [Line.next, Line.taken] using h2⟩

theorem holds_addressed {env : Env} {now : Civil} {f : List UInt8} {c : Conn} {h : Header} {m : Msg} (hh : Holds env now f h m) :
    (Task.msg c h m).Addressed := by
  obtain ⟨pd, t, j, -, -, -, -, hd⟩ := hh
  cases m with
  | m8103 m => exact (decode_8103_phone hd).1
  | _ => trivial

theorem carries_cut {env : Env} {x : Visitor} {bytes : List UInt8} (h : Carries env x bytes) (now : Civil) :
    (cut RecvSt.fresh bytes).map (received env now x.conn) = x.script.map fun t => some (some t) := by
  obtain ⟨items, tail, rfl, h1, h2, h3, h4, h5⟩ := h
  obtain ⟨a, b⟩ := C03_stream_segmentation .eof items tail h1 h2 h3
  rw [cut_recvs a b]
  refine List.ext_getElem? fun i => ?_
  simp only [List.getElem?_map]
  cases hi : items[i]? with
  | none =>
    have : x.script[i]? = none := by
      rw [List.getElem?_eq_none_iff] at hi ⊢; omega
    rw [this]; rfl
  | some it =>
    have hlt : i < x.script.length := by rw [← h4]; exact (List.getElem?_eq_some_iff.1 hi).1
    have ht : x.script[i]? = some x.script[i] := List.getElem?_eq_getElem hlt
    rw [ht]
    obtain ⟨hd, m, e1, e2⟩ := h5 i it _ hi ht now
    simp only [Option.map_some]
    rw [received_iff.2 ⟨hd, m, e1, e2⟩]

/-- Lines of terminals, of others and of checks, given that the workers with the same messages answer as they should. -/
theorem lines_welcome (env : Env) (st : Store) (terms : List (Visitor × List UInt8)) (others : List (Conn × List UInt8))
    (checks own : List Str) (evs : List (Nat × Clock)) (clk0 : Clock) (hx : ∀ x ∈ terms, Carries env x.1 x.2)
    (hoth : ∀ o ∈ others, ∀ x ∈ terms, Foreign env x.1 o.2) (hchk : ∀ p ∈ checks, ∀ x ∈ terms, p ≠ x.1.phone)
    (j : Nat) (x : Visitor) (bytes : List UInt8) (hj : terms[j]? = some (x, bytes))
    (henough : bytes.length + 10 * x.script.length ≤ (timesOf j evs).length) (s0 : LSys)
    (hs0 : s0 = LSys.mk st (terms.map (fun y => Line.open y.1.conn y.2) ++
      (others.map (fun o => Line.open o.1 o.2) ++ checks.map Line.check) ++ own.map Line.check))
    (H : ∀ (rest : List (List Task)) (evs' : List (Nat × Clock)) (n : Nat),
      (∀ ts ∈ rest, ∀ t ∈ ts, t.Addressed ∧ ∀ y ∈ terms, t.phone ≠ y.1.phone ∧ plateOf t ≠ some y.1.reg.plate) →
      (∀ e ∈ evs', e ∈ evs) →
      (LinesFromTable env s0 evs → FromTable env (WSys.begin st
        ((terms.map fun y => y.1).map (·.script) ++ rest ++ own.map fun p => [.check p])) evs') →
      10 * x.script.length ≤ (timesOf j (evs' ++ List.replicate n (j, clk0))).length →
      let s := (WSys.begin st ((terms.map fun y => y.1).map (·.script) ++ rest ++ own.map fun p => [.check p])).run env
        (evs' ++ List.replicate n (j, clk0))
      (s.ws[j]?).map (·.done) = some (x.script.zip x.welcome) ∧
        ∃ d, s.st.look x.phone = some d ∧ s.st.lookPlate x.reg.plate = some d ∧ x.Known d) :
    ((∃ l, (s0.run env evs).ls[j]? = some l ∧ l.output = x.hears ∧ l.ended = false) ∧
      ∃ d, (s0.run env evs).st.look x.phone = some d ∧ (s0.run env evs).st.lookPlate x.reg.plate = some d ∧ x.Known d) ∧
    ∀ Q : List (Task × Res (Option Out)) → Prop,
      (∀ (rest : List (List Task)) (evs' : List (Nat × Clock)),
        (∀ ts ∈ rest, ∀ t ∈ ts, t.Addressed ∧ ∀ y ∈ terms, t.phone ≠ y.1.phone ∧ plateOf t ≠ some y.1.reg.plate) →
        (∀ e ∈ evs', e ∈ evs) →
        (LinesFromTable env s0 evs → FromTable env (WSys.begin st
          ((terms.map fun y => y.1).map (·.script) ++ rest ++ own.map fun p => [.check p])) evs') →
        ∀ (i : Nat) (w : Worker), ((WSys.begin st ((terms.map fun y => y.1).map (·.script) ++ rest ++
          own.map fun p => [.check p])).run env evs').ws[terms.length + rest.length + i]? = some w → Q w.done) →
      ∀ (i : Nat) (l : Line), (s0.run env evs).ls[terms.length + (others.length + checks.length) + i]? = some l → Q l.done := by
  have hlen0 : s0.ls.length = terms.length + (others.length + checks.length) + own.length := by rw [hs0]; simp; omega
  have hlen : (s0.run env evs).ls.length = s0.ls.length := lines_length ..
  have hterm0 : ∀ (i : Nat) y, terms[i]? = some y → s0.ls[i]? = some (Line.open y.1.conn y.2) := by
    intro i y hi
    rw [hs0]
    simp only
    rw [List.append_assoc, List.getElem?_append_left (by rw [List.length_map]; exact (List.getElem?_eq_some_iff.1 hi).1),
      List.getElem?_map, hi]
    rfl
  -- the terminals read their scripts
  have hscr : ∀ (i : Nat) l, (s0.run env evs).ls[i]? = some l → ∀ y, terms[i]? = some y →
      l.Scripted env y.1.conn y.1.script := by
    refine lines_run (env := env) (P := fun i l => ∀ y, terms[i]? = some y → l.Scripted env y.1.conn y.1.script)
      (fun i clk st l h y hy => next_scripted (h y hy)) evs s0 ?_
    intro i l hl y hy
    rw [hterm0 i y hy] at hl
    cases hl
    refine ⟨rfl, rfl, rfl, .inl ⟨rfl, y.1.script, rfl, fun now => ?_⟩⟩
    exact carries_cut (hx y (List.mem_of_getElem? hy)) now
  -- the others say nothing about them
  have hfor : ∀ (i : Nat) l, (s0.run env evs).ls[i]? = some l → terms.length ≤ i →
      i < terms.length + (others.length + checks.length) →
      (∃ o ∈ others, l.Reads env o.1 (cut RecvSt.fresh o.2)) ∨ (∃ p ∈ checks, l.input = [] ∧ l.taken ++ l.todo = [.check p]) := by
    refine lines_run (env := env) (P := fun i l => terms.length ≤ i →
      i < terms.length + (others.length + checks.length) →
      (∃ o ∈ others, l.Reads env o.1 (cut RecvSt.fresh o.2)) ∨ (∃ p ∈ checks, l.input = [] ∧ l.taken ++ l.todo = [.check p]))
      (fun i clk st l h hi hi' => ?_) evs s0 ?_
    · rcases h hi hi' with ⟨o, h1, h2⟩ | ⟨p, h1, h2⟩
      · exact .inl ⟨o, h1, next_reads h2⟩
      · exact .inr ⟨p, h1, next_check h2⟩
    · intro i l hl hi hi'
      rw [hs0] at hl
      simp only at hl
      rw [List.getElem?_append_left (by simpa using hi'), List.getElem?_append_right (by rw [List.length_map]; exact hi)] at hl
      rcases List.mem_append.1 (List.mem_of_getElem? hl) with h | h
      · obtain ⟨o, h1, rfl⟩ := List.mem_map.1 h
        exact .inl ⟨o, h1, rfl, rfl, fun f hf => hf, fun t ht => by simp [Line.taken, Line.open] at ht⟩
      · obtain ⟨p, h1, rfl⟩ := List.mem_map.1 h
        exact .inr ⟨p, h1, rfl, rfl⟩
  have hown : ∀ (i : Nat) l, (s0.run env evs).ls[i]? = some l → ∀ p, terms.length + (others.length + checks.length) ≤ i →
      own[i - (terms.length + (others.length + checks.length))]? = some p → l.input = [] ∧ l.taken ++ l.todo = [.check p] := by
    refine lines_run (env := env) (P := fun i l => ∀ p, terms.length + (others.length + checks.length) ≤ i →
      own[i - (terms.length + (others.length + checks.length))]? = some p → l.input = [] ∧ l.taken ++ l.todo = [.check p])
      (fun i clk st l h p hi hp => next_check (h p hi hp)) evs s0 ?_
    intro i l hl p hi hp
    rw [hs0] at hl
    simp only at hl
    have hle : (terms.map (fun y => Line.open y.1.conn y.2) ++
      (others.map (fun o => Line.open o.1 o.2) ++ checks.map Line.check)).length = terms.length + (others.length + checks.length) := by
      simp
    rw [List.getElem?_append_right (by rw [hle]; exact hi), hle, List.getElem?_map, hp] at hl
    cases hl
    exact ⟨rfl, rfl⟩
  -- the messages of the others
  have hsay : ∀ (i : Nat) l, (s0.run env evs).ls[i]? = some l → terms.length ≤ i →
      i < terms.length + (others.length + checks.length) → ∀ t ∈ l.taken,
      t.Addressed ∧ ∀ y ∈ terms, t.phone ≠ y.1.phone ∧ plateOf t ≠ some y.1.reg.plate := by
    intro i l hl hi hi' t ht
    rcases hfor i l hl hi hi' with ⟨o, h1, h2⟩ | ⟨p, h1, -, h2⟩
    · obtain ⟨f, hf, now, hd, m, rfl, hh⟩ := h2.taken t ht
      refine ⟨holds_addressed hh, fun y hy => ?_⟩
      obtain ⟨rest, hr, -⟩ := cut_is_recvs .eof o.2
      obtain ⟨e1, e2⟩ := (hoth o h1 y hy .eof _ rest hr f hf).2 now hd m hh
      refine ⟨e1, ?_⟩
      cases m with
      | m0100 g => exact fun e => e2 g rfl (Option.some.inj e)
      | _ => intro e; cases e
    · have : t ∈ [Task.check p] := by rw [← h2]; exact List.mem_append_left _ ht
      rw [List.mem_singleton.1 this]
      exact ⟨trivial, fun y hy => ⟨hchk p h1 y hy, fun e => by cases e⟩⟩
  -- the workers
  let rest : List (List Task) := (((s0.run env evs).ls.drop terms.length).take
    (others.length + checks.length)).map Line.taken
  have hrest : ∀ ts ∈ rest, ∀ t ∈ ts, t.Addressed ∧ ∀ y ∈ terms, t.phone ≠ y.1.phone ∧ plateOf t ≠ some y.1.reg.plate := by
    intro ts hts t ht
    obtain ⟨l, h1, rfl⟩ := List.mem_map.1 hts
    obtain ⟨i, hi⟩ := List.getElem?_of_mem h1
    rw [List.getElem?_take] at hi
    split at hi
    · rename_i hlt
      rw [List.getElem?_drop] at hi
      exact hsay _ l hi (by omega) (by omega) t ht
    · cases hi
  let vs : List Visitor := terms.map fun y => y.1
  let jobs : List (List Task) := vs.map (·.script) ++ rest ++ own.map fun p => [.check p]
  have hvl : (vs.map (·.script)).length = terms.length := by simp [vs]
  have hrl : rest.length = others.length + checks.length := by
    simp only [rest, List.length_map, List.length_take, List.length_drop, hlen, hlen0]
    omega
  have hjl : jobs.length = s0.ls.length := by
    show (vs.map (·.script) ++ rest ++ own.map fun p => [Task.check p]).length = _
    rw [List.length_append, List.length_append, hvl, hrl, List.length_map, hlen0]
  have hjt : ∀ (i : Nat) y, terms[i]? = some y → jobs[i]? = some y.1.script := by
    intro i y hi
    have hlt := (List.getElem?_eq_some_iff.1 hi).1
    show (vs.map (·.script) ++ rest ++ own.map fun p => [Task.check p])[i]? = _
    rw [List.append_assoc, List.getElem?_append_left (by rw [hvl]; exact hlt)]
    simp [vs, hi]
  have hjr : ∀ (i : Nat) l, terms.length ≤ i → i < terms.length + (others.length + checks.length) → (s0.run env evs).ls[i]? = some l → jobs[i]? = some l.taken := by
    intro i l hi hi' hl
    show (vs.map (·.script) ++ rest ++ own.map fun p => [Task.check p])[i]? = _
    rw [List.getElem?_append_left (by rw [List.length_append, hvl, hrl]; exact hi'),
      List.getElem?_append_right (by rw [hvl]; exact hi), hvl]
    simp only [rest, List.getElem?_map, List.getElem?_take, List.getElem?_drop]
    rw [if_pos (by omega), Nat.add_sub_cancel' hi, hl]
    rfl
  have hjo : ∀ (i : Nat), terms.length + (others.length + checks.length) ≤ i →
      jobs[i]? = (own[i - (terms.length + (others.length + checks.length))]?).map fun p => [.check p] := by
    intro i hi
    show (vs.map (·.script) ++ rest ++ own.map fun p => [Task.check p])[i]? = _
    have hle : (vs.map (·.script) ++ rest).length = terms.length + (others.length + checks.length) := by
      rw [List.length_append, hvl, hrl]
    rw [List.getElem?_append_right (by rw [hle]; exact hi), hle, List.getElem?_map]
  have hlike : s0.Like jobs (WSys.begin st jobs) := by
    refine ⟨by rw [hs0]; rfl, by simp [WSys.begin, hjl], fun i l ts w h1 h2 h3 => ?_, hjl⟩
    simp only [WSys.begin, List.getElem?_map, h2, Option.map_some, Option.some.injEq] at h3
    subst h3
    have hl : l.cur = none ∧ l.done = [] := by
      rw [hs0] at h1
      have h1 := List.mem_of_getElem? h1
      simp only [List.mem_append, List.mem_map] at h1
      rcases h1 with (⟨y, -, rfl⟩ | ⟨y, -, rfl⟩ | ⟨y, -, rfl⟩) | ⟨y, -, rfl⟩ <;> exact ⟨rfl, rfl⟩
    exact ⟨hl.1.symm, hl.2.symm, fun _ => by simp [Line.taken, hl.1, hl.2]⟩
  obtain ⟨evs', hfin, hcount, hsub, htab⟩ := lines_refine (env := env) jobs evs s0 _ hlike (by
    intro i l ts hl hts
    by_cases hi : i < terms.length
    · have hy : terms[i]? = some terms[i] := List.getElem?_eq_getElem hi
      rw [hjt i _ hy] at hts
      cases hts
      rcases (hscr i l hl _ hy).rest with ⟨-, us, h1, -⟩ | ⟨-, h1, -⟩
      · exact ⟨us, h1⟩
      · exact h1
    · by_cases hi' : i < terms.length + (others.length + checks.length)
      · rw [hjr i l (Nat.not_lt.1 hi) hi' hl] at hts
        cases hts
        exact List.prefix_refl _
      · rw [hjo i (Nat.not_lt.1 hi'), Option.map_eq_some_iff] at hts
        obtain ⟨p, h1, rfl⟩ := hts
        exact ⟨_, (hown i l hl p (Nat.not_lt.1 hi') h1).2⟩)
  have hjlt : j < terms.length := (List.getElem?_eq_some_iff.1 hj).1
  have hl : (s0.run env evs).ls[j]? = some _ := List.getElem?_eq_getElem (by rw [hlen, hlen0]; omega)
  generalize (s0.run env evs).ls[j]'(by rw [hlen, hlen0]; omega) = l at hl
  have hw : ((WSys.begin st jobs).run env evs').ws[j]? = some _ :=
    List.getElem?_eq_getElem (by rw [hfin.len, hlen, hlen0]; omega)
  generalize ((WSys.begin st jobs).run env evs').ws[j]'(by rw [hfin.len, hlen, hlen0]; omega) = w at hw
  have hlw := hfin.line j l x.script w hl (hjt j _ hj) hw
  have hsc := hscr j l hl _ hj
  have hsofar : w.done <+: x.script.zip x.welcome := by
    obtain ⟨w', h1, h2⟩ := workers_done (env := env) (List.replicate (10 * x.script.length) (j, clk0)) _ j w hw
    have key := (H rest evs' (10 * x.script.length) hrest hsub htab
      (by rw [timesOf_append, List.length_append, timesOf_replicate]; omega)).1
    rw [wrun_append] at key
    have h1 : ((WSys.begin st (vs.map (·.script) ++ rest ++ own.map fun p => [Task.check p])).run env evs').run env _ |>.ws[j]? = _ := h1
    rw [h1] at key
    have key : some w'.done = _ := key
    rw [← Option.some.inj key]
    exact h2
  obtain ⟨hgood, hhears⟩ := welcome_sends env x
  have hne : l.ended = false := by
    rcases hsc.rest with ⟨h, -⟩ | ⟨-, -, d, h1, h2⟩
    · exact h
    · rw [← hlw.done] at h1
      have h3 : d.2 ∈ x.welcome := (List.of_mem_zip (hsofar.subset h1)).2
      rw [hgood _ h3] at h2
      cases h2
  -- all steps but those of reading, or nothing left to do
  have hfull : ∃ n, ((WSys.begin st jobs).run env (evs' ++ List.replicate n (j, clk0))) =
      (WSys.begin st jobs).run env evs' ∧ 10 * x.script.length ≤ (timesOf j (evs' ++ List.replicate n (j, clk0))).length := by
    rcases hcount j _ l (hterm0 j _ hj) hl with h | h | h
    · rw [hne] at h; cases h
    · refine ⟨10 * x.script.length, ?_, ?_⟩
      · rw [wrun_append]
        have htodo : w.todo = [] := by
          rcases hsc.rest with ⟨-, ts, h1, h2⟩ | ⟨h1, -⟩
          · have h3 := hlw.todo hne
            have h4 := h2 ⟨0, 0, 0, 0, 0, 0⟩
            rw [h.1] at h4
            have h5 : ts = [] := by
              have := congrArg List.length h4
              simpa [cut] using this.symm
            subst h5
            rw [List.append_nil] at h1
            exact List.append_cancel_left (h3.trans (h1.symm.trans (List.append_nil _).symm))
          · rw [hne] at h1; cases h1
        have hcur : w.cur = none := hlw.cur.trans h.2.2
        generalize (WSys.begin st jobs).run env evs' = z at hw ⊢
        have hstay : z.step env (j, clk0) = z := by
          obtain ⟨zst, zws⟩ := z
          obtain ⟨wt, wc, wd⟩ := w
          simp only at htodo hcur
          subst htodo hcur
          simp only at hw
          simp only [WSys.step, hw, Worker.next]
          congr 1
          refine List.ext_getElem? fun n => ?_
          by_cases hn : j = n
          · subst hn; rw [List.getElem?_set_self (List.getElem?_eq_some_iff.1 hw).1, hw]
          · rw [List.getElem?_set_ne hn]
        generalize 10 * x.script.length = n
        induction n with
        | zero => rfl
        | succ n ih =>
          rw [List.replicate_succ]
          show WSys.run env (z.step env (j, clk0)) _ = z
          rw [hstay]; exact ih
      · rw [timesOf_append, List.length_append, timesOf_replicate]; omega
    · refine ⟨0, by rw [List.replicate_zero, List.append_nil], ?_⟩
      rw [List.replicate_zero, List.append_nil]
      have h : (timesOf j evs).length + l.input.length ≤ (timesOf j evs').length + bytes.length := h
      omega
  obtain ⟨n, hstay, hten⟩ := hfull
  have key := H rest evs' n hrest hsub htab hten
  simp only at key
  have hstay : (WSys.begin st (vs.map (·.script) ++ rest ++ own.map fun p => [Task.check p])).run env
      (evs' ++ List.replicate n (j, clk0)) = _ := hstay
  rw [hstay, hfin.store] at key
  refine ⟨⟨⟨l, hl, ?_, hne⟩, key.2⟩, fun Q hQ i l' hl' => ?_⟩
  rotate_left
  · have hlt := (List.getElem?_eq_some_iff.1 hl').1
    have hw' : ((WSys.begin st jobs).run env evs').ws[terms.length + (others.length + checks.length) + i]? = some _ :=
      List.getElem?_eq_getElem (by rw [hfin.len]; exact hlt)
    have hjob : jobs[terms.length + (others.length + checks.length) + i]? = some _ :=
      List.getElem?_eq_getElem (by rw [hjl, ← hlen]; exact hlt)
    rw [← (hfin.line _ l' _ _ hl' hjob hw').done]
    refine hQ rest evs' hrest hsub htab i _ ?_
    rw [hrl]
    exact hw'
  have hdone : w.done = x.script.zip x.welcome := by
    have h1 := key.1
    rw [hw] at h1
    exact Option.some.inj h1
  rw [hsc.output, ← hlw.done, hdone, ← hhears]
  have hzip : ∀ (a : List Task) (b : List (Res (Option Out))), b.length = a.length →
      (a.zip b).flatMap (fun d => (putsOut env d.2).1) = b.flatMap fun r => (putsOut env r).1 := by
    intro a
    induction a with
    | nil => intro b hb; rw [List.length_eq_zero_iff.1 hb]; rfl
    | cons t a ih =>
      intro b hb
      cases b with
      | nil => cases hb
      | cons r b =>
        simp only [List.zip_cons_cons, List.flatMap_cons]
        rw [ih b (Nat.succ.inj hb)]
  exact hzip _ _ (welcome_length x)

/-- C158: any number of terminals with different phones and plates, each sending, on its connection, the bytes of its
registration, of the authentication with the code it is told and of heartbeats and positions; other connections, on which
any bytes arrive that are not about these phones and plates; and keepalive checks of other phones.  All goroutines read
bytes, handle messages and write answers in any order, at any times.  After one step for each byte and ten for each message
a terminal has been sent exactly the answers it wants, byte for byte, its connection is served on, and the server knows it
by phone and by plate, not offline, with its connection. -/
theorem C158_bytes (env : Env) (before : List CEv) (terms : List (Visitor × List UInt8)) (others : List (Conn × List UInt8))
    (checks : List Str) (evs : List (Nat × Clock)) (hx : ∀ x ∈ terms, x.1.Proper ∧ Carries env x.1 x.2)
    (hph : (terms.map (·.1.phone)).Nodup) (hpl : (terms.map (·.1.reg.plate)).Nodup)
    (hold : ∀ t, .spawn t ∈ before → ∀ x ∈ terms, t.phone ≠ x.1.phone ∧ plateOf t ≠ some x.1.reg.plate)
    (hoth : ∀ o ∈ others, ∀ x ∈ terms, Foreign env x.1 o.2) (hchk : ∀ p ∈ checks, ∀ x ∈ terms, p ≠ x.1.phone)
    (j : Nat) (x : Visitor) (bytes : List UInt8) (hj : terms[j]? = some (x, bytes))
    (henough : bytes.length + 10 * x.script.length ≤ (timesOf j evs).length) :
    let s := (LSys.mk (CSys.start.run env before).st (terms.map (fun y => Line.open y.1.conn y.2) ++
      (others.map (fun o => Line.open o.1 o.2) ++ checks.map Line.check))).run env evs
    (∃ l, s.ls[j]? = some l ∧ l.output = x.hears ∧ l.ended = false) ∧
      ∃ d, s.st.look x.phone = some d ∧ s.st.lookPlate x.reg.plate = some d ∧ x.Known d := by
  intro s
  have p1 : ∀ v ∈ terms.map (fun y => y.1), v.Proper := by
    intro v hv; obtain ⟨y, h1, rfl⟩ := List.mem_map.1 hv; exact (hx y h1).1
  have p2 : ((terms.map (fun y => y.1)).map (·.phone)).Nodup := by simpa [Function.comp_def] using hph
  have p3 : ((terms.map (fun y => y.1)).map (·.reg.plate)).Nodup := by simpa [Function.comp_def] using hpl
  have pj : (terms.map (fun y => y.1))[j]? = some x := by rw [List.getElem?_map, hj]; rfl
  have := lines_welcome env (CSys.start.run env before).st terms others checks [] evs (demoClk 0) (fun y hy => (hx y hy).2) hoth hchk
    j x bytes hj henough _ rfl fun rest evs' n hrest _ _ hten => ?_
  · simpa using this.1
  have p5 : ∀ t, (.spawn t ∈ before ∨ t ∈ rest.flatten) → ∀ v ∈ terms.map (fun y => y.1),
      t.phone ≠ v.phone ∧ plateOf t ≠ some v.reg.plate := by
    intro t ht v hv
    obtain ⟨y, h1, rfl⟩ := List.mem_map.1 hv
    rcases ht with ht | ht
    · exact hold t ht y h1
    · obtain ⟨ts, h2, h3⟩ := List.mem_flatten.1 ht
      exact (hrest ts h2 t h3).2 y h1
  have := C156_welcome env before _ rest _ p1 p2 p3 (fun ts h t ht => (hrest ts h t ht).1) p5 j x pj hten
  simpa using this

theorem FromTable.append {env : Env} {s : WSys} {a b : List (Nat × Clock)} (ha : FromTable env s a)
    (hb : FromTable env (s.run env a) b) : FromTable env s (a ++ b) := by
  induction a generalizing s with
  | nil => exact hb
  | cons e a ih =>
    refine FromTable.cons (ha [] e a rfl) (ih (fun pre e' post heq => ?_) hb)
    exact ha (e :: pre) e' post (by rw [heq]; rfl)

theorem worker_todo {env : Env} {clk : Clock} {st : Store} (w : Worker) : ∀ t ∈ (w.next env clk st).2.todo, t ∈ w.todo := by
  obtain ⟨todo, cur, done⟩ := w
  cases cur with
  | none =>
    cases todo with
    | nil => exact fun t h => h
    | cons t ts => exact fun t h => List.mem_cons_of_mem _ h
  | some tq =>
    obtain ⟨t, q⟩ := tq
    cases q with
    | step f k => exact fun t h => h
    | ret r =>
      intro t' h
      have h : t' ∈ if goesOn r then todo else [] := h
      split at h
      · exact h
      · cases h

theorem workers_todo {env : Env} (evs : List (Nat × Clock)) (s : WSys) (i : Nat) (w' : Worker)
    (h : (s.run env evs).ws[i]? = some w') : ∃ w, s.ws[i]? = some w ∧ ∀ t ∈ w'.todo, t ∈ w.todo := by
  induction evs generalizing s with
  | nil => exact ⟨w', h, fun _ h => h⟩
  | cons e evs ih =>
    obtain ⟨w1, h1, h2⟩ := ih (s.step env e) h
    simp only [WSys.step] at h1
    split at h1
    · exact ⟨w1, h1, h2⟩
    · rename_i w0 hw0
      simp only at h1
      by_cases he : e.1 = i
      · subst he
        rw [List.getElem?_set_self (List.getElem?_eq_some_iff.1 hw0).1] at h1
        cases h1
        exact ⟨w0, hw0, fun t ht => worker_todo w0 t (h2 t ht)⟩
      · rw [List.getElem?_set_ne he] at h1
        exact ⟨w1, h1, h2⟩

/-- C159: C158 with keepalive checks of the terminals themselves, within a minute: the server may begin as many checks as it
wants for phones in its table of keepalive jobs, at any time and in any order with the reading of bytes, and still every
terminal is sent exactly the answers it wants, its connection is served on and the server knows it; and none of these checks
panics. -/
theorem C159_bytes_calm (env : Env) (before : List CEv) (terms : List (Visitor × List UInt8)) (others : List (Conn × List UInt8))
    (checks own : List Str) (evs : List (Nat × Clock)) (T : Nat) (hx : ∀ x ∈ terms, x.1.Proper ∧ Carries env x.1 x.2)
    (hph : (terms.map (·.1.phone)).Nodup) (hpl : (terms.map (·.1.reg.plate)).Nodup)
    (hold : ∀ t, .spawn t ∈ before → ∀ x ∈ terms, t.phone ≠ x.1.phone ∧ plateOf t ≠ some x.1.reg.plate)
    (hoth : ∀ o ∈ others, ∀ x ∈ terms, Foreign env x.1 o.2) (hchk : ∀ p ∈ checks, ∀ x ∈ terms, p ≠ x.1.phone)
    (hown : ∀ p ∈ own, ∃ x ∈ terms, x.1.phone = p) (hT : ∀ e ∈ evs, T ≤ e.2.ms ∧ e.2.ms ≤ T + 60000)
    (htab : LinesFromTable env (LSys.mk (CSys.start.run env before).st (terms.map (fun y => Line.open y.1.conn y.2) ++
      (others.map (fun o => Line.open o.1 o.2) ++ checks.map Line.check) ++ own.map Line.check)) evs)
    (j : Nat) (x : Visitor) (bytes : List UInt8) (hj : terms[j]? = some (x, bytes))
    (henough : bytes.length + 10 * x.script.length ≤ (timesOf j evs).length) :
    let s := (LSys.mk (CSys.start.run env before).st (terms.map (fun y => Line.open y.1.conn y.2) ++
      (others.map (fun o => Line.open o.1 o.2) ++ checks.map Line.check) ++ own.map Line.check)).run env evs
    ((∃ l, s.ls[j]? = some l ∧ l.output = x.hears ∧ l.ended = false) ∧
      ∃ d, s.st.look x.phone = some d ∧ s.st.lookPlate x.reg.plate = some d ∧ x.Known d) ∧
    ∀ (i : Nat) (l : Line), s.ls[terms.length + (others.length + checks.length) + i]? = some l → ∀ d ∈ l.done, d.2 = .ok none := by
  intro s
  have p1 : ∀ v ∈ terms.map (fun y => y.1), v.Proper := by
    intro v hv; obtain ⟨y, h1, rfl⟩ := List.mem_map.1 hv; exact (hx y h1).1
  have p2 : ((terms.map (fun y => y.1)).map (·.phone)).Nodup := by simpa [Function.comp_def] using hph
  have p3 : ((terms.map (fun y => y.1)).map (·.reg.plate)).Nodup := by simpa [Function.comp_def] using hpl
  have pj : (terms.map (fun y => y.1))[j]? = some x := by rw [List.getElem?_map, hj]; rfl
  have p5 : ∀ rest : List (List Task),
      (∀ ts ∈ rest, ∀ t ∈ ts, t.Addressed ∧ ∀ y ∈ terms, t.phone ≠ y.1.phone ∧ plateOf t ≠ some y.1.reg.plate) →
      ∀ t, (.spawn t ∈ before ∨ t ∈ rest.flatten) → ∀ v ∈ terms.map (fun y => y.1),
        t.phone ≠ v.phone ∧ plateOf t ≠ some v.reg.plate := by
    intro rest hrest t ht v hv
    obtain ⟨y, h1, rfl⟩ := List.mem_map.1 hv
    rcases ht with ht | ht
    · exact hold t ht y h1
    · obtain ⟨ts, h2, h3⟩ := List.mem_flatten.1 ht
      exact (hrest ts h2 t h3).2 y h1
  have q1 : ∀ p ∈ own, ∃ v ∈ terms.map (fun y => y.1), v.phone = p := by
    intro p hp
    obtain ⟨y, h1, h2⟩ := hown p hp
    exact ⟨y.1, List.mem_map_of_mem h1, h2⟩
  have main := lines_welcome env (CSys.start.run env before).st terms others checks own evs (demoClk T) (fun y hy => (hx y hy).2)
    hoth hchk j x bytes hj henough _ rfl fun rest evs' n hrest hsub htab' hten => ?_
  · refine ⟨main.1, main.2 (fun done => ∀ d ∈ done, d.2 = .ok none) fun rest evs' hrest hsub htab' => ?_⟩
    have := (C157_calm env before (terms.map fun y => y.1) rest own evs' T p1 p2 p3 (fun ts h t ht => (hrest ts h t ht).1)
      (p5 rest hrest) q1 (fun e he => hT e (hsub e he)) (htab' htab)).1
    rw [List.length_map] at this
    exact this
  have q2 : ∀ e ∈ evs' ++ List.replicate n (j, demoClk T), T ≤ e.2.ms ∧ e.2.ms ≤ T + 60000 := by
    intro e he
    rcases List.mem_append.1 he with he | he
    · exact hT e (hsub e he)
    · rw [(List.mem_replicate.1 he).2]
      exact ⟨Nat.le_refl _, Nat.le_add_right ..⟩
  have q3 := FromTable.append (htab' htab) (b := List.replicate n (j, demoClk T)) (by
    intro pre e post heq w p ts hw hcur htodo
    have he : e = (j, demoClk T) :=
      (List.mem_replicate.1 (by rw [heq]; exact List.mem_append_right _ List.mem_cons_self)).2
    subst he
    rw [← wrun_append] at hw
    obtain ⟨w0, h1, h2⟩ := workers_todo _ _ _ _ hw
    have h3 := h2 (.check p) (by rw [htodo]; exact List.mem_cons_self)
    simp only [WSys.begin, List.getElem?_map] at h1
    rw [List.append_assoc, List.getElem?_append_left (by
      rw [List.length_map, List.length_map]; exact (List.getElem?_eq_some_iff.1 hj).1), List.getElem?_map, pj] at h1
    cases h1
    obtain ⟨c, h, m, e⟩ := script_msg h3
    cases e)
  exact (C157_calm env before _ rest own _ T p1 p2 p3 (fun ts h t ht => (hrest ts h t ht).1) (p5 rest hrest) q1 q2 q3).2 j x pj hten

/-! Two terminals; a third connection with noise, a frame with a wrong check byte and a deregistration of a third phone; and
a check of a fourth phone. -/

theorem recvs_prefix {e : Err} {bytes : List UInt8} {fs : List (List UInt8)} {rest : List UInt8} (h : Recvs e bytes fs rest) :
    fs <+: cut RecvSt.fresh bytes := by
  induction h with
  | nil s => exact List.nil_prefix
  | cons h1 _ ih => rw [show cut RecvSt.fresh _ = _ from (cut_loop e _ _).1 _ _ h1]; exact List.cons_prefix_cons.2 ⟨rfl, ih⟩

def lineHdr (n : Nat) (id : UInt16) : Header := { hdr2013 id with phone := digitStr [0, 1, 3, 9, 1, 2, 3, 4, 5, 6, 7, n] }
def lineReg (b : UInt8) : Register := { demoRegMsg with plate := [0x41, 0x31, 0x32, b] }
def lineCode (n : Nat) (b : UInt8) : Str := authCodeOf demoRegMsg.deviceID [0x41, 0x31, 0x32, b] (lineHdr n 0).phone

def lineTerm (c : Conn) (n : Nat) (b : UInt8) : Visitor :=
  ⟨c, (lineHdr n 0).phone, (lineHdr n 0x0100).withBodyLength 41, lineReg b,
    (lineHdr n 0x0102).withBodyLength (lineCode n b).length, ⟨0, lineCode n b, [], []⟩,
    [(lineHdr n 0x0002, none), ((lineHdr n 0x0200).withBodyLength 28, some (demoLocMsg 3 31230000))]⟩

def lineItems (n : Nat) (b : UInt8) : List (List UInt8 × List UInt8) :=
  [([9, 9], msgFrame (lineHdr n 0x0100) ((lineReg b).encode goEnv .v2013)), ([], msgFrame (lineHdr n 0x0102) (lineCode n b)),
    ([1], msgFrame (lineHdr n 0x0002) []), ([], msgFrame (lineHdr n 0x0200) (demoLocMsg 3 31230000).encode)]

def lineTerms : List (Visitor × List UInt8) :=
  [(lineTerm demoC 1 0x31, streamOf (lineItems 1 0x31) []), (lineTerm demoC' 2 0x32, streamOf (lineItems 2 0x32) [7])]

def lineOther : List UInt8 := [3, 0x7e, 5, 6, 0x7e] ++ msgFrame (lineHdr 3 0x0003) []

theorem lineOther_cut : cut RecvSt.fresh lineOther = [[0x7e, 5, 6, 0x7e], msgFrame (lineHdr 3 0x0003) []] := by decide +kernel

theorem delimited_of {f : List UInt8} (h : f = 0x7e :: (f.drop 1).dropLast ++ [0x7e]) (h' : (0x7e : UInt8) ∉ (f.drop 1).dropLast) :
    Delimited f := ⟨_, h', h⟩

theorem lineTerm_carries {c : Conn} {n : Nat} {b : UInt8} (hn : (n = 1 ∧ b = 0x31) ∨ (n = 2 ∧ b = 0x32)) (tail : List UInt8)
    (ht : (0x7e : UInt8) ∉ tail) : Carries goEnv (lineTerm c n b) (streamOf (lineItems n b) tail) := by
  have d : ∀ it ∈ lineItems n b, it.2 = 0x7e :: (it.2.drop 1).dropLast ++ [0x7e] ∧ (0x7e : UInt8) ∉ (it.2.drop 1).dropLast := by
    rcases hn with ⟨rfl, rfl⟩ | ⟨rfl, rfl⟩ <;> decide +kernel
  refine ⟨lineItems n b, tail, rfl, ?_, fun it hit => delimited_of (d it hit).1 (d it hit).2, ht, rfl, ?_⟩
  · intro it hit
    simp only [lineItems, List.mem_cons, List.not_mem_nil, or_false] at hit
    rcases hit with rfl | rfl | rfl | rfl <;> simp
  · intro i it t h1 h2 now
    match i with
    | 0 =>
      cases h1; cases h2
      refine ⟨_, _, rfl, ?_⟩
      rcases hn with ⟨rfl, rfl⟩ | ⟨rfl, rfl⟩ <;> exact ⟨_, .t0100, _, rfl, rfl, rfl, rfl, rfl⟩
    | 1 =>
      cases h1; cases h2
      refine ⟨_, _, rfl, ?_⟩
      rcases hn with ⟨rfl, rfl⟩ | ⟨rfl, rfl⟩ <;> exact ⟨_, .t0102, _, rfl, rfl, rfl, rfl, rfl⟩
    | 2 =>
      cases h1; cases h2
      refine ⟨_, _, rfl, ?_⟩
      rcases hn with ⟨rfl, rfl⟩ | ⟨rfl, rfl⟩ <;> exact ⟨_, .t0002, _, rfl, rfl, rfl, rfl, rfl⟩
    | 3 =>
      cases h1; cases h2
      refine ⟨_, _, rfl, ?_⟩
      rcases hn with ⟨rfl, rfl⟩ | ⟨rfl, rfl⟩ <;> exact ⟨_, .t0200, _, rfl, rfl, rfl, rfl, rfl⟩
    | i + 4 => cases h1

theorem lineOther_foreign (x : Visitor) (hx : (lineHdr 3 0).phone ≠ x.phone) : Foreign goEnv x lineOther := by
  intro e fs rest hr f hf
  have hf := (recvs_prefix hr).subset hf
  rw [lineOther_cut] at hf
  simp only [List.mem_cons, List.not_mem_nil, or_false] at hf
  rcases hf with rfl | rfl
  · have h0 : decodeFrame goEnv [0x7e, 5, 6, 0x7e] = .err .verifyFailed := by decide +kernel
    refine ⟨fun pd h => ?_, fun now h m hh => ?_⟩
    · rw [h0] at h; cases h
    · obtain ⟨pd, t, k, e1, -⟩ := hh
      rw [h0] at e1; cases e1
  · have h0 : ∃ pd, decodeFrame goEnv (msgFrame (lineHdr 3 0x0003) []) = .ok pd ∧ pd.header = lineHdr 3 0x0003 := ⟨_, rfl, rfl⟩
    obtain ⟨pd, h0, h1⟩ := h0
    refine ⟨fun pd' h => ?_, fun now h m hh => ?_⟩
    · rw [h0] at h; cases h; rw [h1]; rfl
    · obtain ⟨pd', t, k, e1, e2, -, e3, e4⟩ := hh
      rw [h0] at e1; cases e1
      rw [h1] at e2; subst e2
      have : t = .t0003 := by
        have : MType.ofID (lineHdr 3 0x0003).msgID = some .t0003 := by decide
        rw [this] at e3; exact (Option.some.inj e3).symm
      subst this
      cases e4
      exact ⟨hx, fun g hg => by cases hg⟩

theorem lineTerms_proper : ∀ y ∈ lineTerms, y.1.Proper ∧ Carries goEnv y.1 y.2 := by
  intro y hy
  simp only [lineTerms, List.mem_cons, List.not_mem_nil, or_false] at hy
  rcases hy with rfl | rfl
  · exact ⟨⟨rfl, rfl, by intro z hz; simp only [lineTerm, List.mem_cons, List.not_mem_nil, or_false] at hz; rcases hz with rfl | rfl <;> rfl,
      rfl⟩, lineTerm_carries (.inl ⟨rfl, rfl⟩) [] (by decide)⟩
  · exact ⟨⟨rfl, rfl, by intro z hz; simp only [lineTerm, List.mem_cons, List.not_mem_nil, or_false] at hz; rcases hz with rfl | rfl <;> rfl,
      rfl⟩, lineTerm_carries (.inr ⟨rfl, rfl⟩) [7] (by decide)⟩

def lineOthers : List (Conn × List UInt8) := [(⟨2, [0x63]⟩, lineOther)]

theorem lineOthers_foreign : ∀ o ∈ lineOthers, ∀ y ∈ lineTerms, Foreign goEnv y.1 o.2 := by
  intro o ho y hy
  simp only [lineOthers, List.mem_cons, List.not_mem_nil, or_false] at ho
  subst ho
  refine lineOther_foreign y.1 ?_
  simp only [lineTerms, List.mem_cons, List.not_mem_nil, or_false] at hy
  rcases hy with rfl | rfl <;> decide

def lineChecks : List Str := [[0x38]]

theorem lineChecks_foreign : ∀ p ∈ lineChecks, ∀ y ∈ lineTerms, p ≠ y.1.phone := by
  intro p hp y hy
  simp only [lineChecks, List.mem_cons, List.not_mem_nil, or_false] at hp
  subst hp
  simp only [lineTerms, List.mem_cons, List.not_mem_nil, or_false] at hy
  rcases hy with rfl | rfl <;> decide

theorem lineTerms_enough {evs : List (Nat × Clock)} (h : 220 ≤ (timesOf 0 evs).length ∧ 220 ≤ (timesOf 1 evs).length) {j : Nat}
    {x : Visitor} {bytes : List UInt8} (hj : lineTerms[j]? = some (x, bytes)) :
    bytes.length + 10 * x.script.length ≤ (timesOf j evs).length := by
  have hlen : ∀ y ∈ lineTerms, y.2.length + 10 * y.1.script.length ≤ 220 := by decide +kernel
  have := hlen _ (List.mem_of_getElem? hj)
  have h2 : 220 ≤ (timesOf j evs).length := by
    match j, hj with
    | 0, _ => exact h.1
    | 1, _ => exact h.2
    | n + 2, hj => cases hj
  simp only at this
  omega

def lineEvs : List (Nat × Clock) :=
  (List.range 220).flatMap fun n => [(1, demoClk (n + 3)), (0, demoClk n), (2, demoClk (n + 1)), (3, demoClk n)]

example (j : Nat) (x : Visitor) (bytes : List UInt8) (hj : lineTerms[j]? = some (x, bytes)) :
    let s := (LSys.mk (CSys.start.run goEnv []).st (lineTerms.map (fun y => Line.open y.1.conn y.2) ++
      (lineOthers.map (fun o => Line.open o.1 o.2) ++ lineChecks.map Line.check))).run goEnv lineEvs
    (∃ l, s.ls[j]? = some l ∧ l.output = x.hears ∧ l.ended = false) ∧
      ∃ d, s.st.look x.phone = some d ∧ s.st.lookPlate x.reg.plate = some d ∧ x.Known d :=
  C158_bytes goEnv [] lineTerms _ _ lineEvs lineTerms_proper (by decide +kernel) (by decide +kernel) (by intro t ht; cases ht)
    lineOthers_foreign lineChecks_foreign j x bytes hj (lineTerms_enough (by decide +kernel) hj)

def linesFromTableB (env : Env) : LSys → List (Nat × Clock) → Bool
  | _, [] => true
  | s, e :: evs => (match s.ls[e.1]? with
      | some ⟨_, .check p :: _, _, _, none, _, _, false⟩ => s.st.jobs.contains p
      | _ => true) && linesFromTableB env (s.step env e) evs

theorem linesFromTable_of {env : Env} (evs : List (Nat × Clock)) (s : LSys) (h : linesFromTableB env s evs = true) :
    LinesFromTable env s evs := by
  induction evs generalizing s with
  | nil => intro pre e post heq; exact absurd heq (by simp)
  | cons e evs ih =>
    simp only [linesFromTableB, Bool.and_eq_true] at h
    intro pre e' post heq l p ts hl hend hcur htodo
    cases pre with
    | nil =>
      cases heq
      obtain ⟨conn, todo, input, recv, cur, done, output, ended⟩ := l
      simp only at hend hcur htodo
      subst hend hcur htodo
      have hl : s.ls[e.1]? = some _ := hl
      have h1 := h.1
      rw [hl] at h1
      exact List.contains_iff_mem.1 h1
    | cons e'' pre =>
      cases heq
      exact ih _ h.2 pre e' post rfl l p ts hl hend hcur htodo

/-- The same with three checks of the terminals: one while the first terminal still sends bytes, one while the second does,
and one at the end of the minute. -/
def ownEvs : List (Nat × Clock) :=
  (List.range 220).flatMap (fun n => [(1, demoClk (n + 3)), (0, demoClk n), (2, demoClk (n + 1))] ++
    if 120 ≤ n ∧ n < 140 then [(3, demoClk n), (4, demoClk (n + 1))] else []) ++
  (List.range 12).map fun n => (5, demoClk (59000 + n))

def ownChecks : List Str := [(lineHdr 1 0).phone, (lineHdr 2 0).phone, (lineHdr 1 0).phone]

/-- The lines before it all. -/
def ownLines : LSys := LSys.mk (CSys.start.run goEnv []).st (lineTerms.map (fun y => Line.open y.1.conn y.2) ++
  (lineOthers.map (fun o => Line.open o.1 o.2) ++ [].map Line.check) ++ ownChecks.map Line.check)

example (j : Nat) (x : Visitor) (bytes : List UInt8) (hj : lineTerms[j]? = some (x, bytes)) :
    ((∃ l, (ownLines.run goEnv ownEvs).ls[j]? = some l ∧ l.output = x.hears ∧ l.ended = false) ∧
      ∃ d, (ownLines.run goEnv ownEvs).st.look x.phone = some d ∧ (ownLines.run goEnv ownEvs).st.lookPlate x.reg.plate = some d ∧
        x.Known d) ∧
    ∀ (i : Nat) (l : Line), (ownLines.run goEnv ownEvs).ls[2 + (1 + 0) + i]? = some l → ∀ d ∈ l.done, d.2 = .ok none := by
  refine C159_bytes_calm goEnv [] lineTerms lineOthers [] ownChecks ownEvs 0 lineTerms_proper (by decide +kernel) (by decide +kernel)
    (by intro t ht; cases ht) lineOthers_foreign (by intro p hp; cases hp) ?_ (by decide +kernel)
    (linesFromTable_of _ _ (by decide +kernel)) j x bytes hj (lineTerms_enough (by decide +kernel) hj)
  intro p hp
  simp only [ownChecks, List.mem_cons, List.not_mem_nil, or_false] at hp
  rcases hp with rfl | rfl | rfl
  · exact ⟨_, List.mem_cons_self, rfl⟩
  · exact ⟨_, List.mem_cons_of_mem _ List.mem_cons_self, rfl⟩
  · exact ⟨_, List.mem_cons_self, rfl⟩

/-- The first two checks have come to their end while both terminals have still to send, the third comes to its end too. -/
example : ((ownLines.run goEnv (ownEvs.take 470)).ls.map fun l => (l.input.isEmpty, l.done.length)) =
      [(false, 3), (false, 3), (true, 1), (true, 1), (true, 1), (true, 0)] ∧
    ((ownLines.run goEnv ownEvs).ls.map fun l => l.done.length) = [4, 4, 1, 1, 1, 1] := by
  decide +kernel

end JT808
