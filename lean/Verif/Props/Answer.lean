import Verif.Model.Answer
import Verif.Spec.Answer
import Verif.Props.Reference
import Verif.Props.Route
/-
C138: the answers of the HTTP API with their bodies.
-/
namespace JT808
open Spec

/-- Times and numbers are written as JSON has it. -/
structure Spec.Sound (w : Writing) (instant : Nat → List Nat) (time : Civil → List Nat) : Prop where
  fmt : Chooses w.fmt
  instant : ∀ n, JChars (w.instant n) (instant n)
  time : ∀ c, JChars (w.time c) (time c)

/-! ## The reports of a book are reports -/

/-- Every report in the book is one of the phone it is filed under. -/
def Spec.Book.Reported (b : Book) : Prop := ∀ p g, g ∈ b.reports p → ∃ now m, g = DeviceGeo.decode now p m

theorem Spec.Book.Reported.same {b b' : Book} (h : b.Reported) (e : b'.reports = b.reports) : b'.Reported := by
  unfold Spec.Book.Reported
  rw [e]
  exact h

theorem hear_reported (env : Env) (clk : Clock) (c : Conn) {b : Book} (h : b.Reported) (hd : Header) (m : Msg) :
    (b.hear env clk c hd m).1.Reported := by
  cases m with
  | m0200 m =>
    simp only [Spec.Book.hear]
    cases b.terminal hd.phone with
    | none => exact h
    | some t =>
      have key : ({ b with reports := upd b.reports hd.phone (b.reports hd.phone ++ [DeviceGeo.decode clk.civil hd.phone m]) } : Book).Reported := by
        intro p g hg
        simp only [upd_apply] at hg
        by_cases e : p = hd.phone
        · rw [if_pos e] at hg
          rcases List.mem_append.1 hg with hg | hg
          · exact h p g (e ▸ hg)
          · rw [List.mem_singleton.1 hg, e]; exact ⟨_, _, rfl⟩
        · rw [if_neg e] at hg; exact h p g hg
      simp only
      split
      · exact key
      · exact key.same rfl
  | _ =>
    simp only [Spec.Book.hear]
    repeat' split
    all_goals exact h.same rfl

theorem whole_reported (env : Env) (clk : Clock) (c : Conn) {b : Book} (h : b.Reported) (pd : Packet) :
    (b.whole env clk c pd).1.Reported := by
  unfold Spec.Book.whole
  cases MType.ofID pd.header.msgID with
  | none => exact h
  | some t =>
    simp only
    split
    · exact hear_reported env clk c h _ _
    · exact h
    · exact h

theorem piece_reported {b : Book} (h : b.Reported) (hd : Header) : (b.piece hd).1.Reported := by
  unfold Spec.Book.piece
  repeat' split
  all_goals exact h.same rfl

theorem frame_reported (env : Env) (clk : Clock) (c : Conn) {b : Book} (h : b.Reported) (bytes : List UInt8) :
    (b.frame env clk c bytes).1.Reported := by
  unfold Spec.Book.frame
  repeat' split
  all_goals first | exact h | exact whole_reported env clk c h _ | exact piece_reported h _ | exact h.same rfl

theorem send_reported (werr : Option Err) {b : Book} (h : b.Reported) (p : Str) (t : Terminal) (code : Option Nat) (id : UInt16)
    (body : Res (List UInt8)) : (b.send werr p t code id body).1.Reported := by
  unfold Spec.Book.send
  repeat' split
  all_goals exact h.same rfl

theorem step_reported (env : Env) {b : Book} (h : b.Reported) (e : Ev) : (b.step env e).1.Reported := by
  cases e with
  | accept addr => exact h.same rfl
  | frame clk c bytes werr =>
    have hf := frame_reported env clk c h bytes
    simp only [Spec.Book.step]
    split
    · generalize b.frame env clk c bytes = x at hf
      obtain ⟨b', a⟩ := x
      cases a with
      | say f =>
        cases werr with
        | none => exact hf
        | some e => simp only; split <;> first | exact hf | exact hf.same rfl
      | quiet => exact hf
      | hangUp => exact hf.same rfl
    · exact h
  | readErr c e => simp only [Spec.Book.step]; split <;> first | exact h | exact h.same rfl
  | check clk p =>
    simp only [Spec.Book.step]
    cases b.terminal p with
    | none => exact h
    | some t =>
      simp only
      split
      · split
        · intro q g hg
          simp only [upd_apply] at hg
          by_cases e : q = p
          · rw [if_pos e] at hg; cases hg
          · rw [if_neg e] at hg; exact h q g hg
        · exact h.same rfl
      · exact h
  | httpList => exact h
  | httpGeo p => exact h
  | httpQuery p werr =>
    simp only [Spec.Book.step]
    cases b.terminal p with
    | none => exact h
    | some t => exact send_reported werr h _ _ _ _ _
  | httpSet p bound bad werr =>
    simp only [Spec.Book.step]
    cases b.terminal p with
    | none => exact h
    | some t => exact send_reported werr h _ _ _ _ _

theorem run_reported (env : Env) (evs : List Ev) {b : Book} (h : b.Reported) : (b.run env evs).1.Reported := by
  induction evs generalizing b with
  | nil => exact h
  | cons e evs ih => exact ih (step_reported env h e)

/-! ## Bodies -/

theorem errBody_text {s : Str} {t : List Nat} (h : JText (jsonString s) (.str t)) : JText (errBody s) (errValue t) :=
  jsonStruct_text (.one (by unfold PlainName; decide) h)

theorem err_name {s : String} (h : PlainName s) : JText (errBody (jsonName s)) (errValue (chars s)) := by
  obtain ⟨t, h1, h2⟩ := jtext_string (jsonName s)
  rw [seen_unique h1 (seen_name h)] at h2
  exact errBody_text h2

theorem Texts.one {s : List UInt8} {v : JVal} (h : JText s v) : Texts [s].flatten [v] := Texts.cons h .nil

theorem sendWrites_texts {st : Store} {b : Book} (hn : Noted st b) (p : Str) :
    ∃ vs, Heard b p vs ∧ Texts (st.sendWrites p).flatten vs := by
  have ht := hn.terminal p
  unfold Store.sendWrites
  cases hb : b.terminal p with
  | none =>
    rw [hb] at ht
    have : st.devByPhone p = none := by unfold Store.look at ht; simpa using ht
    rw [this]
    exact ⟨_, .unknown hb, Texts.one (err_name (by unfold PlainName; decide))⟩
  | some t =>
    rw [hb] at ht
    obtain ⟨r, hr, hd⟩ := Store.look_some.1 ht
    rw [show st.devByPhone p = some r from hr]
    have he : (st.heap r).sessionID = t.conn.addr := by rw [hd]; rfl
    simp only [he, hn.line]
    cases hl : b.line t.conn.addr with
    | none => exact ⟨_, .lost hb hl, Texts.one (err_name (by unfold PlainName; decide))⟩
    | some c => exact ⟨_, .there hb hl, .nil⟩

/-- The answer to a request for an operation, after any history: its status is the one of the reference server, and its body
is the texts of the values the operation has to tell. -/
theorem C138_answer (env : Env) (w : Writing) (instant : Nat → List Nat) (time : Civil → List Nat) (hw : Sound w instant time)
    (evs : List Ev) (r : Request) (werr : Option Err) (path : Str) (h : Handler) (p : Str) (ht : IsTarget r.target path)
    (ha : AsksFor r.method path h p) :
    ∃ code body complaint vs, (Sys.start.run env evs).1.answer env w r werr = some (code, body) ∧
      ((Book.start.run env evs).1.step env (h.event r werr p)).2.http = some code ∧
      (if r.body.bad then ∃ t, Seen (w.bindErr r.text) t ∧ complaint = some t else complaint = none) ∧
      Tells instant time (Book.start.run env evs).1 p complaint h vs ∧ Texts body vs := by
  have hf := reachable_follows env evs
  obtain ⟨hi, hc⟩ := reachable_inv env evs
  have hr := (C134_exact r.method r.target h p).2 ⟨path, ht, ha⟩
  have hq := (C134_request env _ hc r werr).1 path h p ht ha
  have hs := (hf.step env hi hc (h.event r werr p)).2
  have hperm := C127_listing env evs
  have hrep := run_reported env evs (b := Book.start) (by intro p g hg; cases hg)
  generalize (Book.start.run env evs).1 = b at *
  generalize (Sys.start.run env evs).1 = s at *
  have hcode : ∃ code, (s.request env r werr).2.http = some code ∧ (b.step env (h.event r werr p)).2.http = some code := by
    rw [hq, hs]
    have : ∃ code, (b.step env (h.event r werr p)).2.http = some code := by
      cases h with
      | list => exact ⟨_, rfl⟩
      | geo => exact ⟨_, rfl⟩
      | query =>
        simp only [Handler.event, Spec.Book.step]
        unfold Spec.Book.send
        repeat' split
        all_goals exact ⟨_, rfl⟩
      | set =>
        simp only [Handler.event, Spec.Book.step]
        unfold Spec.Book.send
        repeat' split
        all_goals exact ⟨_, rfl⟩
    obtain ⟨code, hx⟩ := this
    exact ⟨code, hx, hx⟩
  obtain ⟨code, h1, h2⟩ := hcode
  have hans : s.answer env w r werr = some (code, (s.st.writes w r p h).flatten) := by
    unfold Sys.answer
    rw [hr]
    simp only [h1, Option.map_some]
  have hcomp : ∃ complaint, (if r.body.bad then ∃ t, Seen (w.bindErr r.text) t ∧ complaint = some t else complaint = none) ∧
      Texts (if r.body.bad then [errBody (w.bindErr r.text)] else []).flatten (complaint.map errValue).toList := by
    cases r.body.bad with
    | false => exact ⟨none, rfl, .nil⟩
    | true =>
      obtain ⟨t, g1, g2⟩ := jtext_string (w.bindErr r.text)
      exact ⟨some t, ⟨t, g1, rfl⟩, Texts.one (errBody_text g2)⟩
  obtain ⟨complaint, c1, c2⟩ := hcomp
  suffices key : ∃ vs, Tells instant time b p complaint h vs ∧ Texts (s.st.writes w r p h).flatten vs by
    obtain ⟨vs, k1, k2⟩ := key
    exact ⟨code, _, complaint, vs, hans, h2, c1, k1, k2⟩
  have hn := hf.noted
  cases h with
  | list =>
    obtain ⟨vs, k1, k2, -⟩ := C115_listing w.instant instant hw.instant s.st
    exact ⟨_, .list hperm k1, Texts.one k2⟩
  | geo =>
    have hg := (hn.geo p).2
    have htm := hn.terminal p
    simp only [Store.writes, Store.geoWrites]
    cases hb : b.terminal p with
    | none =>
      rw [hb] at htm
      have : s.st.devByPhone p = none := by unfold Store.look at htm; simpa using htm
      rw [this]
      exact ⟨_, .noTerminal hb, Texts.one (err_name (by unfold PlainName; decide))⟩
    | some t =>
      rw [hb] at htm
      obtain ⟨i, hi', hd⟩ := Store.look_some.1 htm
      rw [show s.st.devByPhone p = some i from hi', hg]
      unfold Spec.Book.position
      rw [hb]
      simp only
      by_cases hz : (b.reports p).length % 100 = 0
      · rw [if_pos hz]
        exact ⟨_, .noPosition hb hz, .nil⟩
      · rw [if_neg hz]
        cases hl : (b.reports p).getLast? with
        | none => rw [List.getLast?_eq_none_iff] at hl; rw [hl] at hz; exact absurd rfl hz
        | some g =>
          obtain ⟨now, m, rfl⟩ := hrep p g (List.mem_of_getLast? hl)
          obtain ⟨pos, v, j1, j2, j3, -⟩ := C120_answer w.fmt hw.fmt w.time time hw.time (t.device p) now p m
          exact ⟨_, .position hb hz hl j1 j2, Texts.one j3⟩
  | query =>
    obtain ⟨vs, k1, k2⟩ := sendWrites_texts hn p
    exact ⟨vs, .query k1, k2⟩
  | set =>
    obtain ⟨vs, k1, k2⟩ := sendWrites_texts hn p
    refine ⟨_, .set k1, ?_⟩
    simp only [Store.writes, List.flatten_append]
    revert c2
    generalize (if r.body.bad then [errBody (w.bindErr r.text)] else []).flatten = x
    generalize (complaint.map errValue).toList = y
    intro c2
    induction c2 with
    | nil => exact k2
    | cons a _ ih => rw [List.append_assoc]; exact .cons a ih

theorem errValue_brace {s : List UInt8} {t : List Nat} (h : JText s (errValue t)) : ∃ s', s = 0x7b :: s' := by
  unfold errValue at h
  cases h with
  | obj _ => exact ⟨_, rfl⟩

/-- Two values one after the other are not a JSON text. -/
theorem two_texts {body : List UInt8} {a : JVal} {t : List Nat} (h : Texts body [a, errValue t]) (v : JVal) : ¬ JText body v := by
  cases h with
  | @cons s r _ _ ha h =>
    cases h with
    | @cons s' r' _ _ hb h =>
      cases h
      intro hv
      obtain ⟨x, rfl⟩ := errValue_brace hb
      have := ((uni_all s.length s (Nat.le_refl _)).1 a _ v _ [] ha hv (List.append_nil _).symm
        (by rw [List.append_nil]; exact stops_cons (by unfold IsDigit; decide)) (by intro b r e; cases e)).2.1
      cases this

theorem one_text {body : List UInt8} {v : JVal} (h : Texts body [v]) : JText body v := by
  cases h with
  | cons ha h => cases h; rw [List.append_nil]; exact ha

/-- The line of a terminal is there. -/
def Spec.Book.Reachable (b : Book) (p : Str) : Prop := ∃ t c, b.terminal p = some t ∧ b.line t.conn.addr = some c

/-- An answer is empty or one JSON text, with one meaning.  Missing: settings with a body that cannot be used, for a
terminal that is not known or not connected (C138_two_complaints). -/
theorem C138_json_partial (env : Env) (w : Writing) (instant : Nat → List Nat) (time : Civil → List Nat)
    (hw : Sound w instant time) (evs : List Ev) (r : Request) (werr : Option Err) (code : Nat) (body : Str)
    (ha : (Sys.start.run env evs).1.answer env w r werr = some (code, body))
    (hb : r.body.bad = false ∨ ∀ p, route r.method r.target = .op .set p → (Book.start.run env evs).1.Reachable p) :
    body = [] ∨ ∃ v, JText body v ∧ ∀ v', JText body v' → v' = v := by
  obtain ⟨h, p, hr⟩ : ∃ h p, route r.method r.target = .op h p := by
    unfold Sys.answer at ha
    cases hx : route r.method r.target with
    | op h p => exact ⟨h, p, rfl⟩
    | status c => rw [hx] at ha; cases ha
  obtain ⟨path, h1, h2⟩ := (C134_exact _ _ _ _).1 hr
  obtain ⟨code', body', complaint, vs, k1, -, k3, k4, k5⟩ := C138_answer env w instant time hw evs r werr path h p h1 h2
  obtain ⟨rfl, rfl⟩ : code' = code ∧ body' = body := by rw [ha] at k1; cases k1; exact ⟨rfl, rfl⟩
  have one : ∀ v, vs = [v] → body' = [] ∨ ∃ v, JText body' v ∧ ∀ v', JText body' v' → v' = v := by
    rintro v rfl
    exact .inr ⟨v, one_text k5, fun v' hv => jtext_unique hv (one_text k5)⟩
  have none : vs = [] → body' = [] ∨ ∃ v, JText body' v ∧ ∀ v', JText body' v' → v' = v := by
    rintro rfl
    cases k5
    exact .inl rfl
  cases k4 with
  | list _ _ => exact one _ rfl
  | noTerminal _ => exact one _ rfl
  | noPosition _ _ => exact none rfl
  | position _ _ _ _ _ => exact one _ rfl
  | query hq => cases hq with
    | unknown _ => exact one _ rfl
    | lost _ _ => exact one _ rfl
    | there _ _ => exact none rfl
  | set hq =>
    cases hbad : r.body.bad with
    | false =>
      rw [hbad] at k3
      simp only [Bool.false_eq_true, if_false] at k3
      subst k3
      cases hq with
      | unknown _ => exact one _ rfl
      | lost _ _ => exact one _ rfl
      | there _ _ => exact none rfl
    | true =>
      rw [hbad] at k3
      simp only [if_true] at k3
      obtain ⟨t, -, rfl⟩ := k3
      obtain ⟨tm, c, m1, m2⟩ := hb.resolve_left (by simp [hbad]) p hr
      cases hq with
      | unknown hu => rw [m1] at hu; cases hu
      | lost hu hl => rw [m1] at hu; cases hu; rw [m2] at hl; cases hl
      | there _ _ => exact one _ rfl

/-- Settings with a body that cannot be used, for a terminal that is not known or not connected, are answered with two
objects one after the other, which is no JSON text. -/
theorem C138_two_complaints (env : Env) (w : Writing) (instant : Nat → List Nat) (time : Civil → List Nat)
    (hw : Sound w instant time) (evs : List Ev) (r : Request) (werr : Option Err) (p : Str)
    (hr : route r.method r.target = .op .set p) (hb : r.body.bad = true) (hp : ¬ (Book.start.run env evs).1.Reachable p) :
    ∃ body t, (Sys.start.run env evs).1.answer env w r werr = some (400, body) ∧ Seen (w.bindErr r.text) t ∧
      (Texts body [errValue t, errValue (chars "device not found")] ∨ Texts body [errValue t, errValue (chars "session closed")]) ∧
      ∀ v, ¬ JText body v := by
  obtain ⟨path, h1, h2⟩ := (C134_exact _ _ _ _).1 hr
  obtain ⟨code, body, complaint, vs, k1, k2, k3, k4, k5⟩ := C138_answer env w instant time hw evs r werr path .set p h1 h2
  rw [hb] at k3
  simp only [if_true] at k3
  obtain ⟨t, hs, rfl⟩ := k3
  cases k4 with
  | set hq =>
    simp only [Handler.event, Spec.Book.step, hb, if_true] at k2
    cases hq with
    | unknown hu =>
      rw [hu] at k2
      obtain rfl : 400 = code := by simpa using k2
      exact ⟨body, t, k1, hs, .inl k5, two_texts k5⟩
    | lost hu hl =>
      rw [hu] at k2
      unfold Spec.Book.send at k2
      simp only [hl] at k2
      obtain rfl : 400 = code := by simpa using k2
      exact ⟨body, t, k1, hs, .inr k5, two_texts k5⟩
    | there hu hl => exact absurd ⟨_, _, hu, hl⟩ hp

/-- A complaint comes with the status 400, and 400 with a complaint. -/
theorem C138_status (env : Env) (w : Writing) (instant : Nat → List Nat) (time : Civil → List Nat) (hw : Sound w instant time)
    (evs : List Ev) (r : Request) (werr : Option Err) (path : Str) (h : Handler) (p : Str) (ht : IsTarget r.target path)
    (ha : AsksFor r.method path h p) :
    ∃ code body vs, (Sys.start.run env evs).1.answer env w r werr = some (code, body) ∧ Texts body vs ∧
      (code = 400 ↔ ∃ t, errValue t ∈ vs) := by
  obtain ⟨code, body, complaint, vs, k1, k2, k3, k4, k5⟩ := C138_answer env w instant time hw evs r werr path h p ht ha
  refine ⟨code, body, vs, k1, k5, ?_⟩
  have sent : ∀ (b : Book) (c : Conn) (tm : Terminal) (pre : Option Nat) (id : UInt16) (bd : Res (List UInt8)),
      b.line tm.conn.addr = some c → (b.send werr p tm pre id bd).2.http = some code →
      (code = 400 ↔ pre = some 400) := by
    intro b c tm pre id bd hl he
    unfold Spec.Book.send at he
    rw [hl] at he
    cases pre with
    | none =>
      cases bd <;> cases werr <;> simp at he <;> subst he <;> simp
    | some n =>
      cases bd <;> cases werr <;> simp at he <;> subst he <;> simp
  cases k4 with
  | list _ _ =>
    simp only [Handler.event, Spec.Book.step, Option.some.injEq] at k2
    subst k2
    simp [errValue]
  | noTerminal hu =>
    simp only [Handler.event, Spec.Book.step, hu, Option.some.injEq] at k2
    simp only [← k2, List.mem_singleton]
    exact ⟨fun _ => ⟨_, rfl⟩, fun _ => rfl⟩
  | noPosition hu _ =>
    simp only [Handler.event, Spec.Book.step, hu, Option.some.injEq] at k2
    simp [← k2]
  | position hu _ _ _ hq =>
    simp only [Handler.event, Spec.Book.step, hu, Option.some.injEq] at k2
    obtain ⟨_, _, _, _, _, _, _, _, _, _, _, _, _, _, rfl⟩ := hq
    simp [← k2, errValue]
  | query hq =>
    simp only [Handler.event, Spec.Book.step] at k2
    cases hq with
    | unknown hu =>
      rw [hu] at k2
      obtain rfl : 400 = code := by simpa using k2
      exact ⟨fun _ => ⟨_, List.mem_singleton.2 rfl⟩, fun _ => rfl⟩
    | lost hu hl =>
      rw [hu] at k2
      unfold Spec.Book.send at k2
      simp only [hl] at k2
      obtain rfl : 400 = code := by simpa using k2
      exact ⟨fun _ => ⟨_, List.mem_singleton.2 rfl⟩, fun _ => rfl⟩
    | there hu hl =>
      rw [hu] at k2
      rw [sent _ _ _ _ _ _ hl k2]
      simp
  | set hq =>
    simp only [Handler.event, Spec.Book.step] at k2
    cases hbad : r.body.bad with
    | false =>
      rw [hbad] at k3 k2
      simp only [Bool.false_eq_true, if_false] at k3 k2
      subst k3
      cases hq with
      | unknown hu =>
        rw [hu] at k2
        obtain rfl : 400 = code := by simpa using k2
        exact ⟨fun _ => ⟨_, List.mem_singleton.2 rfl⟩, fun _ => rfl⟩
      | lost hu hl =>
        rw [hu] at k2
        unfold Spec.Book.send at k2
        simp only [hl] at k2
        obtain rfl : 400 = code := by simpa using k2
        exact ⟨fun _ => ⟨_, List.mem_singleton.2 rfl⟩, fun _ => rfl⟩
      | there hu hl =>
        rw [hu] at k2
        rw [sent _ _ _ _ _ _ hl k2]
        simp
    | true =>
      rw [hbad] at k3 k2
      simp only [if_true] at k3 k2
      obtain ⟨t, -, rfl⟩ := k3
      refine ⟨fun _ => ⟨t, List.mem_cons_self⟩, fun _ => ?_⟩
      cases hq with
      | unknown hu =>
        rw [hu] at k2
        simpa using k2.symm
      | lost hu hl =>
        rw [hu] at k2
        unfold Spec.Book.send at k2
        simp only [hl] at k2
        simpa using k2.symm
      | there hu hl =>
        rw [hu] at k2
        exact (sent _ _ _ _ _ _ hl k2).2 rfl

/-! ## Examples -/

/-- Times of which only a number or the year is written, and one text for all errors. -/
noncomputable def plainWriting : Writing := ⟨anyChoice, plainTime, plainCivil, fun _ => jsonName "EOF"⟩

theorem plainWriting_sound :
    Sound plainWriting (fun n => (decimal n).map UInt8.toNat) (fun c => (decimal c.year).map UInt8.toNat) :=
  ⟨anyChoice_chooses, plainTime_chars, plainCivil_chars⟩

/-- Settings with an empty body. -/
def brokenPut (phone : Str) : Request := ⟨.put, demoTarget "/device/" ++ phone ++ demoTarget "/params", true, []⟩

-- for a terminal that is not known: the body of C138_two_complaints
example : (Sys.start.run goEnv demoEvs).1.answer goEnv plainWriting (brokenPut [0x39]) none =
    some (400, demoTarget "{\"err\":\"EOF\"}{\"err\":\"device not found\"}") := by decide +kernel
-- and its hypotheses
example : route (brokenPut [0x39]).method (brokenPut [0x39]).target = .op .set [0x39] ∧ (brokenPut [0x39]).body.bad = true ∧
    (Book.start.run goEnv demoEvs).1.terminal [0x39] = none := by decide +kernel
-- for the terminal of the demonstration the body is one text, the second hypothesis of C138_json_partial
example : (Sys.start.run goEnv demoEvs).1.answer goEnv plainWriting (brokenPut (hdr2013 0).phone) none =
    some (400, demoTarget "{\"err\":\"EOF\"}") := by decide +kernel
-- the other answers, which are those of C138_answer
example : let ask (path : String) := (Sys.start.run goEnv demoEvs).1.answer goEnv plainWriting ⟨.get, demoTarget path, false, []⟩ none
    ask "/device/9/geo" = some (400, demoTarget "{\"err\":\"device not found\"}") ∧
    ask "/device/9/params" = some (400, demoTarget "{\"err\":\"device not found\"}") ∧
    ask "/device/9" = none := by decide +kernel

end JT808
