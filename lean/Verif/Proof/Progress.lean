import Verif.Proof.Workers
/-
How long a goroutine works for a message, and what can come of it.
-/
namespace JT808
open Spec

/-- The goroutine returns within so many steps of its own, whatever others do, and with such a result. -/
def Prog.Within (R : Res (Option Out) → Prop) : Prog → Nat → Prop
  | .ret r, _ => R r
  | .step _ k, n => ∃ m, n = m + 1 ∧ ∀ clk st, (k clk st).Within R m

variable {R : Res (Option Out) → Prop} {n : Nat}

theorem within_ret {r : Res (Option Out)} (h : R r) : (Prog.ret r).Within R n := h

theorem within_step (f : Clock → Store → Store) (k : Clock → Store → Prog) (h : ∀ clk st, (k clk st).Within R n) :
    (Prog.step f k).Within R (n + 1) := ⟨n, rfl, h⟩

theorem within_get (p : Str) (k : Option Ref → Prog) (h1 : (k none).Within R n) (h2 : ∀ r, (k (some r)).Within R n) :
    (Prog.get p k).Within R (n + 1) :=
  ⟨n, rfl, fun _ st => by
    cases h : st.devByPhone p with
    | none => simp only [h]; exact h1
    | some r => simp only [h]; exact h2 r⟩

theorem within_upd (f : Store → Store) (next : Prog) (h : next.Within R n) : (Prog.upd f next).Within R (n + 1) :=
  ⟨n, rfl, fun _ _ => h⟩

theorem within_put (r : Ref) (g : Clock → Device → Device) (next : Prog) (h : next.Within R n) :
    (Prog.put r g next).Within R (n + 1) := ⟨n, rfl, fun _ _ => h⟩

theorem within_read {α : Type} (g : Clock → Store → α) (k : α → Prog) (h : ∀ a, (k a).Within R n) :
    (Prog.read g k).Within R (n + 1) := ⟨n, rfl, fun _ _ => h _⟩

theorem writeGeo_err (st : Store) (p : Str) (dg : DeviceGeo) (e : Err) : (st.writeGeo p dg).2 ≠ .err e := by
  unfold Store.writeGeo Ring.write
  simp only
  split <;> rename_i h <;> split at h <;> cases h <;> intro h <;> cases h

theorem within_geo (h : Header) (r : Ref) (dg : DeviceGeo) (h1 : R (.ok (some (gen8001 h 0)))) (h2 : R .panic) :
    (progGeo h r dg).Within R (n + 1) := by
  refine within_step _ _ fun _ st => ?_
  have := writeGeo_err st (st.heap r).phone dg
  show Prog.Within R (match (st.writeGeo (st.heap r).phone dg).2 with
      | .ok _ => Prog.ret (.ok (some (gen8001 h 0))) | .err e => .ret (.err e) | .panic => .ret .panic) n
  cases hw : (st.writeGeo (st.heap r).phone dg).2 with
  | ok _ => exact h1
  | err e => exact absurd hw (this e)
  | panic => exact h2

namespace Spec

/-- The message has been answered as the protocol asks: with the number (and, for the general reply, the id) of the
message, to the phone that sent it.  Other messages need no answer. -/
def Replied (t : Task) (r : Res (Option Out)) : Prop :=
  match t with
  | .msg _ h .m0002 => ∃ hdr res, r = .ok (some (hdr, .m8001 ⟨h.serial, h.msgID, res⟩)) ∧ hdr.phone = h.phone
  | .msg _ h .m0003 => ∃ hdr res, r = .ok (some (hdr, .m8001 ⟨h.serial, h.msgID, res⟩)) ∧ hdr.phone = h.phone
  | .msg _ h (.m0102 _) => ∃ hdr res, r = .ok (some (hdr, .m8001 ⟨h.serial, h.msgID, res⟩)) ∧ hdr.phone = h.phone
  | .msg _ h (.m0200 _) => ∃ hdr res, r = .ok (some (hdr, .m8001 ⟨h.serial, h.msgID, res⟩)) ∧ hdr.phone = h.phone
  | .msg _ h (.m0100 _) => ∃ hdr res code, r = .ok (some (hdr, .m8100 ⟨h.serial, res, code⟩)) ∧ hdr.phone = h.phone
  | _ => True

end Spec

/-- What can come of a message. -/
def ComesOf (t : Task) (r : Res (Option Out)) : Prop :=
  r = .panic ∨ r = .err .deviceNotFound ∨ (goesOn r = true ∧ Replied t r)

theorem outcome_general {c : Conn} {h : Header} {m : Msg} {res : UInt8} (hm : match m with
      | .m0002 | .m0003 | .m0102 _ | .m0200 _ => True | _ => False) : ComesOf (.msg c h m) (.ok (some (gen8001 h res))) := by
  refine .inr (.inr ⟨rfl, ?_⟩)
  cases m <;> first | exact ⟨_, _, rfl, rfl⟩ | exact absurd hm id

theorem outcome_register {c : Conn} {h : Header} {m : Register} {res : UInt8} {code : Str} :
    ComesOf (.msg c h (.m0100 m)) (.ok (some (gen8100 h res code))) := .inr (.inr ⟨rfl, _, _, _, rfl, rfl⟩)

/-- Every message takes at most eight steps. -/
theorem msg_within (env : Env) (c : Conn) (h : Header) (m : Msg) :
    ((Task.msg c h m).prog env).Within (ComesOf (.msg c h m)) 8 := by
  cases m with
  | m0002 =>
    show (prog0002 h).Within _ 8
    exact within_get _ _ (.inr (.inl rfl)) fun r => within_put _ _ _ (within_upd _ _ (outcome_general trivial))
  | m0003 =>
    show (prog0003 h).Within _ 8
    exact within_get _ _ (.inr (.inl rfl)) fun r => within_upd _ _ (within_upd _ _ (outcome_general trivial))
  | m0100 m =>
    show (prog0100 c h m).Within _ 8
    refine within_read _ _ fun b => ?_
    split
    · exact outcome_register
    refine within_read _ _ fun b => ?_
    split
    · exact outcome_register
    refine within_step _ _ fun clk st => within_upd _ _ ?_
    exact within_get _ _ outcome_register fun _ => within_upd _ _ outcome_register
  | m0102 m =>
    show (prog0102 h m).Within _ 8
    refine within_get _ _ (.inr (.inl rfl)) fun r => within_read _ _ fun code => ?_
    split
    · exact within_upd _ _ (within_upd _ _ (outcome_general trivial))
    · exact within_put _ _ _ (within_put _ _ _ (within_put _ _ _ (within_put _ _ _ (within_put _ _ _ (within_upd _ _
        (outcome_general trivial))))))
  | m0200 m =>
    show (prog0200 h m).Within _ 8
    refine within_get _ _ (.inr (.inl rfl)) fun r => within_read _ _ fun dg => ?_
    split
    · exact within_put _ _ _ (within_put _ _ _ (within_upd _ _ (within_geo _ _ _ (outcome_general trivial) (.inl rfl))))
    · exact within_geo _ _ _ (outcome_general trivial) (.inl rfl)
  | m8001 m =>
    show (prog8001 h m).Within _ 8
    unfold prog8001
    split
    · refine within_get _ _ (.inr (.inr ⟨rfl, trivial⟩)) fun r => within_read _ _ fun s => ?_
      split
      · exact .inr (.inr ⟨rfl, trivial⟩)
      · exact within_put _ _ _ (within_put _ _ _ (within_upd _ _ (.inr (.inr ⟨rfl, trivial⟩))))
    · exact .inr (.inr ⟨rfl, trivial⟩)
  | m8100 m =>
    show (prog8100 h m).Within _ 8
    exact within_get _ _ (.inr (.inr ⟨rfl, trivial⟩)) fun r => within_read _ _ fun _ => within_read _ _ fun _ =>
      .inr (.inr ⟨rfl, trivial⟩)
  | m8103 m =>
    show (prog8103 h m).Within _ 8
    exact within_read _ _ fun _ => within_upd _ _ (.inr (.inr ⟨rfl, trivial⟩))
  | m8104 =>
    show (prog8104 env h).Within _ 8
    obtain ⟨q, j, e⟩ := fixedDecode_ok env h.phone
    refine within_read _ _ fun o => ?_
    cases o with
    | some p => exact .inr (.inr ⟨rfl, trivial⟩)
    | none =>
      simp only [e]
      exact within_upd _ _ (.inr (.inr ⟨rfl, trivial⟩))
  | _ => exact .inr (.inr ⟨rfl, trivial⟩)

/-! ### Goroutines of the server -/

/-- What holds of all goroutines at all times. -/
structure WSys.Sound (env : Env) (s : WSys) : Prop where
  inv : CInv s.st
  cur : ∀ (i : Nat) (x : Worker) t q, s.ws[i]? = some x → x.cur = some (t, q) → q.Safe (t.Post env) t.Makes t.phone s.st
  done : ∀ (i : Nat) (x : Worker), s.ws[i]? = some x → ∀ d ∈ x.done, ∀ st', Grows s.st st' → d.1.Post env st' d.2

theorem sound_step {env : Env} {s : WSys} (h : s.Sound env) (e : Nat × Clock) : (s.step env e).Sound env := by
  unfold WSys.step
  cases hi : s.ws[e.1]? with
  | none => exact h
  | some y =>
    obtain ⟨todo, cur, done⟩ := y
    have key : CInv (Worker.next env e.2 s.st ⟨todo, cur, done⟩).1 ∧ Grows s.st (Worker.next env e.2 s.st ⟨todo, cur, done⟩).1 ∧
        (∀ t q, (Worker.next env e.2 s.st ⟨todo, cur, done⟩).2.cur = some (t, q) →
          q.Safe (t.Post env) t.Makes t.phone (Worker.next env e.2 s.st ⟨todo, cur, done⟩).1) ∧
        ∀ d ∈ (Worker.next env e.2 s.st ⟨todo, cur, done⟩).2.done, ∀ st',
          Grows (Worker.next env e.2 s.st ⟨todo, cur, done⟩).1 st' → d.1.Post env st' d.2 := by
      cases cur with
      | none =>
        cases todo with
        | nil => exact ⟨h.inv, Grows.refl _, (fun t q hq => by cases hq), h.done _ _ hi⟩
        | cons t todo =>
          exact ⟨h.inv, Grows.refl _, (fun t q hq => by cases hq; exact task_safe env _ _),
            fun d hd st' hg => h.done _ _ hi d hd st' hg⟩
      | some c =>
        obtain ⟨t, q⟩ := c
        have hs := h.cur _ _ t q hi rfl
        cases q with
        | ret r =>
          refine ⟨h.inv, Grows.refl _, (fun t q hq => by cases hq), fun d hd st' hg => ?_⟩
          rcases List.mem_append.1 hd with hd | hd
          · exact h.done _ _ hi d hd st' hg
          · cases List.mem_singleton.1 hd; exact hs st' hg
        | step f k =>
          obtain ⟨a, b, c⟩ := hs e.2 s.st (Grows.refl _) h.inv
          exact ⟨b, a.toGrows, (fun t q hq => by cases hq; exact c),
            fun d hd st' hg => h.done _ _ hi d hd st' (a.toGrows.trans hg)⟩
    obtain ⟨a, b, c, d⟩ := key
    refine ⟨a, fun i x t q hx hq => ?_, fun i x hx d' hd st' hg => ?_⟩
    · rcases getset hi hx with ⟨rfl, rfl⟩ | ⟨-, hx⟩
      · exact c t q hq
      · exact (h.cur i x t q hx hq).mono b
    · rcases getset hi hx with ⟨rfl, rfl⟩ | ⟨-, hx⟩
      · exact d d' hd st' hg
      · exact h.done i x hx d' hd st' (b.trans hg)

theorem sound_run {env : Env} {s : WSys} (h : s.Sound env) (evs : List (Nat × Clock)) : (s.run env evs).Sound env := by
  induction evs generalizing s with
  | nil => exact h
  | cons e evs ih => exact ih (sound_step h e)

theorem sound_begin {env : Env} {st : Store} (h : CInv st) (jobs : List (List Task)) : (WSys.begin st jobs).Sound env := by
  refine ⟨h, fun i x t q hx hq => ?_, fun i x hx d hd => ?_⟩ <;>
    · simp only [WSys.begin, List.getElem?_map, Option.map_eq_some_iff] at hx
      obtain ⟨ts, -, rfl⟩ := hx
      first | cases hq | cases hd

theorem post_msg {env : Env} {c : Conn} {h : Header} {m : Msg} {st : Store} {r : Res (Option Out)}
    (hp : (Task.msg c h m).Post env st r) : r ≠ .panic := by
  rintro rfl
  cases m with
  | m8104 =>
    obtain ⟨q, j, e⟩ := fixedDecode_ok env h.phone
    have := hp rfl
    rw [e] at this; cases this
  | m0100 m => exact absurd rfl hp.1
  | m0102 m => exact absurd rfl hp.1
  | _ => exact absurd rfl hp

/-! ### One goroutine -/

/-- A goroutine that has at most so many steps to go. -/
def Worker.Due (w : Worker) (n : Nat) : Prop :=
  match w.cur with
  | none => 10 * w.todo.length ≤ n
  | some (t, q) => ∃ d, q.Within (ComesOf t) d ∧ 10 * w.todo.length + d + 1 ≤ n

theorem due_next {env : Env} {clk : Clock} {st : Store} {w : Worker} {n : Nat} (hm : ∀ t ∈ w.todo, ∃ c h m, t = .msg c h m)
    (h : w.Due n) : (w.next env clk st).2.Due (n - 1) := by
  obtain ⟨todo, cur, done⟩ := w
  cases cur with
  | none =>
    cases todo with
    | nil => exact Nat.zero_le _
    | cons t todo =>
      obtain ⟨c, hd, m, rfl⟩ := hm t List.mem_cons_self
      refine ⟨8, msg_within env c hd m, ?_⟩
      have : 10 * (todo.length + 1) ≤ n := h
      show 10 * todo.length + 8 + 1 ≤ n - 1
      omega
  | some c =>
    obtain ⟨t, q⟩ := c
    obtain ⟨d, h1, h2⟩ := h
    replace h2 : 10 * todo.length + d + 1 ≤ n := h2
    cases q with
    | ret r =>
      simp only [Worker.next, Worker.Due]
      split
      · omega
      · simp
    | step f k =>
      obtain ⟨m, rfl, h3⟩ := h1
      exact ⟨m, h3 clk st, by show 10 * todo.length + m + 1 ≤ n - 1; omega⟩

/-- Where a goroutine is with its messages: on its way through them, or ended by one of them. -/
def Worker.Way (ts : List Task) (w : Worker) : Prop :=
  (w.done.map (·.1) ++ (w.cur.map (·.1)).toList ++ w.todo = ts ∧ ∀ d ∈ w.done, goesOn d.2 = true) ∨
    (w.cur = none ∧ w.todo = [] ∧ ∃ front t r, w.done = front ++ [(t, r)] ∧ front.map (·.1) ++ [t] <+: ts ∧
      goesOn r = false ∧ ∀ d ∈ front, goesOn d.2 = true)

theorem way_next {env : Env} {clk : Clock} {st : Store} {w : Worker} {ts : List Task} (h : w.Way ts) :
    (w.next env clk st).2.Way ts := by
  obtain ⟨todo, cur, done⟩ := w
  rcases h with ⟨h1, h2⟩ | ⟨h1, h2, h3⟩
  · replace h1 : done.map (·.1) ++ (cur.map (·.1)).toList ++ todo = ts := h1
    cases cur with
    | none =>
      cases todo with
      | nil => exact .inl ⟨h1, h2⟩
      | cons t todo => exact .inl ⟨by simpa [Worker.next] using h1, h2⟩
    | some c =>
      obtain ⟨t, q⟩ := c
      cases q with
      | ret r =>
        cases hg : goesOn r with
        | true =>
          refine .inl ⟨by simpa [Worker.next, hg] using h1, fun d hd => ?_⟩
          rcases List.mem_append.1 hd with hd | hd
          · exact h2 d hd
          · cases List.mem_singleton.1 hd; exact hg
        | false =>
          refine .inr ⟨rfl, by simp [Worker.next, hg], done, t, r, rfl, ⟨todo, by simpa using h1⟩, hg, h2⟩
      | step f k => exact .inl ⟨by simpa [Worker.next] using h1, h2⟩
  · simp only at h1 h2
    subst h1 h2
    exact .inr ⟨rfl, rfl, h3⟩

/-- What one goroutine's own steps make of it. -/
structure Worker.Going (ts : List Task) (n : Nat) (w : Worker) : Prop where
  due : w.Due n
  way : w.Way ts
  msgs : (∀ t ∈ w.todo, ∃ c h m, t = .msg c h m) ∧ ∀ t q, w.cur = some (t, q) → ∃ c h m, t = .msg c h m
  out : ∀ d ∈ w.done, ComesOf d.1 d.2 ∧ ∃ c h m, d.1 = .msg c h m

theorem going_next {env : Env} {clk : Clock} {st : Store} {w : Worker} {ts : List Task} {n : Nat} (h : w.Going ts n) :
    (w.next env clk st).2.Going ts (n - 1) := by
  refine ⟨due_next h.msgs.1 h.due, way_next h.way, ?_, ?_⟩
  all_goals
    obtain ⟨hd, -, ⟨hm1, hm2⟩, ho⟩ := h
    obtain ⟨todo, cur, done⟩ := w
    cases cur with
    | none =>
      cases todo with
      | nil => first | exact ⟨hm1, hm2⟩ | exact ho
      | cons t todo =>
        first
        | exact ⟨fun t' ht' => hm1 t' (List.mem_cons_of_mem _ ht'), (fun t' q hq => by cases hq; exact hm1 _ List.mem_cons_self)⟩
        | exact ho
    | some c =>
      obtain ⟨t, q⟩ := c
      cases q with
      | ret r =>
        first
        | refine ⟨fun t' ht' => ?_, (fun t' q hq => by cases hq)⟩
          simp only [Worker.next] at ht'
          split at ht'
          · exact hm1 t' ht'
          · cases ht'
        | intro d hd'
          rcases List.mem_append.1 hd' with h' | h'
          · exact ho d h'
          · cases List.mem_singleton.1 h'
            obtain ⟨_, h1, -⟩ := hd
            exact ⟨h1, hm2 t _ rfl⟩
      | step f k =>
        first
        | exact ⟨hm1, (fun t' q hq => by cases hq; exact hm2 t _ rfl)⟩
        | exact ho

theorem going_run {env : Env} {ts : List Task} {j : Nat} (evs : List (Nat × Clock)) (s : WSys) (n : Nat) (w : Worker)
    (hw : s.ws[j]? = some w) (h : w.Going ts n) :
    ∃ w', (s.run env evs).ws[j]? = some w' ∧ w'.Going ts (n - (evs.filter fun e => decide (e.1 = j)).length) := by
  induction evs generalizing s n w with
  | nil => exact ⟨w, hw, h⟩
  | cons e evs ih =>
    by_cases he : e.1 = j
    · have h1 : (s.step env e).ws[j]? = some (w.next env e.2 s.st).2 := by
        unfold WSys.step
        rw [he, hw]
        exact List.getElem?_set_self (List.getElem?_eq_some_iff.1 hw).1
      obtain ⟨w', h2, h3⟩ := ih (s.step env e) (n - 1) _ h1 (going_next h)
      refine ⟨w', h2, ?_⟩
      rw [List.filter_cons_of_pos (by simpa using he), List.length_cons]
      have : n - ((evs.filter fun e => decide (e.1 = j)).length + 1) = n - 1 - (evs.filter fun e => decide (e.1 = j)).length := by omega
      rw [this]; exact h3
    · have h1 : (s.step env e).ws[j]? = some w := by
        unfold WSys.step
        split
        · exact hw
        · simp only; rw [List.getElem?_set_ne he]; exact hw
      obtain ⟨w', h2, h3⟩ := ih (s.step env e) n w h1 h
      refine ⟨w', h2, ?_⟩
      rw [List.filter_cons_of_neg (by simpa using he)]
      exact h3

end JT808
