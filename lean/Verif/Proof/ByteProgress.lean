import Verif.Props.Serial
/-
For C161: how many steps a connection needs for its bytes, and what its messages come to.
-/
namespace JT808
open Spec

variable {env : Env}

/-! ### One message -/

/-- The handler returns what `R` says after at most so many steps, or has just not found the phone. -/
def Prog.Leads (p : Str) (R : Res (Option Out) → Prop) : Prog → Nat → Prop
  | .ret r, _ => R r
  | .step _ k, n => ∃ m, n = m + 1 ∧ ∀ clk st, (k clk st).Leads p R m ∨
      (k clk st = .ret (.err .deviceNotFound) ∧ st.devByPhone p = none)

variable {R : Res (Option Out) → Prop} {p : Str} {n : Nat}

theorem leads_step (f : Clock → Store → Store) (k : Clock → Store → Prog) (h : ∀ clk st, (k clk st).Leads p R n) :
    (Prog.step f k).Leads p R (n + 1) := ⟨n, rfl, fun clk st => .inl (h clk st)⟩

theorem leads_find (k : Option Ref → Prog) (h1 : k none = .ret (.err .deviceNotFound)) (h2 : ∀ r, (k (some r)).Leads p R n) :
    (Prog.get p k).Leads p R (n + 1) :=
  ⟨n, rfl, fun _ st => by
    cases h : st.devByPhone p with
    | none => exact .inr ⟨by simp only [h]; exact h1, rfl⟩
    | some r => exact .inl (by simp only [h]; exact h2 r)⟩

theorem leads_get (q : Str) (k : Option Ref → Prog) (h1 : (k none).Leads p R n) (h2 : ∀ r, (k (some r)).Leads p R n) :
    (Prog.get q k).Leads p R (n + 1) :=
  ⟨n, rfl, fun _ st => by
    cases h : st.devByPhone q with
    | none => exact .inl (by simp only [h]; exact h1)
    | some r => exact .inl (by simp only [h]; exact h2 r)⟩

theorem leads_upd (f : Store → Store) (next : Prog) (h : next.Leads p R n) : (Prog.upd f next).Leads p R (n + 1) :=
  ⟨n, rfl, fun _ _ => .inl h⟩

theorem leads_put (r : Ref) (g : Clock → Device → Device) (next : Prog) (h : next.Leads p R n) :
    (Prog.put r g next).Leads p R (n + 1) := ⟨n, rfl, fun _ _ => .inl h⟩

theorem leads_read {α : Type} (g : Clock → Store → α) (k : α → Prog) (h : ∀ a, (k a).Leads p R n) :
    (Prog.read g k).Leads p R (n + 1) := ⟨n, rfl, fun _ _ => .inl (h _)⟩

theorem leads_geo (h : Header) (r : Ref) (dg : DeviceGeo) (h1 : R (.ok (some (gen8001 h 0)))) (h2 : R .panic) :
    (progGeo h r dg).Leads p R (n + 1) := by
  refine leads_step _ _ fun _ st => ?_
  have := writeGeo_err st (st.heap r).phone dg
  show Prog.Leads p R (match (st.writeGeo (st.heap r).phone dg).2 with
    | .ok _ => .ret (.ok (some (gen8001 h 0)))
    | .err e => .ret (.err e)
    | .panic => .ret .panic) n
  cases hw : (st.writeGeo (st.heap r).phone dg).2 with
  | ok _ => exact h1
  | err e => exact absurd hw (this e)
  | panic => exact h2

/-- The answer to a message. -/
def Exact (h : Header) (m : Msg) (r : Res (Option Out)) : Prop :=
  match m with
  | .m0002 | .m0003 | .m0102 _ | .m0200 _ => ∃ res, r = .ok (some (gen8001 h res))
  | .m0100 _ => ∃ res code, r = .ok (some (gen8100 h res code))
  | .m8104 => goesOn r = true
  | _ => (putsOut env r).2 = false

/-- Every message takes at most eight steps. -/
theorem msg_leads (c : Conn) (h : Header) (m : Msg) :
    ((Task.msg c h m).prog env).Leads h.phone (fun r => r = .panic ∨ Exact (env := env) h m r) 8 := by
  cases m with
  | m0002 =>
    show (prog0002 h).Leads _ _ 8
    exact leads_find _ rfl fun r => leads_put _ _ _ (leads_upd _ _ (.inr ⟨_, rfl⟩))
  | m0003 =>
    show (prog0003 h).Leads _ _ 8
    exact leads_find _ rfl fun r => leads_upd _ _ (leads_upd _ _ (.inr ⟨_, rfl⟩))
  | m0100 m =>
    show (prog0100 c h m).Leads _ _ 8
    refine leads_read _ _ fun b => ?_
    split
    · exact .inr ⟨_, _, rfl⟩
    refine leads_read _ _ fun b => ?_
    split
    · exact .inr ⟨_, _, rfl⟩
    refine leads_step _ _ fun clk st => leads_upd _ _ ?_
    exact leads_get _ _ (.inr ⟨_, _, rfl⟩) fun _ => leads_upd _ _ (.inr ⟨_, _, rfl⟩)
  | m0102 m =>
    show (prog0102 h m).Leads _ _ 8
    refine leads_find _ rfl fun r => leads_read _ _ fun code => ?_
    split
    · exact leads_upd _ _ (leads_upd _ _ (.inr ⟨_, rfl⟩))
    · exact leads_put _ _ _ (leads_put _ _ _ (leads_put _ _ _ (leads_put _ _ _ (leads_put _ _ _ (leads_upd _ _
        (.inr ⟨_, rfl⟩))))))
  | m0200 m =>
    show (prog0200 h m).Leads _ _ 8
    refine leads_find _ rfl fun r => leads_read _ _ fun dg => ?_
    split
    · exact leads_put _ _ _ (leads_put _ _ _ (leads_upd _ _ (leads_geo _ _ _ (.inr ⟨_, rfl⟩) (.inl rfl))))
    · exact leads_geo _ _ _ (.inr ⟨_, rfl⟩) (.inl rfl)
  | m8001 m =>
    show (prog8001 h m).Leads _ _ 8
    unfold prog8001
    split
    · refine leads_get _ _ (.inr rfl) fun r => leads_read _ _ fun s => ?_
      split
      · exact .inr rfl
      · exact leads_put _ _ _ (leads_put _ _ _ (leads_upd _ _ (.inr rfl)))
    · exact .inr rfl
  | m8100 m =>
    show (prog8100 h m).Leads _ _ 8
    exact leads_get _ _ (.inr rfl) fun r => leads_read _ _ fun _ => leads_read _ _ fun _ =>
      .inr rfl
  | m8103 m =>
    show (prog8103 h m).Leads _ _ 8
    exact leads_read _ _ fun _ => leads_upd _ _ (.inr rfl)
  | m8104 =>
    show (prog8104 env h).Leads _ _ 8
    obtain ⟨q, j, e⟩ := fixedDecode_ok env h.phone
    refine leads_read _ _ fun o => ?_
    cases o with
    | some p => exact .inr rfl
    | none =>
      simp only [e]
      exact leads_upd _ _ (.inr rfl)
  | m9205 m => exact .inr rfl
  | _ => exact .inr rfl

/-! ### One connection -/

/-- The steps a connection needs to read its bytes and handle its messages. -/
def Line.cost (l : Line) : Nat := l.input.length + 9 * (cut l.recv l.input).length

/-- A connection that is at rest after at most `n` steps; `U` holds of phones that were not found. -/
structure Line.Bound (env : Env) (U : Str → Prop) (n : Nat) (l : Line) : Prop where
  todo : l.todo = []
  due : l.ended = true ∨ (l.cur = none ∧ l.cost ≤ n) ∨ ∃ c h m q d, l.cur = some (.msg c h m, q) ∧
    (q.Leads h.phone (fun r => r = .panic ∨ Exact (env := env) h m r) d ∨ (q = .ret (.err .deviceNotFound) ∧ U h.phone)) ∧
    l.cost + d + 1 ≤ n
  done : ∀ x ∈ l.done, ∃ c h m, x.1 = .msg c h m ∧ (x.2 = .panic ∨ Exact (env := env) h m x.2 ∨
    (x.2 = .err .deviceNotFound ∧ U h.phone))

theorem next_bound {U : Str → Prop} {clk : Clock} {st : Store} {l : Line} (hU : ∀ p, st.devByPhone p = none → U p)
    (h : l.Bound env U n) : (l.next env clk st).2.Bound env U (n - 1) := by
  obtain ⟨conn, todo, input, recv, cur, done, output, ended⟩ := l
  obtain ⟨h1, h2, h3⟩ := h
  simp only at h1 h2 h3
  subst h1
  cases ended with
  | true => exact ⟨rfl, .inl rfl, h3⟩
  | false =>
    rcases h2 with h2 | ⟨h2, h4⟩ | ⟨c, hd, m, q, d, h2, h4, h5⟩
    · cases h2
    · subst h2
      simp only [Line.cost] at h4
      cases input with
      | nil => exact ⟨rfl, .inr (.inl ⟨rfl, Nat.zero_le _⟩), h3⟩
      | cons b rest =>
        have hcut : cut recv (b :: rest) = match recvStep recv b with
          | .inl f => f :: cut RecvSt.fresh rest
          | .inr r' => cut r' rest := rfl
        rw [hcut] at h4
        cases hr : recvStep recv b with
        | inr r =>
          rw [hr] at h4
          simp only [List.length_cons] at h4
          simp only [Line.next, hr]
          exact ⟨rfl, .inr (.inl ⟨rfl, by simp only [Line.cost, Bool.false_eq_true, if_false]; omega⟩), h3⟩
        | inl f =>
          rw [hr] at h4
          simp only [List.length_cons] at h4
          cases hf : received env clk.civil conn f with
          | none => simp only [Line.next, hr, hf]; exact ⟨rfl, .inl rfl, h3⟩
          | some o =>
            cases o with
            | none =>
              simp only [Line.next, hr, hf]
              exact ⟨rfl, .inr (.inl ⟨rfl, by simp only [Line.cost, Bool.false_eq_true, if_false]; omega⟩), h3⟩
            | some t =>
              simp only [Line.next, hr, hf]
              obtain ⟨hd, m, rfl, -⟩ := received_iff.1 hf
              exact ⟨rfl, .inr (.inr ⟨conn, hd, m, _, 8, rfl, .inl (msg_leads conn hd m), by simp only [Line.cost, Bool.false_eq_true, if_false]; omega⟩), h3⟩
    · subst h2
      simp only [Line.cost] at h5
      cases q with
      | ret r =>
        refine ⟨rfl, .inr (.inl ⟨rfl, by simp only [Line.next, Line.cost]; simp; omega⟩), fun x hx => ?_⟩
        rcases List.mem_append.1 hx with hx | hx
        · exact h3 x hx
        · rw [List.mem_singleton.1 hx]
          refine ⟨c, hd, m, rfl, ?_⟩
          rcases h4 with h4 | ⟨h4, h6⟩
          · exact h4.imp id .inl
          · cases h4; exact .inr (.inr ⟨rfl, h6⟩)
      | step f k =>
        rcases h4 with ⟨e, rfl, h4⟩ | ⟨h4, -⟩
        · refine ⟨rfl, .inr (.inr ⟨c, hd, m, k clk st, e, rfl, ?_, by simp only [Line.next, Line.cost]; simp; omega⟩), h3⟩
          rcases h4 clk st with h4 | ⟨h4, h6⟩
          · exact .inl h4
          · exact .inr ⟨h4, hU _ h6⟩
        · cases h4

/-- What the steps of one goroutine preserve, the store of every step being one of the run. -/
theorem lines_going {P : Nat → Line → Prop} {Q : Store → Prop} {j : Nat}
    (hP : ∀ n clk st l, Q st → P n l → P (n - 1) (l.next env clk st).2) (evs : List (Nat × Clock)) (s : LSys) (n : Nat)
    (l : Line) (hl : s.ls[j]? = some l) (h : P n l) (hQ : ∀ a b, evs = a ++ b → Q (s.run env a).st) :
    ∃ l', (s.run env evs).ls[j]? = some l' ∧ P (n - (timesOf j evs).length) l' := by
  induction evs generalizing s n l with
  | nil => exact ⟨l, hl, h⟩
  | cons e evs ih =>
    have hQ' : ∀ a b, evs = a ++ b → Q ((s.step env e).run env a).st := fun a b hab => hQ (e :: a) b (by rw [hab]; rfl)
    rw [timesOf_cons]
    by_cases he : e.1 = j
    · have h1 : (s.step env e).ls[j]? = some (l.next env e.2 s.st).2 := by
        unfold LSys.step
        rw [he, hl]
        exact List.getElem?_set_self (List.getElem?_eq_some_iff.1 hl).1
      obtain ⟨l', h2, h3⟩ := ih (s.step env e) (n - 1) _ h1 (hP _ _ _ _ (hQ [] _ rfl) h) hQ'
      refine ⟨l', h2, ?_⟩
      rw [if_pos he]
      have : n - ((timesOf j evs).length + 1) = n - 1 - (timesOf j evs).length := by omega
      rw [this]; exact h3
    · have h1 : (s.step env e).ls[j]? = some l := by
        unfold LSys.step
        split
        · exact hl
        · simp only; rw [List.getElem?_set_ne he]; exact hl
      obtain ⟨l', h2, h3⟩ := ih (s.step env e) n l h1 h hQ'
      refine ⟨l', h2, ?_⟩
      rw [if_neg he]
      exact h3

/-! ### What is written -/

namespace Spec

/-- What a terminal is to be sent for a frame: for a message that asks for an answer the answer with its header and number,
for something that is no message nothing. -/
def Answers (env : Env) (f out : List UInt8) : Prop :=
  (∃ now h m, Holds env now f h m ∧ match m with
    | .m0002 | .m0003 | .m0102 _ | .m0200 _ => ∃ res, out = generalReply h res
    | .m0100 _ => ∃ res code, out = registerReply h res code
    | _ => True) ∨
  (out = [] ∧ ∃ now, ∀ h m, ¬ Holds env now f h m)

end Spec

theorem putsOut_finish (r : Res (Option Out)) (f : List UInt8) (st : Store) (h : finish env (st, r) = (st, .reply f)) :
    putsOut env r = (f, false) := by
  cases r with
  | err e => cases h
  | panic => cases h
  | ok o =>
    cases o with
    | none => cases h
    | some o =>
      simp only [finish] at h
      simp only [putsOut]
      cases ho : Out.encode env o with
      | ok g => rw [ho] at h; cases h; rfl
      | err e => rw [ho] at h; cases h
      | panic => rw [ho] at h; cases h

theorem exact_answers {now : Civil} {f : List UInt8} {h : Header} {m : Msg} {r : Res (Option Out)} (hh : Holds env now f h m)
    (hr : Exact (env := env) h m r) : Answers env f (putsOut env r).1 := by
  refine .inl ⟨now, h, m, hh, ?_⟩
  have gen : ∀ res, r = .ok (some (gen8001 h res)) → (putsOut env r).1 = generalReply h res.toNat := by
    rintro res rfl
    rw [putsOut_finish (env := env) _ _ Store.empty (finish_gen8001 ..)]
  cases m with
  | m0002 => obtain ⟨res, e⟩ := hr; exact ⟨_, gen res e⟩
  | m0003 => obtain ⟨res, e⟩ := hr; exact ⟨_, gen res e⟩
  | m0102 _ => obtain ⟨res, e⟩ := hr; exact ⟨_, gen res e⟩
  | m0200 _ => obtain ⟨res, e⟩ := hr; exact ⟨_, gen res e⟩
  | m0100 _ =>
    obtain ⟨res, code, rfl⟩ := hr
    exact ⟨_, _, congrArg Prod.fst (putsOut_finish (env := env) _ _ Store.empty (finish_gen8100 ..))⟩
  | _ => trivial

/-- The answers to the frames read so far. -/
theorem heard_answers {c : Conn} {clks : List Clock} {fs : List (List UInt8)} {ts : List Task} (hh : Heard env c clks fs ts)
    (done : List (Task × Res (Option Out))) (hd : done.map (·.1) = ts)
    (hx : ∀ x ∈ done, ∀ c h m, x.1 = .msg c h m → Exact (env := env) h m x.2) :
    ∃ outs : List (List UInt8), outs.length = fs.length ∧ done.flatMap (fun d => (putsOut env d.2).1) = outs.flatten ∧
      ∀ x ∈ fs.zip outs, Answers env x.1 x.2 := by
  induction hh generalizing done with
  | nil =>
    rw [List.map_eq_nil_iff] at hd
    subst hd
    exact ⟨[], rfl, rfl, fun x hx => by cases hx⟩
  | @skip fs ts f clk hh hc hr ih =>
    obtain ⟨outs, h1, h2, h3⟩ := ih done hd hx
    refine ⟨outs ++ [[]], by simp [h1], by simp [h2], fun x hx => ?_⟩
    rw [List.zip_append h1.symm] at hx
    rcases List.mem_append.1 hx with hx | hx
    · exact h3 x hx
    · rw [List.mem_singleton.1 hx]
      refine .inr ⟨rfl, clk.civil, fun h m hm => ?_⟩
      have := (received_iff (c := c)).2 ⟨h, m, rfl, hm⟩
      rw [hr] at this; cases this
  | @msg fs ts f clk t hh hc hr ih =>
    obtain ⟨done', d, rfl⟩ : ∃ done' d, done = done' ++ [d] := by
      rcases List.eq_nil_or_concat done with h | ⟨ms', m, h⟩
      · subst h; simp at hd
      · exact ⟨ms', m, by rw [h, List.concat_eq_append]⟩
    simp only [List.map_append, List.map_cons, List.map_nil] at hd
    obtain ⟨e1, e2⟩ := List.append_inj' hd rfl
    cases e2
    obtain ⟨outs, h1, h2, h3⟩ := ih done' e1 fun x h => hx x (List.mem_append_left _ h)
    refine ⟨outs ++ [(putsOut env d.2).1], by simp [h1], by simp [h2], fun x hx' => ?_⟩
    rw [List.zip_append h1.symm] at hx'
    rcases List.mem_append.1 hx' with hx' | hx'
    · exact h3 x hx'
    · rw [List.mem_singleton.1 hx']
      obtain ⟨h, m, e, hm⟩ := received_iff.1 hr
      exact exact_answers hm (hx d (List.mem_append_right _ List.mem_cons_self) c h m e)

end JT808
