import Verif.Proof.Commands
import Verif.Proof.Demo
/-
C149: parameter requests that run while messages are handled, terminals time out, and connections come and go.
-/
namespace JT808
open Spec

/-! ### Specification -/

/-- The requests of a history, in order. -/
def Spec.requests : List XEv → List Req
  | [] => []
  | .request q :: evs => q :: Spec.requests evs
  | _ :: evs => Spec.requests evs

/-- The addresses connections came from, in order. -/
def Spec.addresses : List XEv → List Str
  | [] => []
  | .accept a :: evs => a :: Spec.addresses evs
  | _ :: evs => Spec.addresses evs

/-- The event belongs to a parameter request. -/
def Spec.ofRequest : XEv → Bool
  | .request _ | .go .. => true
  | _ => false

/-- The request with number `i` has been answered with a status. -/
def XSys.answered (s : XSys) (i : Nat) (code : Nat) : Prop := ∃ q, s.reqs[i]? = some (q, .done code)

/-! ### The store changes in two ways -/

theorem Store.Alike.heap {a b : Store} (h : a.Alike b) : b.heap = a.heap := by obtain ⟨_, _, _, rfl⟩ := h; rfl
theorem Store.Alike.next {a b : Store} (h : a.Alike b) : b.next = a.next := by obtain ⟨_, _, _, rfl⟩ := h; rfl

theorem Store.Alike.grows {a b : Store} (h : a.Alike b) : Grows a b :=
  ⟨Nat.le_of_eq h.next.symm, fun r _ => by rw [h.heap]; exact SameIdent.refl _⟩

theorem CInv.alike {a b : Store} (hi : CInv a) (h : a.Alike b) : CInv b := by
  obtain ⟨_, _, _, rfl⟩ := h
  exact ⟨hi.phoneOK, hi.plateOK, hi.conn, hi.rings, hi.params⟩

theorem ok_alike {env : Env} {s : CSys} {st : Store} (h : s.OK env) (ha : s.st.Alike st) : CSys.OK env { s with st := st } :=
  ⟨h.inv.alike ha, fun i t q hq => (h.safe i t q hq).mono ha.grows⟩

theorem born_alike {s : CSys} {st : Store} (h : s.Born) (ha : s.st.Alike st) : CSys.Born { s with st := st } := by
  intro r hr
  have hr' : r < s.st.next := by rw [← ha.next]; exact hr
  obtain ⟨i, t, q, hi, hm⟩ := h r hr'
  exact ⟨i, t, q, hi, by show t.Makes (st.heap r); rw [ha.heap]; exact hm⟩

theorem alike_session (st : Store) (c : Conn) : st.Alike (st.storeSession c) := ⟨_, _, (st.closed, st.segs), rfl⟩
theorem alike_remove (st : Store) (c : Conn) : st.Alike (st.remove c) :=
  ⟨_, _, ((st.remove c).closed, st.segs), rfl⟩
theorem alike_serial (st : Store) (c : Conn) : st.Alike (st.takeSerial c).1 := ⟨_, _, (st.closed, st.segs), rfl⟩

theorem next_alike (env : Env) (werr : Option Err) (q : Req) (st : Store) (pc : ReqPc) :
    st.Alike (q.next env werr st pc).1 := by
  cases pc with
  | lookup => simp only [Req.next]; split <;> exact .refl _
  | sid r => exact .refl _
  | sess r a => simp only [Req.next]; split <;> exact .refl _
  | serial r c => exact alike_serial st c
  | header r c n => exact .refl _
  | send c o => simp only [Req.next]; split <;> exact .refl _
  | write c o =>
    simp only [Req.next]
    split
    · exact .refl _
    · exact .refl _
    · split
      · exact .refl _
      · exact alike_remove st c
      · exact .refl _
  | done code => exact .refl _

/-! ### The invariant -/

/-- The device behind a request, the connection and the message. -/
def FoundFor (st : Store) (q : Req) (r : Ref) (c : Conn) : Prop := Held q.phone st r ∧ c.addr = (st.heap r).sessionID

/-- The message a request sends. -/
def Req.Msg (st : Store) (q : Req) (r : Ref) (o : Out) : Prop :=
  ∃ n, o = (genMsgHeader q.phone (st.heap r).ver (st.heap r).protoVer q.id n, q.msg)

/-- What a request has in hand. -/
def PcOK (st : Store) (conns : List Conn) (q : Req) : ReqPc → Prop
  | .lookup => True
  | .sid r => Held q.phone st r
  | .sess r a => Held q.phone st r ∧ a = (st.heap r).sessionID
  | .serial r c => FoundFor st q r c
  | .header r c _ => FoundFor st q r c
  | .send c o => ∃ r, FoundFor st q r c ∧ q.Msg st r o
  | .write c o => c ∈ conns ∧ ∃ r, FoundFor st q r c ∧ q.Msg st r o
  | .done _ => True

/-- What a request has written. -/
def SentOK (env : Env) (st : Store) (conns : List Conn) (q : Req) (c : Conn) (f : List UInt8) : Prop :=
  c ∈ conns ∧ ∃ r o, FoundFor st q r c ∧ q.Msg st r o ∧ Out.encode env o = .ok f

theorem FoundFor.mono {st st' : Store} {q : Req} {r : Ref} {c : Conn} (h : FoundFor st q r c) (hg : Grows st st') : FoundFor st' q r c :=
  ⟨h.1.mono hg, h.2.trans (hg.ident r h.1.1).sessionID.symm⟩

theorem Req.Msg.mono {st st' : Store} {q : Req} {r : Ref} {o : Out} (hr : r < st.next) (h : q.Msg st r o)
    (hg : Grows st st') : q.Msg st' r o := by
  obtain ⟨n, rfl⟩ := h
  exact ⟨n, by rw [(hg.ident r hr).ver, (hg.ident r hr).protoVer]⟩

theorem PcOK.mono {st st' : Store} {cs cs' : List Conn} {q : Req} {pc : ReqPc} (h : PcOK st cs q pc) (hg : Grows st st')
    (hc : ∀ c ∈ cs, c ∈ cs') : PcOK st' cs' q pc := by
  cases pc with
  | lookup => trivial
  | done _ => trivial
  | sid r => exact Held.mono h hg
  | sess r a => exact ⟨h.1.mono hg, h.2.trans (hg.ident r h.1.1).sessionID.symm⟩
  | serial r c => exact FoundFor.mono h hg
  | header r c n => exact FoundFor.mono h hg
  | send c o => obtain ⟨r, hf, hm⟩ := h; exact ⟨r, hf.mono hg, hm.mono hf.1.1 hg⟩
  | write c o => obtain ⟨hm, r, hf, ho⟩ := h; exact ⟨hc _ hm, r, hf.mono hg, ho.mono hf.1.1 hg⟩

theorem SentOK.mono {env : Env} {st st' : Store} {cs cs' : List Conn} {q : Req} {c : Conn} {f : List UInt8}
    (h : SentOK env st cs q c f) (hg : Grows st st') (hc : ∀ c ∈ cs, c ∈ cs') : SentOK env st' cs' q c f := by
  obtain ⟨hm, r, o, hf, ho, he⟩ := h
  exact ⟨hc _ hm, r, o, hf.mono hg, ho.mono hf.1.1 hg, he⟩

/-- The handlers' side; `P` holds for whatever goroutines were started for. -/
structure XSys.Base (env : Env) (P : Task → Prop) (s : XSys) : Prop where
  ok : s.cs.OK env
  born : s.cs.Born
  threads : ∀ (i : Nat) (t : Task) (q : Prog), s.cs.threads[i]? = some (t, q) → q.Blind ∧ P t ∧ s.may t = true
  sess : ∀ a c, s.cs.st.session a = some c → c ∈ s.conns ∧ c.addr = a

/-- The requests' side. -/
structure XSys.Side (env : Env) (s : XSys) : Prop where
  pcs : ∀ (i : Nat) (q : Req) (pc : ReqPc), s.reqs[i]? = some (q, pc) → PcOK s.cs.st s.conns q pc
  sent : ∀ i c f, (i, c, f) ∈ s.sent → ∃ q code, s.reqs[i]? = some (q, .done code) ∧ SentOK env s.cs.st s.conns q c f
  once : (s.sent.map (·.1)).Nodup

theorem session_set {st : Store} {c c' : Conn} {a : Str} (h : (st.storeSession c).session a = some c') :
    c' = c ∧ a = c.addr ∨ st.session a = some c' := by
  simp only [Store.session, Store.storeSession, AMap.get_set] at h
  split at h
  · rename_i e; cases h; exact .inl ⟨rfl, e⟩
  · exact .inr h

theorem session_of_remove {st : Store} {c c' : Conn} {a : Str} (h : (st.remove c).session a = some c') : st.session a = some c' := by
  simp only [Store.session, Store.remove, Store.clearSession, Store.closeConn, AMap.get_del] at h
  split at h
  · cases h
  · exact h

theorem session_next {env : Env} {werr : Option Err} {q : Req} {st : Store} {pc : ReqPc} {a : Str} {c : Conn}
    (h : (q.next env werr st pc).1.session a = some c) : st.session a = some c := by
  cases pc with
  | lookup => simp only [Req.next] at h; split at h <;> exact h
  | sid r => exact h
  | sess r a => simp only [Req.next] at h; split at h <;> exact h
  | serial r c => exact h
  | header r c n => exact h
  | send c o => simp only [Req.next] at h; split at h <;> exact h
  | write c o =>
    simp only [Req.next] at h
    split at h
    · exact h
    · exact h
    · split at h
      · exact h
      · exact session_of_remove h
      · exact h
  | done code => exact h

/-- The handlers' side of an event. -/
theorem base_cs {env : Env} {P : Task → Prop} {s : XSys} (h : s.Base env P) (e : CEv)
    (he : ∀ t, e = .spawn t → P t ∧ s.may t = true) : XSys.Base env P { s with cs := s.cs.step env e } := by
  refine ⟨(ok_step h.ok e).1, born_step h.ok h.born e, ?_, ?_⟩
  · intro i t q hi
    cases e with
    | spawn t' =>
      simp only [CSys.step] at hi
      split at hi
      · simp only [List.getElem?_append] at hi
        split at hi
        · exact h.threads i t q hi
        · rw [List.getElem?_singleton] at hi
          split at hi
          · cases hi; exact ⟨task_blind env _, (he _ rfl).1, (he _ rfl).2⟩
          · cases hi
      · exact h.threads i t q hi
    | run j clk =>
      cases hj : s.cs.threads[j]? with
      | none => simp only [CSys.step, hj] at hi; exact h.threads i t q hi
      | some tp =>
        obtain ⟨t', q'⟩ := tp
        simp only [CSys.step, hj, List.getElem?_set] at hi
        split at hi
        · split at hi
          · cases hi
            obtain ⟨hb, hp, hm⟩ := h.threads j t q' hj
            refine ⟨?_, hp, hm⟩
            cases q' with
            | ret r => trivial
            | step f k => exact (hb clk s.cs.st).2.2
          · cases hi
        · exact h.threads i t q hi
  · intro a c hc
    refine h.sess a c ?_
    cases e with
    | spawn t' =>
      simp only [CSys.step] at hc
      split at hc <;> exact hc
    | run j clk =>
      cases hj : s.cs.threads[j]? with
      | none => simp only [CSys.step, hj] at hc; exact hc
      | some tp =>
        obtain ⟨t', q'⟩ := tp
        simp only [CSys.step, hj] at hc
        cases q' with
        | ret r => exact hc
        | step f k =>
          have e1 : (f clk s.cs.st).sessions = s.cs.st.sessions := ((h.threads j t' _ hj).1 clk s.cs.st).1
          rw [← hc]
          show s.cs.st.sessions.get a = (f clk s.cs.st).sessions.get a
          rw [e1]

theorem may_more {s : XSys} {c : Conn} {t : Task} {cs : CSys} {rs : List (Req × ReqPc)} {ss : List (Nat × Conn × List UInt8)}
    (h : s.may t = true) : XSys.may ⟨cs, s.conns ++ [c], rs, ss⟩ t = true := by
  cases t with
  | check p => rfl
  | msg c' hd m =>
    have : c' ∈ s.conns := of_decide_eq_true h
    exact decide_eq_true (List.mem_append_left _ this)

theorem base_step {env : Env} {P : Task → Prop} {s : XSys} (h : s.Base env P) (e : XEv) (he : ∀ t, e = .task t → P t) :
    (s.step env e).Base env P := by
  cases e with
  | accept addr =>
    refine ⟨ok_alike h.ok (alike_session _ _), born_alike h.born (alike_session _ _), fun i t q hi => ?_, fun a c hc => ?_⟩
    · obtain ⟨x, y, z⟩ := h.threads i t q hi
      exact ⟨x, y, may_more z⟩
    · rcases session_set hc with ⟨rfl, rfl⟩ | hc
      · exact ⟨List.mem_append_right _ (List.mem_singleton.2 rfl), rfl⟩
      · exact ⟨List.mem_append_left _ (h.sess a c hc).1, (h.sess a c hc).2⟩
  | gone c =>
    simp only [XSys.step]
    split
    · exact ⟨ok_alike h.ok (alike_remove _ _), born_alike h.born (alike_remove _ _), h.threads,
        fun a c' hc => h.sess a c' (session_of_remove hc)⟩
    · exact h
  | task t =>
    simp only [XSys.step]
    split
    · rename_i hm
      exact base_cs h _ fun t' e => by cases e; exact ⟨he _ rfl, hm⟩
    · exact h
  | run i clk => exact base_cs h _ fun t e => by cases e
  | request q => exact ⟨h.ok, h.born, h.threads, h.sess⟩
  | go i werr =>
    simp only [XSys.step]
    split
    · exact h
    · rename_i q pc hi
      exact ⟨ok_alike h.ok (next_alike env werr q _ pc), born_alike h.born (next_alike env werr q _ pc), h.threads,
        fun a c hc => h.sess a c (session_next hc)⟩

/-- What a step of a request leaves in its hands. -/
theorem next_ok {env : Env} {P : Task → Prop} {s : XSys} (h : s.Base env P) {q : Req} {pc : ReqPc} (werr : Option Err)
    (hp : PcOK s.cs.st s.conns q pc) :
    PcOK s.cs.st s.conns q (q.next env werr s.cs.st pc).2.1 ∧
      ∀ c f, (q.next env werr s.cs.st pc).2.2 = some (c, f) → SentOK env s.cs.st s.conns q c f ∧
        ∃ code, (q.next env werr s.cs.st pc).2.1 = .done code := by
  cases pc with
  | lookup =>
    cases hd : s.cs.st.devByPhone q.phone with
    | none => simp only [Req.next, hd]; exact ⟨trivial, fun _ _ e => by cases e⟩
    | some r => simp only [Req.next, hd]; exact ⟨h.ok.inv.phoneOK _ _ hd, fun _ _ e => by cases e⟩
  | sid r => exact ⟨⟨hp, rfl⟩, fun _ _ e => by cases e⟩
  | sess r a =>
    cases hd : s.cs.st.session a with
    | none => simp only [Req.next, hd]; exact ⟨trivial, fun _ _ e => by cases e⟩
    | some c =>
      simp only [Req.next, hd]
      exact ⟨⟨hp.1, (h.sess a c hd).2.trans hp.2⟩, fun _ _ e => by cases e⟩
  | serial r c => exact ⟨hp, fun _ _ e => by cases e⟩
  | header r c n =>
    refine ⟨⟨r, hp, n, ?_⟩, fun _ _ e => by cases e⟩
    rw [hp.1.2]
  | send c o =>
    obtain ⟨r, hf, hm⟩ := hp
    cases hd : s.cs.st.session c.addr with
    | none => simp only [Req.next, hd]; exact ⟨trivial, fun _ _ e => by cases e⟩
    | some c' =>
      simp only [Req.next, hd]
      exact ⟨⟨(h.sess _ _ hd).1, r, ⟨hf.1, (h.sess _ _ hd).2.trans hf.2⟩, hm⟩, fun _ _ e => by cases e⟩
  | write c o =>
    obtain ⟨hc, r, hf, hm⟩ := hp
    cases he : Out.encode env o with
    | panic => simp only [Req.next, he]; exact ⟨trivial, fun _ _ e => by cases e⟩
    | err x => simp only [Req.next, he]; exact ⟨trivial, fun _ _ e => by cases e⟩
    | ok f =>
      simp only [Req.next, he]
      cases werr with
      | none =>
        refine ⟨trivial, fun c' f' e => ?_⟩
        cases e
        exact ⟨⟨hc, r, o, hf, hm, he⟩, _, rfl⟩
      | some x => cases x <;> exact ⟨trivial, fun _ _ e => by cases e⟩
  | done code => exact ⟨trivial, fun _ _ e => by cases e⟩

/-- When nothing happens on the requests' side. -/
theorem side_mono {env : Env} {s s' : XSys} (h : s.Side env) (hg : Grows s.cs.st s'.cs.st) (hc : ∀ c ∈ s.conns, c ∈ s'.conns)
    (hr : s'.reqs = s.reqs) (hs : s'.sent = s.sent) : s'.Side env := by
  refine ⟨fun i q pc hi => (h.pcs i q pc (hr ▸ hi)).mono hg hc, fun i c f hm => ?_, hs ▸ h.once⟩
  obtain ⟨q, code, hq, ho⟩ := h.sent i c f (hs ▸ hm)
  exact ⟨q, code, by rw [hr, hq], ho.mono hg hc⟩

theorem side_step {env : Env} {P : Task → Prop} {s : XSys} (hb : s.Base env P) (h : s.Side env) (e : XEv) :
    (s.step env e).Side env := by
  cases e with
  | accept addr => exact side_mono h (alike_session _ _).grows (fun c hc => List.mem_append_left _ hc) rfl rfl
  | gone c =>
    simp only [XSys.step]
    split
    · exact side_mono h (alike_remove _ _).grows (fun _ hc => hc) rfl rfl
    · exact h
  | task t =>
    simp only [XSys.step]
    split
    · exact side_mono h (ok_step hb.ok _).2 (fun _ hc => hc) rfl rfl
    · exact h
  | run i clk => exact side_mono h (ok_step hb.ok _).2 (fun _ hc => hc) rfl rfl
  | request q =>
    refine ⟨fun i q' pc hi => ?_, fun i c f hm => ?_, h.once⟩
    · simp only [XSys.step, List.getElem?_append] at hi
      split at hi
      · exact h.pcs i q' pc hi
      · rw [List.getElem?_singleton] at hi
        split at hi
        · cases hi; trivial
        · cases hi
    · obtain ⟨q', code, hq, ho⟩ := h.sent i c f hm
      refine ⟨q', code, ?_, ho⟩
      have hlt : i < s.reqs.length := (List.getElem?_eq_some_iff.1 hq).1
      simp only [XSys.step]
      rw [List.getElem?_append_left hlt, hq]
  | go i werr =>
    cases hi : s.reqs[i]? with
    | none => simp only [XSys.step, hi]; exact h
    | some x =>
      obtain ⟨q, pc⟩ := x
      have hlt : i < s.reqs.length := (List.getElem?_eq_some_iff.1 hi).1
      have ha := (next_alike env werr q s.cs.st pc).grows
      obtain ⟨hn, hw⟩ := next_ok hb werr (h.pcs i q pc hi)
      simp only [XSys.step, hi]
      -- a request that has written before is done and writes no more
      have hold : ∀ c f, (i, c, f) ∈ s.sent → (q.next env werr s.cs.st pc).2.2 = none ∧
          ∃ code, (q.next env werr s.cs.st pc).2.1 = .done code := by
        intro c f hm
        obtain ⟨q', code, hq, -⟩ := h.sent i c f hm
        rw [hi] at hq
        cases hq
        exact ⟨rfl, code, rfl⟩
      refine ⟨fun j q' pc' hj => ?_, fun j c f hm => ?_, ?_⟩
      · simp only [List.getElem?_set] at hj
        split at hj
        · cases hj; exact hn.mono ha fun _ hc => hc
        · exact (h.pcs j q' pc' hj).mono ha fun _ hc => hc
      · simp only [List.getElem?_set]
        rcases List.mem_append.1 hm with hm | hm
        · obtain ⟨q', code, hq, ho⟩ := h.sent j c f hm
          by_cases hij : i = j
          · subst hij
            obtain ⟨-, code', hd⟩ := hold c f hm
            rw [hi] at hq
            cases hq
            exact ⟨q, _, by rw [if_pos rfl, if_pos hlt, hd], ho.mono ha fun _ hc => hc⟩
          · exact ⟨q', code, by rw [if_neg hij, hq], ho.mono ha fun _ hc => hc⟩
        · cases hw2 : (q.next env werr s.cs.st pc).2.2 with
          | none => rw [hw2] at hm; cases hm
          | some y =>
            rw [hw2] at hm
            simp only [Option.map_some, Option.toList_some, List.mem_singleton, Prod.mk.injEq] at hm
            obtain ⟨rfl, rfl⟩ := hm
            obtain ⟨ho, code, hd⟩ := hw c f hw2
            exact ⟨q, code, by rw [if_pos rfl, if_pos hlt, hd], ho.mono ha fun _ hc => hc⟩
      · rw [List.map_append, List.nodup_append]
        cases hw2 : (q.next env werr s.cs.st pc).2.2 with
        | none => exact ⟨h.once, List.nodup_nil, fun _ _ _ hb => by cases hb⟩
        | some y =>
          refine ⟨h.once, by simp, fun a hma b hmb e => ?_⟩
          simp only [Option.map_some, Option.toList_some, List.map_cons, List.map_nil, List.mem_singleton] at hmb
          subst hmb
          subst e
          obtain ⟨⟨j, c, f⟩, hm, rfl⟩ := List.mem_map.1 hma
          have := (hold c f hm).1
          rw [hw2] at this
          cases this

theorem x_start (env : Env) (P : Task → Prop) : XSys.start.Base env P ∧ XSys.start.Side env :=
  ⟨⟨ok_start env, born_start, fun i t q h => by simp [XSys.start, CSys.start] at h, fun a c h => by cases h⟩,
    ⟨fun i q pc h => by simp [XSys.start] at h, fun i c f h => by simp [XSys.start] at h, List.nodup_nil⟩⟩

theorem x_run {env : Env} {P : Task → Prop} {s : XSys} (hb : s.Base env P) (h : s.Side env) (evs : List XEv)
    (he : ∀ t, .task t ∈ evs → P t) : (s.run env evs).Base env P ∧ (s.run env evs).Side env := by
  induction evs generalizing s with
  | nil => exact ⟨hb, h⟩
  | cons e evs ih =>
    exact ih (base_step hb e fun t et => he t (et ▸ List.mem_cons_self)) (side_step hb h e)
      fun t ht => he t (List.mem_cons_of_mem _ ht)

theorem nodup_map_inj {α β : Type} {g : α → β} {l : List α} (h : (l.map g).Nodup) {a b : α} (ha : a ∈ l) (hb : b ∈ l)
    (e : g a = g b) : a = b := by
  induction l with
  | nil => cases ha
  | cons x l ih =>
    rw [List.map_cons, List.nodup_cons] at h
    rcases List.mem_cons.1 ha with rfl | ha' <;> rcases List.mem_cons.1 hb with rfl | hb'
    · rfl
    · exact absurd (List.mem_map.2 ⟨b, hb', e.symm⟩) h.1
    · exact absurd (List.mem_map.2 ⟨a, ha', e⟩) h.1
    · exact ih h.2 ha' hb'

/-- The connections are those of the history. -/
theorem conns_run (env : Env) (s : XSys) (evs : List XEv) :
    (s.run env evs).conns.map (·.addr) = s.conns.map (·.addr) ++ Spec.addresses evs := by
  induction evs generalizing s with
  | nil => simp [XSys.run, Spec.addresses]
  | cons e evs ih =>
    refine (ih (s.step env e)).trans ?_
    cases e with
    | accept a => simp [XSys.step, Spec.addresses]
    | gone c => simp only [XSys.step, Spec.addresses]; split <;> rfl
    | task t => simp only [XSys.step, Spec.addresses]; split <;> rfl
    | run i clk => rfl
    | request q => rfl
    | go i w => simp only [XSys.step, Spec.addresses]; split <;> rfl

/-- The requests are those of the history. -/
theorem reqs_run (env : Env) (s : XSys) (evs : List XEv) :
    (s.run env evs).reqs.map (·.1) = s.reqs.map (·.1) ++ Spec.requests evs := by
  induction evs generalizing s with
  | nil => simp [XSys.run, Spec.requests]
  | cons e evs ih =>
    refine (ih (s.step env e)).trans ?_
    cases e with
    | accept a => rfl
    | gone c => simp only [XSys.step, Spec.requests]; split <;> rfl
    | task t => simp only [XSys.step, Spec.requests]; split <;> rfl
    | run i clk => rfl
    | request q => simp [XSys.step, Spec.requests]
    | go i w =>
      simp only [XSys.step, Spec.requests]
      split
      · rfl
      · rename_i q pc hi
        congr 1
        simp only [List.map_set]
        obtain ⟨hlt, e⟩ := List.getElem?_eq_some_iff.1 hi
        refine List.ext_getElem? fun j => ?_
        rw [List.getElem?_set]
        split
        · rename_i hij
          subst hij
          rw [List.length_map, if_pos hlt, List.getElem?_map, hi]; rfl
        · rfl

/-! ### C149 -/

/-- C149: whatever happens besides it, a parameter request writes at most one frame. -/
theorem C149_once (env : Env) (evs : List XEv) : ((XSys.start.run env evs).sent.map (·.1)).Nodup :=
  (x_run (x_start env fun _ => True).1 (x_start env fun _ => True).2 evs fun _ _ => trivial).2.once

/-- C149: the frame is the message asked for, with the phone of the request, in the protocol version in which that phone
registered, and it goes to a connection from the address of that registration. -/
theorem C149_addressed (env : Env) (evs : List XEv) (i : Nat) (c : Conn) (f : List UInt8)
    (h : (i, c, f) ∈ (XSys.start.run env evs).sent) :
    ∃ q c₀ hd m n, (Spec.requests evs)[i]? = some q ∧ .task (.msg c₀ hd (.m0100 m)) ∈ evs ∧ hd.phone = q.phone ∧
      c.addr = c₀.addr ∧ c.addr ∈ Spec.addresses evs ∧
      Out.encode env (genMsgHeader q.phone hd.attr.verDesc hd.protoVer q.id n, q.msg) = .ok f := by
  obtain ⟨hb, hs⟩ := x_run (x_start env fun t => .task t ∈ evs).1 (x_start env fun t => .task t ∈ evs).2 evs fun _ ht => ht
  obtain ⟨q, code, hq, hc, r, o, ⟨⟨hr, hph⟩, ha⟩, ⟨n, rfl⟩, he⟩ := hs.sent i c f h
  obtain ⟨j, t, p, hj, hm⟩ := hb.born r hr
  have ht := (hb.threads j t p hj).2.1
  cases t with
  | check x => exact absurd hm id
  | msg c₀ hd m =>
    cases m with
    | m0100 m =>
      obtain ⟨m1, -, -, -, m5, m6, m7, -⟩ := hm
      refine ⟨q, c₀, hd, m, n, ?_, ht, m1.symm.trans hph, ha.trans m5, ?_, ?_⟩
      · have e := reqs_run env XSys.start evs
        simp only [XSys.start, List.map_nil, List.nil_append] at e
        rw [← e, List.getElem?_map]
        show Option.map _ ((XSys.start.run env evs).reqs[i]?) = _
        rw [hq]; rfl
      · have e := conns_run env XSys.start evs
        simp only [XSys.start, List.map_nil, List.nil_append] at e
        rw [← e]
        exact List.mem_map.2 ⟨c, hc, rfl⟩
      · rw [← m6, ← m7]; exact he
    | _ => exact absurd hm id

/-- C149: when no two connections ever came from the same address, it is the very connection on which that phone
registered. -/
theorem C149_own_connection_partial (env : Env) (evs : List XEv) (hn : (Spec.addresses evs).Nodup) (i : Nat) (c : Conn)
    (f : List UInt8) (h : (i, c, f) ∈ (XSys.start.run env evs).sent) :
    ∃ q hd m n, (Spec.requests evs)[i]? = some q ∧ .task (.msg c hd (.m0100 m)) ∈ evs ∧ hd.phone = q.phone ∧
      Out.encode env (genMsgHeader q.phone hd.attr.verDesc hd.protoVer q.id n, q.msg) = .ok f := by
  obtain ⟨hb, hs⟩ := x_run (x_start env fun t => .task t ∈ evs).1 (x_start env fun t => .task t ∈ evs).2 evs fun _ ht => ht
  obtain ⟨q, code, hq, hc, r, o, ⟨⟨hr, hph⟩, ha⟩, ⟨n, rfl⟩, he⟩ := hs.sent i c f h
  obtain ⟨j, t, p, hj, hm⟩ := hb.born r hr
  obtain ⟨-, ht, hmay⟩ := hb.threads j t p hj
  have e := conns_run env XSys.start evs
  simp only [XSys.start, List.map_nil, List.nil_append] at e
  have hn' : ((XSys.start.run env evs).conns.map (·.addr)).Nodup := by
    have : (XSys.start.run env evs).conns.map (·.addr) = Spec.addresses evs := e
    rw [this]; exact hn
  cases t with
  | check x => exact absurd hm id
  | msg c₀ hd m =>
    cases m with
    | m0100 m =>
      obtain ⟨m1, -, -, -, m5, m6, m7, -⟩ := hm
      have hc₀ : c₀ ∈ (XSys.start.run env evs).conns := of_decide_eq_true hmay
      have ec : c = c₀ := nodup_map_inj hn' hc hc₀ (ha.trans m5)
      subst ec
      refine ⟨q, hd, m, n, ?_, ht, m1.symm.trans hph, ?_⟩
      · have e := reqs_run env XSys.start evs
        simp only [XSys.start, List.map_nil, List.nil_append] at e
        rw [← e, List.getElem?_map]
        show Option.map _ ((XSys.start.run env evs).reqs[i]?) = _
        rw [hq]; rfl
      · rw [← m6, ← m7]; exact he
    | _ => exact absurd hm id

/-- A terminal registers; a request for it runs to its end while the terminal sends a heartbeat. -/
def demoCommand : List XEv :=
  [.accept demoC.addr, .task (.msg demoC (hdr2013 0x0100) (.m0100 demoRegMsg))] ++ List.replicate 6 (.run 0 (demoClk 5)) ++
    [.request (.query (hdr2013 0).phone), .go 0 none, .go 0 none, .task (.msg demoC (hdr2013 0x0002) .m0002),
      .run 1 (demoClk 7), .go 0 none, .go 0 none, .run 1 (demoClk 8), .go 0 none, .go 0 none, .run 1 (demoClk 9), .go 0 none]

/-- One frame on the connection of the terminal, which the terminal reads as the query with the first serial number. -/
example : (XSys.start.run goEnv demoCommand).sent.map (fun x => (x.1, x.2.1)) = [(0, demoC)] ∧
    (XSys.start.run goEnv demoCommand).sent.map (fun x => Res.ok x.2.2) =
      [Out.encode goEnv (genMsgHeader (hdr2013 0).phone .v2013 0 0x8104 1, .m8104)] ∧
    (Spec.addresses demoCommand).Nodup := by decide +kernel

/-- C149 without the condition on addresses is false: the connection of a terminal ends and another terminal connects
from the same address while a request is under way, and the other terminal receives the message. -/
theorem C149_reused_address : ∃ evs i f c hd m,
    (i, c, f) ∈ (XSys.start.run goEnv evs).sent ∧ .task (.msg c hd (.m0100 m)) ∈ evs ∧
      (∀ c₀ hd₀ m₀, .task (.msg c₀ hd₀ (.m0100 m₀)) ∈ evs → c₀ = c → hd₀ = hd) ∧
      ∀ q, (Spec.requests evs)[i]? = some q → q.phone ≠ hd.phone := by
  refine ⟨[.accept demoC.addr, .task (.msg demoC (hdr2013 0x0100) (.m0100 demoRegMsg))] ++
    List.replicate 6 (.run 0 (demoClk 5)) ++ [.request (.query (hdr2013 0).phone)] ++ List.replicate 5 (.go 0 none) ++
    [.gone demoC, .accept demoC.addr, .task (.msg ⟨1, demoC.addr⟩ (hdr2019 0x0100) (.m0100 demoRegMsg))] ++
    List.replicate 2 (.go 0 none), 0, _, ⟨1, demoC.addr⟩, hdr2019 0x0100, demoRegMsg,
    List.mem_of_getElem? (i := 0) (a := _) rfl, ?_, ?_, ?_⟩
  · simp
  · intro c₀ hd₀ m₀ hm e
    subst e
    simp [demoC] at hm
    exact hm.1
  · intro q hq
    cases hq
    decide +kernel

/-! ### Requests for phones nobody registered -/

theorem unregistered_step {env : Env} {P : Task → Prop} {s : XSys} (hb : s.Base env P) (e : XEv) {p : Str}
    (hp : ∀ t, P t → ¬ t.registers p)
    (h : ∀ (i : Nat) (q : Req) (pc : ReqPc), s.reqs[i]? = some (q, pc) → q.phone = p → pc = .lookup ∨ pc = .done 400) :
    ∀ (i : Nat) (q : Req) (pc : ReqPc), (s.step env e).reqs[i]? = some (q, pc) → q.phone = p → pc = .lookup ∨ pc = .done 400 := by
  intro i q pc hi hq
  cases e with
  | accept addr => exact h i q pc hi hq
  | gone c => simp only [XSys.step] at hi; split at hi <;> exact h i q pc hi hq
  | task t => simp only [XSys.step] at hi; split at hi <;> exact h i q pc hi hq
  | run j clk => exact h i q pc hi hq
  | request q' =>
    simp only [XSys.step, List.getElem?_append] at hi
    split at hi
    · exact h i q pc hi hq
    · rw [List.getElem?_singleton] at hi
      split at hi
      · cases hi; exact .inl rfl
      · cases hi
  | go j werr =>
    cases hj : s.reqs[j]? with
    | none => simp only [XSys.step, hj] at hi; exact h i q pc hi hq
    | some x =>
      obtain ⟨q', pc'⟩ := x
      simp only [XSys.step, hj, List.getElem?_set] at hi
      split at hi
      · split at hi
        · simp only [Option.some.injEq, Prod.mk.injEq] at hi
          obtain ⟨rfl, rfl⟩ := hi
          rcases h j q' pc' hj hq with rfl | rfl
          · cases hd : s.cs.st.devByPhone q'.phone with
            | none => simp only [Req.next, hd]; exact .inr trivial
            | some r =>
              obtain ⟨hr, hph⟩ := hb.ok.inv.phoneOK _ _ hd
              obtain ⟨k, t, pr, hk, hm⟩ := hb.born r hr
              refine absurd ?_ (hp t (hb.threads k t pr hk).2.1)
              cases t with
              | check x => exact hm
              | msg c hd m =>
                cases m with
                | m0100 m => exact hm.1.symm.trans (hph.trans hq)
                | _ => exact hm
          · exact .inr rfl
        · cases hi
      · exact h i q pc hi hq

/-- C149: a request for a phone of which no registration has been received is answered with 400 and sends nothing,
whatever happens besides it. -/
theorem C149_unregistered (env : Env) (evs : List XEv) (i : Nat) (q : Req) (hq : (Spec.requests evs)[i]? = some q)
    (hp : ∀ c hd m, .task (.msg c hd (.m0100 m)) ∈ evs → hd.phone ≠ q.phone) :
    (∀ code, (XSys.start.run env evs).answered i code → code = 400) ∧ ∀ c f, (i, c, f) ∉ (XSys.start.run env evs).sent := by
  have key : ∀ (l : List XEv) (s : XSys), s.Base env (fun t => .task t ∈ evs) → (∀ e ∈ l, e ∈ evs) →
      (∀ (i : Nat) (q' : Req) (pc : ReqPc), s.reqs[i]? = some (q', pc) → q'.phone = q.phone → pc = .lookup ∨ pc = .done 400) →
      ∀ (i : Nat) (q' : Req) (pc : ReqPc), (s.run env l).reqs[i]? = some (q', pc) → q'.phone = q.phone →
        pc = .lookup ∨ pc = .done 400 := by
    intro l
    induction l with
    | nil => intro s _ _ h; exact h
    | cons e l ih =>
      intro s hb hl h
      refine ih (s.step env e) (base_step hb e fun t et => hl _ (et ▸ List.mem_cons_self))
        (fun e' he' => hl e' (List.mem_cons_of_mem _ he')) (unregistered_step hb e (fun t ht hr => ?_) h)
      cases t with
      | check x => exact hr
      | msg c hd m =>
        cases m with
        | m0100 m => exact hp c hd m ht hr
        | _ => exact hr
  have hk := key evs XSys.start (x_start env _).1 (fun _ he => he) (fun i q' pc h => by simp [XSys.start] at h)
  have e := reqs_run env XSys.start evs
  have e' : ((XSys.start.run env evs).reqs.map (·.1))[i]? = some q := by rw [e]; exact hq
  rw [List.getElem?_map] at e'
  refine ⟨fun code ⟨q', hc⟩ => ?_, fun c f hm => ?_⟩
  · rw [hc] at e'
    cases e'
    rcases hk i _ _ hc rfl with h | h
    · cases h
    · cases h; rfl
  · obtain ⟨q', c₀, hd, m, n, hq', ht, hph, -⟩ := C149_addressed env evs i c f hm
    rw [hq] at hq'
    cases hq'
    exact hp c₀ hd m ht hph

/-- A request for a phone that is not registered, beside the registration of another terminal. -/
example : (XSys.start.run goEnv (demoCommand ++ [.request (.query [0x31]), .go 1 none])).reqs[1]?.map (fun x => match x.2 with
    | .done n => n | _ => 0) = some 400 := by decide +kernel

/-! ### Requests end -/

/-- How many steps a request still makes. -/
def ReqPc.left : ReqPc → Nat
  | .lookup => 7
  | .sid _ => 6
  | .sess .. => 5
  | .serial .. => 4
  | .header .. => 3
  | .send .. => 2
  | .write .. => 1
  | .done _ => 0

theorem left_next (env : Env) (werr : Option Err) (q : Req) (st : Store) (pc : ReqPc) :
    (q.next env werr st pc).2.1.left ≤ pc.left - 1 := by
  cases pc with
  | lookup => simp only [Req.next]; split <;> simp [ReqPc.left]
  | sid r => simp [Req.next, ReqPc.left]
  | sess r a => simp only [Req.next]; split <;> simp [ReqPc.left]
  | serial r c => simp [Req.next, ReqPc.left]
  | header r c n => simp [Req.next, ReqPc.left]
  | send c o => simp only [Req.next]; split <;> simp [ReqPc.left]
  | write c o =>
    simp only [Req.next]
    split
    · simp [ReqPc.left]
    · simp [ReqPc.left]
    · split <;> simp [ReqPc.left]
  | done code => simp [Req.next, ReqPc.left]

/-- How often request `i` is given a turn. -/
def Spec.turns (i : Nat) : List XEv → Nat
  | [] => 0
  | .go j _ :: evs => (if j = i then 1 else 0) + Spec.turns i evs
  | _ :: evs => Spec.turns i evs

theorem left_run (env : Env) (s : XSys) (evs : List XEv) (i : Nat) (q : Req) (pc : ReqPc) (h : s.reqs[i]? = some (q, pc)) :
    ∃ pc', (s.run env evs).reqs[i]? = some (q, pc') ∧ pc'.left ≤ pc.left - Spec.turns i evs := by
  induction evs generalizing s pc with
  | nil => exact ⟨pc, h, Nat.le_refl _⟩
  | cons e evs ih =>
    have hlt : i < s.reqs.length := (List.getElem?_eq_some_iff.1 h).1
    cases e with
    | accept a => exact ih (s.step env (.accept a)) pc h
    | gone c => exact ih (s.step env (.gone c)) pc (by simp only [XSys.step]; split <;> exact h)
    | task t => exact ih (s.step env (.task t)) pc (by simp only [XSys.step]; split <;> exact h)
    | run j clk => exact ih (s.step env (.run j clk)) pc h
    | request q' =>
      exact ih (s.step env (.request q')) pc (by simp only [XSys.step]; rw [List.getElem?_append_left hlt, h])
    | go j werr =>
      by_cases hij : j = i
      · subst hij
        obtain ⟨pc', hp, hl⟩ := ih (s.step env (.go j werr)) (q.next env werr s.cs.st pc).2.1
          (by simp only [XSys.step, h]; rw [List.getElem?_set_self hlt])
        refine ⟨pc', hp, ?_⟩
        have := left_next env werr q s.cs.st pc
        simp only [Spec.turns, if_true]
        omega
      · obtain ⟨pc', hp, hl⟩ := ih (s.step env (.go j werr)) pc
          (by simp only [XSys.step]; split
              · exact h
              · rw [List.getElem?_set_ne hij, h])
        refine ⟨pc', hp, ?_⟩
        simp only [Spec.turns, if_neg hij, Nat.zero_add]
        exact hl

/-- C149: a request waits for nobody: once it has been given seven turns it is answered. -/
theorem C149_answered (env : Env) (before evs : List XEv) (q : Req) (h : 7 ≤ Spec.turns (Spec.requests before).length evs) :
    ∃ code, (XSys.start.run env (before ++ .request q :: evs)).answered (Spec.requests before).length code := by
  have e := reqs_run env XSys.start before
  have el : (XSys.start.run env before).reqs.length = (Spec.requests before).length := by
    have := congrArg List.length e
    simpa [XSys.start] using this
  have hrun : XSys.start.run env (before ++ .request q :: evs) =
      ((XSys.start.run env before).step env (.request q)).run env evs := by
    simp [XSys.run, List.foldl_append]
  rw [hrun]
  obtain ⟨pc, hp, hl⟩ := left_run env ((XSys.start.run env before).step env (.request q)) evs
    (Spec.requests before).length q .lookup (by simp only [XSys.step]; rw [← el]; simp)
  have : pc.left = 0 := by rw [show ReqPc.lookup.left = 7 from rfl] at hl; omega
  cases pc with
  | done code => exact ⟨code, q, hp⟩
  | _ => cases this

example : 7 ≤ Spec.turns 0 demoCommand ∧ (XSys.start.run goEnv demoCommand).reqs.map (fun x => match x.2 with
    | .done n => n | _ => 0) = [200] := by decide +kernel

/-! ### Alone -/

/-- `n` steps of a request with nothing in between. -/
def Req.loop (env : Env) (werr : Option Err) (q : Req) : Nat → Store → ReqPc → Store × ReqPc × Option (Conn × List UInt8)
  | 0, st, pc => (st, pc, none)
  | n + 1, st, pc =>
    let r := q.next env werr st pc
    let r' := Req.loop env werr q n r.1 r.2.1
    (r'.1, r'.2.1, r.2.2 <|> r'.2.2)

theorem loop_tail (env : Env) (werr : Option Err) (q : Req) (st : Store) (r : Ref) (hp : st.devByPhone q.phone = some r) :
    q.loop env werr 7 st .lookup =
      ((st.apiSend env werr r q.code q.id q.msg).1, .done ((st.apiSend env werr r q.code q.id q.msg).2.http.getD 0),
        (st.apiSend env werr r q.code q.id q.msg).2.sent) := by
  cases hs : st.session (st.heap r).sessionID with
  | none => simp [Req.loop, Req.next, hp, hs, Store.apiSend]
  | some c =>
    have e : (st.takeSerial c).1.session c.addr = st.session c.addr := rfl
    have e2 : (st.takeSerial c).1.heap = st.heap := rfl
    cases hc : st.session c.addr with
    | none => simp [Req.loop, Req.next, hp, hs, Store.apiSend, Store.serverSend, e, e2, hc]
    | some c' =>
      cases ho : Out.encode env (genMsgHeader (st.heap r).phone (st.heap r).ver (st.heap r).protoVer q.id
          (st.takeSerial c).2, q.msg) with
      | panic => simp [Req.loop, Req.next, hp, hs, Store.apiSend, Store.serverSend, e, e2, hc, ho]
      | err x => simp [Req.loop, Req.next, hp, hs, Store.apiSend, Store.serverSend, e, e2, hc, ho]
      | ok f =>
        cases werr with
        | none => simp [Req.loop, Req.next, hp, hs, Store.apiSend, Store.serverSend, e, e2, hc, ho]
        | some x => cases x <;> simp [Req.loop, Req.next, hp, hs, Store.apiSend, Store.serverSend, e, e2, hc, ho]

/-- C149: a request with nothing in between does what the requests of the earlier properties do (C54-C57, C78, C107). -/
theorem C149_alone (env : Env) (werr : Option Err) (st : Store) (p : Str) (bound : DeviceParams) (bad : Bool) :
    (Req.query p).loop env werr 7 st .lookup = ((st.apiQuery env werr p).1,
        .done ((st.apiQuery env werr p).2.http.getD 0), (st.apiQuery env werr p).2.sent) ∧
      (Req.set p bound bad).loop env werr 7 st .lookup = ((st.apiSet env werr p bound bad).1,
        .done ((st.apiSet env werr p bound bad).2.http.getD 0), (st.apiSet env werr p bound bad).2.sent) := by
  cases hp : st.devByPhone p with
  | none =>
    refine ⟨?_, ?_⟩
    · simp only [Store.apiQuery, hp]; simp [Req.loop, Req.next, Req.phone, hp]
    · simp only [Store.apiSet, hp]; simp [Req.loop, Req.next, Req.phone, hp]
  | some r =>
    refine ⟨?_, ?_⟩
    · simp only [Store.apiQuery, hp]; exact loop_tail env werr (.query p) st r hp
    · simp only [Store.apiSet, hp]; exact loop_tail env werr (.set p bound bad) st r hp

example : ((Req.query (hdr2013 0).phone).loop goEnv none 7 demoSys.st .lookup).2.2.map (·.1) = some demoC := by
  decide +kernel

/-! ### Nobody else notices -/

/-- Two processes that differ at most in requests, sessions, serial numbers and closed connections. -/
def XSys.Rel (s s' : XSys) : Prop := s.cs.threads = s'.cs.threads ∧ s.cs.st.Alike s'.cs.st ∧ s.conns = s'.conns

theorem rel_cs {env : Env} {P : Task → Prop} {s s' : XSys} (hb : s.Base env P) (h : s.Rel s') (e : CEv) :
    XSys.Rel { s with cs := s.cs.step env e } { s' with cs := s'.cs.step env e } := by
  obtain ⟨ht, ha, hc⟩ := h
  cases e with
  | spawn t =>
    have ej : t.allowed s'.cs.st = t.allowed s.cs.st := by
      obtain ⟨ss, sn, cl, e⟩ := ha
      rw [e]; cases t <;> rfl
    simp only [CSys.step, ej]
    split
    · exact ⟨by simp [ht], ha, hc⟩
    · exact ⟨ht, ha, hc⟩
  | run i clk =>
    simp only [CSys.step, ← ht]
    cases hi : s.cs.threads[i]? with
    | none => exact ⟨ht, ha, hc⟩
    | some x =>
      obtain ⟨t, q⟩ := x
      cases q with
      | ret r => exact ⟨by simp [Prog.next], ha, hc⟩
      | step f k =>
        obtain ⟨-, h2, -⟩ := (hb.threads i t _ hi).1 clk s.cs.st
        obtain ⟨e1, e2⟩ := h2 _ ha
        exact ⟨by simp only [Prog.next, e1], e2, hc⟩

theorem rel_step {env : Env} {P : Task → Prop} {s s' : XSys} (hb : s.Base env P) (h : s.Rel s') (e : XEv)
    (hn : Spec.ofRequest e = false) : (s.step env e).Rel (s'.step env e) := by
  cases e with
  | accept a =>
    refine ⟨h.1, (alike_session _ _).symm.trans (h.2.1.trans (alike_session _ _)), ?_⟩
    simp only [XSys.step, h.2.2]
  | gone c =>
    simp only [XSys.step, h.2.2]
    split
    · exact ⟨h.1, (alike_remove _ _).symm.trans (h.2.1.trans (alike_remove _ _)), rfl⟩
    · exact h
  | task t =>
    have em : s'.may t = s.may t := by cases t <;> simp [XSys.may, h.2.2]
    simp only [XSys.step, em]
    split
    · exact rel_cs hb h _
    · exact h
  | run i clk => exact rel_cs hb h _
  | request q => cases hn
  | go i w => cases hn

theorem rel_request {env : Env} {s s' : XSys} (h : s.Rel s') (e : XEv) (hn : Spec.ofRequest e = true) : (s.step env e).Rel s' := by
  cases e with
  | request q => exact h
  | go i w =>
    simp only [XSys.step]
    split
    · exact h
    · exact ⟨h.1, (next_alike _ _ _ _ _).symm.trans h.2.1, h.2.2⟩
  | _ => cases hn

theorem rel_run {env : Env} (evs : List XEv) (s s' : XSys) (hb : s.Base env fun _ => True) (h : s.Rel s') :
    (s.run env evs).Rel (s'.run env (evs.filter fun e => !Spec.ofRequest e)) := by
  induction evs generalizing s s' with
  | nil => exact h
  | cons e evs ih =>
    cases he : Spec.ofRequest e with
    | true =>
      rw [List.filter_cons_of_neg (by simp [he])]
      exact ih (s.step env e) s' (base_step hb e fun _ _ => trivial) (rel_request h e he)
    | false =>
      rw [List.filter_cons_of_pos (by simp [he])]
      exact ih (s.step env e) (s'.step env e) (base_step hb e fun _ _ => trivial) (rel_step hb h e he)

/-- C149: handlers and keepalive checks do not notice parameter requests.  With the requests and all their steps taken out
of the history, every goroutine is where it was and has returned what it returned, and the registered terminals, their
positions, their parameters and the keepalive jobs are the same. -/
theorem C149_unnoticed (env : Env) (evs : List XEv) :
    let a := XSys.start.run env evs
    let b := XSys.start.run env (evs.filter fun e => !Spec.ofRequest e)
    a.cs.threads = b.cs.threads ∧ a.cs.crashed = b.cs.crashed ∧ (∀ p, a.cs.st.look p = b.cs.st.look p) ∧
      (∀ q, a.cs.st.lookPlate q = b.cs.st.lookPlate q) ∧ (∀ p, a.cs.st.geos.get p = b.cs.st.geos.get p) ∧
      (∀ p, a.cs.st.paramsOf p = b.cs.st.paramsOf p) ∧ a.cs.st.jobs = b.cs.st.jobs := by
  intro a b
  obtain ⟨ht, ⟨ss, sn, cl, e⟩, -⟩ := rel_run evs XSys.start XSys.start (x_start env _).1 ⟨rfl, .refl _, rfl⟩
  have e' : b.cs.st = a.cs.st.over ss sn cl := e
  refine ⟨ht, ?_, ?_, ?_, ?_, ?_, ?_⟩
  · show CSys.crashed a.cs = CSys.crashed b.cs
    unfold CSys.crashed
    rw [show a.cs.threads = b.cs.threads from ht]
  all_goals rw [e']
  all_goals first | (intro _; rfl) | rfl

/-- In the run above the terminal is registered, with and without the request. -/
example : ((XSys.start.run goEnv demoCommand).cs.st.look (hdr2013 0).phone).map (fun d => (d.plate, d.last)) =
      some (demoRegMsg.plate, 8) ∧
    ((XSys.start.run goEnv (demoCommand.filter fun e => !Spec.ofRequest e)).cs.st.look (hdr2013 0).phone).map
      (fun d => (d.plate, d.last)) = some (demoRegMsg.plate, 8) ∧
    (demoCommand.filter fun e => !Spec.ofRequest e).length < demoCommand.length := by decide +kernel

end JT808
