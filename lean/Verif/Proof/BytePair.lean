import Verif.Model.BytePair
import Verif.Proof.Bytes
import Verif.Props.Bytes
import Verif.Props.Conversation
/-
The conversation in bytes refines the conversation in frames: lemmas for C87.
-/
namespace JT808
open Spec

/-- The bytes `bs`, after those that brought Recv to the state `r`, are what is left of the frames `fs`. -/
inductive Under : RecvSt → List UInt8 → List (List UInt8) → Prop where
  | idle (fs : List (List UInt8)) (h : ∀ f ∈ fs, Delimited f) : Under RecvSt.fresh fs.flatten fs
  | mid (read todo : List UInt8) (fs : List (List UInt8)) (h1 : (0x7e : UInt8) ∉ read) (h2 : (0x7e : UInt8) ∉ todo)
      (h : ∀ f ∈ fs, Delimited f) :
      Under ⟨true, 0x7e :: read⟩ (todo ++ 0x7e :: fs.flatten) ((0x7e :: (read ++ todo ++ [0x7e])) :: fs)

theorem Under.next {r : RecvSt} {b : UInt8} {bs : List UInt8} {fs : List (List UInt8)} (h : Under r (b :: bs) fs) :
    (∃ f rest, fs = f :: rest ∧ recvStep r b = .inl f ∧ Under RecvSt.fresh bs rest) ∨
    (∃ r', recvStep r b = .inr r' ∧ Under r' bs fs) := by
  generalize hl : b :: bs = l at h
  cases h with
  | idle fs h =>
    cases fs with
    | nil => cases hl
    | cons f fs =>
      obtain ⟨m, hm, rfl⟩ := h f (by simp)
      simp only [List.flatten_cons, List.cons_append, List.append_assoc] at hl
      injection hl with h1 h2
      subst h1; subst h2
      right
      exact ⟨⟨true, [0x7e]⟩, rfl, Under.mid [] m fs (by simp) hm (fun f hf => h f (by simp [hf]))⟩
  | mid read todo fs h1 h2 h =>
    cases todo with
    | nil =>
      simp only [List.nil_append] at hl
      injection hl with e1 e2
      subst e1; subst e2
      left
      refine ⟨_, fs, rfl, ?_, Under.idle fs h⟩
      simp [recvStep]
    | cons c todo =>
      simp only [List.cons_append] at hl
      injection hl with e1 e2
      subst e1; subst e2
      have hb : b ≠ 0x7e := fun e => h2 (by simp [e])
      right
      refine ⟨⟨true, 0x7e :: (read ++ [b])⟩, by simp [recvStep, hb], ?_⟩
      have := Under.mid (read ++ [b]) todo fs (by
        simp only [List.mem_append, List.mem_singleton, not_or]; exact ⟨h1, fun e => hb e.symm⟩)
        (fun e => h2 (by simp [e])) h
      simpa using this

theorem Under.append {r : RecvSt} {bs : List UInt8} {fs gs : List (List UInt8)} (h : Under r bs fs)
    (hg : ∀ f ∈ gs, Delimited f) : Under r (bs ++ gs.flatten) (fs ++ gs) := by
  cases h with
  | idle fs h =>
    rw [← List.flatten_append]
    exact Under.idle _ (by
      intro f hf
      rcases List.mem_append.1 hf with hf | hf
      · exact h f hf
      · exact hg f hf)
  | mid read todo fs h1 h2 h =>
    have := Under.mid read todo (fs ++ gs) h1 h2 (by
      intro f hf
      rcases List.mem_append.1 hf with hf | hf
      · exact h f hf
      · exact hg f hf)
    simpa using this

/-- Nothing is under way in bytes exactly when nothing is in frames. -/
theorem Under.empty {r : RecvSt} {bs : List UInt8} {fs : List (List UInt8)} (h : Under r bs fs) :
    bs = [] ↔ fs = [] := by
  cases h with
  | idle fs h =>
    constructor
    · intro he
      cases fs with
      | nil => rfl
      | cons f fs =>
        obtain ⟨m, -, rfl⟩ := h f (by simp)
        cases he
    · rintro rfl; rfl
  | mid read todo fs h1 h2 h => simp

/-- When nothing is under way, no Recv call is inside a frame. -/
theorem Under.fresh {r : RecvSt} {fs : List (List UInt8)} (h : Under r [] fs) : r = RecvSt.fresh := by
  generalize hl : ([] : List UInt8) = l at h
  cases h with
  | idle fs h => rfl
  | mid read todo fs h1 h2 h => simp at hl

/-- The two conversations are at the same point. -/
structure Corr (b : BPair) (p : Pair) : Prop where
  server : b.server = p.server
  sc : b.sc = p.sc
  client : b.client = p.client
  cc : b.cc = p.cc
  phone : b.phone = p.phone
  began : b.began = p.began
  stopped : b.stopped = p.stopped
  sent : b.sent = p.sent
  got : b.got = p.got
  up : Under b.sRecv b.up p.up
  down : Under b.cRecv b.down p.down

theorem reply_delimited {env : Env} {clk : Clock} {c : Conn} {st st' : Store} {f r : List UInt8}
    (h : st.handleFrame env clk c f = (st', .reply r)) : Delimited r := by
  unfold Store.handleFrame at h
  split at h
  · cases h
  · cases h
  · split at h
    · cases h
    · cases h
    · cases h
    · split at h
      · rename_i he
        injection h with _ h; injection h with h; subst h
        exact encode_delimited he
      · cases h
      · cases h

theorem Corr.sentDown {b : BPair} {p : Pair} (h : Corr b p) {env : Env} {s : Sys} {e : Ev} :
    Under b.cRecv (b.down ++ b.sentDown (s.step env e).2) (p.down ++ p.sentDown (s.step env e).2) := by
  unfold BPair.sentDown Pair.sentDown
  cases ho : (s.step env e).2.sent with
  | none => simpa using h.down
  | some x =>
    obtain ⟨c, f⟩ := x
    simp only [h.sc]
    split
    · simpa using h.down.append (gs := [f]) (by intro g hg; rw [List.mem_singleton.1 hg]; exact step_delimited ho)
    · simpa using h.down

theorem Corr.put {b : BPair} {p : Pair} (h : Corr b p) (env : Env) (o : Out) : Corr (b.put env o) (p.put env o) := by
  unfold BPair.put Pair.put
  cases he : Out.encode env o with
  | ok f =>
    simp only
    exact { h with
      sent := congrArg (· + 1) h.sent
      up := by simpa using h.up.append (gs := [f]) (by intro g hg; rw [List.mem_singleton.1 hg]; exact encode_delimited he) }
  | err e => exact h
  | panic => exact h

/-- The step of the conversation in frames that a step of the one in bytes can be. -/
def BPairEv.yields : BPairEv → Option PairEv → Prop
  | .serverByte clk, x => x = none ∨ x = some (.serverReads clk)
  | .clientByte clk, x => x = none ∨ x = some (.clientReads clk)
  | .notice, x => x = some .notice
  | .beat, x => x = some .beat
  | .locate y, x => x = some (.locate y)
  | .other e, x => x = some (.other e)

theorem Corr.step {b : BPair} {p : Pair} (h : Corr b p) (env : Env) (e : BPairEv) :
    ∃ x, e.yields x ∧ Corr (b.step env e) (p.run env x.toList) := by
  cases e with
  | serverByte clk =>
    simp only [BPair.step]
    cases hu : b.up with
    | nil => exact ⟨none, .inl rfl, h⟩
    | cons c rest =>
      have hun := h.up
      rw [hu] at hun
      rcases hun.next with ⟨f, fs, e1, e2, e3⟩ | ⟨r, e2, e3⟩
      · refine ⟨some (.serverReads clk), .inr rfl, ?_⟩
        simp only [e2, Pair.run, Option.toList, List.foldl_cons, List.foldl_nil, Pair.step, e1, h.server, h.sc]
        exact { h with server := rfl, sc := rfl, up := e3, down := h.sentDown }
      · refine ⟨none, .inl rfl, ?_⟩
        simp only [e2]
        exact { h with up := e3 }
  | clientByte clk =>
    simp only [BPair.step]
    cases hst : b.stopped with
    | true => exact ⟨none, .inl rfl, h⟩
    | false =>
      have hst' : p.stopped = false := h.stopped ▸ hst
      simp only [Bool.false_eq_true, if_false]
      cases hu : b.down with
      | nil => exact ⟨none, .inl rfl, h⟩
      | cons c rest =>
        have hun := h.down
        rw [hu] at hun
        rcases hun.next with ⟨f, fs, e1, e2, e3⟩ | ⟨r, e2, e3⟩
        · refine ⟨some (.clientReads clk), .inr rfl, ?_⟩
          simp only [e2, Pair.run, Option.toList, List.foldl_cons, List.foldl_nil, Pair.step, e1, h.client, h.cc, hst',
            Bool.false_eq_true, if_false]
          have hg : b.got + 1 = p.got + 1 := congrArg (· + 1) h.got
          cases hh : p.client.handleFrame env clk p.cc f with
          | mk st out =>
            cases out with
            | silent => exact { h with client := rfl, cc := rfl, got := hg, down := e3, stopped := rfl }
            | reply r =>
              exact { h with
                client := rfl, cc := rfl, got := hg, down := e3, stopped := rfl, sent := congrArg (· + 1) h.sent
                up := by
                  simpa using h.up.append (gs := [r]) (by
                    intro g hg; rw [List.mem_singleton.1 hg]; exact reply_delimited hh) }
            | failed e => exact { h with client := rfl, cc := rfl, got := hg, down := e3, stopped := rfl }
            | panicked => exact { h with client := rfl, cc := rfl, got := hg, down := e3, stopped := rfl }
        · refine ⟨none, .inl rfl, ?_⟩
          simp only [e2]
          exact { h with down := e3, stopped := hst'.symm }
  | notice =>
    refine ⟨some .notice, rfl, ?_⟩
    simp only [BPair.step, Pair.run, Option.toList, List.foldl_cons, List.foldl_nil, Pair.step, h.client, h.phone]
    cases hr : p.client.devByPhone p.phone with
    | none => exact h
    | some r =>
      dsimp only
      split
      · exact { h with client := rfl, phone := rfl, began := rfl }
      · exact h
  | beat =>
    refine ⟨some .beat, rfl, ?_⟩
    simp only [BPair.step, Pair.run, Option.toList, List.foldl_cons, List.foldl_nil, Pair.step, h.client, h.phone, h.began]
    split
    · cases hr : p.client.devByPhone p.phone with
      | none => exact h
      | some r => exact h.put env _
    · exact h
  | locate x =>
    refine ⟨some (.locate x), rfl, ?_⟩
    simp only [BPair.step, Pair.run, Option.toList, List.foldl_cons, List.foldl_nil, Pair.step, h.client, h.phone, h.began]
    split
    · cases hr : p.client.devByPhone p.phone with
      | none => exact h
      | some r => exact h.put env _
    · exact h
  | other e =>
    refine ⟨some (.other e), rfl, ?_⟩
    simp only [BPair.step, Pair.run, Option.toList, List.foldl_cons, List.foldl_nil, Pair.step, h.server]
    exact { h with server := rfl, down := h.sentDown }

theorem Corr.serverReads {env : Env} (clk : Clock) : ∀ (n : Nat) {b : BPair} {p : Pair}, b.up.length = n → Corr b p →
    ∃ k, Corr (b.run env (List.replicate k (.serverByte clk))) (p.step env (.serverReads clk)) := by
  intro n
  induction n with
  | zero =>
    intro b p hn h
    have : p.up = [] := h.up.empty.1 (List.length_eq_zero_iff.1 hn)
    refine ⟨0, ?_⟩
    simp only [Pair.step, this]
    exact h
  | succ n ih =>
    intro b p hn h
    cases hu : b.up with
    | nil => rw [hu] at hn; cases hn
    | cons c rest =>
      have hun := h.up
      rw [hu] at hun
      rcases hun.next with ⟨f, fs, e1, e2, e3⟩ | ⟨r, e2, e3⟩
      · refine ⟨1, ?_⟩
        show Corr (b.step env (.serverByte clk)) _
        simp only [BPair.step, hu, e2, Pair.step, e1, h.server, h.sc]
        exact { h with server := rfl, sc := rfl, up := e3, down := h.sentDown }
      · have hs : b.step env (.serverByte clk) = { b with up := rest, sRecv := r } := by
          simp only [BPair.step, hu, e2]
        obtain ⟨k, hk⟩ := ih (b := { b with up := rest, sRecv := r }) (p := p) (by
          rw [hu] at hn; exact Nat.succ.inj hn) { h with up := e3 }
        refine ⟨k + 1, ?_⟩
        rw [List.replicate_succ]
        show Corr ((b.step env (.serverByte clk)).run env _) _
        rw [hs]; exact hk

theorem Corr.clientReads {env : Env} (clk : Clock) : ∀ (n : Nat) {b : BPair} {p : Pair}, b.down.length = n → Corr b p →
    ∃ k, Corr (b.run env (List.replicate k (.clientByte clk))) (p.step env (.clientReads clk)) := by
  intro n
  induction n with
  | zero =>
    intro b p hn h
    have : p.down = [] := h.down.empty.1 (List.length_eq_zero_iff.1 hn)
    refine ⟨0, ?_⟩
    have hst : p.step env (.clientReads clk) = p := by
      simp only [Pair.step, this]; split <;> rfl
    rw [hst]
    exact h
  | succ n ih =>
    intro b p hn h
    cases hst : b.stopped with
    | true =>
      refine ⟨0, ?_⟩
      have : p.step env (.clientReads clk) = p := by
        simp only [Pair.step, ← h.stopped, hst, if_true]
      rw [this]; exact h
    | false =>
      cases hu : b.down with
      | nil => rw [hu] at hn; cases hn
      | cons c rest =>
        have hun := h.down
        rw [hu] at hun
        rcases hun.next with ⟨f, fs, e1, e2, e3⟩ | ⟨r, e2, e3⟩
        · refine ⟨1, ?_⟩
          obtain ⟨x, hx, hc⟩ := h.step env (.clientByte clk)
          rcases hx with rfl | rfl
          · -- a frame was completed, so the frame-level step happened
            have hg : (b.step env (.clientByte clk)).got = b.got + 1 := by
              simp only [BPair.step, hst, Bool.false_eq_true, if_false, hu, e2]
              split <;> rfl
            have := hc.got
            rw [hg] at this
            have h2 : b.got + 1 = p.got := this
            rw [h.got] at h2
            omega
          · exact hc
        · have hs : b.step env (.clientByte clk) = { b with down := rest, cRecv := r } := by
            simp only [BPair.step, hst, Bool.false_eq_true, if_false, hu, e2]
          obtain ⟨k, hk⟩ := ih (b := { b with down := rest, cRecv := r }) (p := p) (by
            rw [hu] at hn; exact Nat.succ.inj hn) { h with down := e3 }
          refine ⟨k + 1, ?_⟩
          rw [List.replicate_succ]
          show Corr ((b.step env (.clientByte clk)).run env _) _
          rw [hs]; exact hk

/-- Reads in frames can be done in bytes. -/
theorem Corr.reads {env : Env} (clk : Clock) : ∀ (rs : List PairEv) {b : BPair} {p : Pair}, Corr b p →
    (∀ e ∈ rs, e = .serverReads clk ∨ e = .clientReads clk) →
    ∃ bs, (∀ e ∈ bs, e = .serverByte clk ∨ e = .clientByte clk) ∧ Corr (b.run env bs) (p.run env rs) := by
  intro rs
  induction rs with
  | nil => intro b p h _; exact ⟨[], (by simp), h⟩
  | cons e rs ih =>
    intro b p h he
    have key : ∃ bs, (∀ e ∈ bs, e = .serverByte clk ∨ e = .clientByte clk) ∧ Corr (b.run env bs) (p.step env e) := by
      rcases he e List.mem_cons_self with rfl | rfl
      · obtain ⟨k, hk⟩ := Corr.serverReads (env := env) clk _ rfl h
        exact ⟨_, (fun e he => .inl (List.mem_replicate.1 he).2), hk⟩
      · obtain ⟨k, hk⟩ := Corr.clientReads (env := env) clk _ rfl h
        exact ⟨_, (fun e he => .inr (List.mem_replicate.1 he).2), hk⟩
    obtain ⟨b1, h1, h2⟩ := key
    obtain ⟨b2, h3, h4⟩ := ih h2 (fun e' h' => he e' (List.mem_cons_of_mem _ h'))
    refine ⟨b1 ++ b2, ?_, ?_⟩
    · intro e' h'
      rcases List.mem_append.1 h' with h' | h'
      · exact h1 e' h'
      · exact h3 e' h'
    · have : b.run env (b1 ++ b2) = (b.run env b1).run env b2 := List.foldl_append ..
      rw [this]; exact h4

theorem start_corr (env : Env) (s : Sys) (addr : Str) (client : Store) (cc : Conn) (d : Device) (province city : UInt16)
    (color : UInt8) : Corr (BPair.start env s addr client cc d province city color)
      (Pair.start env s addr client cc d province city color) := by
  unfold BPair.start Pair.start
  exact Corr.put ⟨rfl, rfl, rfl, rfl, rfl, rfl, rfl, rfl, rfl, Under.idle [] (by simp), Under.idle [] (by simp)⟩ env _

end JT808
