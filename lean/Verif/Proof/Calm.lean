import Verif.Props.Welcome
/-
The keepalive checks of terminals that have just come: what they find within a minute.
-/
namespace JT808
open Spec

/-- All records of the terminal are of its registration and were made or heard of since `T`; its job is there only with
its record. -/
structure Calm (x : Visitor) (T : Nat) (st : Store) : Prop where
  dev : ∀ r, r < st.next → (st.heap r).phone = x.phone →
    T ≤ (st.heap r).last ∧ (st.heap r).keepalive = 60000 ∧ (st.heap r).code = x.code
  known : x.phone ∈ st.jobs → (st.devByPhone x.phone).isSome = true

/-- A later store, in which the terminal is known if it was. -/
structure Later (x : Visitor) (st st' : Store) : Prop extends Grows st st' where
  stays : (st.devByPhone x.phone).isSome = true → (st'.devByPhone x.phone).isSome = true

theorem Later.refl (x : Visitor) (st : Store) : Later x st st := ⟨Grows.refl _, id⟩

theorem Later.trans {x : Visitor} {a b c : Store} (h : Later x a b) (h' : Later x b c) : Later x a c :=
  ⟨h.toGrows.trans h'.toGrows, fun e => h'.stays (h.stays e)⟩

/-- A goroutine that keeps the terminal known. -/
def Prog.Keep (T : Nat) (x : Visitor) : Store → Prog → Prop
  | _, .ret _ => True
  | st, .step f k => ∀ clk st', T ≤ clk.ms → Later x st st' → CInv st' → Calm x T st' →
      Later x st' (f clk st') ∧ Calm x T (f clk st') ∧ Prog.Keep T x (f clk st') (k clk st')

/-- A goroutine that, within a minute, changes nothing. -/
def Prog.Idle (T : Nat) (x : Visitor) : Store → Prog → Prop
  | _, .ret r => r = .ok none
  | st, .step f k => ∀ clk st', T ≤ clk.ms → clk.ms ≤ T + 60000 → Later x st st' → CInv st' → Calm x T st' →
      f clk st' = st' ∧ Prog.Idle T x st' (k clk st')

variable {T : Nat} {x : Visitor} {st : Store}

theorem Prog.Keep.mono {st' : Store} (hl : Later x st st') : ∀ {q : Prog}, q.Keep T x st → q.Keep T x st'
  | .ret _, _ => trivial
  | .step _ _, h => fun clk st2 h1 h2 => h clk st2 h1 (hl.trans h2)

theorem Prog.Idle.mono {st' : Store} (hl : Later x st st') : ∀ {q : Prog}, q.Idle T x st → q.Idle T x st'
  | .ret _, h => h
  | .step _ _, h => fun clk st2 h1 h1' h2 => h clk st2 h1 h1' (hl.trans h2)

/-! ### The messages of the terminal -/

theorem keep_read {α : Type} (g : Clock → Store → α) (k : α → Prog)
    (h : ∀ clk st', Later x st st' → CInv st' → Calm x T st' → (k (g clk st')).Keep T x st') : (Prog.read g k).Keep T x st :=
  fun clk st' _ hl hi hc => ⟨Later.refl _ _, hc, h clk st' hl hi hc⟩

theorem keep_get (p : Str) (k : Option Ref → Prog) (h0 : ∀ st', Later x st st' → (k none).Keep T x st')
    (h1 : ∀ r st', Later x st st' → CInv st' → Held p st' r → (st'.devByPhone p).isSome = true → (k (some r)).Keep T x st') :
    (Prog.get p k).Keep T x st := by
  intro clk st' _ hl hi hc
  refine ⟨Later.refl _ _, hc, ?_⟩
  cases hd : st'.devByPhone p with
  | none => simp only [hd]; exact h0 st' hl
  | some r => simp only [hd]; exact h1 r st' hl hi (hi.phoneOK _ _ hd) (by rw [hd]; rfl)

theorem keep_put {r : Ref} (g : Clock → Device → Device) (next : Prog)
    (hs : ∀ clk d, SameIdent d (g clk d)) (hk : ∀ clk d, T ≤ clk.ms → T ≤ d.last → T ≤ (g clk d).last)
    (h : ∀ st', Later x st st' → next.Keep T x st') : (Prog.put r g next).Keep T x st := by
  intro clk st' ht hl hi hc
  have hid : ∀ y, SameIdent (st'.heap y) ((st'.setDev r (g clk (st'.heap r))).heap y) := SameIdent.setDev (hs clk (st'.heap r))
  have h2 : Later x st' (st'.setDev r (g clk (st'.heap r))) := ⟨⟨Nat.le_refl _, fun y _ => hid y⟩, id⟩
  refine ⟨h2, ⟨fun y hy hp => ?_, hc.known⟩, h _ (hl.trans h2)⟩
  obtain ⟨a, b, c⟩ := hc.dev y hy ((hid y).phone.symm.trans hp)
  refine ⟨?_, (hid y).keepalive.trans b, (hid y).code.trans c⟩
  by_cases hyr : y = r
  · subst hyr; simp only [Store.setDev, if_true]; exact hk clk _ ht a
  · rw [Store.setDev_heap_ne _ _ hyr]; exact a

theorem keep_cache {r : Ref} (next : Prog) (h : ∀ st', Later x st st' → next.Keep T x st') :
    (Prog.upd (·.cacheDevice r) next).Keep T x st := by
  intro clk st' ht hl hi hc
  have key : (st'.devByPhone x.phone).isSome = true → ((st'.cacheDevice r).devByPhone x.phone).isSome = true := by
    intro hs
    simp only [Store.devByPhone, Store.cacheDevice, AMap.get_set]
    split
    · rfl
    · exact hs
  have h2 : Later x st' (st'.cacheDevice r) := ⟨⟨Nat.le_refl _, fun y _ => SameIdent.refl _⟩, key⟩
  exact ⟨h2, ⟨hc.dev, fun hj => key (hc.known hj)⟩, h _ (hl.trans h2)⟩

theorem keep_geo (h : Header) (r : Ref) (dg : DeviceGeo) : (progGeo h r dg).Keep T x st := by
  intro clk st' _ _ hi hc
  obtain ⟨rb, rb', -, -, -, e⟩ := Store.writeGeo_ok hi.rings (st'.heap r).phone dg
  refine ⟨?_, ?_, ?_⟩
  · simp only [e]; exact ⟨⟨Nat.le_refl _, fun y _ => SameIdent.refl _⟩, id⟩
  · simp only [e]; exact ⟨hc.dev, hc.known⟩
  · simp only [e]; trivial

theorem script_keep (env : Env) (hx : x.Proper) {t : Task} (ht : t ∈ x.script) (st : Store) : (t.prog env).Keep T x st := by
  have id8 : ∀ (d d' : Device), d'.id = d.id → d'.plate = d.plate → d'.phone = d.phone → d'.sessionID = d.sessionID →
      d'.conn = d.conn → d'.keepalive = d.keepalive → d'.ver = d.ver → d'.protoVer = d.protoVer → SameIdent d d' :=
    fun _ _ a b c d e f g h => ⟨a, b, c, d, e, f, g, h⟩
  obtain ⟨p1, p2, -, p4⟩ := hx
  simp only [Visitor.script, List.mem_cons, List.mem_map] at ht
  rcases ht with rfl | rfl | ⟨⟨hd, o⟩, -, rfl⟩
  · show (prog0100 x.conn x.regHdr x.reg).Keep T x st
    refine keep_read _ _ fun clk st1 _ _ _ => ?_
    split
    · trivial
    refine keep_read _ _ fun clk st2 _ _ _ => ?_
    split
    · trivial
    intro clk st3 ht3 _ hi3 hc3
    have hne : ∀ {r}, r < st3.next → (st3.alloc (Device.new clk x.conn x.regHdr x.reg)).1.heap r = st3.heap r := by
      intro r hr; simp only [Store.alloc]; rw [if_neg (Nat.ne_of_lt hr)]
    refine ⟨⟨⟨by simp [Store.alloc], fun r hr => by rw [hne hr]; exact SameIdent.refl _⟩, id⟩, ⟨fun r hr hp => ?_, hc3.known⟩, ?_⟩
    · by_cases hlt : r < st3.next
      · rw [hne hlt] at hp ⊢; exact hc3.dev r hlt hp
      · have hr' : r = st3.next := by
          exact Nat.le_antisymm (Nat.le_of_lt_succ hr) (Nat.not_lt.1 hlt)
        subst hr'
        simp only [Store.alloc, if_true]
        refine ⟨ht3, rfl, ?_⟩
        show authCodeOf x.reg.deviceID x.reg.plate x.regHdr.phone = x.code
        rw [p1]; rfl
    · refine keep_cache _ fun st4 _ => ?_
      show (progTimer _ _).Keep T x st4
      refine keep_get _ _ (fun _ _ => trivial) fun r st5 h5 hi5 hh5 hs5 => ?_
      rw [p1] at hs5 ⊢
      intro clk st6 _ h6 hi6 hc6
      exact ⟨⟨⟨Nat.le_refl _, fun y _ => SameIdent.refl _⟩, id⟩, ⟨hc6.dev, fun _ => h6.stays hs5⟩, trivial⟩
  · show (prog0102 x.authHdr x.auth).Keep T x st
    refine keep_get _ _ (fun _ _ => trivial) fun r st1 h1 hi1 hh1 _ => ?_
    refine keep_read (fun _ st => (st.heap r).code) _ fun clk st2 h2 hi2 hc2 => ?_
    have hh2 := hh1.mono h2.toGrows
    have hcode : (st2.heap r).code = x.code := (hc2.dev r hh2.1 (hh2.2.trans p2)).2.2
    rw [if_neg (by rw [hcode, p4]; exact fun hne => hne rfl)]
    refine keep_put _ _ (fun _ _ => ⟨rfl, rfl, rfl, rfl, rfl, rfl, rfl, rfl⟩) (fun _ _ _ hd => hd) fun st3 h3 => ?_
    refine keep_put _ _ (fun _ _ => ⟨rfl, rfl, rfl, rfl, rfl, rfl, rfl, rfl⟩) (fun _ _ ht _ => ht) fun st4 h4 => ?_
    refine keep_put _ _ (fun _ _ => ⟨rfl, rfl, rfl, rfl, rfl, rfl, rfl, rfl⟩) (fun _ _ _ hd => hd) fun st5 h5 => ?_
    refine keep_put _ _ (fun _ _ => ⟨rfl, rfl, rfl, rfl, rfl, rfl, rfl, rfl⟩) (fun _ _ _ hd => hd) fun st6 h6 => ?_
    refine keep_put _ _ (fun _ _ => ⟨rfl, rfl, rfl, rfl, rfl, rfl, rfl, rfl⟩) (fun _ _ _ hd => hd) fun st7 h7 => ?_
    exact keep_cache _ fun _ _ => trivial
  · cases o with
    | none =>
      show (prog0002 hd).Keep T x st
      refine keep_get _ _ (fun _ _ => trivial) fun r st1 h1 hi1 hh1 _ => ?_
      refine keep_put _ _ (fun _ _ => ⟨rfl, rfl, rfl, rfl, rfl, rfl, rfl, rfl⟩) (fun _ _ ht _ => ht) fun st4 h4 => ?_
      exact keep_cache _ fun _ _ => trivial
    | some m =>
      show (prog0200 hd m).Keep T x st
      refine keep_get _ _ (fun _ _ => trivial) fun r st1 h1 hi1 hh1 _ => ?_
      refine keep_read _ _ fun clk st2 h2 hi2 hc2 => ?_
      split
      · refine keep_put _ _ (fun _ _ => ⟨rfl, rfl, rfl, rfl, rfl, rfl, rfl, rfl⟩) (fun _ _ _ hd => hd) fun st3 h3 => ?_
        refine keep_put _ _ (fun _ _ => ⟨rfl, rfl, rfl, rfl, rfl, rfl, rfl, rfl⟩) (fun _ _ ht _ => ht) fun st4 h4 => ?_
        exact keep_cache _ fun _ _ => keep_geo hd r _
      · exact keep_geo hd r _

/-! ### Its checks -/

theorem idle_read {α : Type} (g : Clock → Store → α) (k : α → Prog)
    (h : ∀ clk st', T ≤ clk.ms → clk.ms ≤ T + 60000 → Later x st st' → CInv st' → Calm x T st' → (k (g clk st')).Idle T x st') :
    (Prog.read g k).Idle T x st :=
  fun clk st' h1 h2 hl hi hc => ⟨rfl, h clk st' h1 h2 hl hi hc⟩

theorem idle_expired {r : Ref} (yes no : Prog) (hh : Held x.phone st r) (h : ∀ st', Later x st st' → no.Idle T x st') :
    (progExpired r yes no).Idle T x st := by
  refine idle_read _ _ fun clk st' h1 h2 hl _ hc => ?_
  have hh' := hh.mono hl.toGrows
  obtain ⟨a, b, -⟩ := hc.dev r hh'.1 hh'.2
  have e : decide (clk.ms > (st'.heap r).keepalive + (st'.heap r).last) = false := by
    rw [b]; exact decide_eq_false (by omega)
  simp only [e]
  exact h st' hl

theorem check_idle (hk : (st.devByPhone x.phone).isSome = true) : (progCheck x.phone).Idle T x st := by
  have clear : ∀ r st, Held x.phone st r → (progClear x.phone r).Idle T x st := by
    intro r st hh
    refine idle_read _ _ fun clk st1 _ _ h1 _ _ => ?_
    split
    · exact idle_expired _ _ (hh.mono h1.toGrows) fun _ _ => rfl
    · rfl
  intro clk st' _ _ hl hi hc
  refine ⟨rfl, ?_⟩
  have hs := hl.stays hk
  cases hd : st'.devByPhone x.phone with
  | none => rw [hd] at hs; cases hs
  | some r =>
    simp only [hd]
    have hh : Held x.phone st' r := hi.phoneOK _ _ hd
    show (progFound x.phone r).Idle T x st'
    refine idle_read _ _ fun clk st1 _ _ h1 _ _ => ?_
    have hh1 := hh.mono h1.toGrows
    split
    · exact idle_expired _ _ hh1 fun st2 h2 => clear r st2 (hh1.mono h2.toGrows)
    · exact clear r st1 hh1

/-! ### The goroutines of others -/

theorem Own.later {t : Task} {st' : Store} (h : Own t.Makes t.phone st st') (hne : t.phone ≠ x.phone) : Later x st st' :=
  ⟨h.toGrows, fun hs => by
    have : st'.devByPhone x.phone = st.devByPhone x.phone := h.index x.phone fun e => hne e.symm
    rw [this]; exact hs⟩

theorem Own.calm {t : Task} {st' : Store} (h : Own t.Makes t.phone st st') (hne : t.phone ≠ x.phone) (hc : Calm x T st) :
    Calm x T st' := by
  refine ⟨fun r hr hp => ?_, fun hj => ?_⟩
  · by_cases hlt : r < st.next
    · have hp' : (st.heap r).phone = x.phone := (h.ident r hlt).phone.symm.trans hp
      rw [h.dev r hlt (by rw [hp']; exact fun e => hne e.symm)]
      exact hc.dev r hlt hp'
    · exact absurd ((makes_phone (h.fresh r (Nat.not_lt.1 hlt) hr)).symm.trans hp) hne
  · have e : st'.devByPhone x.phone = st.devByPhone x.phone := h.index x.phone fun e => hne e.symm
    rw [e]
    refine hc.known ?_
    have := h.jobs x.phone fun e => hne e.symm
    rw [← List.count_pos_iff] at hj ⊢
    omega

/-- Nothing is known of a phone of which no goroutine was started. -/
theorem jobs_absent {env : Env} {p : Str} (evs : List CEv) (s : CSys) (hs : s.OK env)
    (ht : ∀ (i : Nat) t q, s.threads[i]? = some (t, q) → t.phone ≠ p) (he : ∀ t, .spawn t ∈ evs → t.phone ≠ p) :
    (s.run env evs).st.jobs.count p = s.st.jobs.count p := by
  induction evs generalizing s with
  | nil => rfl
  | cons e evs ih =>
    rw [crun_cons, ih _ (ok_step hs e).1 ?_ fun t h => he t (List.mem_cons_of_mem _ h)]
    · cases e with
      | spawn t => simp only [CSys.step]; split <;> rfl
      | run i clk =>
        simp only [CSys.step]
        cases hi : s.threads[i]? with
        | none => rfl
        | some tq =>
          obtain ⟨t, q⟩ := tq
          simp only
          cases q with
          | ret r => rfl
          | step f k =>
            obtain ⟨a, -, -⟩ := hs.safe i t _ hi clk s.st (Grows.refl _) hs.inv
            exact a.jobs p fun e => ht i t _ hi e.symm
    · intro i t q hi
      rcases spawned_run (env := env) [e] s i t q hi with h | ⟨q', h⟩
      · exact he t (by simp only [List.mem_singleton] at h; rw [← h]; exact List.mem_cons_self)
      · exact ht i t q' h

theorem calm_before {env : Env} {before : List CEv} (h : ∀ t, .spawn t ∈ before → t.phone ≠ x.phone) :
    Calm x T (CSys.start.run env before).st := by
  have hb := born_run (ok_start env) born_start before
  refine ⟨fun r hr hp => ?_, fun hj => ?_⟩
  · obtain ⟨i, t, q, hi, hm⟩ := hb r hr
    rcases spawned_run before CSys.start i t q hi with h' | ⟨q', h'⟩
    · exact absurd ((makes_phone hm).symm.trans hp) (h t h')
    · exact absurd h' (by simp [CSys.start])
  · have := jobs_absent (env := env) (p := x.phone) before CSys.start (ok_start env) (by intro i t q hi; simp [CSys.start] at hi) h
    rw [← List.count_pos_iff, this] at hj
    exact absurd hj (by simp [CSys.start, Store.empty])

end JT808
