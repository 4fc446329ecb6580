import Verif.Proof.Interleave
/-
Heartbeats and keepalive checks that run at the same time: what a goroutine of one phone does to devices heard of lately.
-/
namespace JT808
open Spec

/-! ### Freshness is kept -/

/-- Devices of the phone that were heard of since `T` stay so. -/
structure Hears (T : Nat) (p : Str) (st st' : Store) : Prop extends Grows st st' where
  heard : ∀ r, r < st.next → (st.heap r).phone = p → T ≤ (st.heap r).last → T ≤ (st'.heap r).last

theorem Hears.refl (T : Nat) (p : Str) (st : Store) : Hears T p st st := ⟨Grows.refl _, fun _ _ _ h => h⟩

theorem Hears.trans {T : Nat} {p : Str} {a b c : Store} (h : Hears T p a b) (h' : Hears T p b c) : Hears T p a c :=
  ⟨h.toGrows.trans h'.toGrows, fun r hr hp hl => h'.heard r (Nat.lt_of_lt_of_le hr h.next)
    ((h.ident r hr).phone.trans hp) (h.heard r hr hp hl)⟩

/-- Whatever is registered under the phone was heard of since `T`. -/
def Recent (T : Nat) (p : Str) (st : Store) : Prop := ∀ r, st.byPhone.get p = some r → T ≤ (st.heap r).last

/-- A device pointer to a device heard of since `T`. -/
def Warm (T : Nat) (p : Str) (st : Store) (r : Ref) : Prop := Held p st r ∧ T ≤ (st.heap r).last

theorem Warm.mono {T : Nat} {p : Str} {st st' : Store} {r : Ref} (h : Warm T p st r) (hh : Hears T p st st') : Warm T p st' r :=
  ⟨h.1.mono hh.toGrows, hh.heard r h.1.1 h.1.2 h.2⟩

/-- Two stores with the same devices, indexes and closed connections. -/
def SameDevices (st st' : Store) : Prop :=
  st'.heap = st.heap ∧ st'.next = st.next ∧ st'.byPhone = st.byPhone ∧ st'.byPlate = st.byPlate ∧ st'.closed = st.closed

/-- A goroutine for the phone that files no device not heard of since `T`, provided clocks do not show a time before
`T`; with `still`, and clocks within a minute of `T`, it changes no device at all. -/
def Prog.Fresh (T : Nat) (still : Bool) (p : Str) : Store → Prog → Prop
  | _, .ret _ => True
  | st, .step f k => ∀ clk st', T ≤ clk.ms → (still → clk.ms ≤ T + 60000) → Hears T p st st' → CInv st' → Recent T p st' →
      (∀ r, r < st'.next → (st'.heap r).keepalive = 60000) →
      Hears T p st' (f clk st') ∧ Recent T p (f clk st') ∧ (still → SameDevices st' (f clk st')) ∧
        Prog.Fresh T still p (f clk st') (k clk st')

variable {T : Nat} {p : Str} {st : Store} {still : Bool}

theorem Prog.Fresh.mono {st' : Store} (hg : Hears T p st st') : ∀ {q : Prog}, q.Fresh T still p st → q.Fresh T still p st'
  | .ret _, _ => trivial
  | .step _ _, h => fun clk st2 h1 h2 h3 => h clk st2 h1 h2 (hg.trans h3)

theorem fresh_read {α : Type} (g : Clock → Store → α) (k : α → Prog)
    (h : ∀ clk st', T ≤ clk.ms → (still → clk.ms ≤ T + 60000) → Hears T p st st' →
      (∀ r, r < st'.next → (st'.heap r).keepalive = 60000) → (k (g clk st')).Fresh T still p st') :
    (Prog.read g k).Fresh T still p st :=
  fun clk st' h1 h2 hg _ hr hk => ⟨Hears.refl _ _ _, hr, fun _ => ⟨rfl, rfl, rfl, rfl, rfl⟩, h clk st' h1 h2 hg hk⟩

theorem fresh_get (k : Option Ref → Prog) (h0 : ∀ st', Hears T p st st' → (k none).Fresh T still p st')
    (h1 : ∀ r st', Hears T p st st' → Warm T p st' r → (k (some r)).Fresh T still p st') :
    (Prog.get p k).Fresh T still p st := by
  intro clk st' _ _ hg hi hr hk
  refine ⟨Hears.refl _ _ _, hr, fun _ => ⟨rfl, rfl, rfl, rfl, rfl⟩, ?_⟩
  cases hd : st'.devByPhone p with
  | none => simp only [hd]; exact h0 st' hg
  | some r => simp only [hd]; exact h1 r st' hg ⟨hi.phoneOK _ _ hd, hr r hd⟩

theorem fresh_put {r : Ref} (g : Clock → Device → Device) (next : Prog)
    (hs : ∀ clk d, SameIdent d (g clk d)) (hl : ∀ clk d, T ≤ clk.ms → T ≤ d.last → T ≤ (g clk d).last)
    (h : ∀ st', Hears T p st st' → next.Fresh T false p st') : (Prog.put r g next).Fresh T false p st := by
  intro clk st' ht _ hg hi hr hk
  have hid : ∀ x, SameIdent (st'.heap x) ((st'.setDev r (g clk (st'.heap r))).heap x) :=
    SameIdent.setDev (hs clk (st'.heap r))
  have hh : ∀ x, T ≤ (st'.heap x).last → T ≤ ((st'.setDev r (g clk (st'.heap r))).heap x).last := by
    intro x hx
    by_cases hxr : x = r
    · subst hxr; simp only [Store.setDev, if_true]; exact hl clk _ ht hx
    · rw [Store.setDev_heap_ne _ _ hxr]; exact hx
  have h2 : Hears T p st' (st'.setDev r (g clk (st'.heap r))) := ⟨⟨Nat.le_refl _, fun x _ => hid x⟩, fun x _ _ hx => hh x hx⟩
  exact ⟨h2, fun x hx => hh x (hr x hx), fun e => (by cases e), h _ (hg.trans h2)⟩

theorem fresh_upd (f : Store → Store) (next : Prog)
    (hf : ∀ st', Hears T p st st' → CInv st' → Recent T p st' → (f st').next = st'.next ∧ (f st').heap = st'.heap ∧
      Recent T p (f st'))
    (h : ∀ st', Hears T p st st' → next.Fresh T false p st') : (Prog.upd f next).Fresh T false p st := by
  intro clk st' _ _ hg hi hr _
  obtain ⟨e1, e2, e3⟩ := hf st' hg hi hr
  have h2 : Hears T p st' (f st') :=
    ⟨⟨Nat.le_of_eq e1.symm, fun x _ => by rw [e2]; exact SameIdent.refl _⟩, fun x _ _ hx => by rw [e2]; exact hx⟩
  exact ⟨h2, e3, fun e => (by cases e), h _ (hg.trans h2)⟩

/-- Updates that do not touch the phone index. -/
theorem fresh_plain (f : Store → Store) (next : Prog)
    (hf : ∀ st, (f st).next = st.next ∧ (f st).heap = st.heap ∧ (f st).byPhone = st.byPhone)
    (h : ∀ st', Hears T p st st' → next.Fresh T false p st') : (Prog.upd f next).Fresh T false p st :=
  fresh_upd f next (fun st' _ _ hr => ⟨(hf st').1, (hf st').2.1, fun x hx => by
    rw [(hf st').2.2] at hx; rw [(hf st').2.1]; exact hr x hx⟩) h

theorem fresh_cache {r : Ref} (next : Prog) (hw : Warm T p st r) (h : ∀ st', Hears T p st st' → next.Fresh T false p st') :
    (Prog.upd (·.cacheDevice r) next).Fresh T false p st := by
  refine fresh_upd _ _ (fun st' hg hi hr => ⟨rfl, rfl, fun x hx => ?_⟩) h
  simp only [Store.cacheDevice, AMap.get_set] at hx
  split at hx
  · cases hx; exact (hw.mono hg).2
  · exact hr x hx

theorem fresh_drop {r : Ref} (next : Prog) (h : ∀ st', Hears T p st st' → next.Fresh T false p st') :
    (Prog.upd (fun st => st.cancelJob (st.heap r).phone) <|
      .upd (fun st => st.delByPhone (st.heap r).phone) next).Fresh T false p st := by
  refine fresh_plain _ _ (fun _ => ⟨rfl, rfl, rfl⟩) fun st1 h1 => ?_
  refine fresh_upd _ _ (fun st2 _ _ hr => ?_) fun st3 h3 => h st3 (h1.trans h3)
  unfold Store.delByPhone
  split
  · exact ⟨rfl, rfl, hr⟩
  · refine ⟨rfl, rfl, fun x hx => ?_⟩
    simp only [AMap.get_del] at hx
    split at hx
    · cases hx
    · exact hr x hx

theorem fresh_geo (h : Header) (r : Ref) (dg : DeviceGeo) : (progGeo h r dg).Fresh T false p st := by
  intro clk st' _ _ _ _ hr _
  have e : ∀ (q : Str), ((st'.writeGeo q dg).1.heap = st'.heap) ∧ (st'.writeGeo q dg).1.next = st'.next ∧
      (st'.writeGeo q dg).1.byPhone = st'.byPhone := by
    intro q
    unfold Store.writeGeo Store.geoRing
    cases st'.geos.get q with
    | none => simp only; cases (Ring.new ringCapacity).write (some dg) <;> exact ⟨rfl, rfl, rfl⟩
    | some rb => simp only; cases rb.write (some dg) <;> exact ⟨rfl, rfl, rfl⟩
  obtain ⟨e1, e2, e3⟩ := e (st'.heap r).phone
  refine ⟨⟨⟨Nat.le_of_eq e2.symm, fun x _ => by simp only [e1]; exact SameIdent.refl _⟩, fun x _ _ hx => by simp only [e1]; exact hx⟩,
    fun x hx => ?_, fun e => (by cases e), ?_⟩
  · simp only [e3] at hx; simp only [e1]; exact hr x hx
  · show Prog.Fresh T false p _ (match (st'.writeGeo (st'.heap r).phone dg).2 with
      | .ok _ => Prog.ret (.ok (some (gen8001 h 0))) | .err e => .ret (.err e) | .panic => .ret .panic)
    cases (st'.writeGeo (st'.heap r).phone dg).2 <;> trivial

/-- The message handlers file only devices heard of. -/
theorem msg_fresh (env : Env) (c : Conn) (h : Header) (m : Msg) (st : Store) :
    ((Task.msg c h m).prog env).Fresh T false h.phone st := by
  have id8 : ∀ (d d' : Device), d'.id = d.id → d'.plate = d.plate → d'.phone = d.phone → d'.sessionID = d.sessionID →
      d'.conn = d.conn → d'.keepalive = d.keepalive → d'.ver = d.ver → d'.protoVer = d.protoVer → SameIdent d d' :=
    fun _ _ a b c d e f g h => ⟨a, b, c, d, e, f, g, h⟩
  cases m with
  | m0001 m => trivial
  | m0104 m => trivial
  | m1205 m => trivial
  | m9205 m => trivial
  | m0002 =>
    show (prog0002 h).Fresh T false h.phone st
    refine fresh_get _ (fun _ _ => trivial) fun r st1 _ hw => ?_
    refine fresh_put _ _ (fun _ _ => ⟨rfl, rfl, rfl, rfl, rfl, rfl, rfl, rfl⟩) (fun _ _ ht _ => ht) fun st2 h2 => ?_
    exact fresh_cache _ (hw.mono h2) fun _ _ => trivial
  | m0003 =>
    show (prog0003 h).Fresh T false h.phone st
    exact fresh_get _ (fun _ _ => trivial) fun r st1 _ hw => fresh_drop _ fun _ _ => trivial
  | m0100 m =>
    show (prog0100 c h m).Fresh T false h.phone st
    refine fresh_read _ _ fun clk st1 _ _ _ _ => ?_
    split
    · trivial
    · refine fresh_read _ _ fun clk st2 _ _ _ _ => ?_
      split
      · trivial
      · intro clk st3 ht _ _ hi hr _
        have hne : ∀ {r}, r < st3.next → (st3.alloc (Device.new clk c h m)).1.heap r = st3.heap r := by
          intro r hr; simp only [Store.alloc]; rw [if_neg (Nat.ne_of_lt hr)]
        refine ⟨⟨⟨by simp [Store.alloc], fun r hr => by rw [hne hr]; exact SameIdent.refl _⟩,
          fun r hr _ hl => by rw [hne hr]; exact hl⟩, fun r hx => ?_, fun e => (by cases e), ?_⟩
        · have hx' : st3.byPhone.get h.phone = some r := hx
          rw [hne (hi.phoneOK _ _ hx').1]
          exact hr r hx'
        · refine fresh_cache _ ⟨⟨by simp [Store.alloc], by simp [Store.alloc, Device.new]⟩, by simpa [Store.alloc, Device.new] using ht⟩
            fun st4 _ => ?_
          exact fresh_get _ (fun _ _ => trivial) fun r st5 _ _ =>
            fresh_plain _ _ (fun _ => ⟨rfl, rfl, rfl⟩) fun _ _ => trivial
  | m0102 m =>
    show (prog0102 h m).Fresh T false h.phone st
    refine fresh_get _ (fun _ _ => trivial) fun r st1 _ hw => ?_
    refine fresh_read (fun _ st => (st.heap r).code) _ fun clk st2 _ _ h2 _ => ?_
    split
    · exact fresh_drop _ fun _ _ => trivial
    · refine fresh_put _ _ (fun _ _ => ⟨rfl, rfl, rfl, rfl, rfl, rfl, rfl, rfl⟩) (fun _ _ _ hd => hd) fun st3 h3 => ?_
      refine fresh_put _ _ (fun _ _ => ⟨rfl, rfl, rfl, rfl, rfl, rfl, rfl, rfl⟩) (fun _ _ ht _ => ht) fun st4 h4 => ?_
      refine fresh_put _ _ (fun _ _ => ⟨rfl, rfl, rfl, rfl, rfl, rfl, rfl, rfl⟩) (fun _ _ _ hd => hd) fun st5 h5 => ?_
      refine fresh_put _ _ (fun _ _ => ⟨rfl, rfl, rfl, rfl, rfl, rfl, rfl, rfl⟩) (fun _ _ _ hd => hd) fun st6 h6 => ?_
      refine fresh_put _ _ (fun _ _ => ⟨rfl, rfl, rfl, rfl, rfl, rfl, rfl, rfl⟩) (fun _ _ _ hd => hd) fun st7 h7 => ?_
      exact fresh_cache _ (hw.mono (h2.trans (h3.trans (h4.trans (h5.trans (h6.trans h7)))))) fun _ _ => trivial
  | m0200 m =>
    show (prog0200 h m).Fresh T false h.phone st
    refine fresh_get _ (fun _ _ => trivial) fun r st1 _ hw => ?_
    refine fresh_read _ _ fun clk st2 _ _ h2 _ => ?_
    split
    · refine fresh_put _ _ (fun _ _ => ⟨rfl, rfl, rfl, rfl, rfl, rfl, rfl, rfl⟩) (fun _ _ _ hd => hd) fun st3 h3 => ?_
      refine fresh_put _ _ (fun _ _ => ⟨rfl, rfl, rfl, rfl, rfl, rfl, rfl, rfl⟩) (fun _ _ ht _ => ht) fun st4 h4 => ?_
      exact fresh_cache _ (hw.mono (h2.trans (h3.trans h4))) fun _ _ => fresh_geo h r _
    · exact fresh_geo h r _
  | m8001 m =>
    show (prog8001 h m).Fresh T false h.phone st
    unfold prog8001
    split
    · refine fresh_get _ (fun _ _ => trivial) fun r st1 _ hw => ?_
      refine fresh_read _ _ fun clk st2 _ _ h2 _ => ?_
      split
      · trivial
      · refine fresh_put _ _ (fun _ _ => ⟨rfl, rfl, rfl, rfl, rfl, rfl, rfl, rfl⟩) (fun _ _ _ hd => hd) fun st3 h3 => ?_
        refine fresh_put _ _ (fun _ _ => ⟨rfl, rfl, rfl, rfl, rfl, rfl, rfl, rfl⟩) (fun _ _ ht _ => ht) fun st4 h4 => ?_
        exact fresh_cache _ (hw.mono (h2.trans (h3.trans h4))) fun _ _ => trivial
    · trivial
  | m8100 m =>
    show (prog8100 h m).Fresh T false h.phone st
    refine fresh_get _ (fun _ _ => trivial) fun r st1 _ hw => ?_
    exact fresh_read _ _ fun _ _ _ _ _ _ => fresh_read _ _ fun _ _ _ _ _ _ => trivial
  | m8103 m =>
    show (prog8103 h m).Fresh T false h.phone st
    exact fresh_read _ _ fun _ _ _ _ _ _ => fresh_plain _ _ (fun _ => ⟨rfl, rfl, rfl⟩) fun _ _ => trivial
  | m8104 =>
    show (prog8104 env h).Fresh T false h.phone st
    refine fresh_read _ _ fun clk st1 _ _ _ _ => ?_
    cases st1.paramsOf h.phone with
    | some q => trivial
    | none =>
      simp only
      cases fixedDecode env h.phone with
      | ok x => exact fresh_plain _ _ (fun _ => ⟨rfl, rfl, rfl⟩) fun _ _ => trivial
      | err e => trivial
      | panic => trivial

/-- The test whether a terminal has expired fails within a minute. -/
theorem fresh_expired {r : Ref} (yes no : Prog) (hw : Warm T p st r) (h : ∀ st', Hears T p st st' → no.Fresh T true p st') :
    (progExpired r yes no).Fresh T true p st := by
  refine fresh_read _ _ fun clk st' _ hk hg hka => ?_
  have hw' := hw.mono hg
  have e : decide (clk.ms > (st'.heap r).keepalive + (st'.heap r).last) = false := by
    rw [hka r hw'.1.1]
    have := hk rfl
    have := hw'.2
    exact decide_eq_false (by omega)
  simp only [e]
  exact h st' hg

/-- A check that begins when the terminal has been heard of changes nothing. -/
theorem check_fresh (p : Str) (st : Store) : (progCheck p).Fresh T true p st := by
  have clear : ∀ r st, Warm T p st r → (progClear p r).Fresh T true p st := by
    intro r st hw
    refine fresh_read _ _ fun clk st1 _ _ h1 _ => ?_
    split
    · exact fresh_expired _ _ (hw.mono h1) fun _ _ => trivial
    · trivial
  intro clk st' ht hk hg hi hr hka
  refine ⟨Hears.refl _ _ _, hr, fun _ => ⟨rfl, rfl, rfl, rfl, rfl⟩, ?_⟩
  cases hd : st'.devByPhone p with
  | none =>
    simp only [hd]
    intro clk st2 _ _ _ _ hr2 _
    exact ⟨⟨⟨Nat.le_refl _, fun _ _ => SameIdent.refl _⟩, fun _ _ _ hx => hx⟩, hr2, fun _ => ⟨rfl, rfl, rfl, rfl, rfl⟩, trivial⟩
  | some r =>
    simp only [hd]
    have hw : Warm T p st' r := ⟨hi.phoneOK _ _ hd, hr r hd⟩
    refine fresh_read _ _ fun clk st1 _ _ h1 _ => ?_
    split
    · exact fresh_expired _ _ (hw.mono h1) fun st2 h2 => clear r st2 ((hw.mono h1).mono h2)
    · exact clear r st1 (hw.mono h1)

/-! ### The system -/

def Task.isCheck : Task → Bool
  | .check _ => true
  | .msg .. => false

theorem task_fresh (env : Env) (t : Task) (st : Store) : (t.prog env).Fresh T t.isCheck t.phone st := by
  cases t with
  | check ph => exact check_fresh ph st
  | msg c h m => exact msg_fresh env c h m st

/-- The clock of a step shows a time within a minute of `T`. -/
def CEv.within (T : Nat) : CEv → Prop
  | .spawn _ => True
  | .run _ clk => T ≤ clk.ms ∧ clk.ms ≤ T + 60000

/-- Whatever is registered under the phone was heard of since `T`, and its goroutines keep it so. -/
structure CSys.Awake (T : Nat) (p : Str) (s : CSys) : Prop where
  recent : Recent T p s.st
  threads : ∀ (i : Nat) (t : Task) (q : Prog), s.threads[i]? = some (t, q) → t.phone = p → q.Fresh T t.isCheck p s.st

theorem born_keepalive {s : CSys} (h : s.Born) : ∀ r, r < s.st.next → (s.st.heap r).keepalive = 60000 := by
  intro r hr
  obtain ⟨i, t, q, hi, hm⟩ := h r hr
  cases t with
  | check ph => exact absurd hm (by simp [Task.Makes])
  | msg c hd m =>
    cases m with
    | m0100 m => exact hm.2.2.2.2.2.2.2
    | _ => exact absurd hm (by simp [Task.Makes])

theorem Own.hears {N : Device → Prop} {q : Str} {st st' : Store} (h : Own N q st st') (hq : p ≠ q) : Hears T p st st' :=
  ⟨h.toGrows, fun r hr hp hl => by rw [h.dev r hr (by rw [hp]; exact hq)]; exact hl⟩

theorem Own.recent {N : Device → Prop} {q : Str} {st st' : Store} (h : Own N q st st') (hq : p ≠ q) (hi : CInv st)
    (hr : Recent T p st) : Recent T p st' := by
  intro r hx
  rw [h.index p hq] at hx
  obtain ⟨h1, h2⟩ := hi.phoneOK _ _ hx
  rw [h.dev r h1 (by rw [h2]; exact hq)]
  exact hr r hx

theorem awake_step {env : Env} {s : CSys} (hs : s.OK env) (hb : s.Born) (h : s.Awake T p) (e : CEv) (he : e.within T) :
    (s.step env e).Awake T p := by
  cases e with
  | spawn t =>
    simp only [CSys.step]
    split
    · refine ⟨h.recent, fun i t' q hq hp => ?_⟩
      simp only [List.getElem?_append] at hq
      split at hq
      · exact h.threads i t' q hq hp
      · rw [List.getElem?_singleton] at hq
        split at hq
        · cases hq; rw [← hp]; exact task_fresh env _ _
        · cases hq
    · exact h
  | run i clk =>
    simp only [CSys.step]
    cases hi : s.threads[i]? with
    | none => exact h
    | some tq =>
      obtain ⟨t, q⟩ := tq
      simp only
      have key : Hears T p s.st (q.next clk s.st).1 ∧ Recent T p (q.next clk s.st).1 ∧
          (t.phone = p → (q.next clk s.st).2.Fresh T t.isCheck p (q.next clk s.st).1) := by
        cases q with
        | ret r => exact ⟨Hears.refl _ _ _, h.recent, fun hp => h.threads i t _ hi hp⟩
        | step f k =>
          by_cases hp : t.phone = p
          · obtain ⟨a, b, -, c⟩ := h.threads i t _ hi hp clk s.st he.1 (fun _ => he.2) (Hears.refl _ _ _) hs.inv h.recent
              (born_keepalive hb)
            exact ⟨a, b, fun _ => c⟩
          · obtain ⟨a, -, -⟩ := hs.safe i t _ hi clk s.st (Grows.refl _) hs.inv
            exact ⟨a.hears (fun e => hp e.symm), a.recent (fun e => hp e.symm) hs.inv h.recent, fun e => absurd e hp⟩
      refine ⟨key.2.1, fun j t' q' hj hp => ?_⟩
      simp only [List.getElem?_set] at hj
      split at hj
      · split at hj
        · cases hj; exact key.2.2 hp
        · cases hj
      · exact (h.threads j t' q' hj hp).mono key.1

theorem awake_run {env : Env} {s : CSys} (hs : s.OK env) (hb : s.Born) (h : s.Awake T p) (evs : List CEv)
    (he : ∀ e ∈ evs, e.within T) : (s.run env evs).Awake T p := by
  induction evs generalizing s with
  | nil => exact h
  | cons e evs ih =>
    exact ih (ok_step hs e).1 (born_step hs hb e) (awake_step hs hb h e (he e (List.mem_cons_self ..)))
      fun x hx => he x (List.mem_cons_of_mem _ hx)

/-- A check of the phone makes a step. -/
theorem awake_check {env : Env} {s : CSys} (hs : s.OK env) (hb : s.Born) (h : s.Awake T p) {i : Nat} {q : Prog} {clk : Clock}
    (hi : s.threads[i]? = some (.check p, q)) (h1 : T ≤ clk.ms) (h2 : clk.ms ≤ T + 60000) :
    SameDevices s.st (s.step env (.run i clk)).st := by
  simp only [CSys.step, hi]
  cases q with
  | ret r => exact ⟨rfl, rfl, rfl, rfl, rfl⟩
  | step f k =>
    exact (h.threads i _ _ hi rfl clk s.st h1 (fun _ => h2) (Hears.refl _ _ _) hs.inv h.recent (born_keepalive hb)).2.2.1 rfl

/-! ### Heartbeats -/

/-- A goroutine that leaves the terminal's registration and state alone. -/
def Prog.Steady (p : Str) (r : Ref) : Prog → Prop
  | .ret _ => True
  | .step f k => ∀ clk st, CInv st → st.byPhone.get p = some r →
      (f clk st).byPhone.get p = some r ∧ ((f clk st).heap r).status = (st.heap r).status ∧ Prog.Steady p r (k clk st)

theorem beat_steady (env : Env) (c : Conn) (h : Header) (r : Ref) : ((Task.msg c h .m0002).prog env).Steady h.phone r := by
  show (prog0002 h).Steady h.phone r
  intro clk st hi hr
  refine ⟨hr, rfl, ?_⟩
  have e : st.devByPhone h.phone = some r := hr
  simp only [e]
  intro clk2 st2 _ hr2
  refine ⟨hr2, ?_, ?_⟩
  · simp only [Store.setDev, if_true]
  · intro clk3 st3 hi3 hr3
    refine ⟨?_, rfl, trivial⟩
    simp only [Store.cacheDevice, AMap.get_set, (hi3.phoneOK _ _ hr3).2, if_true]

/-- The goroutine is a check of the phone, a heartbeat of it, or of another terminal. -/
def Task.gentle (p : Str) (t : Task) : Prop :=
  t.phone = p → t = .check p ∨ ∃ c h, t = .msg c h .m0002

/-- Only checks and heartbeats are started for the phone. -/
def CEv.gentle (p : Str) : CEv → Prop
  | .spawn t => t.gentle p
  | .run .. => True

/-- The goroutines of the phone that have something left to do leave its registration and state alone. -/
def CSys.Settled (p : Str) (r : Ref) (s : CSys) : Prop :=
  ∀ (i : Nat) (t : Task) (q : Prog), s.threads[i]? = some (t, q) → t.phone = p → t = .check p ∨ q.Steady p r

theorem settled_step {env : Env} {s : CSys} (hs : s.OK env) (hb : s.Born) (h : s.Awake T p) {r : Ref} (hst : s.Settled p r)
    (hr : s.st.byPhone.get p = some r) (e : CEv) (he : e.within T) (hg : e.gentle p) :
    (s.step env e).Settled p r ∧ (s.step env e).st.byPhone.get p = some r ∧
      ((s.step env e).st.heap r).status = (s.st.heap r).status := by
  cases e with
  | spawn t =>
    simp only [CSys.step]
    split
    · refine ⟨fun i t' q hq hp => ?_, hr, rfl⟩
      simp only [List.getElem?_append] at hq
      split at hq
      · exact hst i t' q hq hp
      · rw [List.getElem?_singleton] at hq
        split at hq
        · cases hq
          rcases hg hp with e | ⟨c, hd, e⟩
          · exact .inl e
          · subst e; rw [← hp]; exact .inr (beat_steady env c hd r)
        · cases hq
    · exact ⟨hst, hr, rfl⟩
  | run i clk =>
    cases hi : s.threads[i]? with
    | none => simp only [CSys.step, hi]; exact ⟨hst, hr, trivial⟩
    | some tq =>
      obtain ⟨t, q⟩ := tq
      have key : (q.next clk s.st).1.byPhone.get p = some r ∧ ((q.next clk s.st).1.heap r).status = (s.st.heap r).status ∧
          (t.phone = p → t = .check p ∨ (q.next clk s.st).2.Steady p r) := by
        by_cases hp : t.phone = p
        · rcases hst i t q hi hp with e | hq
          · subst e
            obtain ⟨a, -, b, -, -⟩ := awake_check hs hb h hi he.1 he.2
            simp only [CSys.step, hi] at a b
            exact ⟨by rw [b]; exact hr, by rw [a], fun _ => .inl rfl⟩
          · cases q with
            | ret x => exact ⟨hr, rfl, fun _ => .inr trivial⟩
            | step f k =>
              obtain ⟨a, b, c⟩ := hq clk s.st hs.inv hr
              exact ⟨a, b, fun _ => .inr c⟩
        · cases q with
          | ret x => exact ⟨hr, rfl, fun e => absurd e hp⟩
          | step f k =>
            obtain ⟨a, -, -⟩ := hs.safe i t _ hi clk s.st (Grows.refl _) hs.inv
            obtain ⟨h1, h2⟩ := hs.inv.phoneOK _ _ hr
            refine ⟨(a.index p fun e => hp e.symm).trans hr, ?_, fun e => absurd e hp⟩
            have := a.dev r h1 (by rw [h2]; exact fun e => hp e.symm)
            show ((f clk s.st).heap r).status = _
            rw [this]
      simp only [CSys.step, hi]
      refine ⟨fun j t' q' hj hp => ?_, key.1, key.2.1⟩
      simp only [List.getElem?_set] at hj
      split at hj
      · split at hj
        · cases hj; exact key.2.2 hp
        · cases hj
      · exact hst j t' q' hj hp

theorem settled_run {env : Env} {s : CSys} (hs : s.OK env) (hb : s.Born) (h : s.Awake T p) {r : Ref} (hst : s.Settled p r)
    (hr : s.st.byPhone.get p = some r) (evs : List CEv) (he : ∀ e ∈ evs, e.within T) (hg : ∀ e ∈ evs, e.gentle p) :
    (s.run env evs).st.byPhone.get p = some r ∧ ((s.run env evs).st.heap r).status = (s.st.heap r).status := by
  induction evs generalizing s with
  | nil => exact ⟨hr, rfl⟩
  | cons e evs ih =>
    obtain ⟨a, b, c⟩ := settled_step hs hb h hst hr e (he e (List.mem_cons_self ..)) (hg e (List.mem_cons_self ..))
    obtain ⟨a', b'⟩ := ih (ok_step hs e).1 (born_step hs hb e) (awake_step hs hb h e (he e (List.mem_cons_self ..))) a b
      (fun x hx => he x (List.mem_cons_of_mem _ hx)) fun x hx => hg x (List.mem_cons_of_mem _ hx)
    exact ⟨a', b'.trans c⟩

end JT808
