import Verif.Model.Commands
import Verif.Proof.Interleave
/-
Handlers and checks neither change the session cache nor look at it, at serial numbers, at closed connections or at fragments.
-/
namespace JT808

/-- The store with other sessions, serial numbers, closed connections and fragments. -/
def Store.over (st : Store) (ss : AMap Conn) (sn : Nat → UInt32) (cl : (Nat → Bool) × AMap Segment) : Store :=
  { st with sessions := ss, serial := sn, closed := cl.1, segs := cl.2 }

/-- Two stores that differ at most in sessions, serial numbers, closed connections and fragments. -/
def Store.Alike (a b : Store) : Prop := ∃ ss sn cl, b = a.over ss sn cl

theorem Store.Alike.refl (a : Store) : a.Alike a := ⟨a.sessions, a.serial, (a.closed, a.segs), rfl⟩

theorem Store.Alike.trans {a b c : Store} (h : a.Alike b) (h' : b.Alike c) : a.Alike c := by
  obtain ⟨ss, sn, cl, rfl⟩ := h
  obtain ⟨ss', sn', cl', rfl⟩ := h'
  exact ⟨ss', sn', cl', rfl⟩

theorem Store.Alike.symm {a b : Store} (h : a.Alike b) : b.Alike a := by
  obtain ⟨ss, sn, cl, rfl⟩ := h
  exact ⟨a.sessions, a.serial, (a.closed, a.segs), rfl⟩

/-- A goroutine that leaves sessions alone and whose doings depend on nothing in which two stores alike differ. -/
def Prog.Blind : Prog → Prop
  | .ret _ => True
  | .step f k => ∀ clk st, (f clk st).sessions = st.sessions ∧
      (∀ st', st.Alike st' → k clk st' = k clk st ∧ (f clk st).Alike (f clk st')) ∧ Prog.Blind (k clk st)

theorem blind_read {α : Type} (g : Clock → Store → α) (k : α → Prog)
    (hg : ∀ clk st ss sn cl, g clk (st.over ss sn cl) = g clk st) (hk : ∀ a, (k a).Blind) : (Prog.read g k).Blind := by
  intro clk st
  refine ⟨rfl, fun st' h => ⟨?_, h⟩, hk _⟩
  obtain ⟨ss, sn, cl, rfl⟩ := h
  show k (g clk _) = k (g clk st)
  rw [hg]

theorem blind_get (ph : Str) (k : Option Ref → Prog) (hn : (k none).Blind) (hk : ∀ r, (k (some r)).Blind) :
    (Prog.get ph k).Blind := by
  intro clk st
  refine ⟨rfl, fun st' h => ⟨?_, h⟩, ?_⟩
  · obtain ⟨ss, sn, cl, rfl⟩ := h; rfl
  · show (k (st.devByPhone ph)).Blind
    cases st.devByPhone ph with
    | none => exact hn
    | some r => exact hk r

theorem blind_upd (f : Store → Store) (next : Prog) (hs : ∀ st, (f st).sessions = st.sessions)
    (hf : ∀ st ss sn cl, (f st).Alike (f (st.over ss sn cl))) (hn : next.Blind) : (Prog.upd f next).Blind := by
  intro clk st
  refine ⟨hs st, fun st' h => ⟨rfl, ?_⟩, hn⟩
  obtain ⟨ss, sn, cl, rfl⟩ := h
  exact hf st ss sn cl

theorem blind_put (r : Ref) (g : Clock → Device → Device) (next : Prog) (hn : next.Blind) : (Prog.put r g next).Blind := by
  intro clk st
  refine ⟨rfl, fun st' h => ⟨rfl, ?_⟩, hn⟩
  obtain ⟨ss, sn, cl, rfl⟩ := h
  exact ⟨ss, sn, cl, rfl⟩

/-- An update that does not touch what may differ. -/
theorem blind_plain (f : Store → Store) (next : Prog) (hs : ∀ st, (f st).sessions = st.sessions)
    (hf : ∀ st ss sn cl, f (st.over ss sn cl) = (f st).over ss sn cl) (hn : next.Blind) : (Prog.upd f next).Blind :=
  blind_upd f next hs (fun st ss sn cl => ⟨ss, sn, cl, hf st ss sn cl⟩) hn

theorem writeGeo_over (st : Store) (p : Str) (dg : DeviceGeo) (ss : AMap Conn) (sn : Nat → UInt32) (cl : (Nat → Bool) × AMap Segment) :
    ((st.over ss sn cl).writeGeo p dg).1 = (st.writeGeo p dg).1.over ss sn cl ∧
      ((st.over ss sn cl).writeGeo p dg).2 = (st.writeGeo p dg).2 ∧ (st.writeGeo p dg).1.sessions = st.sessions := by
  have e : (st.over ss sn cl).geos = st.geos := rfl
  unfold Store.writeGeo Store.geoRing
  rw [e]
  cases st.geos.get p with
  | none => simp only; cases (Ring.new ringCapacity).write (some dg) <;> exact ⟨rfl, rfl, rfl⟩
  | some rb => simp only; cases rb.write (some dg) <;> exact ⟨rfl, rfl, rfl⟩

theorem blind_geo (h : Header) (r : Ref) (dg : DeviceGeo) : (progGeo h r dg).Blind := by
  intro clk st
  refine ⟨(writeGeo_over st _ dg st.sessions st.serial (st.closed, st.segs)).2.2, fun st' h' => ?_, ?_⟩
  · obtain ⟨ss, sn, cl, rfl⟩ := h'
    obtain ⟨a, b, -⟩ := writeGeo_over st (st.heap r).phone dg ss sn cl
    refine ⟨?_, ss, sn, cl, a⟩
    show (match ((st.over ss sn cl).writeGeo (st.heap r).phone dg).2 with
      | .ok _ => Prog.ret (.ok (some (gen8001 h 0))) | .err e => .ret (.err e) | .panic => .ret .panic) =
      match (st.writeGeo (st.heap r).phone dg).2 with
      | .ok _ => Prog.ret (.ok (some (gen8001 h 0))) | .err e => .ret (.err e) | .panic => .ret .panic
    rw [b]
  · show Prog.Blind (match (st.writeGeo (st.heap r).phone dg).2 with
      | .ok _ => Prog.ret (.ok (some (gen8001 h 0))) | .err e => .ret (.err e) | .panic => .ret .panic)
    cases (st.writeGeo (st.heap r).phone dg).2 <;> trivial

theorem del_over (st : Store) (p : Str) (ss : AMap Conn) (sn : Nat → UInt32) (cl : (Nat → Bool) × AMap Segment) :
    (st.over ss sn cl).delByPhone p = (st.delByPhone p).over ss sn cl ∧ (st.delByPhone p).sessions = st.sessions := by
  have e : (st.over ss sn cl).byPhone = st.byPhone := rfl
  unfold Store.delByPhone
  rw [e]
  cases st.byPhone.get p with
  | none => exact ⟨rfl, rfl⟩
  | some r => exact ⟨rfl, rfl⟩

theorem blind_expired (r : Ref) {yes no : Prog} (h1 : yes.Blind) (h2 : no.Blind) : (progExpired r yes no).Blind := by
  refine blind_read _ _ (fun _ _ _ _ _ => rfl) fun b => ?_
  cases b
  · exact h2
  · exact h1

theorem blind_check (p : Str) : (progCheck p).Blind := by
  have clear : ∀ r, (progClear p r).Blind := by
    intro r
    refine blind_read _ _ (fun _ _ _ _ _ => rfl) fun s => ?_
    split
    · refine blind_expired r (blind_read _ _ (fun _ _ _ _ _ => rfl) fun c => ?_) trivial
      cases c with
      | none => trivial
      | some c =>
        refine blind_upd _ _ (fun _ => rfl) (fun st ss sn cl => ⟨ss, sn, (((st.over ss sn cl).closeConn c).closed, cl.2), rfl⟩) ?_
        refine blind_plain _ _ (fun st => (del_over st p st.sessions st.serial (st.closed, st.segs)).2)
          (fun st ss sn cl => (del_over st p ss sn cl).1) ?_
        refine blind_plain _ _ (fun _ => rfl) (fun _ _ _ _ => rfl) ?_
        exact blind_plain _ _ (fun _ => rfl) (fun _ _ _ _ => rfl) trivial
    · trivial
  refine blind_get _ _ (blind_plain _ _ (fun _ => rfl) (fun _ _ _ _ => rfl) trivial) fun r => ?_
  refine blind_read _ _ (fun _ _ _ _ _ => rfl) fun s => ?_
  split
  · exact blind_expired r (blind_put _ _ _ (blind_plain _ _ (fun _ => rfl) (fun _ _ _ _ => rfl) trivial)) (clear r)
  · exact clear r

/-- Every handler and every check is blind to sessions. -/
theorem task_blind (env : Env) (t : Task) : (t.prog env).Blind := by
  have plain : ∀ (f : Store → Store) (next : Prog), (∀ st, (f st).sessions = st.sessions) →
      (∀ st ss sn cl, f (st.over ss sn cl) = (f st).over ss sn cl) → next.Blind → (Prog.upd f next).Blind := blind_plain
  have del : ∀ (r : Ref) (next : Prog), next.Blind → (Prog.upd (fun st => st.delByPhone (st.heap r).phone) next).Blind :=
    fun r next hn => plain _ _ (fun st => (del_over st _ st.sessions st.serial (st.closed, st.segs)).2)
      (fun st ss sn cl => (del_over st _ ss sn cl).1) hn
  cases t with
  | check p => exact blind_check p
  | msg c h m =>
    cases m with
    | m0001 m => trivial
    | m0104 m => trivial
    | m1205 m => trivial
    | m9205 m => trivial
    | m0002 =>
      show (prog0002 h).Blind
      exact blind_get _ _ trivial fun r => blind_put _ _ _ (plain _ _ (fun _ => rfl) (fun _ _ _ _ => rfl) trivial)
    | m0003 =>
      show (prog0003 h).Blind
      exact blind_get _ _ trivial fun r => plain _ _ (fun _ => rfl) (fun _ _ _ _ => rfl) (del r _ trivial)
    | m0100 m =>
      show (prog0100 c h m).Blind
      refine blind_read _ _ (fun _ _ _ _ _ => rfl) fun b => ?_
      split
      · trivial
      · refine blind_read _ _ (fun _ _ _ _ _ => rfl) fun b => ?_
        split
        · trivial
        · intro clk st
          refine ⟨rfl, fun st' h' => ?_, ?_⟩
          · obtain ⟨ss, sn, cl, rfl⟩ := h'
            exact ⟨rfl, ss, sn, cl, rfl⟩
          · refine plain _ _ (fun _ => rfl) (fun _ _ _ _ => rfl) ?_
            exact blind_get _ _ trivial fun r => plain _ _ (fun _ => rfl) (fun _ _ _ _ => rfl) trivial
    | m0102 m =>
      show (prog0102 h m).Blind
      refine blind_get _ _ trivial fun r => ?_
      refine blind_read (fun _ st => (st.heap r).code) _ (fun _ _ _ _ _ => rfl) fun code => ?_
      split
      · exact plain _ _ (fun _ => rfl) (fun _ _ _ _ => rfl) (del r _ trivial)
      · exact blind_put _ _ _ <| blind_put _ _ _ <| blind_put _ _ _ <| blind_put _ _ _ <| blind_put _ _ _ <|
          plain _ _ (fun _ => rfl) (fun _ _ _ _ => rfl) trivial
    | m0200 m =>
      show (prog0200 h m).Blind
      refine blind_get _ _ trivial fun r => blind_read _ _ (fun _ _ _ _ _ => rfl) fun dg => ?_
      split
      · exact blind_put _ _ _ <| blind_put _ _ _ <| plain _ _ (fun _ => rfl) (fun _ _ _ _ => rfl) (blind_geo h r dg)
      · exact blind_geo h r dg
    | m8001 m =>
      show (prog8001 h m).Blind
      unfold prog8001
      split
      · refine blind_get _ _ trivial fun r => blind_read _ _ (fun _ _ _ _ _ => rfl) fun s => ?_
        split
        · trivial
        · exact blind_put _ _ _ <| blind_put _ _ _ <| plain _ _ (fun _ => rfl) (fun _ _ _ _ => rfl) trivial
      · trivial
    | m8100 m =>
      show (prog8100 h m).Blind
      exact blind_get _ _ trivial fun r => blind_read _ _ (fun _ _ _ _ _ => rfl) fun _ =>
        blind_read _ _ (fun _ _ _ _ _ => rfl) fun _ => trivial
    | m8103 m =>
      show (prog8103 h m).Blind
      exact blind_read _ _ (fun _ _ _ _ _ => rfl) fun old => plain _ _ (fun _ => rfl) (fun _ _ _ _ => rfl) trivial
    | m8104 =>
      show (prog8104 env h).Blind
      refine blind_read _ _ (fun _ _ _ _ _ => rfl) fun old => ?_
      cases old with
      | some p => trivial
      | none =>
        simp only
        cases fixedDecode env h.phone with
        | ok x => exact plain _ _ (fun _ => rfl) (fun _ _ _ _ => rfl) trivial
        | err e => trivial
        | panic => trivial

end JT808
