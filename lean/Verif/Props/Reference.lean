import Verif.Proof.Reference
import Verif.Props.Registry
import Verif.Props.Endings
import Verif.Props.Bytes
import Verif.Proof.Demo
/-
C127: the server against the reference server of Verif/Spec/Reference.lean.
-/
namespace JT808
open Spec

/-- One event after any history, seen from both sides. -/
theorem follows_run (env : Env) {s : Sys} {b : Book} (h : Follows s b) (hi : StoreInv s.st) (hc : s.crashed = false) (evs : List Ev) :
    Follows (s.run env evs).1 (b.run env evs).1 ∧ (s.run env evs).2 = (b.run env evs).2 := by
  induction evs generalizing s b with
  | nil => exact ⟨h, rfl⟩
  | cons e evs ih =>
    obtain ⟨h1, h2⟩ := h.step env hi hc e
    obtain ⟨i1, i2⟩ := step_inv env s e hi
    obtain ⟨h3, h4⟩ := ih h1 i1 (i2 hc)
    simp only [Sys.run, Book.run]
    exact ⟨h3, by rw [h2, h4]⟩

theorem start_follows : Follows Sys.start Book.start := ⟨Noted.start, rfl, rfl⟩

theorem reachable_follows (env : Env) (evs : List Ev) :
    Follows (Sys.start.run env evs).1 (Book.start.run env evs).1 :=
  (follows_run env start_follows StoreInv.empty rfl evs).1

/-- Whatever happens to the server, in whatever order: every frame it sends, every connection it ends and every HTTP status
it answers is the one the reference server gives. -/
theorem C127_same (env : Env) (evs : List Ev) : (Sys.start.run env evs).2 = (Book.start.run env evs).2 :=
  (follows_run env start_follows StoreInv.empty rfl evs).2

/-- And the listing of the devices after any history holds the terminals of the reference server with all their data, in
some order. -/
theorem C127_listing (env : Env) (evs : List Ev) :
    (Sys.start.run env evs).1.st.apiList.1.Perm (Book.start.run env evs).1.listing := by
  have hf := (reachable_follows env evs).noted
  obtain ⟨h1, h2⟩ := C62_listing env _ ⟨evs, rfl⟩
  have hn : (Book.start.run env evs).1.listing.Nodup := by
    have : ((Book.start.run env evs).1.listing.map (·.phone)) = (Book.start.run env evs).1.terminals.map (·.1) := by
      unfold Book.listing; rw [List.map_map]; rfl
    have h3 := hf.nodup
    unfold Book.NoTwice at h3
    rw [← this] at h3
    exact List.Pairwise.of_map _ (fun a b h e => h (by rw [e])) h3
  refine (List.perm_ext_iff_of_nodup (List.Pairwise.of_map _ (fun a b h e => h (by rw [e])) h1) hn).2 (fun d => ?_)
  rw [h2, hf.terminal]
  unfold Book.listing
  rw [List.mem_map]
  constructor
  · intro h
    obtain ⟨t, ht, hd⟩ := Option.map_eq_some_iff.1 h
    exact ⟨(d.phone, t), (Book.mem_terminal hf.nodup _ _).2 ht, hd⟩
  · rintro ⟨⟨p, t⟩, hm, rfl⟩
    have := (Book.mem_terminal hf.nodup _ _).1 hm
    show ((Book.start.run env evs).1.terminal p).map _ = _
    rw [this]; rfl

/-- And so is the answer to a position query after any history: the status, the device and the position. -/
theorem C127_position (env : Env) (evs : List Ev) (phone : Str) :
    ((Sys.start.run env evs).1.st.apiGeo phone).2 =
      (if ((Book.start.run env evs).1.terminal phone).isSome then 200 else 400, (Book.start.run env evs).1.position phone) :=
  ((reachable_follows env evs).noted.geo phone).2

/-- The server remembers nothing else: after two histories that leave the same book, every further history looks the same,
in what is sent and in what is shown. -/
theorem C127_no_other_memory (env : Env) (evs evs' : List Ev) (h : (Book.start.run env evs).1 = (Book.start.run env evs').1)
    (next : List Ev) :
    ((Sys.start.run env evs).1.run env next).2 = ((Sys.start.run env evs').1.run env next).2 ∧
    (∀ phone, (((Sys.start.run env evs).1.run env next).1.st.apiGeo phone).2 =
      (((Sys.start.run env evs').1.run env next).1.st.apiGeo phone).2) ∧
    (((Sys.start.run env evs).1.run env next).1.st.apiList.1).Perm
      (((Sys.start.run env evs').1.run env next).1.st.apiList.1) := by
  obtain ⟨i1, i2⟩ := reachable_inv env evs
  obtain ⟨j1, j2⟩ := reachable_inv env evs'
  have a := follows_run env (reachable_follows env evs) i1 i2 next
  have b := follows_run env (reachable_follows env evs') j1 j2 next
  rw [← h] at b
  refine ⟨a.2.trans b.2.symm, fun p => ?_, ?_⟩
  · rw [(a.1.noted.geo p).2, (b.1.noted.geo p).2]
  · have x := C127_listing env (evs ++ next)
    have y := C127_listing env (evs' ++ next)
    rw [run_append] at x y
    rw [Book.run_append] at x y
    rw [← h] at y
    exact x.trans y.symm

/-- Asking is free: a listing or a position asked for in between changes nothing that comes after. -/
theorem C127_asking_changes_nothing (env : Env) (evs next : List Ev) (e : Ev) (he : e = .httpList ∨ ∃ p, e = .httpGeo p) :
    ((Sys.start.run env (evs ++ [e])).1.run env next).2 = ((Sys.start.run env evs).1.run env next).2 := by
  refine (C127_no_other_memory env (evs ++ [e]) evs ?_ next).1
  rw [Book.run_append]
  rcases he with rfl | ⟨p, rfl⟩ <;> rfl

/-- The same for bytes: whatever bytes arrive on whatever connections in whatever order, the server does what the reference
server does for the frames the bytes of each connection consist of. -/
theorem C127_bytes (env : Env) : ∃ F : List BEv → List Ev,
    (∀ evs c, Cut (evs.filterMap (BEv.readOn c)) ((F evs).filterMap (Ev.readOn c))) ∧
    (∀ evs, (ByteSys.start.run env evs).2.filter (· ≠ Obs.none) = (Book.start.run env (F evs)).2.filter (· ≠ Obs.none) ∧
      (ByteSys.start.run env evs).1.sys.st.apiList.1.Perm (Book.start.run env (F evs)).1.listing ∧
      ∀ p, ((ByteSys.start.run env evs).1.sys.st.apiGeo p).2 = (if ((Book.start.run env (F evs)).1.terminal p).isSome then 200 else 400,
        (Book.start.run env (F evs)).1.position p)) := by
  obtain ⟨F, -, -, h1, h2⟩ := C97_bytes_are_frames env
  refine ⟨F, h1, fun evs => ?_⟩
  obtain ⟨h3, h4⟩ := h2 evs
  rw [h3, h4, C127_same]
  exact ⟨rfl, C127_listing env _, C127_position env _⟩

/-! ## A history with a registration, reports, a loss, a repeated registration, a fragment and HTTP calls -/

def referenceEvs : List Ev := demoEvs ++
  [.frame (demoClk 2000) demoC (demoAuth demoCode) none, .frame (demoClk 3000) demoC (demoLoc 2 31230000) none,
   .httpGeo (hdr2013 0).phone, .httpQuery (hdr2013 0).phone none, .frame (demoClk 4000) demoC' demoReg none,
   .httpQuery (hdr2013 0).phone none, .frame (demoClk 4000) demoC' (demoFrag 1) none,
   .check (demoClk 90000) (hdr2013 0).phone, .frame (demoClk 91000) demoC demoBeat (some .closed),
   .httpQuery (hdr2013 0).phone none, .check (demoClk 200000) (hdr2013 0).phone, .httpGeo (hdr2013 0).phone, .httpList]

example := C127_same goEnv referenceEvs
-- the observations are not empty: six frames, two connections ended, answers of both kinds
example : ((Book.start.run goEnv referenceEvs).2.filter (·.sent.isSome)).length = 6 ∧
    ((Book.start.run goEnv referenceEvs).2.filter (·.ended)).length = 2 ∧
    (Book.start.run goEnv referenceEvs).2.filterMap (·.http) = [200, 200, 200, 400, 400, 200] := by decide +kernel
-- the listing and the position after the report, and after the second check
example : (Book.start.run goEnv (referenceEvs.take 5)).1.listing.map (fun d => (d.plate, d.status, d.last)) =
      [(demoRegMsg.plate, .sleeping, 3000)] ∧
    ((Book.start.run goEnv (referenceEvs.take 5)).1.position (hdr2013 0).phone).isSome = true ∧
    (Book.start.run goEnv referenceEvs).1.listing = [] := by decide +kernel
example := C127_listing goEnv (referenceEvs.take 5)
example := C127_position goEnv (referenceEvs.take 5) (hdr2013 0).phone
-- two different histories with the same book
example (next : List Ev) := C127_no_other_memory goEnv demoEvs (demoEvs ++ [.frame (demoClk 5) demoC' demoReg none]) (by rfl) next
-- a history of bytes, of two terminals mixed
example : ((ByteSys.start.run goEnv mixedBytes).2.filter (· ≠ Obs.none)).length = 2 := by decide +kernel
example (next : List Ev) := C127_asking_changes_nothing goEnv demoEvs next (.httpGeo (hdr2013 0).phone) (.inr ⟨_, rfl⟩)

end JT808
