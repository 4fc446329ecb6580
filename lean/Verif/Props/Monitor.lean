import Verif.Model.Monitor
import Verif.Props.Storage
import Verif.Props.Query
/-
C145: the number of connections that the log shows.
-/
namespace JT808
open Spec

/-- Served connections are told apart by their ids. -/
theorem live_nodup (env : Env) (evs : List Ev) :
    (∀ c ∈ (Sys.start.run env evs).1.live, c.id < (Sys.start.run env evs).1.accepted) ∧
      (Sys.start.run env evs).1.live.Nodup := by
  have stays : ∀ {s : Sys} {live' : List Conn}, (∀ c ∈ s.live, c.id < s.accepted) → s.live.Nodup → live'.Sublist s.live →
      (∀ c ∈ live', c.id < s.accepted) ∧ live'.Nodup := fun h1 h2 h3 => ⟨fun c hc => h1 c (h3.subset hc), h2.sublist h3⟩
  induction evs using snoc_ind with
  | h0 => exact ⟨fun c hc => by (cases hc), List.nodup_nil⟩
  | h1 evs e ih =>
    rw [run_snoc]
    generalize (Sys.start.run env evs).1 = s at ih
    obtain ⟨h1, h2⟩ := ih
    unfold Sys.step
    by_cases hcr : s.crashed = true
    · rw [if_pos hcr]; exact ⟨h1, h2⟩
    · rw [if_neg hcr]
      cases e with
      | accept a =>
        refine ⟨fun c hc => ?_, List.nodup_cons.2 ⟨fun hc => ?_, h2⟩⟩
        · show c.id < s.accepted + 1
          rcases List.mem_cons.1 hc with rfl | hc
          · exact Nat.lt_succ_self _
          · exact Nat.lt_succ_of_lt (h1 c hc)
        · exact absurd (h1 _ hc) (Nat.lt_irrefl _)
      | frame clk c bytes werr =>
        simp only
        split
        · simp only
          split
          · exact stays h1 h2 List.filter_sublist
          · exact ⟨h1, h2⟩
        · exact ⟨h1, h2⟩
      | readErr c e =>
        simp only
        split
        · simp only
          split
          · exact stays h1 h2 List.filter_sublist
          · exact ⟨h1, h2⟩
        · exact ⟨h1, h2⟩
      | check clk p =>
        simp only
        split <;> exact ⟨h1, h2⟩
      | httpList => exact ⟨h1, h2⟩
      | httpGeo p => exact ⟨h1, h2⟩
      | httpQuery p werr => exact ⟨h1, h2⟩
      | httpSet p b bad werr => exact ⟨h1, h2⟩

/-- The log never shows more connections than the server serves; nothing is left when nobody is served. -/
theorem C145_at_most (env : Env) (evs : List Ev) :
    (Sys.start.run env evs).1.st.countSession ≤ (Sys.start.run env evs).1.live.length :=
  C101_sessions_bounded env evs

/-- And never fewer than it serves and has not closed itself, if no connection is accepted from an address that is still
served.  Missing for the full C145: an address that is used again (C145_too_few). -/
theorem C145_at_least_partial (env : Env) (evs : List Ev)
    (hf : ∀ pre a post, evs = pre ++ .accept a :: post → ∀ c ∈ (Sys.start.run env pre).1.live, c.addr ≠ a) :
    ((Sys.start.run env evs).1.live.filter fun c => !(Sys.start.run env evs).1.st.closed c.id).length ≤
      (Sys.start.run env evs).1.st.countSession := by
  have hd := reachable_distinct env evs hf
  have hl := (live_nodup env evs).2
  have hn := run_nodup env evs
  unfold SessNodup at hn
  generalize (Sys.start.run env evs).1 = s at hd hl hn
  have hm : ((s.live.filter fun c => !s.st.closed c.id).map fun c => (c.addr, c)).Nodup := by
    refine List.Pairwise.map _ (fun a b hab e => hab ?_) (hl.sublist List.filter_sublist)
    injection e
  have := hm.length_le_of_subset (l₂ := s.st.sessions) (fun x hx => by
    obtain ⟨c, hc, rfl⟩ := List.mem_map.1 hx
    obtain ⟨h1, h2⟩ := List.mem_filter.1 hc
    exact (AMap.mem_iff_get hn _ _).2 (hd.found c h1 (by simpa using h2)))
  simpa [Store.countSession] using this

/-- So the number is right whenever, besides, the server has closed none of the connections it still serves. -/
theorem C145_exact_partial (env : Env) (evs : List Ev)
    (hf : ∀ pre a post, evs = pre ++ .accept a :: post → ∀ c ∈ (Sys.start.run env pre).1.live, c.addr ≠ a)
    (hc : ∀ c ∈ (Sys.start.run env evs).1.live, (Sys.start.run env evs).1.st.closed c.id = false) :
    (Sys.start.run env evs).1.st.countSession = (Sys.start.run env evs).1.live.length := by
  have h1 := C145_at_most env evs
  have h2 := C145_at_least_partial env evs hf
  have : ((Sys.start.run env evs).1.live.filter fun c => !(Sys.start.run env evs).1.st.closed c.id) =
      (Sys.start.run env evs).1.live := List.filter_eq_self.2 fun c h => by rw [hc c h]; rfl
  rw [this] at h2
  omega

-- two terminals connect and one registers
example : demoSys.st.countSession = 2 ∧ demoSys.live.length = 2 ∧ ∀ c ∈ demoSys.live, demoSys.st.closed c.id = false := by
  decide +kernel

/-- The opposite of C145: a terminal reconnects from its old address; from then on one connection is shown for the two that
are served, and none when the old one has ended, though the new one is open and served. -/
theorem C145_too_few :
    let s := (Sys.start.run goEnv [.accept [0x61], .accept [0x61]]).1
    let s' := (Sys.start.run goEnv [.accept [0x61], .accept [0x61], .readErr ⟨0, [0x61]⟩ .eof]).1
    s.live.length = 2 ∧ s.st.countSession = 1 ∧ s'.live.length = 1 ∧ s'.st.closed 1 = false ∧ s'.st.countSession = 0 := by
  decide +kernel

/-- And a connection that a keepalive check has closed is shown until its serve loop has noticed. -/
theorem C145_closed_counted :
    let s := (demoSys.step goEnv (.check (demoClk 110000) (hdr2013 0).phone)).1
    (s.live.filter fun c => !s.st.closed c.id).length = 1 ∧ s.st.countSession = 2 := by decide +kernel

end JT808
