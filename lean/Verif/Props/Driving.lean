import Verif.Props.Lifecycle
import Verif.Props.Handlers
/-
C80: location reports as signs of life.
-/
namespace JT808
open Spec

/-! ## C80 -/

/-- Event `e`, if it is a frame that speaks for `p`, is a location report with ACC on. -/
def Ev.drives (env : Env) (p : Str) (e : Ev) : Prop :=
  ∀ clk c bytes werr, e = .frame clk c bytes werr → framePhone env bytes = some p →
    ∃ h l, Holds env clk.civil bytes h (.m0200 l) ∧ ¬ accOff l.status

/-- The opposite of C80: location reports with ACC on do not count.  A terminal that sends nothing else meets exactly
the fate of one that says nothing at all (C75): what counts is how many of its checks came more than a minute after the
last sign of life before those reports, however many reports there are and however close together. -/
theorem C80_reports_do_not_count (env : Env) (evs evs' : List Ev) (p : Str) (d : Device)
    (hd : (Sys.start.run env evs).1.st.look p = some d) (hq : ∀ e ∈ evs', e.drives env p) :
    (Sys.start.run env (evs ++ evs')).1.st.look p =
      (if evs'.countP (Ev.checkAfter p (d.last + 60000)) = 0 then some d
       else if evs'.countP (Ev.checkAfter p (d.last + 60000)) = 1 ∧ d.status ≠ .offline
         then some { d with status := .offline } else none) := by
  induction evs' using snoc_ind with
  | h0 => rw [List.append_nil]; simpa using hd
  | h1 evs' e ih =>
    have ih := ih (fun e' he => hq e' (by simp [he]))
    have hi := reachable_inv env (evs ++ evs')
    have hqe := hq e (by simp)
    rw [← List.append_assoc, List.countP_append]
    by_cases hk : ∃ clk, e = .check clk p
    · obtain ⟨clk, rfl⟩ := hk
      rw [run_check_look, ih]
      simp only [List.countP_cons, List.countP_nil, Ev.checkAfter, decide_true, Bool.true_and, decide_eq_true_eq]
      generalize evs'.countP (Ev.checkAfter p (d.last + 60000)) = n
      by_cases ht : d.last + 60000 < clk.ms
      · rw [if_pos ht]
        by_cases h0 : n = 0
        · subst h0
          simp only [if_true, Option.bind_some, devCheck, ht]
          by_cases hs : d.status = .offline <;> simp [hs, Device.lost]
        · rw [if_neg h0]
          have e1 : ¬ n + (0 + 1) = 0 := by omega
          have e2 : ¬ (n + (0 + 1) = 1 ∧ d.status ≠ .offline) := by omega
          rw [if_neg e1, if_neg e2]
          by_cases h1 : n = 1 ∧ d.status ≠ .offline
          · rw [if_pos h1]; simp [devCheck, ht]
          · rw [if_neg h1]; rfl
      · rw [if_neg ht]
        simp only [Nat.add_zero]
        by_cases h0 : n = 0
        · simp [h0, devCheck, ht]
        · by_cases h1 : n = 1 ∧ d.status ≠ .offline
          · simp [h1, devCheck, ht]
          · simp [h0, h1]
    · have hz : [e].countP (Ev.checkAfter p (d.last + 60000)) = 0 := by
        cases e with
        | check clk q =>
          have : ¬ q = p := fun hx => hk ⟨clk, by rw [hx]⟩
          simp [Ev.checkAfter, this]
        | _ => rfl
      rw [hz, Nat.add_zero, ← ih, run_snoc]
      generalize ho : ((Sys.start.run env (evs ++ evs')).1.step env e).1.st.look p = o
      have hdv := step_dev env _ e hi.1 p
      rw [ho] at hdv
      cases hdv with
      | same => rfl
      | chk clk hj => exact absurd ⟨clk, rfl⟩ hk
      | msg clk c bytes werr hh m hl hdl hp =>
        obtain ⟨h', l, h1, h2⟩ := hqe clk c bytes werr rfl (by rw [← hp]; exact hdl.phone)
        obtain ⟨rfl, rfl⟩ := hdl.unique (h1.delivers _)
        cases (Sys.start.run env (evs ++ evs')).1.st.look p with
        | none => rfl
        | some d1 =>
          simp only [devNext]
          rw [if_neg (fun hx => h2 ((acc_iff _).1 hx))]

/-- What holds of C80: a location report with ACC off refreshes the time the terminal was last heard of, so that no
check in the following minute touches it, whatever else happens.  Missing: reports with ACC on. -/
theorem C80_parked_reports_count_partial (env : Env) (evs evs' : List Ev) (clk : Clock) (c : Conn) (bytes : List UInt8)
    (werr : Option Err) (h : Header) (l : LocMsg) (d : Device) (hc : c ∈ (Sys.start.run env evs).1.live)
    (hh : Holds env clk.civil bytes h (.m0200 l)) (ha : accOff l.status)
    (hd : (Sys.start.run env evs).1.st.look h.phone = some d)
    (hq : ∀ clk c bytes werr, Ev.frame clk c bytes werr ∈ evs' → framePhone env bytes ≠ some h.phone)
    (ht : ∀ clk', Ev.check clk' h.phone ∈ evs' → clk'.ms ≤ clk.ms + 60000) :
    ((Sys.start.run env (evs ++ [.frame clk c bytes werr] ++ evs')).1.st.look h.phone).map
      (fun d => (d.last, d.status, d.plate)) = some (clk.ms, .sleeping, d.plate) := by
  have h1 := run_frame_look hc (hh.delivers _) werr
  rw [hd] at h1
  simp only [devNext] at h1
  rw [if_pos ((acc_iff _).2 ha)] at h1
  rw [C75_fate env _ evs' h.phone _ h1 hq]
  have : evs'.countP (Ev.checkAfter h.phone ((d.asleep clk).last + 60000)) = 0 := by
    rw [List.countP_eq_zero]
    intro e he
    cases e with
    | check clk' q =>
      by_cases hx : q = h.phone
      · subst hx
        have h5 := ht clk' he
        have h6 : (d.asleep clk).last = clk.ms := rfl
        simp only [Ev.checkAfter, decide_true, Bool.true_and, decide_eq_true_eq, h6]
        omega
      · simp [Ev.checkAfter, hx]
    | _ => simp [Ev.checkAfter]
  rw [if_pos this]
  rfl

/-- A terminal reports its position every ten seconds, ACC on, and nothing else. -/
def drivingEvs : List Ev :=
  [.frame (demoClk 12000) demoC (demoLoc 3 31230000) none, .frame (demoClk 22000) demoC (demoLoc 3 31230000) none,
   .frame (demoClk 32000) demoC (demoLoc 3 31230000) none, .frame (demoClk 42000) demoC (demoLoc 3 31230000) none,
   .frame (demoClk 52000) demoC (demoLoc 3 31230000) none, .check (demoClk 61000) (hdr2013 0).phone,
   .frame (demoClk 62000) demoC (demoLoc 3 31230000) none, .frame (demoClk 72000) demoC (demoLoc 3 31230000) none,
   .frame (demoClk 82000) demoC (demoLoc 3 31230000) none, .frame (demoClk 92000) demoC (demoLoc 3 31230000) none,
   .frame (demoClk 102000) demoC (demoLoc 3 31230000) none, .check (demoClk 121000) (hdr2013 0).phone,
   .frame (demoClk 122000) demoC (demoLoc 3 31230000) none, .check (demoClk 181000) (hdr2013 0).phone]
example : ∀ e ∈ drivingEvs, e.drives goEnv (hdr2013 0).phone := by
  intro e he clk c bytes werr hx _
  subst hx
  simp only [drivingEvs, List.mem_cons, Ev.frame.injEq, reduceCtorEq, List.not_mem_nil, or_false, false_or] at he
  have hb : bytes = demoLoc 3 31230000 := by
    rcases he with h | h | h | h | h | h | h | h | h | h | h <;> exact h.2.2.1
  subst hb
  exact ⟨_, _, demoLoc_holds _, by decide⟩
-- all of them are answered; at 121 s it is taken offline, at 181 s it is removed
example : ((Sys.start.run goEnv (silentEvs ++ drivingEvs)).2.countP (·.sent.isSome)) = 13 ∧
    ((Sys.start.run goEnv (silentEvs ++ drivingEvs.take 12)).1.st.look (hdr2013 0).phone).map (·.status) = some .offline ∧
    (Sys.start.run goEnv (silentEvs ++ drivingEvs)).1.st.look (hdr2013 0).phone = none := by decide +kernel
example : (Sys.start.run goEnv silentEvs).1.st.look (hdr2013 0).phone ≠ none ∧ accOff 2 ∧
    ((Sys.start.run goEnv (silentEvs ++ [.frame (demoClk 50000) demoC (demoLoc 2 31230000) none] ++
      [.check (demoClk 109000) (hdr2013 0).phone])).1.st.look (hdr2013 0).phone).map (·.last) = some 50000 := by
  decide +kernel

end JT808
