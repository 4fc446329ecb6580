import Verif.Proof.Devices
/-
The device under a phone over whole histories.
-/
namespace JT808
open Spec

/-- Events that can change the device under phone `p`: frames that speak for it and its keepalive checks. -/
def Ev.touches (env : Env) (p : Str) : Ev → Prop
  | .frame _ _ bytes _ => framePhone env bytes = some p
  | .check _ phone => phone = p
  | _ => False

/-- The clock of an event that reads it. -/
def Ev.time : Ev → Option Nat
  | .frame clk _ _ _ => some clk.ms
  | .check clk _ => some clk.ms
  | _ => none

theorem Delivers.phone {env : Env} {now : Civil} {st : Store} {frame : List UInt8} {h : Header} {m : Msg}
    (a : Delivers env now st frame h m) : framePhone env frame = some h.phone := by
  obtain ⟨s1, k1, t1, j1, a1, rfl, -⟩ := a
  obtain ⟨pd, e1, e2, -⟩ := decodePacket_header a1
  unfold framePhone
  rw [e1, e2]

theorem Eff.look_quiet {st st' : Store} (h : StoreInv st) (he : ∀ q c, Eff q c st st') (p : Str) :
    st'.look p = st.look p :=
  ((he (p ++ [0]) ⟨0, []⟩).other h (by intro hx; have := congrArg List.length hx; simp at this)).look

/-- What one event does to the device under `p`. -/
inductive DevEv (env : Env) (s : Sys) (p : Str) : Ev → Option Device → Prop
  | same (e : Ev) : DevEv env s p e (s.st.look p)
  | msg (clk : Clock) (c : Conn) (bytes : List UInt8) (werr : Option Err) (h : Header) (m : Msg) :
      c ∈ s.live → Delivers env clk.civil s.st bytes h m → h.phone = p →
      DevEv env s p (.frame clk c bytes werr) (devNext clk c h s.st.taken m (s.st.look p))
  | chk (clk : Clock) : p ∈ s.st.jobs → DevEv env s p (.check clk p) ((s.st.look p).bind (devCheck clk.ms))

theorem step_dev (env : Env) (s : Sys) (e : Ev) (h : StoreInv s.st) (p : Str) :
    DevEv env s p e ((s.step env e).1.st.look p) := by
  unfold Sys.step
  by_cases hcr : s.crashed = true
  · rw [if_pos hcr]; exact .same e
  · rw [if_neg hcr]
    cases e with
    | accept addr => exact .same _
    | frame clk c bytes werr =>
      simp only
      by_cases hl : c ∈ s.live
      · rw [if_pos hl]
        simp only
        by_cases hd : ∃ hh m, Delivers env clk.civil s.st bytes hh m
        · obtain ⟨hh, m, hd⟩ := hd
          rw [look_serveFrame h hd]
          by_cases hp : p = hh.phone
          · rw [if_pos hp, ← hp]; exact .msg clk c bytes werr hh m hl hd hp.symm
          · rw [if_neg hp]; exact .same _
        · rw [look_serveFrame_none (fun hh m hx => hd ⟨hh, m, hx⟩)]; exact .same _
      · rw [if_neg hl]; exact .same _
    | readErr c e =>
      simp only
      by_cases hl : c ∈ s.live
      · rw [if_pos hl]
        have : (s.st.serveErr c e).1.look p = s.st.look p := by
          unfold Store.serveErr
          by_cases he : e.endsServe = true
          · rw [if_pos he]; rfl
          · rw [if_neg he]
        simp only
        rw [this]; exact .same _
      · rw [if_neg hl]; exact .same _
    | check clk phone =>
      simp only
      by_cases hj : phone ∈ s.st.jobs
      · rw [if_pos hj]
        simp only
        rw [look_check h hj]
        by_cases hp : p = phone
        · subst hp; rw [if_pos rfl]; exact .chk clk hj
        · rw [if_neg hp]; exact .same _
      · rw [if_neg hj]; exact .same _
    | httpList => exact .same _
    | httpGeo phone =>
      simp only
      rw [(apiGeo_same h phone).1.look]; exact .same _
    | httpQuery phone werr =>
      simp only
      rw [Eff.look_quiet h (fun q c => apiQuery_quiet q c s.st phone)]; exact .same _
    | httpSet phone bound bad werr =>
      simp only
      rw [Eff.look_quiet h (fun q c => apiSet_quiet q c s.st phone bound bad)]; exact .same _

theorem step_untouched (env : Env) (s : Sys) (e : Ev) (h : StoreInv s.st) (p : Str) (hu : ¬ e.touches env p) :
    (s.step env e).1.st.look p = s.st.look p := by
  generalize ho : (s.step env e).1.st.look p = o
  have hd := step_dev env s e h p
  rw [ho] at hd
  cases hd with
  | same => rfl
  | msg clk c bytes werr hh m hl hdl hp => exact absurd (by rw [← hp]; exact hdl.phone) hu
  | chk clk hj => exact absurd rfl hu

theorem run_untouched (env : Env) (evs : List Ev) (s : Sys) (h : StoreInv s.st) (p : Str)
    (hu : ∀ e ∈ evs, ¬ e.touches env p) : (s.run env evs).1.st.look p = s.st.look p := by
  induction evs generalizing s with
  | nil => rfl
  | cons e evs ih =>
    have h1 := step_untouched env s e h p (hu e (by simp))
    have h2 := ih (s.step env e).1 (step_inv env s e h).1 (fun e' he => hu e' (by simp [he]))
    exact h2.trans h1

/-- Whatever an event leaves under a phone was last heard of at the clock of that event or is not younger than before. -/
theorem devNext_last {clk : Clock} {c : Conn} {h : Header} {taken : Str → Bool} {m : Msg} {o : Option Device}
    {d' : Device} (he : devNext clk c h taken m o = some d') :
    d'.last = clk.ms ∨ ∃ d, o = some d ∧ d'.last = d.last := by
  cases o with
  | none =>
    cases m <;> simp only [devNext] at he <;> first | cases he | skip
    case m0100 m =>
      by_cases ht : taken m.plate = true
      · rw [if_pos ht] at he; cases he
      · rw [if_neg ht] at he; injection he with he; subst he; exact .inl rfl
  | some d =>
    cases m <;> simp only [devNext] at he
    case m0002 => injection he with he; subst he; exact .inl rfl
    case m0003 => cases he
    case m0102 m =>
      by_cases hc : m.code = d.code
      · rw [if_pos hc] at he; injection he with he; subst he; exact .inl rfl
      · rw [if_neg hc] at he; cases he
    case m0200 m =>
      injection he with he
      by_cases ha : (GeoMeta.decode m.status).acc = 0
      · rw [if_pos ha] at he; subst he; exact .inl rfl
      · rw [if_neg ha] at he; subst he; exact .inr ⟨_, rfl, rfl⟩
    case m8001 m =>
      injection he with he
      by_cases ha : m.result = 0 ∧ d.status = .offline
      · rw [if_pos ha] at he; subst he; exact .inl rfl
      · rw [if_neg ha] at he; subst he; exact .inr ⟨_, rfl, rfl⟩
    all_goals (injection he with he; subst he; exact .inr ⟨_, rfl, rfl⟩)

theorem devCheck_last {now : Nat} {d d' : Device} (h : devCheck now d = some d') : d'.last = d.last := by
  unfold devCheck at h
  by_cases h1 : d.last + 60000 < now
  · rw [if_pos h1] at h
    by_cases h2 : d.status = .offline
    · rw [if_pos h2] at h; cases h
    · rw [if_neg h2] at h; injection h with h; subst h; rfl
  · rw [if_neg h1] at h; injection h with h; subst h; rfl

theorem step_last (env : Env) (s : Sys) (e : Ev) (h : StoreInv s.st) (p : Str) (t : Nat)
    (ht : ∀ t', e.time = some t' → t ≤ t') (hl : ∀ d, s.st.look p = some d → t ≤ d.last) :
    ∀ d, (s.step env e).1.st.look p = some d → t ≤ d.last := by
  generalize ho : (s.step env e).1.st.look p = o
  have hd := step_dev env s e h p
  rw [ho] at hd
  intro d hx
  cases hd with
  | same => exact hl d hx
  | msg clk c bytes werr hh m hlv hdl hp =>
    rcases devNext_last hx with h1 | ⟨d0, h1, h2⟩
    · rw [h1]; exact ht _ rfl
    · rw [h2]; exact hl d0 h1
  | chk clk hj =>
    cases hq : s.st.look p with
    | none => rw [hq] at hx; cases hx
    | some d0 => rw [hq] at hx; rw [devCheck_last hx]; exact hl d0 hq

theorem run_last (env : Env) (evs : List Ev) (s : Sys) (h : StoreInv s.st) (p : Str) (t : Nat)
    (ht : ∀ e ∈ evs, ∀ t', e.time = some t' → t ≤ t') (hl : ∀ d, s.st.look p = some d → t ≤ d.last) :
    ∀ d, (s.run env evs).1.st.look p = some d → t ≤ d.last := by
  induction evs generalizing s with
  | nil => exact hl
  | cons e evs ih =>
    exact ih (s.step env e).1 (step_inv env s e h).1 (fun e' he => ht e' (by simp [he]))
      (step_last env s e h p t (ht e (by simp)) hl)

/-- A check of a phone heard of recently does nothing. -/
theorem check_recent {clk : Clock} {s : Sys} (env : Env) (h : StoreInv s.st) (hc : s.crashed = false) (p : Str)
    (hl : ∀ d, s.st.look p = some d → clk.ms ≤ d.last + 60000) : s.step env (.check clk p) = (s, Obs.none) := by
  unfold Sys.step
  rw [if_neg (by rw [hc]; simp)]
  simp only
  by_cases hj : p ∈ s.st.jobs
  · rw [if_pos hj]
    obtain ⟨r, hr⟩ := Option.isSome_iff_exists.1 ((h.jobs p).1 hj)
    obtain ⟨cn, -, h2⟩ := check_registered (clk := clk) h hr
    have hk := h.keep _ _ hr
    have ht := hl _ (Store.look_some.2 ⟨r, hr, rfl⟩)
    have ht' : ¬ clk.ms > 60000 + (s.st.heap r).last := by omega
    rw [h2]
    unfold Device.shouldTurnOffline Device.shouldClear
    rw [hk]
    simp only [ht', decide_false, Bool.and_false, Bool.false_eq_true, if_false]
    have : (Res.ok () == Res.panic) = false := rfl
    rw [this, ← hc]
  · rw [if_neg hj]

end JT808
