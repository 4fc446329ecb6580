import Verif.Props.Bytes
import Verif.Props.Connections
/-
C121: how many bytes the server holds for a connection it is reading.
-/
namespace JT808
open Spec

/-- The loop variables of Recv after the bytes and failures of one connection. -/
def holdAfter (r : RecvSt) : List (UInt8 ⊕ Err) → RecvSt
  | [] => r
  | .inl b :: s =>
    match recvStep r b with
    | .inl _ => holdAfter RecvSt.fresh s
    | .inr q => holdAfter q s
  | .inr _ :: s => holdAfter RecvSt.fresh s

theorem holdAfter_append (a b : List (UInt8 ⊕ Err)) (r : RecvSt) : holdAfter r (a ++ b) = holdAfter (holdAfter r a) b := by
  induction a generalizing r with
  | nil => rfl
  | cons x a ih =>
    cases x with
    | inl v =>
      simp only [List.cons_append, holdAfter]
      cases recvStep r v with
      | inl f => exact ih _
      | inr q => exact ih _
    | inr e => exact ih _

theorem recvAfter_hold (c : Conn) (es : List BEv) (r : Conn → RecvSt) :
    recvAfter r es c = holdAfter (r c) (es.filterMap (BEv.readOn c)) := by
  induction es generalizing r with
  | nil => rfl
  | cons e es ih =>
    have hsame : ∀ q : RecvSt, recvAfter (fun x => if x = c then q else r x) es c =
        holdAfter q (es.filterMap (BEv.readOn c)) := fun q => by rw [ih]; simp
    have hother : ∀ c' (q : RecvSt), c' ≠ c → recvAfter (fun x => if x = c' then q else r x) es c =
        holdAfter (r c) (es.filterMap (BEv.readOn c)) := fun c' q h => by rw [ih, if_neg fun x => h x.symm]
    cases e with
    | byte clk c' b werr =>
      by_cases hc : c' = c
      · subst hc
        simp only [List.filterMap_cons, BEv.readOn, if_true, recvAfter, holdAfter]
        cases recvStep (r c') b with
        | inl f => exact hsame _
        | inr q => exact hsame _
      · simp only [List.filterMap_cons, BEv.readOn, if_neg hc, recvAfter]
        cases recvStep (r c') b with
        | inl f => exact hother c' _ hc
        | inr q => exact hother c' _ hc
    | fail c' e =>
      by_cases hc : c' = c
      · subst hc
        simp only [List.filterMap_cons, BEv.readOn, if_true, recvAfter, holdAfter]
        exact hsame _
      · simp only [List.filterMap_cons, BEv.readOn, if_neg hc, recvAfter]
        exact hother c' _ hc
    | other e =>
      simp only [List.filterMap_cons, BEv.readOn, recvAfter]
      exact ih _

theorem run_recv (env : Env) (es : List BEv) (w : ByteSys) : (w.run env es).1.recv = recvAfter w.recv es := by
  induction es generalizing w with
  | nil => rfl
  | cons e es ih =>
    cases e with
    | byte clk c b werr =>
      simp only [ByteSys.run, ByteSys.step, recvAfter]
      cases recvStep (w.recv c) b with
      | inl f => exact ih _
      | inr q => exact ih _
    | fail c e => exact ih _
    | other e =>
      simp only [ByteSys.run, ByteSys.step, recvAfter]
      cases e.isRead with
      | true => exact ih w
      | false => exact ih _

/-- What the server holds of connection `c`: the `buf` of the Recv call its loop is in. -/
def ByteSys.held (w : ByteSys) (c : Conn) : List UInt8 := (w.recv c).buf

theorem held_eq (env : Env) (evs : List BEv) (c : Conn) :
    (ByteSys.start.run env evs).1.recv c = holdAfter RecvSt.fresh (evs.filterMap (BEv.readOn c)) := by
  rw [run_recv, recvAfter_hold]; rfl

theorem hold_pending (s : List (UInt8 ⊕ Err)) :
    ∃ pre p, s = pre ++ p.map .inl ∧ Pending p (holdAfter RecvSt.fresh s) := by
  induction s using snoc_ind with
  | h0 => exact ⟨[], [], rfl, .out [] (by simp)⟩
  | h1 s x ih =>
    obtain ⟨pre, p, hs, hp⟩ := ih
    rw [holdAfter_append]
    cases x with
    | inr e => exact ⟨s ++ [.inr e], [], by simp, .out [] (by simp)⟩
    | inl b =>
      rcases hp.next b with ⟨noise, f, h1, -, -, -⟩ | ⟨q, h1, hq⟩
      · refine ⟨s ++ [.inl b], [], by simp, ?_⟩
        simp only [holdAfter, h1]
        exact .out [] (by simp)
      · refine ⟨pre, p ++ [b], by rw [hs]; simp, ?_⟩
        simp only [holdAfter, h1]
        exact hq

/-- Whatever arrives in whatever order, what the server holds of a connection is the end of what that connection sent: it
starts with a delimiter and has no other one.  Noise, complete frames and frames cut off by a failure are not held. -/
theorem C121_held (env : Env) (evs : List BEv) (c : Conn) :
    let held := (ByteSys.start.run env evs).1.held c
    (∃ pre, evs.filterMap (BEv.readOn c) = pre ++ held.map .inl) ∧
    (held = [] ∨ ∃ mid, (0x7e : UInt8) ∉ mid ∧ held = 0x7e :: mid) := by
  simp only [ByteSys.held, held_eq]
  obtain ⟨pre, p, hs, hp⟩ := hold_pending (evs.filterMap (BEv.readOn c))
  generalize holdAfter RecvSt.fresh (evs.filterMap (BEv.readOn c)) = r at hp
  cases hp with
  | out p h => exact ⟨⟨evs.filterMap (BEv.readOn c), by simp⟩, .inl rfl⟩
  | into noise mid h hm =>
    exact ⟨⟨pre ++ noise.map .inl, by rw [hs]; simp⟩, .inr ⟨mid, hm, rfl⟩⟩

theorem hold_mid (mid : List UInt8) (hm : (0x7e : UInt8) ∉ mid) (buf : List UInt8) :
    holdAfter ⟨true, buf⟩ (mid.map .inl) = ⟨true, buf ++ mid⟩ := by
  induction mid generalizing buf with
  | nil => simp [holdAfter]
  | cons b mid ih =>
    have hb : b ≠ 0x7e := fun h => hm (by simp [h])
    simp only [List.map_cons, holdAfter, recvStep, if_neg hb, if_true]
    rw [ih fun h => hm (by simp [h])]
    simp

theorem hold_open (mid : List UInt8) (hm : (0x7e : UInt8) ∉ mid) :
    holdAfter RecvSt.fresh ((0x7e :: mid).map .inl) = ⟨true, 0x7e :: mid⟩ := by
  rw [List.map_cons]
  show holdAfter ⟨true, [0x7e]⟩ (mid.map .inl) = _
  rw [hold_mid mid hm]; rfl

theorem hold_frame (f : List UInt8) (hf : Delimited f) : holdAfter RecvSt.fresh (f.map .inl) = RecvSt.fresh := by
  obtain ⟨mid, hm, rfl⟩ := hf
  rw [← List.cons_append, List.map_append, holdAfter_append, hold_open mid hm]
  rfl

/-- A peer that sends nothing but frames of at most `n` bytes makes the server hold fewer than `n` bytes, at every
moment. -/
theorem hold_frames (n : Nat) (hn : 0 < n) (fs : List (List UInt8)) (hf : ∀ f ∈ fs, Delimited f ∧ f.length ≤ n)
    (p : List UInt8) (hp : p <+: fs.flatten) : (holdAfter RecvSt.fresh (p.map .inl)).buf.length < n := by
  induction fs generalizing p with
  | nil =>
    have : p = [] := by simpa using hp
    subst this; exact hn
  | cons f fs ih =>
    rw [List.flatten_cons] at hp
    obtain ⟨hd, hl⟩ := hf f (by simp)
    by_cases hlen : f.length ≤ p.length
    · obtain ⟨t, ht⟩ := hp
      have e : p = f ++ p.drop f.length := by
        have := congrArg (List.take f.length) ht
        rw [List.take_append_of_le_length hlen, List.take_left'] at this
        · conv => lhs; rw [← List.take_append_drop f.length p, this]
        · rfl
      rw [e, List.map_append, holdAfter_append, hold_frame f hd]
      refine ih (fun g hg => hf g (by simp [hg])) _ ⟨t, ?_⟩
      rw [e, List.append_assoc] at ht
      exact List.append_cancel_left ht
    · obtain ⟨mid, hm, rfl⟩ := hd
      have hpre : p <+: 0x7e :: (mid ++ [0x7e]) := by
        refine List.prefix_of_prefix_length_le hp (List.prefix_append _ _) (by omega)
      cases p with
      | nil => exact hn
      | cons b p =>
        obtain ⟨rfl, hpre'⟩ := List.cons_prefix_cons.1 hpre
        have hpm : p <+: mid := by
          refine List.prefix_of_prefix_length_le hpre' (List.prefix_append _ _) ?_
          simp at hlen; omega
        rw [hold_open p fun h => hm (hpm.subset h)]
        simp at hlen hl ⊢; omega

/-- What is missing for C121: the peer has to close its frames.  If what a connection has sent so far is the beginning of
a sequence of frames of messages of the size the protocol allows (header of 21 bytes, body of 1023, checksum), the server
holds at most 2091 bytes of it. -/
theorem C121_bounded_partial (env : Env) (evs : List BEv) (c : Conn) (packets : List (List UInt8))
    (hs : ∀ p ∈ packets, p.length ≤ 21 + 1023 + 1)
    (sent : List UInt8) (hp : sent <+: (packets.map frameOf).flatten)
    (hr : evs.filterMap (BEv.readOn c) = sent.map .inl) :
    ((ByteSys.start.run env evs).1.held c).length ≤ 2091 := by
  simp only [ByteSys.held, held_eq, hr]
  have := hold_frames 2092 (by omega) (packets.map frameOf) (fun f hf => by
    obtain ⟨p, hp, rfl⟩ := List.mem_map.1 hf
    refine ⟨frameOf_delimited p, ?_⟩
    have h1 : (p.flatMap stuff).length ≤ 2 * p.length := by
      clear hp hf
      induction p with
      | nil => simp
      | cons b p ih =>
        have : (stuff b).length ≤ 2 := by unfold stuff; split <;> (try split) <;> simp
        rw [List.flatMap_cons, List.length_append, List.length_cons]; omega
    have h2 := hs p hp
    unfold frameOf
    rw [List.length_append, List.length_append, List.length_singleton]; omega) sent hp
  omega

/-- Two frames of a terminal, of which the second is still under way. -/
example : ((ByteSys.start.run goEnv ((frameOf [1, 2, 3] ++ [0x7e, 4, 5]).map fun b =>
    .byte (demoClk 0) demoC b none)).1.held demoC) = [0x7e, 4, 5] := by decide +kernel

/-- A connection on which one delimiter and then anything but delimiters arrives is never given up, and all of it is
held: there is no limit.  This may go on while anything else happens on the server, for any length of time. -/
theorem C121_flood (env : Env) (evs evs' : List BEv) (addr : Str) (mid : List UInt8) (hm : (0x7e : UInt8) ∉ mid)
    (c : Conn) (hc : c = ⟨(ByteSys.start.run env evs).1.sys.accepted, addr⟩)
    (h0 : ∀ e ∈ evs, e.readOn c = none)
    (h1 : evs'.filterMap (BEv.readOn c) = (0x7e :: mid).map .inl)
    (h2 : ∀ e, BEv.other e ∈ evs' → ¬ e.usesConn c) :
    let w := (ByteSys.start.run env (evs ++ .other (.accept addr) :: evs')).1
    w.held c = 0x7e :: mid ∧ c ∈ w.sys.live ∧ w.sys.st.closed c.id = false := by
  have hn : evs.filterMap (BEv.readOn c) = [] := List.filterMap_eq_nil_iff.2 h0
  have hheld : (ByteSys.start.run env (evs ++ .other (.accept addr) :: evs')).1.recv c = ⟨true, 0x7e :: mid⟩ := by
    rw [held_eq, List.filterMap_append, hn, List.filterMap_cons]
    simp only [BEv.readOn, h1, List.nil_append]
    exact hold_open mid hm
  refine ⟨by rw [ByteSys.held, hheld], ?_⟩
  have hr := byte_run env (evs ++ .other (.accept addr) :: evs') ByteSys.start
  have hr0 := byte_run env evs ByteSys.start
  rw [hr.1, toFrames_append]
  have hfr : recvAfter ByteSys.start.recv evs c = RecvSt.fresh := by rw [recvAfter_hold, hn]; rfl
  have : ∀ e ∈ toFrames (recvAfter ByteSys.start.recv evs) evs', ¬ e.usesConn c := by
    intro e he
    have hcut := cut_frames c evs' (recvAfter ByteSys.start.recv evs) [] (by rw [hfr]; exact .out [] (by simp))
    rw [h1] at hcut
    have hnil : (toFrames (recvAfter ByteSys.start.recv evs) evs').filterMap (Ev.readOn c) = [] := by
      refine (cut_eq hcut).trans (cut_eq ?_).symm
      simpa using Cut.rest (ε := Err) (0x7e :: mid) (by
        rw [List.count_cons, List.count_eq_zero.mpr hm]; decide)
    have hno : e.readOn c = none := List.filterMap_eq_nil_iff.1 hnil e he
    by_cases hread : e.isRead
    · intro hu
      cases e with
      | frame clk c' f werr => simp only [Ev.usesConn] at hu; subst hu; simp [Ev.readOn] at hno
      | readErr c' x => simp only [Ev.usesConn] at hu; subst hu; simp [Ev.readOn] at hno
      | _ => cases hread
    · have hmem : e ∈ (toFrames (recvAfter ByteSys.start.recv evs) evs').filter Ev.notRead :=
        List.mem_filter.2 ⟨he, by simp [Ev.notRead, hread]⟩
      rw [cut_others] at hmem
      obtain ⟨b, hb, hbe⟩ := List.mem_filterMap.1 (List.mem_filter.1 hmem).1
      cases b with
      | byte clk c' b werr => cases hbe
      | fail c' x => cases hbe
      | other e' => injection hbe with hbe; subst hbe; exact h2 _ hb
  subst hc
  have hacc : (ByteSys.start.run env evs).1.sys.accepted = (Sys.start.run env (toFrames ByteSys.start.recv evs)).1.accepted := by
    rw [hr0.1]; rfl
  rw [hacc] at this ⊢
  exact C86_idle_never_closed env (toFrames ByteSys.start.recv evs) _ addr this

/-- A peer that opens a frame and goes on with seven bytes of the same kind, while another one connects. -/
example : ((ByteSys.start.run goEnv ([.other (.accept [0x61])] ++
    ((0x7e :: List.replicate 3 0x41).map fun b => .byte (demoClk 0) ⟨0, [0x61]⟩ b none) ++ [.other (.accept [0x62])] ++
    ((List.replicate 4 0x41).map fun b => .byte (demoClk 0) ⟨0, [0x61]⟩ b none))).1.held ⟨0, [0x61]⟩).length = 8 := by
  decide +kernel

/-- So no bound on what is held can be given. -/
theorem C121_no_bound (env : Env) (n : Nat) : ∃ evs c, n < ((ByteSys.start.run env evs).1.held c).length ∧
    c ∈ (ByteSys.start.run env evs).1.sys.live := by
  have := C121_flood env [] ((0x7e :: List.replicate n 0x41).map fun b => .byte (demoClk 0) ⟨0, [0x61]⟩ b none) [0x61]
    (List.replicate n 0x41) (by simp) ⟨0, [0x61]⟩ rfl (by simp) (by
      rw [List.filterMap_map]
      have : (BEv.readOn ⟨0, [0x61]⟩ ∘ fun b => BEv.byte (demoClk 0) ⟨0, [0x61]⟩ b none) = fun b => some (.inl b) := by
        funext b; simp [BEv.readOn]
      rw [this, List.filterMap_eq_map']) (by simp)
  simp only at this
  exact ⟨_, _, by rw [this.1, List.length_cons, List.length_replicate]; omega, this.2.1⟩

end JT808
