import Verif.Model.Serve
import Verif.Proof.Tracks
import Verif.Props.Framing
import Verif.Props.Handlers
/-
C60: serving a connection is handling its frames one after another.
-/
namespace JT808
open Spec

/-- The frames of a stream as events of the server, then the end of the stream. -/
def frameEvs (c : Conn) (e : Err) : List (List UInt8) → List (Clock × Option Err) → List Ev
  | f :: fs, p :: ps => .frame p.1 c f p.2 :: frameEvs c e fs ps
  | _, _ => [.readErr c e]

/-- What was sent. -/
def sentOf (os : List Obs) : List (Conn × List UInt8) := os.filterMap Obs.sent

theorem step_gone {env : Env} {s : Sys} {c : Conn} (hl : c ∉ s.live) (clk : Clock) (bytes : List UInt8) (werr : Option Err) :
    s.step env (.frame clk c bytes werr) = (s, Obs.none) := by
  unfold Sys.step
  split
  · rfl
  · simp only; rw [if_neg hl]

theorem step_gone_err {env : Env} {s : Sys} {c : Conn} (hl : c ∉ s.live) (e : Err) :
    s.step env (.readErr c e) = (s, Obs.none) := by
  unfold Sys.step
  split
  · rfl
  · simp only; rw [if_neg hl]

/-- Events of a connection that is not served do nothing. -/
theorem run_gone {env : Env} {s : Sys} {c : Conn} (hl : c ∉ s.live) (e : Err) (fs : List (List UInt8))
    (ps : List (Clock × Option Err)) :
    (s.run env (frameEvs c e fs ps)).1 = s ∧ sentOf (s.run env (frameEvs c e fs ps)).2 = [] := by
  have hend : (s.run env [.readErr c e]).1 = s ∧ sentOf (s.run env [.readErr c e]).2 = [] := by
    simp only [Sys.run, step_gone_err hl]
    exact ⟨trivial, rfl⟩
  induction fs generalizing ps with
  | nil => cases ps <;> exact hend
  | cons f fs ih =>
    cases ps with
    | nil => exact hend
    | cons p ps =>
      simp only [frameEvs, Sys.run, step_gone hl]
      exact ih ps

theorem step_served {env : Env} {s : Sys} {c : Conn} (hc : s.crashed = false) (hl : c ∈ s.live) (clk : Clock)
    (bytes : List UInt8) (werr : Option Err) :
    s.step env (.frame clk c bytes werr) =
      ({ s with st := (s.st.serveFrame env clk c werr bytes).1
                live := if (s.st.serveFrame env clk c werr bytes).2.ended then s.live.filter (· ≠ c) else s.live },
        (s.st.serveFrame env clk c werr bytes).2) := by
  unfold Sys.step
  rw [if_neg (by rw [hc]; simp)]
  simp only
  rw [if_pos hl]

theorem serveErr_sent (st : Store) (c : Conn) (e : Err) : (st.serveErr c e).2.sent = none := by
  unfold Store.serveErr
  split <;> rfl

theorem recv_tail (e : Err) (tail : List UInt8) (ht : tail.count 0x7e ≤ 1) : recv e tail = (.err e, []) :=
  (C05_error_iff e tail).2 ht

/-- Every stream is a sequence of noise-preceded frames and a rest with at most one delimiter, and in one way only as far
as the frames and the rest behind them go. -/
theorem C60_every_stream_decomposes (s : List UInt8) :
    ∃ items tail, s = streamOf items tail ∧ (∀ it ∈ items, (0x7e : UInt8) ∉ it.1) ∧ (∀ it ∈ items, Delimited it.2) ∧
      tail.count 0x7e ≤ 1 := by
  generalize hn : s.length = n
  induction n using Nat.strongRecOn generalizing s with
  | ind n ih =>
    rcases recv_cases .eof s with ⟨-, h⟩ | ⟨noise, f, rest, h1, h2, rfl, -⟩
    · exact ⟨[], s, rfl, by simp, by simp, h⟩
    · have hf : 2 ≤ f.length := by obtain ⟨mid, -, rfl⟩ := h2; simp
      obtain ⟨items, tail, rfl, a, b, c⟩ := ih rest.length (by simp at hn; omega) rest rfl
      refine ⟨(noise, f) :: items, tail, by simp [streamOf], ?_, ?_, c⟩
      · intro it hit
        rcases List.mem_cons.1 hit with rfl | hit
        · exact h1
        · exact a it hit
      · intro it hit
        rcases List.mem_cons.1 hit with rfl | hit
        · exact h2
        · exact b it hit

/-- Serving the whole of a stream on a connection (one pass for each frame and one for the end of the stream) leaves the
server as handling its frames one after another and then the end of the stream, and sends the same replies in the same
order.  Noise between frames has no influence. -/
theorem C60_frame_by_frame (env : Env) (e : Err) (c : Conn) (items : List (List UInt8 × List UInt8)) (tail : List UInt8)
    (hnoise : ∀ it ∈ items, (0x7e : UInt8) ∉ it.1) (hframe : ∀ it ∈ items, Delimited it.2)
    (htail : tail.count 0x7e ≤ 1) (ps : List (Clock × Option Err)) (hp : ps.length = items.length + 1)
    (s : Sys) (hc : s.crashed = false) (hl : c ∈ s.live) :
    (s.st.serve env e c ps (streamOf items tail)).1 = (s.run env (frameEvs c e (items.map Prod.snd) ps)).1.st ∧
    sentOf (s.st.serve env e c ps (streamOf items tail)).2 =
      sentOf (s.run env (frameEvs c e (items.map Prod.snd) ps)).2 := by
  induction items generalizing s ps with
  | nil =>
    obtain ⟨p, rfl⟩ : ∃ p, ps = [p] := List.length_eq_one_iff.1 hp
    have e1 : recv e (streamOf [] tail) = (.err e, []) := recv_tail e tail htail
    have e2 : s.step env (.readErr c e) = ({ s with st := (s.st.serveErr c e).1
                                                    live := if (s.st.serveErr c e).2.ended then s.live.filter (· ≠ c)
                                                      else s.live }, (s.st.serveErr c e).2) := by
      unfold Sys.step
      rw [if_neg (by rw [hc]; simp)]
      simp only
      rw [if_pos hl]
    simp only [Store.serve, e1, frameEvs, List.map_nil, Sys.run, e2]
    split <;> simp [sentOf, serveErr_sent]
  | cons it items ih =>
    cases ps with
    | nil => simp at hp
    | cons p ps =>
      have e1 : recv e (streamOf (it :: items) tail) = (.ok it.2, streamOf items tail) := by
        have := recv_frame e it.1 it.2 (streamOf items tail) (hnoise it (by simp)) (hframe it (by simp))
        simpa [streamOf, List.append_assoc] using this
      simp only [List.map_cons, frameEvs, Sys.run, Store.serve, e1, step_served hc hl]
      cases hend : (s.st.serveFrame env p.1 c p.2 it.2).2.ended with
      | true =>
        simp only [if_true]
        have hg := run_gone (env := env) (s := { s with st := (s.st.serveFrame env p.1 c p.2 it.2).1
                                                        live := s.live.filter (· ≠ c) }) (c := c) (by simp) e
          (items.map Prod.snd) ps
        rw [hg.1]
        refine ⟨rfl, ?_⟩
        have h2 := hg.2
        unfold sentOf at h2 ⊢
        rw [List.filterMap_cons, List.filterMap_cons, h2]
        rfl
      | false =>
        simp only [Bool.false_eq_true, if_false]
        obtain ⟨a, b⟩ := ih (fun x hx => hnoise x (by simp [hx])) (fun x hx => hframe x (by simp [hx])) ps
          (by simpa using hp) { s with st := (s.st.serveFrame env p.1 c p.2 it.2).1 } hc hl
        refine ⟨a, ?_⟩
        unfold sentOf at b ⊢
        rw [List.filterMap_cons, List.filterMap_cons, b]

/-- Two streams with the same frames and different noise are served alike. -/
theorem C60_noise_irrelevant (env : Env) (e : Err) (c : Conn) (items items' : List (List UInt8 × List UInt8))
    (tail tail' : List UInt8) (hsame : items.map Prod.snd = items'.map Prod.snd)
    (hnoise : ∀ it ∈ items ++ items', (0x7e : UInt8) ∉ it.1) (hframe : ∀ it ∈ items, Delimited it.2)
    (htail : tail.count 0x7e ≤ 1) (htail' : tail'.count 0x7e ≤ 1) (ps : List (Clock × Option Err))
    (hp : ps.length = items.length + 1) (s : Sys) (hc : s.crashed = false) (hl : c ∈ s.live) :
    (s.st.serve env e c ps (streamOf items tail)).1 = (s.st.serve env e c ps (streamOf items' tail')).1 ∧
    sentOf (s.st.serve env e c ps (streamOf items tail)).2 = sentOf (s.st.serve env e c ps (streamOf items' tail')).2 := by
  have hlen : items.length = items'.length := by simpa using congrArg List.length hsame
  have hframe' : ∀ it ∈ items', Delimited it.2 := by
    intro it hit
    have : it.2 ∈ items.map Prod.snd := by rw [hsame]; exact List.mem_map_of_mem hit
    obtain ⟨it', h1, h2⟩ := List.mem_map.1 this
    rw [← h2]; exact hframe it' h1
  obtain ⟨a, b⟩ := C60_frame_by_frame env e c items tail (fun it h => hnoise it (by simp [h])) hframe htail ps hp s hc hl
  obtain ⟨a', b'⟩ := C60_frame_by_frame env e c items' tail' (fun it h => hnoise it (by simp [h])) hframe' htail' ps
    (by omega) s hc hl
  rw [a, b, a', b', hsame]
  exact ⟨rfl, rfl⟩

/-- A frame whose content has a wrong checksum, anywhere in a stream, changes nothing.  Missing for the full C60: frames
that are bad in another way may end the connection (C60_short_frame_closes). -/
theorem C60_corrupt_skipped_partial (env : Env) (e : Err) (c : Conn) (pre post : List (List UInt8 × List UInt8))
    (bad noise tail : List UInt8) (hnoise : ∀ it ∈ pre ++ (noise, bad) :: post, (0x7e : UInt8) ∉ it.1)
    (hframe : ∀ it ∈ pre ++ (noise, bad) :: post, Delimited it.2) (htail : tail.count 0x7e ≤ 1)
    (hbad : xorSum (unescape env bad).data ≠ 0) (ps qs : List (Clock × Option Err)) (p : Clock × Option Err)
    (hp : ps.length = pre.length) (hq : qs.length = post.length + 1) (s : Sys) (hc : s.crashed = false) (hl : c ∈ s.live) :
    (s.st.serve env e c (ps ++ p :: qs) (streamOf (pre ++ (noise, bad) :: post) tail)).1 =
      (s.st.serve env e c (ps ++ qs) (streamOf (pre ++ post) tail)).1 ∧
    sentOf (s.st.serve env e c (ps ++ p :: qs) (streamOf (pre ++ (noise, bad) :: post) tail)).2 =
      sentOf (s.st.serve env e c (ps ++ qs) (streamOf (pre ++ post) tail)).2 := by
  obtain ⟨a, b⟩ := C60_frame_by_frame env e c _ tail hnoise hframe htail (ps ++ p :: qs) (by simp; omega) s hc hl
  obtain ⟨a', b'⟩ := C60_frame_by_frame env e c (pre ++ post) tail
    (fun it h => hnoise it (by simp at h ⊢; rcases h with h | h <;> simp [h]))
    (fun it h => hframe it (by simp at h ⊢; rcases h with h | h <;> simp [h])) htail (ps ++ qs) (by simp; omega) s hc hl
  have hb : Delimited bad := hframe (noise, bad) (by simp)
  rw [a, b, a', b']
  clear a b a' b' hnoise hframe
  induction pre generalizing ps s with
  | nil =>
    obtain rfl : ps = [] := List.length_eq_zero_iff.1 hp
    by_cases hl : c ∈ s.live
    · simp only [List.nil_append, List.map_cons, frameEvs, Sys.run, step_served hc hl,
        C28_corrupt_raw_ignored env _ c _ _ bad hb hbad]
      exact ⟨rfl, rfl⟩
    · simp only [List.nil_append, List.map_cons, frameEvs, Sys.run, step_gone hl]
      exact ⟨trivial, rfl⟩
  | cons it pre ih =>
    cases ps with
    | nil => simp at hp
    | cons q ps =>
      simp only [List.cons_append, List.map_cons, frameEvs, Sys.run, step_served hc hl]
      cases hend : (s.st.serveFrame env q.1 c q.2 it.2).2.ended with
      | true =>
        simp only [if_true]
        have hg := fun fs ps => run_gone (env := env) (s := { s with st := (s.st.serveFrame env q.1 c q.2 it.2).1
                                                                     live := s.live.filter (· ≠ c) }) (c := c) (by simp) e
          fs ps
        rw [(hg _ _).1, (hg _ _).1]
        refine ⟨rfl, ?_⟩
        have h1 := (hg (List.map Prod.snd (pre ++ (noise, bad) :: post)) (ps ++ p :: qs)).2
        have h2 := (hg (List.map Prod.snd (pre ++ post)) (ps ++ qs)).2
        unfold sentOf at h1 h2 ⊢
        rw [List.filterMap_cons, List.filterMap_cons, h1, h2]
      | false =>
        simp only [Bool.false_eq_true, if_false]
        obtain ⟨a, b⟩ := ih ps (by simpa using hp) { s with st := (s.st.serveFrame env q.1 c q.2 it.2).1 } hc hl
        refine ⟨a, ?_⟩
        unfold sentOf at b ⊢
        rw [List.filterMap_cons, List.filterMap_cons, b]

/-- The opposite for other bad frames: a frame of one zero byte ends the connection, and the heartbeat behind it is not
answered. -/
theorem C60_short_frame_closes :
    sentOf (demoSys.st.serve goEnv .eof demoC [(demoClk 1, none), (demoClk 2, none), (demoClk 3, none)]
      (streamOf [([], [0x7e, 0, 0x7e]), ([], demoBeat)] [])).2 = [] ∧
    sentOf (demoSys.st.serve goEnv .eof demoC [(demoClk 2, none), (demoClk 3, none)]
      (streamOf [([], demoBeat)] [])).2 = [(demoC, generalReply (hdr2013 0x0002) 0)] := by decide +kernel

-- a heartbeat, noise, a corrupted frame, a location report: two replies in order
example : sentOf (demoSys.st.serve goEnv .eof demoC [(demoClk 2, none), (demoClk 2, none), (demoClk 3, none), (demoClk 4, none)]
    (streamOf [([], demoBeat), ([1, 2, 3], [0x7e, 1, 2, 0x7e]), ([5], demoLoc 3 31230000)] [7, 8])).2 =
      [(demoC, generalReply (hdr2013 0x0002) 0), (demoC, generalReply ((hdr2013 0x0200).withBodyLength 28) 0)] ∧
    demoC ∈ demoSys.live ∧ demoSys.crashed = false := by decide +kernel
example : Delimited [0x7e, 1, 2, 0x7e] ∧ xorSum (unescape goEnv [0x7e, 1, 2, 0x7e]).data ≠ 0 :=
  ⟨⟨[1, 2], by decide, rfl⟩, by decide⟩

end JT808
