import Verif.Proof.ByteProgress
/-
C161: a connection waits for nobody: its bytes are read and its messages answered after a number of its own steps that
depends on nothing but the bytes.
-/
namespace JT808
open Spec

/-- C161 for line `j` of any system. -/
theorem line_answered (env : Env) (before : List CEv) (s0 : LSys) (hst0 : s0.st = (CSys.start.run env before).st)
    (hstart : ∀ l ∈ s0.ls, l.cur = none ∧ l.done = [])
    (evs : List (Nat × Clock)) (j : Nat) (c : Conn) (bytes : List UInt8) (hopen : s0.ls[j]? = some (Line.open c bytes))
    (hown : Speaks env bytes fun _ _ => True) (frames : List (List UInt8)) (rest : List UInt8)
    (hfr : Recvs .eof bytes frames rest) (hrest : recv .eof rest = (.err .eof, []))
    (henough : bytes.length + 9 * frames.length ≤ (timesOf j evs).length) :
    ∃ l fs more, (s0.run env evs).ls[j]? = some l ∧ l.cur = none ∧ frames = fs ++ more ∧
      (∃ outs : List (List UInt8), outs.length = fs.length ∧ l.output = outs.flatten ∧ ∀ x ∈ fs.zip outs, Answers env x.1 x.2) ∧
      if l.ended then
        ∃ f more', more = f :: more' ∧
          ((∃ clk ∈ timesOf j evs, ∀ st : Store, (st.serveFrame env clk c none f).2.ended = true) ∨
            ∃ now h m, Holds env now f h m ∧ (m = .m8104 ∨ ∃ n, (s0.run env (evs.take n)).st.look h.phone = none))
      else l.input = [] ∧ more = [] := by
  have hframes : cut RecvSt.fresh bytes = frames := cut_recvs hfr hrest
  have hstart : ∀ (i : Nat) l, s0.ls[i]? = some l → l.cur = none ∧ l.done = [] := fun i l h => hstart l (List.mem_of_getElem? h)
  let U : Str → Prop := fun p => ∃ n, (s0.run env (evs.take n)).st.look p = none
  have hbegin : (Line.open c bytes).Bound env U (bytes.length + 9 * frames.length) := by
    refine ⟨rfl, .inr (.inl ⟨rfl, ?_⟩), fun x hx => by cases hx⟩
    show bytes.length + 9 * (cut RecvSt.fresh bytes).length ≤ _
    rw [hframes]
    exact Nat.le_refl _
  obtain ⟨l, hl, hb⟩ := lines_going (env := env) (P := fun n l => l.Bound env U n)
    (Q := fun st => ∀ p, st.devByPhone p = none → U p) (fun n clk st l hq h => next_bound hq h) evs s0 _ _ hopen hbegin (by
      intro a b hab p hp
      refine ⟨a.length, ?_⟩
      rw [hab, List.take_left]
      simp [Store.look, hp])
  rw [Nat.sub_eq_zero_of_le henough] at hb
  have hlog : l.Log env c bytes (timesOf j evs) := by
    refine lines_run_at (env := env) (P := fun i l => i = j → l.Log env c bytes (timesOf j evs)) evs
      (fun i clk st l he h hi => next_log ?_ (h hi)) s0 ?_ j l hl rfl
    · subst hi
      exact List.mem_map.2 ⟨(i, clk), List.mem_filter.2 ⟨he, by simp⟩, rfl⟩
    · intro i l' hl' hi
      rw [hi, hopen] at hl'
      cases hl'
      exact .waits (fs := []) rfl .nil (fun d hd => by cases hd)
  -- no message panics
  have hsafe : ∀ x ∈ l.done, ∀ c h m, x.1 = .msg c h m → x.2 ≠ .panic := by
    have hlen : (s0.run env evs).ls.length = s0.ls.length := lines_length ..
    let jobs : List (List Task) := (s0.run env evs).ls.map Line.taken
    have hlike : s0.Like jobs (WSys.begin s0.st jobs) := by
      refine ⟨rfl, by simp [WSys.begin, jobs, hlen], fun i l ts w h1 h2 h3 => ?_, by simp [jobs, hlen]⟩
      simp only [WSys.begin, List.getElem?_map, h2, Option.map_some, Option.some.injEq] at h3
      subst h3
      have hl := hstart i l h1
      exact ⟨hl.1.symm, hl.2.symm, fun _ => by simp [Line.taken, hl.1, hl.2]⟩
    obtain ⟨evs', hfin, -, -, -⟩ := lines_refine (env := env) jobs evs s0 _ hlike (by
      intro i l ts hl hts
      simp only [jobs, List.getElem?_map, hl, Option.map_some, Option.some.injEq] at hts
      rw [← hts]
      exact List.prefix_refl _)
    have hw : ((WSys.begin s0.st jobs).run env evs').ws[j]? = some _ :=
      List.getElem?_eq_getElem (by rw [hfin.len]; exact (List.getElem?_eq_some_iff.1 hl).1)
    have hlw := hfin.line j l l.taken _ hl (by simp only [jobs, List.getElem?_map, hl, Option.map_some]) hw
    have hsound := sound_run (env := env) (sound_begin (st := s0.st) (by
      rw [hst0]; exact (ok_run (ok_start env) before).1.inv) jobs) evs'
    intro x hx c h m e
    have := hsound.done j _ hw x (by rw [hlw.done]; exact hx) _ (Grows.refl _)
    rw [e] at this
    exact post_msg this
  have hres : ∀ x ∈ l.done, ∀ c h m, x.1 = .msg c h m → Exact (env := env) h m x.2 ∨ (x.2 = .err .deviceNotFound ∧ U h.phone) := by
    intro x hx c h m e
    obtain ⟨c', h', m', e', h1⟩ := hb.done x hx
    rw [e] at e'
    cases e'
    rcases h1 with h1 | h1
    · exact absurd h1 (hsafe x hx c h m e)
    · exact h1
  have hgood : ∀ x ∈ l.done, (putsOut env x.2).2 = false → ∀ c h m, x.1 = .msg c h m → Exact (env := env) h m x.2 := by
    intro x hx hp c h m e
    rcases hres x hx c h m e with h1 | ⟨h1, -⟩
    · exact h1
    · rw [h1] at hp; cases hp
  have hwhole : ∀ f ∈ frames, Whole env f := fun f hf => (hown .eof _ rest hfr f hf).1
  cases hlog with
  | @waits fs input recv done h1 h2 h3 =>
    rw [hframes] at h1
    have hin : input = [] := by
      rcases hb.due with h | ⟨-, h⟩ | ⟨_, _, _, _, _, h, -⟩
      · cases h
      · simp only [Line.cost] at h
        exact List.length_eq_zero_iff.1 (by omega)
      · cases h
    subst hin
    have h1 : frames = fs ++ [] := h1
    refine ⟨_, fs, [], hl, rfl, h1, ?_, ?_⟩
    · exact heard_answers h2 done rfl fun x hx => hgood x hx (h3 x hx)
    · simp
  | @handles fs f clk t q input recv done h1 h2 h3 h4 h5 =>
    rcases hb.due with h | ⟨h, -⟩ | ⟨_, _, _, _, _, -, -, h⟩
    · cases h
    · cases h
    · omega
  | @stopped fs f clk input recv done h1 h2 h3 h4 h5 =>
    rw [hframes] at h1
    refine ⟨_, fs, f :: cut recv input, hl, rfl, by rw [h1]; simp, heard_answers h2 done rfl fun x hx => hgood x hx (h3 x hx), ?_⟩
    simp only [if_true]
    refine ⟨f, _, rfl, .inl ⟨clk, h4, fun st => ?_⟩⟩
    rw [received_stop (hwhole f (by rw [h1]; simp)) h5]
  | @failed fs f clk t r input recv done h1 h2 h3 h4 h5 h6 =>
    rw [hframes] at h1
    have hout : (done ++ [(t, r)]).flatMap (fun d => (putsOut env d.2).1) = done.flatMap (fun d => (putsOut env d.2).1) := by
      have : (putsOut env r).1 = [] := by
        cases r with
        | err e => rfl
        | panic => rfl
        | ok o =>
          cases o with
          | none => cases h6
          | some o =>
            simp only [putsOut] at h6 ⊢
            split at h6
            · cases h6
            · rename_i he; simp [he]
            · rename_i he; simp [he]
      simp [this]
    refine ⟨_, fs, f :: cut recv input, hl, rfl, by rw [h1]; simp, ?_, ?_⟩
    · rw [hout]
      exact heard_answers h2 done rfl fun x hx => hgood x (List.mem_append_left _ hx) (h3 x hx)
    · simp only [if_true]
      obtain ⟨h, m, rfl, hm⟩ := received_iff.1 h5
      refine ⟨f, _, rfl, .inr ⟨clk.civil, h, m, hm, ?_⟩⟩
      rcases hres (_, r) (List.mem_append_right _ List.mem_cons_self) c h m rfl with h7 | ⟨-, h7⟩
      · left
        have gen : ∀ res, r = .ok (some (gen8001 h res)) → False := by
          rintro res rfl
          rw [putsOut_finish (env := env) _ _ Store.empty (finish_gen8001 ..)] at h6
          cases h6
        cases m with
        | m8104 => rfl
        | m0002 => obtain ⟨res, e⟩ := h7; exact (gen res e).elim
        | m0003 => obtain ⟨res, e⟩ := h7; exact (gen res e).elim
        | m0102 _ => obtain ⟨res, e⟩ := h7; exact (gen res e).elim
        | m0200 _ => obtain ⟨res, e⟩ := h7; exact (gen res e).elim
        | m0100 _ =>
          obtain ⟨res, code, e⟩ := h7
          have e : r = .ok (some (gen8100 h res code)) := e
          rw [e, putsOut_finish (env := env) _ _ Store.empty (finish_gen8100 ..)] at h6
          cases h6
        | _ => exact absurd (h6.symm.trans h7) (by decide)
      · exact .inr h7

/-- C161: connections on which any bytes arrive, and keepalive checks, of any phones and plates, whose goroutines make steps
in any order, at any times.  If the bytes of connection `j` make up `frames`, none of which is a fragment, then after one
step for each byte and nine for each frame of its own, its goroutine has read them all, and has written, frame by frame and
in this order, exactly the answer with the header and the number of each message that asks for one, and nothing for what is
no message; unless one of the frames ended serve: then it has answered those before it, and it is one on which the
sequential server would have ended serve at this moment whatever it knew, or a message of a phone that the server did not
know at some point, or a query of parameters (which terminals do not send, and which has no answer if the
parameters stored for the phone cannot be written). -/
theorem C161_bytes_answered (env : Env) (before : List CEv) (conns : List (Conn × List UInt8)) (checks : List Str)
    (evs : List (Nat × Clock)) (j : Nat) (c : Conn) (bytes : List UInt8) (hj : conns[j]? = some (c, bytes))
    (hown : Speaks env bytes fun _ _ => True) (frames : List (List UInt8)) (rest : List UInt8)
    (hfr : Recvs .eof bytes frames rest) (hrest : recv .eof rest = (.err .eof, []))
    (henough : bytes.length + 9 * frames.length ≤ (timesOf j evs).length) :
    let s0 := LSys.mk (CSys.start.run env before).st (conns.map (fun o => Line.open o.1 o.2) ++ checks.map Line.check)
    ∃ l fs more, (s0.run env evs).ls[j]? = some l ∧ l.cur = none ∧ frames = fs ++ more ∧
      (∃ outs : List (List UInt8), outs.length = fs.length ∧ l.output = outs.flatten ∧ ∀ x ∈ fs.zip outs, Answers env x.1 x.2) ∧
      if l.ended then
        ∃ f more', more = f :: more' ∧
          ((∃ clk ∈ timesOf j evs, ∀ st : Store, (st.serveFrame env clk c none f).2.ended = true) ∨
            ∃ now h m, Holds env now f h m ∧ (m = .m8104 ∨ ∃ n, (s0.run env (evs.take n)).st.look h.phone = none))
      else l.input = [] ∧ more = [] := by
  intro s0
  refine line_answered env before s0 rfl (fun l hl => ?_) evs j c bytes ?_ hown frames rest hfr hrest henough
  · simp only [s0, List.mem_append, List.mem_map] at hl
    rcases hl with ⟨y, -, rfl⟩ | ⟨y, -, rfl⟩ <;> exact ⟨rfl, rfl⟩
  · show (conns.map (fun o => Line.open o.1 o.2) ++ checks.map Line.check)[j]? = _
    rw [List.getElem?_append_left (by rw [List.length_map]; exact (List.getElem?_eq_some_iff.1 hj).1), List.getElem?_map, hj]
    rfl

/-- The connections of C160 with a check: 120 steps are enough for both.  The first has read its three frames, of which two
are messages with answers; the second ends with a message of a phone that is not known. -/
theorem serial_read (j : Nat) (hj : j < 2) : ∃ c bytes frames rest, serialConns[j]? = some (c, bytes) ∧
    Speaks goEnv bytes (fun _ _ => True) ∧ Recvs .eof bytes frames rest ∧ recv .eof rest = (.err .eof, []) ∧
    bytes.length + 9 * frames.length ≤ (timesOf j serialEvs).length ∧ frames.length = 3 - j := by
  have hj : j = 0 ∨ j = 1 := by omega
  rcases hj with rfl | rfl
  · obtain ⟨rest, h1, h2⟩ := cut_is_recvs .eof serialBytes
    exact ⟨_, _, _, rest, rfl, (speaks_of (q := fun _ => true) (by decide +kernel)).imp fun _ _ _ => trivial, h1, h2,
      by decide +kernel, by decide +kernel⟩
  · obtain ⟨rest, h1, h2⟩ := cut_is_recvs .eof lineOther
    exact ⟨_, _, _, rest, rfl, (speaks_of (q := fun _ => true) (by decide +kernel)).imp fun _ _ _ => trivial, h1, h2,
      by decide +kernel, by decide +kernel⟩

example (j : Nat) (hj : j < 2) : ∃ (l : Line) (fs outs : List (List UInt8)),
    ((LSys.mk (CSys.start.run goEnv []).st (serialConns.map (fun o => Line.open o.1 o.2) ++
      [(lineHdr 1 0).phone].map Line.check)).run goEnv serialEvs).ls[j]? = some l ∧
    l.output = outs.flatten ∧ (∀ x ∈ fs.zip outs, Answers goEnv x.1 x.2) ∧ outs.length = fs.length ∧
    (l.ended = false → fs.length = 3 - j) := by
  obtain ⟨c, bytes, frames, rest, h1, h2, h3, h4, h5, h6⟩ := serial_read j hj
  obtain ⟨l, fs, more, e1, -, e2, ⟨outs, e3, e4, e5⟩, e6⟩ := C161_bytes_answered goEnv [] serialConns [(lineHdr 1 0).phone]
    serialEvs j c bytes h1 h2 frames rest h3 h4 h5
  refine ⟨l, fs, outs, e1, e4, e5, e3, fun he => ?_⟩
  rw [he] at e6
  obtain ⟨-, rfl⟩ := e6
  rw [← h6, e2, List.append_nil]

end JT808
