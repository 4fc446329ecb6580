import Verif.Proof.Codec
/-
C01-C08, C10: framing, escaping, checksum.
-/
namespace JT808
open Spec

/-! ## C01 escape / unescape -/

/-- The frame of a packet is the stuffed packet between delimiters. -/
theorem C01_wire_format (p : List UInt8) : escape p = frameOf p := escape_eq p

/-- Un-escaping the frame of any packet gives back the packet. -/
theorem C01_escape_roundtrip (env : Env) (p : List UInt8) :
    (unescape env (escape p)).data = p := by
  rw [escape_eq, unescape_frameOf]

/-- Escaping is injective: different packets never share a frame. -/
theorem C01_escape_injective (p q : List UInt8) (h : escape p = escape q) : p = q := by
  have hp := C01_escape_roundtrip ⟨fun _ => 0, fun _ => none, fun _ => none, id⟩ p
  have hq := C01_escape_roundtrip ⟨fun _ => 0, fun _ => none, fun _ => none, id⟩ q
  rw [← hp, ← hq, h]

example : escape [0x30, 0x7e, 0x08, 0x7d, 0x55]
    = [0x7e, 0x30, 0x7d, 0x02, 0x08, 0x7d, 0x01, 0x55, 0x7e] := by decide
example (env : Env) : (unescape env (escape [0x7d, 0x02, 0x7e, 0x01])).data = [0x7d, 0x02, 0x7e, 0x01] :=
  C01_escape_roundtrip env _

/-! ## C02 self-delimiting frames -/

theorem C02_frame_shape (pkt : List UInt8) : Delimited (encodeFrame pkt) := by
  rw [encodeFrame, escape_eq]; exact frameOf_delimited _

theorem C02_recv_own_frame (e : Err) (pkt rest : List UInt8) :
    recv e (encodeFrame pkt ++ rest) = (.ok (encodeFrame pkt), rest) := by
  have := recv_frame e [] (encodeFrame pkt) rest (by simp) (C02_frame_shape pkt)
  simpa using this

example : recv .eof (encodeFrame [0x7e, 1] ++ [1, 2, 0x7e]) =
    (.ok [0x7e, 0x7d, 0x02, 0x01, 0x7f, 0x7e], [1, 2, 0x7e]) := by decide

/-! ## C03 a stream of frames -/

/-- Successive calls of Recv return these frames and leave this rest. -/
inductive Recvs (e : Err) : List UInt8 → List (List UInt8) → List UInt8 → Prop
  | nil (s) : Recvs e s [] s
  | cons {s f s' fs s''} : recv e s = (.ok f, s') → Recvs e s' fs s'' → Recvs e s (f :: fs) s''

theorem C03_stream_segmentation (e : Err) (items : List (List UInt8 × List UInt8)) (tail : List UInt8)
    (hnoise : ∀ it ∈ items, (0x7e : UInt8) ∉ it.1) (hframe : ∀ it ∈ items, Delimited it.2)
    (htail : (0x7e : UInt8) ∉ tail) :
    Recvs e (streamOf items tail) (items.map Prod.snd) tail ∧ recv e tail = (.err e, []) := by
  constructor
  · induction items with
    | nil => exact Recvs.nil _
    | cons it items ih =>
      have h1 := recv_frame e it.1 it.2 (streamOf items tail) (hnoise it (by simp)) (hframe it (by simp))
      refine Recvs.cons (s' := streamOf items tail) ?_
        (ih (fun x hx => hnoise x (by simp [hx])) (fun x hx => hframe x (by simp [hx])))
      simpa [streamOf, List.append_assoc] using h1
  · exact recvLoop_out_none e [] tail htail

/-- Successive calls of Recv have only one possible outcome. -/
theorem C03_deterministic {e : Err} {s : List UInt8} {fs gs : List (List UInt8)} {r r' : List UInt8}
    (h : Recvs e s fs r) (h' : Recvs e s gs r') (hlen : fs.length = gs.length) : fs = gs ∧ r = r' := by
  induction h generalizing gs r' with
  | nil s =>
    cases h' with
    | nil => exact ⟨rfl, rfl⟩
    | cons _ _ => simp at hlen
  | cons h1 _ ih =>
    cases h' with
    | nil => simp at hlen
    | cons h1' h2' =>
      rw [h1] at h1'
      injection h1' with ha hb
      injection ha with ha
      subst ha hb
      obtain ⟨a, b⟩ := ih h2' (by simpa using hlen)
      exact ⟨by rw [a], b⟩

example : Recvs .eof ([9, 9] ++ [0x7e, 1, 0x7e] ++ [0x7e, 2, 3, 0x7e] ++ [5])
    [[0x7e, 1, 0x7e], [0x7e, 2, 3, 0x7e]] [5] :=
  (C03_stream_segmentation .eof [([9, 9], [0x7e, 1, 0x7e]), ([], [0x7e, 2, 3, 0x7e])] [5]
    (by decide) (by
      intro it h
      simp at h
      rcases h with rfl | rfl
      · exact ⟨[1], by decide, rfl⟩
      · exact ⟨[2, 3], by decide, rfl⟩) (by decide)).1

/-! ## C04 chunking -/

/-- For non-empty reads the result and the unread bytes depend only on the byte sequence. -/
theorem C04_chunking_partial (e : Err) (r : BufRd) (hne : ∀ c ∈ r.chunks, c ≠ []) :
    (recvChunks e r).1 = (recv e (r.buf ++ r.chunks.flatten)).1 ∧
    (recvChunks e r).2.buf ++ (recvChunks e r).2.chunks.flatten
      = (recv e (r.buf ++ r.chunks.flatten)).2 := by
  unfold recvChunks recv
  rw [recvBuf_flat e ⟨false, []⟩ 0]
  cases h : recvBuf ⟨false, []⟩ 0 r.buf with
  | inl fr => obtain ⟨f, rest⟩ := fr; simp
  | inr p => obtain ⟨st, stale⟩ := p; simpa using recvChunksLoop_flat e st stale r.chunks hne

/-- Two ways of splitting the same bytes give the same frame and the same remaining bytes. -/
theorem C04_split_irrelevant_partial (e : Err) (r r' : BufRd) (hr : ∀ c ∈ r.chunks, c ≠ [])
    (hr' : ∀ c ∈ r'.chunks, c ≠ [])
    (h : r.buf ++ r.chunks.flatten = r'.buf ++ r'.chunks.flatten) :
    (recvChunks e r).1 = (recvChunks e r').1 ∧
    (recvChunks e r).2.buf ++ (recvChunks e r).2.chunks.flatten
      = (recvChunks e r').2.buf ++ (recvChunks e r').2.chunks.flatten := by
  obtain ⟨a, b⟩ := C04_chunking_partial e r hr
  obtain ⟨a', b'⟩ := C04_chunking_partial e r' hr'
  rw [a, b, a', b', h]; exact ⟨rfl, rfl⟩

/-- Missing part of C04: a read that returns no bytes and no error makes the handler use the previous
byte again, which changes the frame. -/
theorem C04_empty_read_changes_frame :
    ∃ r r' : BufRd, r.buf ++ r.chunks.flatten = r'.buf ++ r'.chunks.flatten ∧
      (recvChunks .eof r).1 ≠ (recvChunks .eof r').1 :=
  ⟨⟨[], [[0x7e], [], [1, 0x7e]]⟩, ⟨[], [[0x7e, 1, 0x7e]]⟩, by decide, by decide⟩

example : (recvChunks .eof ⟨[], [[5, 0x7e], [1], [2, 0x7e, 9]]⟩) = (.ok [0x7e, 1, 2, 0x7e], ⟨[9], []⟩) := by
  decide

/-! ## C05 no partial frame -/

/-- Exactly when a read delivers a frame, which one, and what it leaves unread. -/
theorem C05_delivers_iff (e : Err) (s f rest : List UInt8) :
    recv e s = (.ok f, rest) ↔
      ∃ noise, (0x7e : UInt8) ∉ noise ∧ Delimited f ∧ s = noise ++ f ++ rest := by
  constructor
  · intro h
    rcases recv_cases e s with ⟨h1, -⟩ | ⟨noise, f', rest', hn, hf, hs, h1⟩
    · rw [h1] at h; cases h
    · rw [h1] at h
      injection h with ha hb; injection ha with ha; subst ha hb
      exact ⟨noise, hn, hf, hs⟩
  · rintro ⟨noise, hn, hf, rfl⟩
    exact recv_frame e noise f rest hn hf

/-- Otherwise the stream held at most one delimiter and the connection's error is returned. -/
theorem C05_error_iff (e : Err) (s : List UInt8) :
    recv e s = (.err e, []) ↔ s.count 0x7e ≤ 1 := by
  constructor
  · intro h
    rcases recv_cases e s with ⟨-, h2⟩ | ⟨noise, f', rest', -, -, -, h1⟩
    · exact h2
    · rw [h1] at h; cases h
  · intro h
    rcases recv_cases e s with ⟨h1, -⟩ | ⟨noise, f, rest, -, ⟨mid, -, rfl⟩, rfl, -⟩
    · exact h1
    · exfalso
      simp only [List.count_append, List.count_cons, List.count_nil] at h
      simp at h
      omega

theorem C05_never_panics (e : Err) (s : List UInt8) : (recv e s).1 ≠ .panic := by
  rcases recv_cases e s with ⟨h1, -⟩ | ⟨noise, f, rest, -, -, -, h1⟩ <;> rw [h1] <;> simp

example : recv .eof [1, 2, 0x7e, 3] = (.err .eof, []) := by decide
example : recv .eof [1, 0x7e, 3, 0x7e, 4] = (.ok [0x7e, 3, 0x7e], [4]) := by decide

/-! ## C06 stray delimiter -/

/-- The opposite of C06 for every continuation: after one stray delimiter in front of any number of
back-to-back frames, every read returns an empty frame and none of the frames is ever delivered. -/
theorem C06_stray_delimiter_desynchronises (e : Err) (mids : List (List UInt8)) (last : List UInt8)
    (hm : ∀ m ∈ mids, (0x7e : UInt8) ∉ m) (hl : (0x7e : UInt8) ∉ last) :
    Recvs e (0x7e :: ((mids ++ [last]).flatMap fun m => 0x7e :: (m ++ [0x7e])))
      (List.replicate (mids.length + 1) [0x7e, 0x7e]) (last ++ [0x7e]) ∧
    recv e (last ++ [0x7e]) = (.err e, []) := by
  have hend : recv e (last ++ [0x7e]) = (.err e, []) := by
    rw [C05_error_iff, List.count_append, List.count_eq_zero.mpr hl]; decide
  refine ⟨?_, hend⟩
  suffices H : ∀ (noise : List UInt8), (0x7e : UInt8) ∉ noise →
      Recvs e (noise ++ 0x7e :: ((mids ++ [last]).flatMap fun m => 0x7e :: (m ++ [0x7e])))
        (List.replicate (mids.length + 1) [0x7e, 0x7e]) (last ++ [0x7e]) by
    simpa using H [] (by simp)
  induction mids with
  | nil =>
    intro noise hn
    refine Recvs.cons (s' := last ++ [0x7e]) ?_ (Recvs.nil _)
    have := recv_frame e noise [0x7e, 0x7e] (last ++ [0x7e]) hn ⟨[], by simp, rfl⟩
    simpa using this
  | cons m mids ih =>
    intro noise hn
    have hm' : (0x7e : UInt8) ∉ m := hm m (by simp)
    have h2 := ih (fun x hx => hm x (by simp [hx])) m hm'
    refine Recvs.cons (s' := _) ?_ h2
    have := recv_frame e noise [0x7e, 0x7e]
      (m ++ 0x7e :: ((mids ++ [last]).flatMap fun m => 0x7e :: (m ++ [0x7e]))) hn ⟨[], by simp, rfl⟩
    simpa [List.append_assoc] using this

/-- What survives of C06: delimiters that come in pairs cost one spurious frame and nothing else. -/
theorem C06_paired_delimiters_partial (e : Err) (noise : List UInt8) (frames : List (List UInt8))
    (hn : (0x7e : UInt8) ∉ noise) (hf : ∀ f ∈ frames, Delimited f) :
    Recvs e (0x7e :: (noise ++ 0x7e :: frames.flatten)) ((0x7e :: (noise ++ [0x7e])) :: frames) [] := by
  have h := (C03_stream_segmentation e (([], 0x7e :: (noise ++ [0x7e])) :: frames.map fun f => ([], f)) []
    (by intro it h; simp at h; rcases h with rfl | ⟨a, -, rfl⟩ <;> simp)
    (by
      intro it h; simp at h
      rcases h with rfl | ⟨a, ha, rfl⟩
      · exact ⟨noise, hn, rfl⟩
      · exact hf a ha) (by simp)).1
  have hs : streamOf (([], 0x7e :: (noise ++ [0x7e])) :: frames.map fun f => (([] : List UInt8), f)) []
      = 0x7e :: (noise ++ 0x7e :: frames.flatten) := by
    have : ∀ fs : List (List UInt8),
        (fs.map fun f => (([] : List UInt8), f)).flatMap (fun it => it.1 ++ it.2) = fs.flatten := by
      intro fs
      induction fs with
      | nil => rfl
      | cons f fs ih => simp [ih]
    simp [streamOf, this]
  have hm : ((([] : List UInt8), 0x7e :: (noise ++ [0x7e])) :: frames.map fun f => (([] : List UInt8), f)).map
      Prod.snd = (0x7e :: (noise ++ [0x7e])) :: frames := by
    simp [Function.comp_def]
  rw [hs, hm] at h
  exact h

example : Recvs .eof [0x7e, 0x7e, 1, 0x7e, 0x7e, 2, 0x7e] [[0x7e, 0x7e], [0x7e, 0x7e]] [2, 0x7e] :=
  (C06_stray_delimiter_desynchronises .eof [[1]] [2] (by simp) (by simp)).1

/-! ## C07 send -/

/-- A successful send put exactly the payload on the wire; any other outcome, a prefix of it. -/
theorem C07_send (p : List UInt8) (script : List WriteResp) :
    (∃ k, (send p script).1 = p.take k) ∧ ((send p script).2 = .done → (send p script).1 = p) := by
  unfold send
  split
  · rename_i h
    have : p = [] := List.length_eq_zero_iff.mp h
    subst this
    exact ⟨⟨0, by simp⟩, by simp⟩
  · exact sendLoop_spec p script

/-- As long as every write takes at least one byte and none fails, the send finishes. -/
theorem C07_send_progress (p : List UInt8) (script : List WriteResp)
    (hok : ∀ r ∈ script, r.err = none ∧ 0 < r.n) (hlen : p.length ≤ script.length) :
    (send p script).2 = .done ∧ (send p script).1 = p := by
  suffices h : (send p script).2 = .done from ⟨h, (C07_send p script).2 h⟩
  unfold send
  split
  · rfl
  · rename_i hp
    induction script generalizing p with
    | nil => simp at hlen; exact absurd (by simpa using hlen) hp
    | cons r rs ih =>
      obtain ⟨h1, h2⟩ := hok r (by simp)
      simp only [sendLoop, h1]
      by_cases h : r.n ≥ p.length
      · simp [h]
      · simp only [h, if_false]
        apply ih
        · exact fun x hx => hok x (by simp [hx])
        · simp at hlen ⊢; omega
        · simp; omega

/-- A write error is reported. -/
theorem C07_send_error (p : List UInt8) (r : WriteResp) (rs : List WriteResp) (e : Err)
    (hp : p ≠ []) (hr : r.err = some e) : (send p (r :: rs)).2 = .failed e := by
  have : p.length ≠ 0 := by simpa using hp
  simp [send, this, sendLoop, hr]

example : send [1, 2, 3, 4, 5] [⟨2, none⟩, ⟨1, none⟩, ⟨2, none⟩] = ([1, 2, 3, 4, 5], .done) := by decide
example : send [1, 2, 3] [⟨1, none⟩, ⟨0, some .closed⟩] = ([1], .failed .closed) := by decide

/-! ## C08 checksum -/

/-- Only frames whose unescaped bytes XOR to zero are ever decoded. -/
theorem C08_accept_implies_xor_zero (env : Env) (frame : List UInt8) (pd : Packet)
    (h : decodeFrame env frame = .ok pd) :
    (unescape env frame).data ≠ [] ∧ xorSum (unescape env frame).data = 0 := by
  unfold decodeFrame at h
  cases hl : frame.getLast? with
  | none => simp [hl] at h
  | some vc =>
    simp only [hl] at h
    cases hv : verify (unescape env frame) with
    | err e => simp [hv] at h
    | panic => simp [hv] at h
    | ok r =>
      have := (verify_ok_iff _ _).mp hv
      exact ⟨this.1, this.2.1⟩

/-- The frame of an intact packet with one byte replaced by a different one is rejected with the
verification error. -/
theorem C08_single_byte_corruption (env : Env) (p : List UInt8) (i : Nat) (b : UInt8)
    (hi : i < p.length) (hsum : xorSum p = 0) (hb : b ≠ p[i]) :
    decodeFrame env (frameOf (p.set i b)) = .err .verifyFailed := by
  rw [decodeFrame_frameOf]
  have hne : p.set i b ≠ [] := by
    intro h
    have : (p.set i b).length = 0 := by rw [h]; rfl
    simp at this; subst this; simp at hi
  have hx : xorSum (p.set i b) ≠ 0 := by
    rw [xorSum_set p i b hi, hsum]
    intro h
    apply hb
    have := (xor_eq_zero_iff' (0 ^^^ p[i]) b).mp h
    simpa using this.symm
  rw [verify_fail ⟨p.set i b, _⟩ hne hx]

/-- The frames the codec emits do satisfy the checksum. -/
theorem C08_own_frames_intact (pkt : List UInt8) : xorSum (genVerifier pkt) = 0 := by
  rw [genVerifier, xorSum_append, xorAll_eq, xor_eq_zero_iff']; simp [xorSum]

example : xorSum [0x01, 0x02, 0x03] = 0 := by decide
example (env : Env) : decodeFrame env (frameOf ([0x01, 0x02, 0x03].set 1 0x7e)) = .err .verifyFailed :=
  C08_single_byte_corruption env _ 1 _ (by decide) (by decide) (by decide)

/-! ## C10 the reported checksum -/

/-- The opposite of C10: for every frame that can come out of a read, the reported checksum is the
delimiter 0x7e. -/
theorem C10_verify_code_is_delimiter (env : Env) (frame : List UInt8) (pd : Packet)
    (hf : Delimited frame) (h : decodeFrame env frame = .ok pd) : pd.verifyCode = 0x7e := by
  obtain ⟨mid, -, rfl⟩ := hf
  unfold decodeFrame at h
  have hl : (0x7e :: (mid ++ [(0x7e : UInt8)])).getLast? = some 0x7e := by
    rw [← List.cons_append, List.getLast?_append]; rfl
  simp only [hl] at h
  cases hv : verify (unescape env (0x7e :: (mid ++ [0x7e]))) with
  | err e => simp [hv] at h
  | panic => simp [hv] at h
  | ok r =>
    simp only [hv] at h
    cases hd : Header.decode r 0 with
    | err e => simp [hd] at h
    | panic => simp [hd] at h
    | ok x =>
      simp only [hd] at h
      cases hb : r.from' x.2 with
      | err e => simp [hb] at h
      | panic => simp [hb] at h
      | ok b => simp only [hb] at h; injection h with h; rw [← h]

/-- A heartbeat frame whose checksum is 0xc4: accepted, but the reported checksum is not 0xc4. -/
theorem C10_witness :
    ∃ frame pd, Delimited frame ∧ decodeFrame goEnv frame = .ok pd ∧
      (unescape goEnv frame).data.getLast? = some 0xc4 ∧ pd.verifyCode ≠ 0xc4 := by
  refine ⟨frameOf [0x00, 0x02, 0x00, 0x00, 0x01, 0x23, 0x45, 0x67, 0x89, 0x01, 0x00, 0x4e, 0xc4],
    ⟨⟨2, ⟨0, 0, 0, 0, 0, .none, false, .v2013⟩, 0, [0x30, 0x31, 0x32, 0x33, 0x34, 0x35, 0x36, 0x37, 0x38, 0x39,
      0x30, 0x31], 0x4e, none⟩, ⟨[], [0xc4, 0, 0, 0]⟩, 0x7e, false⟩, frameOf_delimited _, by decide, by decide,
    by decide⟩

end JT808
