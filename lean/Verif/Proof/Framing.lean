import Verif.Model.Frame
import Verif.Model.Codec
import Verif.Spec.Framing
/-
Helper lemmas about framing, escaping and checksums.
-/
namespace JT808
open Spec

theorem escapeBody_eq (p : List UInt8) : escapeBody p = p.flatMap stuff := by
  induction p with
  | nil => rfl
  | cons v rest ih =>
    simp only [escapeBody, List.flatMap_cons, stuff]
    split
    · simp [ih]
    · split <;> simp [ih]

theorem escape_eq (p : List UInt8) : escape p = frameOf p := by
  simp [escape, frameOf, escapeBody_eq]

theorem unescapeBody_cons_ne {a : UInt8} (h : a ≠ 0x7d) (l : List UInt8) :
    unescapeBody (a :: l) = a :: unescapeBody l := by
  cases l with
  | nil => simp [unescapeBody]
  | cons b rest => simp [unescapeBody, h]

theorem unescapeBody_stuff (v : UInt8) (l : List UInt8) :
    unescapeBody (stuff v ++ l) = v :: unescapeBody l := by
  unfold stuff
  split
  · rename_i h; subst h; simp [unescapeBody]
  · split
    · rename_i h; subst h; simp [unescapeBody]
    · rename_i h1 h2; simpa using unescapeBody_cons_ne h2 l

theorem unescapeBody_flatMap (p : List UInt8) : unescapeBody (p.flatMap stuff) = p := by
  induction p with
  | nil => simp [unescapeBody]
  | cons v rest ih => rw [List.flatMap_cons, unescapeBody_stuff, ih]

theorem frameOf_strip (p : List UInt8) : ((frameOf p).drop 1).dropLast = p.flatMap stuff := by
  simp [frameOf]

theorem unescape_frameOf (env : Env) (p : List UInt8) :
    unescape env (frameOf p) = ⟨p, List.replicate (env.grow p.length) 0⟩ := by
  simp only [unescape, frameOf_strip, unescapeBody_flatMap]

theorem stuff_no_delim (v : UInt8) : (0x7e : UInt8) ∉ stuff v := by
  unfold stuff
  split
  · decide
  · split
    · decide
    · rename_i h _; simpa using fun h' => h h'.symm

theorem frameOf_delimited (p : List UInt8) : Delimited (frameOf p) := by
  refine ⟨p.flatMap stuff, ?_, by simp [frameOf]⟩
  simp only [List.mem_flatMap, not_exists, not_and]
  intro v _ h
  exact stuff_no_delim v h

/-! ### recv -/

theorem recvLoop_in (e : Err) (buf mid rest : List UInt8) (h : (0x7e : UInt8) ∉ mid) :
    recvLoop e ⟨true, buf⟩ (mid ++ 0x7e :: rest) = (.ok (buf ++ mid ++ [0x7e]), rest) := by
  induction mid generalizing buf with
  | nil => simp [recvLoop, recvStep]
  | cons b mid ih =>
    have hb : b ≠ 0x7e := fun hh => h (by simp [hh])
    have hm : (0x7e : UInt8) ∉ mid := fun hh => h (by simp [hh])
    simp [recvLoop, recvStep, hb, ih _ hm]

theorem recvLoop_in_none (e : Err) (buf mid : List UInt8) (h : (0x7e : UInt8) ∉ mid) :
    recvLoop e ⟨true, buf⟩ mid = (.err e, []) := by
  induction mid generalizing buf with
  | nil => simp [recvLoop]
  | cons b mid ih =>
    have hb : b ≠ 0x7e := fun hh => h (by simp [hh])
    have hm : (0x7e : UInt8) ∉ mid := fun hh => h (by simp [hh])
    simp [recvLoop, recvStep, hb, ih _ hm]

theorem recvLoop_out (e : Err) (buf noise rest : List UInt8) (h : (0x7e : UInt8) ∉ noise) :
    recvLoop e ⟨false, buf⟩ (noise ++ rest) = recvLoop e ⟨false, buf⟩ rest := by
  induction noise with
  | nil => simp
  | cons b mid ih =>
    have hb : b ≠ 0x7e := fun hh => h (by simp [hh])
    have hm : (0x7e : UInt8) ∉ mid := fun hh => h (by simp [hh])
    simp [recvLoop, recvStep, hb, ih hm]

theorem recvLoop_out_none (e : Err) (buf noise : List UInt8) (h : (0x7e : UInt8) ∉ noise) :
    recvLoop e ⟨false, buf⟩ noise = (.err e, []) := by
  have := recvLoop_out e buf noise [] h
  simpa [recvLoop] using this

theorem recv_frame (e : Err) (noise f rest : List UInt8) (hn : (0x7e : UInt8) ∉ noise)
    (hf : Delimited f) : recv e (noise ++ f ++ rest) = (.ok f, rest) := by
  obtain ⟨mid, hm, rfl⟩ := hf
  unfold recv
  rw [List.append_assoc, recvLoop_out e [] noise _ hn]
  have := recvLoop_in e [0x7e] mid rest hm
  simpa [recvLoop, recvStep] using this

/-- A list without the element, or a split at its first occurrence. -/
theorem split_first (x : UInt8) (s : List UInt8) :
    x ∉ s ∨ ∃ a b, x ∉ a ∧ s = a ++ x :: b := by
  induction s with
  | nil => left; simp
  | cons y s ih =>
    by_cases hy : y = x
    · right; exact ⟨[], s, by simp, by simp [hy]⟩
    · rcases ih with h | ⟨a, b, ha, rfl⟩
      · left; simp [h]; exact fun hh => hy hh.symm
      · right; refine ⟨y :: a, b, ?_, by simp⟩
        simp [ha]; exact fun hh => hy hh.symm

theorem recv_cases (e : Err) (s : List UInt8) :
    (recv e s = (.err e, []) ∧ s.count 0x7e ≤ 1) ∨
    (∃ noise f rest, (0x7e : UInt8) ∉ noise ∧ Delimited f ∧ s = noise ++ f ++ rest ∧
      recv e s = (.ok f, rest)) := by
  rcases split_first 0x7e s with h | ⟨noise, s1, hn, rfl⟩
  · left; exact ⟨recvLoop_out_none e [] s h, by rw [List.count_eq_zero.mpr h]; omega⟩
  · rcases split_first 0x7e s1 with h | ⟨mid, rest, hm, rfl⟩
    · left
      constructor
      · unfold recv
        rw [recvLoop_out e [] noise _ hn]
        simpa [recvLoop, recvStep] using recvLoop_in_none e [0x7e] s1 h
      · rw [List.count_append, List.count_eq_zero.mpr hn, List.count_cons, List.count_eq_zero.mpr h]
        simp
    · right
      refine ⟨noise, 0x7e :: (mid ++ [0x7e]), rest, hn, ⟨mid, hm, rfl⟩, by simp, ?_⟩
      have := recv_frame e noise (0x7e :: (mid ++ [0x7e])) rest hn ⟨mid, hm, rfl⟩
      simpa using this

/-! ### chunked recv -/

theorem recvBuf_flat (e : Err) (st : RecvSt) (stale : UInt8) (c rest : List UInt8) :
    recvLoop e st (c ++ rest) =
      match recvBuf st stale c with
      | .inl (f, r) => (.ok f, r ++ rest)
      | .inr (st', _) => recvLoop e st' rest := by
  induction c generalizing st stale with
  | nil => simp [recvBuf]
  | cons b c ih =>
    simp only [List.cons_append, recvLoop, recvBuf]
    cases h : recvStep st b with
    | inl f => simp
    | inr st' => simpa using ih st' b

theorem recvChunksLoop_flat (e : Err) (st : RecvSt) (stale : UInt8) (cs : List (List UInt8))
    (hne : ∀ c ∈ cs, c ≠ []) :
    (recvChunksLoop e st stale cs).1 = (recvLoop e st cs.flatten).1 ∧
    (recvChunksLoop e st stale cs).2.buf ++ (recvChunksLoop e st stale cs).2.chunks.flatten
      = (recvLoop e st cs.flatten).2 := by
  induction cs generalizing st stale with
  | nil => simp [recvChunksLoop, recvLoop]
  | cons c cs ih =>
    have hc : c ≠ [] := hne c (by simp)
    have hcs : ∀ c ∈ cs, c ≠ [] := fun d hd => hne d (by simp [hd])
    simp only [recvChunksLoop, hc, if_false, List.flatten_cons, recvBuf_flat e st stale c cs.flatten]
    cases h : recvBuf st stale c with
    | inl fr => obtain ⟨f, r⟩ := fr; simp
    | inr p => obtain ⟨st', stale'⟩ := p; simpa using ih st' stale' hcs

/-! ### send -/

theorem sendLoop_spec (p : List UInt8) (rs : List WriteResp) :
    (∃ k, (sendLoop p rs).1 = p.take k) ∧
    ((sendLoop p rs).2 = .done → (sendLoop p rs).1 = p) := by
  induction rs generalizing p with
  | nil => exact ⟨⟨0, by simp [sendLoop]⟩, by simp [sendLoop]⟩
  | cons r rs ih =>
    simp only [sendLoop]
    cases hr : r.err with
    | some e => exact ⟨⟨r.n, rfl⟩, by simp⟩
    | none =>
      simp only
      by_cases h : r.n ≥ p.length
      · simp only [h, if_true]; exact ⟨⟨p.length, by simp⟩, by simp⟩
      · simp only [h, if_false]
        obtain ⟨⟨k, hk⟩, hd⟩ := ih (p.drop r.n)
        refine ⟨⟨r.n + k, ?_⟩, ?_⟩
        · rw [hk]; rw [List.take_add]
        · intro hh; rw [hd hh, List.take_append_drop]

/-! ### checksum -/

theorem foldl_xor (a : UInt8) (bs : List UInt8) : bs.foldl (· ^^^ ·) a = a ^^^ xorSum bs := by
  induction bs generalizing a with
  | nil => simp [xorSum]
  | cons b bs ih => simp [xorSum, ih, UInt8.xor_assoc]

theorem xorAll_eq (bs : List UInt8) : xorAll bs = xorSum bs := by
  simp [xorAll, foldl_xor]

theorem xorSum_append (a b : List UInt8) : xorSum (a ++ b) = xorSum a ^^^ xorSum b := by
  induction a with
  | nil => simp [xorSum]
  | cons x a ih => simp [xorSum, ih, UInt8.xor_assoc]

theorem xor_eq_zero_iff' (a b : UInt8) : a ^^^ b = 0 ↔ a = b := by
  constructor
  · intro h
    have : a ^^^ b ^^^ b = 0 ^^^ b := by rw [h]
    simpa [UInt8.xor_assoc] using this
  · rintro rfl; simp

theorem xorSum_set (l : List UInt8) (i : Nat) (b : UInt8) (h : i < l.length) :
    xorSum (l.set i b) = xorSum l ^^^ l[i] ^^^ b := by
  induction l generalizing i with
  | nil => simp at h
  | cons x l ih =>
    cases i with
    | zero =>
      simp only [List.set_cons_zero, xorSum, List.getElem_cons_zero]
      rw [UInt8.xor_comm x (xorSum l), UInt8.xor_assoc, UInt8.xor_assoc, ← UInt8.xor_assoc x x b]
      simp [UInt8.xor_comm]
    | succ i =>
      have h' : i < l.length := by simpa using h
      simp only [List.set_cons_succ, xorSum, List.getElem_cons_succ, ih i h', UInt8.xor_assoc]

/-- verify accepts exactly the packets whose bytes XOR to zero. -/
theorem verify_ok_iff (pkt : Slice) (r : Slice) :
    verify pkt = .ok r ↔ pkt.data ≠ [] ∧ xorSum pkt.data = 0 ∧
      ∃ c, pkt.data = r.data ++ [c] ∧ r.slack = c :: pkt.slack := by
  unfold verify
  rcases List.eq_nil_or_concat pkt.data with h | ⟨d, c, h⟩
  · simp [h]
  · rw [List.concat_eq_append] at h
    simp only [h, List.getLast?_append, List.getLast?_singleton, Option.some_or, List.dropLast_concat,
      xorAll_eq, xorSum_append]
    have hx : xorSum d ^^^ xorSum [c] = 0 ↔ c = xorSum d := by
      rw [xor_eq_zero_iff']; simp [xorSum, eq_comm]
    rw [hx]
    constructor
    · intro hh
      split at hh
      · rename_i hc
        injection hh with hh; subst hh
        exact ⟨by simp, hc, c, rfl, rfl⟩
      · cases hh
    · rintro ⟨-, hc, c', h1, h2⟩
      rw [if_pos hc]
      have h3 := List.append_inj' h1 rfl
      cases r with
      | mk rd rs =>
        simp only at h1 h2 h3
        obtain ⟨h3, h4⟩ := h3
        injection h4 with h4
        subst h3 h4 h2
        rfl

theorem verify_fail (pkt : Slice) (hne : pkt.data ≠ []) (h : xorSum pkt.data ≠ 0) :
    verify pkt = .err .verifyFailed := by
  unfold verify
  rcases List.eq_nil_or_concat pkt.data with h' | ⟨d, c, h'⟩
  · exact absurd h' hne
  · rw [List.concat_eq_append] at h'
    simp only [h', List.getLast?_append, List.getLast?_singleton, Option.some_or, List.dropLast_concat,
      xorAll_eq]
    rw [h', xorSum_append] at h
    rw [if_neg]
    intro hc; apply h; rw [xor_eq_zero_iff']; simp [xorSum, hc]

end JT808
