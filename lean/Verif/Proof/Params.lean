import Verif.Proof.Msgs
import Verif.Spec.Params
/-
Helper lemmas for terminal parameters.
-/
namespace JT808
open Spec

/-- `v` is a value of kind `k` that fits on the wire, takes the bytes `bs` there, and is `w` after reading. -/
inductive Carries (env : Env) : PKind → PV → List UInt8 → PV → Prop where
  | byte (x : UInt8) : Carries env .byte (.byte x) [x] (.byte x)
  | word (x : UInt16) : Carries env .word (.word x) (put16 x) (.word x)
  | dword (x : UInt32) : Carries env .dword (.dword x) (put32 x) (.dword x)
  | byteNum (n : Nat) (h : n < 2 ^ 8) : Carries env .byte (.num n) [UInt8.ofNat n] (.byte (UInt8.ofNat n))
  | wordNum (n : Nat) (h : n < 2 ^ 16) :
      Carries env .word (.num n) (put16 (UInt16.ofNat n)) (.word (UInt16.ofNat n))
  | dwordNum (n : Nat) (h : n < 2 ^ 32) :
      Carries env .dword (.num n) (put32 (UInt32.ofNat n)) (.dword (UInt32.ofNat n))
  | bytes (s : Str) (h : ∀ c ∈ s, bcdChar c) (hl : s.length ≤ 8 ∨ s.length % 2 = 0)
      (hb : (numberStr2BCD s).length ≤ 255) : Carries env .bytes (.str s) (numberStr2BCD s) (.str s)
  | string (s : Str) (h : s.length ≤ 255) : Carries env .string (.str s) s (.str s)
  | gbk (s : Str) (g : List UInt8) (he : env.gbkEnc s = some g) (hd : env.gbkDec g = some s) (h : g.length ≤ 255) :
      Carries env .gbk (.str s) g (.str s)

theorem Carries.encode {env : Env} {k : PKind} {v w : PV} {bs : List UInt8} (h : Carries env k v bs w) :
    k.encode env v = .ok bs := by
  cases h with
  | gbk s g he hd h => simp [PKind.encode, anyStr, writeGBK, he]
  | _ => rfl

theorem Carries.length {env : Env} {k : PKind} {v w : PV} {bs : List UInt8} (h : Carries env k v bs w) :
    bs.length ≤ 255 := by
  cases h <;> first | decide | assumption | simp [put16_length, put32_length]

theorem Carries.reads {env : Env} {k : PKind} {v w : PV} {bs : List UInt8} (h : Carries env k v bs w) (i : Nat) :
    ReadsAt i (k.decode env bs.length) bs w := by
  cases h with
  | byte x => exact .map (readsAt_byte i x)
  | word x => exact .map (readsAt_word i x)
  | dword x => exact .map (readsAt_dword i x)
  | byteNum n h => exact .map (readsAt_byte i _)
  | wordNum n h => exact .map (readsAt_word i _)
  | dwordNum n h => exact .map (readsAt_dword i _)
  | bytes s h hl hb =>
    have := readsAt_bcd i (numberStr2BCD s).length (numberStr2BCD s) rfl
    rw [bcd_roundtrip h, if_pos hl] at this
    exact .map this
  | string s h => exact .map (readsAt_string i _ _ rfl)
  | gbk s g he hd h => exact .map (readsAt_gbk env i _ _ s rfl hd)

/-- A parameter that travels: `p` is sent, `q` is received. -/
structure Travels (env : Env) (p q : ParamData) (bs : List UInt8) : Prop where
  ex : ∃ k vs w, argTable p.id = some k ∧ Carries env k p.value vs w ∧
    bs = put32 p.id ++ ([UInt8.ofNat vs.length] ++ vs) ∧ q = ⟨p.id, UInt8.ofNat vs.length, w⟩

theorem Travels.encode {env : Env} {p q : ParamData} {bs : List UInt8} (h : Travels env p q bs) :
    p.encode env = .ok bs := by
  obtain ⟨k, vs, w, h1, h2, h3, h4⟩ := h.ex
  subst h3
  simp [ParamData.encode, h1, h2.encode, writeBytes, writeByte, writeDWord]

theorem Travels.reads {env : Env} {p q : ParamData} {bs : List UInt8} (h : Travels env p q bs) (i : Nat) :
    ReadsAt i (ParamData.decode env) bs q := by
  obtain ⟨k, vs, w, h1, h2, h3, h4⟩ := h.ex
  subst h3 h4
  refine .bind (readsAt_dword _ _) (.bind (readsAt_byte _ _) (.map ?_))
  unfold ParamData.decodeValue
  rw [h1]
  have := h2.length
  have e : (UInt8.ofNat vs.length).toNat = vs.length := by
    rw [UInt8.toNat_ofNat']; omega
  rw [e]
  exact h2.reads _

/-- Pointwise `Travels`. -/
inductive TravelsAll (env : Env) : List ParamData → List ParamData → List UInt8 → Prop where
  | nil : TravelsAll env [] [] []
  | cons {p q ps qs bs cs} (h : Travels env p q bs) (t : TravelsAll env ps qs cs) :
      TravelsAll env (p :: ps) (q :: qs) (bs ++ cs)

theorem TravelsAll.length {env : Env} {ps qs : List ParamData} {bs : List UInt8} (h : TravelsAll env ps qs bs) :
    ps.length = qs.length := by
  induction h with
  | nil => rfl
  | cons _ _ ih => simp [ih]

theorem TravelsAll.encode {env : Env} {ps qs : List ParamData} {bs : List UInt8} (h : TravelsAll env ps qs bs) :
    ParamData.encodeAll env ps = .ok bs := by
  induction h with
  | nil => rfl
  | cons h _ ih => simp [ParamData.encodeAll, h.encode, ih]

theorem TravelsAll.reads {env : Env} {ps qs : List ParamData} {bs : List UInt8} (h : TravelsAll env ps qs bs) (i : Nat) :
    ReadsAt i (ParamData.decodeN env ps.length) bs qs := by
  induction h generalizing i with
  | nil => exact .pure _ _
  | cons h _ ih => exact .bind (h.reads i) (.map (ih _))

theorem readsAt_params {env : Env} {ps qs : List ParamData} {bs : List UInt8} (h : TravelsAll env ps qs bs)
    (phone : Str) (c : UInt8) (hc : c.toNat = ps.length) (i : Nat) :
    ReadsAt i (DeviceParams.decode env phone c) bs ⟨phone, c, qs⟩ := by
  unfold DeviceParams.decode
  rw [hc]
  exact .map (h.reads i)

/-! ### Updating -/

theorem insertById_mem (p x : ParamData) (l : List ParamData) : x ∈ insertById p l ↔ x = p ∨ x ∈ l := by
  induction l with
  | nil => simp [insertById]
  | cons q qs ih =>
    unfold insertById
    split
    · simp
    · simp only [List.mem_cons, ih]
      constructor
      · rintro (h | h | h) <;> simp [h]
      · rintro (h | h | h) <;> simp [h]

theorem sortById_mem (x : ParamData) (l : List ParamData) : x ∈ sortById l ↔ x ∈ l := by
  induction l with
  | nil => simp [sortById]
  | cons p ps ih => simp [sortById, insertById_mem, ih]

theorem insertById_length (p : ParamData) (l : List ParamData) : (insertById p l).length = l.length + 1 := by
  induction l with
  | nil => rfl
  | cons q qs ih => unfold insertById; split <;> simp [ih]

theorem sortById_length (l : List ParamData) : (sortById l).length = l.length := by
  induction l with
  | nil => rfl
  | cons p ps ih => simp [sortById, insertById_length, ih]

/-- Ids pairwise distinct. -/
def DistinctIDs (l : List ParamData) : Prop := l.Pairwise (fun a b => a.id ≠ b.id)

/-- Ids ascending. -/
def AscIDs (l : List ParamData) : Prop := l.Pairwise (fun a b => a.id < b.id)

theorem insertById_asc (p : ParamData) (l : List ParamData) (h : AscIDs l) (hd : ∀ q ∈ l, p.id ≠ q.id) :
    AscIDs (insertById p l) := by
  induction l with
  | nil => simp [insertById, AscIDs]
  | cons q qs ih =>
    unfold AscIDs at h
    rw [List.pairwise_cons] at h
    unfold insertById
    split
    · rename_i hlt
      unfold AscIDs
      rw [List.pairwise_cons, List.pairwise_cons]
      refine ⟨?_, h.1, h.2⟩
      intro x hx
      rcases List.mem_cons.mp hx with rfl | hx
      · exact hlt
      · exact UInt32.lt_trans hlt (h.1 x hx)
    · rename_i hnlt
      unfold AscIDs
      rw [List.pairwise_cons]
      refine ⟨?_, ih h.2 (fun x hx => hd x (by simp [hx]))⟩
      intro x hx
      rcases (insertById_mem p x qs).mp hx with rfl | hx
      · have := hd q (by simp)
        rw [UInt32.lt_iff_toNat_lt] at hnlt ⊢
        have : x.id.toNat ≠ q.id.toNat := fun e => this (UInt32.toNat_inj.mp e)
        omega
      · exact h.1 x hx

theorem sortById_asc (l : List ParamData) (h : DistinctIDs l) : AscIDs (sortById l) := by
  induction l with
  | nil => simp [sortById, AscIDs]
  | cons p ps ih =>
    unfold DistinctIDs at h
    rw [List.pairwise_cons] at h
    refine insertById_asc p _ (ih h.2) ?_
    intro q hq
    exact h.1 q ((sortById_mem q ps).mp hq)

theorem asc_unique {l l' : List ParamData} (h : AscIDs l) (h' : AscIDs l') (hm : ∀ x, x ∈ l ↔ x ∈ l') : l = l' := by
  induction l generalizing l' with
  | nil =>
    cases l' with
    | nil => rfl
    | cons y ys => exact absurd ((hm y).mpr (by simp)) (by simp)
  | cons x xs ih =>
    cases l' with
    | nil => exact absurd ((hm x).mp (by simp)) (by simp)
    | cons y ys =>
      unfold AscIDs at h h'
      rw [List.pairwise_cons] at h h'
      have hxy : x = y := by
        rcases List.mem_cons.mp ((hm x).mp (by simp)) with e | hx
        · exact e
        · rcases List.mem_cons.mp ((hm y).mpr (by simp)) with e | hy
          · exact e.symm
          · have := h'.1 x hx
            have := h.1 y hy
            rw [UInt32.lt_iff_toNat_lt] at *
            omega
      subst hxy
      have hx : x ∉ xs := fun hh => by
        have := h.1 x hh; rw [UInt32.lt_iff_toNat_lt] at this; omega
      have hy : x ∉ ys := fun hh => by
        have := h'.1 x hh; rw [UInt32.lt_iff_toNat_lt] at this; omega
      congr 1
      refine ih h.2 h'.2 ?_
      intro z
      constructor
      · intro hz
        rcases List.mem_cons.mp ((hm z).mp (by simp [hz])) with e | h
        · subst e; exact absurd hz hx
        · exact h
      · intro hz
        rcases List.mem_cons.mp ((hm z).mpr (by simp [hz])) with e | h
        · subst e; exact absurd hz hy
        · exact h

theorem pmapSet_distinct (m : List ParamData) (p : ParamData) (h : DistinctIDs m) : DistinctIDs (pmapSet m p) := by
  unfold DistinctIDs pmapSet at *
  rw [List.pairwise_cons]
  refine ⟨?_, h.filter _⟩
  intro q hq
  have := (List.mem_filter.mp hq).2
  simp at this
  exact fun e => this e.symm

theorem pmapSet_mem (m : List ParamData) (p q : ParamData) :
    q ∈ pmapSet m p ↔ q = p ∨ (q ∈ m ∧ q.id ≠ p.id) := by
  simp [pmapSet, List.mem_filter]

/-- The map built by the first loop. -/
theorem fold_set_distinct (ps : List ParamData) (m : List ParamData) (h : DistinctIDs m) :
    DistinctIDs (ps.foldl pmapSet m) := by
  induction ps generalizing m with
  | nil => exact h
  | cons p ps ih => exact ih _ (pmapSet_distinct m p h)

theorem fold_upd_distinct (ps : List ParamData) (m : List ParamData) (h : DistinctIDs m) :
    DistinctIDs (ps.foldl (fun m q => if pmapHas m q.id then pmapSet m q else m) m) := by
  induction ps generalizing m with
  | nil => exact h
  | cons p ps ih =>
    simp only [List.foldl_cons]
    split
    · exact ih _ (pmapSet_distinct m p h)
    · exact ih _ h

/-- Pairs of ids and items. -/
def idPairs (ps : List ParamData) : List (UInt32 × ParamData) := ps.map fun p => (p.id, p)

theorem lastValue_id {ps : List ParamData} {i : UInt32} {x : ParamData} (h : lastValue (idPairs ps) i = some x) :
    x.id = i := by
  induction ps with
  | nil => simp [idPairs, lastValue] at h
  | cons p ps ih =>
    simp only [idPairs, List.map_cons, lastValue] at h
    cases hr : lastValue (idPairs ps) i with
    | some w =>
      rw [show List.map (fun p => (p.id, p)) ps = idPairs ps from rfl, hr] at h
      injection h with h; subst h; exact ih hr
    | none =>
      rw [show List.map (fun p => (p.id, p)) ps = idPairs ps from rfl, hr] at h
      simp only at h
      split at h
      · injection h with h; subst h; assumption
      · cases h

theorem fold_set_mem (ps m : List ParamData) (x : ParamData) :
    x ∈ ps.foldl pmapSet m ↔
      lastValue (idPairs ps) x.id = some x ∨ (lastValue (idPairs ps) x.id = none ∧ x ∈ m) := by
  induction ps generalizing m with
  | nil => simp [idPairs, lastValue]
  | cons p ps ih =>
    simp only [List.foldl_cons]
    rw [ih, pmapSet_mem]
    simp only [idPairs, List.map_cons, lastValue]
    rw [show List.map (fun p => (p.id, p)) ps = idPairs ps from rfl]
    cases hr : lastValue (idPairs ps) x.id with
    | some w => simp
    | none =>
      simp only
      by_cases he : p.id = x.id
      · simp only [he, if_true]
        constructor
        · rintro (h | ⟨-, h | ⟨-, h⟩⟩)
          · cases h
          · left; rw [h]
          · exact absurd he.symm (fun e => h (by rw [e]))
        · rintro (h | ⟨h, -⟩)
          · injection h with h; exact Or.inr ⟨by trivial, Or.inl h.symm⟩
          · cases h
      · rw [if_neg he]
        constructor
        · rintro (h | ⟨-, h | ⟨h, -⟩⟩)
          · cases h
          · subst h; exact absurd rfl he
          · exact Or.inr ⟨rfl, h⟩
        · rintro (h | ⟨-, h⟩)
          · cases h
          · exact Or.inr ⟨by trivial, Or.inr ⟨h, fun e => he e.symm⟩⟩

theorem pmapHas_iff (m : List ParamData) (i : UInt32) : pmapHas m i = true ↔ ∃ q ∈ m, q.id = i := by
  simp [pmapHas]

theorem pmapHas_set (m : List ParamData) (q : ParamData) (h : pmapHas m q.id = true) (i : UInt32) :
    pmapHas (pmapSet m q) i = pmapHas m i := by
  rw [Bool.eq_iff_iff, pmapHas_iff, pmapHas_iff]
  constructor
  · rintro ⟨x, hx, hi⟩
    rcases (pmapSet_mem m q x).mp hx with rfl | ⟨hx, -⟩
    · rw [← hi]; exact (pmapHas_iff m _).mp h
    · exact ⟨x, hx, hi⟩
  · rintro ⟨x, hx, hi⟩
    by_cases e : x.id = q.id
    · exact ⟨q, (pmapSet_mem m q q).mpr (Or.inl rfl), by rw [← e, hi]⟩
    · exact ⟨x, (pmapSet_mem m q x).mpr (Or.inr ⟨hx, e⟩), hi⟩

theorem fold_upd_mem (ps m : List ParamData) (x : ParamData) :
    x ∈ ps.foldl (fun m q => if pmapHas m q.id then pmapSet m q else m) m ↔
      (pmapHas m x.id = true ∧ lastValue (idPairs ps) x.id = some x) ∨
      (lastValue (idPairs ps) x.id = none ∧ x ∈ m) := by
  induction ps generalizing m with
  | nil => simp [idPairs, lastValue]
  | cons p ps ih =>
    simp only [List.foldl_cons]
    rw [ih]
    simp only [idPairs, List.map_cons, lastValue]
    rw [show List.map (fun p => (p.id, p)) ps = idPairs ps from rfl]
    by_cases hp : pmapHas m p.id = true
    · rw [if_pos hp, pmapHas_set m p hp, pmapSet_mem]
      cases hr : lastValue (idPairs ps) x.id with
      | some w => simp
      | none =>
        simp only
        by_cases he : p.id = x.id
        · simp only [he, if_true]
          constructor
          · rintro (⟨-, h⟩ | ⟨-, h | ⟨-, h⟩⟩)
            · cases h
            · left; rw [h]; exact ⟨hp, rfl⟩
            · exact absurd rfl h
          · rintro (⟨-, h⟩ | ⟨h, -⟩)
            · injection h with h; exact Or.inr ⟨by trivial, Or.inl h.symm⟩
            · cases h
        · rw [if_neg he]
          constructor
          · rintro (⟨-, h⟩ | ⟨-, h | ⟨h, -⟩⟩)
            · cases h
            · subst h; exact absurd rfl he
            · exact Or.inr ⟨rfl, h⟩
          · rintro (⟨-, h⟩ | ⟨-, h⟩)
            · cases h
            · exact Or.inr ⟨by trivial, Or.inr ⟨h, fun e => he e.symm⟩⟩
    · rw [if_neg hp]
      cases hr : lastValue (idPairs ps) x.id with
      | some w => simp
      | none =>
        simp only
        by_cases he : p.id = x.id
        · simp only [he, if_true]
          have hx : pmapHas m x.id ≠ true := by rw [← he]; exact hp
          constructor
          · rintro (⟨-, h⟩ | ⟨-, h⟩)
            · cases h
            · exact absurd ((pmapHas_iff m x.id).mpr ⟨x, h, rfl⟩) hx
          · rintro (⟨h, -⟩ | ⟨h, -⟩)
            · exact absurd h hx
            · cases h
        · rw [if_neg he]
          simp

end JT808
