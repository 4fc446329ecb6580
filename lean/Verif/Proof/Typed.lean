import Verif.Proof.Codec
import Verif.Model.Processor
/-
Parameter lists whose values have the types their ids ask for: what decoding produces, what updating keeps, and what
can always be encoded.
-/
namespace JT808

/-- `v` has the dynamic type the codec of kind `k` produces. -/
def PV.Of : PKind → PV → Prop
  | .byte, .byte _ => True
  | .word, .word _ => True
  | .dword, .dword _ => True
  | .bytes, .str _ => True
  | .string, .str _ => True
  | .gbk, .str _ => True
  | _, _ => False

/-- The id is in the table and the value has its type. -/
def ParamData.Typed (p : ParamData) : Prop := ∃ k, argTable p.id = some k ∧ p.value.Of k

/-- All items are typed. -/
def DeviceParams.Typed (p : DeviceParams) : Prop := ∀ x ∈ p.params, x.Typed

theorem PKind.decode_of {env : Env} {k : PKind} {len : Nat} {s : Slice} {i j : Nat} {v : PV}
    (h : k.decode env len s i = .ok (v, j)) : v.Of k := by
  cases k <;>
    (simp only [PKind.decode] at h
     obtain ⟨a, m, -, h2⟩ := rd_bind_ok h
     injection h2 with h2; injection h2 with h2 _; subst h2; trivial)

theorem ParamData.decode_typed {env : Env} {s : Slice} {i j : Nat} {p : ParamData}
    (h : ParamData.decode env s i = .ok (p, j)) : p.Typed := by
  unfold ParamData.decode at h
  obtain ⟨id, m, -, h⟩ := rd_bind_ok h
  obtain ⟨len, m, -, h⟩ := rd_bind_ok h
  obtain ⟨v, m, h1, h⟩ := rd_bind_ok h
  injection h with h; injection h with h _; subst h
  unfold ParamData.decodeValue at h1
  cases hk : argTable id with
  | none => rw [hk] at h1; cases h1
  | some k => rw [hk] at h1; exact ⟨k, hk, PKind.decode_of h1⟩

theorem ParamData.decodeN_typed {env : Env} {n : Nat} {s : Slice} {i j : Nat} {ps : List ParamData}
    (h : ParamData.decodeN env n s i = .ok (ps, j)) : ∀ x ∈ ps, x.Typed := by
  induction n generalizing i j ps with
  | zero =>
    unfold ParamData.decodeN at h
    injection h with h; injection h with h _; subst h; intro x hx; cases hx
  | succ n ih =>
    unfold ParamData.decodeN at h
    obtain ⟨p, m, h1, h⟩ := rd_bind_ok h
    obtain ⟨qs, m, h2, h⟩ := rd_bind_ok h
    injection h with h; injection h with h _; subst h
    intro x hx
    rcases List.mem_cons.1 hx with rfl | hx
    · exact ParamData.decode_typed h1
    · exact ih h2 x hx

theorem DeviceParams.decode_typed {env : Env} {phone : Str} {n : UInt8} {s : Slice} {i j : Nat} {q : DeviceParams}
    (h : DeviceParams.decode env phone n s i = .ok (q, j)) : q.Typed := by
  unfold DeviceParams.decode at h
  obtain ⟨ps, k, h1, h2⟩ := rd_bind_ok h
  injection h2 with h2; injection h2 with h2 _; subst h2
  exact ParamData.decodeN_typed h1

theorem mem_foldl_pmapSet {ps m : List ParamData} {x : ParamData} (h : x ∈ ps.foldl pmapSet m) : x ∈ m ∨ x ∈ ps := by
  induction ps generalizing m with
  | nil => exact .inl h
  | cons p ps ih =>
    rcases ih h with h | h
    · rcases List.mem_cons.1 h with rfl | h
      · exact .inr (List.mem_cons_self ..)
      · exact .inl (List.mem_filter.1 h).1
    · exact .inr (List.mem_cons_of_mem _ h)

theorem mem_foldl_pmapUpd {ps m : List ParamData} {x : ParamData}
    (h : x ∈ ps.foldl (fun m q => if pmapHas m q.id then pmapSet m q else m) m) : x ∈ m ∨ x ∈ ps := by
  induction ps generalizing m with
  | nil => exact .inl h
  | cons p ps ih =>
    rcases ih h with h | h
    · simp only at h
      split at h
      · rcases List.mem_cons.1 h with rfl | h
        · exact .inr (List.mem_cons_self ..)
        · exact .inl (List.mem_filter.1 h).1
      · exact .inl h
    · exact .inr (List.mem_cons_of_mem _ h)

theorem mem_insertById' {p x : ParamData} {l : List ParamData} (h : x ∈ insertById p l) : x = p ∨ x ∈ l := by
  induction l with
  | nil => simpa [insertById] using h
  | cons q l ih =>
    unfold insertById at h
    split at h
    · simpa using h
    · rcases List.mem_cons.1 h with rfl | h
      · exact .inr (List.mem_cons_self ..)
      · rcases ih h with h | h
        · exact .inl h
        · exact .inr (List.mem_cons_of_mem _ h)

theorem mem_sortById' {x : ParamData} {l : List ParamData} (h : x ∈ sortById l) : x ∈ l := by
  induction l with
  | nil => exact h
  | cons q l ih =>
    rcases mem_insertById' h with rfl | h
    · exact List.mem_cons_self ..
    · exact List.mem_cons_of_mem _ (ih h)

theorem DeviceParams.Typed.update {p q : DeviceParams} (hp : p.Typed) (hq : q.Typed) : (p.update id q).Typed := by
  intro x hx
  rcases mem_foldl_pmapUpd (mem_sortById' hx) with h | h
  · rcases mem_foldl_pmapSet h with h | h
    · cases h
    · exact hp x h
  · exact hq x h

theorem PV.Of.encode {env : Env} {k : PKind} {v : PV} (h : v.Of k) : ∃ bs, k.encode env v = .ok bs := by
  cases k <;> cases v <;> first | exact h.elim | exact ⟨_, rfl⟩

theorem encodeAll_typed {env : Env} {ps : List ParamData} (h : ∀ x ∈ ps, x.Typed) :
    ∃ bs, ParamData.encodeAll env ps = .ok bs := by
  induction ps with
  | nil => exact ⟨_, rfl⟩
  | cons p ps ih =>
    obtain ⟨k, hk, hv⟩ := h p (List.mem_cons_self ..)
    obtain ⟨bs, e⟩ := PV.Of.encode (env := env) hv
    obtain ⟨rest, e'⟩ := ih fun x hx => h x (List.mem_cons_of_mem _ hx)
    unfold ParamData.encodeAll ParamData.encode
    simp only [hk, e, e']
    exact ⟨_, rfl⟩

/-- Typed parameters can always be encoded. -/
theorem DeviceParams.Typed.encode {env : Env} {p : DeviceParams} (h : p.Typed) : ∃ bs, p.encode env = .ok bs := by
  obtain ⟨bs, e⟩ := encodeAll_typed (env := env) h
  unfold DeviceParams.encode
  rw [e]; exact ⟨_, rfl⟩

/-! ### The built-in parameters -/

/-- Both readers end alike: they fail alike or leave the cursor at the same place. -/
def Res.alike {α : Type} : Res (α × Nat) → Res (α × Nat) → Prop
  | .ok a, .ok b => a.2 = b.2
  | .err e, .err e' => e = e'
  | .panic, .panic => True
  | _, _ => False

theorem Res.alike_refl {α : Type} (r : Res (α × Nat)) : r.alike r := by cases r <;> simp [Res.alike]

theorem PKind.decode_alike (env env' : Env) (k : PKind) (len : Nat) (s : Slice) (i : Nat) :
    (k.decode env len s i).alike (k.decode env' len s i) := by
  cases k
  case gbk =>
    simp only [PKind.decode, readGBK, rd_bind_eq]
    cases readBytes (len : Int) s i with
    | ok a => cases hx : env.gbkDec a.1 <;> cases hy : env'.gbkDec a.1 <;> simp [hx, hy, rd_pure_eq, Res.alike]
    | err e => simp [Res.alike]
    | panic => simp [Res.alike]
  all_goals exact Res.alike_refl _

theorem ParamData.decode_alike (env env' : Env) (s : Slice) (i : Nat) :
    (ParamData.decode env s i).alike (ParamData.decode env' s i) := by
  unfold ParamData.decode
  simp only [rd_bind_eq]
  cases readDWord s i with
  | err e => exact Res.alike_refl _
  | panic => exact Res.alike_refl _
  | ok a =>
    simp only
    cases readByte s a.2 with
    | err e => exact Res.alike_refl _
    | panic => exact Res.alike_refl _
    | ok b =>
      simp only
      unfold ParamData.decodeValue
      cases argTable a.1 with
      | none => exact Res.alike_refl _
      | some k =>
        have := PKind.decode_alike env env' k b.1.toNat s b.2
        simp only
        revert this
        cases k.decode env b.1.toNat s b.2 <;> cases k.decode env' b.1.toNat s b.2 <;>
          simp [Res.alike, rd_pure_eq]

theorem ParamData.decodeN_alike (env env' : Env) (n : Nat) (s : Slice) (i : Nat) :
    (ParamData.decodeN env n s i).alike (ParamData.decodeN env' n s i) := by
  induction n generalizing i with
  | zero => exact Res.alike_refl _
  | succ n ih =>
    unfold ParamData.decodeN
    simp only [rd_bind_eq]
    have h1 := ParamData.decode_alike env env' s i
    revert h1
    cases ParamData.decode env s i with
    | err e => cases ParamData.decode env' s i <;> simp [Res.alike]
    | panic => cases ParamData.decode env' s i <;> simp [Res.alike]
    | ok a =>
      cases ParamData.decode env' s i with
      | err e => simp [Res.alike]
      | panic => simp [Res.alike]
      | ok b =>
        intro h1
        simp only [Res.alike] at h1
        simp only [← h1]
        have h2 := ih a.2
        revert h2
        cases ParamData.decodeN env n s a.2 <;> cases ParamData.decodeN env' n s a.2 <;> simp [Res.alike, rd_pure_eq]

theorem fixed_goEnv : ∃ ps j, ParamData.decodeN goEnv 39 fixedParams 0 = .ok (ps, j) := by
  have : (ParamData.decodeN goEnv 39 fixedParams 0).isOk = true := by decide +kernel
  revert this
  cases ParamData.decodeN goEnv 39 fixedParams 0 with
  | ok a => intro _; exact ⟨a.1, a.2, rfl⟩
  | err e => intro h; cases h
  | panic => intro h; cases h

theorem decode_ok_alike (env env' : Env) (phone : Str) (n : UInt8) (s : Slice)
    (e : ∃ ps j, ParamData.decodeN env n.toNat s 0 = .ok (ps, j)) :
    ∃ q j, DeviceParams.decode env' phone n s 0 = .ok (q, j) := by
  obtain ⟨ps, j, e⟩ := e
  have h := ParamData.decodeN_alike env env' n.toNat s 0
  rw [e] at h
  unfold DeviceParams.decode
  simp only [rd_bind_eq]
  revert h
  cases ParamData.decodeN env' n.toNat s 0 with
  | ok a => intro _; exact ⟨_, _, rfl⟩
  | err e => intro h; exact h.elim
  | panic => intro h; exact h.elim

/-- The built-in parameters decode, whatever the text converter does. -/
theorem fixedDecode_ok (env : Env) (phone : Str) : ∃ q j, fixedDecode env phone = .ok (q, j) :=
  decode_ok_alike goEnv env phone 39 fixedParams fixed_goEnv

end JT808
