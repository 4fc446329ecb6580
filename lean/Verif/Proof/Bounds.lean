import Verif.Proof.Msgs
/-
Helper lemmas: which bytes the message decoders look at.
-/
namespace JT808
open Spec

theorem Local.onRest {α : Type} {r : Rd α} (h : Local r) : Local (Rd.onRest r) := by
  intro s i a j he
  unfold Rd.onRest Slice.from' at he
  by_cases hi : i ≤ s.data.length
  · rw [if_pos hi] at he
    simp only at he
    cases hr : r ⟨s.data.drop i, s.slack⟩ 0 with
    | err e => simp [hr] at he
    | panic => simp [hr] at he
    | ok x =>
      obtain ⟨b, k⟩ := x
      simp only [hr] at he
      injection he with he; injection he with h1 h2
      subst h1; subst h2
      obtain ⟨-, h2, h3⟩ := h _ _ _ _ hr
      have hm : (⟨s.data.drop i, s.slack⟩ : Slice).mem = s.mem.drop i := by
        simp [Slice.mem, List.drop_append_of_le_length hi]
      refine ⟨by omega, ?_, ?_⟩
      · intro hle
        have := h2 (Nat.zero_le _)
        rw [hm] at this; simp at this; omega
      · intro s' hs' ht
        unfold Rd.onRest Slice.from'
        rw [if_pos (by omega)]
        have := h3 ⟨s'.data.drop i, s'.slack⟩ (by simp; omega) (by
          rw [hm]
          have e1 := congrArg (List.drop i) ht
          rw [List.drop_take, List.drop_take] at e1
          have : i + k - i = k := by omega
          rwa [this] at e1)
        simp [this]
  · rw [if_neg hi] at he; simp at he

theorem Local.ack : Local GeneralAck.decode :=
  .bind .readWord fun _ => .bind .readWord fun _ => .bind .readByte fun _ => .pure _

theorem Local.readString (n : Int) : Local (readString n) := Local.readBytes n

theorem Local.widths (h : Header) : Local (Register.widths h) := by
  unfold Register.widths
  split
  · exact .pure _
  · split <;> exact .pure _
  · exact .fail _

theorem Local.register (env : Env) (h : Header) : Local (Register.decode env h) :=
  .bind .readWord fun _ => .bind .readWord fun _ => .bind (.widths h) fun _ => .bind (.readString _) fun _ =>
    .bind (.readString _) fun _ => .bind (.readString _) fun _ => .bind .readByte fun _ => .bind .getIdx fun _ =>
      .bind (.readGBK env _) fun _ => .pure _

theorem Local.auth (h : Header) : Local (AuthMsg.decode h) := by
  unfold AuthMsg.decode
  split
  · exact .bind (.readString _) fun _ => .pure _
  · exact .bind .readByte fun _ => .bind (.readString _) fun _ => .bind (.readString _) fun _ =>
      .bind (.readString _) fun _ => .pure _
  · exact .pure _

theorem Local.kind (env : Env) (k : PKind) (n : Nat) : Local (k.decode env n) := by
  cases k
  · exact .bind .readByte fun _ => .pure _
  · exact .bind .readWord fun _ => .pure _
  · exact .bind .readDWord fun _ => .pure _
  · exact .bind (.readBCD _) fun _ => .pure _
  · exact .bind (.readString _) fun _ => .pure _
  · exact .bind (.readGBK env _) fun _ => .pure _

theorem Local.param (env : Env) : Local (ParamData.decode env) := by
  refine .bind .readDWord fun id => .bind .readByte fun len => .bind ?_ fun _ => .pure _
  unfold ParamData.decodeValue
  split
  · exact .kind env _ _
  · exact .panic

theorem Local.paramN (env : Env) (n : Nat) : Local (ParamData.decodeN env n) := by
  induction n with
  | zero => exact .pure _
  | succ n ih => exact .bind (.param env) fun _ => .bind ih fun _ => .pure _

theorem Local.params (env : Env) (phone : Str) (c : UInt8) : Local (DeviceParams.decode env phone c) :=
  .bind (.paramN env _) fun _ => .pure _

theorem Local.paramsMsg (env : Env) (h : Header) : Local (ParamsMsg.decode env h) :=
  .bind .readWord fun _ => .bind .readByte fun _ => .bind (.onRest (.params env _ _)) fun _ => .pure _

theorem Local.loc : Local LocMsg.decode :=
  .bind .readDWord fun _ => .bind .readDWord fun _ => .bind .readDWord fun _ => .bind .readDWord fun _ =>
    .bind .readWord fun _ => .bind .readWord fun _ => .bind .readWord fun _ => .bind (.readBCD _) fun _ => .pure _

theorem Local.readTime (now : Civil) : Local (readTime now) := .bind (.readBCD _) fun _ => .pure _

theorem Local.query (now : Civil) : Local (MediaQuery.decode now) :=
  .bind .readByte fun _ => .bind (.readTime now) fun _ => .bind (.readTime now) fun _ => .bind .readDWord fun _ =>
    .bind .readDWord fun _ => .bind .readByte fun _ => .bind .readByte fun _ => .bind .readByte fun _ => .pure _

theorem Local.mediaList (now : Civil) : Local (MediaList.decode now) :=
  .bind .readWord fun _ => .bind .readDWord fun _ =>
    .bind (.onRest (.bind (.query now) fun _ => .bind .readDWord fun _ => .pure _)) fun _ => .pure _

theorem Local.registerAck (h : Header) : Local (RegisterAck.decode h) :=
  .bind .readWord fun _ => .bind .readByte fun _ => .bind .getIdx fun _ => .bind (.readString _) fun _ => .pure _

theorem Local.setParams (env : Env) (h : Header) : Local (SetParams.decode env h) :=
  .bind .readByte fun _ => .bind (.onRest (.params env _ _)) fun _ => .pure _

theorem Local.msg (env : Env) (now : Civil) (h : Header) (t : MType) : Local (t.decode env now h) := by
  cases t
  · exact .bind .ack fun _ => .pure _
  · exact .pure _
  · exact .pure _
  · exact .bind (.register env h) fun _ => .pure _
  · exact .bind (.auth h) fun _ => .pure _
  · exact .bind (.paramsMsg env h) fun _ => .pure _
  · exact .bind .loc fun _ => .pure _
  · exact .bind (.mediaList now) fun _ => .pure _
  · exact .bind .ack fun _ => .pure _
  · exact .bind (.registerAck h) fun _ => .pure _
  · exact .bind (.setParams env h) fun _ => .pure _
  · exact .pure _
  · exact .bind (.query now) fun _ => .pure _

/-! ### Minimum lengths -/

/-- A read that succeeds proves that `n` bytes from the start position on lie within the length. -/
def Needs {α : Type} (n : Nat) (r : Rd α) : Prop := ∀ s i a j, r s i = .ok (a, j) → i + n ≤ s.data.length

theorem Needs.byte : Needs 1 readByte := fun _ _ _ _ h => by have := readByte_inv h; omega

theorem Needs.first {α β : Type} {n : Nat} {r : Rd α} {f : α → Rd β} (h : Needs n r) : Needs n (r >>= f) := by
  intro s i b j he
  obtain ⟨a, k, e1, -⟩ := rd_bind_ok he
  exact h s i a k e1

theorem Needs.skip {α β : Type} {w n : Nat} {r : Rd α} {f : α → Rd β} (hw : Width w r) (h : ∀ a, Needs n (f a)) :
    Needs (w + n) (r >>= f) := by
  intro s i b j he
  obtain ⟨a, k, e1, e2⟩ := rd_bind_ok he
  have := hw s i a k e1
  have := h a s k b j e2
  omega

theorem Needs.ack : Needs 5 GeneralAck.decode :=
  .skip (n := 3) width_word fun _ => .skip (n := 1) width_word fun _ => .first .byte

theorem Needs.registerAck (h : Header) : Needs 3 (RegisterAck.decode h) :=
  .skip (n := 1) width_word fun _ => .first .byte

theorem width_time (now : Civil) : Width 6 (readTime now) := Width.bind (m := 0) (width_bcd 6) fun _ => Width.pure _

theorem Needs.query (now : Civil) : Needs 24 (MediaQuery.decode now) :=
  .skip (n := 23) width_byte fun _ => .skip (n := 17) (width_time now) fun _ => .skip (n := 11) (width_time now) fun _ =>
    .skip (n := 7) width_dword fun _ => .skip (n := 3) width_dword fun _ => .skip (n := 2) width_byte fun _ =>
      .skip (n := 1) width_byte fun _ => .first .byte

theorem Needs.paramsMsg (env : Env) (h : Header) : Needs 3 (ParamsMsg.decode env h) :=
  .skip (n := 1) width_word fun _ => .first .byte

theorem Needs.setParams (env : Env) (h : Header) : Needs 1 (SetParams.decode env h) := .first .byte

theorem Needs.register (env : Env) (h : Header) :
    Needs (if h.attr.verDesc = .v2019 then 76 else 25) (Register.decode env h) := by
  intro s i b j he
  unfold Register.decode at he
  obtain ⟨a1, k1, e1, he⟩ := rd_bind_ok he
  obtain ⟨a2, k2, e2, he⟩ := rd_bind_ok he
  obtain ⟨w, k3, e3, he⟩ := rd_bind_ok he
  obtain ⟨a4, k4, e4, he⟩ := rd_bind_ok he
  obtain ⟨a5, k5, e5, he⟩ := rd_bind_ok he
  obtain ⟨a6, k6, e6, he⟩ := rd_bind_ok he
  obtain ⟨a7, k7, e7, he⟩ := rd_bind_ok he
  have f1 := width_word _ _ _ _ e1
  have f2 := width_word _ _ _ _ e2
  have f4 := (width_bytes _ _ _ _ _ e4)
  have f5 := (width_bytes _ _ _ _ _ e5)
  have f6 := (width_bytes _ _ _ _ _ e6)
  have f7 := readByte_inv e7
  unfold Register.widths at e3
  cases hv : h.attr.verDesc with
  | v2019 =>
    simp only [hv] at e3
    injection e3 with e3; injection e3 with g1 g2
    subst g1
    simp at f4 f5 f6
    simp; omega
  | v2013 =>
    simp only [hv] at e3
    split at e3
    · injection e3 with e3; injection e3 with g1 g2
      subst g1
      simp at f4 f5 f6
      simp; omega
    · injection e3 with e3; injection e3 with g1 g2
      subst g1
      simp at f4 f5 f6
      simp; omega
  | v2011 => simp only [hv] at e3; cases e3

end JT808
