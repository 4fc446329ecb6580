import Verif.Proof.Errors
import Verif.Props.Params
/-
When decoders and handlers do not panic.
-/
namespace JT808
open Spec

/-- Weakest precondition: `r` does not panic at `i`, and if it succeeds, then with a value and cursor in `Q`. -/
def Rd.Wp {α : Type} (r : Rd α) (s : Slice) (i : Nat) (Q : α → Nat → Prop) : Prop :=
  match r s i with
  | .ok (a, j) => Q a j
  | .err _ => True
  | .panic => False

theorem Rd.Wp.noPanic {α : Type} {r : Rd α} {s : Slice} {i : Nat} {Q : α → Nat → Prop} (h : r.Wp s i Q) :
    r s i ≠ .panic := by
  intro e; unfold Rd.Wp at h; rw [e] at h; exact h

theorem Rd.Wp.bind {α β : Type} {r : Rd α} {f : α → Rd β} {s : Slice} {i : Nat} {Q : β → Nat → Prop}
    (h : r.Wp s i fun a j => (f a).Wp s j Q) : (r >>= f).Wp s i Q := by
  unfold Rd.Wp at *
  rw [rd_bind_eq]
  cases hr : r s i with
  | ok x => rw [hr] at h; exact h
  | err e => trivial
  | panic => rw [hr] at h; exact h

theorem Rd.Wp.pure {α : Type} {a : α} {s : Slice} {i : Nat} {Q : α → Nat → Prop} (h : Q a i) :
    (Pure.pure a : Rd α).Wp s i Q := h

theorem Rd.Wp.fail {α : Type} {e : Err} {s : Slice} {i : Nat} {Q : α → Nat → Prop} : (Rd.fail e : Rd α).Wp s i Q := trivial

theorem Rd.Wp.mono {α : Type} {r : Rd α} {s : Slice} {i : Nat} {P Q : α → Nat → Prop} (h : r.Wp s i P)
    (hpq : ∀ a j, P a j → Q a j) : r.Wp s i Q := by
  unfold Rd.Wp at *
  cases hr : r s i with
  | ok x => rw [hr] at h; exact hpq _ _ h
  | err e => trivial
  | panic => rw [hr] at h; exact h

theorem wp_byte {s : Slice} {i : Nat} {Q : UInt8 → Nat → Prop} (h : i + 1 ≤ s.data.length)
    (hq : ∀ b, s.data[i]? = some b → Q b (i + 1)) : readByte.Wp s i Q := by
  unfold Rd.Wp readByte Slice.index
  cases hb : s.data[i]? with
  | some b => exact hq b hb
  | none => rw [List.getElem?_eq_none_iff] at hb; omega

theorem wp_bytes {s : Slice} {i : Nat} {n : Int} {Q : List UInt8 → Nat → Prop} (h0 : 0 ≤ n)
    (h : i + n.toNat ≤ s.data.length) (hq : ∀ bs, bs.length = n.toNat → Q bs (i + n.toNat)) : (readBytes n).Wp s i Q := by
  unfold Rd.Wp readBytes Slice.sub
  have hm : i + n.toNat ≤ s.mem.length := by simp only [Slice.mem, List.length_append]; omega
  rw [if_pos ⟨h0, hm⟩]
  refine hq _ ?_
  rw [List.length_take, List.length_drop]; omega

theorem wp_word {s : Slice} {i : Nat} {Q : UInt16 → Nat → Prop} (h : i + 2 ≤ s.data.length)
    (hq : ∀ b, Q b (i + 2)) : readWord.Wp s i Q := by
  unfold readWord
  refine Rd.Wp.bind (wp_bytes (by omega) (by simpa using h) ?_)
  intro bs hl
  obtain ⟨a, b, rfl⟩ : ∃ a b, bs = [a, b] := by
    match bs, hl with
    | [a, b], _ => exact ⟨a, b, rfl⟩
  exact Rd.Wp.pure (hq _)

theorem wp_dword {s : Slice} {i : Nat} {Q : UInt32 → Nat → Prop} (h : i + 4 ≤ s.data.length)
    (hq : ∀ b, Q b (i + 4)) : readDWord.Wp s i Q := by
  unfold readDWord
  refine Rd.Wp.bind (wp_bytes (by omega) (by simpa using h) ?_)
  intro bs hl
  obtain ⟨a, b, c, d, rfl⟩ : ∃ a b c d, bs = [a, b, c, d] := by
    match bs, hl with
    | [a, b, c, d], _ => exact ⟨a, b, c, d, rfl⟩
  exact Rd.Wp.pure (hq _)

theorem wp_bcd {s : Slice} {i : Nat} {n : Int} {Q : Str → Nat → Prop} (h0 : 0 ≤ n)
    (h : i + n.toNat ≤ s.data.length) (hq : ∀ x, Q x (i + n.toNat)) : (readBCD n).Wp s i Q :=
  Rd.Wp.bind (wp_bytes h0 h fun _ _ => Rd.Wp.pure (hq _))

theorem wp_string {s : Slice} {i : Nat} {n : Int} {Q : Str → Nat → Prop} (h0 : 0 ≤ n)
    (h : i + n.toNat ≤ s.data.length) (hq : ∀ x, Q x (i + n.toNat)) : (readString n).Wp s i Q :=
  wp_bytes h0 h fun _ _ => hq _

theorem wp_gbk {env : Env} {s : Slice} {i : Nat} {n : Int} {Q : Str → Nat → Prop} (h0 : 0 ≤ n)
    (h : i + n.toNat ≤ s.data.length) (hq : ∀ x, Q x (i + n.toNat)) : (readGBK env n).Wp s i Q := by
  refine Rd.Wp.bind (wp_bytes h0 h fun bs _ => ?_)
  cases env.gbkDec bs <;> exact Rd.Wp.pure (hq _)

theorem wp_time {now : Civil} {s : Slice} {i : Nat} {Q : Civil → Nat → Prop}
    (h : i + 6 ≤ s.data.length) (hq : ∀ x, Q x (i + 6)) : (readTime now).Wp s i Q :=
  Rd.Wp.bind (wp_bcd (by omega) (by simpa using h) fun _ => Rd.Wp.pure (hq _))

theorem wp_idx {s : Slice} {i : Nat} {Q : Nat → Nat → Prop} (hq : Q i i) : Rd.getIdx.Wp s i Q := hq

theorem wp_onRest {α : Type} {r : Rd α} {s : Slice} {i : Nat} {Q : α → Nat → Prop} (h : i ≤ s.data.length)
    (hq : r.Wp ⟨s.data.drop i, s.slack⟩ 0 fun a j => Q a (i + j)) : (Rd.onRest r).Wp s i Q := by
  unfold Rd.Wp Rd.onRest Slice.from' at *
  rw [if_pos h]
  simp only
  cases hr : r ⟨s.data.drop i, s.slack⟩ 0 with
  | ok x => rw [hr] at hq; exact hq
  | err e => trivial
  | panic => rw [hr] at hq; exact hq

theorem wp_ack {s : Slice} (h : 5 ≤ s.data.length) : GeneralAck.decode.Wp s 0 fun _ _ => True := by
  unfold GeneralAck.decode
  exact .bind (wp_word (by omega) fun _ => .bind (wp_word (by omega) fun _ => .bind (wp_byte (by omega) fun _ _ => trivial)))

theorem wp_loc {s : Slice} (h : 28 ≤ s.data.length) : LocMsg.decode.Wp s 0 fun _ _ => True := by
  unfold LocMsg.decode
  exact .bind (wp_dword (by omega) fun _ => .bind (wp_dword (by omega) fun _ => .bind (wp_dword (by omega) fun _ =>
    .bind (wp_dword (by omega) fun _ => .bind (wp_word (by omega) fun _ => .bind (wp_word (by omega) fun _ =>
    .bind (wp_word (by omega) fun _ => .bind (wp_bcd (by omega) (by simpa using h) fun _ => trivial))))))))

theorem wp_query {now : Civil} {s : Slice} {Q : MediaQuery → Nat → Prop} (h : 24 ≤ s.data.length) (hq : ∀ q, Q q 24) :
    (MediaQuery.decode now).Wp s 0 Q := by
  unfold MediaQuery.decode
  exact .bind (wp_byte (by omega) fun _ _ => .bind (wp_time (by omega) fun _ => .bind (wp_time (by omega) fun _ =>
    .bind (wp_dword (by omega) fun _ => .bind (wp_dword (by omega) fun _ => .bind (wp_byte (by omega) fun _ _ =>
    .bind (wp_byte (by omega) fun _ _ => .bind (wp_byte (by omega) fun _ _ => .pure (hq _)))))))))

theorem wp_media {now : Civil} {s : Slice} (h : 34 ≤ s.data.length) : (MediaList.decode now).Wp s 0 fun _ _ => True := by
  unfold MediaList.decode
  refine .bind (wp_word (by omega) fun _ => .bind (wp_dword (by omega) fun _ => .bind (wp_onRest (by omega) ?_)))
  unfold mediaDecode
  refine .bind (wp_query (by simp; omega) fun _ => .bind (wp_dword (by simp; omega) fun _ => trivial))

theorem wp_register {env : Env} {h : Header} {s : Slice}
    (h1 : (if h.attr.verDesc = .v2019 then 76 else 25) ≤ h.attr.bodyLength.toNat)
    (h2 : h.attr.bodyLength.toNat ≤ s.data.length) : (Register.decode env h).Wp s 0 fun _ _ => True := by
  unfold Register.decode
  have h25 : 25 ≤ h.attr.bodyLength.toNat := by split at h1 <;> omega
  refine .bind (wp_word (by omega) fun _ => .bind (wp_word (by omega) fun _ => .bind ?_))
  have whole : ∀ (w : Nat × Nat × Nat) (f : Str → Str → Str → UInt8 → Str → Register),
      5 + w.1 + w.2.1 + w.2.2 ≤ h.attr.bodyLength.toNat →
      Rd.Wp (do
        let manu ← readString w.1
        let mode ← readString w.2.1
        let id ← readString w.2.2
        let color ← readByte
        let idx ← Rd.getIdx
        let plate ← readGBK env ((h.attr.bodyLength.toNat : Int) - idx)
        pure (f manu mode id color plate)) s 4 fun _ _ => True := by
    intro w f hw
    refine .bind (wp_string (by omega) (by simp; omega) fun _ => .bind (wp_string (by omega) (by simp; omega) fun _ =>
      .bind (wp_string (by omega) (by simp; omega) fun _ => .bind (wp_byte (by simp; omega) fun _ _ => .bind (wp_idx ?_)))))
    refine .bind (wp_gbk ?_ ?_ fun _ => trivial) <;> simp <;> omega
  unfold Register.widths
  cases hv : h.attr.verDesc with
  | v2019 => rw [hv] at h1; simp at h1; exact .pure (whole (11, 30, 30) (fun a b c d e => _) (by simp; omega))
  | v2013 =>
    simp only
    split
    · exact .pure (whole (5, 20, 7) (fun a b c d e => _) (by simp; omega))
    · exact .pure (whole (5, 8, 7) (fun a b c d e => _) (by simp; omega))
  | v2011 => exact .fail

theorem wp_auth {h : Header} {s : Slice} (h1 : h.attr.verDesc = .v2013 → h.attr.bodyLength.toNat ≤ s.data.length)
    (h2 : h.attr.verDesc = .v2019 → ∃ n rest, s.data = n :: rest ∧ n.toNat + 35 ≤ rest.length) :
    (AuthMsg.decode h).Wp s 0 fun _ _ => True := by
  unfold AuthMsg.decode
  cases hv : h.attr.verDesc with
  | v2013 => exact .bind (wp_string (by omega) (by simpa using h1 hv) fun _ => trivial)
  | v2019 =>
    obtain ⟨n, rest, e, hn⟩ := h2 hv
    have hl : s.data.length = rest.length + 1 := by rw [e]; rfl
    refine .bind (wp_byte (by omega) fun b hb => ?_)
    rw [e] at hb
    simp at hb
    subst hb
    exact .bind (wp_string (by omega) (by simp; omega) fun _ => .bind (wp_string (by omega) (by simp; omega) fun _ =>
      .bind (wp_string (by omega) (by simp; omega) fun _ => trivial)))
  | v2011 => exact .pure trivial

theorem wp_registerAck {h : Header} {s : Slice} (h1 : 3 ≤ h.attr.bodyLength.toNat)
    (h2 : h.attr.bodyLength.toNat ≤ s.data.length) : (RegisterAck.decode h).Wp s 0 fun _ _ => True := by
  unfold RegisterAck.decode
  refine .bind (wp_word (by omega) fun _ => .bind (wp_byte (by omega) fun _ _ => .bind (wp_idx ?_)))
  exact .bind (wp_string (by omega) (by simp; omega) fun _ => trivial)

/-- `n` parameter items, and possibly more bytes. -/
inductive Spec.Items : Nat → List UInt8 → Prop where
  | nil (bs : List UInt8) : Spec.Items 0 bs
  | cons {n id : Nat} {t : PType} {len : UInt8} {value rest : List UInt8} : id ∈ paramIDs t →
      value.length = valueSize t len.toNat → Spec.Items n rest → Spec.Items (n + 1) (dword id ++ [len] ++ value ++ rest)

theorem paramIDs_lt {id : Nat} {t : PType} (h : id ∈ paramIDs t) : id < 2 ^ 32 := by
  have : ∀ x ∈ paramIDs t, x < 2 ^ 32 := by cases t <;> decide
  exact this id h

theorem Rd.Wp.of_ok {α : Type} {r : Rd α} {s : Slice} {i j : Nat} {a : α} {Q : α → Nat → Prop} (h : r s i = .ok (a, j))
    (hq : Q a j) : r.Wp s i Q := by
  unfold Rd.Wp; rw [h]; exact hq

theorem wp_kind {env : Env} {t : PType} {len : Nat} {s : Slice} {i : Nat} {Q : PV → Nat → Prop}
    (h : i + valueSize t len ≤ s.data.length) (hq : ∀ v, Q v (i + valueSize t len)) :
    ((kindOf t).decode env len).Wp s i Q := by
  cases t <;> simp only [kindOf, PKind.decode, valueSize] at *
  · exact .bind (wp_byte h fun _ _ => .pure (hq _))
  · exact .bind (wp_word h fun _ => .pure (hq _))
  · exact .bind (wp_dword h fun _ => .pure (hq _))
  · exact .bind (wp_bcd (by omega) (by simpa using h) fun _ => .pure (hq _))
  · exact .bind (wp_string (by omega) (by simpa using h) fun _ => .pure (hq _))
  · exact .bind (wp_gbk (by omega) (by simpa using h) fun _ => .pure (hq _))

theorem wp_items {env : Env} {n : Nat} {bs : List UInt8} (h : Spec.Items n bs) (pre slack : List UInt8) :
    (ParamData.decodeN env n).Wp ⟨pre ++ bs, slack⟩ pre.length fun _ _ => True := by
  induction h generalizing pre with
  | nil bs => exact .pure trivial
  | @cons n id t len value rest hid hv _ ih =>
    unfold ParamData.decodeN ParamData.decode
    have hlt := paramIDs_lt hid
    have hto : (UInt32.ofNat id).toNat = id := by rw [UInt32.toNat_ofNat']; exact Nat.mod_eq_of_lt hlt
    have hd : dword id = put32 (UInt32.ofNat id) := by rw [put32_dword, hto]
    have hdl : (dword id).length = 4 := rfl
    have e1 : pre ++ (dword id ++ [len] ++ value ++ rest) = pre ++ put32 (UInt32.ofNat id) ++ ([len] ++ value ++ rest) := by
      rw [hd]; simp
    have e2 : pre ++ (dword id ++ [len] ++ value ++ rest) = (pre ++ dword id) ++ [len] ++ (value ++ rest) := by simp
    have e3 : pre ++ (dword id ++ [len] ++ value ++ rest) = (pre ++ dword id ++ [len] ++ value) ++ rest := by simp
    refine .bind (.bind (.of_ok (by rw [e1]; exact readsAt_dword _ _ _ _ _ rfl) ?_))
    refine .bind (.of_ok (a := len) (j := pre.length + 5) ?_ ?_)
    · rw [e2]
      have := readsAt_byte (pre.length + 4) len (pre ++ dword id) (value ++ rest) slack (by simp [hdl])
      rw [← hd, hdl]
      exact this
    · refine .bind ?_
      unfold ParamData.decodeValue
      rw [(C23_table (UInt32.ofNat id) t).2 (by rw [hto]; exact hid)]
      refine wp_kind (by simp [hdl, hv]; omega) fun v => ?_
      refine .pure (.bind ?_)
      have := ih (pre ++ dword id ++ [len] ++ value)
      rw [e3]
      have hl : pre.length + 5 + valueSize t len.toNat = (pre ++ dword id ++ [len] ++ value).length := by
        simp [hdl, hv]; omega
      rw [hl]
      exact this.mono fun _ _ _ => .pure trivial

end JT808
