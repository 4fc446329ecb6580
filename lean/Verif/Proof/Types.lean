import Verif.Proof.Issue
/-
Which message a frame with a given id holds.
-/
namespace JT808
open Spec

/-- The id of a decoded message. -/
def Msg.id : Msg → Nat
  | .m0001 _ => 0x0001
  | .m0002 => 0x0002
  | .m0003 => 0x0003
  | .m0100 _ => 0x0100
  | .m0102 _ => 0x0102
  | .m0104 _ => 0x0104
  | .m0200 _ => 0x0200
  | .m1205 _ => 0x1205
  | .m8001 _ => 0x8001
  | .m8100 _ => 0x8100
  | .m8103 _ => 0x8103
  | .m8104 => 0x8104
  | .m9205 _ => 0x9205

theorem lookup_mem {α β : Type} [BEq α] [LawfulBEq α] (a : α) (b : β) :
    ∀ l : List (α × β), l.lookup a = some b → (a, b) ∈ l
  | [], h => by cases h
  | e :: l, h => by
    rw [List.lookup_cons] at h
    by_cases hx : a = e.1
    · subst hx
      simp at h
      subst h
      exact List.mem_cons_self
    · have : (a == e.1) = false := by simpa using hx
      rw [this] at h
      exact List.mem_cons_of_mem _ (lookup_mem a b l h)

theorem ofID_mem {id : UInt16} {t : MType} (h : MType.ofID id = some t) : (id, t) ∈ msgTable := lookup_mem _ _ _ h

theorem rd_map_ok {α : Type} {r : Rd α} {f : α → Msg} {s : Slice} {i j : Nat} {m : Msg}
    (h : (do let a ← r; pure (f a) : Rd Msg) s i = .ok (m, j)) : ∃ a, m = f a := by
  obtain ⟨a, k, -, e2⟩ := rd_bind_ok h
  rw [rd_pure_eq] at e2
  cases e2
  exact ⟨a, rfl⟩

/-- The type table and the decoders agree on what message an id stands for. -/
theorem decode_id {env : Env} {now : Civil} {h : Header} {t : MType} {s : Slice} {j : Nat} {m : Msg} {id : UInt16}
    (ht : MType.ofID id = some t) (hd : t.decode env now h s 0 = .ok (m, j)) : m.id = id.toNat := by
  have hm := ofID_mem ht
  have key : ∀ x ∈ msgTable, x.1.toNat = (match x.2 with
      | .t0001 => 0x0001 | .t0002 => 0x0002 | .t0003 => 0x0003 | .t0100 => 0x0100 | .t0102 => 0x0102
      | .t0104 => 0x0104 | .t0200 => 0x0200 | .t1205 => 0x1205 | .t8001 => 0x8001 | .t8100 => 0x8100
      | .t8103 => 0x8103 | .t8104 => 0x8104 | .t9205 => 0x9205) := by decide
  have hk := key _ hm
  simp only at hk
  rw [hk]
  cases t <;> simp only [MType.decode] at hd <;>
    first
    | (obtain ⟨a, rfl⟩ := rd_map_ok hd; rfl)
    | (rw [rd_pure_eq] at hd; cases hd; rfl)

theorem Holds.id {env : Env} {now : Civil} {frame : List UInt8} {h : Header} {m : Msg}
    (hh : Holds env now frame h m) : m.id = h.msgID.toNat := by
  obtain ⟨pd, t, j, -, e2, -, e4, e5⟩ := hh
  exact decode_id e4 e5

/-- The header of a frame comes from the header decoder. -/
theorem decodeFrame_header {env : Env} {frame : List UInt8} {pd : Packet} (h : decodeFrame env frame = .ok pd) :
    ∃ s j, Header.decode s 0 = .ok (pd.header, j) := by
  unfold decodeFrame at h
  cases hl : frame.getLast? with
  | none => rw [hl] at h; cases h
  | some vc =>
    rw [hl] at h
    simp only at h
    cases hv : verify (unescape env frame) with
    | err e => rw [hv] at h; cases h
    | panic => rw [hv] at h; cases h
    | ok pkt =>
      rw [hv] at h
      simp only at h
      cases hh : Header.decode pkt 0 with
      | err e => rw [hh] at h; cases h
      | panic => rw [hh] at h; cases h
      | ok r =>
        obtain ⟨h', idx⟩ := r
        rw [hh] at h
        simp only at h
        cases hb : pkt.from' idx with
        | err e => rw [hb] at h; cases h
        | panic => rw [hb] at h; cases h
        | ok body =>
          rw [hb] at h
          cases h
          exact ⟨_, _, hh⟩

/-- The header in a frame is well formed if its phone number fills its field. -/
theorem Holds.wf {env : Env} {now : Civil} {frame : List UInt8} {h : Header} {m : Msg}
    (hh : Holds env now frame h m) (hp : h.phone.length = 2 * h.attr.verDesc.phoneBytes) : h.WF := by
  obtain ⟨pd, t, j, e1, e2, -⟩ := hh
  subst e2
  obtain ⟨s, j, hd⟩ := decodeFrame_header e1
  exact Header.decode_wf hd hp

end JT808
