import Verif.Proof.Tracks
import Verif.Props.Framing
/-
Registration replies: which ones carry a code, and since when a registered phone has its code.
-/
namespace JT808
open Spec

/-- The part of an encoded header that depends neither on the message id nor on the body length. -/
theorem header_encode_split (h : Header) : ∃ rest, ∀ (id : UInt16) (n : Nat), ∃ w,
    (Header.withBodyLength { h with msgID := id } n).encode = put16 id ++ put16 w ++ rest := by
  cases hf : h.frag with
  | none =>
    by_cases hv : h.attr.verDesc = .v2019
    · exact ⟨writeWord (writeBCD (writeByte [] h.protoVer) h.phone) h.serial, fun id n => ⟨_, by
        simp only [Header.encode, Header.withBodyLength, hv]
        simp [writeWord, writeByte, writeBCD]; rfl⟩⟩
    · exact ⟨writeWord (writeBCD [] h.phone) h.serial, fun id n => ⟨_, by
        simp only [Header.encode, Header.withBodyLength, hv]
        simp [writeWord, writeBCD]; rfl⟩⟩
  | some f =>
    by_cases hv : h.attr.verDesc = .v2019
    · exact ⟨writeWord (writeBCD (writeByte [] h.protoVer) h.phone) h.serial ++ f.encode, fun id n => ⟨_, by
        simp only [Header.encode, Header.withBodyLength, hv]
        simp [writeWord, writeByte, writeBCD]; rfl⟩⟩
    · exact ⟨writeWord (writeBCD [] h.phone) h.serial ++ f.encode, fun id n => ⟨_, by
        simp only [Header.encode, Header.withBodyLength, hv]
        simp [writeWord, writeBCD]; rfl⟩⟩

theorem encodeFrame_injective {a b : List UInt8} (h : encodeFrame a = encodeFrame b) : a = b := by
  unfold encodeFrame genVerifier at h
  have := C01_escape_injective _ _ h
  exact (List.append_inj' this rfl).1

theorem put16_injective {i j : UInt16} (h : put16 i = put16 j) : i = j := by
  rw [put16_word, put16_word] at h
  simp only [word, List.cons.injEq, and_true] at h
  obtain ⟨a1, a2⟩ := h
  have b1 := congrArg UInt8.toNat a1
  have b2 := congrArg UInt8.toNat a2
  simp at b1 b2
  apply UInt16.toNat_inj.1
  have := i.toNat_lt; have := j.toNat_lt
  omega

theorem answer_injective {h : Header} {i j : UInt16} {a b : List UInt8} (e : answer h i a = answer h j b) :
    i = j ∧ a = b := by
  have := encodeFrame_injective e
  unfold writeHeader at this
  obtain ⟨rest, hs⟩ := header_encode_split h
  obtain ⟨w, e1⟩ := hs i a.length
  obtain ⟨w', e2⟩ := hs j b.length
  rw [e1, e2] at this
  have h1 := List.append_inj this (by simp [put16])
  have h2 := List.append_inj h1.1 (by simp [put16])
  have h3 := List.append_inj h2.1 (by simp [put16])
  exact ⟨put16_injective h3.1, h1.2⟩

theorem registerReply_injective {h : Header} {r r' : Nat} {code code' : Str} (hr : r < 256) (hr' : r' < 256)
    (e : registerReply h r code = registerReply h r' code') : r = r' ∧ code = code' := by
  have := (answer_injective e).2
  unfold registerAckBody at this
  simp only [List.append_assoc] at this
  have := List.append_cancel_left this
  simp only [List.cons_append, List.nil_append, List.cons.injEq] at this
  have h1 := congrArg UInt8.toNat this.1
  simp at h1
  exact ⟨by omega, this.2⟩

end JT808
