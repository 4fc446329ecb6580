import Verif.Props.Query
import Verif.Props.Replies
import Verif.Proof.Groups
import Verif.Props.Reconnect
/-
C99: the phone number of a terminal.
-/
namespace JT808
open Spec

/-- The phone number field of a packet: ten bytes from the fifth in the 2019 layout, else six bytes from the fourth. -/
def Spec.phoneField (p : List UInt8) : List UInt8 :=
  if (attrAt p).testBit 14 then (p.drop 5).take 10 else (p.drop 4).take 6

/-- A field whose half-bytes are all digits other than F. -/
def Spec.NoF (bs : List UInt8) : Prop := ∀ b ∈ bs, b.toNat / 16 ≠ 15 ∧ b.toNat % 16 ≠ 15

theorem noF_hex {bs : List UInt8} (h : NoF bs) : (0x46 : UInt8) ∉ bs.flatMap hex2 := by
  have key : ∀ n, n < 256 → ((UInt8.ofNat n).toNat / 16 ≠ 15 ∧ (UInt8.ofNat n).toNat % 16 ≠ 15) →
      (0x46 : UInt8) ∉ hex2 (UInt8.ofNat n) := by decide +kernel
  have key' := forall_uint8 (P := fun b => (b.toNat / 16 ≠ 15 ∧ b.toNat % 16 ≠ 15) → (0x46 : UInt8) ∉ hex2 b) key
  intro hx
  obtain ⟨b, hb, hx⟩ := List.mem_flatMap.mp hx
  exact key' b (h b hb) hx

theorem noF_text {bs : List UInt8} (h : NoF bs) : bcd2NumberStr bs = bs.flatMap hex2 := by
  simp only [bcd2NumberStr, lastIndex_none (noF_hex h)]

/-- The phone number in the header of a decoded frame is the text of the phone number field. -/
theorem phone_of {env : Env} {p : List UInt8} {pd : Packet} (h : decodeFrame env (frameOf p) = .ok pd) :
    pd.header.phone = bcd2NumberStr (phoneField p) ∧
    (phoneField p).length = (if (attrAt p).testBit 14 then 10 else 6) := by
  obtain ⟨hdr, c, hp, hd, hl⟩ := C16_header_from_packet env p pd h
  rw [Header.decode_rest] at hd
  obtain ⟨id, i1, e1, hd1⟩ := rd_bind_ok hd
  obtain ⟨w, i2, e2, hd2⟩ := rd_bind_ok hd1
  unfold Header.decodeRest at hd2
  obtain ⟨pv, i3, e3, hd3⟩ := rd_bind_ok hd2
  obtain ⟨ph, i4, e4, hd4⟩ := rd_bind_ok hd3
  obtain ⟨sn, i5, e5, hd5⟩ := rd_bind_ok hd4
  obtain ⟨fr, i6, e6, hd6⟩ := rd_bind_ok hd5
  rw [rd_pure_eq] at hd6
  injection hd6 with hd6; injection hd6 with hh hj
  obtain ⟨a1, -, -⟩ := readWord_inv e1
  obtain ⟨a2, b2, c2⟩ := readWord_inv e2
  have hm : (⟨hdr, []⟩ : Slice).mem = hdr := by simp [Slice.mem]
  have h12 : 12 ≤ hdr.length := by rw [hl]; exact headerLen_ge _ _
  have g : ∀ i, i < 12 → hdr.getD i 0 = p.getD i 0 := by
    intro i hi
    rw [hp, List.append_assoc]
    simp only [List.getD]
    rw [List.getElem?_append_left (by omega)]
  have hw : w = be16 (p.getD 2 0) (p.getD 3 0) := by
    rw [c2, hm, a1]
    rw [g 2 (by omega), g 3 (by omega)]
  have hb := (attr_testBit (p.getD 2 0) (p.getD 3 0)).1
  rw [← hw] at hb
  have hph : pd.header.phone = ph := by rw [← hh]
  have hdt : ∀ i n, i + n ≤ hdr.length → (hdr.drop i).take n = (p.drop i).take n := by
    intro i n hin
    rw [hp, List.append_assoc, List.drop_append_of_le_length (by omega),
      List.take_append_of_le_length (by rw [List.length_drop]; omega)]
  have hpl : hdr.length ≤ p.length := by rw [hp]; simp
  unfold phoneField
  rw [hph]
  unfold attrAt at *
  by_cases hv : (Attr.decode w).verDesc = .v2019
  · rw [hv] at e4
    simp only [hv, decide_true] at hb
    rw [← hb] at hl ⊢
    unfold Header.decodePV at e3
    rw [if_pos hv] at e3
    obtain ⟨x, -, -⟩ := readByte_inv e3
    obtain ⟨-, y, z, t⟩ := readBCD_inv e4
    rw [hm] at z t
    have hi3 : i3 = 5 := by omega
    rw [hi3] at t y
    have hlen : 15 ≤ hdr.length := by
      have y' : i4 = 15 := y
      omega
    simp only [if_true]
    refine ⟨?_, by simp; omega⟩
    rw [t, ← hdt 5 10 (by omega)]; rfl
  · have hv' : (Attr.decode w).verDesc = .v2013 := by
      rcases (Attr.decode_wf w).verDesc_cases with h' | h'
      · first | exact absurd h' hv | exact h'
      · first | exact absurd h' hv | exact h'
    simp only [hv, decide_false] at hb
    rw [← hb]
    unfold Header.decodePV at e3
    rw [if_neg hv, rd_pure_eq] at e3
    injection e3 with e3; injection e3 with e3 e3'
    rw [hv'] at e4
    obtain ⟨-, y, z, t⟩ := readBCD_inv e4
    rw [hm] at t
    have hi3 : i3 = 4 := by omega
    rw [hi3] at t
    simp only [Bool.false_eq_true, if_false]
    refine ⟨?_, by simp; omega⟩
    rw [t, ← hdt 4 6 (by omega)]
    rfl

/-! ## Two terminals, two numbers -/

/-- Two frames of the same layout whose phone number fields are free of the digit F speak for the same terminal
exactly when the fields are the same. -/
theorem C99_same_layout_partial (env : Env) (p q : List UInt8) (a b : Packet)
    (ha : decodeFrame env (frameOf p) = .ok a) (hb : decodeFrame env (frameOf q) = .ok b)
    (hp : NoF (phoneField p)) (hq : NoF (phoneField q)) :
    (a.header.phone = b.header.phone ↔ phoneField p = phoneField q) := by
  obtain ⟨a1, a2⟩ := phone_of ha
  obtain ⟨b1, b2⟩ := phone_of hb
  constructor
  · intro h
    rw [a1, b1] at h
    rw [← bcd_roundtrip_bytes _ (noF_hex hp) (by rw [a2]; split <;> omega), h,
      bcd_roundtrip_bytes _ (noF_hex hq) (by rw [b2]; split <;> omega)]
  · intro h
    rw [a1, b1, h]

/-- Between the two layouts the numbers never agree: a terminal that changes its protocol version becomes another one. -/
theorem C99_layouts_differ (env : Env) (p q : List UInt8) (a b : Packet)
    (ha : decodeFrame env (frameOf p) = .ok a) (hb : decodeFrame env (frameOf q) = .ok b)
    (hp : NoF (phoneField p)) (hq : NoF (phoneField q))
    (hv : (attrAt p).testBit 14 ≠ (attrAt q).testBit 14) : a.header.phone ≠ b.header.phone := by
  obtain ⟨a1, a2⟩ := phone_of ha
  obtain ⟨b1, b2⟩ := phone_of hb
  intro h
  have hl := congrArg List.length h
  rw [a1, b1, noF_text hp, noF_text hq, hex2_length, hex2_length, a2, b2] at hl
  cases h1 : (attrAt p).testBit 14 <;> cases h2 : (attrAt q).testBit 14 <;> rw [h1, h2] at hl hv
  all_goals first | exact hv rfl | (revert hl; decide)

/-- With a digit F in the field only the digits behind the last one count. -/
theorem F_forgets (u u' t : List UInt8) (b : UInt8) (hb : b.toNat % 16 = 15) (hl : u.length = u'.length) (ht : NoF t) (b' : UInt8)
    (hb' : b'.toNat % 16 = 15) :
    bcd2NumberStr (u ++ b :: t) = bcd2NumberStr (u' ++ b' :: t) := by
  have key : ∀ n, n < 256 → (UInt8.ofNat n).toNat % 16 = 15 → ∃ x, hex2 (UInt8.ofNat n) = [x, 0x46] := by
    intro n hn h
    refine ⟨(hex2 (UInt8.ofNat n)).getD 0 0, ?_⟩
    have k : ∀ n, n < 256 → (UInt8.ofNat n).toNat % 16 = 15 →
      hex2 (UInt8.ofNat n) = [(hex2 (UInt8.ofNat n)).getD 0 0, 0x46] := by decide +kernel
    exact k n hn h
  have key' := forall_uint8 (P := fun b => b.toNat % 16 = 15 → ∃ x, hex2 b = [x, 0x46]) key
  have one : ∀ (u : List UInt8) (b : UInt8), b.toNat % 16 = 15 →
      ∃ w : Str, w.length = 2 * u.length + 1 ∧ (u ++ b :: t).flatMap hex2 = w ++ 0x46 :: t.flatMap hex2 := by
    intro u b hb
    obtain ⟨x, hx⟩ := key' b hb
    refine ⟨u.flatMap hex2 ++ [x], by rw [List.length_append, hex2_length]; rfl, ?_⟩
    rw [List.flatMap_append, List.flatMap_cons, hx]
    simp
  obtain ⟨w, hw, e⟩ := one u b hb
  obtain ⟨w', hw', e'⟩ := one u' b' hb'
  have hd : ∀ w : Str, (w ++ 0x46 :: t.flatMap hex2).drop (w.length + 1) = t.flatMap hex2 := by
    intro w
    rw [List.drop_append]
    simp
  simp only [bcd2NumberStr, e, e', lastIndex_split (noF_hex ht), hd]
  rw [hw, hw', hl]

/-- The digit F in a phone number field makes the terminal indistinguishable from every other one that has an F in
the same place and the same digits behind it. -/
theorem C99_F_collides (env : Env) (p q : List UInt8) (a b : Packet)
    (ha : decodeFrame env (frameOf p) = .ok a) (hb : decodeFrame env (frameOf q) = .ok b)
    (u u' t : List UInt8) (x y : UInt8) (hx : x.toNat % 16 = 15) (hy : y.toNat % 16 = 15) (hl : u.length = u'.length)
    (ht : NoF t) (hp : phoneField p = u ++ x :: t) (hq : phoneField q = u' ++ y :: t) :
    a.header.phone = b.header.phone := by
  rw [(phone_of ha).1, (phone_of hb).1, hp, hq]
  exact F_forgets u u' t x hx hl ht y hy

/-- The packet of a 2013 registration with the given phone number field. -/
def regPacket (field : List UInt8) (m : Register) : List UInt8 :=
  genVerifier ([0x01, 0x00, 0x00, 0x29] ++ field ++ [0x00, 0x07] ++ m.encode goEnv .v2013)

/-- Another terminal with another plate. -/
def secondRegMsg : Register := { demoRegMsg with deviceID := [0x69, 0x64, 0x32], plate := [0x42, 0x34, 0x35, 0x36] }

def fieldA : List UInt8 := [0x01, 0x38, 0x00, 0x13, 0x80, 0x01]
def fieldB : List UInt8 := [0x01, 0x38, 0x00, 0x13, 0x80, 0x02]
def fieldF : List UInt8 := [0x01, 0x38, 0x0f, 0x13, 0x80, 0x01]
def fieldG : List UInt8 := [0x72, 0x91, 0x5f, 0x13, 0x80, 0x01]

/-- The answers to a registration of one terminal and then of another. -/
def regBoth (f g : List UInt8) : List (Option Nat) :=
  [(Store.empty.handleFrame goEnv (demoClk 0) demoC f).2.frame?,
   ((Store.empty.handleFrame goEnv (demoClk 0) demoC f).1.handleFrame goEnv (demoClk 9) demoC' g).2.frame?].map
    fun o => o.bind fun fr => match decodeFrame goEnv fr with
      | .ok pd => (pd.body.data[2]?).map UInt8.toNat
      | _ => none

-- two proper numbers are two terminals
example : decodeFrame goEnv (frameOf (regPacket fieldA demoRegMsg)) ≠ .panic ∧
    phoneField (regPacket fieldA demoRegMsg) = fieldA ∧ phoneField (regPacket fieldB secondRegMsg) = fieldB ∧
    NoF fieldA ∧ NoF fieldB := by
  refine ⟨by decide +kernel, by decide +kernel, by decide +kernel, ?_, ?_⟩ <;> (unfold NoF; decide +kernel)
example : regBoth (frameOf (regPacket fieldA demoRegMsg)) (frameOf (regPacket fieldB secondRegMsg)) = [some 0, some 0] := by
  decide +kernel

/-- The header of a frame. -/
def headerIn (f : List UInt8) : Option Header :=
  match decodeFrame goEnv f with
  | .ok pd => some pd.header
  | _ => none

/-- Two terminals with different numbers, device ids and plates: the second is refused as already registered. -/
theorem C99_F_refused :
    phoneField (regPacket fieldF demoRegMsg) = fieldF ∧ phoneField (regPacket fieldG secondRegMsg) = fieldG ∧
    (framePhone goEnv (frameOf (regPacket fieldF demoRegMsg))).isSome ∧
    (framePhone goEnv (frameOf (regPacket fieldG secondRegMsg))).isSome ∧ fieldF ≠ fieldG ∧
    (headerIn (frameOf (regPacket fieldG secondRegMsg))).map (fun h =>
      decide (((Store.empty.handleFrame goEnv (demoClk 0) demoC (frameOf (regPacket fieldF demoRegMsg))).1.handleFrame goEnv
        (demoClk 9) demoC' (frameOf (regPacket fieldG secondRegMsg))).2 =
          .reply (registerReply h 3 placeholderCode))) = some true := by
  refine ⟨?_, ?_, ?_, ?_, ?_, ?_⟩ <;> decide +kernel

-- the hypotheses of the general theorem on these two
example : fieldF = [0x01, 0x38] ++ 0x0f :: [0x13, 0x80, 0x01] ∧ fieldG = [0x72, 0x91] ++ 0x5f :: [0x13, 0x80, 0x01] ∧
    (0x0f : UInt8).toNat % 16 = 15 ∧ (0x5f : UInt8).toNat % 16 = 15 ∧ NoF [0x13, 0x80, 0x01] := by
  refine ⟨rfl, rfl, rfl, rfl, ?_⟩
  unfold NoF; decide +kernel

/-- The packet of the same terminal, number 013800138001, in the 2019 layout. -/
def regPacket2019 (m : Register) : List UInt8 :=
  genVerifier ([0x01, 0x00, 0x40, 0x52, 0x01, 0x00, 0x00, 0x00, 0x00] ++ fieldA ++ [0x00, 0x08] ++ m.encode goEnv .v2019)

-- the hypotheses of C99_layouts_differ; both are registered
example : NoF (phoneField (regPacket2019 secondRegMsg)) ∧ NoF (phoneField (regPacket fieldA demoRegMsg)) ∧
    (attrAt (regPacket2019 secondRegMsg)).testBit 14 ≠ (attrAt (regPacket fieldA demoRegMsg)).testBit 14 ∧
    phoneIn (frameOf (regPacket2019 secondRegMsg)) =
      some (digitStr [0, 0, 0, 0, 0, 0, 0, 0, 0, 1, 3, 8, 0, 0, 1, 3, 8, 0, 0, 1], 8) ∧
    regBoth (frameOf (regPacket fieldA demoRegMsg)) (frameOf (regPacket2019 secondRegMsg)) = [some 0, some 0] := by
  refine ⟨?_, ?_, ?_, ?_, ?_⟩
  · unfold NoF; decide +kernel
  · unfold NoF; decide +kernel
  all_goals decide +kernel

/-! ## What an operator has to ask for -/

/-- If all frames in a history have phone number fields free of the digit F, a number with other than 12 or 20 digits
is unknown to the HTTP interface: the eleven digits of a mobile number, as they are dialled, are answered with 400,
whoever is registered. -/
theorem C99_dialled_number_unknown (env : Env) (evs : List Ev) (n : Str) (e : Ev) (he : e.asksFor n)
    (hf : ∀ clk c bytes werr, Ev.frame clk c bytes werr ∈ evs → ∀ q, framePhone env bytes = some q →
      ∃ p, bytes = frameOf p ∧ NoF (phoneField p))
    (hn : n.length ≠ 12 ∧ n.length ≠ 20) :
    (Sys.start.run env evs).1.step env e = ((Sys.start.run env evs).1, ⟨none, false, some 400⟩) := by
  refine C55_unknown_phone env evs n e he ?_
  cases hd : (Sys.start.run env evs).1.st.look n with
  | none => rfl
  | some d =>
    exfalso
    obtain ⟨c, ⟨pre, clk, bytes, werr, post, code, hev, hi, -⟩, -⟩ := C78_tied_to_registration env evs n d hd
    obtain ⟨clk', c', bytes', werr', h, m, hee, -, hdl, hp, -⟩ := hi
    injection hee with h1 h2 h3 h4
    subst h1 h2 h3 h4
    have hph := hdl.phone
    obtain ⟨p, hb, hno⟩ := hf clk c bytes werr (by rw [hev]; simp) _ hph
    unfold framePhone at hph
    rw [hb] at hph
    cases hdf : decodeFrame env (frameOf p) with
    | ok pd =>
      rw [hdf] at hph
      simp only [Option.some.injEq] at hph
      have := phone_of hdf
      rw [noF_text hno] at this
      have hl := congrArg List.length this.1
      rw [hex2_length, this.2, hph, hp] at hl
      split at hl <;> omega
    | err e => rw [hdf] at hph; cases hph
    | panic => rw [hdf] at hph; cases hph

/-- One terminal, number 013800138001, registers. -/
def dialEvs : List Ev := [.accept [0x61], .frame (demoClk 1000) demoC (frameOf (regPacket fieldA demoRegMsg)) none]

-- the hypotheses of C99_dialled_number_unknown: the number without its leading zero
example : ∀ clk c bytes werr, Ev.frame clk c bytes werr ∈ dialEvs → ∀ q, framePhone goEnv bytes = some q →
    ∃ p, bytes = frameOf p ∧ NoF (phoneField p) := by
  intro clk c bytes werr he q _
  simp only [dialEvs, List.mem_cons, reduceCtorEq, List.not_mem_nil, or_false, false_or] at he
  injection he with h1 h2 h3 h4
  refine ⟨_, h3, ?_⟩
  unfold NoF; decide +kernel
example : Ev.asksFor (digitStr [1, 3, 8, 0, 0, 1, 3, 8, 0, 0, 1]) (.httpGeo (digitStr [1, 3, 8, 0, 0, 1, 3, 8, 0, 0, 1])) ∧
    ((Sys.start.run goEnv dialEvs).1.step goEnv (.httpGeo (digitStr [1, 3, 8, 0, 0, 1, 3, 8, 0, 0, 1]))).2.http = some 400 ∧
    ((Sys.start.run goEnv dialEvs).1.step goEnv (.httpGeo (digitStr [0, 1, 3, 8, 0, 0, 1, 3, 8, 0, 0, 1]))).2.http = some 200 :=
  ⟨rfl, by decide +kernel, by decide +kernel⟩

end JT808
