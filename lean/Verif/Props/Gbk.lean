import Verif.Proof.Gbk
import Verif.Props.Provenance
import Verif.Props.Shipped
import Verif.Props.Defaults
import Verif.Proof.Demo
/-
C144: the texts of the protocol. Theorems take any table that is sound; `kyoTable` is a small one for examples.
-/
namespace JT808
open Spec

/-- 京 alone: U+4EAC is BE A9. -/
def kyoTable : GbkTable where
  char := fun i => if i = 11694 then 0x4eac else 0
  code := fun r => if r = 0x4eac then 0xbea9 else 0

theorem kyo_sound : GbkTable.Sound kyoTable := by
  have only : ∀ r, kyoTable.code r ≠ 0 → r = 0x4eac := by
    intro r h
    unfold kyoTable at h
    simp only at h
    split at h
    · assumption
    · exact absurd rfl h
  refine ⟨?_, ?_, ?_, by decide, ?_, ?_⟩
  · intro r h; rw [only r h]; decide
  · intro r h; rw [only r h]; decide
  · intro r h; rw [only r h]; decide
  · intro r h; rw [only r h]; exact ⟨by unfold Spec.Scalar; decide, by decide⟩
  · intro i
    unfold kyoTable Spec.Scalar
    simp only
    split <;> decide

/-! ## Reading -/

/-- Whatever bytes a terminal sends as a text, they are read without an error, as UTF-8, with at most one character for each
byte. -/
theorem C144_read (T : GbkTable) (hT : GbkTable.Sound T) (g : List UInt8) :
    ∃ t, gbkToUtf8 T g = some (utf8Text t) ∧ (∀ n ∈ t, Spec.Scalar n) ∧ t.length ≤ g.length := by
  obtain ⟨t, e, h1, h2⟩ := gbkDecodeN_text hT.char g.length g
  exact ⟨t, by unfold gbkToUtf8; rw [e], h1, h2⟩

-- a lead byte without its second byte, and one that has no meaning
example : gbkToUtf8 kyoTable [0xbe, 0xa9, 0x41, 0xff, 0x81] = some (utf8Text [0x4eac, 0x41, 0xFFFD, 0xFFFD]) := by decide +kernel

/-- GBK is read as what it says. -/
theorem C144_says (T : GbkTable) (hT : GbkTable.Sound T) (g : List UInt8) (t : List Nat) (h : GbkText T g t) :
    gbkToUtf8 T g = some (utf8Text t) := by
  unfold gbkToUtf8
  rw [gbkDecodeN_of hT h _ (Nat.le_refl _)]

example : GbkText kyoTable [0xbe, 0xa9, 0x80, 0x41] [0x4eac, 0x20AC, 0x41] :=
  .pair (by decide) (by decide) (by decide) (by decide) (.euro (.ascii (b := 0x41) (by decide) .nil))

/-! ## Writing -/

/-- Written is GBK, and everything that GBK can say: a text can be written exactly if it is UTF-8 and GBK has its characters. -/
theorem C144_write (T : GbkTable) (hT : GbkTable.Sound T) (s g : List UInt8) :
    utf8ToGbk T s = some g ↔ ∃ t, s = utf8Text t ∧ (∀ n ∈ t, Spec.Scalar n) ∧ GbkText T g t := by
  constructor
  · intro h
    exact gbkEncodeN_some hT s.length s g (Nat.le_refl _) h
  · rintro ⟨t, rfl, _, h⟩
    exact gbkEncodeN_of hT h _ (Nat.le_refl _)

theorem gbkText_exists {T : GbkTable} (hT : GbkTable.Sound T) : ∀ {t : List Nat}, (∀ n ∈ t, GbkKnows T n) →
    ∃ g, GbkText T g t ∧ t.length ≤ g.length ∧ g.length ≤ 2 * t.length
  | [], _ => ⟨[], .nil, by simp, by simp⟩
  | r :: t, h => by
    obtain ⟨g, hg, h1, h2⟩ := gbkText_exists hT (t := t) fun n hn => h n (List.mem_cons_of_mem _ hn)
    have hr := h r (List.mem_cons_self ..)
    by_cases ha : r < 0x80
    · refine ⟨UInt8.ofNat r :: g, ?_, by simp only [List.length_cons]; omega, by simp only [List.length_cons]; omega⟩
      have e : (UInt8.ofNat r).toNat = r := by rw [UInt8.toNat_ofNat']; omega
      have := GbkText.ascii (T := T) (b := UInt8.ofNat r) (by omega) hg
      rwa [e] at this
    · by_cases he : r = 0x20AC
      · subst he
        exact ⟨_, .euro hg, by simp only [List.length_cons]; omega, by simp only [List.length_cons]; omega⟩
      · have h0 : T.code r ≠ 0 := by
          rcases hr with hr | hr | hr
          · exact absurd hr ha
          · exact absurd hr he
          · exact hr
        have := hT.lead r h0
        refine ⟨UInt8.ofNat (T.code r / 256) :: UInt8.ofNat (T.code r % 256) :: g, .pair (by omega) he ?_ h0 hg,
          by simp only [List.length_cons]; omega, by simp only [List.length_cons]; omega⟩
        rw [UInt8.toNat_ofNat', UInt8.toNat_ofNat']
        omega

theorem GbkText.knows {T : GbkTable} {g : List UInt8} {t : List Nat} (h : GbkText T g t) : ∀ n ∈ t, GbkKnows T n := by
  induction h with
  | nil => simp
  | ascii hb _ ih =>
    intro n hn
    cases hn with
    | head => exact Or.inl hb
    | tail _ hn => exact ih n hn
  | euro _ ih =>
    intro n hn
    cases hn with
    | head => exact Or.inr (Or.inl rfl)
    | tail _ hn => exact ih n hn
  | pair _ _ _ h0 _ ih =>
    intro n hn
    cases hn with
    | head => exact Or.inr (Or.inr h0)
    | tail _ hn => exact ih n hn

/-- A text is refused exactly if it is no UTF-8 or has a character that GBK does not have. -/
theorem C144_refused (T : GbkTable) (hT : GbkTable.Sound T) (s : List UInt8) :
    utf8ToGbk T s = none ↔ ¬ ∃ t, s = utf8Text t ∧ (∀ n ∈ t, Spec.Scalar n) ∧ ∀ n ∈ t, GbkKnows T n := by
  constructor
  · rintro h ⟨t, e, h1, h2⟩
    obtain ⟨g, hg, _⟩ := gbkText_exists hT h2
    rw [(C144_write T hT s g).2 ⟨t, e, h1, hg⟩] at h
    cases h
  · intro h
    cases hs : utf8ToGbk T s with
    | none => rfl
    | some g =>
      obtain ⟨t, e, h1, hg⟩ := (C144_write T hT s g).1 hs
      exact absurd ⟨t, e, h1, GbkText.knows hg⟩ h

-- gbk_test.go:45-56: a text cut within a character; and a character that the small table does not have
example : utf8ToGbk kyoTable [230, 181] = none ∧ utf8ToGbk kyoTable (utf8 "沪") = none ∧
    utf8ToGbk kyoTable (utf8 "京A€") = some [0xbe, 0xa9, 0x41, 0x80] := by decide +kernel

/-! ## There and back -/

/-- What could be written is read again as it was, and takes at most two bytes for a character. -/
theorem C144_survives (T : GbkTable) (hT : GbkTable.Sound T) (s g : List UInt8) (h : utf8ToGbk T s = some g) :
    gbkToUtf8 T g = some s ∧ ∃ t, Seen s t ∧ t.length ≤ g.length ∧ g.length ≤ 2 * t.length := by
  obtain ⟨t, rfl, h1, hg⟩ := (C144_write T hT s g).1 h
  obtain ⟨g', hg', h2, h3⟩ := gbkText_exists hT (GbkText.knows hg)
  have : g = g' := by
    have := (C144_write T hT (utf8Text t) g').2 ⟨t, rfl, h1, hg'⟩
    rw [h] at this
    injection this
  subst this
  exact ⟨C144_says T hT g t hg, t, seen_utf8Text h1, h2, h3⟩

/-- ASCII is the same in both, whatever the tables say. -/
theorem C144_ascii (T : GbkTable) (s : Str) (h : ∀ c ∈ s, c.toNat < 0x80) :
    gbkToUtf8 T s = some s ∧ utf8ToGbk T s = some s := by
  have d : ∀ {s : Str}, (∀ c ∈ s, c.toNat < 0x80) → ∀ k, s.length ≤ k → gbkDecodeN T k s = s ∧ gbkEncodeN T k s = some s := by
    intro s
    induction s with
    | nil => intro _ k _; cases k <;> exact ⟨rfl, rfl⟩
    | cons b s ih =>
      intro h k hk
      cases k with
      | zero => simp at hk
      | succ k =>
        have hb : b.toNat < 0x80 := h b (List.mem_cons_self ..)
        have hb' : b < 0x80 := by rw [UInt8.lt_iff_toNat_lt]; exact hb
        obtain ⟨h1, h2⟩ := ih (fun c hc => h c (List.mem_cons_of_mem _ hc)) k (by simpa using hk)
        have e : gbkRune T b s = (b.toNat, 1) := by unfold gbkRune; rw [if_pos hb']
        constructor
        · rw [gbkDecodeN, e]
          show encodeRune b.toNat ++ gbkDecodeN T k s = _
          rw [h1]
          unfold encodeRune
          rw [if_pos hb, UInt8.ofNat_toNat]
          rfl
        · rw [gbkEncodeN, if_pos hb', h2]; rfl
  obtain ⟨h1, h2⟩ := d h s.length (Nat.le_refl _)
  exact ⟨by unfold gbkToUtf8; rw [h1], h2⟩

/-- The opposite of there and back in the other direction: bytes that mean nothing are read as U+FFFD, different ones as the
same, and cannot be written again. -/
theorem C144_lost (T : GbkTable) (hT : GbkTable.Sound T) :
    gbkToUtf8 T [0xff] = some (utf8Text [0xFFFD]) ∧ gbkToUtf8 T [0x81] = some (utf8Text [0xFFFD]) ∧
    utf8ToGbk T (utf8Text [0xFFFD]) = none := by
  refine ⟨rfl, rfl, ?_⟩
  rw [C144_refused T hT]
  rintro ⟨t, e, h1, h2⟩
  have h3 := seen_utf8Text h1
  rw [← e] at h3
  have h4 : Seen (utf8Text [0xFFFD]) [0xFFFD] := seen_utf8Text fun n hn => by
    cases hn with
    | head => unfold Spec.Scalar; decide
    | tail _ hn => cases hn
  rw [← seen_unique h4 h3] at h2
  rcases h2 _ (List.mem_cons_self ..) with h | h | h
  · exact absurd h (by decide)
  · exact absurd h (by decide)
  · exact h hT.none

/-! ## Plates -/

theorem readGBK_is {env : Env} {n : Int} {s : Slice} {i j : Nat} {x : Str} (h : readGBK env n s i = .ok (x, j)) :
    ∃ g, env.gbkDec g = some x ∨ env.gbkDec g = none ∧ x = [] := by
  unfold readGBK at h
  obtain ⟨g, k, -, h⟩ := rd_bind_ok h
  refine ⟨g, ?_⟩
  cases hg : env.gbkDec g with
  | some y =>
    rw [hg] at h
    injection h with h
    injection h with h _
    exact Or.inl (by rw [h])
  | none =>
    rw [hg] at h
    injection h with h
    injection h with h _
    exact Or.inr ⟨rfl, h.symm⟩

theorem Register.decode_plate {env : Env} {h : Header} {s : Slice} {i j : Nat} {m : Register}
    (hd : Register.decode env h s i = .ok (m, j)) : ∃ g, env.gbkDec g = some m.plate ∨ env.gbkDec g = none ∧ m.plate = [] := by
  unfold Register.decode at hd
  obtain ⟨_, _, -, hd⟩ := rd_bind_ok hd
  obtain ⟨_, _, -, hd⟩ := rd_bind_ok hd
  obtain ⟨_, _, -, hd⟩ := rd_bind_ok hd
  obtain ⟨_, _, -, hd⟩ := rd_bind_ok hd
  obtain ⟨_, _, -, hd⟩ := rd_bind_ok hd
  obtain ⟨_, _, -, hd⟩ := rd_bind_ok hd
  obtain ⟨_, _, -, hd⟩ := rd_bind_ok hd
  obtain ⟨_, _, -, hd⟩ := rd_bind_ok hd
  obtain ⟨pl, _, hp, hd⟩ := rd_bind_ok hd
  injection hd with hd
  injection hd with hd _
  subst hd
  exact readGBK_is hp

/-- Whatever terminals send, the plates the server has are texts: the listing shows their characters as they are. -/
theorem C144_plates (T : GbkTable) (hT : GbkTable.Sound T) (env : Env) (evs : List Ev) (p : Str) (d : Device)
    (hd : (Sys.start.run (gbkEnv T env) evs).1.st.look p = some d) :
    ∃ t, d.plate = utf8Text t ∧ (∀ n ∈ t, Spec.Scalar n) ∧ ∀ t', Seen d.plate t' → t' = t := by
  obtain ⟨pre, e, post, c, h, m, -, hs, -, -, -, hp, -⟩ := C116_told _ evs p d hd
  obtain ⟨clk, bytes, werr, rfl, -, hdel, -⟩ := hs
  obtain ⟨st1, pkt, ty, j, -, -, -, -, hm⟩ := hdel
  have : ∃ t, m.plate = utf8Text t ∧ ∀ n ∈ t, Spec.Scalar n := by
    cases ty
    case t0100 =>
      obtain ⟨m', k, hm', he⟩ := rd_bind_ok hm
      injection he with he
      injection he with he _
      injection he with he
      subst he
      obtain ⟨g, hg⟩ := Register.decode_plate hm'
      obtain ⟨t, e, h1, -⟩ := C144_read T hT g
      rcases hg with hg | ⟨-, hg⟩
      · have : gbkToUtf8 T g = some m'.plate := hg
        rw [e] at this
        injection this with this
        exact ⟨t, this.symm, h1⟩
      · exact ⟨[], by rw [hg]; rfl, by simp⟩
    case t0002 => cases hm
    case t0003 => cases hm
    case t8104 => cases hm
    all_goals
      obtain ⟨m', k, -, he⟩ := rd_bind_ok hm
      cases he
  obtain ⟨t, e, h1⟩ := this
  rw [hp, e]
  exact ⟨t, rfl, h1, fun t' h' => seen_unique h' (seen_utf8Text h1)⟩

/-- The frame of a registration with these bytes for the plate, from the terminal whose number ends with `n`. -/
def plateReg (n : UInt8) (g : List UInt8) : List UInt8 :=
  msgFrame { hdr2013 0x0100 with phone := (hdr2013 0).phone.dropLast ++ [0x30 + n] }
    (registerBody 5 20 7 31 115 1 [0x61] [0x6d] [0x69, 0x30 + n] g)

/-- Two terminals connect and register, with the plates `g` and `g'`. -/
def platesRun (g g' : List UInt8) : Sys × List Obs :=
  Sys.start.run (gbkEnv kyoTable goEnv) [.accept [0x61], .accept [0x62], .frame (demoClk 1000) demoC (plateReg 1 g) none,
    .frame (demoClk 1001) demoC' (plateReg 2 g') none]

-- plates 京A1 and 京A2
example : ((platesRun [0xbe, 0xa9, 0x41, 0x31] [0xbe, 0xa9, 0x41, 0x32]).1.st.listDevice.map (·.plate)) =
    [utf8 "京A1", utf8 "京A2"] := by decide +kernel

/-- The opposite of "plates that differ do not get in each other's way": of two terminals with different plates that mean nothing, the second one
is not registered. -/
theorem C144_mistaken : ((platesRun [0xff] [0x81]).1.st.listDevice.map (·.plate)) = [utf8Text [0xFFFD]] := by decide +kernel

/-! ## What rested on the conversion -/

theorem travels {T : GbkTable} (hT : GbkTable.Sound T) (env : Env) {t : List Nat} (hs : ∀ n ∈ t, Spec.Scalar n)
    (hk : ∀ n ∈ t, GbkKnows T n) : ∃ g, (gbkEnv T env).gbkEnc (utf8Text t) = some g ∧
      (gbkEnv T env).gbkDec g = some (utf8Text t) ∧ t.length ≤ g.length ∧ g.length ≤ 2 * t.length := by
  obtain ⟨g, hg, h1, h2⟩ := gbkText_exists hT hk
  exact ⟨g, (C144_write T hT _ g).2 ⟨t, rfl, hs, hg⟩, C144_says T hT g t hg, h1, h2⟩

/-- A registration reaches the server with every plate of up to 473 characters that GBK has. -/
theorem C144_registers (T : GbkTable) (hT : GbkTable.Sound T) (env : Env) (h : Header) (hw : h.WF) (hv : h.attr.verDesc = .v2019)
    (m : Register) (t : List Nat) (hm : m.plate = utf8Text t) (hs : ∀ n ∈ t, Spec.Scalar n) (hk : ∀ n ∈ t, GbkKnows T n)
    (hl : t.length ≤ 473) (h1 : JT808.Fits 11 m.manufacturer) (h2 : JT808.Fits 30 m.mode) (h3 : JT808.Fits 30 m.deviceID) :
    FrameCarries (gbkEnv T env) h (m.encode (gbkEnv T env) h.attr.verDesc) (Register.decode (gbkEnv T env))
      (m.received (gbkEnv T env)) := by
  obtain ⟨g, g1, g2, -, g4⟩ := travels hT env hs hk
  exact C20_register_2019 _ h hw hv m g (by rw [hm]; exact g1) (by rw [hm]; exact g2) (by omega) h1 h2 h3

/-- A simulator with such a plate, on a server that has neither its plate nor its phone: the conversation goes well. -/
theorem C144_conversation (T : GbkTable) (hT : GbkTable.Sound T) (env : Env) (evs : List Ev) (v : Ver) (id phone imei : Str)
    (t : List Nat) (hs : ∀ n ∈ t, Spec.Scalar n) (hk : ∀ n ∈ t, GbkKnows T n) (hl : t.length ≤ 473) (h0 : t ≠ [])
    (okId : ∀ c ∈ id, c ≠ 0) (digits : ∀ c ∈ phone, bcdChar c) (len : phone.length ≤ if v = .v2019 then 20 else 12)
    (okImei : imei.length ≤ 15)
    (freePlate : ∀ p d, (Sys.start.run (gbkEnv T env) evs).1.st.look p = some d → d.plate ≠ utf8Text t)
    (freePhone : (Sys.start.run (gbkEnv T env) evs).1.st.look (fillDevicePhone phone (if v = .v2019 then 20 else 12)) = none)
    (addr : Str) (client : Store) (cc : Conn) (keepalive : Nat) (province city : UInt16) (color : UInt8) (es : List PairEv) :
    let s := (Sys.start.run (gbkEnv T env) evs).1
    let p := Pair.start (gbkEnv T env) s addr client cc (genDevice v id (utf8Text t) phone imei keepalive cc) province city color
    Schedule (gbkEnv T env) (utf8Text t) p es →
    GoesWell (fillDevicePhone phone (if v = .v2019 then 20 else 12)) (utf8Text t) ⟨s.accepted, addr⟩ (p.run (gbkEnv T env) es) := by
  intro s p hsch
  obtain ⟨g, g1, g2, g3, g4⟩ := travels hT env hs hk
  refine C87_conversation _ s v id _ phone imei ⟨⟨evs, rfl⟩, okId, ⟨g, g1, g2, by omega, fun _ hg => ?_⟩, digits, len, okImei,
    freePlate, freePhone⟩ addr client cc keepalive province city color es hsch
  subst hg
  exact h0 (List.eq_nil_of_length_eq_zero (by simpa using g3))

-- 京A12345 on an empty server
example : utf8 "京A12345" = utf8Text [0x4eac, 0x41, 0x31, 0x32, 0x33, 0x34, 0x35] ∧
    (∀ n ∈ [0x4eac, 0x41, 0x31, 0x32, 0x33, 0x34, 0x35], Spec.Scalar n ∧ GbkKnows kyoTable n) ∧
    ∀ p d, (Sys.start.run (gbkEnv kyoTable goEnv) []).1.st.look p ≠ some d := by
  refine ⟨by decide +kernel, ?_, fun p d h => by cases h⟩
  unfold Spec.Scalar GbkKnows
  decide

/-- The plate of the shipped configuration is such a plate, and the built-in parameters are texts that stay as they are: what
was shown for converters that know the plate and leave ASCII alone holds with these converters. -/
theorem C144_shipped (T : GbkTable) (hT : GbkTable.Sound T) (env : Env) :
    (T.code 0x4eac ≠ 0 → KnowsPlate (gbkEnv T env)) ∧ KeepsASCII (gbkEnv T env) := by
  constructor
  · intro hc
    have e : utf8 "京A12345" = utf8Text [0x4eac, 0x41, 0x31, 0x32, 0x33, 0x34, 0x35] := by decide +kernel
    unfold KnowsPlate
    rw [e]
    obtain ⟨g, g1, g2, -, g4⟩ := travels (t := [0x4eac, 0x41, 0x31, 0x32, 0x33, 0x34, 0x35]) hT env
      (by unfold Spec.Scalar; decide) (by
        intro n hn
        rcases List.mem_cons.1 hn with rfl | hn
        · exact Or.inr (Or.inr hc)
        · left
          revert n
          decide)
    exact ⟨g, g1, g2, by simp only [List.length_cons, List.length_nil] at g4; omega⟩
  · intro s h
    exact C144_ascii T s fun c hc => by have := h c hc; omega

example : kyoTable.code 0x4eac ≠ 0 ∧ utf8ToGbk kyoTable (utf8 "京A12345") = some ([0xbe, 0xa9] ++ utf8 "A12345") := by decide +kernel

end JT808
