import Verif.Props.Shown
import Verif.Props.Endings
/-
C124: the protocol version a simulator is configured with, README.md:460.
-/
namespace JT808
open Spec

theorem as_2019 (id plate phone imei : Str) (keepalive : Nat) (c : Conn) :
    genDeviceAs (utf8 "2019") id plate phone imei keepalive c = genDevice .v2019 id plate phone imei keepalive c :=
  if_pos (by decide +kernel)

theorem as_2013 (id plate phone imei : Str) (keepalive : Nat) (c : Conn) :
    genDeviceAs (utf8 "2013") id plate phone imei keepalive c = genDevice .v2013 id plate phone imei keepalive c := by
  unfold genDeviceAs
  rw [if_neg (by decide +kernel), if_pos (by decide +kernel)]

theorem as_2011 (id plate phone imei : Str) (keepalive : Nat) (c : Conn) :
    genDeviceAs (utf8 "2011") id plate phone imei keepalive c = genDevice .v2011 id plate phone imei keepalive c := by
  unfold genDeviceAs
  rw [if_neg (by decide +kernel), if_neg (by decide +kernel), if_pos (by decide +kernel)]

theorem as_other {text : Str} (h1 : text ≠ utf8 "2011") (h2 : text ≠ utf8 "2013") (h3 : text ≠ utf8 "2019")
    (id plate phone imei : Str) (keepalive : Nat) (c : Conn) :
    genDeviceAs text id plate phone imei keepalive c =
      { genDevice .v2011 id plate phone imei keepalive c with phone := phone } := by
  unfold genDeviceAs
  rw [if_neg, if_neg, if_neg]
  · intro h; exact h1 (h.trans (by decide +kernel))
  · intro h; exact h2 (h.trans (by decide +kernel))
  · intro h; exact h3 (h.trans (by decide +kernel))

/-- With "2019" a simulator speaks the layout of 2019: its headers have the version bit, the protocol version and twenty
digits of phone number. -/
theorem C124_2019 (id plate phone imei : Str) (keepalive : Nat) (c : Conn) (hl : phone.length ≤ 20) (mid : UInt16) :
    let own := genDeviceAs (utf8 "2019") id plate phone imei keepalive c
    own.ver = .v2019 ∧ own.phone.length = 20 ∧ (∃ k, own.phone = List.replicate k 0x30 ++ phone) ∧
      (clientHeader mid own).attr.versionSign = 1 ∧ (clientHeader mid own).attr.verDesc = .v2019 ∧
      (clientHeader mid own).protoVer = 1 := by
  intro own
  have e : own = genDevice .v2019 id plate phone imei keepalive c := as_2019 ..
  rw [e]
  refine ⟨rfl, ?_, ⟨20 - phone.length, rfl⟩, rfl, rfl, rfl⟩
  show (List.replicate (20 - phone.length) _ ++ phone).length = 20
  simp; omega

/-- With "2013" it speaks the layout of 2013. -/
theorem C124_2013 (id plate phone imei : Str) (keepalive : Nat) (c : Conn) (hl : phone.length ≤ 12) (mid : UInt16) :
    let own := genDeviceAs (utf8 "2013") id plate phone imei keepalive c
    own.ver = .v2013 ∧ own.phone.length = 12 ∧ (∃ k, own.phone = List.replicate k 0x30 ++ phone) ∧
      (clientHeader mid own).attr.versionSign = 0 ∧ (clientHeader mid own).attr.verDesc = .v2013 ∧
      (clientHeader mid own).protoVer = 0 := by
  intro own
  have e : own = genDevice .v2013 id plate phone imei keepalive c := as_2013 ..
  rw [e]
  refine ⟨rfl, ?_, ⟨12 - phone.length, rfl⟩, rfl, rfl, rfl⟩
  show (List.replicate (12 - phone.length) _ ++ phone).length = 12
  simp; omega

example : (utf8 "13912345678").length ≤ 12 := by decide +kernel

/-- With "2011" it sends, message by message and byte by byte, what it sends with "2013": the layouts of 2011 are never
used. -/
theorem C124_2011_is_2013 (env : Env) (id plate phone imei : Str) (keepalive : Nat) (c : Conn) (province city : UInt16)
    (color : UInt8) (x : LocDraw) :
    let a := genDeviceAs (utf8 "2011") id plate phone imei keepalive c
    let b := genDeviceAs (utf8 "2013") id plate phone imei keepalive c
    Out.encode env (clientBeat a) = Out.encode env (clientBeat b) ∧
    Out.encode env (clientRegister a province city color) = Out.encode env (clientRegister b province city color) ∧
    Out.encode env (clientLocation a x) = Out.encode env (clientLocation b x) := by
  intro a b
  have ea : a = genDevice .v2011 id plate phone imei keepalive c := as_2011 ..
  have eb : b = genDevice .v2013 id plate phone imei keepalive c := as_2013 ..
  rw [ea, eb]
  exact ⟨rfl, rfl, rfl⟩

/-! ### Any other text -/

theorem Header.decode_phone {s : Slice} {h : Header} {j : Nat} (hd : Header.decode s 0 = .ok (h, j))
    (hv : h.attr.verDesc = .v2013) : h.phone = bcd2NumberStr ((s.mem.drop 4).take 6) := by
  rw [Header.decode_rest] at hd
  obtain ⟨id, i1, e1, hd⟩ := rd_bind_ok hd
  obtain ⟨w, i2, e2, hd⟩ := rd_bind_ok hd
  obtain ⟨a1, -, -⟩ := readWord_inv e1
  obtain ⟨a2, -, -⟩ := readWord_inv e2
  have hattr := (Header.decodeRest_attr hd).1
  rw [hattr] at hv
  unfold Header.decodeRest at hd
  rw [hv] at hd
  obtain ⟨pv, i3, e3, hd⟩ := rd_bind_ok hd
  obtain ⟨ph, i4, e4, hd⟩ := rd_bind_ok hd
  obtain ⟨sn, i5, -, hd⟩ := rd_bind_ok hd
  obtain ⟨fr, i6, -, hd⟩ := rd_bind_ok hd
  rw [rd_pure_eq] at hd
  injection hd with hd; injection hd with hd _
  have e3' : i3 = i2 := by
    have : Header.decodePV .v2013 = (pure 0 : Rd UInt8) := rfl
    rw [this, rd_pure_eq] at e3
    injection e3 with e3; injection e3 with _ e3; exact e3.symm
  obtain ⟨-, -, -, hp⟩ := readBCD_inv (n := 6) e4
  rw [← hd]
  show ph = _
  rw [hp, e3', a2, a1]
  rfl

/-- The digits that the bytes of a phone number of ten or eleven digits hold. -/
theorem short_phone {s : Str} (h : ∀ c ∈ s, bcdChar c) (hl : s.length = 10 ∨ s.length = 11) :
    (numberStr2BCD s).length = 5 ∧ (numberStr2BCD s).flatMap hex2 = s.take 10 := by
  unfold numberStr2BCD
  have e0 : 8 - s.length = 0 := by omega
  rw [e0]
  simp only [List.replicate_zero, List.nil_append]
  rcases hl with hl | hl
  · have := str2Byte_flatMap (forall₂_bcd h) (by omega)
    rw [List.take_of_length_le (by omega)]
    exact ⟨by rw [this.2, hl], this.1⟩
  · have h1 : ∀ c ∈ s.dropLast, bcdChar c := fun c hc => h c (List.dropLast_subset _ hc)
    have hlen : s.dropLast.length = 10 := by simp [hl]
    have := str2Byte_flatMap (forall₂_bcd h1) (by omega)
    rw [str2Byte_odd s (by omega)]
    refine ⟨by rw [this.2, hlen], ?_⟩
    rw [this.1, List.dropLast_eq_take, hl]

theorem attr_2013 (n : Nat) (h : n < 1024) : Attr.decode (Attr.encode ⟨UInt16.ofNat n, 0, 0, 0, 0, .none, false, .v2013⟩) =
    ⟨UInt16.ofNat n, 0, 0, 0, 0, .none, false, .v2013⟩ := by
  apply Attr.decode_encode
  refine ⟨?_, (by decide : (0 : UInt8).toNat < 2 ^ 3), (by decide : (0 : UInt8).toNat < 2), (by decide : (0 : UInt8).toNat < 2),
    (by decide : (0 : UInt8).toNat < 2), rfl, rfl, rfl⟩
  show (UInt16.ofNat n).toNat < 2 ^ 10
  rw [UInt16.toNat_ofNat_of_lt' (by show n < 65536; omega)]
  exact h

/-- The number the server reads from any frame of a simulator whose configuration has some other text for the version: the
first ten digits of its phone number and two zeros. -/
theorem misread {env : Env} {text : Str} (h1 : text ≠ utf8 "2011") (h2 : text ≠ utf8 "2013") (h3 : text ≠ utf8 "2019")
    {id plate phone imei : Str} {keepalive : Nat} {c : Conn} (hd : ∀ c ∈ phone, bcdChar c)
    (hl : phone.length = 10 ∨ phone.length = 11) {mid : UInt16} {m : Msg} {body f : List UInt8}
    (hb : m.encodeBody env (clientHeader mid (genDeviceAs text id plate phone imei keepalive c)) = .ok body)
    (hlen : body.length < 1024)
    (he : Out.encode env (clientHeader mid (genDeviceAs text id plate phone imei keepalive c), m) = .ok f)
    {p : Str} (hp : framePhone env f = some p) : p = phone.take 10 ++ [0x30, 0x30] := by
  obtain ⟨b5, bd⟩ := short_phone hd hl
  have ew : writeHeader (clientHeader mid (genDeviceAs text id plate phone imei keepalive c)) body =
      put16 mid ++ (put16 (Attr.encode ⟨UInt16.ofNat body.length, 0, 0, 0, 0, .none, false, .v2013⟩) ++
        (numberStr2BCD phone ++ (put16 1 ++ body))) := by
    rw [as_other h1 h2 h3]
    simp [writeHeader, clientHeader, genDevice, Header.withBodyLength, Header.encode, writeWord, writeBCD]
  simp only [Out.encode, hb, Res.ok.injEq] at he
  subst he
  unfold framePhone at hp
  rw [encodeFrame, escape_eq, decodeFrame_frameOf, ew] at hp
  split at hp
  · rename_i pd hpd
    injection hp with hp
    subst hp
    split at hpd
    · cases hpd
    · cases hpd
    · next pkt hv =>
      obtain ⟨-, -, ck, hp, -⟩ := (verify_ok_iff _ _).1 hv
      simp only [genVerifier] at hp
      obtain ⟨hp, -⟩ := List.append_inj' hp rfl
      split at hpd
      · cases hpd
      · cases hpd
      · next hh idx he =>
        have hat := (Header.decode_inv he).2.1
        have hmem : pkt.mem = put16 mid ++ (put16 (Attr.encode ⟨UInt16.ofNat body.length, 0, 0, 0, 0, .none, false, .v2013⟩) ++
          (numberStr2BCD phone ++ (put16 1 ++ (body ++ pkt.slack)))) := by
          rw [Slice.mem, ← hp]; simp
        have hver : hh.attr.verDesc = .v2013 := by
          rw [hat, hmem]
          simp only [put16, List.cons_append, List.nil_append, List.getD_cons_succ, List.getD_cons_zero, put16_be16]
          rw [attr_2013 _ hlen]
        have := Header.decode_phone he hver
        split at hpd
        · cases hpd
        · cases hpd
        · injection hpd with hpd; subst hpd
          show hh.phone = _
          rw [this, hmem]
          have e6 : ((put16 mid ++ (put16 (Attr.encode ⟨UInt16.ofNat body.length, 0, 0, 0, 0, .none, false, .v2013⟩) ++
              (numberStr2BCD phone ++ (put16 1 ++ (body ++ pkt.slack))))).drop 4).take 6 = numberStr2BCD phone ++ [0] := by
            have : ∀ (a b x : List UInt8), a.length = 2 → b.length = 2 → (a ++ (b ++ x)).drop 4 = x := by
              intro a b x ha hb
              rw [← List.append_assoc, List.drop_append_of_le_length (by simp [ha, hb])]
              simp [ha, hb]
            rw [this _ _ _ rfl rfl, List.take_append, b5]
            rw [List.take_of_length_le (by omega)]
            rfl
          rw [e6, bcd2NumberStr, List.flatMap_append, bd]
          have hf : (0x46 : UInt8) ∉ phone.take 10 ++ List.flatMap hex2 [0] := by
            intro hm
            rcases List.mem_append.1 hm with hm | hm
            · exact f_not_bcd hd (List.mem_of_mem_take hm)
            · revert hm; decide
          rw [lastIndex_none hf]
          rfl
  · cases hp

/-- The opposite of C124 for any other text, which nothing refuses: a simulator with a phone number of ten or eleven digits
is taken by the server for somebody else, whichever message it sends; so no frame of it ever changes what the server
holds of its number, and it never gets registered. -/
theorem C124_somebody_else (env : Env) (st : Store) (hr : Reachable env st) (clk : Clock) (sc : Conn) (werr : Option Err)
    (text : Str) (h1 : text ≠ utf8 "2011") (h2 : text ≠ utf8 "2013") (h3 : text ≠ utf8 "2019")
    (id plate phone imei : Str) (keepalive : Nat) (c : Conn) (hd : ∀ c ∈ phone, bcdChar c)
    (hl : phone.length = 10 ∨ phone.length = 11) (mid : UInt16) (m : Msg) (body f : List UInt8)
    (hb : m.encodeBody env (clientHeader mid (genDeviceAs text id plate phone imei keepalive c)) = .ok body)
    (hlen : body.length < 1024)
    (he : Out.encode env (clientHeader mid (genDeviceAs text id plate phone imei keepalive c), m) = .ok f) :
    (framePhone env f = none ∨ framePhone env f = some (phone.take 10 ++ utf8 "00")) ∧
    (st.serveFrame env clk sc werr f).1.look phone = st.look phone := by
  have key : ∀ p, framePhone env f = some p → p = phone.take 10 ++ [0x30, 0x30] :=
    fun p hp => misread h1 h2 h3 hd hl hb hlen he hp
  constructor
  · cases hp : framePhone env f with
    | none => exact .inl rfl
    | some p =>
      right
      rw [key p hp, show utf8 "00" = [0x30, 0x30] by decide +kernel]
  · refine (serveFrame_other hr.inv f phone ?_).look
    intro hp
    have := congrArg List.length (key phone hp)
    simp only [List.length_append, List.length_take, List.length_cons, List.length_nil] at this
    omega

/-- A simulator with "2016" for the version: the server registers it as 139123456700; the answer, which is for that number,
ends its receive loop; its heartbeats are one byte short and make the handler panic. -/
theorem C124_gives_up :
    let own := genDeviceAs (utf8 "2016") (utf8 "1234567") [0x42, 0x31] (utf8 "13912345678") (utf8 "1") 30000 demoC
    let client := Store.empty.buildDevice own
    let (s1, o) := Store.empty.handleFrame goEnv (demoClk 0) demoC (firstFrame goEnv own 31 115 1)
    (s1.look own.phone).isNone ∧ (s1.look (utf8 "139123456700")).isSome ∧
    (match o with
      | .reply f => (client.handleFrame goEnv (demoClk 1) demoC f).2
      | o => o) = .failed .activeClose ∧
    (match Out.encode goEnv (clientBeat own) with
      | .ok f => (s1.handleFrame goEnv (demoClk 2) demoC f).2
      | _ => .silent) = .panicked := by
  decide +kernel

-- the registration of that simulator meets the hypotheses of C124_somebody_else
example : utf8 "2016" ≠ utf8 "2011" ∧ utf8 "2016" ≠ utf8 "2013" ∧ utf8 "2016" ≠ utf8 "2019" ∧
    (utf8 "13912345678").length = 11 ∧ (∀ c ∈ utf8 "13912345678", bcdChar c) := by decide +kernel

end JT808
