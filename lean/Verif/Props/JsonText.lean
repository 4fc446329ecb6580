import Verif.Proof.JsonUnique
import Verif.Proof.Demo
import Verif.Props.Query
/-
C115: the text of the listing.
-/
namespace JT808

namespace Spec

/-- How a status is shown. -/
def statusNumber : DStatus → Nat
  | .offline => 0
  | .online => 1
  | .sleeping => 2

/-- How a version is shown. -/
def versionNumber : Ver → Nat
  | .v2011 => 0
  | .v2013 => 1
  | .v2019 => 2

/-- What the listing says of a device: thirteen members in this order, the texts as they are seen, the keepalive in
nanoseconds. `time` is how an instant is written. -/
def Listed (time : Nat → List Nat) (d : Device) (v : JVal) : Prop :=
  ∃ id plate phone addr code imei soft,
    Seen d.id id ∧ Seen d.plate plate ∧ Seen d.phone phone ∧ Seen d.sessionID addr ∧ Seen d.authCode code ∧
    Seen d.imei imei ∧ Seen d.software soft ∧
    v = .obj [(chars "id", .str id), (chars "plate", .str plate), (chars "phone", .str phone), (chars "sessionId", .str addr),
      (chars "transProto", .str (chars (match d.conn with | some _ => "TCP" | none => "UDP"))),
      (chars "keepalive", .num (d.keepalive * 1000000)), (chars "lastComTime", .str (time d.last)),
      (chars "status", .num (statusNumber d.status)), (chars "versionDesc", .num (versionNumber d.ver)),
      (chars "protocolVersion", .num d.protoVer.toNat), (chars "authcode", .str code), (chars "imei", .str imei),
      (chars "softwareVersion", .str soft)]

/-- One entry per device, in the same order. -/
inductive ListedAll (time : Nat → List Nat) : List Device → List JVal → Prop
  | nil : ListedAll time [] []
  | cons {d : Device} {ds : List Device} {v : JVal} {vs : List JVal} : Listed time d v → ListedAll time ds vs →
      ListedAll time (d :: ds) (v :: vs)

end Spec

open Spec

theorem jtext_decimal (n : Nat) : JText (decimal n) (.num n) := by
  have h := JText.num (decimal_ne_nil n) (decimal_digits n) (by
    intro h0
    cases hd : decimal n with
    | nil => exact absurd hd (decimal_ne_nil n)
    | cons b s =>
      rw [hd] at h0
      obtain rfl : b = 0x30 := by simpa using h0
      cases s with
      | nil => rfl
      | cons c s =>
        exfalso
        have hv : decimalValue (0x30 :: c :: s) = decimalValue (c :: s) := by
          simp [decimalValue]
        have hlt : ∀ (l : List UInt8) (v : Nat), AllDigits l →
            l.foldl (fun v b => 10 * v + (b.toNat - 0x30)) v < (v + 1) * 10 ^ l.length := by
          intro l
          induction l with
          | nil => intro v _; simp
          | cons b l ih =>
            intro v hl
            have hb := hl b List.mem_cons_self
            have := ih (10 * v + (b.toNat - 0x30)) (fun x hx => hl x (List.mem_cons_of_mem _ hx))
            rw [List.foldl_cons, List.length_cons, Nat.pow_succ]
            refine Nat.lt_of_lt_of_le this ?_
            rw [← Nat.mul_assoc, Nat.mul_right_comm]
            exact Nat.mul_le_mul_right _ (by omega)
        have hdig := decimal_digits n
        rw [hd] at hdig
        have h1 := hlt (c :: s) 0 (fun x hx => hdig x (List.mem_cons_of_mem _ hx))
        have h2 : n < 10 ^ (c :: s).length := by
          have := decimalValue_decimal n
          rw [hd, hv] at this
          rw [← this]
          simpa [decimalValue] using h1
        have h3 := decimal_length h2 (by simp)
        rw [hd] at h3
        simp at h3
        omega)
  rwa [decimalValue_decimal] at h

theorem jtext_string (s : Str) : ∃ t, Seen s t ∧ JText (jsonString s) (.str t) := by
  obtain ⟨t, h1, h2⟩ := jsonChars_seen s.length s (Nat.le_refl _)
  exact ⟨t, h1, .str h2⟩

/-- Names and other texts without special characters. -/
def PlainName (s : String) : Prop := ∀ c ∈ s.toList, 0x20 ≤ c.toNat ∧ c.toNat < 0x7f ∧ c.toNat ≠ 0x22 ∧ c.toNat ≠ 0x5c

theorem jchars_name {s : String} (h : PlainName s) : JChars (jsonName s) (chars s) := by
  unfold PlainName at h
  unfold jsonName chars
  revert h
  generalize s.toList = l
  intro h
  induction l with
  | nil => exact .nil
  | cons c l ih =>
    have hc := h c List.mem_cons_self
    have e : utf8Of c.toNat = [UInt8.ofNat c.toNat] := by unfold utf8Of; rw [if_pos (by omega)]
    have := JChars.cons (JChar.plain (n := c.toNat) (by unfold Scalar; omega) hc.1 hc.2.2.1 hc.2.2.2)
      (ih fun x hx => h x (List.mem_cons_of_mem _ hx))
    rw [e] at this
    exact this

theorem seen_name {s : String} (h : PlainName s) : Seen (jsonName s) (chars s) := by
  unfold PlainName at h
  unfold jsonName chars
  revert h
  generalize s.toList = l
  intro h
  induction l with
  | nil => exact .nil
  | cons c l ih =>
    have hc := h c List.mem_cons_self
    have := seen_byte (b := UInt8.ofNat c.toNat) (by rw [UInt8.toNat_ofNat']; omega)
      (ih fun x hx => h x (List.mem_cons_of_mem _ hx))
    rw [UInt8.toNat_ofNat', Nat.mod_eq_of_lt (by omega)] at this
    exact this

/-- Fields with their values. -/
inductive FieldsAre : List (String × Str) → List (List Nat × JVal) → Prop
  | one {k : String} {s : Str} {v : JVal} : PlainName k → JText s v → FieldsAre [(k, s)] [(chars k, v)]
  | more {k : String} {s : Str} {v : JVal} {fs : List (String × Str)} {kvs : List (List Nat × JVal)} : PlainName k →
      JText s v → FieldsAre fs kvs → FieldsAre ((k, s) :: fs) ((chars k, v) :: kvs)

theorem jsonStruct_text {fs : List (String × Str)} {kvs : List (List Nat × JVal)} (h : FieldsAre fs kvs) :
    JText (jsonStruct fs) (.obj kvs) := by
  refine .obj ?_
  induction h with
  | one hk hs =>
    have := JMembers.one (jchars_name hk) hs
    simpa [quoted, jsonSep] using this
  | @more k s v fs kvs hk hs hm ih =>
    have := JMembers.more (jchars_name hk) hs ih
    cases hm with
    | one _ _ => simpa [quoted, jsonSep] using this
    | more _ _ _ => simpa [quoted, jsonSep] using this

theorem Device.json_entry {showTime : Nat → Str} {time : Nat → List Nat} (ht : ∀ n, JChars (showTime n) (time n))
    (d : Device) : ∃ v, Listed time d v ∧ JText (d.json showTime) v := by
  obtain ⟨id, a1, b1⟩ := jtext_string d.id
  obtain ⟨plate, a2, b2⟩ := jtext_string d.plate
  obtain ⟨phone, a3, b3⟩ := jtext_string d.phone
  obtain ⟨addr, a4, b4⟩ := jtext_string d.sessionID
  obtain ⟨code, a5, b5⟩ := jtext_string d.authCode
  obtain ⟨imei, a6, b6⟩ := jtext_string d.imei
  obtain ⟨soft, a7, b7⟩ := jtext_string d.software
  have ct : JText (jsonString (jsonName (if d.conn.isSome then "TCP" else "UDP")))
      (.str (chars (match d.conn with | some _ => "TCP" | none => "UDP"))) := by
    obtain ⟨t, h1, h2⟩ := jtext_string (jsonName (if d.conn.isSome then "TCP" else "UDP"))
    have h3 : Seen (jsonName (if d.conn.isSome then "TCP" else "UDP"))
        (chars (match d.conn with | some _ => "TCP" | none => "UDP")) := by
      cases d.conn
      · exact seen_name (s := "UDP") (by unfold PlainName; decide)
      · exact seen_name (s := "TCP") (by unfold PlainName; decide)
    rw [← seen_unique h1 h3]
    exact h2
  have cs : decimal d.status.num = decimal (statusNumber d.status) := by cases d.status <;> rfl
  have cv : decimal d.ver.num = decimal (versionNumber d.ver) := by cases d.ver <;> rfl
  refine ⟨_, ⟨id, plate, phone, addr, code, imei, soft, a1, a2, a3, a4, a5, a6, a7, rfl⟩, jsonStruct_text ?_⟩
  rw [cs, cv]
  refine .more ?_ b1 (.more ?_ b2 (.more ?_ b3 (.more ?_ b4 (.more ?_ ct (.more ?_ (jtext_decimal _) (.more ?_ (.str (ht _))
    (.more ?_ (jtext_decimal _) (.more ?_ (jtext_decimal _) (.more ?_ (jtext_decimal _) (.more ?_ b5 (.more ?_ b6
    (.one ?_ b7))))))))))))
  all_goals (unfold PlainName; decide)

theorem jsonList_text {showTime : Nat → Str} {time : Nat → List Nat} (ht : ∀ n, JChars (showTime n) (time n))
    (ds : List Device) :
    ∃ vs, ListedAll time ds vs ∧ JText (0x5b :: jsonSep (ds.map (Device.json showTime)) ++ [0x5d]) (.arr vs) := by
  suffices h : ∃ vs, ListedAll time ds vs ∧ (ds = [] ∨ JItems (jsonSep (ds.map (Device.json showTime))) vs) by
    obtain ⟨vs, h1, h2⟩ := h
    rcases h2 with rfl | h2
    · cases h1
      exact ⟨[], .nil, .arr0⟩
    · exact ⟨vs, h1, .arr h2⟩
  induction ds with
  | nil => exact ⟨[], .nil, .inl rfl⟩
  | cons d ds ih =>
    obtain ⟨vs, h1, h2⟩ := ih
    obtain ⟨v, h3, h4⟩ := Device.json_entry ht d
    refine ⟨v :: vs, .cons h3 h1, .inr ?_⟩
    cases ds with
    | nil =>
      cases h1
      exact .one h4
    | cons d' ds =>
      rcases h2 with h2 | h2
      · cases h2
      · exact .more h4 h2

/-- The body of GET /device is a JSON text, and it denotes one value only: a list with one entry for each device in the cache
that says what the cache says. -/
theorem C115_listing (showTime : Nat → Str) (time : Nat → List Nat) (ht : ∀ n, JChars (showTime n) (time n)) (st : Store) :
    ∃ vs, ListedAll time st.listDevice vs ∧ JText (st.listBody showTime) (.arr vs) ∧
      ∀ v, JText (st.listBody showTime) v → v = .arr vs := by
  obtain ⟨vs, h1, h2⟩ := jsonList_text ht st.listDevice
  exact ⟨vs, h1, h2, fun v hv => jtext_unique hv h2⟩

/-- Instants written as plain numbers, for the examples. -/
def plainTime (n : Nat) : Str := decimal n

theorem plainTime_chars (n : Nat) : JChars (plainTime n) ((decimal n).map UInt8.toNat) := by
  unfold plainTime
  have h := decimal_digits n
  generalize decimal n = l at h
  induction l with
  | nil => exact .nil
  | cons b l ih =>
    have hb := h b List.mem_cons_self
    have e : utf8Of b.toNat = [b] := by unfold utf8Of; rw [if_pos (by omega)]; simp
    have := JChars.cons (JChar.plain (n := b.toNat) (by unfold Scalar; omega) (by omega) (by omega) (by omega))
      (ih fun x hx => h x (List.mem_cons_of_mem _ hx))
    rw [e] at this
    exact this

/-- Applied: the terminal that registered in the demonstration is listed with its id and plate. -/
example : ∃ vs, ListedAll (fun n => (decimal n).map UInt8.toNat) demoSys.st.listDevice vs ∧ vs.length = 1 ∧
    JText (demoSys.st.listBody plainTime) (.arr vs) := by
  obtain ⟨vs, h1, h2, _⟩ := C115_listing plainTime _ plainTime_chars demoSys.st
  refine ⟨vs, h1, ?_, h2⟩
  have hl : demoSys.st.listDevice.length = 1 := by decide +kernel
  have : ∀ {ds vs}, ListedAll (fun n => (decimal n).map UInt8.toNat) ds vs → vs.length = ds.length := by
    intro ds vs h
    induction h with
    | nil => rfl
    | cons _ _ ih => simp [ih]
  rw [this h1, hl]

/-- Nobody registered: an empty list, not null. -/
example : Store.empty.listBody plainTime = [0x5b, 0x5d] := by decide

namespace Spec

/-- The bytes are UTF-8. -/
def IsUtf8 (s : Str) : Prop := ∃ t, (∀ n ∈ t, Scalar n) ∧ s = utf8Text t

/-- All texts of the device are UTF-8. -/
def Readable (d : Device) : Prop :=
  IsUtf8 d.id ∧ IsUtf8 d.plate ∧ IsUtf8 d.phone ∧ IsUtf8 d.sessionID ∧ IsUtf8 d.authCode ∧ IsUtf8 d.imei ∧ IsUtf8 d.software

/-- Two devices agree in everything that is shown. -/
def SameShown (d d' : Device) : Prop :=
  d.id = d'.id ∧ d.plate = d'.plate ∧ d.phone = d'.phone ∧ d.sessionID = d'.sessionID ∧ d.conn.isSome = d'.conn.isSome ∧
  d.keepalive = d'.keepalive ∧ d.last = d'.last ∧ d.status = d'.status ∧ d.ver = d'.ver ∧ d.protoVer = d'.protoVer ∧
  d.authCode = d'.authCode ∧ d.imei = d'.imei ∧ d.software = d'.software

/-- Two lists of devices agree in everything that is shown. -/
inductive SameListing : List Device → List Device → Prop
  | nil : SameListing [] []
  | cons {d d' : Device} {ds ds' : List Device} : SameShown d d' → SameListing ds ds' → SameListing (d :: ds) (d' :: ds')

end Spec

theorem seen_same {s s' : Str} {t : List Nat} (h : Seen s t) (h' : Seen s' t) (hu : IsUtf8 s) (hu' : IsUtf8 s') : s = s' := by
  obtain ⟨u, hs, rfl⟩ := hu
  obtain ⟨u', hs', rfl⟩ := hu'
  rw [seen_unique (seen_utf8Text hs) h, seen_unique (seen_utf8Text hs') h']

theorem entry_same {time : Nat → List Nat} (htime : ∀ m n, time m = time n → m = n) {d d' : Device} {v : JVal}
    (h : Listed time d v) (h' : Listed time d' v) (hr : Readable d) (hr' : Readable d') : SameShown d d' := by
  obtain ⟨i, p, f, a, c, e, s, h1, h2, h3, h4, h5, h6, h7, rfl⟩ := h
  obtain ⟨i', p', f', a', c', e', s', g1, g2, g3, g4, g5, g6, g7, hv⟩ := h'
  obtain ⟨r1, r2, r3, r4, r5, r6, r7⟩ := hr
  obtain ⟨q1, q2, q3, q4, q5, q6, q7⟩ := hr'
  simp only [JVal.obj.injEq, List.cons.injEq, Prod.mk.injEq, JVal.str.injEq, JVal.num.injEq, true_and, and_true] at hv
  obtain ⟨rfl, rfl, rfl, rfl, hc, hk, ht, hs, hver, hp, rfl, rfl, rfl⟩ := hv
  refine ⟨seen_same h1 g1 r1 q1, seen_same h2 g2 r2 q2, seen_same h3 g3 r3 q3, seen_same h4 g4 r4 q4, ?_, by omega, htime _ _ ht,
    ?_, ?_, UInt8.toNat_inj.1 hp, seen_same h5 g5 r5 q5, seen_same h6 g6 r6 q6, seen_same h7 g7 r7 q7⟩
  · have hne : chars "TCP" ≠ chars "UDP" := by decide
    cases hd : d.conn <;> cases hd' : d'.conn <;> simp only [hd, hd'] at hc
    · rfl
    · exact absurd hc.symm hne
    · exact absurd hc hne
    · rfl
  · revert hs
    cases d.status <;> cases d'.status <;> simp [statusNumber]
  · revert hver
    cases d.ver <;> cases d'.ver <;> simp [versionNumber]

/-- Devices whose texts are UTF-8 can be told from the listing: equal bodies are of caches that agree in everything shown. -/
theorem C115_faithful_partial (showTime : Nat → Str) (time : Nat → List Nat) (ht : ∀ n, JChars (showTime n) (time n))
    (htime : ∀ m n, time m = time n → m = n) (st st' : Store) (hr : ∀ d ∈ st.listDevice, Readable d)
    (hr' : ∀ d ∈ st'.listDevice, Readable d) (he : st.listBody showTime = st'.listBody showTime) :
    SameListing st.listDevice st'.listDevice := by
  obtain ⟨vs, h1, h2, _⟩ := C115_listing showTime time ht st
  obtain ⟨vs', h1', h2', h3'⟩ := C115_listing showTime time ht st'
  obtain rfl : vs = vs' := by
    have := h3' _ (he ▸ h2)
    simpa using this
  suffices h : ∀ {ds : List Device} {vs : List JVal}, ListedAll time ds vs → ∀ ds', ListedAll time ds' vs →
      (∀ d ∈ ds, Readable d) → (∀ d ∈ ds', Readable d) → SameListing ds ds' from h h1 _ h1' hr hr'
  intro ds vs h
  induction h with
  | nil => intro ds' h' _ _; cases h'; exact .nil
  | cons hd _ ih =>
    intro ds' h' hr hr'
    cases h' with
    | cons hd' htl =>
      exact .cons (entry_same htime hd hd' (hr _ List.mem_cons_self) (hr' _ List.mem_cons_self))
        (ih _ htl (fun x hx => hr x (List.mem_cons_of_mem _ hx)) (fun x hx => hr' x (List.mem_cons_of_mem _ hx)))

/-- The demonstration meets the hypotheses: its texts are ASCII, and plain numbers tell instants apart. -/
example : (∀ d ∈ demoSys.st.listDevice, Readable d) ∧
    ∀ m n, (decimal m).map UInt8.toNat = (decimal n).map UInt8.toNat → m = n := by
  constructor
  · have ha : ∀ s : Str, (∀ b ∈ s, b.toNat < 0x80) → IsUtf8 s := by
      intro s hs
      refine ⟨s.map UInt8.toNat, ?_, ?_⟩
      · intro n hn
        obtain ⟨b, hb, rfl⟩ := List.mem_map.1 hn
        have := hs b hb
        unfold Scalar; omega
      · induction s with
        | nil => rfl
        | cons b s ih =>
          have hb := hs b List.mem_cons_self
          have e : utf8Of b.toNat = [b] := by unfold utf8Of; rw [if_pos hb]; simp
          have := ih fun x hx => hs x (List.mem_cons_of_mem _ hx)
          rw [List.map_cons]
          unfold utf8Text at this ⊢
          rw [List.flatMap_cons, e, ← this]
          rfl
    have hd : ∀ d ∈ demoSys.st.listDevice, ∀ s ∈ [d.id, d.plate, d.phone, d.sessionID, d.authCode, d.imei, d.software],
        ∀ b ∈ s, b.toNat < 0x80 := by decide +kernel
    intro d h
    have := fun s hs => ha s (hd d h s hs)
    exact ⟨this _ (by simp), this _ (by simp), this _ (by simp), this _ (by simp), this _ (by simp), this _ (by simp),
      this _ (by simp)⟩
  · intro m n h
    have h' : decimal m = decimal n := by
      have hi : ∀ a b : List UInt8, a.map UInt8.toNat = b.map UInt8.toNat → a = b := by
        intro a
        induction a with
        | nil => intro b hb; cases b <;> simp_all
        | cons x a ih =>
          intro b hb
          cases b with
          | nil => simp at hb
          | cons y b =>
            simp only [List.map_cons, List.cons.injEq] at hb
            rw [UInt8.toNat_inj.1 hb.1, ih b hb.2]
      exact hi _ _ h
    have := congrArg decimalValue h'
    rwa [decimalValue_decimal, decimalValue_decimal] at this

/-- The server after a terminal with the given id registered. -/
def afterRegistration (id : Str) : Store :=
  (Sys.start.run goEnv [.accept [0x61], .accept [0x62],
    .frame (demoClk 1000) demoC (msgFrame (hdr2013 0x0100) ({ demoRegMsg with deviceID := id }.encode goEnv .v2013)) none]).1.st

/-- Otherwise not: terminals with different ids are listed with the same text. -/
theorem C115_alike :
    (afterRegistration [0xfe]).listBody plainTime = (afterRegistration [0xff]).listBody plainTime ∧
    (afterRegistration [0xfe]).listDevice.map (·.id) = [[0xfe]] ∧
    (afterRegistration [0xff]).listDevice.map (·.id) = [[0xff]] := by decide +kernel

end JT808
