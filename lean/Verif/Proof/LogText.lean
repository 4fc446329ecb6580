import Verif.Model.DebugLog
import Verif.Spec.DebugLog
import Verif.Props.JsonText
/-
Texts of the log: what zerolog writes, lines, messages in JSON.
-/
namespace JT808
open Spec

/-! ### Strings -/

theorem zeroByte_char {b : UInt8} (h : b.toNat < 0x80) : JChar (zeroByte b) b.toNat := by
  unfold zeroByte
  split
  · rename_i h1
    rcases h1 with rfl | rfl
    · exact .short (by decide)
    · exact .short (by decide)
  · rename_i h1
    split
    · rename_i h2; subst h2; exact .short (by decide)
    split
    · rename_i h2; subst h2; exact .short (by decide)
    split
    · rename_i h2; subst h2; exact .short (by decide)
    split
    · rename_i h2; subst h2; exact .short (by decide)
    split
    · rename_i h2; subst h2; exact .short (by decide)
    split
    · have h16 : UInt8.toNat 16 = 16 := rfl
      have hd : (b / 16).toNat = b.toNat / 16 := by rw [UInt8.toNat_div, h16]
      have hm : (b % 16).toNat = b.toNat % 16 := by rw [UInt8.toNat_mod, h16]
      have key := JChar.hex (a := 0x30) (b := 0x30) (c := jsonHex (b / 16)) (d := jsonHex (b % 16)) (w := 0) (x := 0)
        (y := b.toNat / 16) (z := b.toNat % 16) rfl rfl
        (by rw [← hd]; exact hexWorth_jsonHex (by omega)) (by rw [← hm]; exact hexWorth_jsonHex (by omega))
        (by unfold Scalar; omega)
      have e : ((0 * 16 + 0) * 16 + b.toNat / 16) * 16 + b.toNat % 16 = b.toNat := by omega
      rwa [e] at key
    · rename_i h2
      simp only [not_or, UInt8.lt_iff_toNat_lt, ← UInt8.toNat_inj] at h1 h2
      have e20 : UInt8.toNat 0x20 = 0x20 := rfl
      have e22 : UInt8.toNat 0x22 = 0x22 := rfl
      have e5c : UInt8.toNat 0x5c = 0x5c := rfl
      rw [e20] at h2
      rw [e22, e5c] at h1
      have e : utf8Of b.toNat = [b] := by
        unfold utf8Of; rw [if_pos h, UInt8.ofNat_toNat]
      rw [← e]
      exact .plain (by unfold Scalar; omega) (by omega) h1.1 h1.2

theorem zeroChars_seen (k : Nat) (s : Str) (h : s.length ≤ k) : ∃ t, Seen s t ∧ JChars (zeroCharsN k s) t := by
  induction k generalizing s with
  | zero =>
    obtain rfl : s = [] := List.eq_nil_of_length_eq_zero (by omega)
    exact ⟨[], .nil, .nil⟩
  | succ k ih =>
    cases s with
    | nil => exact ⟨[], .nil, .nil⟩
    | cons b s =>
      simp only [zeroCharsN]
      have e80 : UInt8.toNat 0x80 = 0x80 := rfl
      have hs : s.length ≤ k := by simpa using h
      split
      · rename_i hb
        rw [UInt8.lt_iff_toNat_lt, e80] at hb
        obtain ⟨t, h1, h2⟩ := ih s hs
        exact ⟨_, seen_byte hb h1, .cons (zeroByte_char hb) h2⟩
      · rename_i hb
        rw [UInt8.lt_iff_toNat_lt, e80] at hb
        cases hr : runeSize (b :: s) with
        | zero =>
          obtain ⟨t, h1, h2⟩ := ih s hs
          refine ⟨0xFFFD :: t, .bad ?_ h1, .cons (u := [0x5c, 0x75, 0x66, 0x66, 0x66, 0x64]) ?_ h2⟩
          · intro n r hn he
            by_cases h80 : 0x80 ≤ n
            · have := runeSize_utf8Of hn h80 r
              rw [← he, hr] at this
              exact utf8Of_ne_nil n (List.eq_nil_of_length_eq_zero this.symm)
            · unfold utf8Of at he
              rw [if_pos (by omega)] at he
              injection he with he _
              rw [he, UInt8.toNat_ofNat'] at hb
              omega
          · exact JChar.hex (w := 15) (x := 15) (y := 15) (z := 13) rfl rfl rfl rfl (by unfold Scalar; omega)
        | succ n =>
          obtain ⟨m, r, hm, h80, he, hl⟩ := runeSize_pos hr
          have ht : (b :: s).take (n + 1) = utf8Of m := by rw [he, ← hl, List.take_left]
          have hd : (b :: s).drop (n + 1) = r := by rw [he, ← hl, List.drop_left]
          have hrl : r.length ≤ k := by
            have := congrArg List.length he
            rw [List.length_append, hl] at this
            simp only [List.length_cons] at this h
            omega
          obtain ⟨t, h1, h2⟩ := ih r hrl
          simp only [ht, hd]
          exact ⟨m :: t, he ▸ .char hm h1, .cons (.plain hm (by omega) (by omega) (by omega)) h2⟩

theorem jtext_zero (s : Str) : ∃ t, Seen s t ∧ JText (zeroString s) (.str t) := by
  obtain ⟨t, h1, h2⟩ := zeroChars_seen s.length s (Nat.le_refl _)
  exact ⟨t, h1, .str h2⟩

theorem jtext_zeroName {s : String} (h : PlainName s) : JText (zeroString (jsonName s)) (.str (chars s)) := by
  obtain ⟨t, h1, h2⟩ := jtext_zero (jsonName s)
  rwa [seen_unique h1 (seen_name h)] at h2

/-- A text of plain ASCII characters. -/
theorem seen_ascii {s : Str} (h : ∀ b ∈ s, b.toNat < 0x80) : Seen s (s.map UInt8.toNat) := by
  induction s with
  | nil => exact .nil
  | cons b s ih => exact seen_byte (h b List.mem_cons_self) (ih fun x hx => h x (List.mem_cons_of_mem _ hx))

/-! ### No line feed in a JSON text -/

theorem utf8Of_raised {n : Nat} (h : 0x20 ≤ n) (hn : Scalar n) : ∀ b ∈ utf8Of n, 0x20 ≤ b.toNat := by
  intro b hb
  unfold Scalar at hn
  unfold utf8Of at hb
  split at hb
  · simp only [List.mem_singleton] at hb; subst hb; rw [UInt8.toNat_ofNat']; omega
  split at hb
  · simp only [List.mem_cons, List.not_mem_nil, or_false] at hb
    rcases hb with rfl | rfl <;> rw [UInt8.toNat_ofNat'] <;> omega
  split at hb
  · simp only [List.mem_cons, List.not_mem_nil, or_false] at hb
    rcases hb with rfl | rfl | rfl <;> rw [UInt8.toNat_ofNat'] <;> omega
  · simp only [List.mem_cons, List.not_mem_nil, or_false] at hb
    rcases hb with rfl | rfl | rfl | rfl <;> rw [UInt8.toNat_ofNat'] <;> omega

theorem hexWorth_high {b : UInt8} {n : Nat} (h : hexWorth b = some n) : 0x20 ≤ b.toNat := by
  unfold hexWorth at h
  split at h
  · omega
  split at h
  · omega
  split at h
  · omega
  · cases h

theorem shortEscapes_high : ∀ p ∈ shortEscapes, 0x20 ≤ p.1.toNat := by decide

theorem jchar_high {u : List UInt8} {n : Nat} (h : JChar u n) : ∀ b ∈ u, 0x20 ≤ b.toNat := by
  cases h with
  | plain hn h1 _ _ => exact utf8Of_raised h1 hn
  | short hm =>
    intro b hb
    simp only [List.mem_cons, List.not_mem_nil, or_false] at hb
    rcases hb with rfl | rfl
    · decide
    · exact shortEscapes_high _ hm
  | hex ha hb hc hd _ =>
    intro x hx
    simp only [List.mem_cons, List.not_mem_nil, or_false] at hx
    rcases hx with rfl | rfl | rfl | rfl | rfl | rfl
    · decide
    · decide
    · exact hexWorth_high ha
    · exact hexWorth_high hb
    · exact hexWorth_high hc
    · exact hexWorth_high hd

/-- No control character. -/
def High (s : List UInt8) : Prop := ∀ b ∈ s, 0x20 ≤ b.toNat

theorem High.nil : High [] := by intro b hb; cases hb

theorem High.cons {b : UInt8} {s : List UInt8} (hb : 0x20 ≤ b.toNat) (h : High s) : High (b :: s) := by
  intro x hx
  rcases List.mem_cons.1 hx with rfl | hx
  · exact hb
  · exact h x hx

theorem High.append {s t : List UInt8} (h : High s) (h' : High t) : High (s ++ t) := by
  intro x hx
  rcases List.mem_append.1 hx with hx | hx
  · exact h x hx
  · exact h' x hx

theorem jchars_high {s : List UInt8} {t : List Nat} (h : JChars s t) : High s := by
  induction h with
  | nil => exact .nil
  | cons hc _ ih => exact High.append (jchar_high hc) ih

theorem High.digits {s : List UInt8} (h : AllDigits s) : High s := by
  intro b hb
  have := h b hb
  omega

theorem High.quoted {s : List UInt8} (h : High s) : High (quoted s) := by
  unfold Spec.quoted
  exact .cons (by decide) (h.append (.cons (by decide) .nil))

mutual

theorem jtext_high : {s : List UInt8} → {v : JVal} → JText s v → High s
  | _, _, .num _ h _ => .digits h
  | _, _, .dec _ h _ _ hf => High.append (.digits h) (.cons (by decide) (.digits hf))
  | _, _, .neg _ h _ => .cons (by decide) (.digits h)
  | _, _, .yes => by unfold High; decide
  | _, _, .no => by unfold High; decide
  | _, _, .null => by unfold High; decide
  | _, _, .str h => (jchars_high h).quoted
  | _, _, .arr0 => by unfold High; decide
  | _, _, .arr h => .cons (by decide) ((jitems_high h).append (.cons (by decide) .nil))
  | _, _, .obj0 => by unfold High; decide
  | _, _, .obj h => .cons (by decide) ((jmembers_high h).append (.cons (by decide) .nil))

theorem jitems_high : {s : List UInt8} → {vs : List JVal} → JItems s vs → High s
  | _, _, .one h => jtext_high h
  | _, _, .more h h' => (jtext_high h).append (.cons (by decide) (jitems_high h'))

theorem jmembers_high : {s : List UInt8} → {kvs : List (List Nat × JVal)} → JMembers s kvs → High s
  | _, _, .one hk h => (jchars_high hk).quoted.append (.cons (by decide) (jtext_high h))
  | _, _, .more hk h h' =>
    (jchars_high hk).quoted.append (.cons (by decide) ((jtext_high h).append (.cons (by decide) (jmembers_high h'))))

end

/-- A line cannot be cut in two ways. -/
theorem line_cut {s s' r r' : List UInt8} (h : High s) (h' : High s') (e : s ++ 0x0a :: r = s' ++ 0x0a :: r') :
    s = s' ∧ r = r' := by
  induction s generalizing s' with
  | nil =>
    cases s' with
    | nil => exact ⟨rfl, (List.cons.inj e).2⟩
    | cons b s' =>
      injection e with e _
      have := h' b List.mem_cons_self
      rw [← e] at this
      exact absurd this (by decide)
  | cons b s ih =>
    cases s' with
    | nil =>
      injection e with e _
      have := h b List.mem_cons_self
      rw [e] at this
      exact absurd this (by decide)
    | cons b' s' =>
      injection e with e1 e2
      obtain ⟨rfl, rfl⟩ := ih (fun x hx => h x (List.mem_cons_of_mem _ hx)) (fun x hx => h' x (List.mem_cons_of_mem _ hx)) e2
      exact ⟨by rw [e1], rfl⟩

/-- A file says one thing. -/
theorem fileSays_unique {s : List UInt8} {vs vs' : List JVal} (h : FileSays s vs) (h' : FileSays s vs') : vs = vs' := by
  induction h generalizing vs' with
  | nil =>
    generalize hs : ([] : List UInt8) = s at h'
    cases h' with
    | nil => rfl
    | line _ _ => simp at hs
  | @line s r v vs ht _ ih =>
    generalize hs : s ++ 0x0a :: r = s' at h'
    cases h' with
    | nil => simp at hs
    | line ht' hr' =>
      obtain ⟨rfl, rfl⟩ := line_cut (jtext_high ht) (jtext_high ht') hs
      rw [jtext_unique ht ht', ih hr']

/-! ### Messages -/

theorem jtext_null : JText (jsonName "null") .null := .null

theorem jtext_bool (b : Bool) : JText (jsonBool b) (.truth b) := by
  cases b
  · exact .no
  · exact .yes

theorem jtext_enc (e : EncDesc) : JText e.json (encryptionShown e) := by
  cases e with
  | none => exact jtext_decimal 0
  | rsa => exact jtext_decimal 1
  | unknown => exact JText.neg (s := [0x31]) (by simp) (by unfold AllDigits; decide) (by simp)

theorem Attr.json_text (a : Attr) :
    JText a.json (.obj [(chars "bodyLength", .num a.bodyLength.toNat), (chars "encryption", .num a.encryption.toNat),
        (chars "packetFragmented", .num a.packetFragmented.toNat), (chars "versionSign", .num a.versionSign.toNat),
        (chars "extra", .num a.extra.toNat), (chars "encryptionDesc", encryptionShown a.encDesc),
        (chars "packetFragmentedDesc", .truth a.fragDesc), (chars "versionDesc", .num (verShown a.verDesc))]) := by
  have cv : decimal a.verDesc.num = decimal (verShown a.verDesc) := by cases a.verDesc <;> rfl
  unfold Attr.json
  rw [cv]
  refine jsonStruct_text (.more ?_ (jtext_decimal _) (.more ?_ (jtext_decimal _) (.more ?_ (jtext_decimal _)
    (.more ?_ (jtext_decimal _) (.more ?_ (jtext_decimal _) (.more ?_ (jtext_enc _) (.more ?_ (jtext_bool _)
    (.one ?_ (jtext_decimal _)))))))))
  all_goals (unfold PlainName; decide)

theorem frag_text (f : Option Frag) :
    JText (fragJson f) (match f with
        | none => .null
        | some f => .obj [(chars "total", .num f.total.toNat), (chars "index", .num f.index.toNat)]) := by
  cases f with
  | none => exact jtext_null
  | some f =>
    refine jsonStruct_text (.more ?_ (jtext_decimal _) (.one ?_ (jtext_decimal _)))
    all_goals (unfold PlainName; decide)

theorem Header.json_text (h : Header) : ∃ v, HeaderShown h v ∧ JText h.json v := by
  obtain ⟨phone, h1, h2⟩ := jtext_string h.phone
  refine ⟨_, ⟨phone, h1, rfl⟩, jsonStruct_text (.more ?_ (jtext_decimal _) (.more ?_ h.attr.json_text (.more ?_ (jtext_decimal _)
    (.more ?_ h2 (.more ?_ (jtext_decimal _) (.one ?_ (frag_text _)))))))⟩
  all_goals (unfold PlainName; decide)

theorem PV.json_text (x : PV) : ∃ v, ValueShown x v ∧ JText x.json v := by
  cases x with
  | byte v => exact ⟨_, .byte, jtext_decimal _⟩
  | word v => exact ⟨_, .word, jtext_decimal _⟩
  | dword v => exact ⟨_, .dword, jtext_decimal _⟩
  | str s =>
    obtain ⟨t, h1, h2⟩ := jtext_string s
    exact ⟨_, .str h1, h2⟩
  | num n => exact ⟨_, .num, jtext_decimal _⟩
  | other => exact ⟨_, .other, jtext_null⟩

theorem items_text (ps : List ParamData) :
    ∃ vs, ItemsShown ps vs ∧ (ps = [] ∨ JItems (jsonSep (ps.map ParamData.json)) vs) := by
  induction ps with
  | nil => exact ⟨[], .nil, .inl rfl⟩
  | cons p ps ih =>
    obtain ⟨vs, h1, h2⟩ := ih
    obtain ⟨x, h3, h4⟩ := p.value.json_text
    have h5 : JText p.json (.obj [(chars "paramId", .num p.id.toNat), (chars "paramLen", .num p.len.toNat),
        (chars "paramValue", x)]) := by
      refine jsonStruct_text (.more ?_ (jtext_decimal _) (.more ?_ (jtext_decimal _) (.one ?_ h4)))
      all_goals (unfold PlainName; decide)
    refine ⟨_, .cons h3 h1, .inr ?_⟩
    cases ps with
    | nil =>
      cases h1
      exact .one h5
    | cons d' ds =>
      rcases h2 with h2 | h2
      · cases h2
      · exact .more h5 h2

theorem DeviceParams.json_text (isNil : Bool) (p : DeviceParams) : ∃ v, ParamsShown p v ∧ JText (p.json isNil) v := by
  obtain ⟨vs, h1, h2⟩ := items_text p.params
  unfold DeviceParams.json
  split
  · rename_i hn
    simp only [Bool.and_eq_true, List.isEmpty_iff] at hn
    rw [hn.1] at h1
    cases h1
    refine ⟨_, ⟨[], by rw [hn.1]; exact .nil, .null, .inr ⟨rfl, rfl⟩, rfl⟩,
      jsonStruct_text (.more ?_ (jtext_decimal _) (.one ?_ jtext_null))⟩
    all_goals (unfold PlainName; decide)
  · refine ⟨_, ⟨vs, h1, .arr vs, .inl rfl, rfl⟩, jsonStruct_text (.more ?_ (jtext_decimal _) (.one ?_ ?_))⟩
    · unfold PlainName; decide
    · unfold PlainName; decide
    · rcases h2 with h2 | h2
      · rw [h2] at h1 ⊢
        cases h1
        exact .arr0
      · exact .arr h2

/-- The times of a message have years of four digits. -/
def Msg.timely : Msg → Prop
  | .m1205 m => m.query.start.year < 10000 ∧ m.query.stop.year < 10000
  | .m9205 q => q.start.year < 10000 ∧ q.stop.year < 10000
  | _ => True

theorem queryFields_ok {L : LogSetup} {q : MediaQuery} (h : q.start.year < 10000 ∧ q.stop.year < 10000) :
    L.queryFields q = .ok
      [("logicChannelId", decimal q.channel.toNat), ("startTime", 0x22 :: L.showTime q.start ++ [0x22]),
       ("endTime", 0x22 :: L.showTime q.stop ++ [0x22]), ("alarmSign", decimal q.alarm.toNat),
       ("alarmSignExt", decimal q.alarmExt.toNat), ("mediaType", decimal q.mediaType.toNat),
       ("streamType", decimal q.streamType.toNat), ("storageType", decimal q.storageType.toNat)] := by
  unfold LogSetup.queryFields LogSetup.timeJson
  rw [if_pos h.1, if_pos h.2]

/-- Fields after the first. -/
inductive FieldsTail : List (String × Str) → List (List Nat × JVal) → Prop
  | nil : FieldsTail [] []
  | cons {k : String} {s : Str} {v : JVal} {fs : List (String × Str)} {kvs : List (List Nat × JVal)} : PlainName k →
      JText s v → FieldsTail fs kvs → FieldsTail ((k, s) :: fs) ((chars k, v) :: kvs)

theorem FieldsTail.append {fs fs' : List (String × Str)} {kvs kvs' : List (List Nat × JVal)} (h : FieldsTail fs kvs)
    (h' : FieldsTail fs' kvs') : FieldsTail (fs ++ fs') (kvs ++ kvs') := by
  induction h with
  | nil => exact h'
  | cons hk hs _ ih => exact .cons hk hs ih

theorem FieldsTail.fields {k : String} {s : Str} {v : JVal} {fs : List (String × Str)} {kvs : List (List Nat × JVal)}
    (hk : PlainName k) (hs : JText s v) (h : FieldsTail fs kvs) : FieldsAre ((k, s) :: fs) ((chars k, v) :: kvs) := by
  induction h generalizing k s v with
  | nil => exact .one hk hs
  | cons hk' hs' _ ih => exact .more hk hs (ih hk' hs')

theorem query_text {L : LogSetup} {time : Civil → List Nat} (ht : ∀ t, JChars (L.showTime t) (time t)) (q : MediaQuery) :
    FieldsTail
      [("logicChannelId", decimal q.channel.toNat), ("startTime", 0x22 :: L.showTime q.start ++ [0x22]),
       ("endTime", 0x22 :: L.showTime q.stop ++ [0x22]), ("alarmSign", decimal q.alarm.toNat),
       ("alarmSignExt", decimal q.alarmExt.toNat), ("mediaType", decimal q.mediaType.toNat),
       ("streamType", decimal q.streamType.toNat), ("storageType", decimal q.storageType.toNat)] (queryShown time q) := by
  refine .cons ?_ (jtext_decimal _) (.cons ?_ (.str (ht _)) (.cons ?_ (.str (ht _)) (.cons ?_ (jtext_decimal _)
    (.cons ?_ (jtext_decimal _) (.cons ?_ (jtext_decimal _) (.cons ?_ (jtext_decimal _) (.cons ?_ (jtext_decimal _) .nil)))))))
  all_goals (unfold PlainName; decide)

theorem fields_shown {L : LogSetup} {time : Civil → List Nat} (ht : ∀ t, JChars (L.showTime t) (time t)) (isNil : Bool) (m : Msg)
    (hm : m.timely) : ∃ fs kvs, L.fields isNil m = .ok fs ∧ BodyShown time m kvs ∧ FieldsTail fs kvs := by
  cases m with
  | m0001 m =>
    refine ⟨_, _, rfl, .m0001, ?_⟩
    refine .cons ?_ (jtext_decimal _) (.cons ?_ (jtext_decimal _) (.cons ?_ (jtext_decimal _) .nil))
    all_goals (unfold PlainName; decide)
  | m8001 m =>
    refine ⟨_, _, rfl, .m8001, ?_⟩
    refine .cons ?_ (jtext_decimal _) (.cons ?_ (jtext_decimal _) (.cons ?_ (jtext_decimal _) .nil))
    all_goals (unfold PlainName; decide)
  | m0002 => exact ⟨_, _, rfl, .m0002, .nil⟩
  | m0003 => exact ⟨_, _, rfl, .m0003, .nil⟩
  | m8104 => exact ⟨_, _, rfl, .m8104, .nil⟩
  | m0100 m =>
    obtain ⟨_, a1, b1⟩ := jtext_string m.manufacturer
    obtain ⟨_, a2, b2⟩ := jtext_string m.mode
    obtain ⟨_, a3, b3⟩ := jtext_string m.deviceID
    obtain ⟨_, a4, b4⟩ := jtext_string m.plate
    obtain ⟨_, a5, b5⟩ := jtext_string m.locationDesc
    refine ⟨_, _, rfl, .m0100 a1 a2 a3 a4 a5, ?_⟩
    refine .cons ?_ (jtext_decimal _) (.cons ?_ (jtext_decimal _) (.cons ?_ b1 (.cons ?_ b2 (.cons ?_ b3
      (.cons ?_ (jtext_decimal _) (.cons ?_ b4 (.cons ?_ b5 .nil)))))))
    all_goals (unfold PlainName; decide)
  | m0102 m =>
    obtain ⟨_, a1, b1⟩ := jtext_string m.code
    obtain ⟨_, a2, b2⟩ := jtext_string m.imei
    obtain ⟨_, a3, b3⟩ := jtext_string m.software
    refine ⟨_, _, rfl, .m0102 a1 a2 a3, ?_⟩
    refine .cons ?_ (jtext_decimal _) (.cons ?_ b1 (.cons ?_ b2 (.cons ?_ b3 .nil)))
    all_goals (unfold PlainName; decide)
  | m0104 m =>
    obtain ⟨s, n, p⟩ := m
    cases p with
    | none =>
      refine ⟨_, _, rfl, .none0104 rfl, ?_⟩
      refine .cons ?_ (jtext_decimal _) (.cons ?_ (jtext_decimal _) (.cons ?_ jtext_null .nil))
      all_goals (unfold PlainName; decide)
    | some p =>
      obtain ⟨v, h1, h2⟩ := p.json_text isNil
      refine ⟨_, _, rfl, .m0104 rfl h1, ?_⟩
      refine .cons ?_ (jtext_decimal _) (.cons ?_ (jtext_decimal _) (.cons ?_ h2 .nil))
      all_goals (unfold PlainName; decide)
  | m0200 m =>
    obtain ⟨_, a1, b1⟩ := jtext_string m.time
    refine ⟨_, _, rfl, .m0200 a1, ?_⟩
    refine .cons ?_ (jtext_decimal _) (.cons ?_ (jtext_decimal _) (.cons ?_ (jtext_decimal _) (.cons ?_ (jtext_decimal _)
      (.cons ?_ (jtext_decimal _) (.cons ?_ (jtext_decimal _) (.cons ?_ (jtext_decimal _) (.cons ?_ b1 .nil)))))))
    all_goals (unfold PlainName; decide)
  | m1205 m =>
    obtain ⟨fs, hq, hf⟩ : ∃ fs, L.queryFields m.query = .ok fs ∧ FieldsTail fs (queryShown time m.query) :=
      ⟨_, queryFields_ok hm, query_text ht m.query⟩
    refine ⟨[("answerSerialNumber", decimal m.ansSerial.toNat), ("mediaCount", decimal m.count.toNat)] ++ fs ++
      [("Size", decimal m.size.toNat)], _, by simp only [LogSetup.fields, hq], .m1205, ?_⟩
    refine .cons ?_ (jtext_decimal _) (.cons ?_ (jtext_decimal _) (hf.append (.cons ?_ (jtext_decimal _) .nil)))
    all_goals (unfold PlainName; decide)
  | m8100 m =>
    obtain ⟨_, a1, b1⟩ := jtext_string m.code
    refine ⟨_, _, rfl, .m8100 a1, ?_⟩
    refine .cons ?_ (jtext_decimal _) (.cons ?_ (jtext_decimal _) (.cons ?_ b1 .nil))
    all_goals (unfold PlainName; decide)
  | m8103 m =>
    obtain ⟨v, h1, h2⟩ := m.params.json_text isNil
    refine ⟨_, _, rfl, .m8103 h1, ?_⟩
    refine .cons ?_ (jtext_decimal _) (.cons ?_ h2 .nil)
    all_goals (unfold PlainName; decide)
  | m9205 m => exact ⟨_, _, queryFields_ok hm, .m9205, query_text ht m⟩

/-- A message with such times is written, and what is written shows it. -/
theorem marshal_shown {L : LogSetup} {time : Civil → List Nat} (ht : ∀ t, JChars (L.showTime t) (time t)) (isNil : Bool)
    (h : Header) (m : Msg) (hm : m.timely) :
    ∃ text v, L.marshal isNil h m = .ok text ∧ MsgShown time h m v ∧ JText text v := by
  obtain ⟨fs, kvs, h1, h2, h3⟩ := fields_shown ht isNil m hm
  obtain ⟨hv, h4, h5⟩ := h.json_text
  refine ⟨_, _, ?_, ⟨hv, kvs, h4, h2, rfl⟩, jsonStruct_text (FieldsTail.fields ?_ h5 h3)⟩
  · simp only [LogSetup.marshal, h1]
  · unfold PlainName; decide

end JT808
