import Verif.Proof.Params
import Verif.Proof.Bounds
import Verif.Props.Messages
/-
C23, C24, C25, C67: terminal parameters.
-/
namespace JT808
open Spec

/-! ## C23 one item -/

/-- The codec of a wire type. -/
def kindOf : PType → PKind
  | .byte => .byte
  | .word => .word
  | .dword => .dword
  | .bcd => .bytes
  | .string => .string
  | .gbk => .gbk

/-- The parameter table is the one of the specification: an id has a codec exactly if it is listed, and then the
codec of its type. -/
theorem C23_table (id : UInt32) (t : PType) : argTable id = some (kindOf t) ↔ id.toNat ∈ paramIDs t := by
  have key : ∀ x ∈ argList, argList.lookup x.1 = some x.2 := by decide +kernel
  have fwd : ∀ x ∈ argList, ∀ t : PType, x.2 = kindOf t → x.1.toNat ∈ paramIDs t := by
    intro x hx t h
    have : ∀ x ∈ argList, (x.2 = kindOf .byte → x.1.toNat ∈ paramIDs .byte) ∧
        (x.2 = kindOf .word → x.1.toNat ∈ paramIDs .word) ∧ (x.2 = kindOf .dword → x.1.toNat ∈ paramIDs .dword) ∧
        (x.2 = kindOf .bcd → x.1.toNat ∈ paramIDs .bcd) ∧ (x.2 = kindOf .string → x.1.toNat ∈ paramIDs .string) ∧
        (x.2 = kindOf .gbk → x.1.toNat ∈ paramIDs .gbk) := by decide +kernel
    obtain ⟨h1, h2, h3, h4, h5, h6⟩ := this x hx
    cases t <;> first | exact h1 h | exact h2 h | exact h3 h | exact h4 h | exact h5 h | exact h6 h
  have bwd : ∀ t : PType, ∀ n ∈ paramIDs t, n < 2 ^ 32 ∧ argList.lookup (UInt32.ofNat n) = some (kindOf t) := by
    intro t; cases t <;> decide +kernel
  constructor
  · intro h
    obtain ⟨l1, l2, e, -⟩ := List.lookup_eq_some_iff.mp h
    exact fwd (id, kindOf t) (by rw [e]; simp) t rfl
  · intro h
    have := (bwd t _ h).2
    rwa [UInt32.ofNat_toNat] at this

/-- Sending item `p` puts `bs` on the wire, and wherever `bs` is found in a buffer, reading there gives `q` and stops
behind it. -/
def ItemRoundtrip (env : Env) (p q : ParamData) (bs : List UInt8) : Prop :=
  p.encode env = .ok bs ∧
  ∀ pre suf slack, ParamData.decode env ⟨pre ++ bs ++ suf, slack⟩ pre.length = .ok (q, pre.length + bs.length)

theorem Travels.item {env : Env} {p q : ParamData} {bs : List UInt8} (h : Travels env p q bs) :
    ItemRoundtrip env p q bs := by
  refine ⟨h.encode, fun pre suf slack => ?_⟩
  exact h.reads pre.length pre suf slack rfl

theorem travels_of {env : Env} {p : ParamData} {k : PKind} {v w : PV} {vs : List UInt8} (h1 : argTable p.id = some k)
    (hv : p.value = v) (h2 : Carries env k v vs w) :
    Travels env p ⟨p.id, UInt8.ofNat vs.length, w⟩ (paramItem p.id.toNat vs) := by
  subst hv
  exact ⟨⟨k, vs, w, h1, h2, by simp [paramItem, put32_dword], rfl⟩⟩

/-- BYTE parameters, as read or as a JSON number. -/
theorem C23_byte (env : Env) (p : ParamData) (h : p.id.toNat ∈ paramIDs .byte) (x : UInt8)
    (hv : p.value = .byte x ∨ p.value = .num x.toNat) :
    ItemRoundtrip env p ⟨p.id, 1, .byte x⟩ (paramItem p.id.toNat [x]) := by
  have ht := (C23_table p.id .byte).mpr h
  rcases hv with hv | hv
  · exact (travels_of ht hv (.byte x)).item
  · have := (travels_of (env := env) ht hv (.byteNum x.toNat x.toNat_lt)).item
    simpa using this

/-- WORD parameters. -/
theorem C23_word (env : Env) (p : ParamData) (h : p.id.toNat ∈ paramIDs .word) (x : UInt16)
    (hv : p.value = .word x ∨ p.value = .num x.toNat) :
    ItemRoundtrip env p ⟨p.id, 2, .word x⟩ (paramItem p.id.toNat (word x.toNat)) := by
  have ht := (C23_table p.id .word).mpr h
  rw [← put16_word]
  rcases hv with hv | hv
  · exact (travels_of ht hv (.word x)).item
  · have := (travels_of (env := env) ht hv (.wordNum x.toNat x.toNat_lt)).item
    simpa [put16_length] using this

/-- DWORD parameters. -/
theorem C23_dword (env : Env) (p : ParamData) (h : p.id.toNat ∈ paramIDs .dword) (x : UInt32)
    (hv : p.value = .dword x ∨ p.value = .num x.toNat) :
    ItemRoundtrip env p ⟨p.id, 4, .dword x⟩ (paramItem p.id.toNat (dword x.toNat)) := by
  have ht := (C23_table p.id .dword).mpr h
  rw [← put32_dword]
  rcases hv with hv | hv
  · exact (travels_of ht hv (.dword x)).item
  · have := (travels_of (env := env) ht hv (.dwordNum x.toNat x.toNat_lt)).item
    simpa [put32_length] using this

/-- STRING parameters up to 255 bytes.  Missing for the full C23: longer ones, where it is false
(C23_long_string). -/
theorem C23_string_partial (env : Env) (p : ParamData) (h : p.id.toNat ∈ paramIDs .string) (s : Str)
    (hs : s.length ≤ 255) (hv : p.value = .str s) :
    ItemRoundtrip env p ⟨p.id, UInt8.ofNat s.length, .str s⟩ (paramItem p.id.toNat s) :=
  (travels_of ((C23_table p.id .string).mpr h) hv (.string s hs)).item

/-- GBK parameters: a text that has a GBK form of at most 255 bytes which reads back as the text. -/
theorem C23_gbk_partial (env : Env) (p : ParamData) (h : p.id.toNat ∈ paramIDs .gbk) (s : Str) (g : List UInt8)
    (he : env.gbkEnc s = some g) (hd : env.gbkDec g = some s) (hg : g.length ≤ 255) (hv : p.value = .str s) :
    ItemRoundtrip env p ⟨p.id, UInt8.ofNat g.length, .str s⟩ (paramItem p.id.toNat g) :=
  (travels_of ((C23_table p.id .gbk).mpr h) hv (.gbk s g he hd hg)).item

theorem str2Byte_nibbles (ps : List (UInt8 × Nat)) (h : ∀ p ∈ ps, hexVal p.1 = some (UInt8.ofNat p.2)) :
    str2Byte (ps.map (·.1)) = packBcd (ps.map (·.2)) := by
  match ps with
  | [] => rfl
  | [_] => rfl
  | a :: b :: rest =>
    have ih := str2Byte_nibbles rest (fun d hd => h d (by simp [hd]))
    simp only [List.map_cons, str2Byte, h a (by simp), h b (by simp), packBcd]
    rw [← ih, UInt8.ofNat_add, UInt8.ofNat_mul]
    rfl

theorem numberStr2BCD_digits (ds : List Nat) (h : ∀ d ∈ ds, d < 10) : numberStr2BCD (digitStr ds) = bcdValue ds := by
  have key : ∀ a, a < 10 → hexVal (0x30 + UInt8.ofNat a) = some (UInt8.ofNat a) := by decide +kernel
  have := str2Byte_nibbles (List.replicate (8 - ds.length) (0x66, 15) ++ ds.map fun d => (0x30 + UInt8.ofNat d, d)) (by
    intro p hp
    rcases List.mem_append.mp hp with hp | hp
    · rw [(List.mem_replicate.mp hp).2]; decide
    · obtain ⟨d, hd, rfl⟩ := List.mem_map.mp hp; exact key d (h d hd))
  unfold numberStr2BCD bcdValue
  simp only [List.map_append, List.map_replicate, List.map_map] at this
  rw [show List.map ((fun x => x.1) ∘ fun d => ((0x30 : UInt8) + UInt8.ofNat d, d)) ds = digitStr ds from rfl,
    show List.map ((fun x : UInt8 × Nat => x.2) ∘ fun d => (0x30 + UInt8.ofNat d, d)) ds = ds from by
      simp [Function.comp_def]] at this
  rw [show (digitStr ds).length = ds.length by simp [digitStr]]
  exact this

theorem packBcd_length (ds : List Nat) : (packBcd ds).length = ds.length / 2 := by
  match ds with
  | [] => rfl
  | [_] => simp [packBcd]
  | a :: b :: rest =>
    have := packBcd_length rest
    simp only [packBcd, List.length_cons, this]; omega

/-- BCD parameters: digit strings of even length or up to eight digits, up to 510 digits.  Missing for the full C23:
odd lengths from nine on and lengths beyond 510, where it is false (C23_odd_bcd). -/
theorem C23_bcd_partial (env : Env) (p : ParamData) (h : p.id.toNat ∈ paramIDs .bcd) (ds : List Nat)
    (hds : ∀ d ∈ ds, d < 10) (hl : ds.length ≤ 8 ∨ ds.length % 2 = 0) (hm : ds.length ≤ 510)
    (hv : p.value = .str (digitStr ds)) :
    ItemRoundtrip env p ⟨p.id, UInt8.ofNat (max 4 (ds.length / 2)), .str (digitStr ds)⟩
      (paramItem p.id.toNat (bcdValue ds)) := by
  have hlen : (digitStr ds).length = ds.length := by simp [digitStr]
  have hb : (bcdValue ds).length = max 4 (ds.length / 2) := by
    rw [bcdValue, packBcd_length]; simp; omega
  have hc : (numberStr2BCD (digitStr ds)).length ≤ 255 := by
    rw [numberStr2BCD_digits ds hds, hb]; omega
  have := (travels_of ((C23_table p.id .bcd).mpr h) hv
    (.bytes (env := env) (digitStr ds) (digitStr_bcd hds) (by rwa [hlen]) hc)).item
  rw [numberStr2BCD_digits ds hds, hb] at this
  exact this

/-- A string parameter longer than 255 bytes comes back cut to its length modulo 256, without an error. -/
theorem C23_long_string (env : Env) (l : UInt8) (s : Str) (hs : 256 ≤ s.length) :
    ∃ bs q j, (ParamData.mk 0x110 l (.str s)).encode env = .ok bs ∧
      ParamData.decode env ⟨bs, []⟩ 0 = .ok (q, j) ∧ q.value = .str (s.take (s.length % 256)) ∧
      q.value ≠ .str s ∧ j < bs.length := by
  have ht : argTable 0x110 = some .string := by decide
  have he : (ParamData.mk 0x110 l (.str s)).encode env =
      .ok (put32 0x110 ++ ([UInt8.ofNat s.length] ++ s)) := by
    simp [ParamData.encode, ht, PKind.encode, anyStr, writeBytes, writeByte, writeDWord, writeString]
  have hk : (UInt8.ofNat s.length).toNat = s.length % 256 := by simp [UInt8.toNat_ofNat']
  have hr : ReadsAt 0 (ParamData.decode env) (put32 0x110 ++ ([UInt8.ofNat s.length] ++ s.take (s.length % 256)))
      ⟨0x110, UInt8.ofNat s.length, .str (s.take (s.length % 256))⟩ := by
    refine .bind (readsAt_dword _ _) (.bind (readsAt_byte _ _) (.map ?_))
    unfold ParamData.decodeValue
    rw [ht, hk]
    refine .map (readsAt_string _ _ _ ?_)
    rw [List.length_take]
    have := Nat.mod_le s.length 256
    congr 1; omega
  refine ⟨_, ⟨0x110, UInt8.ofNat s.length, .str (s.take (s.length % 256))⟩,
    5 + s.length % 256, he, ?_, rfl, ?_, ?_⟩
  · have := hr [] (s.drop (s.length % 256)) [] rfl
    have e : [] ++ (put32 0x110 ++ ([UInt8.ofNat s.length] ++ s.take (s.length % 256))) ++ s.drop (s.length % 256) =
        put32 0x110 ++ ([UInt8.ofNat s.length] ++ s) := by
      simp [List.append_assoc]
    rw [e] at this
    rw [this]
    congr 2
    have := Nat.mod_le s.length 256
    simp [put32_length]; omega
  · intro h
    injection h with h
    have := congrArg List.length h
    rw [List.length_take] at this
    have := Nat.mod_lt s.length (show 0 < 256 by decide)
    omega
  · have := Nat.mod_lt s.length (show 0 < 256 by decide)
    simp [put32_length]
    omega

example : ∃ s : Str, 256 ≤ s.length := ⟨List.replicate 300 0x41, by rw [List.length_replicate]; decide⟩

/-- A BCD parameter of nine digits (here an alarm attachment setting) loses its last digit. -/
theorem C23_odd_bcd :
    ∃ bs q j, (ParamData.mk 0x32 0 (.str (digitStr [1,2,3,4,5,6,7,8,9]))).encode goEnv = .ok bs ∧
      ParamData.decode goEnv ⟨bs, []⟩ 0 = .ok (q, j) ∧ q.value = .str (digitStr [1,2,3,4,5,6,7,8]) :=
  ⟨_, _, _, rfl, rfl, by decide⟩

-- non-vacuity: a heartbeat interval of 30 s, an alarm colour word, a BCD setting of four digits
example : ItemRoundtrip goEnv ⟨0x0001, 0, .num 30⟩ ⟨0x0001, 4, .dword 30⟩ [0,0,0,1, 4, 0,0,0,30] :=
  C23_dword goEnv ⟨0x0001, 0, .num 30⟩ (by decide) 30 (Or.inr (by decide))
example : ItemRoundtrip goEnv ⟨0x0081, 0, .word 0x1234⟩ ⟨0x0081, 2, .word 0x1234⟩ [0,0,0,0x81, 2, 0x12,0x34] :=
  C23_word goEnv ⟨0x0081, 0, .word 0x1234⟩ (by decide) 0x1234 (Or.inl rfl)
example : ItemRoundtrip goEnv ⟨0x0032, 9, .str (digitStr [2,3,1,5])⟩ ⟨0x0032, 4, .str (digitStr [2,3,1,5])⟩
    [0,0,0,0x32, 4, 0xff,0xff,0x23,0x15] :=
  C23_bcd_partial goEnv ⟨0x0032, 9, .str (digitStr [2,3,1,5])⟩ (by decide) [2,3,1,5] (by decide) (by decide) (by decide) rfl

/-! ## C67 declared lengths -/

/-- Bytes a value of a type occupies when the item declares `len`. -/
def valueSize (t : PType) (len : Nat) : Nat :=
  match t with
  | .byte => 1
  | .word => 2
  | .dword => 4
  | _ => len

theorem width_kind (env : Env) (t : PType) (len : Nat) : Width (valueSize t len) ((kindOf t).decode env len) := by
  cases t with
  | byte => exact Width.bind (m := 0) width_byte fun _ => Width.pure _
  | word => exact Width.bind (m := 0) width_word fun _ => Width.pure _
  | dword => exact Width.bind (m := 0) width_dword fun _ => Width.pure _
  | bcd => exact Width.bind (m := 0) (width_bcd len) fun _ => Width.pure _
  | string =>
    exact Width.bind (m := 0) (width_bytes len) fun _ => Width.pure _
  | gbk =>
    refine Width.bind (m := 0) (Width.bind (m := 0) (width_bytes len) fun bs => ?_) fun _ => Width.pure _
    split <;> exact Width.pure _

theorem argTable_kindOf {id : UInt32} {k : PKind} (h : argTable id = some k) : ∃ t, k = kindOf t := by
  cases k
  · exact ⟨.byte, rfl⟩
  · exact ⟨.word, rfl⟩
  · exact ⟨.dword, rfl⟩
  · exact ⟨.bcd, rfl⟩
  · exact ⟨.string, rfl⟩
  · exact ⟨.gbk, rfl⟩

/-- How many bytes reading an item consumes, for every buffer: the declared length counts for texts only. -/
theorem C67_consumed (env : Env) (s : Slice) (i j : Nat) (q : ParamData)
    (h : ParamData.decode env s i = .ok (q, j)) :
    ∃ t, q.id.toNat ∈ paramIDs t ∧ j = i + 5 + valueSize t q.len.toNat := by
  unfold ParamData.decode at h
  obtain ⟨id, k1, e1, h⟩ := rd_bind_ok h
  obtain ⟨len, k2, e2, h⟩ := rd_bind_ok h
  obtain ⟨v, k3, e3, h⟩ := rd_bind_ok h
  rw [rd_pure_eq] at h
  injection h with h; injection h with h4 h5
  subst h4 h5
  have w1 := width_dword _ _ _ _ e1
  have w2 := width_byte _ _ _ _ e2
  unfold ParamData.decodeValue at e3
  cases ht : argTable id with
  | none => rw [ht] at e3; cases e3
  | some k =>
    rw [ht] at e3
    obtain ⟨t, rfl⟩ := argTable_kindOf ht
    have w3 := width_kind env t len.toNat _ _ _ _ e3
    exact ⟨t, (C23_table id t).mp ht, by simp only; omega⟩

/-- What holds of C67: texts.  Missing: BYTE, WORD and DWORD parameters, where it is false
(C67_dword_ignores_length). -/
theorem C67_texts_partial (env : Env) (s : Slice) (i j : Nat) (q : ParamData)
    (h : ParamData.decode env s i = .ok (q, j)) (t : PType) (ht : q.id.toNat ∈ paramIDs t)
    (hx : t = .bcd ∨ t = .string ∨ t = .gbk) : j = i + 5 + q.len.toNat := by
  obtain ⟨t', h1, h2⟩ := C67_consumed env s i j q h
  have e : kindOf t' = kindOf t := by
    have a := (C23_table q.id t').mpr h1
    have b := (C23_table q.id t).mpr ht
    rw [a] at b; injection b
  have : t' = t := by cases t <;> cases t' <;> first | rfl | cases e
  subst this
  rcases hx with rfl | rfl | rfl <;> exact h2

/-- The opposite of C67: a heartbeat interval declared with one byte swallows three bytes of the next item. -/
theorem C67_dword_ignores_length :
    ParamData.decodeN goEnv 2 ⟨[0,0,0,1, 1, 60, 0,0,0,0x84, 1, 2, 0, 0, 0], []⟩ 0 = .panic ∧
    ParamData.decode goEnv ⟨[0,0,0,1, 1, 60, 0,0,0,0x84, 1, 2], []⟩ 0 = .ok (⟨1, 1, .dword 0x3c000000⟩, 9) := by
  constructor <;> decide

/-! ## C24 lists -/

/-- Item by item, `ps` sent is `qs` received. -/
inductive ListRoundtrip (env : Env) : List ParamData → List ParamData → List UInt8 → Prop where
  | nil : ListRoundtrip env [] [] []
  | cons {p q ps qs bs cs} (h : ItemRoundtrip env p q bs) (t : ListRoundtrip env ps qs cs) :
      ListRoundtrip env (p :: ps) (q :: qs) (bs ++ cs)

theorem ListRoundtrip.encode {env : Env} {ps qs : List ParamData} {bs : List UInt8} (h : ListRoundtrip env ps qs bs) :
    ParamData.encodeAll env ps = .ok bs := by
  induction h with
  | nil => rfl
  | cons h _ ih => simp [ParamData.encodeAll, h.1, ih]

theorem ItemRoundtrip.reads {env : Env} {p q : ParamData} {bs : List UInt8} (h : ItemRoundtrip env p q bs) (i : Nat) :
    ReadsAt i (ParamData.decode env) bs q := by
  intro pre post slack hi
  subst hi
  exact h.2 pre post slack

theorem ListRoundtrip.reads {env : Env} {ps qs : List ParamData} {bs : List UInt8} (h : ListRoundtrip env ps qs bs)
    (i : Nat) : ReadsAt i (ParamData.decodeN env ps.length) bs qs := by
  induction h generalizing i with
  | nil => exact .pure _ _
  | cons h _ ih => exact .bind (h.reads i) (.map (ih _))

theorem ListRoundtrip.readsParams {env : Env} {ps qs : List ParamData} {bs : List UInt8}
    (h : ListRoundtrip env ps qs bs) (phone : Str) (c : UInt8) (hc : c.toNat = ps.length) (i : Nat) :
    ReadsAt i (DeviceParams.decode env phone c) bs ⟨phone, c, qs⟩ := by
  unfold DeviceParams.decode
  rw [hc]
  exact .map (h.reads i)

/-- A set-parameters message (0x8103) with a right count, framed and decoded, gives the same list; the phone is the
one of the header. -/
theorem C24_set_message_partial (env : Env) (h : Header) (hw : h.WF) (ps qs : List ParamData) (bs : List UInt8)
    (hp : ListRoundtrip env ps qs bs) (hn : ps.length ≤ 255) (hb : bs.length ≤ 1022) (c : UInt8) :
    ∃ body, SetParams.encode env ⟨c, ⟨h.phone, UInt8.ofNat ps.length, ps⟩⟩ = .ok body ∧
      body = UInt8.ofNat ps.length :: bs ∧
      FrameCarries env h body (SetParams.decode env)
        ⟨UInt8.ofNat ps.length, ⟨h.phone, UInt8.ofNat ps.length, qs⟩⟩ := by
  have hc : (UInt8.ofNat ps.length).toNat = ps.length := by rw [UInt8.toNat_ofNat']; omega
  refine ⟨[UInt8.ofNat ps.length] ++ bs, ?_, rfl, ?_⟩
  · simp [SetParams.encode, DeviceParams.encode, hp.encode, writeBytes, writeByte]
  · refine .of_reads env hw _ (by simp; omega) _ _ ?_
    exact .bind (readsAt_byte _ _) (.map (readsAt_onRest (hp.readsParams _ _ hc 0)))

/-- A parameter report (0x0104) likewise. -/
theorem C24_report_partial (env : Env) (h : Header) (hw : h.WF) (ps qs : List ParamData) (bs : List UInt8)
    (hp : ListRoundtrip env ps qs bs) (hn : ps.length ≤ 255) (hb : bs.length ≤ 1020) (serial : UInt16) (c : UInt8) :
    ∃ body, ParamsMsg.encode env ⟨serial, c, some ⟨h.phone, UInt8.ofNat ps.length, ps⟩⟩ = .ok body ∧
      body = word serial.toNat ++ UInt8.ofNat ps.length :: bs ∧
      FrameCarries env h body (ParamsMsg.decode env)
        ⟨serial, UInt8.ofNat ps.length, some ⟨h.phone, UInt8.ofNat ps.length, qs⟩⟩ := by
  have hc : (UInt8.ofNat ps.length).toNat = ps.length := by rw [UInt8.toNat_ofNat']; omega
  refine ⟨put16 serial ++ ([UInt8.ofNat ps.length] ++ bs), ?_, by rw [put16_word]; rfl, ?_⟩
  · simp [ParamsMsg.encode, DeviceParams.encode, hp.encode, writeBytes, writeByte, writeWord]
  · refine .of_reads env hw _ (by simp [put16_length]; omega) _ _ ?_
    exact .bind (readsAt_word _ _) (.bind (readsAt_byte _ _) (.map (readsAt_onRest (hp.readsParams _ _ hc 0))))

/-- Encoding leaves out every item with an unsupported id. -/
theorem encodeAll_unsupported (env : Env) (ps : List ParamData) :
    ParamData.encodeAll env ps = ParamData.encodeAll env (ps.filter fun p => (argTable p.id).isSome) := by
  induction ps with
  | nil => rfl
  | cons p ps ih =>
    cases ht : argTable p.id with
    | none =>
      simp only [List.filter_cons, ht]
      simp [ParamData.encodeAll, ParamData.encode, ht, ih]
    | some k =>
      rw [List.filter_cons, if_pos (by simp [ht])]
      unfold ParamData.encodeAll
      split
      · rw [ih]
      · exact ih
      · rfl

/-- The opposite of C24 with unsupported ids: the items are left out but still counted, so the count byte exceeds the
number of items on the wire. -/
theorem C24_count_exceeds_items (env : Env) (phone : Str) (ps : List ParamData) (bs : List UInt8)
    (hn : ps.length ≤ 255) (hu : ∃ p ∈ ps, argTable p.id = none)
    (he : DeviceParams.encode env ⟨phone, UInt8.ofNat ps.length, ps⟩ = .ok bs) :
    ∃ items, ParamData.encodeAll env (ps.filter fun p => (argTable p.id).isSome) = .ok items ∧
      ∃ c, bs = c :: items ∧ (ps.filter fun p => (argTable p.id).isSome).length < c.toNat := by
  unfold DeviceParams.encode at he
  simp only at he
  rw [encodeAll_unsupported] at he
  cases hr : ParamData.encodeAll env (ps.filter fun p => (argTable p.id).isSome) with
  | err e => rw [hr] at he; cases he
  | panic => rw [hr] at he; cases he
  | ok items =>
    rw [hr] at he
    simp only [writeByte, List.nil_append, List.singleton_append] at he
    injection he with he
    refine ⟨items, rfl, _, he.symm, ?_⟩
    have hc : (UInt8.ofNat ps.length).toNat = ps.length := by rw [UInt8.toNat_ofNat']; omega
    rw [hc]
    obtain ⟨p, hp, hpn⟩ := hu
    apply Nat.lt_of_le_of_ne (List.length_filter_le _ _)
    intro hh
    have := List.length_filter_eq_length_iff.mp hh p hp
    simp [hpn] at this

/-- Reading an item with an unsupported id panics, whatever follows: the "skip it" warning is not followed by a
return. -/
theorem C24_unsupported_item_panics (env : Env) (id : UInt32) (h : argTable id = none) (len : UInt8)
    (pre rest slack : List UInt8) :
    ParamData.decode env ⟨pre ++ dword id.toNat ++ len :: rest, slack⟩ pre.length = .panic := by
  rw [← put32_dword]
  unfold ParamData.decode
  have h1 := readsAt_dword pre.length id pre (len :: rest) slack rfl
  have h2 := readsAt_byte (pre.length + 4) len (pre ++ put32 id) rest slack (by simp [put32_length])
  simp only [List.append_assoc, List.singleton_append, put32_length] at h1 h2
  rw [rd_bind_eq, List.append_assoc, h1]
  simp only
  rw [rd_bind_eq, h2]
  simp only
  rw [rd_bind_eq]
  simp only [ParamData.decodeValue, h]
  rfl

/-- A whole message with an unsupported id: what we send for {0x0001 = 30, 0x0500 = 1, 0x0084 = 2} cannot be read
back. -/
theorem C24_unsupported_roundtrip_fails :
    ∃ body, SetParams.encode goEnv ⟨0, ⟨[], 3, [⟨0x0001, 4, .num 30⟩, ⟨0x0500, 4, .num 1⟩, ⟨0x0084, 1, .num 2⟩]⟩⟩
      = .ok body ∧ body = [3, 0,0,0,1, 4, 0,0,0,30, 0,0,0,0x84, 1, 2] ∧
      SetParams.decode goEnv (hdr2013 0x8103) ⟨body, []⟩ 0 = .panic :=
  ⟨_, rfl, by decide, by decide⟩

example : ListRoundtrip goEnv [⟨0x0001, 0, .num 30⟩, ⟨0x0084, 0, .byte 2⟩] [⟨0x0001, 4, .dword 30⟩, ⟨0x0084, 1, .byte 2⟩]
    ([0,0,0,1, 4, 0,0,0,30] ++ ([0,0,0,0x84, 1, 2] ++ [])) :=
  .cons (C23_dword goEnv ⟨0x0001, 0, .num 30⟩ (by decide) 30 (Or.inr (by decide)))
    (.cons (C23_byte goEnv ⟨0x0084, 0, .byte 2⟩ (by decide) 2 (Or.inl rfl)) .nil)

example : argTable 0x0500 = none := by decide

/-! ## C25 updating -/

/-- The value an id has in a list of parameters: the last one given for it. -/
def valueOf (ps : List ParamData) (id : UInt32) : Option ParamData := lastValue (ps.map fun p => (p.id, p)) id

/-- Updating, for every order in which the map is iterated (`ord` permutes): the ids are strictly ascending; every
id present before holds the last new item given for it or else its last old one; no id appears or disappears. -/
theorem C25_update (ord : List ParamData → List ParamData) (hord : ∀ m x, x ∈ ord m ↔ x ∈ m)
    (hnd : ∀ m, m.Pairwise (fun a b => a.id ≠ b.id) → (ord m).Pairwise (fun a b => a.id ≠ b.id))
    (p newP : DeviceParams) (x : ParamData) :
    (p.update ord newP).params.Pairwise (fun a b => a.id < b.id) ∧
    (x ∈ (p.update ord newP).params ↔
      (valueOf p.params x.id).isSome ∧
        (valueOf newP.params x.id = some x ∨ (valueOf newP.params x.id = none ∧ valueOf p.params x.id = some x))) ∧
    (p.update ord newP).phone = p.phone := by
  have h0 : DistinctIDs ([] : List ParamData) := List.Pairwise.nil
  have h1 := fold_set_distinct p.params [] h0
  have h2 := fold_upd_distinct newP.params _ h1
  refine ⟨sortById_asc _ (hnd _ h2), ?_, rfl⟩
  unfold DeviceParams.update
  simp only
  rw [sortById_mem, hord, fold_upd_mem, pmapHas_iff]
  have hv : ∀ l, valueOf l x.id = lastValue (idPairs l) x.id := fun _ => rfl
  rw [hv, hv]
  have hmem : ∀ y, y ∈ p.params.foldl pmapSet [] ↔ lastValue (idPairs p.params) y.id = some y := by
    intro y; rw [fold_set_mem]; simp
  have hex : (∃ q ∈ p.params.foldl pmapSet [], q.id = x.id) ↔ (lastValue (idPairs p.params) x.id).isSome = true := by
    constructor
    · rintro ⟨q, hq, e⟩
      have := (hmem q).mp hq
      rw [e] at this
      rw [this]; rfl
    · intro h
      obtain ⟨q, hq⟩ := Option.isSome_iff_exists.mp h
      have e := lastValue_id hq
      exact ⟨q, (hmem q).mpr (by rw [e]; exact hq), e⟩
  rw [hex, hmem]
  constructor
  · rintro (⟨a, b⟩ | ⟨a, b⟩)
    · exact ⟨a, Or.inl b⟩
    · exact ⟨by rw [b]; rfl, Or.inr ⟨a, b⟩⟩
  · rintro ⟨a, b | ⟨b, c⟩⟩
    · exact Or.inl ⟨a, b⟩
    · exact Or.inr ⟨b, c⟩

/-- The count is the number of items, as long as they fit the byte. -/
theorem C25_count (ord : List ParamData → List ParamData) (p newP : DeviceParams)
    (h : (p.update ord newP).params.length ≤ 255) :
    (p.update ord newP).cnt.toNat = (p.update ord newP).params.length := by
  have e : (p.update ord newP).cnt = UInt8.ofNat (p.update ord newP).params.length := rfl
  rw [e, UInt8.toNat_ofNat']
  omega

/-- The result does not depend on the iteration order of the map. -/
theorem C25_order_irrelevant (ord ord' : List ParamData → List ParamData) (hord : ∀ m x, x ∈ ord m ↔ x ∈ m)
    (hord' : ∀ m x, x ∈ ord' m ↔ x ∈ m)
    (hnd : ∀ m, m.Pairwise (fun a b => a.id ≠ b.id) → (ord m).Pairwise (fun a b => a.id ≠ b.id))
    (hnd' : ∀ m, m.Pairwise (fun a b => a.id ≠ b.id) → (ord' m).Pairwise (fun a b => a.id ≠ b.id))
    (p newP : DeviceParams) : p.update ord newP = p.update ord' newP := by
  have e : (p.update ord newP).params = (p.update ord' newP).params := by
    refine asc_unique (C25_update ord hord hnd p newP ⟨0, 0, .other⟩).1
      (C25_update ord' hord' hnd' p newP ⟨0, 0, .other⟩).1 (fun x => ?_)
    rw [(C25_update ord hord hnd p newP x).2.1, (C25_update ord' hord' hnd' p newP x).2.1]
  have e1 : (p.update ord newP).cnt = UInt8.ofNat (p.update ord newP).params.length := rfl
  have e2 : (p.update ord' newP).cnt = UInt8.ofNat (p.update ord' newP).params.length := rfl
  have e3 : (p.update ord newP).phone = (p.update ord' newP).phone := rfl
  rw [e, ← e2] at e1
  cases hh : p.update ord newP; cases hh' : p.update ord' newP
  simp_all

example : (DeviceParams.update List.reverse ⟨[], 2, [⟨9, 4, .dword 1⟩, ⟨3, 4, .dword 2⟩, ⟨9, 4, .dword 5⟩]⟩
    ⟨[], 2, [⟨3, 4, .num 7⟩, ⟨4, 4, .num 8⟩, ⟨3, 4, .num 6⟩]⟩) =
    ⟨[], 2, [⟨3, 4, .num 6⟩, ⟨9, 4, .dword 5⟩]⟩ := by decide
example : (∀ (m : List ParamData) x, x ∈ m.reverse ↔ x ∈ m) ∧
    (∀ m : List ParamData, m.Pairwise (fun a b => a.id ≠ b.id) → m.reverse.Pairwise (fun a b => a.id ≠ b.id)) :=
  ⟨fun _ _ => List.mem_reverse, fun _ h => List.pairwise_reverse.mpr (h.imp fun hh => hh.symm)⟩

end JT808
