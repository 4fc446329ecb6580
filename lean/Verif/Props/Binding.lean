import Verif.Model.Binding
import Verif.Props.Initiated
import Verif.Props.Answers
import Verif.Props.Shown
/-
C113: a parameter-setting request is taken at its word.
-/
namespace JT808
open Spec

namespace Spec

/-- The ways to write a small letter: itself, the capital letter, for s also the long s, for k also the Kelvin sign. -/
def spellings (c : UInt8) : List (List UInt8) :=
  [c] :: (((utf8 "abcdefghijklmnopqrstuvwxyz").zip (utf8 "ABCDEFGHIJKLMNOPQRSTUVWXYZ")).lookup c).toList.map ([·]) ++
    (if [c] = utf8 "s" then [utf8 "\u017f"] else []) ++ (if [c] = utf8 "k" then [utf8 "\u212a"] else [])

/-- The key is the name, given in small letters, in some spelling. -/
def reads : List UInt8 → List UInt8 → Bool
  | [], key => key.isEmpty
  | c :: name, key => (spellings c).any fun sp => sp.isPrefixOf key && reads name (key.drop sp.length)

/-- What an object says under a name, given in lower case. -/
def said (name : String) (kvs : List (Str × Json)) : List Json :=
  (kvs.filter fun e => reads (utf8 name) e.1).map (·.2)

/-- A number or text as a parameter value; of a number with a fraction the whole part. -/
inductive Means : Json → PV → Prop
  | num (n : Nat) : Means (.num n) (.num n)
  | frac (n : Nat) : Means (.frac n) (.num n)
  | str (s : Str) : Means (.str s) (.str s)

/-- An object with an id and a value, each once; a length may be given, and anything under other names. -/
def SaysParam (j : Json) (p : ParamData) : Prop :=
  ∃ kvs v, j = .obj kvs ∧ said "paramid" kvs = [.num p.id.toNat] ∧
    (said "paramlen" kvs = [] ∧ p.len = 0 ∨ said "paramlen" kvs = [.num p.len.toNat]) ∧
    said "paramvalue" kvs = [v] ∧ Means v p.value

/-- A list of such objects. -/
inductive SaysParams : List Json → List ParamData → Prop
  | nil : SaysParams [] []
  | cons {j js p ps} : SaysParam j p → SaysParams js ps → SaysParams (j :: js) (p :: ps)

/-- The documented body of a parameter-setting request: a count and a list. -/
def Says (b : Body) (cnt : UInt8) (ps : List ParamData) : Prop :=
  ∃ kvs js, b = .json (.obj kvs) ∧ said "paramcnt" kvs = [.num cnt.toNat] ∧ said "params" kvs = [.arr js] ∧
    SaysParams js ps

/-- A body that says nothing about parameters: a form, null, or an object with neither of the two keys. -/
def SaysNothing : Body → Prop
  | .form => True
  | .json .null => True
  | .json (.obj kvs) => said "paramcnt" kvs = [] ∧ said "params" kvs = []
  | _ => False

/-- A body that is no JSON object: cut off, or some other JSON value (but null). -/
def NoObject : Body → Prop
  | .broken => True
  | .json (.bool _) => True
  | .json (.num _) => True
  | .json (.frac _) => True
  | .json (.str _) => True
  | .json (.arr _) => True
  | _ => False

end Spec

/-- A small letter. -/
def IsSmall (c : UInt8) : Prop := 0x61 ≤ c.toNat ∧ c.toNat ≤ 0x7a

instance (c : UInt8) : Decidable (IsSmall c) := inferInstanceAs (Decidable (_ ∧ _))

theorem spellings_small (c : UInt8) (h : IsSmall c) : spellings c = [[c], [c - 0x20]] ++
    ((if c = 0x73 then [[0xc5, 0xbf]] else []) ++ (if c = 0x6b then [[0xe2, 0x84, 0xaa]] else [])) := by
  have key : ∀ n : Fin 256, IsSmall (UInt8.ofNat n.1) → spellings (UInt8.ofNat n.1) = [[UInt8.ofNat n.1],
    [UInt8.ofNat n.1 - 0x20]] ++ ((if UInt8.ofNat n.1 = 0x73 then [[0xc5, 0xbf]] else []) ++
      (if UInt8.ofNat n.1 = 0x6b then [[0xe2, 0x84, 0xaa]] else [])) := by decide +kernel
  have := key ⟨c.toNat, c.toNat_lt⟩
  simp only [UInt8.ofNat_toNat] at this
  exact this h

theorem lowerByte_small (c : UInt8) (h : IsSmall c) (b : UInt8) : (b = c ∨ b = c - 0x20) ↔ lowerByte b = c := by
  have key : ∀ n : Fin 256, ∀ m : Fin 256, IsSmall (UInt8.ofNat n.1) → ((UInt8.ofNat m.1 = UInt8.ofNat n.1 ∨
    UInt8.ofNat m.1 = UInt8.ofNat n.1 - 0x20) ↔ lowerByte (UInt8.ofNat m.1) = UInt8.ofNat n.1) := by decide +kernel
  have := key ⟨c.toNat, c.toNat_lt⟩ ⟨b.toNat, b.toNat_lt⟩
  simp only [UInt8.ofNat_toNat] at this
  exact this h

theorem foldKey_view (key : List UInt8) : key = [] ∨ (∃ k, key = 0xc5 :: 0xbf :: k ∧ foldKey key = 0x73 :: foldKey k) ∨
    (∃ k, key = 0xe2 :: 0x84 :: 0xaa :: k ∧ foldKey key = 0x6b :: foldKey k) ∨
    (∃ b k, key = b :: k ∧ foldKey key = lowerByte b :: foldKey k ∧ [0xc5, 0xbf].isPrefixOf key = false ∧
      [0xe2, 0x84, 0xaa].isPrefixOf key = false) := by
  generalize hx : foldKey key = x
  unfold foldKey at hx
  subst hx
  split
  · exact .inl rfl
  · exact .inr (.inl ⟨_, rfl, rfl⟩)
  · exact .inr (.inr (.inl ⟨_, rfl, rfl⟩))
  · rename_i b k n1 n2
    refine .inr (.inr (.inr ⟨b, k, rfl, rfl, ?_, ?_⟩))
    · refine Bool.eq_false_iff.2 fun h => ?_
      obtain ⟨r, hr⟩ := List.isPrefixOf_iff_prefix.1 h
      injection hr with h1 h2
      exact n1 r h1.symm h2.symm
    · refine Bool.eq_false_iff.2 fun h => ?_
      obtain ⟨r, hr⟩ := List.isPrefixOf_iff_prefix.1 h
      injection hr with h1 h2
      exact n2 r h1.symm h2.symm

theorem reads_fold (name key : List UInt8) (h : ∀ c ∈ name, IsSmall c) : reads name key = decide (foldKey key = name) := by
  induction name generalizing key with
  | nil =>
    cases key with
    | nil => rfl
    | cons b k =>
      unfold foldKey
      split <;> simp_all [reads]
  | cons c name ih =>
    have hc := h c List.mem_cons_self
    have ih := fun key => ih key fun x hx => h x (List.mem_cons_of_mem _ hx)
    have e1 : c ≠ 0xc5 ∧ c ≠ 0xe2 ∧ c - 0x20 ≠ 0xc5 ∧ c - 0x20 ≠ 0xe2 := by
      refine ⟨?_, ?_, ?_, ?_⟩
      · rintro rfl; revert hc; decide
      · rintro rfl; revert hc; decide
      · intro e
        have := (lowerByte_small c hc 0xc5).1 (.inr e.symm)
        rw [← this] at hc; revert hc; decide
      · intro e
        have := (lowerByte_small c hc 0xe2).1 (.inr e.symm)
        rw [← this] at hc; revert hc; decide
    unfold reads
    rw [spellings_small c hc]
    rcases foldKey_view key with rfl | ⟨k, rfl, hf⟩ | ⟨k, rfl, hf⟩ | ⟨b, k, rfl, hf, p1, p2⟩
    · by_cases h1 : c = 0x73 <;> by_cases h2 : c = 0x6b <;> simp [h1, h2, foldKey]
    · rw [hf]
      by_cases h1 : c = 0x73
      · subst h1; simp [ih, List.isPrefixOf]
      · by_cases h2 : c = 0x6b
        · subst h2; simp [ih]
        · simp [h1, h2, e1, Ne.symm h1]
    · rw [hf]
      by_cases h1 : c = 0x73
      · subst h1; simp [ih]
      · by_cases h2 : c = 0x6b
        · subst h2; simp [ih, List.isPrefixOf]
        · simp [h1, h2, e1, Ne.symm h2]
    · rw [hf]
      have hl := lowerByte_small c hc b
      have e2 : (([[c], [c - 0x20]] ++ ((if c = 0x73 then [[0xc5, 0xbf]] else []) ++
          (if c = 0x6b then [[0xe2, 0x84, 0xaa]] else []))).any fun sp =>
          sp.isPrefixOf (b :: k) && reads name ((b :: k).drop sp.length)) =
          (decide (b = c ∨ b = c - 0x20) && reads name k) := by
        rw [List.any_append, List.any_append]
        have a1 : ((if c = 0x73 then [[0xc5, 0xbf]] else []).any fun sp : List UInt8 =>
            sp.isPrefixOf (b :: k) && reads name ((b :: k).drop sp.length)) = false := by
          split
          · rw [List.any_cons, p1]; rfl
          · rfl
        have a2 : ((if c = 0x6b then [[0xe2, 0x84, 0xaa]] else []).any fun sp : List UInt8 =>
            sp.isPrefixOf (b :: k) && reads name ((b :: k).drop sp.length)) = false := by
          split
          · rw [List.any_cons, p2]; rfl
          · rfl
        rw [a1, a2]
        by_cases q1 : b = c
        · simp [q1]
        · by_cases q2 : b = c - 0x20
          · simp [q2]
          · simp [q1, q2, Ne.symm q1, Ne.symm q2]
      rw [e2, ih]
      by_cases hh : lowerByte b = c
      · simp [hh, hl.2 hh]
      · simp [hh, mt hl.1 hh]

/-- The values under a key. -/
def valsOf (name : Str) (kvs : List (Str × Json)) : List Json :=
  (kvs.filter fun e => decide (foldKey e.1 = name)).map (·.2)

theorem said_eq (name : String) (key : Str) (h : utf8 name = key ∧ ∀ c ∈ key, IsSmall c) (kvs : List (Str × Json)) :
    said name kvs = valsOf key kvs := by
  unfold said valsOf
  simp only [h.1, reads_fold key _ h.2]

theorem valsOf_cons (name : Str) (e : Str × Json) (kvs : List (Str × Json)) :
    valsOf name (e :: kvs) = if foldKey e.1 = name then e.2 :: valsOf name kvs else valsOf name kvs := by
  unfold valsOf
  by_cases h : foldKey e.1 = name <;> simp [h]

theorem toUInt8_bad (old old' : UInt8) (v : Json) : (v.toUInt8 old).2 = (v.toUInt8 old').2 := by
  cases v <;> simp only [Json.toUInt8]
  split <;> rfl

theorem toUInt32_bad (old old' : UInt32) (v : Json) : (v.toUInt32 old).2 = (v.toUInt32 old').2 := by
  cases v <;> simp only [Json.toUInt32]
  split <;> rfl

/-- The fields of a parameter after its keys. -/
theorem paramKeys (kvs : List (Str × Json)) (p : ParamData) :
    (p.bindKeys kvs).1.id = (valsOf keyParamId kvs).foldl (fun o v => (v.toUInt32 o).1) p.id ∧
    (p.bindKeys kvs).1.len = (valsOf keyParamLen kvs).foldl (fun o v => (v.toUInt8 o).1) p.len ∧
    (p.bindKeys kvs).1.value = (valsOf keyParamValue kvs).foldl (fun _ v => v.toAny) p.value ∧
    (p.bindKeys kvs).2 = ((valsOf keyParamId kvs).any (fun v => (v.toUInt32 0).2) ||
      (valsOf keyParamLen kvs).any (fun v => (v.toUInt8 0).2)) := by
  induction kvs generalizing p with
  | nil => exact ⟨rfl, rfl, rfl, rfl⟩
  | cons e kvs ih =>
    obtain ⟨i1, i2, i3, i4⟩ := ih (p.bindKey e.1 e.2).1
    simp only [ParamData.bindKeys, i1, i2, i3, i4, valsOf_cons]
    have n1 : keyParamLen ≠ keyParamId := by decide
    have n2 : keyParamValue ≠ keyParamId := by decide
    have n3 : keyParamValue ≠ keyParamLen := by decide
    unfold ParamData.bindKey
    by_cases h1 : foldKey e.1 = keyParamId
    · simp [h1, n1.symm, n2.symm, toUInt32_bad p.id 0, Bool.or_assoc]
    · by_cases h2 : foldKey e.1 = keyParamLen
      · simp [h2, n1, n3.symm, toUInt8_bad p.len 0, Bool.or_left_comm]
      · by_cases h3 : foldKey e.1 = keyParamValue
        · simp [h3, n2, n3]
        · simp [h1, h2, h3]

theorem saysParam_bind {j : Json} {p : ParamData} (h : SaysParam j p) : j.toParam none = (some p, false) := by
  obtain ⟨kvs, v, rfl, h1, h2, h3, h4⟩ := h
  rw [said_eq _ keyParamId (by decide +kernel)] at h1
  rw [said_eq _ keyParamLen (by decide +kernel)] at h2
  rw [said_eq _ keyParamValue (by decide +kernel)] at h3
  obtain ⟨i1, i2, i3, i4⟩ := paramKeys kvs ⟨0, 0, .other⟩
  simp only [Json.toParam, Option.getD_none]
  rw [h1] at i1 i4
  rw [h3] at i3
  have hid : p.id.toNat < 4294967296 := p.id.toNat_lt
  have hlen : p.len.toNat < 256 := p.len.toNat_lt
  simp only [List.foldl, Json.toUInt32, if_pos hid, UInt32.ofNat_toNat] at i1
  have hv : v.toAny = p.value := by
    generalize p.value = w at h4
    cases h4 <;> rfl
  simp only [List.foldl, hv] at i3
  have e2 : (ParamData.bindKeys ⟨0, 0, .other⟩ kvs).1.len = p.len ∧ (ParamData.bindKeys ⟨0, 0, .other⟩ kvs).2 = false := by
    rcases h2 with ⟨h2, hl⟩ | h2
    · rw [h2] at i2 i4
      refine ⟨by rw [i2, hl]; rfl, ?_⟩
      rw [i4]; simp [Json.toUInt32, hid]
    · rw [h2] at i2 i4
      refine ⟨by rw [i2]; simp [Json.toUInt8, hlen], ?_⟩
      rw [i4]; simp [Json.toUInt32, hid, Json.toUInt8, hlen]
  generalize ParamData.bindKeys ⟨0, 0, .other⟩ kvs = x at *
  obtain ⟨⟨a, b, c⟩, f⟩ := x
  obtain ⟨pa, pb, pc⟩ := p
  simp only at i1 i3 e2 hv ⊢
  rw [i1, i3, e2.1, e2.2]

theorem saysParams_bind {js : List Json} {ps : List ParamData} (h : SaysParams js ps) :
    bindItems [] js = (ps.map some, false) := by
  induction h with
  | nil => rfl
  | cons h _ ih => simp [bindItems, saysParam_bind h, ih]

/-- The two fields of the request after its keys. -/
theorem boundKeys (kvs : List (Str × Json)) (d : Bound) :
    (d.bindKeys kvs).1.cnt = (valsOf keyParamCnt kvs).foldl (fun o v => (v.toUInt8 o).1) d.cnt ∧
    (d.bindKeys kvs).1.params = (valsOf keyParams kvs).foldl (fun o v => (v.toParams o).1) d.params ∧
    ((valsOf keyParams kvs).length ≤ 1 → (d.bindKeys kvs).2 = ((valsOf keyParamCnt kvs).any (fun v => (v.toUInt8 0).2) ||
      (valsOf keyParams kvs).any (fun v => (v.toParams d.params).2))) := by
  induction kvs generalizing d with
  | nil => exact ⟨rfl, rfl, fun _ => rfl⟩
  | cons e kvs ih =>
    obtain ⟨i1, i2, i3⟩ := ih (d.bindKey e.1 e.2).1
    simp only [Bound.bindKeys, i1, i2, valsOf_cons]
    have n1 : keyParams ≠ keyParamCnt := by decide
    revert i3
    unfold Bound.bindKey
    by_cases h1 : foldKey e.1 = keyParamCnt
    · simp only [h1, if_true, n1.symm, if_false, List.foldl_cons, true_and]
      intro i3 hl
      rw [i3 hl]
      simp [toUInt8_bad d.cnt 0, Bool.or_assoc]
    · by_cases h2 : foldKey e.1 = keyParams
      · simp only [h2, n1, if_true, if_false, List.foldl_cons, true_and, List.length_cons]
        intro i3 hl
        have hz : valsOf keyParams kvs = [] := List.eq_nil_of_length_eq_zero (by omega)
        rw [i3 (by omega), hz]
        simp [Bool.or_comm]
      · simp only [h1, h2, if_false, true_and]
        intro i3 hl
        rw [i3 hl]; simp

/-- A request in the documented form, its keys in any order and of any case and beside any other keys, is bound to the
count and the list it says. -/
theorem C113_bound (b : Body) (cnt : UInt8) (ps : List ParamData) (h : Says b cnt ps) :
    b.bound = ⟨[], cnt, ps⟩ ∧ b.bad = false := by
  obtain ⟨kvs, js, rfl, h1, h2, h3⟩ := h
  rw [said_eq _ keyParamCnt (by decide +kernel)] at h1
  rw [said_eq _ keyParams (by decide +kernel)] at h2
  obtain ⟨i1, i2, i3⟩ := boundKeys kvs ⟨0, []⟩
  have hc : cnt.toNat < 256 := cnt.toNat_lt
  rw [h1] at i1 i3
  rw [h2] at i2 i3
  have hb := saysParams_bind h3
  simp only [List.foldl, Json.toUInt8, if_pos hc, UInt8.ofNat_toNat] at i1
  simp only [List.foldl, Json.toParams, hb] at i2
  have i3 := i3 (by simp)
  simp [Json.toUInt8, hc, Json.toParams, hb] at i3
  constructor
  · simp only [Body.bound, Body.bind, Bound.toParams, i1, i2, List.map_map]
    congr 1
    exact List.map_id ps
  · exact i3

theorem saysNothing_bound {b : Body} (h : SaysNothing b) : b.bound = ⟨[], 0, []⟩ ∧ b.bad = false := by
  match b, h with
  | .form, _ => exact ⟨rfl, rfl⟩
  | .json .null, _ => exact ⟨rfl, rfl⟩
  | .json (.obj kvs), h =>
    obtain ⟨h1, h2⟩ := h
    rw [said_eq _ keyParamCnt (by decide +kernel)] at h1
    rw [said_eq _ keyParams (by decide +kernel)] at h2
    obtain ⟨i1, i2, i3⟩ := boundKeys kvs ⟨0, []⟩
    rw [h1] at i1 i3
    rw [h2] at i2 i3
    have i3 := i3 (by simp)
    simp at i1 i2 i3
    constructor
    · simp [Body.bound, Body.bind, Bound.toParams, i1, i2]
    · exact i3

theorem noObject_bound {b : Body} (h : NoObject b) : b.bound = ⟨[], 0, []⟩ ∧ b.bad = true := by
  match b, h with
  | .broken, _ => exact ⟨rfl, rfl⟩
  | .json (.bool _), _ => exact ⟨rfl, rfl⟩
  | .json (.num _), _ => exact ⟨rfl, rfl⟩
  | .json (.frac _), _ => exact ⟨rfl, rfl⟩
  | .json (.str _), _ => exact ⟨rfl, rfl⟩
  | .json (.arr _), _ => exact ⟨rfl, rfl⟩

/-- What holds of C113: a request in the documented form with a right count, for a registered terminal that is not a 2019
one, has a session and whose parameters survive encoding, is answered 200 and reaches the terminal as that list.
Missing: bodies that say something else (C113_nothing_said, C113_no_object, C113_wrong_count, C113_null). -/
theorem C113_put_partial (env : Env) (now : Civil) (evs : List Ev) (p : Str) (d : Device) (c : Conn)
    (hd : (Sys.start.run env evs).1.st.look p = some d) (hv : d.ver ≠ .v2019) (hp : PhoneWF d.ver p)
    (hs : (Sys.start.run env evs).1.st.session d.sessionID = some c) (b : Body) (cnt : UInt8) (ps qs : List ParamData)
    (hsay : Says b cnt ps) (hcnt : cnt.toNat = ps.length) (bs : List UInt8) (hr : ListRoundtrip env ps qs bs)
    (hb : bs.length ≤ 1022) :
    ∃ f h, ((Sys.start.run env evs).1.step env (.httpSet p b.bound b.bad none)).2 = ⟨some (c, f), false, some 200⟩ ∧
      Holds env now f h (.m8103 ⟨cnt, ⟨p, cnt, qs⟩⟩) := by
  obtain ⟨h1, h2⟩ := C113_bound b cnt ps hsay
  have hlt : cnt.toNat < 256 := cnt.toNat_lt
  have := C57_put_partial env now evs p d c hd hv hp hs ps qs bs hr (by omega) hb []
  have hc : UInt8.ofNat ps.length = cnt := by rw [← hcnt]; exact UInt8.ofNat_toNat
  rw [hc] at this
  rw [h1, h2]
  exact this

/-- A setting is sent whatever ShouldBind returned. -/
theorem sends_set {env : Env} {evs : List Ev} {p : Str} {d : Device} {c : Conn}
    (hd : (Sys.start.run env evs).1.st.look p = some d)
    (hs : (Sys.start.run env evs).1.st.session d.sessionID = some c) (bad : Bool) (bound : DeviceParams) (body : List UInt8)
    (hb : SetParams.encode env ⟨0, bound⟩ = .ok body) :
    ((Sys.start.run env evs).1.step env (.httpSet p bound bad none)).2 = ⟨some (c, encodeFrame (writeHeader
      (genMsgHeader p d.ver d.protoVer 0x8103 ((Sys.start.run env evs).1.nextSerialOn c)) body)), false,
      some (if bad then 400 else 200)⟩ := by
  have hi := reachable_inv env evs
  have ha := ((reachable_sess env evs).served _ _ hs).2
  obtain ⟨r, hr, rfl⟩ := Store.look_some.1 hd
  have hp : ((Sys.start.run env evs).1.st.heap r).phone = p := (hi.1.phoneOK p r hr).2.1
  have hc : ¬ (Sys.start.run env evs).1.crashed = true := by rw [hi.2]; simp
  unfold Sys.step
  rw [if_neg hc]
  simp only [Store.apiSet, Store.devByPhone, hr]
  have e : ((Sys.start.run env evs).1.st.takeSerial c).1.session c.addr = some c := by rw [ha]; exact hs
  simp only [Store.apiSend, hs, Store.serverSend, e, Out.encode, Msg.encodeBody, hb, hp]
  cases bad <;> rfl

/-- An empty setting, as the terminal gets it. -/
theorem empty_setting {env : Env} (now : Civil) {ver : Ver} (hv : ver ≠ .v2019) (pv : UInt8) {p : Str} (hp : PhoneWF ver p)
    (n : UInt16) : ∃ h, Holds env now (encodeFrame (writeHeader (genMsgHeader p ver pv 0x8103 n) [0])) h
      (.m8103 ⟨0, ⟨p, 0, []⟩⟩) := by
  obtain ⟨slack, e⟩ := decode_generated env hv pv hp 0x8103 n [0] (by decide)
  exact ⟨_, _, .t8103, _, e, rfl, rfl, rfl, rfl⟩

/-- The opposite of C113: a request that says nothing about parameters, for instance because its content type is not
application/json or its keys are misspelt, is answered 200, and an empty setting is sent to the terminal. -/
theorem C113_nothing_said (env : Env) (now : Civil) (evs : List Ev) (p : Str) (d : Device) (c : Conn)
    (hd : (Sys.start.run env evs).1.st.look p = some d) (hv : d.ver ≠ .v2019) (hp : PhoneWF d.ver p)
    (hs : (Sys.start.run env evs).1.st.session d.sessionID = some c) (b : Body) (hb : SaysNothing b) :
    ∃ f h, ((Sys.start.run env evs).1.step env (.httpSet p b.bound b.bad none)).2 = ⟨some (c, f), false, some 200⟩ ∧
      Holds env now f h (.m8103 ⟨0, ⟨p, 0, []⟩⟩) := by
  obtain ⟨h1, h2⟩ := saysNothing_bound hb
  obtain ⟨h, hh⟩ := empty_setting (env := env) now hv d.protoVer hp ((Sys.start.run env evs).1.nextSerialOn c)
  rw [h1, h2]
  exact ⟨_, h, sends_set hd hs false _ [0] rfl, hh⟩

/-- The opposite of C113: a request that is no JSON object is refused with 400, and an empty setting is sent to the
terminal all the same. -/
theorem C113_no_object (env : Env) (now : Civil) (evs : List Ev) (p : Str) (d : Device) (c : Conn)
    (hd : (Sys.start.run env evs).1.st.look p = some d) (hv : d.ver ≠ .v2019) (hp : PhoneWF d.ver p)
    (hs : (Sys.start.run env evs).1.st.session d.sessionID = some c) (b : Body) (hb : NoObject b) :
    ∃ f h, ((Sys.start.run env evs).1.step env (.httpSet p b.bound b.bad none)).2 = ⟨some (c, f), false, some 400⟩ ∧
      Holds env now f h (.m8103 ⟨0, ⟨p, 0, []⟩⟩) := by
  obtain ⟨h1, h2⟩ := noObject_bound hb
  obtain ⟨h, hh⟩ := empty_setting (env := env) now hv d.protoVer hp ((Sys.start.run env evs).1.nextSerialOn c)
  rw [h1, h2]
  exact ⟨_, h, sends_set hd hs true _ [0] rfl, hh⟩

theorem ListRoundtrip.split {env : Env} {ps qs : List ParamData} {bs : List UInt8} (h : ListRoundtrip env ps qs bs) (n : Nat)
    (hn : n ≤ ps.length) : ∃ b1 b2, bs = b1 ++ b2 ∧ ListRoundtrip env (ps.take n) (qs.take n) b1 := by
  induction h generalizing n with
  | nil => exact ⟨[], [], rfl, by simpa using ListRoundtrip.nil⟩
  | cons h t ih =>
    cases n with
    | zero => exact ⟨[], _, rfl, by simpa using ListRoundtrip.nil⟩
    | succ n =>
      obtain ⟨b1, b2, e, t'⟩ := ih n (by simpa using hn)
      exact ⟨_ ++ b1, b2, by rw [e]; simp, .cons h t'⟩

/-- The opposite of C113 for a count that is too small: the request is answered 200, and the terminal takes only as many
parameters from the front of the list. -/
theorem C113_wrong_count (env : Env) (now : Civil) (evs : List Ev) (p : Str) (d : Device) (c : Conn)
    (hd : (Sys.start.run env evs).1.st.look p = some d) (hv : d.ver ≠ .v2019) (hp : PhoneWF d.ver p)
    (hs : (Sys.start.run env evs).1.st.session d.sessionID = some c) (b : Body) (cnt : UInt8) (ps qs : List ParamData)
    (hsay : Says b cnt ps) (hcnt : cnt.toNat < ps.length) (bs : List UInt8) (hr : ListRoundtrip env ps qs bs)
    (hb : bs.length ≤ 1022) :
    ∃ f h, ((Sys.start.run env evs).1.step env (.httpSet p b.bound b.bad none)).2 = ⟨some (c, f), false, some 200⟩ ∧
      Holds env now f h (.m8103 ⟨cnt, ⟨p, cnt, qs.take cnt.toNat⟩⟩) := by
  obtain ⟨h1, h2⟩ := C113_bound b cnt ps hsay
  have he : SetParams.encode env ⟨0, ⟨[], cnt, ps⟩⟩ = .ok (cnt :: bs) := by
    simp [SetParams.encode, DeviceParams.encode, hr.encode, writeBytes, writeByte]
  rw [h1, h2]
  obtain ⟨slack, e⟩ := decode_generated env hv d.protoVer hp 0x8103 ((Sys.start.run env evs).1.nextSerialOn c) (cnt :: bs)
    (by simp; omega)
  obtain ⟨b1, b2, rfl, hr'⟩ := hr.split cnt.toNat (by omega)
  have hl : (ps.take cnt.toNat).length = cnt.toNat := by simp; omega
  have rd : ReadsAt 0 (SetParams.decode env (intendedHeader d.ver d.protoVer p 0x8103
      ((Sys.start.run env evs).1.nextSerialOn c) (cnt :: (b1 ++ b2)).length)) ([cnt] ++ b1)
      ⟨cnt, ⟨p, cnt, qs.take cnt.toNat⟩⟩ :=
    .bind (readsAt_byte _ _) (.map (readsAt_onRest (hr'.readsParams p cnt hl.symm 0)))
  have := rd [] b2 slack rfl
  refine ⟨_, _, sends_set hd hs false _ _ he, _, .t8103, 0 + ([cnt] ++ b1).length, e, rfl, rfl, rfl, ?_⟩
  show Rd.bind (SetParams.decode env _) _ _ 0 = _
  unfold Rd.bind
  simp only [List.nil_append, List.cons_append] at this
  rw [this]
  rfl

theorem bindKeys_fromJSON (kvs : List (Str × Json)) {p : ParamData} (h : FromJSON p.value) :
    FromJSON (p.bindKeys kvs).1.value := by
  induction kvs generalizing p with
  | nil => exact h
  | cons e kvs ih =>
    have : FromJSON (p.bindKey e.1 e.2).1.value := by
      unfold ParamData.bindKey
      split
      · exact h
      · split
        · exact h
        · split
          · simp only; cases e.2 <;> trivial
          · exact h
    exact ih this

/-- The elements so far come from JSON. -/
def AllFromJSON (l : List (Option ParamData)) : Prop := ∀ q, some q ∈ l → FromJSON q.value

theorem toParam_fromJSON (j : Json) {old : Option ParamData} (ho : ∀ q, old = some q → FromJSON q.value) (q : ParamData)
    (h : (j.toParam old).1 = some q) : FromJSON q.value := by
  have hd : FromJSON (old.getD ⟨0, 0, .other⟩).value := by
    cases old with
    | none => trivial
    | some q => exact ho q rfl
  cases j with
  | obj kvs =>
    simp only [Json.toParam, Option.some.injEq] at h
    rw [← h]
    exact bindKeys_fromJSON kvs hd
  | null => cases h
  | _ =>
    simp only [Json.toParam, Option.some.injEq] at h
    rw [← h]; exact hd

theorem bindItems_fromJSON (js : List Json) (old : List (Option ParamData)) (ho : AllFromJSON old) :
    AllFromJSON (bindItems old js).1 := by
  induction js generalizing old with
  | nil => intro q h; simp [bindItems] at h
  | cons j js ih =>
    intro q h
    simp only [bindItems, List.mem_cons] at h
    rcases h with h | h
    · refine toParam_fromJSON j (fun q hq => ?_) q h.symm
      cases old with
      | nil => cases hq
      | cons x old => exact ho q (by simp only [List.head?_cons, Option.getD_some] at hq; rw [hq]; exact List.mem_cons_self)
    · exact ih _ (fun q hq => ho q (List.mem_of_mem_tail hq)) q h

theorem toParams_fromJSON (j : Json) (old : List (Option ParamData)) (ho : AllFromJSON old) :
    AllFromJSON (j.toParams old).1 := by
  cases j with
  | null => intro q h; cases h
  | arr js => exact bindItems_fromJSON js old ho
  | _ => exact ho

theorem bindItems_null (js : List Json) (h : Json.null ∈ js) (old : List (Option ParamData)) : none ∈ (bindItems old js).1 := by
  induction js generalizing old with
  | nil => cases h
  | cons j js ih =>
    simp only [bindItems, List.mem_cons] at h ⊢
    rcases h with rfl | h
    · exact .inl rfl
    · exact .inr (ih h _)

theorem param_null_skip (a b : List (Str × Json)) (k : Str) (hk : foldKey k ≠ keyParamValue) (p : ParamData) :
    p.bindKeys (a ++ (k, .null) :: b) = p.bindKeys (a ++ b) := by
  induction a generalizing p with
  | nil =>
    have e : p.bindKey k .null = (p, false) := by
      unfold ParamData.bindKey
      simp only [Json.toUInt32, Json.toUInt8, if_neg hk]
      split
      · rfl
      · split <;> rfl
    simp [ParamData.bindKeys, e]
  | cons e a ih => simp only [List.cons_append, ParamData.bindKeys, ih]

theorem bound_null_skip (a b : List (Str × Json)) (k : Str) (hk : foldKey k ≠ keyParams) (d : Bound) :
    d.bindKeys (a ++ (k, .null) :: b) = d.bindKeys (a ++ b) := by
  induction a generalizing d with
  | nil =>
    have e : d.bindKey k .null = (d, false) := by
      unfold Bound.bindKey
      simp only [Json.toUInt8, if_neg hk]
      split <;> rfl
    simp [Bound.bindKeys, e]
  | cons e a ih => simp only [List.cons_append, Bound.bindKeys, ih]

theorem items_alike {x y : Json} (h : ∀ old, x.toParam old = y.toParam old) (pre post : List Json)
    (old : List (Option ParamData)) : bindItems old (pre ++ x :: post) = bindItems old (pre ++ y :: post) := by
  induction pre generalizing old with
  | nil => simp only [List.nil_append, bindItems, h]
  | cons j pre ih => simp only [List.cons_append, bindItems, ih]

theorem bound_alike {x y : Json} (h1 : ∀ o, x.toUInt8 o = y.toUInt8 o) (h2 : ∀ o, x.toParams o = y.toParams o)
    (u v : List (Str × Json)) (key : Str) (d : Bound) :
    d.bindKeys (u ++ (key, x) :: v) = d.bindKeys (u ++ (key, y) :: v) := by
  induction u generalizing d with
  | nil => simp only [List.nil_append, Bound.bindKeys, Bound.bindKey, h1, h2]
  | cons e u ih => simp only [List.cons_append, Bound.bindKeys, ih]

/-- A key with the value null is as good as no key: in the request, unless it is the list, and in a parameter, unless it is the
value.  What is sent and what is answered are the same without it. -/
theorem C113_null_member (a b : List (Str × Json)) (k : Str) :
    (reads (utf8 "params") k = false →
      (Body.json (.obj (a ++ (k, .null) :: b))).bound = (Body.json (.obj (a ++ b))).bound ∧
      (Body.json (.obj (a ++ (k, .null) :: b))).bad = (Body.json (.obj (a ++ b))).bad) ∧
    (reads (utf8 "paramvalue") k = false → ∀ (u v : List (Str × Json)) (key : Str) (pre post : List Json),
      (Body.json (.obj (u ++ (key, .arr (pre ++ .obj (a ++ (k, .null) :: b) :: post)) :: v))).bound =
        (Body.json (.obj (u ++ (key, .arr (pre ++ .obj (a ++ b) :: post)) :: v))).bound ∧
      (Body.json (.obj (u ++ (key, .arr (pre ++ .obj (a ++ (k, .null) :: b) :: post)) :: v))).bad =
        (Body.json (.obj (u ++ (key, .arr (pre ++ .obj (a ++ b) :: post)) :: v))).bad) := by
  constructor
  · intro h
    rw [reads_fold _ _ (by decide +kernel)] at h
    have hk : foldKey k ≠ keyParams := by
      have := of_decide_eq_false h
      rwa [show utf8 "params" = keyParams by decide +kernel] at this
    simp only [Body.bound, Body.bad, Body.bind, bound_null_skip a b k hk, and_self]
  · intro h u v key pre post
    rw [reads_fold _ _ (by decide +kernel)] at h
    have hk : foldKey k ≠ keyParamValue := by
      have := of_decide_eq_false h
      rwa [show utf8 "paramvalue" = keyParamValue by decide +kernel] at this
    have e := bound_alike (x := .arr (pre ++ .obj (a ++ (k, .null) :: b) :: post)) (y := .arr (pre ++ .obj (a ++ b) :: post))
      (fun _ => rfl) (fun o => items_alike (fun old => by simp only [Json.toParam, param_null_skip a b k hk]) pre post o)
      u v key
    simp only [Body.bound, Body.bad, Body.bind, e, and_self]

-- keys it applies to
example : reads (utf8 "params") (utf8 "ParamCnt") = false ∧ reads (utf8 "paramvalue") (utf8 "paramId") = false := by
  decide +kernel

/-- The opposite of C113 for null in the list, the last one if there are several: the request is answered 500 and nothing is
sent. -/
theorem C113_null (env : Env) (evs : List Ev) (p : Str) (d : Device) (c : Conn)
    (hd : (Sys.start.run env evs).1.st.look p = some d)
    (hs : (Sys.start.run env evs).1.st.session d.sessionID = some c) (kvs : List (Str × Json)) (js : List Json)
    (pre : List Json)
    (hp : said "params" kvs = pre ++ [.arr js]) (hn : Json.null ∈ js) (hbad : (Body.json (.obj kvs)).bad = false) :
    let o := ((Sys.start.run env evs).1.step env (.httpSet p (Body.json (.obj kvs)).bound (Body.json (.obj kvs)).bad none)).2
    o.http = some 500 ∧ o.sent = none := by
  intro o
  rw [said_eq _ keyParams (by decide +kernel)] at hp
  obtain ⟨-, i2, -⟩ := boundKeys kvs ⟨0, []⟩
  rw [hp, List.foldl_append] at i2
  have hold : AllFromJSON (pre.foldl (fun o (v : Json) => (v.toParams o).1) []) := by
    have : ∀ (l : List Json) o, AllFromJSON o → AllFromJSON (l.foldl (fun o (v : Json) => (v.toParams o).1) o) := by
      intro l
      induction l with
      | nil => exact fun _ h => h
      | cons v l ih => exact fun o h => ih _ (toParams_fromJSON v o h)
    exact this pre [] (fun q h => (by cases h))
  generalize pre.foldl (fun o (v : Json) => (v.toParams o).1) [] = old at i2 hold
  simp only [List.foldl, Json.toParams] at i2
  have hpar : (Body.json (.obj kvs)).bound.params = (bindItems old js).1.map fun p => p.getD ⟨0x0001, 0, .other⟩ := by
    simp only [Body.bound, Body.bind, Bound.toParams, i2]
  have hj : ∀ q ∈ (Body.json (.obj kvs)).bound.params, FromJSON q.value := by
    rw [hpar]
    intro q hq
    obtain ⟨x, hx, rfl⟩ := List.mem_map.1 hq
    cases x with
    | none => trivial
    | some q => exact bindItems_fromJSON js old hold q hx
  have hm : ∃ q ∈ (Body.json (.obj kvs)).bound.params, Mistyped q := by
    rw [hpar]
    refine ⟨⟨0x0001, 0, .other⟩, List.mem_map.2 ⟨none, bindItems_null js hn old, rfl⟩, .inl ⟨.inr (.inr (by decide)), ?_⟩⟩
    intro n hn
    cases hn
  obtain ⟨-, h5, h2, hsent⟩ := C107_status_partial env evs p d (.httpSet p (Body.json (.obj kvs)).bound
    (Body.json (.obj kvs)).bad none) _ none ⟨rfl, rfl, hbad, rfl⟩ hj hd
  have h500 : o.http = some 500 := h5.2 ⟨by rw [hs]; simp, hm⟩
  refine ⟨h500, ?_⟩
  cases ho : o.sent with
  | none => rfl
  | some x =>
    have := (hsent.1 (by show o.sent.isSome = true; rw [ho]; rfl)).1
    change o.http = some 200 at this
    rw [h500] at this
    cases this

/-- A request with its keys in another order and case, and a remark: one parameter, 0x0001 = 30. -/
def demoJson (cnt : Nat) : Json :=
  .obj [(utf8 "Params", .arr [.obj [(utf8 "paramValue", .num 30), (utf8 "PARAMID", .num 1), (utf8 "remark", .null)]]),
    (utf8 "paramCnt", .num cnt)]

example : Says (.json (demoJson 1)) 1 [⟨0x0001, 0, .num 30⟩] := by
  have k1 : ∀ n ∈ ["paramcnt", "params"], reads (utf8 n) (utf8 "Params") = true ↔ n = "params" := by decide +kernel
  have k2 : ∀ n ∈ ["paramcnt", "params"], reads (utf8 n) (utf8 "paramCnt") = true ↔ n = "paramcnt" := by decide +kernel
  have k3 : ∀ n ∈ ["paramid", "paramlen", "paramvalue"], reads (utf8 n) (utf8 "paramValue") = true ↔ n = "paramvalue" := by
    decide +kernel
  have k4 : ∀ n ∈ ["paramid", "paramlen", "paramvalue"], reads (utf8 n) (utf8 "PARAMID") = true ↔ n = "paramid" := by
    decide +kernel
  have k5 : ∀ n ∈ ["paramid", "paramlen", "paramvalue"], ¬ reads (utf8 n) (utf8 "remark") = true := by decide +kernel
  simp only [List.mem_cons, List.not_mem_nil, or_false, forall_eq_or_imp, forall_eq] at k1 k2 k3 k4 k5
  refine ⟨_, [.obj [(utf8 "paramValue", .num 30), (utf8 "PARAMID", .num 1), (utf8 "remark", .null)]], rfl, ?_, ?_,
    .cons ⟨_, _, rfl, ?_, .inl ⟨?_, rfl⟩, ?_, .num 30⟩ .nil⟩ <;>
    simp [said, k1, k2, k3, k4, k5]

/-- And a count that is too large: the terminal cannot decode what it is sent, though the request is answered 200. -/
theorem C113_count_too_large :
    let o := (demoSys.step goEnv (.httpSet (hdr2013 0).phone (Body.json (demoJson 9)).bound (Body.json (demoJson 9)).bad none)).2
    o.http = some 200 ∧
    (o.sent.map fun x => match decodeFrame goEnv x.2 with
      | .ok a => match SetParams.decode goEnv a.header a.body 0 with | .panic => true | _ => false
      | _ => false) = some true := by decide +kernel

/-- The terminal of the examples is registered, not a 2019 one, and has a session. -/
example : (demoSys.st.look (hdr2013 0).phone).map (fun d => (d.ver, demoSys.st.session d.sessionID)) =
      some (.v2013, some demoC) ∧ PhoneWF .v2013 (hdr2013 0).phone ∧
    ListRoundtrip goEnv [⟨0x0001, 0, .num 30⟩] [⟨0x0001, 4, .dword 30⟩] ([0,0,0,1, 4, 0,0,0,30] ++ []) :=
  ⟨by decide +kernel, (hdr2013_wf 0).phone,
    .cons (C23_dword goEnv ⟨0x0001, 0, .num 30⟩ (by decide) 30 (Or.inr (by decide))) .nil⟩

/-- A misspelt key, a body cut off, a list with a null in it after another list. -/
example : SaysNothing (.json (.obj [(utf8 "parameters", .arr [])])) ∧ NoObject .broken ∧
    said "params" [(utf8 "params", .arr [.obj []]), (utf8 "params", .arr [.null])] = [.arr [.obj []]] ++ [.arr [.null]] ∧
    (Body.json (.obj [(utf8 "params", .arr [.obj []]), (utf8 "params", .arr [.null])])).bad = false := by
  have k1 : ∀ n ∈ ["paramcnt", "params"], ¬ reads (utf8 n) (utf8 "parameters") = true := by decide +kernel
  have k2 : reads (utf8 "params") (utf8 "params") = true := by decide +kernel
  simp only [List.mem_cons, List.not_mem_nil, or_false, forall_eq_or_imp, forall_eq] at k1
  exact ⟨⟨by simp [said, k1], by simp [said, k1]⟩, trivial, by simp [said, k2], by decide +kernel⟩

/-- A count of 300 is refused with 400; a setting with count 0 and the list is sent. -/
example : (Body.json (demoJson 300)).bad = true ∧ (Body.json (demoJson 300)).bound = ⟨[], 0, [⟨0x0001, 0, .num 30⟩]⟩ := by
  decide +kernel

end JT808
