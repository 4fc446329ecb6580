import Verif.Proof.JsonValue
import Verif.Props.Binding
/-
C132: a parameter request is read as the JSON standard says.
-/
namespace JT808
open Spec

namespace Spec

/-- How many lists and objects may be within each other. -/
def deepest : Nat := 10000

/-- A JSON text, RFC 8259 section 2: a value, with white space around it. -/
def JsonText (s : List UInt8) (j : Json) : Prop :=
  ∃ w t w', Blank w ∧ Blank w' ∧ Denotes RString deepest t j ∧ s = w ++ t ++ w'

/-- The bytes begin with the object, written as in the standard or with the liberties of `LString`. -/
def BeginsWith (s : List UInt8) (kvs : List (Str × Json)) : Prop :=
  ∃ w t r, Blank w ∧ Denotes LString deepest t (.obj kvs) ∧ s = w ++ t ++ r

end Spec

theorem blank_parted {w : List UInt8} (h : Blank w) : Parted w := by
  intro b r e
  subst e
  rcases h b List.mem_cons_self with rfl | rfl | rfl | rfl <;>
    exact ⟨by unfold IsDigit; decide, by decide, by decide, by decide⟩

theorem obj_no_number (kvs : List (Str × Json)) : ¬ IsNumber (.obj kvs) := by
  rintro ⟨n, h | h⟩ <;> cases h

/-- **C132.**  Every JSON text is read as the value it denotes, whatever the white space, the escapes and the way to write
numbers. -/
theorem C132_read (s : List UInt8) (j : Json) (h : JsonText s j) : Body.ofText s = .json j := by
  obtain ⟨w, t, w', hw, hw', ht, rfl⟩ := h
  have := readValue_complete deepest t j (denotes_mono (fun _ _ h => rstring_lstring h) _ _ _ ht) w w' hw
    fun _ => blank_parted hw'
  unfold Body.ofText
  rw [show maxNesting = deepest from rfl, this]

/-- No text has two meanings. -/
theorem C132_one_meaning (s : List UInt8) (j j' : Json) (h : JsonText s j) (h' : JsonText s j') : j = j' := by
  have e := (C132_read s j h).symm.trans (C132_read s j' h')
  injection e

/-- An object is read exactly if the request begins with its text. -/
theorem C132_exact (s : List UInt8) (kvs : List (Str × Json)) :
    Body.ofText s = .json (.obj kvs) ↔ BeginsWith s kvs := by
  constructor
  · intro h
    unfold Body.ofText at h
    split at h
    · rename_i j r hr
      injection h with h
      subst h
      obtain ⟨w, t, hw, e, ht⟩ := readValue_sound _ _ _ _ hr
      exact ⟨w, t, r, hw, ht, e⟩
    · cases h
  · rintro ⟨w, t, r, hw, ht, rfl⟩
    have := readValue_complete deepest t _ ht w r hw fun h => absurd h (obj_no_number kvs)
    unfold Body.ofText
    rw [show maxNesting = deepest from rfl, this]

/-- The opposite of "a request that is no JSON text is refused": whatever follows the object makes no difference. -/
theorem C132_trailing (s : List UInt8) (kvs : List (Str × Json)) (h : JsonText s (.obj kvs)) (garbage : List UInt8) :
    Body.ofText (s ++ garbage) = Body.ofText s := by
  rw [C132_read s _ h, C132_exact]
  obtain ⟨w, t, w', hw, _, ht, rfl⟩ := h
  exact ⟨w, t, w' ++ garbage, hw, denotes_mono (fun _ _ h => rstring_lstring h) _ _ _ ht, by simp⟩

theorem skipSpace_nil {w : List UInt8} (h : Blank w) : skipSpace w = [] := by
  have := skipSpace_blank h []
  rw [List.append_nil] at this
  exact this

theorem readValue_brace {d : Nat} {s s' r : Str} {j : Json} (h : skipSpace s = 0x7b :: s') (hr : readValue d s = some (j, r)) :
    ¬ IsNumber j := by
  cases d with
  | zero =>
    rw [readValue, h] at hr
    have : readAtom (0x7b :: s') = none := rfl
    rw [this] at hr
    cases hr
  | succ d =>
    rw [readValue_object d h] at hr
    split at hr
    · simp only [Option.some.injEq, Prod.mk.injEq] at hr
      rw [← hr.1]; exact obj_no_number _
    · split at hr
      · cases hr
      · simp only [Option.some.injEq, Prod.mk.injEq] at hr
        rw [← hr.1]; exact obj_no_number _

theorem object_brace {S : List UInt8 → List UInt8 → Prop} {d : Nat} {t : List UInt8} {kvs : List (Str × Json)}
    (h : Denotes S d t (.obj kvs)) : ∃ t', t = 0x7b :: t' := by
  have atom : Atom S t (.obj kvs) → False := by
    intro h
    cases h with
    | num h => exact obj_no_number _ (number_isNumber h)
  cases d with
  | zero => exact absurd h atom
  | succ d =>
    rcases h with h | ⟨w, _, _, h⟩ | ⟨x, vs, _, _, h⟩ | ⟨w, _, rfl, _⟩ | ⟨x, vs, _, rfl, _⟩
    · exact absurd h atom
    · cases h
    · cases h
    · exact ⟨_, rfl⟩
    · exact ⟨_, rfl⟩

/-- A text cut off before its end is refused, wherever it is cut. -/
theorem C132_cut_off (w t p q : List UInt8) (kvs : List (Str × Json)) (hw : Blank w)
    (ht : Denotes RString deepest t (.obj kvs)) (he : t = p ++ q) (hq : q ≠ []) : Body.ofText (w ++ p) = .broken := by
  have hl := denotes_mono (fun _ _ h => rstring_lstring h) _ _ _ ht
  unfold Body.ofText
  split
  · rename_i j r hr
    exfalso
    rw [show maxNesting = deepest from rfl] at hr
    have whole := readValue_complete deepest t _ hl w [] hw fun h => absurd h (obj_no_number kvs)
    obtain ⟨t', e'⟩ := object_brace hl
    cases p with
    | nil =>
      rw [List.append_nil, show deepest = 9999 + 1 from rfl, readValue, skipSpace_nil hw] at hr
      have : readAtom [] = none := rfl
      simp only at hr
      rw [this] at hr
      cases hr
    | cons b p =>
      obtain rfl : b = 0x7b := by
        rw [he] at e'
        injection e'
      have hsk : skipSpace (w ++ 0x7b :: p) = 0x7b :: p := by
        rw [skipSpace_blank hw, skipSpace_cons (by decide)]
      have hn := readValue_brace hsk hr
      obtain ⟨w2, t2, hw2, e2, ht2⟩ := readValue_sound _ _ _ _ hr
      have again := readValue_complete deepest t2 j ht2 w2 (r ++ q) hw2 fun h => absurd h hn
      have e3 : w2 ++ t2 ++ (r ++ q) = w ++ t ++ [] := by
        rw [← List.append_assoc, ← e2, he]; simp
      rw [e3, whole] at again
      simp only [Option.some.injEq, Prod.mk.injEq] at again
      have := again.2
      simp only [List.nil_eq, List.append_eq_nil_iff] at this
      exact hq this.2
  · rfl

/-- C132, the effect: whoever writes the documented request as a JSON text — in any layout — has exactly its parameters sent to
the terminal, with a count that is right, to a terminal that is not of 2019 (see C113). -/
theorem C132_put_partial (env : Env) (now : Civil) (evs : List Ev) (p : Str) (d : Device) (c : Conn)
    (hd : (Sys.start.run env evs).1.st.look p = some d) (hv : d.ver ≠ .v2019) (hp : PhoneWF d.ver p)
    (hs : (Sys.start.run env evs).1.st.session d.sessionID = some c) (s : List UInt8) (j : Json) (hj : JsonText s j)
    (cnt : UInt8) (ps qs : List ParamData) (hsay : Says (.json j) cnt ps) (hcnt : cnt.toNat = ps.length)
    (bs : List UInt8) (hr : ListRoundtrip env ps qs bs) (hb : bs.length ≤ 1022) :
    ∃ f h, ((Sys.start.run env evs).1.step env (.httpSet p (Body.ofText s).bound (Body.ofText s).bad none)).2 =
        ⟨some (c, f), false, some 200⟩ ∧ Holds env now f h (.m8103 ⟨cnt, ⟨p, cnt, qs⟩⟩) := by
  rw [C132_read s j hj]
  exact C113_put_partial env now evs p d c hd hv hp hs _ cnt ps qs hsay hcnt bs hr hb

/-- The opposite of "a request cut off on its way has no effect": it is answered 400, but a setting without parameters is sent to
the terminal all the same. -/
theorem C132_cut_off_sent (env : Env) (now : Civil) (evs : List Ev) (p : Str) (d : Device) (c : Conn)
    (hd : (Sys.start.run env evs).1.st.look p = some d) (hv : d.ver ≠ .v2019) (hp : PhoneWF d.ver p)
    (hs : (Sys.start.run env evs).1.st.session d.sessionID = some c) (w t s s' : List UInt8) (kvs : List (Str × Json))
    (hw : Blank w) (ht : Denotes RString deepest t (.obj kvs)) (he : t = s ++ s') (hq : s' ≠ []) :
    ∃ f h, ((Sys.start.run env evs).1.step env
        (.httpSet p (Body.ofText (w ++ s)).bound (Body.ofText (w ++ s)).bad none)).2 = ⟨some (c, f), false, some 400⟩ ∧
      Holds env now f h (.m8103 ⟨0, ⟨p, 0, []⟩⟩) := by
  rw [C132_cut_off w t s s' kvs hw ht he hq]
  exact C113_no_object env now evs p d c hd hv hp hs .broken trivial

/-! ### A text -/

/-- `{ "paramS" :\n[{"paramId":1,"paramValue":3.0E1}],"paramCnt":1 }`, with the long s in place of `S` if asked for. -/
def demoText (letter : Str) : Str :=
  utf8 "{ \"param" ++ letter ++ utf8 "\" :\n[{\"paramId\":1,\"paramValue\":3.0E1}],\"paramCnt\":1 }"

/-- The value of `demoText`. -/
def demoTree (letter : Str) : Json :=
  .obj [(utf8 "param" ++ letter, .arr [.obj [(utf8 "paramId", .num 1), (utf8 "paramValue", .frac 30)]]),
    (utf8 "paramCnt", .num 1)]

/-- Bytes that stand for themselves between quotation marks. -/
theorem plain_string (s : List UInt8) (h : ∀ b ∈ s, 0x20 ≤ b.toNat ∧ b.toNat < 0x80 ∧ b.toNat ≠ 0x22 ∧ b.toNat ≠ 0x5c)
    {s' t' : List UInt8} (h' : RString s' t') : RString (s ++ s') (s ++ t') := by
  induction s with
  | nil => exact h'
  | cons b s ih =>
    obtain ⟨h1, h2, h3, h4⟩ := h b List.mem_cons_self
    have e : utf8Of b.toNat = [b] := by
      unfold utf8Of
      rw [if_pos h2, UInt8.ofNat_toNat]
    have := RString.cons (u := utf8Of b.toNat) (n := b.toNat) (.char (.plain (by unfold Scalar; omega) h1 h3 h4))
      (ih fun x hx => h x (List.mem_cons_of_mem _ hx))
    rw [e] at this
    exact this

theorem demo_denotes (letter lt : List UInt8) (hl : RString letter lt) : JsonText (demoText letter) (demoTree lt) := by
  have b0 : Blank [] := fun _ h => absurd h List.not_mem_nil
  have b1 : Blank (utf8 " ") := by
    have e : utf8 " " = [0x20] := by decide +kernel
    rw [e]; intro b hb; exact .inl (List.mem_singleton.1 hb)
  have b2 : Blank (utf8 "\n") := by
    have e : utf8 "\n" = [0x0a] := by decide +kernel
    rw [e]; intro b hb; exact .inr (.inr (.inl (List.mem_singleton.1 hb)))
  have one : ∀ d, Denotes RString (d + 1) (utf8 "1") (.num 1) := by
    intro d
    have e : utf8 "1" = [0x31] := by decide +kernel
    rw [e]
    refine .inl (.num (.whole ⟨by simp, ?_, fun _ => rfl⟩))
    intro b hb; rw [List.mem_singleton.1 hb]; decide
  have thirty : ∀ d, Denotes RString (d + 1) (utf8 "3.0E1") (.frac 30) := by
    intro d
    have e : utf8 "3.0E1" = (if false then [0x2d] else []) ++ [0x33] ++ [0x2e, 0x30] ++ [0x45, 0x31] := by decide +kernel
    rw [e]
    refine .inl (.num (.other (f := [0x30]) (x := 1) (w := 30) ⟨by simp, ?_, fun h => by simp at h⟩ (.inr ⟨rfl, by simp, ?_⟩)
      (.inr ⟨0x45, [0x31], .inr rfl, by simp, ?_, .inl ⟨.inl rfl, by decide⟩⟩) (.inr (.inl (by simp))) ?_ (.inl ⟨rfl, rfl⟩)))
    · intro b hb; rw [List.mem_singleton.1 hb]; decide
    · intro b hb; rw [List.mem_singleton.1 hb]; decide
    · intro b hb; rw [List.mem_singleton.1 hb]; decide
    · exact ⟨fun _ => by decide, fun h => absurd h (by decide)⟩
  have name : ∀ n ∈ ["paramId", "paramValue", "paramCnt"], RString (utf8 n) (utf8 n) := by
    intro n hn
    have key : ∀ n ∈ ["paramId", "paramValue", "paramCnt"], ∀ b ∈ utf8 n,
        0x20 ≤ b.toNat ∧ b.toNat < 0x80 ∧ b.toNat ≠ 0x22 ∧ b.toNat ≠ 0x5c := by decide +kernel
    have := plain_string (utf8 n) (key n hn) .nil
    simpa using this
  have long : RString (utf8 "param" ++ letter) (utf8 "param" ++ lt) :=
    plain_string _ (by decide +kernel) hl
  have inner : Denotes RString (9997 + 1) (0x7b :: (([] ++ (quoted (utf8 "paramId") ++ [] ++ 0x3a :: ([] ++ utf8 "1")) ++ []) ++
      0x2c :: ([] ++ (quoted (utf8 "paramValue") ++ [] ++ 0x3a :: ([] ++ utf8 "3.0E1")) ++ [])) ++ [0x7d])
      (.obj [(utf8 "paramId", .num 1), (utf8 "paramValue", .frac 30)]) :=
    .inr (.inr (.inr (.inr ⟨_, _, .more b0 ⟨_, [], [], _, name _ (by simp), b0, b0, one _, rfl⟩ b0
      (.one b0 ⟨_, [], [], _, name _ (by simp), b0, b0, thirty _, rfl⟩ b0), rfl, rfl⟩)))
  have list : Denotes RString (9998 + 1) _ (.arr [.obj [(utf8 "paramId", .num 1), (utf8 "paramValue", .frac 30)]]) :=
    .inr (.inr (.inl ⟨_, _, .one b0 inner b0, rfl, rfl⟩))
  have outer : Denotes RString (9999 + 1) _ (demoTree lt) :=
    .inr (.inr (.inr (.inr ⟨_, _, .more b1 ⟨_, utf8 " ", utf8 "\n", _, long, b1, b2, list, rfl⟩ b0
      (.one b0 ⟨_, [], [], _, name "paramCnt" (by simp), b0, b0, one _, rfl⟩ b1), rfl, rfl⟩)))
  refine ⟨[], _, [], b0, b0, outer, ?_⟩
  have e1 : utf8 "{ \"param" = 0x7b :: (utf8 " " ++ 0x22 :: utf8 "param") := by decide +kernel
  have e2 : utf8 "\" :\n[{\"paramId\":1,\"paramValue\":3.0E1}],\"paramCnt\":1 }" =
      0x22 :: (utf8 " " ++ 0x3a :: (utf8 "\n" ++ (0x5b :: (0x7b :: (quoted (utf8 "paramId") ++ 0x3a :: utf8 "1" ++
        0x2c :: (quoted (utf8 "paramValue") ++ 0x3a :: utf8 "3.0E1" ++ [0x7d]))) ++ [0x5d]) ++
        0x2c :: (quoted (utf8 "paramCnt") ++ 0x3a :: utf8 "1" ++ utf8 " " ++ [0x7d]))) := by decide +kernel
  unfold demoText
  rw [e1, e2]
  simp [quoted]

/-- An escaped capital S, and a long s as it is. -/
example : JsonText (demoText (utf8 "\\u0053")) (demoTree (utf8 "S")) ∧ JsonText (demoText (utf8 "ſ")) (demoTree (utf8 "ſ")) := by
  constructor
  · refine demo_denotes _ _ ?_
    have e : utf8 "\\u0053" = [0x5c, 0x75, 0x30, 0x30, 0x35, 0x33] ++ [] := by decide +kernel
    have e' : utf8 "S" = utf8Of (((0 * 16 + 0) * 16 + 5) * 16 + 3) ++ [] := by decide +kernel
    rw [e, e']
    exact .cons (.char (.hex rfl rfl rfl rfl (by unfold Scalar; omega))) .nil
  · refine demo_denotes _ _ ?_
    have e : utf8 "ſ" = utf8Of 0x17f ++ [] := by decide +kernel
    rw [e]
    exact .cons (.char (.plain (by unfold Scalar; omega) (by omega) (by omega) (by omega))) .nil

/-- Either way the parameter is sent, even with something behind it; but not a text that is cut off. -/
example :
    (Body.ofText (demoText (utf8 "\\u0053"))).bound = ⟨[], 1, [⟨0x0001, 0, .num 30⟩]⟩ ∧
    (Body.ofText (demoText (utf8 "ſ") ++ utf8 "}}")).bound = ⟨[], 1, [⟨0x0001, 0, .num 30⟩]⟩ ∧
    (Body.ofText (demoText (utf8 "ß"))).bound = ⟨[], 1, []⟩ ∧
    (Body.ofText ((demoText (utf8 "s")).dropLast)).bad = true := by decide +kernel

/-- Surrogates, single surrogates and bytes that are no UTF-8; a raw line feed is refused, and so are leading zeros. -/
example :
    (match Body.ofText (utf8 "{\"a\":\"\\ud83d\\ude00\\ud83dx" ++ [0xff] ++ utf8 "\"}") with
      | .json (.obj [(_, .str t)]) => some t
      | _ => none) = some (utf8 "😀\ufffdx\ufffd") ∧
    (match Body.ofText (utf8 "{\"a\":\"\n\"}") with | .broken => true | _ => false) = true ∧
    (match Body.ofText (utf8 "{\"a\":01}") with | .broken => true | _ => false) = true ∧
    (match Body.ofText (utf8 "{\"a\":-1.5e1}") with | .json (.obj [(_, .frac n)]) => n | _ => 0) = 2 ^ 64 - 15 := by
  decide +kernel

end JT808
