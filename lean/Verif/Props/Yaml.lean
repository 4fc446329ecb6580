import Verif.Proof.Yaml
import Verif.Proof.Bcd
import Verif.Proof.Decimal
import Verif.Props.Startup
/-
C135: a configuration file is read as it is written.
-/
namespace JT808
open Spec

/-- A text that says settings is read as these, in whatever indentation, with whatever comments and empty lines. -/
theorem C135_read (text : Str) (es : List (List Str × Scalar)) (h : YamlSays text es) : readYaml text = some es := by
  obtain ⟨ls, hn, h1, rfl, h2⟩ := h
  unfold readYaml
  rw [textLines_unlines hn h1]
  obtain ⟨j, -, e⟩ := block_read h2 [] [] (fun _ h => (by cases h)) (fun _ h => (by cases h)) []
  rw [List.append_nil, List.append_nil] at e
  rw [e]
  simp [readLines]

/-- No text says two things. -/
theorem C135_one_meaning (text : Str) (es es' : List (List Str × Scalar)) (h : YamlSays text es) (h' : YamlSays text es') :
    es = es' := by
  have := C135_read text es h
  rw [C135_read text es' h'] at this
  injection this with this
  exact this.symm

theorem lower_eq (c : UInt8) : lower c = lowerByte c := by
  have key : ∀ n, n < 256 → lower (UInt8.ofNat n) = lowerByte (UInt8.ofNat n) := by decide +kernel
  exact forall_uint8 (P := fun c => lower c = lowerByte c) key c

theorem lowers_eq (keys : List Str) : keys.map (·.map lower) = keys.map lowerKey := by
  have : (lower : UInt8 → UInt8) = lowerByte := funext lower_eq
  unfold lowerKey
  rw [this]

/-- Names of settings are ASCII. -/
def Named (path : List String) : Prop := path.map (·.toUTF8.toList) = path.map jsonName

theorem names_iff {keys : List Str} {path : List String} (hp : Named path) :
    NamesSetting keys path ↔ keys.map lowerKey = path.map jsonName := by
  unfold NamesSetting
  rw [hp, lowers_eq]

theorem pairwise_key {α β : Type} {f : α → β} {l : List α} (h : l.Pairwise fun a b => f a ≠ f b) :
    ∀ a ∈ l, ∀ b ∈ l, f a = f b → a = b := by
  induction h with
  | nil => intro a ha; cases ha
  | cons h _ ih =>
    intro a ha b hb e
    rcases List.mem_cons.1 ha with rfl | ha' <;> rcases List.mem_cons.1 hb with rfl | hb'
    · rfl
    · exact absurd e (h b hb')
    · exact absurd e.symm (h a ha')
    · exact ih a ha' b hb' e

theorem setting_at {es : List (List Str × Scalar)} (ho : OnceEach es) {path : List String} (hp : Named path) (o : Option Scalar) :
    Setting es path o ↔ YamlFile.at es path = o := by
  unfold YamlFile.at
  constructor
  · intro h
    cases h with
    | absent h =>
      rw [Option.map_eq_none_iff, List.find?_eq_none]
      intro e he hd
      exact h e.1 e.2 he ((names_iff hp).2 (of_decide_eq_true hd))
    | @given keys v h1 h2 =>
      rw [names_iff hp] at h2
      cases hf : es.find? (fun e => decide (e.1.map lowerKey = path.map jsonName)) with
      | none =>
        rw [List.find?_eq_none] at hf
        exact absurd (decide_eq_true h2) (hf _ h1)
      | some e =>
        have m1 := List.mem_of_find?_eq_some hf
        have m2 : e.1.map lowerKey = path.map jsonName := by simpa using List.find?_some hf
        have : e = (keys, v) := pairwise_key (f := fun e : List Str × Scalar => e.1.map fun (k : Str) => k.map lower) ho e m1 _ h1
          (by simp only [lowers_eq]; rw [m2, h2])
        rw [this]
        rfl
  · intro h
    cases hf : es.find? (fun e => decide (e.1.map lowerKey = path.map jsonName)) with
    | none =>
      rw [hf] at h
      subst h
      rw [List.find?_eq_none] at hf
      exact .absent fun keys v hm hn => hf _ hm (decide_eq_true ((names_iff hp).1 hn))
    | some e =>
      rw [hf] at h
      subst h
      exact .given (List.mem_of_find?_eq_some hf) ((names_iff hp).2 (by simpa using List.find?_some hf))

/-- The settings in another order, with keys in another case, are the same configuration: of the server, of the simulator, and
of its device. -/
theorem C135_alike (text text' : Str) (es es' : List (List Str × Scalar)) (h : YamlSays text es) (h' : YamlSays text' es')
    (ho : OnceEach es)
    (hp : (es.map fun e => (e.1.map (·.map lower), e.2)).Perm (es'.map fun e => (e.1.map (·.map lower), e.2))) :
    (readYaml text).bind (·.conf) = (readYaml text').bind (·.conf) ∧
    (readYaml text).bind (·.device) = (readYaml text').bind (·.device) := by
  rw [C135_read _ _ h, C135_read _ _ h', Option.bind_some, Option.bind_some]
  -- membership and distinctness carry over
  have e1 : es.map (fun e => (e.1.map (·.map lower), e.2)) = es.map (fun e => (e.1.map lowerKey, e.2)) := by
    simp only [lowers_eq]
  have e2 : es'.map (fun e => (e.1.map (·.map lower), e.2)) = es'.map (fun e => (e.1.map lowerKey, e.2)) := by
    simp only [lowers_eq]
  rw [e1, e2] at hp
  have hall : ∀ (l : List (List Str × Scalar)) (path : List String),
      YamlFile.at l path = ((l.map (fun e => (e.1.map lowerKey, e.2))).find? fun e => decide (e.1 = path.map jsonName)).map (·.2) := by
    intro l path
    unfold YamlFile.at
    rw [List.find?_map]
    simp [Function.comp_def]
  have hat : ∀ path, YamlFile.at es path = YamlFile.at es' path := by
    intro path
    rw [hall, hall]
    have ho' : (es.map (fun e => (e.1.map lowerKey, e.2))).Pairwise fun a b => a.1 ≠ b.1 := by
      rw [List.pairwise_map]
      unfold OnceEach at ho
      simpa only [lowers_eq] using ho
    generalize es.map (fun e => (e.1.map lowerKey, e.2)) = l at hp ho'
    generalize es'.map (fun e => (e.1.map lowerKey, e.2)) = l' at hp
    have ho'' : l'.Pairwise fun a b => a.1 ≠ b.1 := hp.pairwise ho' fun h e => h e.symm
    cases hf : l.find? (fun e => decide (e.1 = path.map jsonName)) with
    | none =>
      rw [List.find?_eq_none] at hf
      rw [List.find?_eq_none.2 fun e he => hf e (hp.mem_iff.2 he)]
    | some e =>
      cases hf' : l'.find? (fun e => decide (e.1 = path.map jsonName)) with
      | none =>
        rw [List.find?_eq_none] at hf'
        exact absurd (List.find?_some hf) (hf' e (hp.mem_iff.1 (List.mem_of_find?_eq_some hf)))
      | some e' =>
        have m1 := hp.mem_iff.1 (List.mem_of_find?_eq_some hf)
        have m2 : e.1 = path.map jsonName := by simpa using List.find?_some hf
        have m1' := List.mem_of_find?_eq_some hf'
        have m2' := (by simpa using List.find?_some hf' : e'.1 = path.map jsonName)
        rw [pairwise_key (f := fun e : List Str × Scalar => e.1) ho'' e m1 e' m1' (m2.trans m2'.symm)]
  have hhas : ∀ path, YamlFile.has es path = YamlFile.has es' path := by
    intro path
    have hh : ∀ (l : List (List Str × Scalar)), YamlFile.has l path =
        (l.map (fun e => (e.1.map lowerKey, e.2))).any fun e => decide (path.map jsonName <+: e.1 ∧ path.length < e.1.length) := by
      intro l
      unfold YamlFile.has
      simp [List.any_map, Function.comp_def]
    rw [hh, hh]
    rw [Bool.eq_iff_iff, List.any_eq_true, List.any_eq_true]
    exact ⟨fun ⟨x, h1, h2⟩ => ⟨x, hp.mem_iff.1 h1, h2⟩, fun ⟨x, h1, h2⟩ => ⟨x, hp.mem_iff.2 h1, h2⟩⟩
  have hval : ∀ path, YamlFile.val es path = YamlFile.val es' path := fun path => by unfold YamlFile.val; rw [hat]
  have htext : ∀ path, YamlFile.text es path = YamlFile.text es' path := fun path => by unfold YamlFile.text; rw [hval]
  have hflag : ∀ path, YamlFile.flag es path = YamlFile.flag es' path := fun path => by unfold YamlFile.flag; rw [hval]
  have hnum : ∀ path, YamlFile.num es path = YamlFile.num es' path := fun path => by unfold YamlFile.num; rw [hval]
  constructor
  · show YamlFile.conf es = YamlFile.conf es'
    unfold YamlFile.conf YamlFile.log YamlFile.server YamlFile.client YamlFile.port YamlFile.banner
    simp only [hval, htext, hflag, hnum, hhas]
  · show YamlFile.device es = YamlFile.device es'
    unfold YamlFile.device YamlFile.pattern
    simp only [htext]

/-! ## What values mean -/

theorem decimal_snoc {n d : Nat} (hn : 0 < n) (hd : d < 10) : decimal (n * 10 + d) = decimal n ++ [UInt8.ofNat (0x30 + d)] := by
  unfold decimal
  have := Nat.toDigits_append_toDigits (b := 10) (n := n) (d := d) (by decide) hn hd
  rw [Nat.mul_comm, ← this, List.map_append, Nat.toDigits_of_lt_base hd]
  congr 1
  have : ∀ d, d < 10 → UInt8.ofNat d.digitChar.toNat = UInt8.ofNat (0x30 + d) := by decide
  simp [this d hd]

theorem decimal_one {d : Nat} (hd : d < 10) : decimal d = [UInt8.ofNat (0x30 + d)] := by
  have : ∀ d, d < 10 → decimal d = [UInt8.ofNat (0x30 + d)] := by decide +kernel
  exact this d hd

theorem digit_of {c : UInt8} (h : c ∈ "0123456789".toUTF8.toList) :
    (0x30 ≤ c ∧ c ≤ 0x39) ∧ c.toNat - 0x30 < 10 ∧ UInt8.ofNat (0x30 + (c.toNat - 0x30)) = c := by
  have : ∀ c ∈ "0123456789".toUTF8.toList,
    (0x30 ≤ c ∧ c ≤ 0x39) ∧ c.toNat - 0x30 < 10 ∧ UInt8.ofNat (0x30 + (c.toNat - 0x30)) = c := by decide +kernel
  exact this c h

theorem atoi_decimal {s : Str} (hs : ∀ d ∈ s, d ∈ "0123456789".toUTF8.toList) {n : Nat} (hn : 0 < n) :
    ∃ m, atoiDigits n s = some m ∧ decimal m = decimal n ++ s ∧ m < (n + 1) * 10 ^ s.length := by
  induction s generalizing n with
  | nil => exact ⟨n, rfl, by simp, by simp⟩
  | cons c s ih =>
    obtain ⟨h1, h2, h3⟩ := digit_of (hs c List.mem_cons_self)
    obtain ⟨m, e1, e2, e3⟩ := ih (fun d hd => hs d (List.mem_cons_of_mem _ hd)) (n := n * 10 + (c.toNat - 0x30)) (by omega)
    refine ⟨m, by rw [atoiDigits, if_pos h1, e1], ?_, ?_⟩
    · rw [e2, decimal_snoc hn h2, h3]; simp
    · refine Nat.lt_of_lt_of_le e3 ?_
      rw [List.length_cons, Nat.pow_succ, ← Nat.mul_assoc, Nat.mul_right_comm]
      exact Nat.mul_le_mul_right _ (by omega)

theorem first_digit {c : UInt8} (h : c ∈ "123456789".toUTF8.toList) :
    (0x30 ≤ c ∧ c ≤ 0x39) ∧ c ≠ 0x30 ∧ 0 < c.toNat - 0x30 ∧ c.toNat - 0x30 < 10 ∧ UInt8.ofNat (0x30 + (c.toNat - 0x30)) = c ∧
    ∀ s ∈ ["true", "false", "null"].map jsonName, s.head? ≠ some c := by
  have : ∀ c ∈ "123456789".toUTF8.toList,
    (0x30 ≤ c ∧ c ≤ 0x39) ∧ c ≠ 0x30 ∧ 0 < c.toNat - 0x30 ∧ c.toNat - 0x30 < 10 ∧ UInt8.ofNat (0x30 + (c.toNat - 0x30)) = c ∧
    ∀ s ∈ ["true", "false", "null"].map jsonName, s.head? ≠ some c := by decide +kernel
  exact this c h

/-- A text is taken as it is written, with or without quotes. -/
theorem means_text {v : Scalar} {s : Str} (h : MeansText v s) : ∃ y, v.resolve = some y ∧
    (match y with | .str s => s | .int n => decimal n | .bool b => if b then [0x31] else [0x30] | .nil => []) = s := by
  cases h with
  | quoted => exact ⟨_, rfl, rfl⟩
  | zero => exact ⟨.int 0, by decide +kernel, by decide +kernel⟩
  | @number c cs h1 h2 h3 =>
    obtain ⟨a1, a2, a3, a4, a5, a6⟩ := first_digit h1
    obtain ⟨m, e1, e2, e3⟩ := atoi_decimal h2 a3
    refine ⟨.int m, ?_, ?_⟩
    · unfold Scalar.resolve
      simp only
      rw [if_neg (fun e => a6 (jsonName "true") (by simp) (by rw [← e]; rfl)),
        if_neg (fun e => a6 (jsonName "false") (by simp) (by rw [← e]; rfl)),
        if_neg (fun e => a6 (jsonName "null") (by simp) (by rw [← e]; rfl)), if_pos a1, atoiDigits,
        if_pos a1, Nat.zero_mul, Nat.zero_add, e1]
      have : (10 : Nat) ^ cs.length ≤ 10 ^ 17 := Nat.pow_le_pow_right (by decide) (by omega)
      have h4 : (c.toNat - 0x30 + 1) * 10 ^ cs.length ≤ 10 * 10 ^ 17 := Nat.mul_le_mul (by omega) this
      have h5 : 10 * 10 ^ 17 < 2 ^ 63 := by decide
      simp only
      rw [if_pos ⟨fun e => absurd e a2, Nat.lt_trans (Nat.lt_of_lt_of_le e3 h4) h5⟩]
    · simp only
      rw [e2, decimal_one a4, a5]; rfl
  | @word c cs h1 h2 =>
    have hw : ∀ c ∈ "abcdefghijklmnopqrstuvwxyz".toUTF8.toList, ¬ (0x30 ≤ c ∧ c ≤ 0x39) := by decide +kernel
    rw [show ["true", "false", "null"].map (·.toUTF8.toList) = ["true", "false", "null"].map jsonName by decide +kernel] at h2
    simp only [List.map_cons, List.map_nil, List.mem_cons, List.not_mem_nil, or_false, not_or] at h2
    refine ⟨.str (c :: cs), ?_, rfl⟩
    unfold Scalar.resolve
    simp only
    rw [if_neg h2.1, if_neg h2.2.1, if_neg h2.2.2, if_neg (hw c h1)]

theorem text_said {es : List (List Str × Scalar)} {path : List String} {v : Scalar} {s : Str} (h : YamlFile.at es path = some v)
    (hv : MeansText v s) : YamlFile.text es path = some s := by
  obtain ⟨y, e1, e2⟩ := means_text hv
  unfold YamlFile.text YamlFile.val
  rw [h]
  simp only [e1, Option.map_some, Option.some.injEq]
  exact e2

/-! ## Starting with a file -/

/-- A server that is up, started with a file, is on the ports the file says, whether or not they are written in quotes. -/
theorem C135_ports (w : Startup.World) (path : String) (hp : path ≠ "embedded-default-server-config")
    (hp' : path ≠ "embedded-default-client-config") (text : Str) (hw : w.content path = contentOf text)
    (es : List (List Str × Scalar)) (h : YamlSays text es) (ho : OnceEach es) (t u : String)
    (hu : (Startup.main w path).2 = .up t u) :
    (∀ v s, Setting es ["server", "port", "tcpport"] (some v) → MeansText v s → t = asString s) ∧
    (∀ v s, Setting es ["server", "port", "httpport"] (some v) → MeansText v s → u = asString s) := by
  rw [Startup.C118_up_iff] at hu
  obtain ⟨conf, c, p, b, h1, ⟨h2, name, h3⟩, h4, rfl, rfl, -⟩ := hu
  have hc : YamlFile.conf es = some conf := by
    cases h1 with
    | server h => exact absurd h hp
    | client h => exact absurd h hp'
    | file _ _ hf =>
      rw [hw] at hf
      unfold contentOf at hf
      rw [C135_read _ _ h, Option.bind_some] at hf
      cases hy : YamlFile.conf es with
      | none => rw [hy] at hf; cases hf
      | some c => rw [hy] at hf; injection hf with hf; rw [hf]
  have hport : YamlFile.port es = some (some p) := by
    unfold YamlFile.conf at hc
    split at hc
    · simp only [Option.bind_eq_bind, Option.bind_eq_some_iff, Option.pure_def, Option.some.injEq] at hc
      obtain ⟨_, _, sv, hsv, cl, _, rfl⟩ := hc
      simp only at h3
      subst h3
      unfold YamlFile.server at hsv
      split at hsv
      · simp only [Option.bind_eq_bind, Option.bind_eq_some_iff, Option.pure_def, Option.some.injEq] at hsv
        obtain ⟨_, _, po, hpo, ba, _, e⟩ := hsv
        injection e with _ e1 _
        rw [hpo, e1]
      · cases hsv
    · cases hc
  unfold YamlFile.port at hport
  split at hport
  · simp only [Option.bind_eq_bind, Option.bind_eq_some_iff, Option.pure_def, Option.some.injEq] at hport
    obtain ⟨a, ha, b', hb, c', hc', e⟩ := hport
    subst e
    constructor
    · intro v s hs hm
      rw [setting_at ho (by unfold Named; decide +kernel)] at hs
      rw [text_said hs hm] at ha
      injection ha with ha
      rw [ha]
    · intro v s hs hm
      rw [setting_at ho (by unfold Named; decide +kernel)] at hs
      rw [text_said hs hm] at hc'
      injection hc' with hc'
      rw [hc']
  · cases hport

/-- The settings that are yes or no, those that are texts, those that are numbers, and the sections. -/
def Spec.flagSettings : List (List String) :=
  [["log", "consoleenable"], ["log", "fileenable"], ["log", "printasjson"], ["server", "banner", "enable"]]
def Spec.textSettings : List (List String) :=
  [["log", "loglevel"], ["log", "logdirectory"], ["server", "name"], ["server", "port", "tcpport"], ["server", "port", "udpport"],
    ["server", "port", "httpport"], ["server", "banner", "bannerpath"], ["client", "conn", "remoteaddr"], ["log", "logfile"],
    ["client", "name"]] ++
  ["idreg", "imeireg", "phonereg", "platereg", "protocolversion", "transproto", "provinceidreg", "cityidreg",
    "platecolorreg"].map (fun k => ["client", "device", k]) ++
  ["accstatusreg", "locationstatusreg", "latitudetypereg", "longitudetypereg", "operatingstatusreg", "geoencryptionstatusreg",
    "loadstatusreg", "fuelsystemstatusreg", "alternatorsystemstatusreg", "doorlockedstatusreg", "frontdoorstatusreg",
    "middoorstatusreg", "backdoorstatusreg", "driverdoorstatusreg", "customdoorstatusreg", "gpslocationstatusreg",
    "beidoulocationstatusreg", "glonasslocationstatusreg", "galileolocationstatusreg",
    "drivingstatusreg"].map (fun k => ["client", "devicegeo", "geo", k]) ++
  ["latitudereg", "longitudereg", "altitudereg"].map (fun k => ["client", "devicegeo", "location", k]) ++
  ["speedreg", "directionreg"].map (fun k => ["client", "devicegeo", "drive", k])
def Spec.numberSettings : List (List String) :=
  [["client", "concurrency"], ["log", "maxsizeofrolling"], ["log", "maxbackupsofrolling"], ["log", "maxageofrolling"],
    ["client", "device", "keepalive"], ["client", "devicegeo", "locationreportinterval"]]
def Spec.sectionNames : List (List String) :=
  [["log"], ["server"], ["server", "port"], ["server", "banner"], ["client"], ["client", "conn"], ["client", "device"],
    ["client", "devicegeo"], ["client", "devicegeo", "geo"], ["client", "devicegeo", "location"], ["client", "devicegeo", "drive"],
    ["client", "deviceparams"]]

/-- Every setting has a value of its kind. -/
structure Spec.Fits (es : List (List Str × Scalar)) : Prop where
  flags : ∀ p ∈ flagSettings, ∀ v, Setting es p (some v) → ∃ b, MeansFlag v b
  texts : ∀ p ∈ textSettings, ∀ v, Setting es p (some v) → ∃ s, MeansText v s
  numbers : ∀ p ∈ numberSettings, ∀ v, Setting es p (some v) → ∃ n, MeansNumber v n
  sections : ∀ p ∈ sectionNames, Setting es p none

/-- Something is set in the section. -/
def Spec.InSection (es : List (List Str × Scalar)) (path : List String) : Prop :=
  ∃ keys v, (keys, v) ∈ es ∧ NamesSetting (keys.take path.length) path ∧ path.length < keys.length

theorem names_ascii : ∀ p ∈ flagSettings ++ textSettings ++ sectionNames ++ numberSettings, Named p := by
  unfold Named; decide +kernel

theorem has_iff {es : List (List Str × Scalar)} {path : List String} (hp : Named path) :
    YamlFile.has es path = true ↔ InSection es path := by
  unfold YamlFile.has InSection
  rw [List.any_eq_true]
  constructor
  · rintro ⟨e, he, hd⟩
    obtain ⟨h1, h2⟩ := of_decide_eq_true hd
    refine ⟨e.1, e.2, he, (names_iff hp).2 ?_, h2⟩
    rw [List.map_take]
    have := List.prefix_iff_eq_take.1 h1
    rw [List.length_map] at this
    exact this.symm
  · rintro ⟨keys, v, he, h1, h2⟩
    refine ⟨_, he, decide_eq_true ⟨?_, h2⟩⟩
    rw [← (names_iff hp).1 h1, List.map_take]
    exact List.take_prefix _ _

theorem fits_text {es : List (List Str × Scalar)} (ho : OnceEach es) (hf : Fits es) {p : List String} (hp : p ∈ textSettings) :
    ∃ s, YamlFile.text es p = some s := by
  have hn := names_ascii p (by simp only [List.mem_append]; exact .inl (.inl (.inr hp)))
  cases h : YamlFile.at es p with
  | none => exact ⟨[], by simp [YamlFile.text, YamlFile.val, h]⟩
  | some v =>
    obtain ⟨s, hs⟩ := hf.texts p hp v ((setting_at ho hn _).2 h)
    exact ⟨s, text_said h hs⟩

theorem atoiDigits_append (a b : Str) (n : Nat) : atoiDigits n (a ++ b) = (atoiDigits n a).bind fun m => atoiDigits m b := by
  induction a generalizing n with
  | nil => rfl
  | cons c a ih =>
    rw [List.cons_append, atoiDigits, atoiDigits]
    split
    · exact ih _
    · rfl

theorem atoiDigits_decimal (n : Nat) : atoiDigits 0 (decimal n) = some n := by
  induction n using Nat.strongRecOn with
  | _ n ih =>
    by_cases h : n < 10
    · have : ∀ n < 10, atoiDigits 0 (decimal n) = some n := by decide +kernel
      exact this n h
    · have e : n = n / 10 * 10 + n % 10 := by omega
      have hm : n % 10 < 10 := Nat.mod_lt _ (by decide)
      rw [e, decimal_snoc (by omega) hm, atoiDigits_append, ih (n / 10) (by omega), Option.bind_some]
      have : ∀ d < 10, ∀ m, atoiDigits m [UInt8.ofNat (0x30 + d)] = some (m * 10 + d) := by
        intro d hd m
        have h1 : ∀ d < 10, (0x30 ≤ UInt8.ofNat (0x30 + d) ∧ UInt8.ofNat (0x30 + d) ≤ 0x39) ∧
          (UInt8.ofNat (0x30 + d)).toNat - 0x30 = d := by decide +kernel
        rw [atoiDigits, if_pos (h1 d hd).1, (h1 d hd).2]
        rfl
      exact this _ hm _

/-- The first digit of a number is no zero unless it is the only one. -/
theorem decimal_starts (n : Nat) : ∃ c cs, decimal n = c :: cs ∧ c ∈ "0123456789".toUTF8.toList ∧ (c = 0x30 → cs = []) := by
  induction n using Nat.strongRecOn with
  | _ n ih =>
    by_cases h : n < 10
    · have : ∀ n < 10, decimal n = [UInt8.ofNat (0x30 + n)] ∧ UInt8.ofNat (0x30 + n) ∈ "0123456789".toUTF8.toList := by decide +kernel
      exact ⟨_, _, (this n h).1, (this n h).2, fun _ => rfl⟩
    · have e : n = n / 10 * 10 + n % 10 := by omega
      have hm : n % 10 < 10 := Nat.mod_lt _ (by decide)
      obtain ⟨c, cs, h1, h2, h3⟩ := ih (n / 10) (by omega)
      refine ⟨c, cs ++ [UInt8.ofNat (0x30 + n % 10)], ?_, h2, fun h0 => ?_⟩
      · conv => lhs; rw [e]
        rw [decimal_snoc (by omega) hm, h1]
        rfl
      · exfalso
        have hz : decimal (n / 10) = decimal 0 := by
          rw [h1, h3 h0, h0]; decide +kernel
        have := decimal_injective hz
        omega

theorem means_number {n : Nat} (hn : n < 2 ^ 63) : (Scalar.plain (decimal n)).resolve = some (.int n) := by
  obtain ⟨c, cs, h1, h2, h3⟩ := decimal_starts n
  have hd : ∀ c ∈ "0123456789".toUTF8.toList, ∀ s ∈ ["true", "false", "null"].map jsonName, s.head? ≠ some c := by decide +kernel
  have ha := atoiDigits_decimal n
  rw [h1] at ha ⊢
  unfold Scalar.resolve
  simp only
  rw [if_neg (fun e => hd c h2 (jsonName "true") (by simp) (by rw [← e]; rfl)),
    if_neg (fun e => hd c h2 (jsonName "false") (by simp) (by rw [← e]; rfl)),
    if_neg (fun e => hd c h2 (jsonName "null") (by simp) (by rw [← e]; rfl)), if_pos (digit_of h2).1, ha]
  simp only
  rw [if_pos ⟨h3, hn⟩]

theorem num_said {es : List (List Str × Scalar)} {path : List String} {v : Scalar} {n : Nat} (h : YamlFile.at es path = some v)
    (hv : MeansNumber v n) : YamlFile.num es path = some n := by
  unfold YamlFile.num YamlFile.val
  rw [h]
  cases hv with
  | decimal hn =>
    have := means_number hn
    unfold decimal at this
    simp only [this, Option.bind_some]
  | quoted hn =>
    have h1 := means_number hn
    obtain ⟨c, cs, h2, -, -⟩ := decimal_starts n
    unfold decimal at h1 h2
    simp only [Scalar.resolve, h2, Option.bind_some] at h1 ⊢
    simp only [h1]
  | yes => dsimp only; rw [show (Scalar.plain "true".toUTF8.toList).resolve = some (.bool true) by decide +kernel]; rfl
  | no => dsimp only; rw [show (Scalar.plain "false".toUTF8.toList).resolve = some (.bool false) by decide +kernel]; rfl

theorem flag_said {es : List (List Str × Scalar)} {path : List String} {v : Scalar} {b : Bool} (h : YamlFile.at es path = some v)
    (hv : MeansFlag v b) : YamlFile.flag es path = some b := by
  unfold YamlFile.flag YamlFile.val
  rw [h]
  cases hv with
  | yes => dsimp only; rw [show (Scalar.plain "true".toUTF8.toList).resolve = some (.bool true) by decide +kernel]; rfl
  | no => dsimp only; rw [show (Scalar.plain "false".toUTF8.toList).resolve = some (.bool false) by decide +kernel]; rfl
  | @quotedYes s hs =>
    have key : ∀ s ∈ ["1", "t", "T", "TRUE", "true", "True"].map (fun x : String => x.toUTF8.toList), parseBool s = some true := by
      decide +kernel
    exact key s hs
  | @quotedNo s hs =>
    have key : ∀ s ∈ ["0", "f", "F", "FALSE", "false", "False"].map (fun x : String => x.toUTF8.toList), parseBool s = some false := by
      decide +kernel
    exact key s hs
  | @some n h0 hn =>
    have := means_number hn
    unfold decimal at this
    simp only [this, Option.bind_some]
    rw [show (n != 0) = true by simpa using Nat.ne_of_gt h0]
  | zero => dsimp only; rw [show (Scalar.plain [0x30]).resolve = some (.int 0) by decide +kernel]; rfl

theorem fits_flag {es : List (List Str × Scalar)} (ho : OnceEach es) (hf : Fits es) {p : List String} (hp : p ∈ flagSettings) :
    ∃ b, YamlFile.flag es p = some b := by
  have hn := names_ascii p (by simp only [List.mem_append]; exact .inl (.inl (.inl hp)))
  cases h : YamlFile.at es p with
  | none => exact ⟨false, by simp [YamlFile.flag, YamlFile.val, h]⟩
  | some v =>
    obtain ⟨b, hb⟩ := hf.flags p hp v ((setting_at ho hn _).2 h)
    exact ⟨b, flag_said h hb⟩

theorem fits_number {es : List (List Str × Scalar)} (ho : OnceEach es) (hf : Fits es) {p : List String} (hp : p ∈ numberSettings) :
    ∃ n, YamlFile.num es p = some n := by
  have hn := names_ascii p (by simp only [List.mem_append]; exact .inr hp)
  cases h : YamlFile.at es p with
  | none => exact ⟨0, by simp [YamlFile.num, YamlFile.val, h]⟩
  | some v =>
    obtain ⟨n, hv⟩ := hf.numbers p hp v ((setting_at ho hn _).2 h)
    exact ⟨n, num_said h hv⟩

/-- The configuration a file gives in which every setting fits. -/
theorem fits_conf {es : List (List Str × Scalar)} (ho : OnceEach es) (hf : Fits es) :
    ∃ log server client, YamlFile.log es = some log ∧ YamlFile.server es = some server ∧ YamlFile.client es = some client ∧
      YamlFile.conf es = some ⟨log, server, client⟩ := by
  have ht := fun {p} (hp : p ∈ textSettings) => fits_text ho hf hp
  have hl := fun {p} (hp : p ∈ flagSettings) => fits_flag ho hf hp
  obtain ⟨f1, e1⟩ := hl (p := ["log", "consoleenable"]) (by simp [flagSettings])
  obtain ⟨f2, e2⟩ := hl (p := ["log", "fileenable"]) (by simp [flagSettings])
  obtain ⟨f3, e3⟩ := hl (p := ["log", "printasjson"]) (by simp [flagSettings])
  obtain ⟨f4, e4⟩ := hl (p := ["server", "banner", "enable"]) (by simp [flagSettings])
  obtain ⟨t1, d1⟩ := ht (p := ["log", "loglevel"]) (by simp [textSettings])
  obtain ⟨t2, d2⟩ := ht (p := ["log", "logdirectory"]) (by simp [textSettings])
  obtain ⟨t3, d3⟩ := ht (p := ["server", "name"]) (by simp [textSettings])
  obtain ⟨t4, d4⟩ := ht (p := ["server", "port", "tcpport"]) (by simp [textSettings])
  obtain ⟨t5, d5⟩ := ht (p := ["server", "port", "udpport"]) (by simp [textSettings])
  obtain ⟨t6, d6⟩ := ht (p := ["server", "port", "httpport"]) (by simp [textSettings])
  obtain ⟨t7, d7⟩ := ht (p := ["server", "banner", "bannerpath"]) (by simp [textSettings])
  obtain ⟨t8, d8⟩ := ht (p := ["client", "conn", "remoteaddr"]) (by simp [textSettings])
  obtain ⟨n, d9⟩ := fits_number ho hf (p := ["client", "concurrency"]) (by simp [numberSettings])
  have h1 : (otherTexts.all fun p => (YamlFile.text es p).isSome) = true := by
    rw [List.all_eq_true]
    intro p hp
    obtain ⟨s, h⟩ := ht ((by decide +kernel : ∀ p ∈ otherTexts, p ∈ textSettings) p hp)
    rw [h]; rfl
  have h2 : (otherNumbers.all fun p => (YamlFile.num es p).isSome) = true := by
    rw [List.all_eq_true]
    intro p hp
    obtain ⟨s, h⟩ := fits_number ho hf ((by decide +kernel : ∀ p ∈ otherNumbers, p ∈ numberSettings) p hp)
    rw [h]; rfl
  have hs : (sectionPaths.all fun p => YamlFile.val es p == some .nil) = true := by
    rw [List.all_eq_true]
    intro p hp
    have hp' : p ∈ sectionNames := hp
    have hn := names_ascii p (by simp only [List.mem_append]; exact .inl (.inr hp'))
    have := (setting_at ho hn _).1 (hf.sections p hp')
    unfold YamlFile.val
    rw [this]
    rfl
  obtain ⟨log, g1⟩ : ∃ log, YamlFile.log es = some log := by
    unfold YamlFile.log
    split
    · simp only [e1, e2, e3, d1, d2]; exact ⟨_, rfl⟩
    · exact ⟨_, rfl⟩
  obtain ⟨port, g2⟩ : ∃ port, YamlFile.port es = some port := by
    unfold YamlFile.port
    split
    · simp only [d4, d5, d6]; exact ⟨_, rfl⟩
    · exact ⟨_, rfl⟩
  obtain ⟨banner, g3⟩ : ∃ banner, YamlFile.banner es = some banner := by
    unfold YamlFile.banner
    split
    · simp only [e4, d7]; exact ⟨_, rfl⟩
    · exact ⟨_, rfl⟩
  obtain ⟨server, g4⟩ : ∃ server, YamlFile.server es = some server := by
    unfold YamlFile.server
    split
    · simp only [g2, g3, d3]; exact ⟨_, rfl⟩
    · exact ⟨_, rfl⟩
  obtain ⟨client, g5⟩ : ∃ client, YamlFile.client es = some client := by
    unfold YamlFile.client
    split
    · simp only [d8, d9]; exact ⟨_, rfl⟩
    · exact ⟨_, rfl⟩
  refine ⟨log, server, client, g1, g4, g5, ?_⟩
  unfold YamlFile.conf
  rw [if_pos ⟨hs, h1, h2⟩, g1, g4, g5]
  rfl

/-- A server started with a file that has the four sections, in which every setting fits, comes up on the ports it says, if they
are free and the directory for log files can be made. -/
theorem C135_comes_up (w : Startup.World) (path : String) (hp : path ≠ "embedded-default-server-config")
    (hp' : path ≠ "embedded-default-client-config") (text : Str) (hw : w.content path = contentOf text)
    (es : List (List Str × Scalar)) (h : YamlSays text es) (ho : OnceEach es) (hf : Fits es)
    (h1 : InSection es ["log"]) (h2 : InSection es ["server", "port"]) (h3 : InSection es ["server", "banner"])
    (vt vu vd : Scalar) (t u d : Str) (ht : Setting es ["server", "port", "tcpport"] (some vt)) (ht' : MeansText vt t)
    (hu : Setting es ["server", "port", "httpport"] (some vu)) (hu' : MeansText vu u)
    (hd : Setting es ["log", "logdirectory"] (some vd)) (hd' : MeansText vd d)
    (hc : w.creatable (asString d) = true) (f1 : w.free (asString t) = true) (f2 : w.free (asString u) = true)
    (hne : asString t ≠ asString u) : (Startup.main w path).2 = .up (asString t) (asString u) := by
  have n1 : Named ["log"] := by unfold Named; decide +kernel
  have n2 : Named ["server", "port"] := by unfold Named; decide +kernel
  have n3 : Named ["server", "banner"] := by unfold Named; decide +kernel
  have n0 : Named ["server"] := by unfold Named; decide +kernel
  have n4 : Named ["server", "port", "tcpport"] := by unfold Named; decide +kernel
  have n5 : Named ["server", "port", "httpport"] := by unfold Named; decide +kernel
  have n6 : Named ["log", "logdirectory"] := by unfold Named; decide +kernel
  have h0 : InSection es ["server"] := by
    obtain ⟨keys, v, m, a, b⟩ := h2
    refine ⟨keys, v, m, ?_, by simp at b ⊢; omega⟩
    rw [names_iff n2] at a
    rw [names_iff n0]
    have := congrArg (List.take 1) a
    simpa [List.map_take, List.take_take] using this
  obtain ⟨log, server, client, g1, g2, -, g3⟩ := fits_conf ho hf
  have k1 := text_said ((setting_at ho n4 _).1 ht) ht'
  have k2 := text_said ((setting_at ho n5 _).1 hu) hu'
  have k3 := text_said ((setting_at ho n6 _).1 hd) hd'
  have l1 : ∃ c, log = some c ∧ c.dir = asString d := by
    unfold YamlFile.log at g1
    rw [if_pos ((has_iff n1).2 h1)] at g1
    simp only [Option.bind_eq_bind, Option.bind_eq_some_iff, Option.pure_def, Option.some.injEq] at g1
    obtain ⟨_, _, _, _, _, _, _, _, x, hx, rfl⟩ := g1
    rw [k3] at hx
    injection hx with hx
    exact ⟨_, rfl, by rw [hx]⟩
  have l2 : ∃ name p b, server = some ⟨name, some p, some b⟩ ∧ p.tcp = asString t ∧ p.http = asString u := by
    unfold YamlFile.server at g2
    rw [if_pos ((has_iff n0).2 h0)] at g2
    simp only [Option.bind_eq_bind, Option.bind_eq_some_iff, Option.pure_def, Option.some.injEq] at g2
    obtain ⟨name, _, po, hpo, ba, hba, rfl⟩ := g2
    unfold YamlFile.port at hpo
    rw [if_pos ((has_iff n2).2 h2)] at hpo
    simp only [Option.bind_eq_bind, Option.bind_eq_some_iff, Option.pure_def, Option.some.injEq] at hpo
    obtain ⟨a, ha, b, hb, c, hc', rfl⟩ := hpo
    rw [k1] at ha
    rw [k2] at hc'
    injection ha with ha
    injection hc' with hc'
    unfold YamlFile.banner at hba
    rw [if_pos ((has_iff n3).2 h3)] at hba
    simp only [Option.bind_eq_bind, Option.bind_eq_some_iff, Option.pure_def, Option.some.injEq] at hba
    obtain ⟨_, _, _, _, rfl⟩ := hba
    exact ⟨_, _, _, rfl, by rw [ha], by rw [hc']⟩
  obtain ⟨c, rfl, hdir⟩ := l1
  obtain ⟨name, p, b, rfl, e1, e2⟩ := l2
  rw [Startup.C118_up_iff]
  refine ⟨_, c, p, b, .file hp hp' (c := ⟨some c, some ⟨name, some p, some b⟩, client⟩) ?_, ⟨rfl, name, rfl⟩, ?_, e1, e2, f1, f2, hne⟩
  · rw [hw]
    unfold contentOf
    rw [C135_read _ _ h, Option.bind_some, g3]
  · rintro ⟨⟨-, hx⟩, -⟩
    rw [hdir, hc] at hx
    cases hx

/-! ## The port for UDP -/

/-- A configuration without its port for UDP. -/
def portNoUdp (p : Startup.PortConf) : Startup.PortConf := { p with udp := "" }
def serverNoUdp (s : Startup.ServerConf) : Startup.ServerConf := { s with port := s.port.map portNoUdp }
def noUdp (c : Startup.Conf) : Startup.Conf := { c with server := c.server.map serverNoUdp }

theorem listen_noUdp (w : Startup.World) (c : Startup.LogConf) (p : Startup.PortConf) :
    Startup.listen w c (portNoUdp p) = Startup.listen w c p := rfl

/-- main without its configuration being loaded. -/
theorem main_noUdp {w w' : Startup.World} {path : String} (hc : w'.creatable = w.creatable) (hf : w'.free = w.free)
    {c c' : Startup.Conf} (h : (Startup.Loaded.start.load w path).2 = some c) (h' : (Startup.Loaded.start.load w' path).2 = some c')
    (e : noUdp c = noUdp c') : Startup.main w path = Startup.main w' path := by
  have hw : ∀ (l : Startup.LogConf) lv what, l.write w' lv what = l.write w lv what := by
    intro l lv what
    unfold Startup.LogConf.write Startup.LogConf.writers
    rw [hc]
  have hl : ∀ l p, Startup.listen w' l p = Startup.listen w l p := by
    intro l p
    unfold Startup.listen Startup.serveBoth
    rw [hf]
    simp only [hw]
  unfold Startup.main
  rw [h, h']
  obtain ⟨log, server, client⟩ := c
  obtain ⟨log', server', client'⟩ := c'
  simp only [noUdp, Startup.Conf.mk.injEq] at e
  obtain ⟨rfl, e, -⟩ := e
  simp only [hw, hl]
  cases log with
  | none => rfl
  | some l =>
    simp only
    split
    · cases server with
      | none =>
        cases server' with
        | none => rfl
        | some _ => cases e
      | some s =>
        cases server' with
        | none => cases e
        | some s' =>
          obtain ⟨n, p, b⟩ := s
          obtain ⟨n', p', b'⟩ := s'
          simp only [Option.map_some, Option.some.injEq, serverNoUdp, Startup.ServerConf.mk.injEq] at e
          obtain ⟨-, e, rfl⟩ := e
          simp only
          cases b with
          | none => rfl
          | some b =>
            cases p with
            | none =>
              cases p' with
              | none => rfl
              | some _ => cases e
            | some p =>
              cases p' with
              | none => cases e
              | some p' =>
                simp only [Option.map_some, Option.some.injEq] at e
                simp only
                rw [← listen_noUdp w l p, ← listen_noUdp w l p', e]
    · rfl

/-- Though a port for UDP is part of the configuration, the process does the same whatever it is: nothing listens there. -/
theorem C135_udp (w w' : Startup.World) (path : String) (hp : path ≠ "embedded-default-server-config")
    (hp' : path ≠ "embedded-default-client-config") (text text' : Str) (hw : w.content path = contentOf text)
    (hw' : w'.content path = contentOf text') (hc : w'.creatable = w.creatable) (hf : w'.free = w.free)
    (a b : List (List Str × Scalar)) (keys : List Str) (v v' : Scalar) (s s' : Str)
    (h : YamlSays text (a ++ (keys, v) :: b)) (h' : YamlSays text' (a ++ (keys, v') :: b)) (ho : OnceEach (a ++ (keys, v) :: b))
    (hk : NamesSetting keys ["server", "port", "udpport"]) (hv : MeansText v s) (hv' : MeansText v' s') :
    Startup.main w path = Startup.main w' path := by
  have n1 : Named ["server", "port", "udpport"] := by unfold Named; decide +kernel
  have hk1 := (names_iff n1).1 hk
  have ho' : OnceEach (a ++ (keys, v') :: b) := by
    unfold OnceEach at ho ⊢
    rw [List.pairwise_append, List.pairwise_cons] at ho ⊢
    refine ⟨ho.1, ho.2.1, fun x hx y hy => ?_⟩
    rcases List.mem_cons.1 hy with rfl | hy
    · exact ho.2.2 x hx (keys, v) List.mem_cons_self
    · exact ho.2.2 x hx y (List.mem_cons_of_mem _ hy)
  have hat : ∀ p, p.map jsonName ≠ keys.map lowerKey →
      YamlFile.at (a ++ (keys, v) :: b) p = YamlFile.at (a ++ (keys, v') :: b) p := by
    intro p hne
    unfold YamlFile.at
    rw [List.find?_append, List.find?_append, List.find?_cons_of_neg (by simpa using fun e => hne e.symm),
      List.find?_cons_of_neg (by simpa using fun e => hne e.symm)]
  have hhas : ∀ p, YamlFile.has (a ++ (keys, v) :: b) p = YamlFile.has (a ++ (keys, v') :: b) p := by
    intro p
    unfold YamlFile.has
    simp
  have t1 := text_said ((setting_at ho n1 _).1 (.given (by simp) hk)) hv
  have t2 := text_said ((setting_at ho' n1 _).1 (.given (by simp) hk)) hv'
  generalize ha : a ++ (keys, v) :: b = es at *
  generalize hb : a ++ (keys, v') :: b = es' at *
  rw [hk1] at hat
  have hval : ∀ p, p.map jsonName ≠ ["server", "port", "udpport"].map jsonName → YamlFile.val es p = YamlFile.val es' p :=
    fun p hp => by unfold YamlFile.val; rw [hat p hp]
  have hsec : (sectionPaths.all fun p => YamlFile.val es p == some .nil) = sectionPaths.all fun p => YamlFile.val es' p == some .nil := by
    rw [Bool.eq_iff_iff, List.all_eq_true, List.all_eq_true]
    have hne : ∀ p ∈ sectionPaths, p.map jsonName ≠ ["server", "port", "udpport"].map jsonName := by decide +kernel
    constructor
    · intro h p hp; rw [← hval p (hne p hp)]; exact h p hp
    · intro h p hp; rw [hval p (hne p hp)]; exact h p hp
  have htext : ∀ p ∈ textSettings, p ≠ ["server", "port", "udpport"] → YamlFile.text es p = YamlFile.text es' p := by
    have hne : ∀ p ∈ textSettings, p ≠ ["server", "port", "udpport"] → p.map jsonName ≠ ["server", "port", "udpport"].map jsonName := by
      decide +kernel
    intro p h1 h2; unfold YamlFile.text; rw [hval p (hne p h1 h2)]
  have hflag : ∀ p ∈ flagSettings, YamlFile.flag es p = YamlFile.flag es' p := by
    have hne : ∀ p ∈ flagSettings, p.map jsonName ≠ ["server", "port", "udpport"].map jsonName := by decide +kernel
    intro p h1; unfold YamlFile.flag; rw [hval p (hne p h1)]
  have hnum : ∀ p ∈ numberSettings, YamlFile.num es p = YamlFile.num es' p := by
    have hne : ∀ p ∈ numberSettings, p.map jsonName ≠ ["server", "port", "udpport"].map jsonName := by decide +kernel
    intro p h1; unfold YamlFile.num; rw [hval p (hne p h1)]
  have hother : (otherTexts.all fun p => (YamlFile.text es p).isSome) = (otherTexts.all fun p => (YamlFile.text es' p).isSome) := by
    rw [Bool.eq_iff_iff, List.all_eq_true, List.all_eq_true]
    have hm : ∀ p ∈ otherTexts, p ∈ textSettings ∧ p ≠ ["server", "port", "udpport"] := by decide +kernel
    constructor
    · intro h p hp; rw [← htext p (hm p hp).1 (hm p hp).2]; exact h p hp
    · intro h p hp; rw [htext p (hm p hp).1 (hm p hp).2]; exact h p hp
  have hother' : (otherNumbers.all fun p => (YamlFile.num es p).isSome) = (otherNumbers.all fun p => (YamlFile.num es' p).isSome) := by
    rw [Bool.eq_iff_iff, List.all_eq_true, List.all_eq_true]
    have hm : ∀ p ∈ otherNumbers, p ∈ numberSettings := by decide +kernel
    constructor
    · intro h p hp; rw [← hnum p (hm p hp)]; exact h p hp
    · intro h p hp; rw [hnum p (hm p hp)]; exact h p hp
  have hnum := hnum ["client", "concurrency"] (by simp [numberSettings])
  have x1 := htext ["log", "loglevel"] (by decide) (by decide)
  have x2 := htext ["log", "logdirectory"] (by decide) (by decide)
  have x3 := htext ["server", "name"] (by decide) (by decide)
  have x4 := htext ["server", "port", "tcpport"] (by decide) (by decide)
  have x5 := htext ["server", "port", "httpport"] (by decide) (by decide)
  have x6 := htext ["server", "banner", "bannerpath"] (by decide) (by decide)
  have x7 := htext ["client", "conn", "remoteaddr"] (by decide) (by decide)
  simp only [flagSettings, List.mem_cons, List.not_mem_nil, or_false, forall_eq_or_imp, forall_eq] at hflag
  obtain ⟨y1, y2, y3, y4⟩ := hflag
  have hlog : YamlFile.log es = YamlFile.log es' := by unfold YamlFile.log; rw [hhas, y1, y2, y3, x1, x2]
  have hban : YamlFile.banner es = YamlFile.banner es' := by unfold YamlFile.banner; rw [hhas, y4, x6]
  have hcli : YamlFile.client es = YamlFile.client es' := by unfold YamlFile.client; simp only [hhas, x7, hnum]
  have hport : (YamlFile.port es).map (·.map portNoUdp) =
      (YamlFile.port es').map (·.map portNoUdp) := by
    unfold YamlFile.port
    rw [hhas, x4, x5, t1, t2]
    split
    · cases YamlFile.text es' ["server", "port", "tcpport"] <;> cases YamlFile.text es' ["server", "port", "httpport"] <;> rfl
    · rfl
  have hconf : (YamlFile.conf es).map noUdp = (YamlFile.conf es').map noUdp := by
    unfold YamlFile.conf
    rw [hsec, hother, hother', hlog, hcli]
    split
    · have hserv : (YamlFile.server es).map (·.map serverNoUdp) =
          (YamlFile.server es').map (·.map serverNoUdp) := by
        unfold YamlFile.server
        rw [hhas, x3, hban]
        split
        · revert hport
          cases YamlFile.port es <;> cases YamlFile.port es' <;> cases YamlFile.text es' ["server", "name"] <;>
            cases YamlFile.banner es' <;> simp [serverNoUdp]
        · rfl
      revert hserv
      cases YamlFile.server es <;> cases YamlFile.server es' <;> cases YamlFile.log es' <;> cases YamlFile.client es' <;>
        simp [noUdp]
    · rfl
  have hload : ∀ (w : Startup.World) (text : Str) (es : List (List Str × Scalar)), w.content path = contentOf text →
      YamlSays text es → (Startup.Loaded.start.load w path).2 = YamlFile.conf es := by
    intro w text es hw h
    unfold Startup.Loaded.load
    simp only [Startup.Loaded.start, Bool.false_eq_true, if_false, if_neg hp, if_neg hp']
    rw [hw]
    unfold contentOf
    rw [C135_read _ _ h, Option.bind_some]
    cases YamlFile.conf es <;> rfl
  have e1 := hload w text es hw h
  have e2 := hload w' text' es' hw' h'
  cases g1 : YamlFile.conf es with
  | none =>
    rw [g1] at hconf e1
    cases g2 : YamlFile.conf es' with
    | none =>
      rw [g2] at e2
      unfold Startup.main
      rw [e1, e2]
    | some c => rw [g2] at hconf; cases hconf
  | some c =>
    cases g2 : YamlFile.conf es' with
    | none => rw [g1, g2] at hconf; cases hconf
    | some c' =>
      rw [g1, g2] at hconf
      injection hconf with hconf
      exact main_noUdp hc hf (e1.trans g1) (e2.trans g2) hconf

/-! ## Examples -/

/-- Another way to write a configuration: other indentation, remarks, ports without quotes, keys in capitals, a section that is
empty. -/
def demoLines (udp : String) : List Str :=
  ["# ours", "server:   # sections in another order", "    PORT:", "", "       httpPort: 9009 # no quotes", "       TCPPORT: \"9#90\"",
    "       udpPort: " ++ udp, "    banner:", "     enable: false  ", "client:", "log:", " logDirectory: \"./logs/\""].map (·.toUTF8.toList)

def demoSettings (udp : String) : List (List Str × Scalar) :=
  [(["server", "PORT", "httpPort"], .plain "9009".toUTF8.toList), (["server", "PORT", "TCPPORT"], .quoted "9#90".toUTF8.toList),
    (["server", "PORT", "udpPort"], .plain udp.toUTF8.toList), (["server", "banner", "enable"], .plain "false".toUTF8.toList),
    (["log", "logDirectory"], .quoted "./logs/".toUTF8.toList)].map fun e => (e.1.map (·.toUTF8.toList), e.2)

theorem block_cast {n : Nat} {ls ls' : List Str} {es es' : List (List Str × Scalar)} (h : YamlBlock n ls es) (e : ls = ls')
    (e' : es = es') : YamlBlock n ls' es' := by rw [← e, ← e']; exact h

theorem demo_says (udp : String) (h : udp = "1" ∨ udp = "8081") : YamlSays (unlines (demoLines udp)) (demoSettings udp) := by
  have hk : ∀ k ∈ ["server", "PORT", "httpPort", "TCPPORT", "udpPort", "banner", "enable", "client", "log", "logDirectory"],
      YamlKey (String.toUTF8 k).toList := by unfold YamlKey; decide +kernel
  simp only [List.mem_cons, List.not_mem_nil, or_false, forall_eq_or_imp, forall_eq] at hk
  obtain ⟨k1, k2, k3, k4, k5, k6, k7, k8, k9, k10⟩ := hk
  have hp : ∀ s ∈ ["9009", "false", "1", "8081"], YamlScalar (.plain (String.toUTF8 s).toList) (String.toUTF8 s).toList := by
    intro s hs
    refine .plain ?_ ?_ <;> revert s <;> decide +kernel
  have hu : YamlScalar (.plain udp.toUTF8.toList) udp.toUTF8.toList := hp udp (by rcases h with rfl | rfl <;> simp)
  refine ⟨demoLines udp, by simp [demoLines], by rcases h with rfl | rfl <;> decide +kernel, rfl, ?_⟩
  have b1 := YamlBlock.value (n := 7) k5 hu (.none 0) .nil
  have b2 := YamlBlock.value (n := 7) k4 (.quoted (s := "9#90".toUTF8.toList) (by decide +kernel) (by decide +kernel)) (.none 0) b1
  have b3 := YamlBlock.value (n := 7) k3 (hp "9009" (by simp)) (.comment 1 " no quotes".toUTF8.toList (by decide)) b2
  have b4 := YamlBlock.empty (.blank 0) b3
  have ban := YamlBlock.value (n := 5) k7 (hp "false" (by simp)) (.none 2) .nil
  have c1 := YamlBlock.section (n := 4) (m := 5) k6 (.none 0) (by decide) ban .nil
  have c2 := YamlBlock.section (n := 4) (m := 7) k2 (.none 0) (by decide) b4 c1
  have lg := YamlBlock.value (n := 1) k10 (.quoted (s := "./logs/".toUTF8.toList) (by decide +kernel) (by decide +kernel)) (.none 0) .nil
  have d1 := YamlBlock.section (n := 0) (m := 1) k9 (.none 0) (by decide) lg .nil
  have d2 := YamlBlock.section (n := 0) (m := 1) k8 (.none 0) (by decide) .nil d1
  have d3 := YamlBlock.section (n := 0) (m := 4) k1 (.comment 3 " sections in another order".toUTF8.toList (by decide)) (by decide) c2 d2
  have d4 := YamlBlock.empty (.comment 0 " ours".toUTF8.toList) d3
  rcases h with rfl | rfl <;> exact block_cast d4 (by decide +kernel) (by decide +kernel)

theorem demo_once (udp : String) (h : udp = "1" ∨ udp = "8081") : OnceEach (demoSettings udp) := by
  unfold OnceEach
  rcases h with rfl | rfl <;> decide +kernel

/-- What the reader makes of it. -/
example : (readYaml (unlines (demoLines "1"))).bind (·.conf) =
    some ⟨some ⟨false, false, false, "", "./logs/"⟩, some ⟨"", some ⟨"9#90", "1", "9009"⟩, some ⟨false, ""⟩⟩, none⟩ := by
  decide +kernel

-- the two texts of C135_udp
example : ∃ a b, demoSettings "1" = a ++ (["server", "PORT", "udpPort"].map (·.toUTF8.toList), .plain "1".toUTF8.toList) :: b ∧
    demoSettings "8081" = a ++ (["server", "PORT", "udpPort"].map (·.toUTF8.toList), .plain "8081".toUTF8.toList) :: b ∧
    NamesSetting (["server", "PORT", "udpPort"].map (·.toUTF8.toList)) ["server", "port", "udpport"] ∧
    MeansText (.plain "1".toUTF8.toList) "1".toUTF8.toList :=
  ⟨(demoSettings "1").take 2, (demoSettings "1").drop 3, by decide +kernel, by decide +kernel, by unfold NamesSetting; decide +kernel,
    by rw [show "1".toUTF8.toList = [0x31] by decide +kernel]
       exact .number (by decide +kernel) (fun d h => (by cases h)) (by decide)⟩

-- every setting fits: C135_comes_up
example : Fits (demoSettings "1") ∧ InSection (demoSettings "1") ["log"] ∧ InSection (demoSettings "1") ["server", "port"] ∧
    InSection (demoSettings "1") ["server", "banner"] := by
  have ho := demo_once "1" (.inl rfl)
  refine ⟨⟨fun p hp v hv => ?_, fun p hp v hv => ?_, fun p hp v hv => ?_, fun p hp => ?_⟩, ?_, ?_, ?_⟩
  · have key : ∀ p ∈ flagSettings, YamlFile.at (demoSettings "1") p ∈ [none, some (.plain "false".toUTF8.toList)] := by
      decide +kernel
    have := key p hp
    rw [(setting_at ho (names_ascii p (by simp only [List.mem_append]; exact .inl (.inl (.inl hp)))) _).1 hv] at this
    simp only [List.mem_cons, List.not_mem_nil, or_false, reduceCtorEq, false_or, Option.some.injEq] at this
    rw [this]
    exact ⟨_, .no⟩
  · have key : ∀ p ∈ textSettings, YamlFile.at (demoSettings "1") p ∈ [none, some (.plain [0x39, 0x30, 0x30, 0x39]),
        some (.quoted "9#90".toUTF8.toList), some (.plain [0x31]), some (.quoted "./logs/".toUTF8.toList)] := by decide +kernel
    have := key p hp
    rw [(setting_at ho (names_ascii p (by simp only [List.mem_append]; exact .inl (.inl (.inr hp)))) _).1 hv] at this
    simp only [List.mem_cons, List.not_mem_nil, or_false, reduceCtorEq, false_or, Option.some.injEq] at this
    rcases this with rfl | rfl | rfl | rfl
    · exact ⟨_, .number (by decide +kernel) (by decide +kernel) (by decide)⟩
    · exact ⟨_, .quoted⟩
    · exact ⟨_, .number (by decide +kernel) (by decide +kernel) (by decide)⟩
    · exact ⟨_, .quoted⟩
  · have key : ∀ p ∈ numberSettings, YamlFile.at (demoSettings "1") p = none := by decide +kernel
    have := key p hp
    rw [(setting_at ho (names_ascii p (by simp only [List.mem_append]; exact .inr hp)) _).1 hv] at this
    cases this
  · rw [setting_at ho (names_ascii p (by simp only [List.mem_append]; exact .inl (.inr hp)))]
    revert p
    decide +kernel
  all_goals
    rw [← has_iff (by unfold Named; decide +kernel)]
    decide +kernel

-- and a text that says what another one says, in another order
example : ((demoSettings "1").map fun e => (e.1.map (·.map lower), e.2)).Perm
    (((demoSettings "1").reverse.map fun e => (e.1.map (·.map lower), e.2))) := by
  rw [List.map_reverse]
  exact (List.reverse_perm _).symm

end JT808
