import Verif.Model.JsonGeo
import Verif.Props.JsonText
import Verif.Props.Floats
import Verif.Props.Handlers
import Verif.Proof.Status
/-
C120: the text of the answer to a position query.
-/
namespace JT808

namespace Spec

/-- The number a value stands for is `n / d`. -/
def Ratio (v : JVal) (n d : Nat) : Prop :=
  match v with
  | .num m => m * d = n
  | .dec a p => a * d = n * 10 ^ p
  | _ => False

/-- What the twenty switches of a report are called, with their positions in the status word and how many bits they have. -/
def switches : List (String × Nat × Nat) :=
  [("accStatus", 0, 1), ("locationStatus", 1, 1), ("latitudeType", 2, 1), ("longitudeType", 3, 1), ("operatingStatus", 4, 1),
   ("geoEncryptionStatus", 5, 1), ("loadStatus", 8, 2), ("FuelSystemStatus", 10, 1), ("AlternatorSystemStatus", 11, 1),
   ("DoorLockedStatus", 12, 1), ("frontDoorStatus", 13, 1), ("midDoorStatus", 14, 1), ("backDoorStatus", 15, 1),
   ("driverDoorStatus", 16, 1), ("customDoorStatus", 17, 1), ("gpsLocationStatus", 18, 1), ("beidouLocationStatus", 19, 1),
   ("glonassLocationStatus", 20, 1), ("galileoLocationStatus", 21, 1), ("drivingStatus", 22, 1)]

/-- The position of a report of the phone with the given fields, received at `now`, as it is shown: degrees and kilometres per
hour as numbers with a point. `time` is how a time is written. -/
def Positioned (time : Civil → List Nat) (now : Civil) (phone : Str) (m : LocMsg) (v : JVal) : Prop :=
  ∃ ph lat long speed, Seen phone ph ∧ Ratio lat m.lat.toNat 1000000 ∧ Ratio long m.long.toNat 1000000 ∧
    Ratio speed m.speed.toNat 10 ∧
    v = .obj [(chars "phone", .str ph),
      (chars "gis", .obj (switches.map fun s => (chars s.1, .num (m.status.toNat / 2 ^ s.2.1 % 2 ^ s.2.2)))),
      (chars "location", .obj [(chars "latitude", lat), (chars "longitude", long), (chars "altitude", .num m.alt.toNat)]),
      (chars "drive", .obj [(chars "speed", speed), (chars "direction", .num m.dir.toNat)]),
      (chars "time", .str (time (parseTime now m.time)))]

/-- The answer: fifteen members. The connection and the time the terminal was last heard of are named, but say nothing. -/
def Answered (d : Device) (pos v : JVal) : Prop :=
  ∃ id plate phone addr code imei soft,
    Seen d.id id ∧ Seen d.plate plate ∧ Seen d.phone phone ∧ Seen d.sessionID addr ∧ Seen d.authCode code ∧
    Seen d.imei imei ∧ Seen d.software soft ∧
    v = .obj [(chars "AuthCode", .str code), (chars "Conn", .obj []), (chars "ID", .str id), (chars "IMEI", .str imei),
      (chars "Keepalive", .num (d.keepalive * 1000000)), (chars "LastestComTime", .obj []), (chars "Phone", .str phone),
      (chars "Plate", .str plate), (chars "ProtocolVersion", .num d.protoVer.toNat), (chars "SessionID", .str addr),
      (chars "SoftwareVersion", .str soft), (chars "Status", .num (statusNumber d.status)),
      (chars "TransProto", .str (chars (match d.conn with | some _ => "TCP" | none => "UDP"))),
      (chars "VersionDesc", .num (versionNumber d.ver)), (chars "gis", pos)]

/-- `fmt` chooses a decimal with the smallest number of digits, whenever there is a decimal for the number. -/
def Chooses (fmt : F64 → Nat × Int) : Prop :=
  ∀ x, (∃ d, Prints x d) → Prints x ⟨(fmt x).1, (fmt x).2⟩

end Spec

open Spec

theorem foldl_digits (l : List UInt8) (v : Nat) :
    l.foldl (fun v b => 10 * v + (b.toNat - 0x30)) v = v * 10 ^ l.length + decimalValue l := by
  unfold decimalValue
  induction l generalizing v with
  | nil => simp
  | cons b l ih =>
    rw [List.foldl_cons, List.foldl_cons, ih, ih (10 * 0 + _), List.length_cons, Nat.pow_succ]
    rw [Nat.add_mul, Nat.add_mul]
    have : 10 * v * 10 ^ l.length = v * (10 ^ l.length * 10) := by
      rw [Nat.mul_comm 10 v, Nat.mul_assoc, Nat.mul_comm 10]
    omega

theorem decimalValue_append (s f : List UInt8) : decimalValue (s ++ f) = decimalValue s * 10 ^ f.length + decimalValue f := by
  have := foldl_digits f (decimalValue s)
  rw [← this]
  unfold decimalValue
  rw [List.foldl_append]

theorem decimalPad_digits (w n : Nat) : AllDigits (decimalPad w n) := by
  intro b hb
  unfold decimalPad at hb
  rcases List.mem_append.1 hb with h | h
  · rw [(List.mem_replicate.1 h).2]; decide
  · exact decimal_digits n b h

theorem decimalPad_length {w n : Nat} (hw : 0 < w) (hn : n < 10 ^ w) : (decimalPad w n).length = w := by
  have := decimal_length hn hw
  unfold decimalPad
  rw [List.length_append, List.length_replicate]
  omega

theorem decimalValue_pad (w n : Nat) : decimalValue (decimalPad w n) = n := by
  unfold decimalPad
  rw [decimalValue_append, decimalValue_decimal]
  have : ∀ k, decimalValue (List.replicate k 0x30) = 0 := by
    intro k
    induction k with
    | zero => rfl
    | succ k ih =>
      rw [List.replicate_succ]
      exact ih
  rw [this]; omega

theorem decimal_head (n : Nat) : (decimal n).head? = some 0x30 → (decimal n).length = 1 := by
  have h := jtext_decimal n
  generalize hs : decimal n = s at h ⊢
  generalize hv : JVal.num n = v at h
  cases h with
  | num _ _ h => exact h
  | _ => cases hv

/-- The text of a decimal number denotes it. -/
theorem fixedText_text (a : Nat) (e : Int) :
    ∃ v, JText (fixedText a e) v ∧ ∀ n d, (⟨a, e⟩ : Decimal).num * d = n * (⟨a, e⟩ : Decimal).den → Ratio v n d := by
  unfold fixedText
  by_cases ha : a = 0
  · rw [if_pos ha]
    subst ha
    refine ⟨.num 0, jtext_decimal 0, fun n d h => ?_⟩
    unfold Decimal.num Decimal.den at h
    simp only [Nat.zero_mul] at h
    rcases Nat.mul_eq_zero.1 h.symm with h | h
    · simp [Ratio, h]
    · exact absurd h (Nat.pos_iff_ne_zero.1 (ten_pos _))
  · rw [if_neg ha]
    by_cases he : 0 ≤ e
    · rw [if_pos he]
      refine ⟨_, jtext_decimal _, fun n d h => ?_⟩
      unfold Decimal.num Decimal.den at h
      simp only [show (-e).toNat = 0 by omega, Nat.pow_zero, Nat.mul_one] at h
      exact h
    · rw [if_neg he]
      have hp : 0 < (-e).toNat := by omega
      have hlt := Nat.mod_lt a (ten_pos (-e).toNat)
      have hl := decimalPad_length hp hlt
      refine ⟨_, JText.dec (decimal_ne_nil _) (decimal_digits _) (decimal_head _) ?_ (decimalPad_digits _ _), fun n d h => ?_⟩
      · intro h0; rw [h0] at hl; simp at hl; omega
      · rw [decimalValue_append, hl, decimalValue_decimal, decimalValue_pad]
        unfold Decimal.num Decimal.den at h
        simp only [show e.toNat = 0 by omega, Nat.pow_zero, Nat.mul_one] at h
        show (a / 10 ^ (-e).toNat * 10 ^ (-e).toNat + a % 10 ^ (-e).toNat) * d = n * 10 ^ (-e).toNat
        rw [Nat.mul_comm (a / _), Nat.div_add_mod]
        exact h

/-- There is a decimal with the smallest number of digits. -/
theorem prints_exists {n p : Nat} : ∃ d, Prints (f64div n (10 ^ p)) d := by
  have hself : (f64div n (10 ^ p)).Same (Decimal.parse ⟨n, -(p : Int)⟩) := by
    unfold Decimal.parse
    have e1 : Decimal.num ⟨n, -(p : Int)⟩ = n := by
      show n * 10 ^ (-(p : Int)).toNat = n
      rw [show (-(p : Int)).toNat = 0 by omega]; simp
    have e2 : Decimal.den ⟨n, -(p : Int)⟩ = 10 ^ p := by
      show 10 ^ (- -(p : Int)).toNat = 10 ^ p
      rw [show (- -(p : Int)).toNat = p by omega]
    rw [e1, e2]; rfl
  generalize f64div n (10 ^ p) = x at hself
  have key : ∀ k, (∃ d : Decimal, x.Same d.parse ∧ d.a < 10 ^ k) → ∃ d, Prints x d := by
    intro k
    induction k using Nat.strongRecOn with
    | _ k ih =>
      rintro ⟨d, h1, h2⟩
      by_cases h : ∃ k' < k, ∃ d : Decimal, x.Same d.parse ∧ d.a < 10 ^ k'
      · obtain ⟨k', hk, hd⟩ := h
        exact ih k' hk hd
      · refine ⟨d, h1, fun d' hd' k' hk' => ?_⟩
        rcases Nat.lt_or_ge k' k with hlt | hge
        · exact absurd ⟨k', hlt, d', hd', hk'⟩ h
        · exact Nat.lt_of_lt_of_le h2 (Nat.pow_le_pow_right (by omega) hge)
  exact key n ⟨_, hself, Nat.lt_pow_self (by omega)⟩

theorem float_text {fmt : F64 → Nat × Int} (hf : Chooses fmt) {n p : Nat} (hn : n < 10 ^ 15) (hp : p ≤ 250) :
    ∃ v, JText (fixedText (fmt (f64div n (10 ^ p))).1 (fmt (f64div n (10 ^ p))).2) v ∧ Ratio v n (10 ^ p) := by
  obtain ⟨v, h1, h2⟩ := fixedText_text (fmt (f64div n (10 ^ p))).1 (fmt (f64div n (10 ^ p))).2
  exact ⟨v, h1, h2 _ _ (C102_exact n p hn hp _ (hf _ prints_exists))⟩

theorem geoMeta_text (w : UInt32) :
    JText (GeoMeta.decode w).json (.obj (switches.map fun s => (chars s.1, .num (w.toNat / 2 ^ s.2.1 % 2 ^ s.2.2)))) := by
  obtain ⟨d0, d1, d2, d3, d4, d5, d6, d7, d8, d9, d10, d11, d12, d13, d14, d15, d16, d17, d18, d19⟩ :=
    GeoMeta.decode_toNat w
  unfold bits at *
  unfold GeoMeta.json
  rw [d0, d1, d2, d3, d4, d5, d6, d7, d8, d9, d10, d11, d12, d13, d14, d15, d16, d17, d18, d19]
  refine jsonStruct_text ?_
  refine .more ?_ (jtext_decimal _) (.more ?_ (jtext_decimal _) (.more ?_ (jtext_decimal _) (.more ?_ (jtext_decimal _)
    (.more ?_ (jtext_decimal _) (.more ?_ (jtext_decimal _) (.more ?_ (jtext_decimal _) (.more ?_ (jtext_decimal _)
    (.more ?_ (jtext_decimal _) (.more ?_ (jtext_decimal _) (.more ?_ (jtext_decimal _) (.more ?_ (jtext_decimal _)
    (.more ?_ (jtext_decimal _) (.more ?_ (jtext_decimal _) (.more ?_ (jtext_decimal _) (.more ?_ (jtext_decimal _)
    (.more ?_ (jtext_decimal _) (.more ?_ (jtext_decimal _) (.more ?_ (jtext_decimal _) (.one ?_ (jtext_decimal _))))))))))))))))))))
  all_goals (unfold PlainName; decide)

theorem deviceGeo_text {fmt : F64 → Nat × Int} (hf : Chooses fmt) {showTime : Civil → Str} {time : Civil → List Nat}
    (ht : ∀ c, JChars (showTime c) (time c)) (now : Civil) (phone : Str) (m : LocMsg) :
    ∃ v, Positioned time now phone m v ∧ JText ((DeviceGeo.decode now phone m).json fmt showTime) v := by
  obtain ⟨ph, a1, b1⟩ := jtext_string phone
  have l1 := m.lat.toNat_lt
  have l2 := m.long.toNat_lt
  have l3 := m.speed.toNat_lt
  obtain ⟨lat, c1, r1⟩ := float_text hf (n := m.lat.toNat) (p := 6) (by omega) (by omega)
  obtain ⟨long, c2, r2⟩ := float_text hf (n := m.long.toNat) (p := 6) (by omega) (by omega)
  obtain ⟨speed, c3, r3⟩ := float_text hf (n := m.speed.toNat) (p := 1) (by omega) (by omega)
  refine ⟨_, ⟨ph, lat, long, speed, a1, r1, r2, r3, rfl⟩, jsonStruct_text ?_⟩
  refine .more ?_ b1 (.more ?_ (geoMeta_text _) (.more ?_ (jsonStruct_text (.more ?_ c1 (.more ?_ c2 (.one ?_ (jtext_decimal _)))))
    (.more ?_ (jsonStruct_text (.more ?_ c3 (.one ?_ (jtext_decimal _)))) (.one ?_ (.str (ht _))))))
  all_goals (unfold PlainName; decide)

theorem transProto_text (d : Device) : JText (jsonString (jsonName (if d.conn.isSome then "TCP" else "UDP")))
    (.str (chars (match d.conn with | some _ => "TCP" | none => "UDP"))) := by
  obtain ⟨t, h1, h2⟩ := jtext_string (jsonName (if d.conn.isSome then "TCP" else "UDP"))
  have h3 : Seen (jsonName (if d.conn.isSome then "TCP" else "UDP"))
      (chars (match d.conn with | some _ => "TCP" | none => "UDP")) := by
    cases d.conn
    · exact seen_name (s := "UDP") (by unfold PlainName; decide)
    · exact seen_name (s := "TCP") (by unfold PlainName; decide)
  rw [← seen_unique h1 h3]
  exact h2

/-- The text written for a device and the position stored for a report: JSON with one meaning, which gives the reported
numbers exactly. -/
theorem C120_answer (fmt : F64 → Nat × Int) (hf : Chooses fmt) (showTime : Civil → Str) (time : Civil → List Nat)
    (ht : ∀ c, JChars (showTime c) (time c)) (d : Device) (now : Civil) (phone : Str) (m : LocMsg) :
    ∃ pos v, Positioned time now phone m pos ∧ Answered d pos v ∧
      JText (geoBody fmt showTime d (DeviceGeo.decode now phone m)) v ∧
      ∀ v', JText (geoBody fmt showTime d (DeviceGeo.decode now phone m)) v' → v' = v := by
  obtain ⟨pos, hp, htext⟩ := deviceGeo_text hf ht now phone m
  obtain ⟨id, a1, b1⟩ := jtext_string d.id
  obtain ⟨plate, a2, b2⟩ := jtext_string d.plate
  obtain ⟨ph, a3, b3⟩ := jtext_string d.phone
  obtain ⟨addr, a4, b4⟩ := jtext_string d.sessionID
  obtain ⟨code, a5, b5⟩ := jtext_string d.authCode
  obtain ⟨imei, a6, b6⟩ := jtext_string d.imei
  obtain ⟨soft, a7, b7⟩ := jtext_string d.software
  have cs : decimal d.status.num = decimal (statusNumber d.status) := by cases d.status <;> rfl
  have cv : decimal d.ver.num = decimal (versionNumber d.ver) := by cases d.ver <;> rfl
  obtain ⟨v, hv, h⟩ : ∃ v, Answered d pos v ∧ JText (geoBody fmt showTime d (DeviceGeo.decode now phone m)) v := by
    refine ⟨_, ⟨id, plate, ph, addr, code, imei, soft, a1, a2, a3, a4, a5, a6, a7, rfl⟩, ?_⟩
    unfold geoBody
    rw [cs, cv]
    refine jsonStruct_text (.more ?_ b5 (.more ?_ .obj0 (.more ?_ b1 (.more ?_ b6 (.more ?_ (jtext_decimal _) (.more ?_ .obj0
      (.more ?_ b3 (.more ?_ b2 (.more ?_ (jtext_decimal _) (.more ?_ b4 (.more ?_ b7 (.more ?_ (jtext_decimal _)
      (.more ?_ (transProto_text d) (.more ?_ (jtext_decimal _) (.one ?_ htext)))))))))))))))
    all_goals (unfold PlainName; decide)
  exact ⟨pos, v, hp, hv, h, fun v' hv' => jtext_unique hv' h⟩

theorem Track.decoded {env : Env} {p : Str} {evs : List Ev} {gs : List DeviceGeo} (h : Track env p evs gs) :
    ∀ g ∈ gs, ∃ now m, g = DeviceGeo.decode now p m := by
  induction h with
  | nil => intro g hg; cases hg
  | report _ hr ih =>
    intro g hg
    rcases List.mem_append.1 hg with hg | hg
    · exact ih g hg
    · obtain ⟨clk, _, _, _, _, m, _, _, _, _, _, he⟩ := hr
      rw [List.mem_singleton.1 hg]
      exact ⟨clk.civil, m, he⟩
  | clear _ _ _ => intro g hg; cases hg
  | other _ _ _ ih => exact ih

/-- After any history: if the position of a registered phone is answered at all (C40), the answer is a JSON text with one meaning
that gives the numbers of the latest report exactly, and what is known of the device. -/
theorem C120_latest_partial (env : Env) (fmt : F64 → Nat × Int) (hf : Chooses fmt) (showTime : Civil → Str)
    (time : Civil → List Nat) (ht : ∀ c, JChars (showTime c) (time c)) (evs : List Ev) (p : Str) (gs : List DeviceGeo)
    (htr : Track env p evs gs) (d : Device) (hd : (Sys.start.run env evs).1.st.look p = some d) (d' : Device)
    (shown : DeviceGeo) (hs : ((Sys.start.run env evs).1.st.apiGeo p).2.2 = some (d', shown)) :
    ∃ now m pos v, gs.getLast? = some (DeviceGeo.decode now p m) ∧ Positioned time now p m pos ∧ Answered d pos v ∧
      JText (geoBody fmt showTime d' shown) v ∧ ∀ v', JText (geoBody fmt showTime d' shown) v' → v' = v := by
  rw [C40_newest_partial env evs p gs htr d hd] at hs
  simp only at hs
  split at hs
  · cases hs
  · cases hl : gs.getLast? with
    | none => rw [hl] at hs; cases hs
    | some g =>
      rw [hl] at hs
      simp only [Option.map_some, Option.some.injEq, Prod.mk.injEq] at hs
      obtain ⟨rfl, rfl⟩ := hs
      obtain ⟨now, m, rfl⟩ := htr.decoded g (List.mem_of_getLast? hl)
      obtain ⟨pos, v, h1, h2, h3, h4⟩ := C120_answer fmt hf showTime time ht d now p m
      exact ⟨now, m, pos, v, rfl, h1, h2, h3, h4⟩

/-- When the terminal was last heard of is not shown: a heartbeat does not change the answer. -/
theorem C120_last_heard (env : Env) (fmt : F64 → Nat × Int) (showTime : Civil → Str) (clk : Clock) (c : Conn) (st : Store)
    (hr : Reachable env st) (frame : List UInt8) (h : Header) (hh : Holds env clk.civil frame h .m0002) (d : Device)
    (g : DeviceGeo) (hd : (st.apiGeo h.phone).2.2 = some (d, g)) :
    ∃ d', ((st.handleFrame env clk c frame).1.apiGeo h.phone).2.2 = some (d', g) ∧ d'.last = clk.ms ∧
      geoBody fmt showTime d' g = geoBody fmt showTime d g := by
  have hl : st.look h.phone = some d ∧ (st.track h.phone).latest = .ok (some g) := by
    have hg := geoLatest_eq st h.phone
    cases hk : st.look h.phone with
    | none =>
      have : st.devByPhone h.phone = none := by simpa [Store.look] using hk
      unfold Store.apiGeo at hd
      rw [this] at hd
      cases hd
    | some d0 =>
      cases ho : (st.track h.phone).latest with
      | ok o =>
        rw [apiGeo_eq st h.phone d0 o hk ho] at hd
        cases o with
        | none => cases hd
        | some g' =>
          simp only [Option.map_some, Option.some.injEq, Prod.mk.injEq] at hd
          obtain ⟨rfl, rfl⟩ := hd
          exact ⟨rfl, rfl⟩
      | err e =>
        rw [ho] at hg
        simp only at hg
        unfold Store.apiGeo at hd
        obtain ⟨r, hr, -⟩ := Store.look_some.1 hk
        have hr' : st.devByPhone h.phone = some r := hr
        rw [hr'] at hd
        cases hx : st.geoLatest h.phone with
        | mk st1 res => rw [hx] at hg hd; simp only at hg; subst hg; cases hd
      | panic =>
        rw [ho] at hg
        simp only at hg
        unfold Store.apiGeo at hd
        obtain ⟨r, hr, -⟩ := Store.look_some.1 hk
        have hr' : st.devByPhone h.phone = some r := hr
        rw [hr'] at hd
        cases hx : st.geoLatest h.phone with
        | mk st1 res => rw [hx] at hg hd; simp only at hg; subst hg; cases hd
  obtain ⟨st', he, h1, -, -, hrest⟩ := C64_heartbeat env clk c st hr frame h hh d hl.1
  rw [he]
  refine ⟨{ d with last := clk.ms }, ?_, rfl, rfl⟩
  have hk := h1 h.phone
  rw [if_pos rfl] at hk
  have htk : (st'.track h.phone).latest = .ok (some g) := by
    rw [← hl.2]
    unfold Store.track
    rw [hrest.geos]
  rw [apiGeo_eq st' h.phone _ _ hk htk]
  rfl

open Classical in
/-- There is such a choice. -/
noncomputable def anyChoice (x : F64) : Nat × Int :=
  if h : ∃ d, Prints x d then (Classical.choose h |>.a, Classical.choose h |>.e) else (0, 0)

theorem anyChoice_chooses : Chooses anyChoice := by
  intro x h
  unfold anyChoice
  rw [dif_pos h]
  exact Classical.choose_spec h

/-- Of a time only the year, for the examples. -/
def plainCivil (c : Civil) : Str := decimal c.year

theorem plainCivil_chars (c : Civil) : JChars (plainCivil c) ((decimal c.year).map UInt8.toNat) := plainTime_chars c.year

/-- Applied to the demonstration after one report, whose latitude is 31230000 millionths of a degree. -/
example : ∃ now m pos v, Positioned (fun c => (decimal c.year).map UInt8.toNat) now (hdr2013 0).phone m pos ∧
    m.lat = 31230000 ∧ JText (geoBody anyChoice plainCivil ((demoSys.st.look (hdr2013 0).phone).getD Device.zero)
      (DeviceGeo.decode (demoClk 2000).civil (hdr2013 0).phone (demoLocMsg 3 31230000))) v := by
  obtain ⟨pos, v, h1, _, h3, _⟩ := C120_answer anyChoice anyChoice_chooses plainCivil _ plainCivil_chars
    ((demoSys.st.look (hdr2013 0).phone).getD Device.zero) (demoClk 2000).civil (hdr2013 0).phone (demoLocMsg 3 31230000)
  exact ⟨_, _, pos, v, h1, rfl, h3⟩

/-- 31.23 and 0.000001 degrees and 0 as they are written. -/
example : fixedText 3123 (-2) = [0x33, 0x31, 0x2e, 0x32, 0x33] ∧
    fixedText 1 (-6) = [0x30, 0x2e, 0x30, 0x30, 0x30, 0x30, 0x30, 0x31] ∧ fixedText 0 0 = [0x30] ∧
    fixedText 12 1 = [0x31, 0x32, 0x30] := by decide +kernel

/-- The hypotheses of C120_last_heard hold after one report. -/
example : Reachable goEnv (Sys.start.run goEnv (reportEvs 1)).1.st ∧
    ((Sys.start.run goEnv (reportEvs 1)).1.st.apiGeo (hdr2013 0x0002).phone).2.2.isSome ∧
    Holds goEnv (demoClk 50000).civil demoBeat (hdr2013 0x0002) .m0002 :=
  ⟨⟨_, rfl⟩, by decide +kernel, demoBeat_holds _⟩

end JT808
