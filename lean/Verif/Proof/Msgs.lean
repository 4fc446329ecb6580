import Verif.Proof.Codec
import Verif.Proof.Time
import Verif.Model.Msgs
import Verif.Spec.Body
/-
Helper lemmas for message bodies.
-/
namespace JT808
open Spec

theorem readsAt_string (i : Nat) (n : Int) (s : Str) (h : n = s.length) : ReadsAt i (readString n) s s :=
  readsAt_bytes' i n s h

theorem readsAt_gbk (env : Env) (i : Nat) (n : Int) (g : List UInt8) (s : Str) (h : n = g.length)
    (hd : env.gbkDec g = some s) : ReadsAt i (readGBK env n) g s := by
  unfold readGBK
  refine ReadsAt.bind0 (readsAt_bytes' i n g h) ?_
  simp only [hd]
  exact ReadsAt.pure _ _

theorem readsAt_onRest {α : Type} {i : Nat} {r : Rd α} {bs : List UInt8} {a : α} (h : ReadsAt 0 r bs a) :
    ReadsAt i (Rd.onRest r) bs a := by
  intro pre post slack hi
  subst hi
  have := h [] post slack rfl
  simp only [List.nil_append, Nat.zero_add] at this
  simp only [Rd.onRest, Slice.from']
  rw [if_pos (by simp)]
  simp [List.append_assoc, this]

theorem readsAt_ack (i : Nat) (m : GeneralAck) : ReadsAt i GeneralAck.decode m.encode m := by
  have e : m.encode = put16 m.ansSerial ++ (put16 m.ansID ++ [m.result]) := by
    simp [GeneralAck.encode, writeWord, writeByte]
  rw [e]
  exact .bind (readsAt_word _ _) (.bind (readsAt_word _ _) (.map (readsAt_byte _ _)))

/-- A time string that fills its six bytes: twelve characters 0-9 (or A-E). -/
def TimeStr (s : Str) : Prop := s.length = 12 ∧ ∀ c ∈ s, bcdChar c

theorem readsAt_timeStr (i : Nat) {s : Str} (h : TimeStr s) : ReadsAt i (readBCD 6) (numberStr2BCD s) s := by
  have hl := numberStr2BCD_length h.2 (by rw [h.1]; decide) (by rw [h.1])
  have := readsAt_bcd i 6 (numberStr2BCD s) (by rw [hl, h.1]; rfl)
  rwa [bcd_roundtrip h.2, if_pos (Or.inr (by rw [h.1]))] at this

theorem readsAt_loc (i : Nat) (m : LocMsg) (h : TimeStr m.time) : ReadsAt i LocMsg.decode m.encode m := by
  have e : m.encode = put32 m.alarm ++ (put32 m.status ++ (put32 m.lat ++ (put32 m.long ++
      (put16 m.alt ++ (put16 m.speed ++ (put16 m.dir ++ numberStr2BCD m.time)))))) := by
    simp [LocMsg.encode, writeWord, writeDWord, writeBCD]
  rw [e]
  exact .bind (readsAt_dword _ _) (.bind (readsAt_dword _ _) (.bind (readsAt_dword _ _) (.bind (readsAt_dword _ _)
    (.bind (readsAt_word _ _) (.bind (readsAt_word _ _) (.bind (readsAt_word _ _)
      (.map (readsAt_timeStr _ h))))))))

/-- Times that the two-digit year can express. -/
def Civil.InRange (t : Civil) : Prop := t.Valid ∧ inWindow t.year

def MediaQuery.InRange (q : MediaQuery) : Prop := q.start.InRange ∧ q.stop.InRange

theorem readsAt_query (i : Nat) (now : Civil) (q : MediaQuery) (h : q.InRange) :
    ReadsAt i (MediaQuery.decode now) q.encode q := by
  have e : q.encode = [q.channel] ++ (q.start.bytes ++ (q.stop.bytes ++ (put32 q.alarm ++ (put32 q.alarmExt ++
      ([q.mediaType] ++ ([q.streamType] ++ [q.storageType])))))) := by
    simp [MediaQuery.encode, writeTime, writeBCD, writeDWord, writeByte, numberStr2BCD_formatTime _ h.1.1,
      numberStr2BCD_formatTime _ h.2.1]
  rw [e]
  exact .bind (readsAt_byte _ _) (.bind (readsAt_time _ now _ h.1.1 h.1.2) (.bind (readsAt_time _ now _ h.2.1 h.2.2)
    (.bind (readsAt_dword _ _) (.bind (readsAt_dword _ _) (.bind (readsAt_byte _ _) (.bind (readsAt_byte _ _)
      (.map (readsAt_byte _ _))))))))

theorem readsAt_media (i : Nat) (now : Civil) (m : MediaList) (h : m.query.InRange) :
    ReadsAt i (MediaList.decode now) m.encode m := by
  have e : m.encode = put16 m.ansSerial ++ (put32 m.count ++ (m.query.encode ++ put32 m.size)) := by
    simp [MediaList.encode, writeWord, writeDWord, writeBytes]
  rw [e]
  refine .bind (readsAt_word _ _) (.bind (readsAt_dword _ _) ?_)
  have := readsAt_onRest (i := i + (put16 m.ansSerial).length + (put32 m.count).length)
    (r := mediaDecode now) (bs := m.query.encode ++ put32 m.size) (a := (m.query, m.size))
    (ReadsAt.bind (readsAt_query 0 now m.query h) (ReadsAt.map (readsAt_dword _ m.size)))
  exact .bind0 this (.pure _ _)

theorem readsAt_registerAck (h : Header) (m : RegisterAck) (hl : h.attr.bodyLength.toNat = m.encode.length) :
    ReadsAt 0 (RegisterAck.decode h) m.encode m := by
  have e : m.encode = put16 m.ansSerial ++ ([m.result] ++ m.code) := by
    simp [RegisterAck.encode, writeWord, writeByte, writeString, writeBytes]
  rw [e] at hl ⊢
  obtain ⟨s, r, code⟩ := m
  refine .bind (readsAt_word _ _) (.bind (readsAt_byte _ _) ?_)
  refine ReadsAt.bind (bs := []) (.getIdx _) ?_
  refine .map (readsAt_string _ _ _ ?_)
  simp [put16_length] at hl ⊢
  omega

theorem readsAt_serverTime (i : Nat) (now t : Civil) (h : t.InRange) :
    ReadsAt i (serverTimeDecode now) (serverTimeEncode t) t := by
  have e : serverTimeEncode t = t.bytes := by
    simp [serverTimeEncode, writeTime, writeBCD, numberStr2BCD_formatTime _ h.1]
  rw [e]; exact readsAt_time i now t h.1 h.2

/-! ### Registration -/

theorem trimNul_padOnly (n : Nat) (s : Str) (h : ∀ c ∈ s.getLast?, c ≠ 0) : trimNul (padOnly n s) = s := by
  unfold trimNul padOnly
  rw [List.reverse_append, List.reverse_replicate]
  have e : ∀ k, (List.replicate k (0 : UInt8) ++ s.reverse).dropWhile (· == 0) = s.reverse := by
    intro k
    induction k with
    | zero =>
      simp only [List.replicate_zero, List.nil_append]
      cases hs : s.reverse with
      | nil => rfl
      | cons c t =>
        have : s.getLast? = some c := by
          rw [List.getLast?_eq_head?_reverse, hs]; rfl
        have hc := h c (by simp [this])
        simp [hc]
    | succ k ih => simpa [List.replicate_succ, List.dropWhile_cons] using ih
  rw [e, List.reverse_reverse]

theorem padCut_eq_padded {n : Nat} {s : Str} (h : s.length ≤ n) : padCut n s = padded n s := by
  simp [padCut, padded, List.take_of_length_le h]

theorem padOnly_eq_padded (n : Nat) (s : Str) : padOnly n s = padded n s := rfl

theorem padded_length {n : Nat} {s : Str} (h : s.length ≤ n) : (padded n s).length = n := by
  simp [padded]; omega

/-- A text field that fits into `n` bytes and does not end in NUL. -/
def Fits (n : Nat) (s : Str) : Prop := s.length ≤ n ∧ ∀ c ∈ s.getLast?, c ≠ 0

theorem readsAt_padded (i n : Nat) (s : Str) (h : s.length ≤ n) :
    ReadsAt i (readString n) (padded n s) (padded n s) :=
  readsAt_string i n _ (by rw [padded_length h])

theorem Register.encode_eq (env : Env) (v : Ver) (m : Register) (g : List UInt8) (hg : env.gbkEnc m.plate = some g) :
    m.encode env v = put16 m.province ++ (put16 m.city ++ (padCut (Register.encWidths v).1 m.manufacturer ++
      (padCut (Register.encWidths v).2.1 m.mode ++ (padCut (Register.encWidths v).2.2 m.deviceID ++
        ([m.color] ++ g))))) := by
  simp [Register.encode, writeWord, writeByte, writeGBK, hg]

/-- What the decoder's widths are for a given version and body length. -/
def Register.decWidths (v : Ver) (bodyLength : Nat) : Option (Nat × Nat × Nat) :=
  match v with
  | .v2019 => some (11, 30, 30)
  | .v2013 => if 37 < bodyLength then some (5, 20, 7) else some (5, 8, 7)
  | .v2011 => none

theorem Register.widths_eq (h : Header) (w : Nat × Nat × Nat)
    (hw : Register.decWidths h.attr.verDesc h.attr.bodyLength.toNat = some w) (i : Nat) :
    ReadsAt i (Register.widths h) [] w := by
  unfold Register.widths
  unfold Register.decWidths at hw
  cases hv : h.attr.verDesc with
  | v2019 => simp [hv] at hw; subst hw; exact .pure _ _
  | v2013 =>
    simp only [hv] at hw ⊢
    by_cases hl : 37 < h.attr.bodyLength.toNat
    · rw [if_pos hl] at hw
      rw [if_pos (by omega)]
      injection hw with hw; subst hw; exact .pure _ _
    · rw [if_neg hl] at hw
      rw [if_neg (by omega)]
      injection hw with hw; subst hw; exact .pure _ _
  | v2011 => simp [hv] at hw

theorem readsAt_register (env : Env) (h : Header) (v : Ver) (m : Register) (g : List UInt8)
    (henc : env.gbkEnc m.plate = some g) (hdec : env.gbkDec g = some m.plate)
    (h1 : Fits (Register.encWidths v).1 m.manufacturer) (h2 : Fits (Register.encWidths v).2.1 m.mode)
    (h3 : Fits (Register.encWidths v).2.2 m.deviceID)
    (hw : Register.decWidths h.attr.verDesc h.attr.bodyLength.toNat = some (Register.encWidths v))
    (hl : h.attr.bodyLength.toNat = (m.encode env v).length) :
    ReadsAt 0 (Register.decode env h) (m.encode env v)
      { m with locationDesc := env.region (decimalPad 2 m.province.toNat ++ decimalPad 4 m.city.toNat) } := by
  rw [Register.encode_eq env v m g henc] at hl ⊢
  rw [padCut_eq_padded h1.1, padCut_eq_padded h2.1, padCut_eq_padded h3.1] at hl ⊢
  refine .bind (readsAt_word _ _) (.bind (readsAt_word _ _) ?_)
  refine ReadsAt.bind (bs := []) (Register.widths_eq h _ hw _) ?_
  refine .bind (readsAt_padded _ _ _ h1.1) (.bind (readsAt_padded _ _ _ h2.1) (.bind (readsAt_padded _ _ _ h3.1)
    (.bind (readsAt_byte _ _) ?_)))
  refine ReadsAt.bind (bs := []) (.getIdx _) ?_
  refine .bind0 (readsAt_gbk env _ _ g m.plate ?_ hdec) ?_
  · simp only [List.length_append, padded_length h1.1, padded_length h2.1, padded_length h3.1, put16_length,
      List.length_cons, List.length_nil] at hl ⊢
    omega
  · have e1 := trimNul_padOnly (Register.encWidths v).1 m.manufacturer h1.2
    have e2 := trimNul_padOnly (Register.encWidths v).2.1 m.mode h2.2
    have e3 := trimNul_padOnly (Register.encWidths v).2.2 m.deviceID h3.2
    rw [padOnly_eq_padded] at e1 e2 e3
    rw [e1, e2, e3]
    exact .pure _ _

theorem Register.encode_length (env : Env) (v : Ver) (m : Register) (g : List UInt8)
    (henc : env.gbkEnc m.plate = some g)
    (h1 : Fits (Register.encWidths v).1 m.manufacturer) (h2 : Fits (Register.encWidths v).2.1 m.mode)
    (h3 : Fits (Register.encWidths v).2.2 m.deviceID) :
    (m.encode env v).length = 5 + (Register.encWidths v).1 + (Register.encWidths v).2.1 + (Register.encWidths v).2.2
      + g.length := by
  rw [Register.encode_eq env v m g henc, padCut_eq_padded h1.1, padCut_eq_padded h2.1, padCut_eq_padded h3.1]
  simp only [List.length_append, padded_length h1.1, padded_length h2.1, padded_length h3.1, put16_length,
      List.length_cons, List.length_nil]
  omega

/-! ### Authentication -/

theorem readsAt_auth_2013 (h : Header) (code : Str) (hv : h.attr.verDesc = .v2013)
    (hl : h.attr.bodyLength.toNat = code.length) : ReadsAt 0 (AuthMsg.decode h) code ⟨0, code, [], []⟩ := by
  unfold AuthMsg.decode
  simp only [hv]
  exact .map (f := fun c => (⟨0, c, [], []⟩ : AuthMsg)) (readsAt_string _ _ _ (by simp [hl]))

theorem readsAt_auth_2019 (h : Header) (m : AuthMsg) (hv : h.attr.verDesc = .v2019) (hc : m.code.length ≤ 255)
    (hi : m.imei.length = 15) (hs : Fits 20 m.software) :
    ReadsAt 0 (AuthMsg.decode h) (m.encode .v2019) { m with codeLen := UInt8.ofNat m.code.length } := by
  have e : m.encode .v2019 = [UInt8.ofNat m.code.length] ++ (m.code ++ (m.imei ++ padded 20 m.software)) := by
    simp [AuthMsg.encode, writeString, writeBytes, writeByte, padOnly, padded, hi]
  rw [e]
  unfold AuthMsg.decode
  simp only [hv]
  refine .bind (readsAt_byte _ _) (.bind (readsAt_string _ _ _ ?_) (.bind (readsAt_string _ 15 _ (by simp [hi])) ?_))
  · simp; omega
  · have := ReadsAt.map (f := fun sw => (⟨UInt8.ofNat m.code.length, m.code, m.imei, trimNul sw⟩ : AuthMsg))
      (readsAt_padded (0 + [UInt8.ofNat m.code.length].length + m.code.length + m.imei.length) 20 m.software hs.1)
    rw [← padOnly_eq_padded, trimNul_padOnly _ _ hs.2, padOnly_eq_padded] at this
    exact this

/-! ### Frames -/

theorem ReadsAt.whole {α : Type} {r : Rd α} {bs : List UInt8} {a : α} (h : ReadsAt 0 r bs a) (slack : List UInt8) :
    r ⟨bs, slack⟩ 0 = .ok (a, bs.length) := by
  have := h [] [] slack rfl
  simpa using this

/-- Frame a body, decode the frame, decode the body. -/
theorem frame_body_roundtrip {α : Type} (env : Env) {h : Header} (hw : h.WF) (body : List UInt8)
    (hb : body.length ≤ 1023) (dec : Header → Rd α) (a : α)
    (hr : ReadsAt 0 (dec (h.withBodyLength body.length)) body a) :
    ∃ pd, decodeFrame env (encodeFrame (writeHeader h body)) = .ok pd ∧ pd.header = h.withBodyLength body.length ∧
      pd.segCompleted = false ∧ pd.body.data = body ∧ dec pd.header pd.body 0 = .ok (a, body.length) := by
  obtain ⟨slack, e⟩ := decodeFrame_encodeFrame env (Header.withBodyLength_wf hw body.length (by omega)) body
  exact ⟨_, e, rfl, rfl, rfl, hr.whole slack⟩

end JT808
