import Verif.Props.ParamStore
/-
C100: what a terminal reports that was never sent any parameters.
-/
namespace JT808
open Spec

/-- The bytes of an ASCII text. -/
def Spec.text (s : String) : List UInt8 := s.toList.map fun c => UInt8.ofNat c.toNat

/-- The built-in parameters of the simulator: id and value. -/
def Spec.builtIn : List (Nat × List UInt8) :=
  [(0x01, text "Khvs"), (0x02, text "nvNe"), (0x03, text "IqkW"), (0x04, text "RpJ6"), (0x05, text "RMmR"),
   (0x06, text "55wN"), (0x07, text "GCRZ"), (0x10, text "Xggg7Z5XXKD7nbVa"), (0x11, text "5bPgVL7SzLafrwN6"),
   (0x12, text "HhNviWgwIMnI5UbM"), (0x13, text "dRt2eYgtdy1jFHWE"), (0x14, text "geTeyIV_zSsbiJnT"),
   (0x15, text "UohhXQqS5ew5u8Ub"), (0x16, text "h3muPyjnXM8y3Xqs"), (0x17, text "u9zWYtRDLHcaNjRx"),
   (0x18, text "NXjO"), (0x19, text "8dli"), (0x1a, text "N0wV5xmJfMoc8afP"), (0x1b, text "bl6v"), (0x1c, text "86e7"),
   (0x1d, text "O4LBpKstEhzOLVF5"), (0x20, text "8lRU"), (0x21, text "PAfn"), (0x22, text "WEk9"),
   (0x23, text "a83LCvW7TmPQsn1R"), (0x24, text "BuYx_I7XNiOc6NMI"), (0x25, text "e7VpzYUyv5vYd34l"),
   (0x26, text "TN7lGfC8jKMInL9g"), (0x27, text "PWXn"), (0x28, text "gLcl"), (0x29, text "GOjd"), (0x2c, text "EI1W"),
   (0x2d, text "cNPz"), (0x2e, text "SDTB"), (0x2f, text "R_dz"), (0x30, text "ZJh0"), (0x31, text "ld"),
   (0x32, [0x09, 0x30, 0x21, 0x30])]

/-- The value written down for parameter 0x76: three channels. -/
def Spec.channels : List UInt8 := [3, 0, 0, 1, 1, 0, 1, 2, 2, 0, 1, 3, 3, 0, 1]

/-- What follows it in memory: a piece of the hexadecimal text the list was made from. -/
def Spec.leftover : List UInt8 := text "6F63386166500000001B"

/-- Text conversion leaves printable ASCII alone, as GBK does. -/
def Spec.KeepsASCII (env : Env) : Prop :=
  ∀ s : Str, (∀ c ∈ s, 0x20 ≤ c.toNat ∧ c.toNat < 0x7f) → env.gbkDec s = some s ∧ env.gbkEnc s = some s

def textOK (env : Env) (v : PV) : Prop := ∀ t, v = .str t → env.gbkDec t = some t ∧ env.gbkEnc t = some t

theorem PKind.decode_text {env : Env} {k : PKind} {len : Nat} {s : Slice} {i j : Nat} {v : PV}
    (h : k.decode goEnv len s i = .ok (v, j)) (hv : textOK env v) : k.decode env len s i = .ok (v, j) := by
  cases k
  case gbk =>
    simp only [PKind.decode, readGBK, rd_bind_eq] at h ⊢
    cases hr : readBytes (len : Int) s i with
    | ok a =>
      simp only [hr, goEnv, rd_pure_eq] at h ⊢
      injection h with h; injection h with h1 h2
      rw [(hv _ h1.symm).1]
      simp only [rd_pure_eq, h1, h2]
    | err e => rw [hr] at h; cases h
    | panic => rw [hr] at h; cases h
  all_goals exact h

theorem ParamData.decode_text {env : Env} {s : Slice} {i j : Nat} {p : ParamData}
    (h : ParamData.decode goEnv s i = .ok (p, j)) (hv : textOK env p.value) : ParamData.decode env s i = .ok (p, j) := by
  unfold ParamData.decode at h ⊢
  obtain ⟨a, i1, e1, h⟩ := rd_bind_ok h
  obtain ⟨b, i2, e2, h⟩ := rd_bind_ok h
  obtain ⟨v, i3, e3, h⟩ := rd_bind_ok h
  rw [rd_pure_eq] at h
  injection h with h; injection h with h h'
  subst h h'
  have e4 : ParamData.decodeValue env a b s i2 = .ok (v, i3) := by
    unfold ParamData.decodeValue at e3 ⊢
    cases hk : argTable a with
    | none => rw [hk] at e3; cases e3
    | some k => rw [hk] at e3; exact PKind.decode_text e3 hv
  simp only [rd_bind_eq, e1, e2, e4]
  rfl

theorem ParamData.decodeN_text {env : Env} {n : Nat} {s : Slice} {i j : Nat} {ps : List ParamData}
    (h : ParamData.decodeN goEnv n s i = .ok (ps, j)) (hv : ∀ p ∈ ps, textOK env p.value) :
    ParamData.decodeN env n s i = .ok (ps, j) := by
  induction n generalizing i ps with
  | zero => exact h
  | succ n ih =>
    unfold ParamData.decodeN at h ⊢
    obtain ⟨a, i1, e1, h⟩ := rd_bind_ok h
    obtain ⟨b, i2, e2, h⟩ := rd_bind_ok h
    rw [rd_pure_eq] at h
    injection h with h; injection h with h h'
    subst h h'
    simp only [rd_bind_eq, ParamData.decode_text e1 (hv _ (List.mem_cons_self ..)),
      ih e2 (fun p hp => hv p (List.mem_cons_of_mem _ hp))]
    rfl

theorem ParamData.encodeAll_text {env : Env} {ps : List ParamData} (hv : ∀ p ∈ ps, textOK env p.value) :
    ParamData.encodeAll env ps = ParamData.encodeAll goEnv ps := by
  induction ps with
  | nil => rfl
  | cons p ps ih =>
    have hp : p.encode env = p.encode goEnv := by
      unfold ParamData.encode
      cases argTable p.id with
      | none => rfl
      | some k =>
        have : k.encode env p.value = k.encode goEnv p.value := by
          cases k <;> try rfl
          simp only [PKind.encode, writeGBK]
          cases hx : p.value with
          | str t => simp [anyStr, goEnv, ((hv p (List.mem_cons_self ..)) t hx).2]
          | _ => rfl
        simp only [this]
    simp only [ParamData.encodeAll, hp, ih (fun q hq => hv q (List.mem_cons_of_mem _ hq))]

/-- The built-in parameters as the terminal keeps them. -/
def builtInParams : List ParamData :=
  match ParamData.decodeN goEnv 39 fixedParams 0 with
  | .ok (ps, _) => ps
  | _ => []

def PV.plain : PV → Bool
  | .str t => t.all fun c => decide (0x20 ≤ c.toNat ∧ c.toNat < 0x7f)
  | _ => true

theorem builtIn_plain : builtInParams.all (·.value.plain) = true := by decide +kernel

/-- Parameter items on the wire. -/
def Spec.paramItems (l : List (Nat × List UInt8)) : List UInt8 := l.flatMap fun e => paramItem e.1 e.2

theorem builtIn_encode : ParamData.encodeAll goEnv builtInParams =
    .ok (paramItems (builtIn ++ [(0x76, channels ++ leftover)])) := by decide +kernel

theorem builtIn_text {env : Env} (ha : KeepsASCII env) : ∀ p ∈ builtInParams, textOK env p.value := by
  intro p hp t ht
  have h := List.all_eq_true.1 builtIn_plain p hp
  rw [ht] at h
  refine ha t fun c hc => ?_
  simp only [PV.plain, List.all_eq_true, decide_eq_true_eq] at h
  exact h c hc

theorem fixedDecode_builtIn {env : Env} (ha : KeepsASCII env) (phone : Str) :
    ∃ j, fixedDecode env phone = .ok (⟨phone, 39, builtInParams⟩, j) := by
  obtain ⟨ps, j, e⟩ := fixed_goEnv
  have hp : builtInParams = ps := by unfold builtInParams; rw [e]
  refine ⟨j, ?_⟩
  have := ParamData.decodeN_text (env := env) e (by rw [← hp]; exact builtIn_text ha)
  unfold fixedDecode DeviceParams.decode
  have e39 : (39 : UInt8).toNat = 39 := rfl
  simp only [rd_bind_eq, e39, this, hp]
  rfl

/-- A terminal that keeps no parameters answers a query with 39 items: the 38 built-in values, and for 0x76 the built-in
value with twenty further bytes that happen to lie behind it in memory.  It keeps them, so that later queries are
answered alike and later set messages find these ids.
Missing for C100: the value of 0x76 (next theorem). -/
theorem C100_default_report_partial (env : Env) (ha : KeepsASCII env) (clk : Clock) (c : Conn) (st : Store)
    (frame : List UInt8) (h : Header) (hh : Holds env clk.civil frame h .m8104) (hn : st.params.get h.phone = none) :
    ∃ st', st.handleFrame env clk c frame = (st', .reply (answer h 0x0104
        (word h.serial.toNat ++ [39] ++ paramItems (builtIn ++ [(0x76, channels ++ leftover)])))) ∧
      ∀ (clk' : Clock) (c' : Conn) (frame' : List UInt8) (h' : Header), Holds env clk'.civil frame' h' .m8104 →
        h'.phone = h.phone → st'.handleFrame env clk' c' frame' = (st', .reply (answer h' 0x0104
          (word h'.serial.toNat ++ [39] ++ paramItems (builtIn ++ [(0x76, channels ++ leftover)])))) := by
  obtain ⟨j, e⟩ := fixedDecode_builtIn ha h.phone
  have hb : ∀ s : UInt16, ParamsMsg.encode env ⟨s, 0, some ⟨h.phone, 39, builtInParams⟩⟩ =
      .ok (word s.toNat ++ [39] ++ paramItems (builtIn ++ [(0x76, channels ++ leftover)])) := by
    intro s
    unfold ParamsMsg.encode DeviceParams.encode
    simp only [ParamData.encodeAll_text (builtIn_text ha), builtIn_encode]
    simp [writeBytes, writeByte, writeWord, put16_word]
  refine ⟨st.cacheParams ⟨h.phone, 39, builtInParams⟩, ?_, ?_⟩
  · rw [hh.handle]
    simp only [Store.handle, process8104, Store.paramsOf, hn, e, finish, gen0104, Out.encode, Msg.encodeBody, hb]
    rfl
  · intro clk' c' frame' h' hh' hp
    refine handle_8104 c' _ hh' (p := ⟨h.phone, 39, builtInParams⟩) ?_ (hb _)
    rw [hp]
    exact AMap.get_set_self _ _ _

/-- The opposite of C100: the reported list is never the built-in one, and what is too much of it is a piece of the
hexadecimal text of the list itself. -/
theorem C100_leftover_reported (env : Env) (ha : KeepsASCII env) (clk : Clock) (c : Conn) (st : Store)
    (frame : List UInt8) (h : Header) (hh : Holds env clk.civil frame h .m8104) (hn : st.params.get h.phone = none) :
    (st.handleFrame env clk c frame).2 ≠ .reply (answer h 0x0104
      (word h.serial.toNat ++ [39] ++ paramItems (builtIn ++ [(0x76, channels)]))) ∧
    (∃ a b, (paramItems builtIn).flatMap hex2 = a ++ leftover ++ b) := by
  obtain ⟨st', e, -⟩ := C100_default_report_partial env ha clk c st frame h hh hn
  constructor
  · rw [e]
    intro hx
    injection hx with hx
    have := List.append_cancel_left (answer_injective hx).2
    exact absurd this (by decide +kernel)
  · refine ⟨((paramItems builtIn).flatMap hex2).take 528, ((paramItems builtIn).flatMap hex2).drop 548, ?_⟩
    decide +kernel

example : KeepsASCII goEnv := fun _ _ => ⟨rfl, rfl⟩
example : Holds goEnv (demoClk 0).civil queryFrame (hdr2013 0x8104) .m8104 ∧
    Store.empty.params.get (hdr2013 0x8104).phone = none := ⟨⟨_, .t8104, _, rfl, rfl, rfl, rfl, rfl⟩, rfl⟩
-- a set message for a terminal that has reported its built-in parameters is kept
example : ((((Store.empty.handleFrame goEnv (demoClk 0) demoC queryFrame).1.handleFrame goEnv (demoClk 0) demoC
    (setFrame 2 setTwo)).1.params.get (hdr2013 0).phone).map fun p => valueOf p.params 2) =
      some (some ⟨2, 4, .dword 5⟩) := by decide +kernel

end JT808
