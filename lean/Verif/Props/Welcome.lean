import Verif.Proof.Welcome
import Verif.Props.Progress
/-
C156: any number of terminals can connect at once: each is registered, authenticated and served, whatever the order in
which their goroutines make their steps.
-/
namespace JT808
open Spec

namespace Spec

/-- A terminal on its connection: it registers, authenticates, and then sends heartbeats and positions. -/
structure Visitor where
  conn : Conn
  phone : Str
  regHdr : Header
  reg : Register
  authHdr : Header
  auth : AuthMsg
  /-- a header and the position, or none for a heartbeat -/
  rest : List (Header × Option LocMsg)

/-- The code the terminal is told in the answer to its registration. -/
def Visitor.code (x : Visitor) : Str := authCodeOf x.reg.deviceID x.reg.plate x.phone

/-- All messages carry the number of the terminal, and it authenticates with the code it is told. -/
def Visitor.Proper (x : Visitor) : Prop :=
  x.regHdr.phone = x.phone ∧ x.authHdr.phone = x.phone ∧ (∀ y ∈ x.rest, y.1.phone = x.phone) ∧ x.auth.code = x.code

/-- A heartbeat or a position. -/
def Visitor.later (x : Visitor) (y : Header × Option LocMsg) : Task :=
  .msg x.conn y.1 (match y.2 with | none => .m0002 | some m => .m0200 m)

/-- What the terminal sends. -/
def Visitor.script (x : Visitor) : List Task :=
  .msg x.conn x.regHdr (.m0100 x.reg) :: .msg x.conn x.authHdr (.m0102 x.auth) :: x.rest.map x.later

/-- The general reply "success" to a message. -/
def success (h : Header) : Res (Option Out) := .ok (some ({ h with msgID := 0x8001 }, .m8001 ⟨h.serial, h.msgID, 0⟩))

/-- What the terminal wants to hear. -/
def Visitor.welcome (x : Visitor) : List (Res (Option Out)) :=
  .ok (some ({ x.regHdr with msgID := 0x8100 }, .m8100 ⟨x.regHdr.serial, 0, x.code⟩)) :: success x.authHdr ::
    x.rest.map fun y => success y.1

/-- How the server should know it. -/
def Visitor.Known (x : Visitor) (d : Device) : Prop :=
  d.id = x.reg.deviceID ∧ d.plate = x.reg.plate ∧ d.phone = x.phone ∧ d.conn = some x.conn ∧ d.status ≠ .offline ∧
    d.authCode = x.code ∧ d.imei = x.auth.imei

end Spec

theorem seq_rest {env : Env} {x : Visitor} (ys : List (Header × Option LocMsg)) (clks : List Clock) (st : Store)
    (hlen : clks.length = ys.length) (hi : CInv st) (hh : Has x.Known x.phone st) (hp : ∀ y ∈ ys, y.1.phone = x.phone) :
    (inOrder env st ((ys.map x.later).zip clks)).2 = ys.map (fun y => success y.1) ∧
      Has x.Known x.phone (inOrder env st ((ys.map x.later).zip clks)).1 := by
  induction ys generalizing clks st with
  | nil => exact ⟨rfl, hh⟩
  | cons y ys ih =>
    cases clks with
    | nil => cases hlen
    | cons c clks =>
      have hy := hp y List.mem_cons_self
      have key : (handled env c st (x.later y)).2 = success y.1 ∧ Has x.Known x.phone (handled env c st (x.later y)).1 := by
        obtain ⟨h, o⟩ := y
        cases o with
        | none =>
          have := seq_beat (env := env) (clk := c) (c := x.conn) (h := h) (P := x.Known) hi (by rw [hy]; exact hh) (fun d hd => hd)
          rw [hy] at this
          exact this
        | some m =>
          have := seq_loc (env := env) (clk := c) (c := x.conn) (h := h) (m := m) (P := x.Known) hi (by rw [hy]; exact hh)
            (fun d hd => ⟨hd.1, hd.2.1, hd.2.2.1, hd.2.2.2.1, (by intro h; cases h), hd.2.2.2.2.2⟩)
          rw [hy] at this
          exact this
      obtain ⟨k1, k2⟩ := ih clks _ (Nat.succ.inj hlen) (handled_inv (env := env) (clk := c) (x.later y) hi) key.2
        fun z hz => hp z (List.mem_cons_of_mem _ hz)
      simp only [List.map_cons, List.zip_cons_cons, inOrder]
      exact ⟨by rw [k1, key.1], k2⟩

/-- The sequential server welcomes a terminal whose phone and plate are not taken. -/
theorem seq_welcome {env : Env} {x : Visitor} (hx : x.Proper) (clks : List Clock) (st : Store) (hi : CInv st)
    (hlen : clks.length = x.script.length) (h1 : st.devByPhone x.phone = none) (h2 : st.devByPlate x.reg.plate = none) :
    (inOrder env st (x.script.zip clks)).2 = x.welcome ∧ Has x.Known x.phone (inOrder env st (x.script.zip clks)).1 := by
  obtain ⟨p1, p2, p3, p4⟩ := hx
  match clks, hlen with
  | c1 :: c2 :: clks, hlen =>
    simp only [Visitor.script, List.zip_cons_cons, inOrder]
    obtain ⟨a1, a2⟩ := seq_register (env := env) (clk := c1) (c := x.conn) (h := x.regHdr) (m := x.reg) (st := st)
      (P := fun d => d.id = x.reg.deviceID ∧ d.plate = x.reg.plate ∧ d.phone = x.phone ∧ d.conn = some x.conn)
      (by rw [p1]; exact h1) h2 ⟨rfl, rfl, p1, rfl⟩
    have hi1 := handled_inv (env := env) (clk := c1) (.msg x.conn x.regHdr (.m0100 x.reg)) hi
    rw [p1, ← p2] at a2
    obtain ⟨b1, b2⟩ := seq_auth (env := env) (clk := c2) (c := x.conn) (h := x.authHdr) (m := x.auth) (Q := x.Known) hi1 a2
      (fun d hd _ => by rw [Device.code, hd.1, hd.2.1, hd.2.2.1, p4, p2]; rfl)
      (fun d hd => ⟨hd.1, hd.2.1, hd.2.2.1.trans p2, hd.2.2.2, (by intro h; cases h), p4, rfl⟩)
    have hi2 := handled_inv (env := env) (clk := c2) (.msg x.conn x.authHdr (.m0102 x.auth)) hi1
    rw [p2] at b2
    obtain ⟨d1, d2⟩ := seq_rest (env := env) x.rest clks _ (by
      simp only [Visitor.script, List.length_cons, List.length_map] at hlen; omega) hi2 b2 p3
    refine ⟨?_, d2⟩
    rw [d1, a1, b1, p1]
    rfl
  | [_], hlen => simp [Visitor.script] at hlen
  | [], hlen => simp [Visitor.script] at hlen

theorem zip_parts {α β : Type} (l : List (α × β)) : (l.map (·.1)).zip (l.map (·.2)) = l := by
  induction l with
  | nil => rfl
  | cons x l ih => simp only [List.map_cons, List.zip_cons_cons, ih]

theorem script_phone {x : Visitor} (hx : x.Proper) {t : Task} (ht : t ∈ x.script) : t.phone = x.phone := by
  simp only [Visitor.script, List.mem_cons, List.mem_map] at ht
  rcases ht with rfl | rfl | ⟨y, hy, rfl⟩
  · exact hx.1
  · exact hx.2.1
  · exact hx.2.2.1 y hy

theorem script_plate {x : Visitor} {t : Task} (ht : t ∈ x.script) {pl : Str} (h : plateOf t = some pl) : pl = x.reg.plate := by
  simp only [Visitor.script, List.mem_cons, List.mem_map] at ht
  rcases ht with rfl | rfl | ⟨y, hy, rfl⟩
  · exact (Option.some.inj h).symm
  · cases h
  · obtain ⟨hd, o⟩ := y
    cases o <;> cases h

theorem script_msg {x : Visitor} {t : Task} (ht : t ∈ x.script) : ∃ c h m, t = .msg c h m := by
  simp only [Visitor.script, List.mem_cons, List.mem_map] at ht
  rcases ht with rfl | rfl | ⟨y, hy, rfl⟩ <;> exact ⟨_, _, _, rfl⟩

theorem script_addressed {x : Visitor} {t : Task} (ht : t ∈ x.script) : t.Addressed := by
  simp only [Visitor.script, List.mem_cons, List.mem_map] at ht
  rcases ht with rfl | rfl | ⟨y, hy, rfl⟩
  · trivial
  · trivial
  · obtain ⟨hd, o⟩ := y
    cases o <;> trivial

/-- A phone and a plate of which no goroutine was started are not taken. -/
theorem untaken {env : Env} {before : List CEv} {p pl : Str}
    (h : ∀ t, .spawn t ∈ before → t.phone ≠ p ∧ plateOf t ≠ some pl) :
    (CSys.start.run env before).st.devByPhone p = none ∧ (CSys.start.run env before).st.devByPlate pl = none := by
  have hok := (ok_run (ok_start env) before).1
  have hb := born_run (ok_start env) born_start before
  have key : ∀ r, r < (CSys.start.run env before).st.next → ∃ t, .spawn t ∈ before ∧ t.Makes ((CSys.start.run env before).st.heap r) := by
    intro r hr
    obtain ⟨i, t, q, hi, hm⟩ := hb r hr
    rcases spawned_run before CSys.start i t q hi with h | ⟨q', h⟩
    · exact ⟨t, h, hm⟩
    · exact absurd h (by simp [CSys.start])
  constructor
  · cases hr : (CSys.start.run env before).st.devByPhone p with
    | none => rfl
    | some r =>
      obtain ⟨hlt, hp⟩ := hok.inv.phoneOK _ _ hr
      obtain ⟨t, ht, hm⟩ := key r hlt
      exact absurd ((makes_phone hm).symm.trans hp) (h t ht).1
  · cases hr : (CSys.start.run env before).st.devByPlate pl with
    | none => rfl
    | some r =>
      obtain ⟨hlt, hp⟩ := hok.inv.plateOK _ _ hr
      obtain ⟨t, ht, hm⟩ := key r hlt
      exact absurd ((makes_plate hm).trans (congrArg some hp)) (h t ht).2

/-- C156: any number of terminals with different phones and plates, each on its connection, register, authenticate with
the code they are told and send heartbeats and positions, while other goroutines do anything for other phones with other
plates, all steps in any order and at any times.  After ten steps of its goroutine for each message every terminal has
been told that each of them succeeded, and the server knows it by its phone and by its
plate as not offline, with its connection. -/
theorem C156_welcome (env : Env) (before : List CEv) (terms : List Visitor) (others : List (List Task))
    (evs : List (Nat × Clock)) (hx : ∀ x ∈ terms, x.Proper) (hph : (terms.map (·.phone)).Nodup)
    (hpl : (terms.map (·.reg.plate)).Nodup) (hadd : ∀ ts ∈ others, ∀ t ∈ ts, t.Addressed)
    (hnew : ∀ t, (.spawn t ∈ before ∨ t ∈ others.flatten) → ∀ x ∈ terms, t.phone ≠ x.phone ∧ plateOf t ≠ some x.reg.plate)
    (j : Nat) (x : Visitor) (hj : terms[j]? = some x) (henough : 10 * x.script.length ≤ (timesOf j evs).length) :
    let s := (WSys.begin (CSys.start.run env before).st (terms.map (·.script) ++ others)).run env evs
    (s.ws[j]?).map (·.done) = some (x.script.zip x.welcome) ∧
      ∃ d, s.st.look x.phone = some d ∧ s.st.lookPlate x.reg.plate = some d ∧ x.Known d := by
  intro s
  have hxm : x ∈ terms := List.mem_of_getElem? hj
  have hxp := hx x hxm
  have hjobs : (terms.map (·.script) ++ others)[j]? = some x.script := by
    rw [List.getElem?_append_left (by rw [List.length_map]; exact (List.getElem?_eq_some_iff.1 hj).1), List.getElem?_map, hj]
    rfl
  obtain ⟨w, hw, hcur, -, hdone⟩ := C155_answered env before _ evs j x.script hjobs (fun t ht => script_msg ht) henough
  have hin : ∀ (i : Nat) ts, (terms.map (·.script) ++ others)[i]? = some ts →
      (∃ y, terms[i]? = some y ∧ ts = y.script) ∨ ts ∈ others := by
    intro i ts hi
    rw [List.getElem?_append] at hi
    split at hi
    · rw [List.getElem?_map, Option.map_eq_some_iff] at hi
      obtain ⟨y, h1, h2⟩ := hi
      exact .inl ⟨y, h1, h2.symm⟩
    · exact .inr (List.mem_of_getElem? hi)
  have hflat : ∀ t, t ∈ (terms.map (·.script) ++ others).flatten →
      (∃ (i : Nat) (y : Visitor), terms[i]? = some y ∧ t ∈ y.script) ∨ t ∈ others.flatten := by
    intro t ht
    rw [List.flatten_append, List.mem_append] at ht
    rcases ht with ht | ht
    · obtain ⟨ts, h1, h2⟩ := List.mem_flatten.1 ht
      obtain ⟨y, h3, rfl⟩ := List.mem_map.1 h1
      obtain ⟨i, hi⟩ := List.getElem?_of_mem h3
      exact .inl ⟨i, y, hi, h2⟩
    · exact .inr ht
  have huniq : ∀ (i : Nat) (y : Visitor), terms[i]? = some y → (y.phone = x.phone ∨ y.reg.plate = x.reg.plate) → i = j := by
    intro i y hi h
    obtain ⟨li, -⟩ := List.getElem?_eq_some_iff.1 hi
    rcases h with h | h
    · exact (List.getElem?_inj (by rw [List.length_map]; exact li) hph).1
        (by rw [List.getElem?_map, List.getElem?_map, hi, hj, Option.map_some, Option.map_some, h])
    · exact (List.getElem?_inj (by rw [List.length_map]; exact li) hpl).1
        (by rw [List.getElem?_map, List.getElem?_map, hi, hj, Option.map_some, Option.map_some, h])
  obtain ⟨-, clks, c1, -, c2, c3, c4, -⟩ := C154_one_connection env before (terms.map (·.script) ++ others) evs x.phone j
    (by
      intro ts hts t ht
      rcases List.mem_append.1 hts with h | h
      · obtain ⟨y, -, rfl⟩ := List.mem_map.1 h
        exact script_addressed ht
      · exact hadd ts h t ht)
    (by
      intro t t' ht ht' hne heq pl hpl' hcon
      have hplx : pl = x.reg.plate := by
        rcases hflat t' ht' with ⟨i, y, h1, h2⟩ | h
        · have hyp := script_phone (hx y (List.mem_of_getElem? h1)) h2
          have := huniq i y h1 (.inl (hyp.symm.trans heq))
          subst this
          rw [hj] at h1; cases h1
          exact script_plate h2 hpl'
        · exact absurd heq (hnew t' (.inr h) x hxm).1
      subst hplx
      rcases ht with h | h
      · exact (hnew t (.inl h) x hxm).2 hcon
      · rcases hflat t h with ⟨i, y, h1, h2⟩ | h
        · have := huniq i y h1 (.inr (script_plate h2 hcon).symm)
          subst this
          rw [hj] at h1; cases h1
          exact hne (script_phone hxp h2)
        · exact (hnew t (.inr h) x hxm).2 hcon)
    (by
      intro i ts hi t ht hp
      rcases hin i ts hi with ⟨y, h1, rfl⟩ | h
      · exact huniq i y h1 (.inl ((script_phone (hx y (List.mem_of_getElem? h1)) ht).symm.trans hp))
      · exact absurd hp (hnew t (.inr (List.mem_flatten.2 ⟨ts, h, ht⟩)) x hxm).1)
    w hw (by intro t q e; rw [hcur] at e; cases e)
  have hpre : w.done.map (·.1) <+: x.script := by
    rcases hdone with ⟨h, -⟩ | ⟨front, t, h, h2, -⟩
    · rw [h]; exact List.prefix_refl _
    · rw [h]; simpa using h2
  have hmine : resultsOf x.phone w.done = w.done := by
    refine List.filter_eq_self.2 fun d hd => decide_eq_true ?_
    exact script_phone hxp (hpre.subset (List.mem_map.2 ⟨d, hd, rfl⟩))
  rw [hmine] at c1 c2 c3 c4
  obtain ⟨u1, u2⟩ := untaken (env := env) (before := before) (p := x.phone) (pl := x.reg.plate)
    fun t ht => hnew t (.inl ht) x hxm
  have hi0 := (ok_run (ok_start env) before).1.inv
  -- all were handled: the sequential server refuses none
  have hall : w.done.map (·.1) = x.script := by
    rcases hdone with ⟨h, -⟩ | ⟨front, t, h, h2, -⟩
    · exact h
    exfalso
    obtain ⟨more, hmore⟩ := hpre
    have hlast : (inOrder env (CSys.start.run env before).st ((w.done.map (·.1)).zip clks)).2 = x.welcome.take w.done.length := by
      have hfull := (seq_welcome (env := env) hxp (clks ++ more.map fun _ => demoClk 0) _ hi0 (by
        rw [← hmore]; simp [c1]) u1 u2).1
      rw [← hfull, ← hmore, List.zip_append (by rw [c1, List.length_map]), inOrder_append]
      rw [List.take_left' (by rw [inOrder_length, List.length_zip, List.length_map, c1, Nat.min_self])]
    have hmem : (.err .deviceNotFound : Res (Option Out)) ∈ x.welcome := by
      have : (.err .deviceNotFound : Res (Option Out)) ∈ w.done.map (·.2) := by rw [h]; simp
      rw [← c2, hlast] at this
      exact List.mem_of_mem_take this
    simp only [Visitor.welcome, success, List.mem_cons, List.mem_map] at hmem
    rcases hmem with h | h | ⟨y, -, h⟩ <;> cases h
  have hlen : clks.length = x.script.length := by rw [c1, ← hall, List.length_map]
  obtain ⟨s1, r, s2, s3, s4⟩ := seq_welcome (env := env) hxp clks _ hi0 hlen u1 u2
  rw [hall] at c2 c3 c4
  rw [s1] at c2
  refine ⟨?_, ?_⟩
  · rw [hw]
    show some w.done = _
    rw [← hall, c2]
    congr 1
    exact (zip_parts w.done).symm
  · have hreg : ∃ d ∈ w.done, plateOf d.1 = some x.reg.plate := by
      have : (.msg x.conn x.regHdr (.m0100 x.reg) : Task) ∈ w.done.map (·.1) := by rw [hall]; exact List.mem_cons_self
      obtain ⟨d, h1, h2⟩ := List.mem_map.1 this
      exact ⟨d, h1, by rw [h2]; rfl⟩
    obtain ⟨d, hd1, hd2⟩ := hreg
    refine ⟨_, c3.trans (by rw [Store.look, s2]; rfl), (c4 d hd1 _ hd2).trans ?_, s4⟩
    rw [Store.lookPlate, ← s4.2.1, s3]
    rfl

/-- Two terminals with heartbeats and positions, and a third connection on which somebody authenticates without having
registered. -/
def manyTerms : List Visitor :=
  [⟨demoC, (hdr2013 0).phone, hdr2013 0x0100, demoRegMsg, hdr2013 0x0102, ⟨0, demoCode, [], []⟩,
      [(hdr2013 0x0002, none), (hdr2013 0x0200, some (demoLocMsg 0 31))]⟩,
    ⟨demoC', (hdr2019 0).phone, hdr2019 0x0100, { demoRegMsg with plate := [0x42] }, hdr2019 0x0102,
      ⟨0, authCodeOf demoRegMsg.deviceID [0x42] (hdr2019 0).phone, [0x49], []⟩, [(hdr2019 0x0002, none)]⟩]

def manyOthers : List (List Task) :=
  [[.msg ⟨2, [0x63]⟩ { hdr2013 0x0102 with phone := [0x39] } (.m0102 ⟨0, demoCode, [], []⟩), .check [0x38]]]

def manyEvs : List (Nat × Clock) :=
  (List.range 40).flatMap fun n => [(1, demoClk (n + 3)), (0, demoClk n), (2, demoClk (n + 1))]

example (j : Nat) (x : Visitor) (hj : manyTerms[j]? = some x) :
    let s := (WSys.begin (CSys.start.run goEnv []).st (manyTerms.map (·.script) ++ manyOthers)).run goEnv manyEvs
    (s.ws[j]?).map (·.done) = some (x.script.zip x.welcome) ∧
      ∃ d, s.st.look x.phone = some d ∧ s.st.lookPlate x.reg.plate = some d ∧ x.Known d := by
  have hcases : (j = 0 ∨ j = 1) ∧ x.script.length ≤ 4 := by
    match j, hj with
    | 0, hj => cases hj; exact ⟨.inl rfl, by decide⟩
    | 1, hj => cases hj; exact ⟨.inr rfl, by decide⟩
    | n + 2, hj => cases hj
  refine C156_welcome goEnv [] manyTerms manyOthers manyEvs ?_ (by decide +kernel) (by decide +kernel) ?_ ?_ j x hj ?_
  · intro y hy
    simp only [manyTerms, List.mem_cons, List.not_mem_nil, or_false] at hy
    rcases hy with rfl | rfl
    · exact ⟨rfl, rfl, (by intro z hz; simp only [List.mem_cons, List.not_mem_nil, or_false] at hz; rcases hz with rfl | rfl <;> rfl),
        by decide +kernel⟩
    · exact ⟨rfl, rfl, (by intro z hz; simp only [List.mem_cons, List.not_mem_nil, or_false] at hz; subst hz; rfl), rfl⟩
  · intro ts hts t ht
    simp only [manyOthers, List.mem_cons, List.not_mem_nil, or_false] at hts
    subst hts
    simp only [List.mem_cons, List.not_mem_nil, or_false] at ht
    rcases ht with rfl | rfl <;> trivial
  · intro t ht y hy
    simp only [manyOthers, List.flatten_cons, List.flatten_nil, List.append_nil, List.mem_cons, List.not_mem_nil, or_false,
      false_or] at ht
    simp only [manyTerms, List.mem_cons, List.not_mem_nil, or_false] at hy
    rcases ht with rfl | rfl <;> rcases hy with rfl | rfl <;> exact ⟨by decide +kernel, by intro h; cases h⟩
  · have : 40 ≤ (timesOf j manyEvs).length := by
      rcases hcases.1 with rfl | rfl <;> decide +kernel
    omega

end JT808
