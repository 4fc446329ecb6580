import Verif.Proof.Groups
import Verif.Props.Registry
import Verif.Proof.Demo
/-
C96: terminals of one customer do not notice those of another.
-/
namespace JT808
open Spec

/-! ## C96 -/

/-- Customers whose phones, plates and addresses are disjoint do not notice each other.  Take any history in which
frames from the group's addresses speak for the group's phones and plates, and frames from elsewhere for others.  Leave
out everything the others do except for opening connections.  The group sees the same: at each of its events the same
frame goes out on the same connection, the same connections end and requests get the same status; afterwards its phones
have the same devices, locations, tracks and parameters, are listed alike, and its connections are served alike. -/
theorem C96_isolated (env : Env) (g : Group) (evs : List Ev) (hap : ∀ e ∈ evs, e.apart env g) :
    (Sys.start.run env (evs.filter (·.within g))).2 = g.sees env Sys.start evs ∧
    (∀ p, g.phone p = true →
      (Sys.start.run env (evs.filter (·.within g))).1.st.look p = (Sys.start.run env evs).1.st.look p ∧
      ((Sys.start.run env (evs.filter (·.within g))).1.st.apiGeo p).2 = ((Sys.start.run env evs).1.st.apiGeo p).2 ∧
      (Sys.start.run env (evs.filter (·.within g))).1.st.geos.get p = (Sys.start.run env evs).1.st.geos.get p ∧
      (Sys.start.run env (evs.filter (·.within g))).1.st.paramsOf p = (Sys.start.run env evs).1.st.paramsOf p) ∧
    (∀ d, g.phone d.phone = true →
      (d ∈ (Sys.start.run env (evs.filter (·.within g))).1.st.apiList.1 ↔ d ∈ (Sys.start.run env evs).1.st.apiList.1)) ∧
    (∀ c, g.addr c.addr = true →
      (c ∈ (Sys.start.run env (evs.filter (·.within g))).1.live ↔ c ∈ (Sys.start.run env evs).1.live)) := by
  obtain ⟨h1, acc, h2, h3, h4, h5⟩ := groups (env := env) (g := g) evs (owned_start g) (owned_start g)
    (Rel.refl _ _ _) (fun _ _ => Iff.rfl) hap
  refine ⟨h1, fun p hp => ⟨h4.look p hp, (rel_apiGeo h4 hp).1, h4.geos p hp, h4.params p hp⟩, ?_, h5⟩
  intro d hd
  rw [(C62_listing env _ ⟨_, rfl⟩).2 d, (C62_listing env _ ⟨_, rfl⟩).2 d, h4.look _ hd]

/-- So two histories with the same part for the group look the same to it, whatever the others did. -/
theorem C96_unnoticed (env : Env) (g : Group) (evs evs' : List Ev) (hap : ∀ e ∈ evs, e.apart env g)
    (hap' : ∀ e ∈ evs', e.apart env g) (hs : evs.filter (·.within g) = evs'.filter (·.within g)) :
    g.sees env Sys.start evs = g.sees env Sys.start evs' := by
  rw [← (C96_isolated env g evs hap).1, ← (C96_isolated env g evs' hap').1, hs]

/-! A second terminal with its own phone, plate and address. -/

def otherHdr (id : UInt16) : Header := { hdr2013 id with phone := digitStr [0,1,3,9,9,9,1,3,8,0,0,1] }
def otherRegMsg : Register := { demoRegMsg with plate := [0x42, 0x39, 0x39] }
def otherReg : List UInt8 := msgFrame (otherHdr 0x0100) (otherRegMsg.encode goEnv .v2013)
def otherBye : List UInt8 := msgFrame (otherHdr 0x0003) []

/-- The customer with the demonstration terminal. -/
def demoGroup : Group := ⟨(· == (hdr2013 0).phone), (· == demoRegMsg.plate), (· == [0x61])⟩

/-- Both register, the other one leaves, ours reports a heartbeat and is asked for its parameters. -/
def twoTerminals : List Ev := [.accept [0x61], .accept [0x62], .frame (demoClk 1000) demoC' otherReg none,
  .frame (demoClk 1000) demoC demoReg none, .check (demoClk 2000) (otherHdr 0).phone,
  .frame (demoClk 3000) demoC' otherBye none, .frame (demoClk 4000) demoC demoBeat none, .readErr demoC' .eof,
  .httpQuery (hdr2013 0).phone none, .httpQuery (otherHdr 0).phone none]

theorem apart_holds {env : Env} {g : Group} {clk : Clock} {c : Conn} {frame : List UInt8} {w : Option Err} {h : Header}
    {m : Msg} (hh : Holds env clk.civil frame h m) (h1 : g.phone h.phone = g.addr c.addr)
    (h2 : ∀ q, m = .m0100 q → g.plate q.plate = g.addr c.addr) : (Ev.frame clk c frame w).apart env g := by
  obtain ⟨pd, t, j, e1, e2, e3, e4, e5⟩ := hh
  intro pd' e1'
  rw [e1] at e1'
  injection e1' with e1'
  subst e1'
  subst e2
  refine ⟨h1, ?_⟩
  intro t' q j' f1 f2
  rw [e4] at f1
  injection f1 with f1
  subst f1
  rw [e5] at f2
  injection f2 with f2
  exact h2 q (congrArg Prod.fst f2)

theorem otherReg_holds (now : Civil) : Holds goEnv now otherReg ((otherHdr 0x0100).withBodyLength 40) (.m0100 otherRegMsg) :=
  ⟨_, .t0100, _, rfl, rfl, rfl, rfl, rfl⟩

theorem otherBye_holds (now : Civil) : Holds goEnv now otherBye (otherHdr 0x0003) .m0003 :=
  ⟨_, .t0003, _, rfl, rfl, rfl, rfl, rfl⟩

theorem twoTerminals_apart : ∀ e ∈ twoTerminals, e.apart goEnv demoGroup := by
  intro e he
  simp only [twoTerminals, List.mem_cons, List.not_mem_nil, or_false] at he
  rcases he with rfl | rfl | rfl | rfl | rfl | rfl | rfl | rfl | rfl | rfl
  · trivial
  · trivial
  · exact apart_holds (otherReg_holds _) (by decide +kernel) (fun q e => by injection e with e; subst e; decide +kernel)
  · exact apart_holds (demoReg_holds _) (by decide +kernel) (fun q e => by injection e with e; subst e; decide +kernel)
  · trivial
  · exact apart_holds (otherBye_holds _) (by decide +kernel) (fun q e => by cases e)
  · exact apart_holds (demoBeat_holds _) (by decide +kernel) (fun q e => by cases e)
  · trivial
  · trivial
  · trivial

/-- Five of the ten events are left out, and the terminal gets its two answers and the parameter request either way. -/
example : (twoTerminals.filter (·.within demoGroup)).length = 5 ∧
    ((demoGroup.sees goEnv Sys.start twoTerminals).filter (·.sent.isSome)).length = 3 ∧
    (Sys.start.run goEnv (twoTerminals.filter (·.within demoGroup))).2 = demoGroup.sees goEnv Sys.start twoTerminals := by
  refine ⟨by decide +kernel, by decide +kernel, (C96_isolated goEnv demoGroup twoTerminals twoTerminals_apart).1⟩

/-- The plates have to be different: another terminal with our plate gets there first, and ours is refused. -/
theorem C96_same_plate : ∃ (g : Group) (evs : List Ev),
    (∀ e ∈ evs, ∀ clk c bytes w, e = .frame clk c bytes w → ∀ pd, decodeFrame goEnv bytes = .ok pd →
      g.phone pd.header.phone = g.addr c.addr) ∧
    (Sys.start.run goEnv (evs.filter (·.within g))).2 ≠ g.sees goEnv Sys.start evs := by
  refine ⟨demoGroup, [.accept [0x61], .accept [0x62],
    .frame (demoClk 1000) demoC' (msgFrame (otherHdr 0x0100) (demoRegMsg.encode goEnv .v2013)) none,
    .frame (demoClk 1000) demoC demoReg none], ?_, ?_⟩
  · intro e he clk c bytes w hx pd hd
    simp only [List.mem_cons, List.not_mem_nil, or_false] at he
    rcases he with rfl | rfl | rfl | rfl
    · cases hx
    · cases hx
    · injection hx with _ hc hb _; subst hc; subst hb
      have : (decodeFrame goEnv (msgFrame (otherHdr 0x0100) (demoRegMsg.encode goEnv .v2013))) = .ok _ := rfl
      rw [this] at hd
      injection hd with hd; subst hd
      decide +kernel
    · injection hx with _ hc hb _; subst hc; subst hb
      obtain ⟨pd', -, -, e1, e2, -⟩ := demoReg_holds (demoClk 0).civil
      rw [e1] at hd
      injection hd with hd; subst hd
      rw [e2]
      decide +kernel
  · decide +kernel

end JT808
