import Verif.Model.Pattern
import Verif.Props.Conversation
import Verif.Props.Refused
import Verif.Props.Shown
/-
C110: the simulator with the configuration it is shipped with.
-/
namespace JT808
open Spec

namespace Spec

/-- The text codec knows the shipped plate. -/
def KnowsPlate (env : Env) : Prop :=
  ∃ g, env.gbkEnc (utf8 "京A12345") = some g ∧ env.gbkDec g = some (utf8 "京A12345") ∧ g.length ≤ 947

/-- The server, after some history, has no terminal with the shipped plate or phone. -/
structure Fresh (env : Env) (s : Sys) : Prop where
  reach : ∃ evs, s = (Sys.start.run env evs).1
  plate : ∀ p d, s.st.look p = some d → d.plate ≠ utf8 "京A12345"
  phone : s.st.look (utf8 "00000000013012345678") = none

end Spec

theorem shipped_ready {env : Env} {s : Sys} (hk : KnowsPlate env) (hf : Fresh env s) {id plate phone imei : Str}
    (h : shippedConf.Draws id plate phone imei) : Ready env s .v2019 id plate phone imei ∧ id.length = 7 ∧
      imei.length = 15 ∧ plate = utf8 "京A12345" ∧
      fillDevicePhone phone (if (Ver.v2019 : Ver) = .v2019 then 20 else 12) = utf8 "00000000013012345678" := by
  obtain ⟨⟨h1, h1'⟩, h2, h3, h4, h4'⟩ := h
  have h2 : plate = utf8 "京A12345" := by rw [h2]; decide +kernel
  have h5 : fillDevicePhone phone (if (Ver.v2019 : Ver) = .v2019 then 20 else 12) = utf8 "00000000013012345678" := by
    rw [h3]; decide +kernel
  obtain ⟨g, g1, g2, g3⟩ := hk
  refine ⟨⟨hf.reach, fun c hc => ?_, ⟨g, by rw [h2]; exact g1, by rw [h2]; exact g2, g3, fun hn => absurd rfl hn⟩, ?_, ?_,
    by omega, ?_, ?_⟩, h1, h4, h2, h5⟩
  · have := h1' c hc
    intro h0
    subst h0
    exact absurd this (by decide)
  · rw [h3]; decide
  · rw [h3]; decide
  · rw [h2]; exact hf.plate
  · rw [h5]; exact hf.phone

/-- What holds of C110: one simulator with the shipped configuration, whatever the patterns yield, and a server that has
neither its plate nor its phone.  However reading, sending and the server's other business are interleaved, the
conversation goes well; and registration and authentication leave it listed with the identity it drew.
Missing: more than one simulator (C110_copies_evict). -/
theorem C110_shipped_partial (env : Env) (s : Sys) (hk : KnowsPlate env) (hf : Fresh env s) (id plate phone imei : Str)
    (h : shippedConf.Draws id plate phone imei) (addr : Str) (client : Store) (cc : Conn) (keepalive : Nat)
    (province city : UInt16) (color : UInt8) :
    let own := genDevice shippedConf.ver id plate phone imei keepalive cc
    (∀ es, Schedule env (utf8 "京A12345") (Pair.start env s addr client cc own province city color) es →
      GoesWell (utf8 "00000000013012345678") (utf8 "京A12345") ⟨s.accepted, addr⟩
        ((Pair.start env s addr client cc own province city color).run env es)) ∧
    ∀ k1 k2 k3 sc, ∃ after d,
      SignedOn env k1 k2 k3 sc cc s.st (client.buildDevice own) (firstFrame env own province city color) after ∧
      after.look (utf8 "00000000013012345678") = some d ∧ d.id = id ∧ d.plate = utf8 "京A12345" ∧ d.ver = .v2019 ∧
      d.status = .online ∧ d.imei = imei := by
  intro own
  obtain ⟨hr, h1, h4, h2, h5⟩ := shipped_ready hk hf h
  constructor
  · intro es hs
    rw [← h2] at hs ⊢
    have := C87_conversation env s .v2019 id plate phone imei hr addr client cc keepalive province city color es hs
    rw [h5] at this
    exact this
  · intro k1 k2 k3 sc
    obtain ⟨g, g1, g2, g3, -⟩ := hr.okPlate
    have hi : s.st.lookPlate plate = none := by
      obtain ⟨evs, he⟩ := hr.reach
      have hinv := (reachable_inv env evs).1
      rw [← he] at hinv
      have := (taken_false hinv plate).2 hr.freePlate
      unfold Store.taken at this
      simpa using this
    obtain ⟨after, d, a1, a2, a3, a4, -, a6, -, a7, a8, -⟩ := C108_2019 env k1 k2 k3 sc cc s.st client id plate phone imei g
      keepalive province city color hr.okId (by omega) g1 g2 g3 hr.digits hr.len h4 hi hr.freePhone
    refine ⟨after, d, a1, ?_, a3, by rw [a4, h2], a6, a7, a8⟩
    rw [← a2, ← h5]; rfl

/-- The opposite of C110 for a `concurrency` above one: all simulators have the same phone and plate.  When one of them
has registered, the next one is refused and removes it: nobody has the phone then, and the newcomer never begins. -/
theorem C110_copies_evict (env : Env) (s : Sys) (hk : KnowsPlate env) (hs : ∃ evs, s = (Sys.start.run env evs).1)
    (first : Device) (hd : s.st.look (utf8 "00000000013012345678") = some first) (id plate phone imei : Str)
    (h : shippedConf.Draws id plate phone imei) (addr : Str) (client : Store) (cc : Conn) (keepalive : Nat)
    (province city : UInt16) (color : UInt8) (k1 k2 k3 k4 : Clock) :
    let own := genDevice shippedConf.ver id plate phone imei keepalive cc
    let p := (Pair.start env s addr client cc own province city color).run env
      [.serverReads k1, .clientReads k2, .serverReads k3, .clientReads k4, .notice]
    p.server.st.look (utf8 "00000000013012345678") = none ∧ p.up = [] ∧ p.down = [] ∧ p.began = false := by
  intro own p
  obtain ⟨⟨h1, h1'⟩, h2, h3, h4, h4'⟩ := h
  have h2 : plate = utf8 "京A12345" := by rw [h2]; decide +kernel
  have h5 : fillDevicePhone phone (if (Ver.v2019 : Ver) = .v2019 then 20 else 12) = utf8 "00000000013012345678" := by
    rw [h3]; decide +kernel
  obtain ⟨g, g1, g2, g3⟩ := hk
  have hp : Spec.Proper env .v2019 id plate phone imei :=
    ⟨fun c hc => by
        have := h1' c hc
        intro h0
        subst h0
        exact absurd this (by decide),
      ⟨g, by rw [h2]; exact g1, by rw [h2]; exact g2, g3, fun hn => absurd rfl hn⟩,
      by rw [h3]; decide, by rw [h3]; decide, by omega⟩
  obtain ⟨a1, -, a3, a4, a5, -⟩ := C89_evicts env s hs .v2019 id plate phone imei hp addr client cc keepalive province city
    color k1 k2 k3 k4 first (by rw [h5]; exact hd)
  rw [h5] at a1
  exact ⟨a1, a3, a4, a5⟩

/-- A text codec that knows the plate, a draw of the patterns, and a fresh server. -/
def shippedEnv : Env :=
  { goEnv with
    gbkEnc := fun s => if s = utf8 "京A12345" then some ([0xbe, 0xa9] ++ utf8 "A12345") else some s
    gbkDec := fun g => if g = [0xbe, 0xa9] ++ utf8 "A12345" then some (utf8 "京A12345") else some g }

example : KnowsPlate shippedEnv ∧ Fresh shippedEnv Sys.start ∧
    shippedConf.Draws (utf8 "0123456") (utf8 "京A12345") (utf8 "13012345678") (utf8 "012345678901234") :=
  ⟨⟨[0xbe, 0xa9] ++ utf8 "A12345", by decide +kernel, by decide +kernel, by decide +kernel⟩,
    ⟨⟨[], rfl⟩, (fun p d h => by cases h), rfl⟩,
    ⟨by decide +kernel, by decide +kernel⟩, by simp only [shippedConf, Pattern.Makes]; decide +kernel,
    by simp only [shippedConf, Pattern.Makes]; decide +kernel, ⟨by decide +kernel, by decide +kernel⟩⟩

end JT808
