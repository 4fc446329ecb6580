import Verif.Props.SimFile
import Verif.Props.Outside
/-
C136 up to the HTTP API: a terminal described in the file of the simulator, in the JSON text the server answers.
-/
namespace JT808
open Spec

/-- A frame that is answered, on a connection that is served. -/
theorem step_answered {env : Env} {s : Sys} (hc : s.crashed = false) {c : Conn} (hl : c ∈ s.live) {clk : Clock} {f g : List UInt8}
    {st : Store} (h : s.st.handleFrame env clk c f = (st, .reply g)) :
    s.step env (.frame clk c f none) = ({ s with st := st }, ⟨some (c, g), false, none⟩) := by
  unfold Sys.step
  rw [if_neg (by simp [hc])]
  simp only
  rw [if_pos hl]
  unfold Store.serveFrame
  rw [h]
  rfl

theorem listedAll_mem {time : Nat → List Nat} {ds : List Device} {vs : List JVal} (h : ListedAll time ds vs) {d : Device}
    (hd : d ∈ ds) : ∃ v ∈ vs, Listed time d v := by
  induction h with
  | nil => cases hd
  | cons h1 _ ih =>
    rcases List.mem_cons.1 hd with rfl | hd
    · exact ⟨_, List.mem_cons_self, h1⟩
    · obtain ⟨v, a, b⟩ := ih hd
      exact ⟨v, List.mem_cons_of_mem _ a, b⟩

/-- A terminal of a simulator started with a file connects to a server with any history that knows neither its plate nor its
number.  Server and simulator exchange a registration, its answer and an authentication; GET /device is then answered with
the JSON text of an array with an entry that says what the file describes. -/
theorem C136_shown (env : Env) (w : Writing) (instant : Nat → List Nat) (time : Civil → List Nat) (hw : Sound w instant time)
    (text : Str) (es : List (List Str × Scalar)) (h : YamlSays text es) (id plate phone imei : Re) (ver : Str) (k : Nat)
    (hf : TerminalFile es id plate phone imei ver k) (v : Ver) (hv : ∀ ph, ∃ n, Spec.Version ph ver v n)
    (hp : Presentable env v id plate phone imei) (y : YamlFile) (hy : readYaml text = some y) (cc : Conn) (d : Device)
    (hd : y.MakesDevice cc d) (o : Out) (hr : y.MakesRegistration d o) (client : Store) (evs : List Ev)
    (hfree : ∀ s, plate.Fits s → (Sys.start.run env evs).1.st.lookPlate s = none)
    (hfree' : ∀ ph n, phone.Fits ph → Spec.Version ph ver v n → (Sys.start.run env evs).1.st.look n = none)
    (k1 k2 k3 : Clock) (addr : Str) (target path : Str) (ht : IsTarget target path) (ha : AsksFor .get path .list []) (json : Bool)
    (sent : Str) :
    let s := (Sys.start.run env evs).1
    let c : Conn := ⟨s.accepted, addr⟩
    ∃ f reply client1 auth reply2, Out.encode env o = .ok f ∧
      (client.buildDevice d).handleFrame env k2 cc reply = (client1, .reply auth) ∧
      (s.run env [.accept addr, .frame k1 c f none, .frame k3 c auth none]).2 =
        [Obs.none, ⟨some (c, reply), false, none⟩, ⟨some (c, reply2), false, none⟩] ∧
      ∃ body vs e r ph, ((s.run env [.accept addr, .frame k1 c f none, .frame k3 c auth none]).1).answer env w
          ⟨.get, target, json, sent⟩ none = some (200, body) ∧
        JText body (.arr vs) ∧ e ∈ vs ∧ Listed instant r e ∧ r.status = .online ∧ id.Fits r.id ∧ plate.Fits r.plate ∧
        phone.Fits ph ∧ Spec.Version ph ver v r.phone ∧ (r.ver = if v = .v2019 then .v2019 else .v2013) ∧
        (if v = .v2019 then imei.Fits r.imei else r.imei = []) := by
  intro s c
  have hcr : s.crashed = false := (reachable_inv env evs).2
  obtain ⟨f, after, r, h1, ⟨server1, reply, client1, auth, reply2, g1, g2, g3⟩, h3, h4, h5, h6, ⟨ph, h7, h7'⟩, h8, h9⟩ :=
    C136_listed env text es h id plate phone imei ver k hf v hv hp y hy cc d hd o hr (s.st.storeSession c) client
      (fun x hx => hfree x hx) (fun ph n a b => hfree' ph n a b) k1 k2 k3 c
  refine ⟨f, reply, client1, auth, reply2, h1, g2, ?_⟩
  let s1 : Sys := { s with st := s.st.storeSession c, live := c :: s.live, accepted := s.accepted + 1 }
  have e1 : s.step env (.accept addr) = (s1, Obs.none) := by
    unfold Sys.step
    rw [if_neg (by simp [hcr])]
  have e2 : s1.step env (.frame k1 c f none) = ({ s1 with st := server1 }, ⟨some (c, reply), false, none⟩) :=
    step_answered (s := s1) hcr List.mem_cons_self g1
  have e3 : ({ s1 with st := server1 } : Sys).step env (.frame k3 c auth none) =
      ({ s1 with st := after }, ⟨some (c, reply2), false, none⟩) :=
    step_answered (s := { s1 with st := server1 }) hcr List.mem_cons_self g3
  have erun : s.run env [.accept addr, .frame k1 c f none, .frame k3 c auth none] =
      ({ s1 with st := after }, [Obs.none, ⟨some (c, reply), false, none⟩, ⟨some (c, reply2), false, none⟩]) := by
    simp only [Sys.run, e1, e2, e3]
  rw [erun]
  refine ⟨rfl, ?_⟩
  have hroute := (C134_exact .get target .list []).2 ⟨path, ht, ha⟩
  have hreach : after = (Sys.start.run env (evs ++ [.accept addr, .frame k1 c f none, .frame k3 c auth none])).1.st := by
    have app : ∀ (a b : List Ev) (s : Sys), (s.run env (a ++ b)).1 = ((s.run env a).1.run env b).1 := by
      intro a b
      induction a with
      | nil => intro s; rfl
      | cons x a ih => intro s; exact ih _
    rw [app]
    show after = (s.run env _).1.st
    rw [erun]
  obtain ⟨vs, l1, l2, -⟩ := C115_listing w.instant instant hw.instant after
  have hmem : r ∈ after.listDevice := by
    have hph := look_phone (Reachable.inv ⟨_, hreach⟩) h3
    exact ((C62_listing env after ⟨_, hreach⟩).2 r).2 (by rw [hph]; exact h3)
  obtain ⟨e, m1, m2⟩ := listedAll_mem l1 hmem
  refine ⟨after.listBody w.instant, vs, e, r, ph, ?_, l2, m1, m2, h4, h5, h6, h7, h7', h8, h9⟩
  show Sys.answer env w { s1 with st := after } _ none = _
  simp only [Sys.answer, hroute, Sys.request]
  rw [if_neg (by simp [s1, hcr])]
  unfold Sys.step
  rw [if_neg (by simp [s1, hcr])]
  simp [Store.apiList, Store.writes]

-- a path for the listing, written with an escape and a query; the hypotheses about the file are met in Props/SimFile.lean
example : IsTarget (demoTarget "/de%76ice?a=b") (demoTarget "/device") ∧ AsksFor .get (demoTarget "/device") .list [] := by
  have h : route .get (demoTarget "/de%76ice?a=b") = .op .list [] := by decide +kernel
  obtain ⟨path, h1, h2⟩ := (C134_exact _ _ _ _).1 h
  have h3 : targetPath (demoTarget "/de%76ice?a=b") = some (demoTarget "/device") := by decide +kernel
  rw [(targetPath_iff _ _).2 h1] at h3
  injection h3 with h3
  exact ⟨h3 ▸ h1, h3 ▸ h2⟩
-- nobody has registered at first
example : (Sys.start.run goEnv []).1.st.lookPlate [0x41, 0x31] = none := by decide +kernel

end JT808
