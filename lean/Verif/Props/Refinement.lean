import Verif.Props.Lifecycle
import Verif.Props.Registry
import Verif.Props.Handlers
import Verif.Props.Replies
import Verif.Proof.Decimal
import Verif.Spec.Registry
/-
C79: the server refines a table of registered terminals.
-/
namespace JT808
open Spec

/-! ## C79 -/

/-- The three states of a device. -/
def DStatus.presence : DStatus → Presence
  | .offline => .offline
  | .online => .online
  | .sleeping => .sleeping

/-- What the table says about a device. -/
def Device.entry (d : Device) : Entry := ⟨d.id, d.plate, d.sessionID, d.last, d.status.presence⟩

/-- The table a server stands for: what a lookup by phone returns. -/
def Store.registry (st : Store) : Registry := fun p => (st.look p).map Device.entry

/-- What a decoded message asks. -/
def Msg.ask : Msg → Ask
  | .m0002 => .heartbeat
  | .m0003 => .leave
  | .m0100 m => .register m.deviceID m.plate
  | .m0102 m => .authenticate m.code
  | .m0200 m => .report (decide (accOff m.status))
  | .m8001 m => .acknowledge (decide (m.result = 0))
  | _ => .other

/-- What is seen of an answer to a message with header `h` on connection `c`. -/
def _root_.JT808.Spec.Said.seen (c : Conn) (h : Header) : Said → Obs
  | .general r => ⟨some (c, generalReply h r), false, none⟩
  | .registration r code => ⟨some (c, registerReply h r (code.getD refusedCode)), false, none⟩
  | .nothing => ⟨none, false, none⟩
  | .goodbye => ⟨none, true, none⟩

/-- Event `e` in state `s`, with the observation `o`, is a step of the table from `t` to `t'`. -/
def Explained (env : Env) (s : Sys) (o : Obs) (t t' : Registry) : Ev → Prop
  | .frame clk c bytes werr =>
    (∃ h m said, c ∈ s.live ∧ Delivers env clk.civil s.st bytes h m ∧ t.Hears clk.ms c.addr h.phone m.ask said t' ∧
      (m.ask ≠ .other → werr = none → o = said.seen c h)) ∨
    ((c ∉ s.live ∨ ∀ h m, ¬ Delivers env clk.civil s.st bytes h m) ∧ t' = t)
  | .check clk p => t.Checks clk.ms p t'
  | _ => t' = t

theorem Registry.put_same {t : Registry} {p : Str} {o : Option Entry} (h : t p = o) : t.put p o = t := by
  funext q
  unfold Registry.put
  by_cases hq : q = p
  · rw [if_pos hq, hq, h]
  · rw [if_neg hq]

theorem codeText_eq (d : Device) : d.code = codeText d.id d.plate d.phone := by
  unfold Device.code authCodeOf codeText decimal
  rw [fnv32_spec]
  congr 3
  simp [identityText]

theorem registry_hasPlate {st : Store} (hi : StoreInv st) (q : Str) : st.registry.hasPlate q ↔ st.taken q = true := by
  constructor
  · rintro ⟨p, e, h1, h2⟩
    obtain ⟨d, h3, rfl⟩ := Option.map_eq_some_iff.1 h1
    obtain ⟨r, hr, rfl⟩ := Store.look_some.1 h3
    have hq := (hi.phoneOK _ _ hr).2.2
    have h4 : (st.heap r).plate = q := h2
    rw [h4] at hq
    unfold Store.taken
    rw [Store.lookPlate_some.2 ⟨r, hq, rfl⟩]; rfl
  · intro h
    unfold Store.taken at h
    obtain ⟨d, hd⟩ := Option.isSome_iff_exists.1 h
    obtain ⟨r, hr, rfl⟩ := Store.lookPlate_some.1 hd
    obtain ⟨-, h1, h2⟩ := hi.plateOK _ _ hr
    refine ⟨(st.heap r).phone, (st.heap r).entry, ?_, h1⟩
    unfold Store.registry
    rw [Store.look_some.2 ⟨r, h2, rfl⟩]; rfl

theorem registry_none {st : Store} {p : Str} (h : st.look p = none) : st.registry p = none := by
  unfold Store.registry; rw [h]; rfl

theorem registry_some {st : Store} {p : Str} {d : Device} (h : st.look p = some d) : st.registry p = some d.entry := by
  unfold Store.registry; rw [h]; rfl

theorem registry_handle (env : Env) (clk : Clock) (c : Conn) {st : Store} (hi : StoreInv st) (h : Header) (m : Msg) :
    (st.handle env clk c h m).1.registry =
      st.registry.put h.phone ((devNext clk c h st.taken m (st.look h.phone)).map Device.entry) := by
  funext p
  unfold Store.registry Registry.put
  rw [look_handle env clk c hi h m p]
  by_cases hp : p = h.phone
  · rw [if_pos hp, if_pos hp]
  · rw [if_neg hp, if_neg hp]

/-- What the pipeline makes of an answer. -/
def _root_.JT808.Spec.Said.fits (h : Header) (o : Outcome) : Said → Prop
  | .general r => o = .reply (generalReply h r)
  | .registration r code => o = .reply (registerReply h r (code.getD refusedCode))
  | .nothing => o = .silent ∨ o = .failed .activeClose
  | .goodbye => o = .failed .deviceNotFound

theorem look_phone {st : Store} (hi : StoreInv st) {p : Str} {d : Device} (h : st.look p = some d) : d.phone = p := by
  obtain ⟨r, hr, rfl⟩ := Store.look_some.1 h
  exact (hi.phoneOK _ _ hr).2.1

theorem hears_handle (env : Env) (clk : Clock) (c : Conn) {st : Store} (hi : StoreInv st) (h : Header) (m : Msg) :
    ∃ said, st.registry.Hears clk.ms c.addr h.phone m.ask said (st.handle env clk c h m).1.registry ∧
      (m.ask ≠ .other → said.fits h (finish env (st.handle env clk c h m)).2) := by
  rw [registry_handle env clk c hi h m]
  cases hl : st.look h.phone with
  | none =>
    have ht := registry_none hl
    have hg := Store.look_none.1 hl
    have same : ∀ m : Msg, devNext clk c h st.taken m none = none →
        st.registry.put h.phone ((devNext clk c h st.taken m none).map Device.entry) = st.registry := by
      intro m hm; rw [hm]; exact Registry.put_same ht
    cases m with
    | m0002 =>
      rw [same _ rfl]
      exact ⟨.goodbye, .unknown ht (.inl rfl), fun _ => by simp [Store.handle, process0002, Store.devByPhone, hg, finish, Said.fits]⟩
    | m0003 =>
      rw [same _ rfl]
      exact ⟨.goodbye, .unknown ht (.inr (.inl rfl)), fun _ => by simp [Store.handle, process0003, Store.devByPhone, hg, finish, Said.fits]⟩
    | m0102 m =>
      rw [same _ rfl]
      exact ⟨.goodbye, .unknown ht (.inr (.inr (.inl ⟨_, rfl⟩))),
        fun _ => by simp [Store.handle, process0102, Store.devByPhone, hg, finish, Said.fits]⟩
    | m0200 m =>
      rw [same _ rfl]
      exact ⟨.goodbye, .unknown ht (.inr (.inr (.inr ⟨_, rfl⟩))),
        fun _ => by simp [Store.handle, process0200, Store.devByPhone, hg, finish, Said.fits]⟩
    | m8001 m =>
      rw [same _ rfl]
      by_cases h0 : m.result = 0
      · refine ⟨.nothing, ?_, fun _ => ?_⟩
        · have : (Msg.m8001 m).ask = .acknowledge true := by simp [Msg.ask, h0]
          rw [this]; exact .acknowledgedUnknown ht
        · simp [Store.handle, process8001, Store.devByPhone, hg, finish, Said.fits, h0]
      · refine ⟨.nothing, .acknowledged (.inl (by simp [h0])), fun _ => ?_⟩
        simp [Store.handle, process8001, finish, Said.fits, h0]
    | m0100 m =>
      simp only [devNext]
      have hph : st.hasPhone h.phone = false := by unfold Store.hasPhone Store.devByPhone; rw [hg]; rfl
      by_cases hp : st.taken m.plate = true
      · rw [if_pos hp]
        refine ⟨.registration 1 none, ?_, fun _ => ?_⟩
        · have : st.registry.put h.phone (Option.map Device.entry none) = st.registry := Registry.put_same ht
          rw [this]; exact .plateTaken ((registry_hasPlate hi _).2 hp)
        · simp only [Store.handle, process0100, hasPlate_taken, hp, if_true, Said.fits]
          exact congrArg Prod.snd (finish_gen8100 env _ h 1 _)
      · rw [if_neg hp]
        refine ⟨.registration 0 (some (codeText m.deviceID m.plate h.phone)),
          .registered (fun hx => hp ((registry_hasPlate hi _).1 hx)) ht, fun _ => ?_⟩
        have hp' : st.taken m.plate = false := by simpa using hp
        have hcode : (Device.new clk c h m).code = codeText m.deviceID m.plate h.phone := codeText_eq _
        simp only [Store.handle, process0100, hasPlate_taken, hp', hph, Said.fits, Bool.false_eq_true, if_false,
          Option.getD_some]
        rw [← hcode]
        exact congrArg Prod.snd (finish_gen8100 env _ h 0 (Device.new clk c h m).code)
    | m0001 m => rw [same _ rfl]; exact ⟨.nothing, .irrelevant, fun hx => absurd rfl hx⟩
    | m0104 m => rw [same _ rfl]; exact ⟨.nothing, .irrelevant, fun hx => absurd rfl hx⟩
    | m1205 m => rw [same _ rfl]; exact ⟨.nothing, .irrelevant, fun hx => absurd rfl hx⟩
    | m8100 m => rw [same _ rfl]; exact ⟨.nothing, .irrelevant, fun hx => absurd rfl hx⟩
    | m8103 m => rw [same _ rfl]; exact ⟨.nothing, .irrelevant, fun hx => absurd rfl hx⟩
    | m8104 => rw [same _ rfl]; exact ⟨.nothing, .irrelevant, fun hx => absurd rfl hx⟩
    | m9205 m => rw [same _ rfl]; exact ⟨.nothing, .irrelevant, fun hx => absurd rfl hx⟩
  | some d =>
    have ht := registry_some hl
    have hph := look_phone hi hl
    obtain ⟨r, hg, hrd⟩ := Store.look_some.1 hl
    have same : ∀ m : Msg, devNext clk c h st.taken m (some d) = some d →
        st.registry.put h.phone ((devNext clk c h st.taken m (some d)).map Device.entry) = st.registry := by
      intro m hm; rw [hm]; exact Registry.put_same ht
    cases m with
    | m0002 =>
      refine ⟨.general 0, .beat ht, fun _ => ?_⟩
      simp only [Store.handle, process0002, Store.devByPhone, hg, Said.fits]
      exact congrArg Prod.snd (finish_gen8001 env _ h 0)
    | m0003 =>
      refine ⟨.general 0, .left ht, fun _ => ?_⟩
      simp only [Store.handle, process0003, Store.devByPhone, hg, Said.fits]
      exact congrArg Prod.snd (finish_gen8001 env _ h 0)
    | m0102 m =>
      simp only [devNext]
      have hcode : d.code = codeText d.entry.id d.entry.plate h.phone := by rw [codeText_eq, hph]; rfl
      by_cases hc : m.code = d.code
      · rw [if_pos hc]
        refine ⟨.general 0, ?_, fun _ => ?_⟩
        · have := Registry.Hears.rightCode (t := st.registry) (now := clk.ms) (addr := c.addr) ht
          rw [← hcode, ← hc] at this
          exact this
        · simp only [Store.handle, process0102, Store.devByPhone, hg, Said.fits, hrd]
          rw [if_neg (by simpa using hc)]
          exact congrArg Prod.snd (finish_gen8001 env _ h 0)
      · rw [if_neg hc]
        refine ⟨.general 1, .wrongCode ht (by rw [← hcode]; exact hc), fun _ => ?_⟩
        simp only [Store.handle, process0102, Store.devByPhone, hg, Said.fits, hrd]
        rw [if_pos hc]
        exact congrArg Prod.snd (finish_gen8001 env _ h 1)
    | m0200 m =>
      obtain ⟨rb', -, e2, e3⟩ := process0200_eq (clk := clk) hi hg m
      have hfit : (Said.general 0).fits h (finish env (st.handle env clk c h (.m0200 m))).2 := by
        simp only [Said.fits, Store.handle]
        rw [e3]
        exact congrArg Prod.snd (finish_gen8001 env _ h 0)
      simp only [devNext]
      by_cases ha : accOff m.status
      · rw [if_pos ((acc_iff _).2 ha)]
        have : (Msg.m0200 m).ask = .report true := by simp [Msg.ask, ha]
        rw [this]
        exact ⟨.general 0, .parked ht, fun _ => hfit⟩
      · rw [if_neg (fun hx => ha ((acc_iff _).1 hx))]
        have : (Msg.m0200 m).ask = .report false := by simp [Msg.ask, ha]
        rw [this, Option.map_some, Registry.put_same ht]
        exact ⟨.general 0, .driving ht, fun _ => hfit⟩
    | m8001 m =>
      simp only [devNext]
      by_cases h0 : m.result = 0
      · have hask : (Msg.m8001 m).ask = .acknowledge true := by simp [Msg.ask, h0]
        rw [hask]
        by_cases hs : d.status = .offline
        · rw [if_pos ⟨h0, hs⟩]
          refine ⟨.nothing, .woken ht (by unfold Device.entry; rw [hs]; rfl), fun _ => ?_⟩
          simp [Store.handle, process8001, Store.devByPhone, hg, hrd, finish, Said.fits, h0, hs]
        · rw [if_neg (fun hx => hs hx.2), Option.map_some, Registry.put_same ht]
          refine ⟨.nothing, .acknowledged (.inr ⟨_, ht, ?_⟩), fun _ => ?_⟩
          · unfold Device.entry
            cases hx : d.status with
            | offline => exact absurd hx hs
            | online => simp [DStatus.presence]
            | sleeping => simp [DStatus.presence]
          · simp [Store.handle, process8001, Store.devByPhone, hg, hrd, finish, Said.fits, h0, hs]
      · rw [if_neg (fun hx => h0 hx.1), Option.map_some, Registry.put_same ht]
        refine ⟨.nothing, .acknowledged (.inl (by simp [h0])), fun _ => ?_⟩
        simp [Store.handle, process8001, finish, Said.fits, h0]
    | m0100 m =>
      simp only [devNext, Option.map_some]
      rw [Registry.put_same ht]
      have hp2 : st.hasPhone h.phone = true := by unfold Store.hasPhone Store.devByPhone; rw [hg]; rfl
      by_cases hp : st.taken m.plate = true
      · refine ⟨.registration 1 none, .plateTaken ((registry_hasPlate hi _).2 hp), fun _ => ?_⟩
        simp only [Store.handle, process0100, hasPlate_taken, hp, if_true, Said.fits]
        exact congrArg Prod.snd (finish_gen8100 env _ h 1 _)
      · refine ⟨.registration 3 none, .phoneTaken (fun hx => hp ((registry_hasPlate hi _).1 hx)) ht, fun _ => ?_⟩
        have hp' : st.taken m.plate = false := by simpa using hp
        simp only [Store.handle, process0100, hasPlate_taken, hp', hp2, Said.fits, Bool.false_eq_true, if_false, if_true]
        exact congrArg Prod.snd (finish_gen8100 env _ h 3 _)
    | m0001 m => rw [same _ rfl]; exact ⟨.nothing, .irrelevant, fun hx => absurd rfl hx⟩
    | m0104 m => rw [same _ rfl]; exact ⟨.nothing, .irrelevant, fun hx => absurd rfl hx⟩
    | m1205 m => rw [same _ rfl]; exact ⟨.nothing, .irrelevant, fun hx => absurd rfl hx⟩
    | m8100 m => rw [same _ rfl]; exact ⟨.nothing, .irrelevant, fun hx => absurd rfl hx⟩
    | m8103 m => rw [same _ rfl]; exact ⟨.nothing, .irrelevant, fun hx => absurd rfl hx⟩
    | m8104 => rw [same _ rfl]; exact ⟨.nothing, .irrelevant, fun hx => absurd rfl hx⟩
    | m9205 m => rw [same _ rfl]; exact ⟨.nothing, .irrelevant, fun hx => absurd rfl hx⟩

theorem registry_congr {st st' : Store} (h : ∀ p, st'.look p = st.look p) : st'.registry = st.registry := by
  funext p; unfold Store.registry; rw [h p]

theorem registry_check {env : Env} (evs : List Ev) (clk : Clock) (p : Str) :
    (Sys.start.run env (evs ++ [.check clk p])).1.st.registry =
      (Sys.start.run env evs).1.st.registry.put p
        ((((Sys.start.run env evs).1.st.look p).bind (devCheck clk.ms)).map Device.entry) := by
  funext q
  unfold Store.registry Registry.put
  by_cases hq : q = p
  · rw [if_pos hq, hq, run_check_look]
  · rw [if_neg hq, run_snoc, step_untouched env _ _ (reachable_inv env evs).1]
    exact fun hx => hq hx.symm

theorem seen_of_fits {env : Env} {clk : Clock} {c : Conn} {st : Store} {frame : List UInt8} {h : Header} {said : Said}
    (hf : said.fits h (st.handleFrame env clk c frame).2) : (st.serveFrame env clk c none frame).2 = said.seen c h := by
  unfold Store.serveFrame
  cases hx : st.handleFrame env clk c frame with
  | mk st1 o =>
    rw [hx] at hf
    cases said with
    | general r => simp only [Said.fits] at hf; subst hf; rfl
    | registration r code => simp only [Said.fits] at hf; subst hf; rfl
    | nothing =>
      simp only [Said.fits] at hf
      rcases hf with hf | hf <;> subst hf <;> simp [Said.seen, Err.endsServe]
    | goodbye => simp only [Said.fits] at hf; subst hf; simp [Said.seen, Err.endsServe]

/-- At the start the table is empty. -/
theorem C79_start : Sys.start.st.registry = Registry.none := rfl

/-- Every event after every history is a step of the table, with the answer of the table: a message that reaches its
handler is heard as the table says, and the answer on the wire is the one of the table; a keepalive check is a check of
the table; nothing else changes it. -/
theorem C79_step (env : Env) (evs : List Ev) (e : Ev) :
    Explained env (Sys.start.run env evs).1 ((Sys.start.run env evs).1.step env e).2
      (Sys.start.run env evs).1.st.registry (Sys.start.run env (evs ++ [e])).1.st.registry e := by
  have hi := reachable_inv env evs
  have quiet : (∀ p, ¬ e.touches env p) →
      (Sys.start.run env (evs ++ [e])).1.st.registry = (Sys.start.run env evs).1.st.registry := by
    intro hu
    apply registry_congr
    intro p
    rw [run_snoc]
    exact step_untouched env _ _ hi.1 p (hu p)
  cases e with
  | accept addr => exact quiet (fun _ hx => hx)
  | readErr c e => exact quiet (fun _ hx => hx)
  | httpList => exact quiet (fun _ hx => hx)
  | httpGeo phone => exact quiet (fun _ hx => hx)
  | httpQuery phone werr => exact quiet (fun _ hx => hx)
  | httpSet phone bound bad werr => exact quiet (fun _ hx => hx)
  | check clk p =>
    simp only [Explained]
    rw [registry_check]
    cases hl : (Sys.start.run env evs).1.st.look p with
    | none =>
      have ht := registry_none hl
      rw [Option.bind_none, Option.map_none, Registry.put_same ht]
      exact .unknown ht
    | some d =>
      have ht := registry_some hl
      rw [Option.bind_some]
      unfold devCheck
      by_cases hd : d.last + 60000 < clk.ms
      · rw [if_pos hd]
        by_cases hs : d.status = .offline
        · rw [if_pos hs]
          exact .cleared ht hd (by unfold Device.entry; rw [hs]; rfl)
        · rw [if_neg hs]
          refine .lost ht hd ?_
          unfold Device.entry
          cases hx : d.status with
          | offline => exact absurd hx hs
          | online => simp [DStatus.presence]
          | sleeping => simp [DStatus.presence]
      · rw [if_neg hd, Option.map_some, Registry.put_same ht]
        exact .recent ht (Nat.le_of_not_lt hd)
  | frame clk c bytes werr =>
    simp only [Explained]
    have hcr : ¬ (Sys.start.run env evs).1.crashed = true := by rw [hi.2]; simp
    by_cases hc : c ∈ (Sys.start.run env evs).1.live
    · by_cases hd : ∃ h m, Delivers env clk.civil (Sys.start.run env evs).1.st bytes h m
      · obtain ⟨h, m, hd⟩ := hd
        left
        obtain ⟨sg, hsg⟩ := hd.handle c
        have hi' : StoreInv { (Sys.start.run env evs).1.st with segs := sg } :=
          hi.1.of_same ⟨rfl, rfl, rfl, rfl, rfl⟩ hi.1.rings hi.1.params
        obtain ⟨said, h1, h2⟩ := hears_handle env clk c hi' h m
        refine ⟨h, m, said, hc, hd, ?_, ?_⟩
        · have : (Sys.start.run env (evs ++ [.frame clk c bytes werr])).1.st.registry =
              (Store.handle env clk c { (Sys.start.run env evs).1.st with segs := sg } h m).1.registry := by
            rw [registry_handle env clk c hi' h m]
            funext p
            rw [run_snoc]
            unfold Sys.step
            rw [if_neg hcr]
            simp only
            rw [if_pos hc]
            unfold Store.registry Registry.put
            simp only
            rw [look_serveFrame hi.1 hd c werr p]
            by_cases hp : p = h.phone
            · rw [if_pos hp, if_pos hp]; rfl
            · rw [if_neg hp, if_neg hp]; rfl
          rw [this]; exact h1
        · intro ho hw
          subst hw
          unfold Sys.step
          rw [if_neg hcr]
          simp only
          rw [if_pos hc]
          apply seen_of_fits
          rw [hsg]
          exact h2 ho
      · right
        refine ⟨.inr fun h m hx => hd ⟨h, m, hx⟩, ?_⟩
        apply registry_congr
        intro p
        rw [run_snoc]
        unfold Sys.step
        rw [if_neg hcr]
        simp only
        rw [if_pos hc]
        exact look_serveFrame_none (fun h m hx => hd ⟨h, m, hx⟩) c werr p
    · right
      refine ⟨.inl hc, ?_⟩
      rw [run_snoc]
      unfold Sys.step
      rw [if_neg hcr]
      simp only
      rw [if_neg hc]

/-- So every table the server ever stands for is one that arises by messages and checks. -/
theorem C79_arises (env : Env) (evs : List Ev) : (Sys.start.run env evs).1.st.registry.Arises := by
  induction evs using snoc_ind with
  | h0 => exact .start
  | h1 evs e ih =>
    have h := C79_step env evs e
    cases e with
    | frame clk c bytes werr =>
      rcases h with ⟨h, m, said, -, -, hh, -⟩ | ⟨-, hh⟩
      · exact .heard ih hh
      · rw [hh]; exact ih
    | check clk p => exact .checked ih h
    | accept addr => simp only [Explained] at h; rw [h]; exact ih
    | readErr c e => simp only [Explained] at h; rw [h]; exact ih
    | httpList => simp only [Explained] at h; rw [h]; exact ih
    | httpGeo phone => simp only [Explained] at h; rw [h]; exact ih
    | httpQuery phone werr => simp only [Explained] at h; rw [h]; exact ih
    | httpSet phone bound bad werr => simp only [Explained] at h; rw [h]; exact ih

theorem onePlate_put_same {t : Registry} (h : t.OnePlate) {phone : List UInt8} {e e' : Entry} (he : t phone = some e)
    (hp : e'.plate = e.plate) : (t.put phone (some e')).OnePlate := by
  intro p p' f f' h1 h2 h3
  unfold Registry.put at h1 h2
  by_cases hx : p = phone
  · by_cases hy : p' = phone
    · rw [hx, hy]
    · rw [if_pos hx] at h1; rw [if_neg hy] at h2
      cases h1
      rw [hx]
      exact h _ _ _ _ he h2 (by rw [← hp]; exact h3)
  · by_cases hy : p' = phone
    · rw [if_neg hx] at h1; rw [if_pos hy] at h2
      cases h2
      rw [hy]
      exact h _ _ _ _ h1 he (by rw [← hp]; exact h3)
    · rw [if_neg hx] at h1; rw [if_neg hy] at h2
      exact h _ _ _ _ h1 h2 h3

theorem onePlate_put_none {t : Registry} (h : t.OnePlate) (phone : List UInt8) : (t.put phone none).OnePlate := by
  intro p p' f f' h1 h2 h3
  unfold Registry.put at h1 h2
  by_cases hx : p = phone
  · rw [if_pos hx] at h1; cases h1
  · by_cases hy : p' = phone
    · rw [if_pos hy] at h2; cases h2
    · rw [if_neg hx] at h1; rw [if_neg hy] at h2
      exact h _ _ _ _ h1 h2 h3

theorem onePlate_put_new {t : Registry} (h : t.OnePlate) {phone : List UInt8} {e : Entry} (hn : ¬ t.hasPlate e.plate) :
    (t.put phone (some e)).OnePlate := by
  intro p p' f f' h1 h2 h3
  unfold Registry.put at h1 h2
  by_cases hx : p = phone
  · rw [if_pos hx] at h1
    by_cases hy : p' = phone
    · exact hx.trans hy.symm
    · rw [if_neg hy] at h2
      cases h1
      exact absurd ⟨p', f', h2, h3.symm⟩ hn
  · rw [if_neg hx] at h1
    by_cases hy : p' = phone
    · rw [if_pos hy] at h2
      cases h2
      exact absurd ⟨p, f, h1, h3⟩ hn
    · rw [if_neg hy] at h2
      exact h _ _ _ _ h1 h2 h3

theorem onePlate_arises {t : Registry} (h : t.Arises) : t.OnePlate := by
  induction h with
  | start => intro p p' e e' h; cases h
  | heard ha hh ih =>
    cases hh with
    | plateTaken => exact ih
    | phoneTaken => exact ih
    | unknown => exact ih
    | driving => exact ih
    | acknowledged => exact ih
    | acknowledgedUnknown => exact ih
    | irrelevant => exact ih
    | rightCode he => exact onePlate_put_same ih he rfl
    | wrongCode he hc => exact onePlate_put_none ih _
    | beat he => exact onePlate_put_same ih he rfl
    | left he => exact onePlate_put_none ih _
    | parked he => exact onePlate_put_same ih he rfl
    | woken he hs => exact onePlate_put_same ih he rfl
    | registered hn he => exact onePlate_put_new ih hn
  | checked ha hh ih =>
    cases hh with
    | unknown => exact ih
    | recent => exact ih
    | lost he hl hp => exact onePlate_put_same ih he rfl
    | cleared he hl hp => exact onePlate_put_none ih _

/-- The listing is the table: each phone once, and a terminal is listed with an entry iff the table has that entry. -/
theorem C79_listing (env : Env) (evs : List Ev) :
    ((Sys.start.run env evs).1.st.apiList.1.map (·.phone)).Nodup ∧
    (∀ p e, (Sys.start.run env evs).1.st.registry p = some e ↔
      ∃ d ∈ (Sys.start.run env evs).1.st.apiList.1, d.phone = p ∧ d.entry = e) ∧
    (Sys.start.run env evs).1.st.registry.OnePlate := by
  obtain ⟨h1, h2⟩ := C62_listing env _ ⟨evs, rfl⟩
  refine ⟨h1, fun p e => ?_, onePlate_arises (C79_arises env evs)⟩
  constructor
  · intro h
    obtain ⟨d, hd, rfl⟩ := Option.map_eq_some_iff.1 h
    have hp := look_phone (reachable_inv env evs).1 hd
    exact ⟨d, (h2 d).2 (by rw [hp]; exact hd), hp, rfl⟩
  · rintro ⟨d, hd, rfl, rfl⟩
    exact registry_some ((h2 d).1 hd)

/-- The demonstration terminal registers and authenticates: two steps of the table. -/
example : (Sys.start.run goEnv silentEvs).1.st.registry (hdr2013 0).phone =
      some ⟨demoRegMsg.deviceID, demoRegMsg.plate, [0x61], 2000, .online⟩ ∧
    demoCode = codeText demoRegMsg.deviceID demoRegMsg.plate (hdr2013 0).phone := by
  decide +kernel

end JT808
