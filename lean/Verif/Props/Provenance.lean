import Verif.Props.Auth
/-
C116: where what is shown of a terminal comes from.
-/
namespace JT808
open Spec

/-- In state `s`, event `e` is a message `m` of phone `p` with header `h` that reaches its handler over the served connection
`c`. -/
def Ev.says (env : Env) (s : Sys) (p : Str) (e : Ev) (c : Conn) (h : Header) (m : Msg) : Prop :=
  ∃ clk bytes werr, e = .frame clk c bytes werr ∧ c ∈ s.live ∧ Delivers env clk.civil s.st bytes h m ∧ h.phone = p

/-- After the history `past`, none of `later` is an authentication of `p` that reaches its handler. -/
def NoAuth (env : Env) (past : List Ev) (p : Str) (later : List Ev) : Prop :=
  ∀ mid e post, later = mid ++ e :: post → ∀ c h a, ¬ e.says env (Sys.start.run env (past ++ mid)).1 p c h (.m0102 a)

/-- The authentication code, IMEI and software version are those of the last authentication of `p` in `later`, and empty if
there was none. -/
def LastAuth (env : Env) (past : List Ev) (p : Str) (later : List Ev) (code imei software : Str) : Prop :=
  (NoAuth env past p later ∧ code = [] ∧ imei = [] ∧ software = []) ∨
  ∃ mid e post c h a, later = mid ++ e :: post ∧ e.says env (Sys.start.run env (past ++ mid)).1 p c h (.m0102 a) ∧
    NoAuth env (past ++ mid ++ [e]) p post ∧ code = a.code ∧ imei = a.imei ∧ software = a.software

/-- `d` is what the messages of `p` said: a registration while `p` was free, after which `p` stayed registered, gave the
identity; the last authentication since gave the rest. -/
def Told (env : Env) (evs : List Ev) (p : Str) (d : Device) : Prop :=
  ∃ pre e post c h m, evs = pre ++ e :: post ∧ e.says env (Sys.start.run env pre).1 p c h (.m0100 m) ∧
    (Sys.start.run env pre).1.st.look p = none ∧
    (∀ mid, mid <+: post → ((Sys.start.run env (pre ++ e :: mid)).1.st.look p).isSome) ∧
    d.id = m.deviceID ∧ d.plate = m.plate ∧ d.phone = p ∧ d.sessionID = c.addr ∧ d.conn = some c ∧ d.keepalive = 60000 ∧
    d.ver = h.attr.verDesc ∧ d.protoVer = h.protoVer ∧
    LastAuth env (pre ++ [e]) p post d.authCode d.imei d.software

theorem step_says {env : Env} {s : Sys} (hc : s.crashed = false) (hi : StoreInv s.st) {p : Str} {e : Ev} {c : Conn}
    {h : Header} {m : Msg} (hs : e.says env s p c h m) :
    ∃ clk, (s.step env e).1.st.look p = devNext clk c h s.st.taken m (s.st.look p) := by
  obtain ⟨clk, bytes, werr, rfl, hl, hd, rfl⟩ := hs
  refine ⟨clk, ?_⟩
  unfold Sys.step
  rw [hc]
  simp only [Bool.false_eq_true, if_false, if_pos hl]
  rw [look_serveFrame hi hd, if_pos rfl]

theorem NoAuth.snoc {env : Env} {past later : List Ev} {p : Str} {e : Ev} (h : NoAuth env past p later)
    (he : ∀ c hh a, ¬ e.says env (Sys.start.run env (past ++ later)).1 p c hh (.m0102 a)) :
    NoAuth env past p (later ++ [e]) := by
  intro mid e' post hx c hh a
  rcases List.eq_nil_or_concat post with rfl | ⟨q, b, rfl⟩
  · obtain ⟨rfl, hy⟩ := List.append_inj' hx rfl
    obtain rfl : e = e' := by simpa using hy
    exact he c hh a
  · have : later ++ [e] = (mid ++ e' :: q) ++ [b] := by rw [hx]; simp
    exact h mid e' q (List.append_inj' this rfl).1 c hh a

/-- Everything shown of a terminal except its presence and when it was last heard of: after every history a listed device says
what its last registration said, and below it what the last authentication since said. -/
theorem C116_told (env : Env) (evs : List Ev) (p : Str) (d : Device) (hd : (Sys.start.run env evs).1.st.look p = some d) :
    Told env evs p d := by
  induction evs using snoc_ind generalizing d with
  | h0 => cases hd
  | h1 evs e ih =>
    have hd0 := hd
    rw [run_snoc] at hd
    have hi := reachable_inv env evs
    generalize ho : ((Sys.start.run env evs).1.step env e).1.st.look p = o at hd
    have hdv := step_dev env _ e hi.1 p
    rw [ho] at hdv
    have stays : ∀ {pre e' post}, evs = pre ++ e' :: post →
        (∀ mid, mid <+: post → ((Sys.start.run env (pre ++ e' :: mid)).1.st.look p).isSome) →
        ∀ mid, mid <+: post ++ [e] → ((Sys.start.run env (pre ++ e' :: mid)).1.st.look p).isSome := by
      intro pre e' post hx h5 mid ⟨t, ht⟩
      rcases List.eq_nil_or_concat t with rfl | ⟨q, a, rfl⟩
      · simp only [List.append_nil] at ht
        subst ht
        have : pre ++ e' :: (post ++ [e]) = evs ++ [e] := by rw [hx]; simp
        rw [this, hd0]; rfl
      · have h4 : (mid ++ q) ++ [a] = post ++ [e] := by rw [← ht]; simp
        exact h5 mid ⟨q, (List.append_inj' h4 rfl).1⟩
    -- an event that is no authentication and keeps all but presence and time
    have ext : ∀ d1, (Sys.start.run env evs).1.st.look p = some d1 →
        (∀ c h a, ¬ e.says env (Sys.start.run env evs).1 p c h (.m0102 a)) →
        (∃ s l, d = { d1 with status := s, last := l }) → Told env (evs ++ [e]) p d := by
      rintro d1 h1 hn ⟨s, l, rfl⟩
      obtain ⟨pre, e', post, c, h, m, hx, h2, h3, h4, i1, i2, i3, i4, i5, i6, i7, i8, h5⟩ := ih d1 h1
      refine ⟨pre, e', post ++ [e], c, h, m, by rw [hx]; simp, h2, h3, stays hx h4, i1, i2, i3, i4, i5, i6, i7, i8, ?_⟩
      rcases h5 with ⟨h5, h6⟩ | ⟨mid, e2, post2, c2, hh2, a, hy, h5, h6, h7⟩
      · refine .inl ⟨h5.snoc ?_, h6⟩
        have : pre ++ [e'] ++ post = evs := by rw [hx]; simp
        rw [this]; exact hn
      · refine .inr ⟨mid, e2, post2 ++ [e], c2, hh2, a, by rw [hy]; simp, h5, h6.snoc ?_, h7⟩
        have : pre ++ [e'] ++ mid ++ [e2] ++ post2 = evs := by rw [hx, hy]; simp
        rw [this]; exact hn
    cases hb : (Sys.start.run env evs).1.st.look p with
    | none =>
      cases hdv with
      | same => rw [hb] at hd; cases hd
      | chk clk hj => rw [hb] at hd; cases hd
      | msg clk c bytes werr hh m hl hdl hp =>
        rw [hb] at hd
        cases m <;> simp only [devNext] at hd <;> first | cases hd | skip
        case m0100 m =>
          by_cases ht : (Sys.start.run env evs).1.st.taken m.plate = true
          · rw [if_pos ht] at hd; cases hd
          · rw [if_neg ht] at hd
            injection hd with hd
            subst hd
            refine ⟨evs, _, [], c, hh, m, rfl, ⟨clk, bytes, werr, rfl, hl, hdl, hp⟩, hb, ?_, rfl, rfl, hp, rfl, rfl, rfl, rfl, rfl,
              .inl ⟨?_, rfl, rfl, rfl⟩⟩
            · intro mid hm
              rw [List.prefix_nil.1 hm, hd0]; rfl
            · intro mid e' post hx
              simp at hx
    | some d1 =>
      by_cases hn : ∃ c h a, e.says env (Sys.start.run env evs).1 p c h (.m0102 a)
      · obtain ⟨c, h, a, hsay⟩ := hn
        obtain ⟨clk, hst⟩ := step_says hi.2 hi.1 hsay
        rw [ho, hb] at hst
        subst hst
        simp only [devNext] at hd
        by_cases hc : a.code = d1.code
        · rw [if_pos hc] at hd
          injection hd with hd
          subst hd
          obtain ⟨pre, e', post, c', h', m, hx, h2, h3, h4, i1, i2, i3, i4, i5, i6, i7, i8, -⟩ := ih d1 hb
          refine ⟨pre, e', post ++ [e], c', h', m, by rw [hx]; simp, h2, h3, stays hx h4, i1, i2, i3, i4, i5, i6, i7, i8,
            .inr ⟨post, e, [], c, h, a, rfl, ?_, ?_, rfl, rfl, rfl⟩⟩
          · have : pre ++ [e'] ++ post = evs := by rw [hx]; simp
            rw [this]; exact hsay
          · intro mid e2 post2 hz
            simp at hz
        · rw [if_neg hc] at hd; cases hd
      · have hn' : ∀ c h a, ¬ e.says env (Sys.start.run env evs).1 p c h (.m0102 a) := fun c h a hx => hn ⟨c, h, a, hx⟩
        have keep : ∀ d2 : Device, d2 = d → (∃ s l, d2 = { d1 with status := s, last := l }) → Told env (evs ++ [e]) p d := by
          rintro d2 rfl hx
          exact ext d1 hb hn' hx
        cases hdv with
        | same => rw [hb] at hd; injection hd with hd; exact keep _ hd ⟨d1.status, d1.last, rfl⟩
        | chk clk hj =>
          rw [hb] at hd
          simp only [Option.bind_some, devCheck] at hd
          by_cases h1 : d1.last + 60000 < clk.ms
          · rw [if_pos h1] at hd
            by_cases h2 : d1.status = .offline
            · rw [if_pos h2] at hd; cases hd
            · rw [if_neg h2] at hd; injection hd with hd; exact keep _ hd ⟨.offline, d1.last, rfl⟩
          · rw [if_neg h1] at hd; injection hd with hd; exact keep _ hd ⟨d1.status, d1.last, rfl⟩
        | msg clk c bytes werr hh m hl hdl hp =>
          rw [hb] at hd
          cases m <;> simp only [devNext] at hd
          case m0003 => cases hd
          case m0102 a => exact absurd ⟨clk, bytes, werr, rfl, hl, hdl, hp⟩ (hn' c hh a)
          case m0002 => injection hd with hd; exact keep _ hd ⟨d1.status, clk.ms, rfl⟩
          case m0200 m =>
            injection hd with hd
            by_cases ha : (GeoMeta.decode m.status).acc = 0
            · rw [if_pos ha] at hd; exact keep _ hd ⟨_, _, rfl⟩
            · rw [if_neg ha] at hd; exact keep _ hd ⟨d1.status, d1.last, rfl⟩
          case m8001 m =>
            injection hd with hd
            by_cases ha : m.result = 0 ∧ d1.status = .offline
            · rw [if_pos ha] at hd; exact keep _ hd ⟨_, _, rfl⟩
            · rw [if_neg ha] at hd; exact keep _ hd ⟨d1.status, d1.last, rfl⟩
          all_goals (injection hd with hd; exact keep _ hd ⟨d1.status, d1.last, rfl⟩)

-- a terminal that registered, authenticated and sent a heartbeat is listed
example : ((Sys.start.run goEnv (demoEvs ++ [.frame (demoClk 2000) demoC (demoAuth demoCode) none,
    .frame (demoClk 3000) demoC demoBeat none])).1.st.look (hdr2013 0).phone).map (fun d => (d.id, d.authCode)) =
    some (demoRegMsg.deviceID, demoCode) := by decide +kernel

end JT808
