import Verif.Proof.Route
import Verif.Props.Provenance
import Verif.Props.Binding
import Verif.Props.JsonRead
/-
C134: HTTP requests and the terminals they are about.
-/
namespace JT808
open Spec

/-! ## Paths -/

theorem device_bytes : "/device".toUTF8.toList = [0x2f, 0x64, 0x65, 0x76, 0x69, 0x63, 0x65] ∧
    "/device/".toUTF8.toList = [0x2f, 0x64, 0x65, 0x76, 0x69, 0x63, 0x65, 0x2f] ∧
    "/geo".toUTF8.toList = [0x2f, 0x67, 0x65, 0x6f] ∧
    "/params".toUTF8.toList = [0x2f, 0x70, 0x61, 0x72, 0x61, 0x6d, 0x73] := by decide +kernel

theorem getTree_iff (path : Str) (h : Handler) (p : Str) : getTree.find 8 path [] = .at h p ↔ AsksFor .get path h p := by
  obtain ⟨b1, b2, b3, b4⟩ := device_bytes
  unfold getTree
  rw [find_static]
  constructor
  · rintro (⟨rfl, h1, rfl⟩ | ⟨c, rest, rfl, h1⟩)
    · cases h1
      rw [← b1]
      exact .list
    · rcases h1 with ⟨n, h1, h2⟩ | ⟨-, n, h1, -⟩
      · have hc : c = 0x2f := by
          rw [List.lookup_cons] at h1
          split at h1
          · rename_i e; exact eq_of_beq e
          · cases h1
        subst hc
        injection h1 with h1
        subst h1
        rw [find_static] at h2
        rcases h2 with ⟨-, h2, -⟩ | ⟨c, rest', e, h2⟩
        · cases h2
        · rcases h2 with ⟨n, h2, -⟩ | ⟨-, n, h2, h3⟩
          · cases h2
          · injection h2 with h2
            subst h2
            rw [find_param] at h3
            obtain ⟨val, rest'', e2, hv, h3⟩ := h3
            rw [find_static] at h3
            injection e with _ e
            rcases h3 with ⟨-, h3, -⟩ | ⟨c', r3, e3, h3⟩
            · cases h3
            · injection e3 with _ e3
              rcases h3 with ⟨n, h3, h4⟩ | ⟨-, n, h3, -⟩
              · rw [List.lookup_cons] at h3
                split at h3
                · injection h3 with h3
                  subst h3
                  rw [find_leaf] at h4
                  obtain ⟨k1, rfl, rfl⟩ := h4
                  rw [e, e2, e3, k1]
                  have := AsksFor.geo hv
                  rw [b2, b3] at this
                  simpa using this
                · rw [List.lookup_cons] at h3
                  split at h3
                  · injection h3 with h3
                    subst h3
                    rw [find_leaf] at h4
                    obtain ⟨k1, rfl, rfl⟩ := h4
                    rw [e, e2, e3, k1]
                    have := AsksFor.query hv
                    rw [b2, b4] at this
                    simpa using this
                  · cases h3
              · cases h3
      · cases h1
  · intro ha
    generalize hm : HttpMethod.get = m at ha
    cases ha with
    | list => left; exact ⟨b1, rfl, rfl⟩
    | set _ => cases hm
    | @geo p hv =>
      right
      refine ⟨0x2f, p ++ "/geo".toUTF8.toList, by rw [b2, b3]; simp, .inl ⟨_, rfl, ?_⟩⟩
      rw [find_static]
      right
      cases hx : p ++ "/geo".toUTF8.toList with
      | nil => rw [b3] at hx; simp at hx
      | cons c r =>
        refine ⟨c, r, rfl, .inr ⟨rfl, _, rfl, ?_⟩⟩
        rw [find_param]
        refine ⟨p, [0x67, 0x65, 0x6f], by rw [← hx, b3], hv, ?_⟩
        rw [find_static]
        right
        refine ⟨0x67, [0x65, 0x6f], rfl, .inl ⟨_, rfl, ?_⟩⟩
        rw [find_leaf]
        exact ⟨rfl, rfl, rfl⟩
    | @query p hv =>
      right
      refine ⟨0x2f, p ++ "/params".toUTF8.toList, by rw [b2, b4]; simp, .inl ⟨_, rfl, ?_⟩⟩
      rw [find_static]
      right
      cases hx : p ++ "/params".toUTF8.toList with
      | nil => rw [b4] at hx; simp at hx
      | cons c r =>
        refine ⟨c, r, rfl, .inr ⟨rfl, _, rfl, ?_⟩⟩
        rw [find_param]
        refine ⟨p, [0x70, 0x61, 0x72, 0x61, 0x6d, 0x73], by rw [← hx, b4], hv, ?_⟩
        rw [find_static]
        right
        refine ⟨0x70, [0x61, 0x72, 0x61, 0x6d, 0x73], rfl, .inl ⟨_, rfl, ?_⟩⟩
        rw [find_leaf]
        exact ⟨rfl, rfl, rfl⟩

theorem putTree_iff (path : Str) (h : Handler) (p : Str) : putTree.find 8 path [] = .at h p ↔ AsksFor .put path h p := by
  obtain ⟨b1, b2, b3, b4⟩ := device_bytes
  unfold putTree
  rw [find_static]
  constructor
  · rintro (⟨-, h1, -⟩ | ⟨c, rest, rfl, h1⟩)
    · cases h1
    · rcases h1 with ⟨n, h1, -⟩ | ⟨-, n, h1, h2⟩
      · cases h1
      · injection h1 with h1
        subst h1
        rw [find_param] at h2
        obtain ⟨val, rest', e, hv, h2⟩ := h2
        rw [find_leaf] at h2
        obtain ⟨k1, rfl, rfl⟩ := h2
        rw [e, k1]
        have := AsksFor.set hv
        rw [b2, b4] at this
        simpa using this
  · intro ha
    generalize hm : HttpMethod.put = m at ha
    cases ha with
    | list => cases hm
    | geo _ => cases hm
    | query _ => cases hm
    | @set p hv =>
      right
      cases hx : p ++ "/params".toUTF8.toList with
      | nil => rw [b4] at hx; simp at hx
      | cons c r =>
        refine ⟨c, r, by rw [← hx, b2, List.append_assoc], .inr ⟨rfl, _, rfl, ?_⟩⟩
        rw [find_param]
        refine ⟨p, [0x70, 0x61, 0x72, 0x61, 0x6d, 0x73], by rw [← hx, b4], hv, ?_⟩
        rw [find_leaf]
        exact ⟨rfl, rfl, rfl⟩

/-- A request is taken for an operation on a terminal exactly if its target writes a path that asks for it, in whatever escapes
and with whatever query. -/
theorem C134_exact (method : HttpMethod) (target : Str) (h : Handler) (p : Str) :
    route method target = .op h p ↔ ∃ path, IsTarget target path ∧ AsksFor method path h p := by
  unfold route
  cases hp : targetPath target with
  | none =>
    simp only [reduceCtorEq, false_iff]
    rintro ⟨path, h1, -⟩
    rw [(targetPath_iff _ _).2 h1] at hp
    cases hp
  | some path =>
    have key : (∃ path', IsTarget target path' ∧ AsksFor method path' h p) ↔ AsksFor method path h p := by
      constructor
      · rintro ⟨path', h1, h2⟩
        rw [(targetPath_iff _ _).2 h1] at hp
        cases hp
        exact h2
      · intro h; exact ⟨path, (targetPath_iff _ _).1 hp, h⟩
    rw [key]
    cases method with
    | get =>
      rw [← getTree_iff]
      simp only
      cases getTree.find 8 path [] <;> simp
    | put =>
      rw [← putTree_iff]
      simp only
      cases putTree.find 8 path [] <;> simp
    | _ => exact ⟨fun h => (by cases h), fun h => (by cases h)⟩

/-- Everything else is answered 400, 404 or with a redirect, for GET and PUT only. -/
theorem C134_other (method : HttpMethod) (target : Str) (h : ∀ o p, route method target ≠ .op o p) :
    route method target = .status 400 ∨ route method target = .status 404 ∨
    method = .get ∧ route method target = .status 301 ∨ method = .put ∧ route method target = .status 307 := by
  unfold route at h ⊢
  cases hp : targetPath target with
  | none => exact .inl rfl
  | some path =>
    right
    rw [hp] at h
    cases method with
    | get =>
      simp only at h ⊢
      cases hf : getTree.find 8 path [] with
      | «at» o p => rw [hf] at h; exact absurd rfl (h o p)
      | none tsr =>
        simp only [if_true]
        by_cases hx : tsr = true ∧ path ≠ [0x2f]
        · rw [if_pos hx]; exact .inr (.inl ⟨trivial, rfl⟩)
        · rw [if_neg hx]; exact .inl rfl
    | put =>
      simp only at h ⊢
      cases hf : putTree.find 8 path [] with
      | «at» o p => rw [hf] at h; exact absurd rfl (h o p)
      | none tsr =>
        simp only [reduceCtorEq, if_false]
        by_cases hx : tsr = true ∧ path ≠ [0x2f]
        · rw [if_pos hx]; exact .inr (.inr ⟨trivial, rfl⟩)
        · rw [if_neg hx]; exact .inl rfl
    | _ => exact .inl rfl

/-- The operation as an event of the server. -/
def Handler.event (r : Request) (werr : Option Err) (p : Str) : Handler → Ev
  | .list => .httpList
  | .geo => .httpGeo p
  | .query => .httpQuery p werr
  | .set => .httpSet p r.body.bound r.body.bad werr

/-- What a request does to a server, in any state: what the operation does that it asks for; and if it asks for none, nothing,
and the answer says so. -/
theorem C134_request (env : Env) (s : Sys) (hc : s.crashed = false) (r : Request) (werr : Option Err) :
    (∀ path h p, IsTarget r.target path → AsksFor r.method path h p → s.request env r werr = s.step env (h.event r werr p)) ∧
    ((∀ path h p, IsTarget r.target path → ¬ AsksFor r.method path h p) →
      (s.request env r werr).1 = s ∧ ∃ code ∈ [400, 404, 301, 307], (s.request env r werr).2 = ⟨none, false, some code⟩) := by
  constructor
  · intro path h p h1 h2
    have e := (C134_exact _ _ _ _).2 ⟨path, h1, h2⟩
    unfold Sys.request
    rw [e, hc]
    cases h <;> rfl
  · intro hn
    have h := C134_other r.method r.target (fun o p h => by
      obtain ⟨path, h1, h2⟩ := (C134_exact _ _ _ _).1 h
      exact hn path o p h1 h2)
    unfold Sys.request
    rw [hc]
    simp only [Bool.false_eq_true, if_false]
    rcases h with h | h | ⟨-, h⟩ | ⟨-, h⟩ <;> rw [h]
    · exact ⟨rfl, 400, by simp, rfl⟩
    · exact ⟨rfl, 404, by simp, rfl⟩
    · exact ⟨rfl, 301, by simp, rfl⟩
    · exact ⟨rfl, 307, by simp, rfl⟩

/-! ## Every registered terminal -/

/-- The characters a phone number in a header can have. -/
def PhoneText (p : Str) : Prop := ∀ c ∈ p, (0x30 ≤ c ∧ c ≤ 0x39) ∨ (0x41 ≤ c ∧ c ≤ 0x46)

theorem hex2_text (b : UInt8) : PhoneText (hex2 b) := by
  have key : ∀ n, n < 256 → ∀ c ∈ hex2 (UInt8.ofNat n), (0x30 ≤ c ∧ c ≤ 0x39) ∨ (0x41 ≤ c ∧ c ≤ 0x46) := by decide +kernel
  exact forall_uint8 (P := fun b => PhoneText (hex2 b)) key b

theorem bcd_text (bs : List UInt8) : PhoneText (bcd2NumberStr bs) := by
  have hn : PhoneText (bs.flatMap hex2) := fun c hc => by
    obtain ⟨b, -, h⟩ := List.mem_flatMap.1 hc
    exact hex2_text b c h
  unfold bcd2NumberStr
  simp only
  split
  · exact hn
  · split
    · intro c hc
      simp only [List.mem_singleton] at hc
      subst hc
      exact .inl ⟨by decide, by decide⟩
    · intro c hc
      exact hn c (List.mem_of_mem_drop hc)

theorem header_phone_text {s : Slice} {i : Nat} {h : Header} {j : Nat} (e : Header.decode s i = .ok (h, j)) :
    PhoneText h.phone := by
  unfold Header.decode at e
  obtain ⟨id, i1, -, e⟩ := rd_bind_ok e
  obtain ⟨w, i2, -, e⟩ := rd_bind_ok e
  obtain ⟨pv, i3, -, e⟩ := rd_bind_ok e
  obtain ⟨ph, i4, e4, e⟩ := rd_bind_ok e
  obtain ⟨sn, i5, -, e⟩ := rd_bind_ok e
  obtain ⟨fr, i6, -, e⟩ := rd_bind_ok e
  rw [rd_pure_eq] at e
  injection e with e; injection e with e _
  rw [← e]
  simp only
  have key : ∀ n, readBCD n s i3 = .ok (ph, i4) → PhoneText ph := fun n hr => by
    unfold readBCD at hr
    obtain ⟨bs, i5, -, hr⟩ := rd_bind_ok hr
    rw [rd_pure_eq] at hr
    injection hr with hr; injection hr with hr _
    rw [← hr]
    exact bcd_text bs
  cases hv : (Attr.decode w).verDesc with
  | v2019 => rw [hv] at e4; exact key 10 e4
  | v2013 => rw [hv] at e4; exact key 6 e4
  | v2011 => rw [hv] at e4; cases e4

theorem registered_text (env : Env) (evs : List Ev) (p : Str) (d : Device)
    (hd : (Sys.start.run env evs).1.st.look p = some d) : PhoneText p := by
  obtain ⟨pre, e, post, c, h, m, -, ⟨clk, bytes, werr, -, -, ⟨st1, pkt, t, j, h1, h2, -⟩, rfl⟩, -⟩ := C116_told env evs p d hd
  obtain ⟨pd, h3, h4, -⟩ := decodePacket_header h1
  rw [← h2, h4]
  unfold decodeFrame at h3
  simp only at h3
  split at h3
  · cases h3
  · split at h3
    · cases h3
    · cases h3
    · split at h3
      · cases h3
      · cases h3
      · rename_i hh idx he
        split at h3
        · cases h3
        · cases h3
        · cases h3
          exact header_phone_text he

theorem phoneText_char {p : Str} (h : PhoneText p) : ∀ c ∈ p, Visible c ∧ c ≠ 0x25 ∧ c ≠ 0x3f ∧ c ≠ 0x2f := by
  intro c hc
  have key : ∀ n, n < 256 → ((0x30 ≤ UInt8.ofNat n ∧ UInt8.ofNat n ≤ 0x39) ∨ (0x41 ≤ UInt8.ofNat n ∧ UInt8.ofNat n ≤ 0x46)) →
      (0x20 ≤ UInt8.ofNat n ∧ UInt8.ofNat n ≠ 0x7f) ∧ UInt8.ofNat n ≠ 0x25 ∧ UInt8.ofNat n ≠ 0x3f ∧ UInt8.ofNat n ≠ 0x2f := by
    decide +kernel
  have := key c.toNat c.toNat_lt
  simp only [UInt8.ofNat_toNat] at this
  exact this (h c hc)

theorem writes_self {s : Str} (h : ∀ c ∈ s, Visible c ∧ c ≠ 0x25 ∧ c ≠ 0x3f) : Writes s s := by
  induction s with
  | nil => exact .nil
  | cons c s ih =>
    obtain ⟨h1, h2, h3⟩ := h c (by simp)
    exact .plain h1 h2 h3 (ih fun c hc => h c (by simp [hc]))

theorem plain_device : ∀ c ∈ "/device/".toUTF8.toList ++ "/geo".toUTF8.toList ++ "/params".toUTF8.toList,
    Visible c ∧ c ≠ 0x25 ∧ c ≠ 0x3f := by
  obtain ⟨-, b2, b3, b4⟩ := device_bytes
  rw [b2, b3, b4]
  unfold Visible
  decide

/-- Every registered terminal, after any history, can be asked for by its number as it is: the position, the query and the setting
of parameters reach the terminal they name.  No number needs escapes, and none contains a slash. -/
theorem C134_every_terminal (env : Env) (evs : List Ev) (p : Str) (d : Device)
    (hd : (Sys.start.run env evs).1.st.look p = some d) :
    route .get ("/device/".toUTF8.toList ++ p ++ "/geo".toUTF8.toList) = .op .geo p ∧
    route .get ("/device/".toUTF8.toList ++ p ++ "/params".toUTF8.toList) = .op .query p ∧
    route .put ("/device/".toUTF8.toList ++ p ++ "/params".toUTF8.toList) = .op .set p := by
  have ht := phoneText_char (registered_text env evs p d hd)
  have hs : 0x2f ∉ p := fun h => (ht _ h).2.2.2 rfl
  have hw : ∀ x, (x = "/geo".toUTF8.toList ∨ x = "/params".toUTF8.toList) →
      IsTarget ("/device/".toUTF8.toList ++ p ++ x) ("/device/".toUTF8.toList ++ p ++ x) := fun x hx => by
    refine ⟨_, writes_self fun c hc => ?_, .inl rfl⟩
    simp only [List.mem_append] at hc
    rcases hc with (hc | hc) | hc
    · exact plain_device c (List.mem_append_left _ (List.mem_append_left _ hc))
    · exact ⟨(ht c hc).1, (ht c hc).2.1, (ht c hc).2.2.1⟩
    · refine plain_device c ?_
      rcases hx with rfl | rfl
      · exact List.mem_append_left _ (List.mem_append_right _ hc)
      · exact List.mem_append_right _ hc
  exact ⟨(C134_exact _ _ _ _).2 ⟨_, hw _ (.inl rfl), .geo hs⟩, (C134_exact _ _ _ _).2 ⟨_, hw _ (.inr rfl), .query hs⟩,
    (C134_exact _ _ _ _).2 ⟨_, hw _ (.inr rfl), .set hs⟩⟩

/-- A path names one terminal: what is asked for is determined by the target. -/
theorem C134_one_terminal (method : HttpMethod) (target path path' : Str) (h h' : Handler) (p p' : Str)
    (a : IsTarget target path) (b : AsksFor method path h p) (a' : IsTarget target path') (b' : AsksFor method path' h' p') :
    path = path' ∧ h = h' ∧ p = p' := by
  have e1 := (C134_exact method target h p).2 ⟨path, a, b⟩
  have e2 := (C134_exact method target h' p').2 ⟨path', a', b'⟩
  rw [e1] at e2
  injection e2 with e2 e3
  refine ⟨?_, e2, e3⟩
  have k1 := (targetPath_iff _ _).2 a
  rw [(targetPath_iff _ _).2 a'] at k1
  injection k1 with k1
  exact k1.symm

/-! ## Examples -/

def demoTarget (s : String) : Str := s.toUTF8.toList

-- a number, written with escapes and with a query
example : route .get (demoTarget "/device/013800000001/geo") = .op .geo (demoTarget "013800000001") ∧
    route .get (demoTarget "/de%76ice/0%3138%30/geo?x=/params") = .op .geo (demoTarget "01380") ∧
    route .put (demoTarget "/device/1/params") = .op .set (demoTarget "1") ∧
    route .get (demoTarget "/device?") = .op .list [] ∧
    route .get (demoTarget "/device//geo") = .op .geo [] := by decide +kernel
-- nothing is asked for: C134_other
example : route .get (demoTarget "/device/1/GEO") = .status 404 ∧ route .post (demoTarget "/device/1/params") = .status 404 ∧
    route .head (demoTarget "/device") = .status 404 ∧ route .get (demoTarget "/device/%zz/geo") = .status 400 ∧
    route .get (demoTarget "/device/1%2F2/geo") = .status 404 ∧ route .get (demoTarget "/device/") = .status 301 ∧
    route .get (demoTarget "/device/1") = .status 404 ∧ route .get (demoTarget "/device/1/geo/") = .status 301 ∧
    route .put (demoTarget "/device/1/params/") = .status 307 ∧ route .get (demoTarget "/") = .status 404 := by decide +kernel

/-- A redirect that leads nowhere: with a slash too many behind a number a request is sent on to a path that is answered
404. -/
theorem C134_redirected_to_nothing :
    route .get (demoTarget "/device/1/") = .status 301 ∧ route .get (demoTarget "/device/1") = .status 404 ∧
    route .put (demoTarget "/device/1/") = .status 307 ∧ route .put (demoTarget "/device/1") = .status 404 := by decide +kernel

/-- C132 from the request on: a PUT whose target names the terminal, in any escapes, with a JSON text that says parameters and the
content type for it, has exactly these sent to the terminal.  Missing: terminals of 2019 and the other bodies, as in C132. -/
theorem C132_request_partial (env : Env) (now : Civil) (evs : List Ev) (p : Str) (d : Device) (c : Conn)
    (hd : (Sys.start.run env evs).1.st.look p = some d) (hv : d.ver ≠ .v2019) (hp : PhoneWF d.ver p)
    (hs : (Sys.start.run env evs).1.st.session d.sessionID = some c) (target path s : List UInt8) (j : Json) (hj : JsonText s j)
    (cnt : UInt8) (ps qs : List ParamData) (hsay : Says (.json j) cnt ps) (hcnt : cnt.toNat = ps.length)
    (bs : List UInt8) (hr : ListRoundtrip env ps qs bs) (hb : bs.length ≤ 1022) (ht : IsTarget target path)
    (ha : AsksFor .put path .set p) :
    ∃ f h, ((Sys.start.run env evs).1.request env ⟨.put, target, true, s⟩ none).2 = ⟨some (c, f), false, some 200⟩ ∧
      Holds env now f h (.m8103 ⟨cnt, ⟨p, cnt, qs⟩⟩) := by
  rw [(C134_request env _ (reachable_inv env evs).2 ⟨.put, target, true, s⟩ none).1 path .set p ht ha]
  exact C132_put_partial env now evs p d c hd hv hp hs s j hj cnt ps qs hsay hcnt bs hr hb

/-- The opposite of C113 without the content type for JSON: whatever the body says, the request is answered 200 and an empty setting
is sent. -/
theorem C113_no_content_type (env : Env) (now : Civil) (evs : List Ev) (p : Str) (d : Device) (c : Conn)
    (hd : (Sys.start.run env evs).1.st.look p = some d) (hv : d.ver ≠ .v2019) (hp : PhoneWF d.ver p)
    (hs : (Sys.start.run env evs).1.st.session d.sessionID = some c) (target path s : List UInt8) (ht : IsTarget target path)
    (ha : AsksFor .put path .set p) :
    ∃ f h, ((Sys.start.run env evs).1.request env ⟨.put, target, false, s⟩ none).2 = ⟨some (c, f), false, some 200⟩ ∧
      Holds env now f h (.m8103 ⟨0, ⟨p, 0, []⟩⟩) := by
  rw [(C134_request env _ (reachable_inv env evs).2 ⟨.put, target, false, s⟩ none).1 path .set p ht ha]
  exact C113_nothing_said env now evs p d c hd hv hp hs .form trivial

-- the demo terminal, asked for with an escape and a query; the rest of the hypotheses are met in Props/JsonRead.lean
example : ((Sys.start.run goEnv demoEvs).1.request goEnv
      ⟨.put, "/%64evice/".toUTF8.toList ++ (hdr2013 0).phone ++ "/params?x=1".toUTF8.toList, true, demoText (utf8 "s")⟩ none).2.http =
    some 200 := by decide +kernel

-- a registered terminal: C134_every_terminal
example : (Sys.start.run goEnv demoEvs).1.st.look (hdr2013 0).phone ≠ none := by decide +kernel

end JT808
