import Verif.Model.SimStart
import Verif.Props.Assets
/-
C133: starting the simulator.
-/
namespace JT808.Startup

/-! ## Specification -/

/-- What the process needs to dial: a log section, a server address and a number of terminals. -/
structure Dials (conf : Conf) (log : LogConf) (cl : ClientConf) (addr : String) : Prop where
  log : conf.log = some log
  client : conf.client = some cl
  addr : cl.conn = some addr

/-- What a terminal needs to make itself up: the sections that say what it is like and where it is. -/
def Sections (cl : ClientConf) : Prop := cl.device = true ∧ ∃ g, cl.deviceGeo = some g ∧ g.geo = true ∧ g.location = true ∧ g.drive = true

/-- Terminal `i` gets through to the server in one of the seven attempts it has. -/
def Reached (reach : Reach) (addr : String) (i : Nat) : Prop := ∃ k, 1 ≤ k ∧ k ≤ 7 ∧ reach addr i k = true

/-- Events of this level cannot be written without a panic. -/
def Deadly (w : World) (c : LogConf) (lv : Level) : Prop := NoPlace w c ∧ writes c.level lv = true

/-! ## Dialling -/

theorem writes_error {level : String} (hl : level ≠ "FATAl") : writes level .error = true := by
  unfold writes parseLevel
  rw [if_neg hl]
  simp only [decide_eq_true_eq]
  split
  · decide
  · split
    · decide
    · split
      · decide
      · split <;> decide

theorem deadly_debug {w : World} {c : LogConf} (h : ¬ Deadly w c .info) (what : String) : (c.write w .debug what).2 = true :=
  write_ok.2 fun ⟨hn, hw⟩ => h ⟨hn, writes_mono hw (by decide)⟩

/-- The dialling of one terminal succeeds if an attempt does, and none before it failed unless a failure can be logged. -/
theorem dial_ok {w : World} {reach : Reach} {c : LogConf} {addr : String} {i : Nat} (hd : ¬ Deadly w c .info) :
    ∀ left ≤ 6, ((dial w reach c addr i left).2 = .ok ↔
      reach addr i (7 - left) = true ∨
        (¬ Deadly w c .error ∧ ∃ k, 7 - left ≤ k ∧ k ≤ 7 ∧ reach addr i k = true)) := by
  intro left
  induction left with
  | zero =>
    intro _
    unfold dial
    cases hr : reach addr i 7 with
    | true => simp [deadly_debug hd]
    | false =>
      simp only [Bool.false_eq_true, if_false, Nat.sub_zero, false_or]
      constructor
      · intro h; split at h <;> cases h
      · rintro ⟨_, k, h1, h2, h3⟩
        have : k = 7 := by omega
        rw [this, hr] at h3; cases h3
  | succ left ih =>
    intro hl
    have e : 7 - (left + 1) = 6 - left := by omega
    unfold dial
    rw [e]
    cases hr : reach addr i (6 - left) with
    | true => simp [deadly_debug hd]
    | false =>
      simp only [Bool.false_eq_true, if_false, false_or]
      cases ho : (c.write w .error "Fail to dial to the tcp addr, retry").2 with
      | false =>
        have : Deadly w c .error := Classical.byContradiction fun h => by
          rw [write_ok.2 h] at ho; cases ho
        simp [this]
      | true =>
        have hn : ¬ Deadly w c .error := write_ok.1 ho
        simp only [if_true]
        rw [ih (by omega)]
        constructor
        · rintro (h | ⟨_, k, h1, h2, h3⟩)
          · exact ⟨hn, 7 - left, by omega, by omega, h⟩
          · exact ⟨hn, k, by omega, h2, h3⟩
        · rintro ⟨_, k, h1, h2, h3⟩
          refine .inr ⟨hn, k, ?_, h2, h3⟩
          rcases Nat.lt_or_ge k (7 - left) with hk | hk
          · have : k = 6 - left := by omega
            rw [this, hr] at h3; cases h3
          · exact hk

/-- It gives up only after the seventh attempt, and its last word is then the error. -/
theorem dial_exit {w : World} {reach : Reach} {c : LogConf} {addr : String} {i : Nat} :
    ∀ left ≤ 6, (dial w reach c addr i left).2 = .exit1 →
      (∀ k, 7 - left ≤ k → k ≤ 7 → reach addr i k = false) ∧
      ∃ pre, (dial w reach c addr i left).1 = pre ++ (c.write w .error "Fail to dial to the tcp addr, exit").1 := by
  intro left
  induction left with
  | zero =>
    intro _ h
    unfold dial at h ⊢
    cases hr : reach addr i 7 with
    | true => rw [hr] at h; simp only [if_true] at h; split at h <;> cases h
    | false =>
      simp only [Bool.false_eq_true, if_false]
      exact ⟨fun k h1 h2 => by have : k = 7 := by omega
                               rw [this, hr], [], rfl⟩
  | succ left ih =>
    intro hl h
    have e : 7 - (left + 1) = 6 - left := by omega
    unfold dial at h ⊢
    rw [e]
    cases hr : reach addr i (6 - left) with
    | true => rw [hr] at h; simp only [if_true] at h; split at h <;> cases h
    | false =>
      rw [hr] at h
      simp only [Bool.false_eq_true, if_false] at h ⊢
      cases ho : (c.write w .error "Fail to dial to the tcp addr, retry").2 with
      | false => rw [ho] at h; cases h
      | true =>
        rw [ho] at h
        simp only [if_true] at h ⊢
        obtain ⟨h1, pre, h2⟩ := ih (by omega) h
        refine ⟨fun k hk hk' => ?_, _ ++ pre, by rw [h2, List.append_assoc]⟩
        rcases Nat.lt_or_ge k (7 - left) with hk2 | hk2
        · have : k = 6 - left := by omega
          rw [this, hr]
        · exact h1 k hk2 hk'

theorem course_some {w : World} {c : LogConf} {cl : ClientConf} :
    (terminalCourse w c cl).isSome = true ↔ (Sections cl ∨ ¬ Deadly w c .error) := by
  have hs : Sections cl ↔ (cl.device = true ∧ cl.deviceGeo = some ⟨true, true, true⟩) := by
    unfold Sections
    constructor
    · rintro ⟨h, ⟨a, b, d⟩, e, rfl, rfl, rfl⟩; exact ⟨h, e⟩
    · rintro ⟨h, e⟩; exact ⟨h, _, e, rfl, rfl, rfl⟩
  unfold terminalCourse
  rw [hs]
  by_cases h : cl.device = true ∧ cl.deviceGeo = some ⟨true, true, true⟩
  · simp [h]
  · rw [if_neg h]
    simp only [h, false_or]
    cases ho : (c.write w .error "err=runtime error: invalid memory address or nil pointer dereference").2 with
    | true => simp only [if_true, Option.isSome_some, true_iff]; exact write_ok.1 ho
    | false =>
      simp only [Bool.false_eq_true, if_false, Option.isSome_none, false_iff]
      intro hn; rw [write_ok.2 hn] at ho; cases ho

theorem course_registers {w : World} {c : LogConf} {cl : ClientConf} (h : Sections cl) :
    terminalCourse w c cl = some ([], .registers) := by
  obtain ⟨h, ⟨a, b, d⟩, e, rfl, rfl, rfl⟩ := h
  unfold terminalCourse
  rw [if_pos ⟨h, e⟩]

theorem course_dead {w : World} {c : LogConf} {cl : ClientConf} (h : ¬ Sections cl) (hn : ¬ Deadly w c .error) :
    terminalCourse w c cl =
      some ((c.write w .error "err=runtime error: invalid memory address or nil pointer dereference").1, .dead) := by
  unfold terminalCourse
  rw [if_neg fun ⟨h1, h2⟩ => h ⟨h1, _, h2, rfl, rfl, rfl⟩]
  simp only [write_ok.2 hn, if_true]

theorem dialAll_ok {w : World} {reach : Reach} {c : LogConf} {cl : ClientConf} {addr : String} (ha : cl.conn = some addr)
    (hc : (terminalCourse w c cl).isSome = true) :
    ∀ n i, ((dialAll w reach c cl i n).2 = .ok ↔ ∀ j, i ≤ j → j < i + n → (dial w reach c addr j 6).2 = .ok) := by
  intro n
  induction n with
  | zero => intro i; simp only [dialAll, true_iff]; intro j h1 h2; omega
  | succ n ih =>
    intro i
    unfold dialAll
    rw [ha]
    simp only
    by_cases hd : (dial w reach c addr i 6).2 = .ok
    · rw [if_pos hd, if_pos hc]
      simp only
      rw [ih]
      constructor
      · intro h j h1 h2
        rcases Nat.eq_or_lt_of_le h1 with rfl | h1
        · exact hd
        · exact h j h1 (by omega)
      · intro h j h1 h2; exact h j (by omega) (by omega)
    · rw [if_neg hd]
      simp only
      constructor
      · intro h; exact absurd h hd
      · intro h; exact h i (Nat.le_refl i) (by omega)

theorem dialAll_exit {w : World} {reach : Reach} {c : LogConf} {cl : ClientConf} :
    ∀ n i, (dialAll w reach c cl i n).2 = .exit1 → ∃ addr j, cl.conn = some addr ∧ i ≤ j ∧ j < i + n ∧
      (dial w reach c addr j 6).2 = .exit1 ∧ ∃ pre, (dialAll w reach c cl i n).1 = pre ++ (dial w reach c addr j 6).1 := by
  intro n
  induction n with
  | zero => intro i h; simp [dialAll] at h
  | succ n ih =>
    intro i h
    unfold dialAll at h ⊢
    cases ha : cl.conn with
    | none => rw [ha] at h; cases h
    | some addr =>
      rw [ha] at h
      simp only at h ⊢
      by_cases hd : (dial w reach c addr i 6).2 = .ok
      · rw [if_pos hd] at h ⊢
        by_cases hc : (terminalCourse w c cl).isSome = true
        · rw [if_pos hc] at h ⊢
          obtain ⟨addr', j, h1, h2, h3, h4, pre, h5⟩ := ih (i + 1) h
          rw [ha] at h1
          cases h1
          exact ⟨addr, j, rfl, by omega, by omega, h4, (dial w reach c addr i 6).1 ++ pre, by
            simp only; rw [h5, List.append_assoc]⟩
        · rw [if_neg hc] at h; cases h
      · rw [if_neg hd] at h ⊢
        exact ⟨addr, i, rfl, Nat.le_refl i, by omega, h, [], rfl⟩

/-! ## Starting -/

theorem simMain_eq {w : World} {reach : Reach} {path : String} {conf : Conf} {c : LogConf} {cl : ClientConf}
    (h : Names w path conf) (h1 : conf.log = some c) (h2 : conf.client = some cl) (hd : ¬ Deadly w c .info)
    (hp : 0 < cl.concurrency) :
    simMain w reach path =
      ([.printed ("Start with configuration " ++ path)] ++ (c.write w .info "logging configured").1 ++
          (dialAll w reach c cl 0 cl.concurrency.toNat).1,
        match (dialAll w reach c cl 0 cl.concurrency.toNat).2, terminalCourse w c cl with
        | .ok, some (t, course) => .connected cl.concurrency.toNat t course
        | .exit1, _ => .exit1
        | _, _ => .crash) := by
  unfold simMain
  rw [load_first.2 h]
  simp only [h1, h2]
  rw [if_pos (write_ok.2 hd), if_neg (by omega), if_neg (by omega)]
  rfl

theorem simMain_dials {w : World} {reach : Reach} {path : String} (h : (simMain w reach path).2 ≠ .crash)
    (h' : (simMain w reach path).2 ≠ .returned) :
    ∃ conf c cl, Names w path conf ∧ conf.log = some c ∧ conf.client = some cl ∧ ¬ Deadly w c .info ∧ 0 < cl.concurrency := by
  unfold simMain at h h'
  cases hl : (Loaded.start.load w path).2 with
  | none => rw [hl] at h; exact absurd rfl h
  | some conf =>
    rw [hl] at h h'
    simp only at h h'
    cases h1 : conf.log with
    | none => rw [h1] at h; exact absurd rfl h
    | some c =>
      rw [h1] at h h'
      simp only at h h'
      cases hok : (c.write w .info "logging configured").2 with
      | false => rw [hok] at h; exact absurd rfl h
      | true =>
        rw [hok] at h h'
        simp only [if_true] at h h'
        cases h2 : conf.client with
        | none => rw [h2] at h; exact absurd rfl h
        | some cl =>
          rw [h2] at h h'
          simp only at h h'
          by_cases hn : cl.concurrency < 0
          · rw [if_pos hn] at h; exact absurd rfl h
          · by_cases hz : cl.concurrency = 0
            · rw [if_neg hn, if_pos hz] at h'; exact absurd rfl h'
            · exact ⟨conf, c, cl, load_first.1 hl, h1, h2, write_ok.1 hok, by omega⟩

/-- How many terminals are connected in the end, and what becomes of them: exactly as many as configured, if the path stands for
a configuration with a log section, a server address and a positive number, there is a place for the log files unless nothing
is to be written, and each terminal gets through in one of its seven attempts (in the first one if a failure cannot be
logged).  They register if the sections that say what a terminal is like are there, and come to nothing otherwise. -/
theorem C133_connected_iff (w : World) (reach : Reach) (path : String) (n : Nat) (course : Course) :
    (∃ t, (simMain w reach path).2 = .connected n t course) ↔
      ∃ conf c cl addr, Names w path conf ∧ Dials conf c cl addr ∧ cl.concurrency = n ∧ 0 < n ∧ ¬ Deadly w c .info ∧
        (∀ i < n, reach addr i 1 = true ∨ (¬ Deadly w c .error ∧ Reached reach addr i)) ∧
        ((course = .registers ∧ Sections cl) ∨ (course = .dead ∧ ¬ Sections cl ∧ ¬ Deadly w c .error)) := by
  constructor
  · rintro ⟨t, hm⟩
    obtain ⟨conf, c, cl, h1, h2, h3, h4, h5⟩ :=
      simMain_dials (w := w) (reach := reach) (path := path) (by rw [hm]; simp) (by rw [hm]; simp)
    rw [simMain_eq h1 h2 h3 h4 h5] at hm
    simp only at hm
    cases hd : (dialAll w reach c cl 0 cl.concurrency.toNat).2 with
    | exit1 => rw [hd] at hm; cases hm
    | crash => rw [hd] at hm; cases hm
    | ok =>
      rw [hd] at hm
      cases hc : terminalCourse w c cl with
      | none => rw [hc] at hm; cases hm
      | some r =>
        obtain ⟨t', course'⟩ := r
        rw [hc] at hm
        simp only at hm
        injection hm with e1 e2 e3
        subst e1 e2 e3
        have hcs : (terminalCourse w c cl).isSome = true := by rw [hc]; rfl
        cases ha : cl.conn with
        | none =>
          obtain ⟨m, hm⟩ : ∃ m, cl.concurrency.toNat = m + 1 := ⟨cl.concurrency.toNat - 1, by omega⟩
          rw [hm] at hd
          unfold dialAll at hd
          rw [ha] at hd
          cases hd
        | some addr =>
          refine ⟨conf, c, cl, addr, h1, ⟨h2, h3, ha⟩, by omega, by omega, h4, ?_, ?_⟩
          · intro i hi
            have := (dialAll_ok ha hcs _ 0).1 hd i (Nat.zero_le i) (by omega)
            rw [dial_ok h4 6 (Nat.le_refl 6)] at this
            exact this
          · by_cases hs : Sections cl
            · rw [course_registers hs] at hc
              cases hc
              exact .inl ⟨rfl, hs⟩
            · have hn : ¬ Deadly w c .error := (course_some.1 hcs).resolve_left hs
              rw [course_dead hs hn] at hc
              cases hc
              exact .inr ⟨rfl, hs, hn⟩
  · rintro ⟨conf, c, cl, addr, h1, ⟨h2, h3, ha⟩, hn, hp, h4, h5, h6⟩
    have hcs : (terminalCourse w c cl).isSome = true := course_some.2 (by
      rcases h6 with ⟨_, h⟩ | ⟨_, _, h⟩
      · exact .inl h
      · exact .inr h)
    have hd : (dialAll w reach c cl 0 cl.concurrency.toNat).2 = .ok := by
      rw [dialAll_ok ha hcs]
      intro j _ hj
      rw [dial_ok h4 6 (Nat.le_refl 6)]
      exact h5 j (by omega)
    rw [simMain_eq h1 h2 h3 h4 (by omega), hd]
    have en : cl.concurrency.toNat = n := by omega
    rcases h6 with ⟨rfl, h⟩ | ⟨rfl, h, h'⟩
    · rw [course_registers h, en]; exact ⟨_, rfl⟩
    · rw [course_dead h h', en]; exact ⟨_, rfl⟩

/-- What holds of the rest: if the process ends with status 1, a terminal was refused seven times; and if there is a place for
the log files and the level is a documented one, the last thing it said was the error, to everything that is configured.
Missing: the other ways not to come up, which are panics or silence (C133_no_client, C133_negative, C133_none, C133_idle). -/
theorem C133_exit_partial (w : World) (reach : Reach) (path : String) (hm : (simMain w reach path).2 = .exit1) :
    ∃ (conf : Conf) (c : LogConf) (cl : ClientConf) (addr : String) (i : Nat), Names w path conf ∧ Dials conf c cl addr ∧ (i : Int) < cl.concurrency ∧ ¬ Reached reach addr i ∧
      (¬ NoPlace w c → c.level ≠ "FATAl" → (simMain w reach path).1.getLast? =
        some (.logged .error "Fail to dial to the tcp addr, exit" (c.writers w))) := by
  obtain ⟨conf, c, cl, h1, h2, h3, h4, h5⟩ :=
    simMain_dials (w := w) (reach := reach) (path := path) (by rw [hm]; simp) (by rw [hm]; simp)
  have e := simMain_eq (reach := reach) h1 h2 h3 h4 h5
  rw [e] at hm ⊢
  simp only at hm ⊢
  have hd : (dialAll w reach c cl 0 cl.concurrency.toNat).2 = .exit1 := by
    cases hd : (dialAll w reach c cl 0 cl.concurrency.toNat).2 with
    | exit1 => rfl
    | crash => rw [hd] at hm; cases hm
    | ok =>
      rw [hd] at hm
      cases hc : terminalCourse w c cl with
      | none => rw [hc] at hm; cases hm
      | some r => rw [hc] at hm; cases hm
  obtain ⟨addr, j, ha, _, hj, hx, pre, hpre⟩ := dialAll_exit _ _ hd
  obtain ⟨hr, pre', hpre'⟩ := dial_exit 6 (Nat.le_refl 6) hx
  refine ⟨conf, c, cl, addr, j, h1, ⟨h2, h3, ha⟩, by omega, ?_, ?_⟩
  · rintro ⟨k, k1, k2, k3⟩
    rw [hr k k1 k2] at k3; cases k3
  · intro hn hl
    rw [hpre, hpre', write_said hn (writes_error hl), ← List.append_assoc, ← List.append_assoc]
    exact List.getLast?_concat

/-- The process does not try longer than that: if there is a place for the log files, a terminal that is refused seven times
ends it, whatever others do. -/
theorem C133_gives_up (w : World) (reach : Reach) (path : String) (conf : Conf) (c : LogConf) (cl : ClientConf) (addr : String)
    (h : Names w path conf) (hc : Dials conf c cl addr) (hn : ¬ NoPlace w c) (i : Nat) (hi : (i : Int) < cl.concurrency)
    (hr : ¬ Reached reach addr i) : (simMain w reach path).2 = .exit1 := by
  obtain ⟨h2, h3, ha⟩ := hc
  have hnd : ∀ lv, ¬ Deadly w c lv := fun _ h => hn h.1
  have hcs : (terminalCourse w c cl).isSome = true := course_some.2 (.inr (hnd _))
  rw [simMain_eq h h2 h3 (hnd _) (by omega)]
  simp only
  have hdial : ∀ left j, (dial w reach c addr j left).2 ≠ .crash := by
    intro left j
    induction left with
    | zero =>
      unfold dial
      split <;> simp [write_ok.2 (hnd _)]
    | succ left ih =>
      unfold dial
      split
      · simp [write_ok.2 (hnd _)]
      · simp only [write_ok.2 (hnd _), if_true]; exact ih
  have hall : ∀ m j, (dialAll w reach c cl j m).2 ≠ .crash := by
    intro m
    induction m with
    | zero => intro j; simp [dialAll]
    | succ m ih =>
      intro j
      unfold dialAll
      rw [ha]
      simp only
      by_cases hd : (dial w reach c addr j 6).2 = .ok
      · rw [if_pos hd, if_pos hcs]; exact ih _
      · rw [if_neg hd]; exact hdial _ _
  have hno : (dialAll w reach c cl 0 cl.concurrency.toNat).2 ≠ .ok := by
    intro hd
    have := (dialAll_ok ha hcs _ 0).1 hd i (Nat.zero_le i) (by omega)
    rw [dial_ok (hnd _) 6 (Nat.le_refl 6)] at this
    rcases this with h | ⟨_, h⟩
    · exact hr ⟨1, by decide, by decide, h⟩
    · exact hr h
  cases hd : (dialAll w reach c cl 0 cl.concurrency.toNat).2 with
  | ok => exact absurd hd hno
  | crash => exact absurd hd (hall _ _)
  | exit1 => rfl

/-- A configuration without a section for the simulator, such as every one made for the server, is a panic. -/
theorem C133_no_client (w : World) (reach : Reach) (path : String) (conf : Conf) (h : Names w path conf)
    (hc : conf.client = none) : (simMain w reach path).2 = .crash := by
  unfold simMain
  rw [load_first.2 h]
  simp only
  cases conf.log with
  | none => rfl
  | some c =>
    simp only [hc]
    split <;> rfl

/-- So is a negative number of terminals. -/
theorem C133_negative (w : World) (reach : Reach) (path : String) (conf : Conf) (cl : ClientConf) (h : Names w path conf)
    (hc : conf.client = some cl) (hn : cl.concurrency < 0) : (simMain w reach path).2 = .crash := by
  unfold simMain
  rw [load_first.2 h]
  simp only
  cases conf.log with
  | none => rfl
  | some c =>
    simp only [hc, if_pos hn]
    split <;> rfl

/-- With no terminals, which is also what a file without the key says, the process ends at once and successfully: nothing it
says tells that it did nothing. -/
theorem C133_none (w : World) (reach : Reach) (path : String) (conf : Conf) (c : LogConf) (cl : ClientConf)
    (h : Names w path conf) (h1 : conf.log = some c) (hc : conf.client = some cl) (hz : cl.concurrency = 0)
    (hd : ¬ NoPlace w c) :
    (simMain w reach path).2 = .returned ∧
    ∀ s ∈ (simMain w reach path).1, s = .printed ("Start with configuration " ++ path) ∨
      s = .logged .info "logging configured" (c.writers w) := by
  unfold simMain
  rw [load_first.2 h]
  simp only [h1, hc]
  rw [if_pos (write_ok.2 fun h => hd h.1), if_neg (by omega), if_pos hz]
  refine ⟨rfl, ?_⟩
  intro s hs
  simp only [List.mem_append, List.mem_singleton] at hs
  rcases hs with rfl | hs
  · exact .inl rfl
  · right
    cases hw : writes c.level .info with
    | true => rw [write_said hd hw] at hs; simpa using hs
    | false => unfold LogConf.write at hs; rw [hw] at hs; simp at hs

/-! ## Examples -/

def demoClient (n : Int) : ClientConf := ⟨some "server:8080", n, true, some ⟨true, true, true⟩⟩

/-- Configurations of the simulator: three terminals in a.yaml; in b.yaml the section about the position is missing; c.yaml is
silent. -/
def simWorld (creatable : Bool) : World :=
  { content := fun p =>
      if p = "a.yaml" then .conf ⟨some (demoLog "INFO"), none, some (demoClient 3)⟩
      else if p = "b.yaml" then .conf ⟨some (demoLog "INFO"), none, some { demoClient 3 with deviceGeo := none }⟩
      else if p = "c.yaml" then .conf ⟨some (demoLog "FATAl"), none, some { demoClient 3 with deviceGeo := none }⟩
      else if p = "d.yaml" then .conf ⟨some (demoLog "INFO"), none, some (demoClient 0)⟩
      else if p = "e.yaml" then .conf ⟨some (demoLog "INFO"), none, some (demoClient (-1))⟩
      else .unreadable
    builtInServer := demoConf "DEBUG"
    builtInClient := ⟨some (demoLog "DEBUG"), none, some ⟨some "119.249.51.166:5080", 1, true, some ⟨true, true, true⟩⟩⟩
    creatable := fun _ => creatable
    free := fun _ => true }

/-- The second terminal is refused `m` times, the others never. -/
def refuses (m : Nat) : Reach := fun _ i k => i != 1 || decide (m < k)

-- six times is not too often
example : (simMain (simWorld true) (refuses 6) "a.yaml").2 = .connected 3 [] .registers := by decide
-- seven times is, and the third terminal is not tried: C133_exit_partial and C133_gives_up
example : (simMain (simWorld true) (refuses 7) "a.yaml").2 = .exit1 := by decide
example : Dials ⟨some (demoLog "INFO"), none, some (demoClient 3)⟩ (demoLog "INFO") (demoClient 3) "server:8080" ∧
    ¬ NoPlace (simWorld true) (demoLog "INFO") ∧ ¬ Reached (refuses 7) "server:8080" 1 := by
  refine ⟨⟨rfl, rfl, rfl⟩, (by rintro ⟨_, h⟩; cases h), ?_⟩
  rintro ⟨k, _, h, h'⟩
  simp [refuses] at h'
  omega
example : Names (simWorld true) "a.yaml" ⟨some (demoLog "INFO"), none, some (demoClient 3)⟩ := .file (by decide) (by decide) rfl

/-- The opposite of C133: without the section about the position three terminals stay connected for good, and none ever registers;
with the level FATAl nothing is said about it. -/
theorem C133_idle :
    simMain (simWorld true) (refuses 0) "c.yaml" = ([.printed "Start with configuration c.yaml"], .connected 3 [] .dead) ∧
    (simMain (simWorld true) (refuses 0) "b.yaml").2 =
      .connected 3 [.logged .error "err=runtime error: invalid memory address or nil pointer dereference" [.stderr, .file]]
        .dead := by decide

-- C133_no_client: the configuration of the server; C133_negative; C133_none
example : (simMain (simWorld true) (refuses 0) "embedded-default-server-config").2 = .crash := by decide
example : (simMain (simWorld true) (refuses 0) "e.yaml").2 = .crash := by decide
example : simMain (simWorld true) (refuses 0) "d.yaml" =
    ([.printed "Start with configuration d.yaml", .logged .info "logging configured" [.stderr, .file]], .returned) := by decide

/-- The configuration built into the simulator, which is the file of the repository (C129): started without a path where log
files can be made, it registers one terminal if the address in it answers in one of seven attempts, and ends with status 1
otherwise.  The address is not that of a server started with the shipped configuration of the server, but one on the
Internet. -/
theorem C133_as_shipped (w : World) (reach : Reach)
    (hb : some w.builtInClient = (builtIn "test/client/configs/default.yaml").bind (·.conf)) (hp : w.creatable "./logs/" = true) :
    (Reached reach "119.249.51.166:5080" 0 →
      (simMain w reach "embedded-default-client-config").2 = .connected 1 [] .registers) ∧
    (¬ Reached reach "119.249.51.166:5080" 0 → (simMain w reach "embedded-default-client-config").2 = .exit1) := by
  rw [builtIn_client, client_conf] at hb
  injection hb with hb
  have hn : ¬ NoPlace w (demoLog "DEBUG") := by rintro ⟨_, h⟩; rw [show (demoLog "DEBUG").dir = "./logs/" from rfl, hp] at h; cases h
  have h := Names.client (w := w) (path := "embedded-default-client-config") rfl
  have hc : Dials w.builtInClient (demoLog "DEBUG") ⟨some "119.249.51.166:5080", 1, true, some ⟨true, true, true⟩⟩
      "119.249.51.166:5080" := by rw [hb]; exact ⟨rfl, rfl, rfl⟩
  constructor
  · intro hr
    have hs : Sections ⟨some "119.249.51.166:5080", 1, true, some ⟨true, true, true⟩⟩ := ⟨rfl, _, rfl, rfl, rfl, rfl⟩
    obtain ⟨t, ht⟩ := (C133_connected_iff w reach _ 1 .registers).2
      ⟨_, _, _, _, h, hc, rfl, by decide, fun h => hn h.1, fun i hi => .inr ⟨fun h => hn h.1, by
        have : i = 0 := by omega
        rw [this]; exact hr⟩, .inl ⟨rfl, hs⟩⟩
    have e := simMain_eq (reach := reach) h hc.log hc.client (fun h => hn h.1) (by decide)
    rw [e] at ht ⊢
    simp only [course_registers hs] at ht ⊢
    split at ht <;> simp_all
  · intro hr
    exact C133_gives_up w reach _ _ _ _ _ h hc hn 0 (by decide) hr

example : some (simWorld true).builtInClient = (builtIn "test/client/configs/default.yaml").bind (·.conf) := by
  rw [builtIn_client, client_conf]; rfl

end JT808.Startup
