import Verif.Model.Startup
/-
C118, C119: starting the server and loading the configuration.
-/
namespace JT808.Startup

/-! ## Specification -/

/-- The configuration a path stands for. -/
inductive Names (w : World) : String → Conf → Prop
  | server {path : String} : path = "embedded-default-server-config" → Names w path w.builtInServer
  | client {path : String} : path = "embedded-default-client-config" → Names w path w.builtInClient
  | file {path : String} {c : Conf} : path ≠ "embedded-default-server-config" → path ≠ "embedded-default-client-config" →
      w.content path = .conf c → Names w path c

/-- All sections are there. -/
structure Complete (conf : Conf) (log : LogConf) (port : PortConf) (banner : BannerConf) : Prop where
  log : conf.log = some log
  server : ∃ name, conf.server = some ⟨name, some port, some banner⟩

/-- Log files are wanted in a directory that cannot be made. -/
def NoPlace (w : World) (c : LogConf) : Prop := c.file = true ∧ w.creatable c.dir = false

/-! ## Loading -/

theorem load_first {w : World} {path : String} {c : Conf} : (Loaded.start.load w path).2 = some c ↔ Names w path c := by
  unfold Loaded.load Loaded.start
  by_cases h1 : path = "embedded-default-server-config"
  · have h2 : path ≠ "embedded-default-client-config" := by rw [h1]; decide
    simp only [Bool.false_eq_true, if_false, if_pos h1]
    constructor
    · rintro ⟨⟩; exact .server h1
    · intro h; cases h with
      | server => rfl
      | client h => exact absurd h h2
      | file h => exact absurd h1 h
  · by_cases h2 : path = "embedded-default-client-config"
    · simp only [Bool.false_eq_true, if_false, if_neg h1, if_pos h2]
      constructor
      · rintro ⟨⟩; exact .client h2
      · intro h; cases h with
        | server h => exact absurd h h1
        | client => rfl
        | file _ h => exact absurd h2 h
    · simp only [Bool.false_eq_true, if_false, if_neg h1, if_neg h2]
      constructor
      · intro h
        cases hc : w.content path with
        | unreadable => rw [hc] at h; cases h
        | misfit => rw [hc] at h; cases h
        | conf c' => rw [hc] at h; injection h with h; subst h; exact .file h1 h2 hc
      · intro h
        cases h with
        | server h => exact absurd h h1
        | client h => exact absurd h h2
        | file _ _ h => rw [h]

/-- The calls of Load in a process, each with the world at that time, and what they return (`none` is a panic). -/
def loads (l : Loaded) : List (World × String) → List (Option Conf)
  | [] => []
  | (w, path) :: cs => (l.load w path).2 :: loads (l.load w path).1 cs

theorem load_once (w : World) (l : Loaded) (path : String) : (l.load w path).1.once = true := by
  unfold Loaded.load
  cases h : l.once with
  | true => simp [h]
  | false =>
    simp only [Bool.false_eq_true, if_false]
    split <;> rfl

theorem loads_kept {l : Loaded} (h : l.once = true) (cs : List (World × String)) : ∀ r ∈ loads l cs, r = l.config := by
  induction cs with
  | nil => simp [loads]
  | cons c cs ih =>
    obtain ⟨w, path⟩ := c
    have e : l.load w path = (l, l.config) := by simp [Loaded.load, h]
    intro r hr
    simp only [loads, e, List.mem_cons] at hr
    rcases hr with rfl | hr
    · rfl
    · exact ih r hr

/-- What holds of C119: the first call returns the configuration the path stands for, and panics exactly if there is none.
Missing: later calls, where it is false (C119_other_path, C119_after_panic). -/
theorem C119_first_partial (w : World) (path : String) (cs : List (World × String)) :
    (∀ c, (loads Loaded.start ((w, path) :: cs)).head? = some (some c) ↔ Names w path c) ∧
    ((loads Loaded.start ((w, path) :: cs)).head? = some none ↔ ∀ c, ¬ Names w path c) := by
  have h := fun c => load_first (w := w) (path := path) (c := c)
  constructor
  · intro c
    simpa [loads] using h c
  · simp only [loads, List.head?_cons, Option.some.injEq]
    cases hr : (Loaded.start.load w path).2 with
    | none =>
      simp only [true_iff]
      intro c hc
      rw [(h c).2 hc] at hr; cases hr
    | some c =>
      simp only [reduceCtorEq, false_iff]
      intro hx
      exact hx c ((h c).1 hr)

/-- Later calls return what the first one left behind, whatever path they are given and whatever the files say by then: the
first configuration, if there was one. -/
theorem C119_kept (w : World) (path : String) (c : Conf) (h : Names w path c) (cs : List (World × String)) :
    ∀ r ∈ loads Loaded.start ((w, path) :: cs), r = some c := by
  have h2 := load_first.2 h
  have h1 : (Loaded.start.load w path).1.config = some c := by
    revert h2
    unfold Loaded.load Loaded.start
    simp only [Bool.false_eq_true, if_false]
    split <;> simp
  intro r hr
  simp only [loads, List.mem_cons] at hr
  rcases hr with rfl | hr
  · exact h2
  · rw [loads_kept (load_once _ _ _) cs r hr, h1]

/-- And none of them panics, though the first one did. -/
theorem C119_never_again (w : World) (path : String) (cs : List (World × String)) :
    none ∉ (loads Loaded.start ((w, path) :: cs)).tail := by
  intro hr
  simp only [loads, List.tail_cons] at hr
  have h1 := loads_kept (load_once w Loaded.start path) cs none hr
  revert h1
  unfold Loaded.load Loaded.start
  simp only [Bool.false_eq_true, if_false]
  split <;> simp

/-! ## Examples -/

def demoLog (level : String) : LogConf := ⟨true, true, false, level, "./logs/"⟩
/-- configs/default.yaml. -/
def demoConf (level : String) : Conf :=
  ⟨some (demoLog level), some ⟨"jt808-server-go", some ⟨"8080", "8081", "8008"⟩, some ⟨true, "configs/banner.txt"⟩⟩, none⟩

/-- A world with a configuration in a.yaml, one without ports in b.yaml, and one that is silent but for warnings in c.yaml. -/
def demoWorld (creatable : Bool) (taken : List String) : World :=
  { content := fun p =>
      if p = "a.yaml" then .conf (demoConf "DEBUG")
      else if p = "b.yaml" then .conf { demoConf "DEBUG" with server := some ⟨"s", none, some ⟨false, ""⟩⟩ }
      else if p = "c.yaml" then .conf (demoConf "WARN")
      else if p = "d.yaml" then .conf (demoConf "FATAl")
      else .unreadable
    builtInServer := demoConf "DEBUG"
    builtInClient := ⟨some (demoLog "DEBUG"), none, none⟩
    creatable := fun _ => creatable
    free := fun p => !taken.contains p }

/-- The opposite of C119: another path is not looked at. -/
theorem C119_other_path :
    (loads Loaded.start [(demoWorld true [], "a.yaml"), (demoWorld true [], "c.yaml")]).map
      (·.bind fun c => c.log.map (·.level)) = [some "DEBUG", some "DEBUG"] := by decide

/-- And after a panic a readable file yields the empty configuration. -/
theorem C119_after_panic :
    loads Loaded.start [(demoWorld true [], "missing.yaml"), (demoWorld true [], "a.yaml")] = [none, some ⟨none, none, none⟩] ∧
    ∃ c, Names (demoWorld true []) "a.yaml" c ∧ c.log.isSome := by
  refine ⟨rfl, demoConf "DEBUG", .file (by decide) (by decide) rfl, rfl⟩

-- the hypothesis of C119_kept
example : Names (demoWorld true []) "embedded-default-server-config" (demoConf "DEBUG") := .server rfl

/-! ## Starting -/

theorem nothing_mem {w : World} {c : LogConf} : Writer.nothing ∈ c.writers w ↔ NoPlace w c := by
  unfold LogConf.writers NoPlace
  cases c.console <;> cases c.file <;> cases w.creatable c.dir <;> simp

theorem write_ok {w : World} {c : LogConf} {lv : Level} {what : String} :
    (c.write w lv what).2 = true ↔ ¬ (NoPlace w c ∧ writes c.level lv = true) := by
  unfold LogConf.write
  cases hw : writes c.level lv with
  | false => simp
  | true =>
    simp only [if_true]
    by_cases hn : Writer.nothing ∈ c.writers w
    · rw [if_pos hn]; simp [nothing_mem.1 hn]
    · rw [if_neg hn]; simp [mt nothing_mem.2 hn]

theorem write_said {w : World} {c : LogConf} {lv : Level} {what : String} (h : ¬ NoPlace w c) (hl : writes c.level lv = true) :
    (c.write w lv what).1 = [.logged lv what (c.writers w)] := by
  unfold LogConf.write
  rw [if_pos hl]
  simp only
  rw [if_neg (mt nothing_mem.1 h)]

theorem writes_mono {s : String} {a b : Level} (h : writes s a = true) (hab : a.num ≤ b.num) : writes s b = true := by
  unfold writes at *
  simp only [decide_eq_true_eq] at *
  omega

theorem main_eq {w : World} {path : String} {conf : Conf} {c : LogConf} {p : PortConf} {b : BannerConf}
    (h : Names w path conf) (hc : Complete conf c p b) (hok : (c.write w .info "logging configured").2 = true) :
    ∃ pre, main w path = (pre ++ (listen w c p).1, (listen w c p).2) := by
  obtain ⟨h1, name, h2⟩ := hc
  refine ⟨[.printed ("Start with configuration " ++ path)] ++ (c.write w .info "logging configured").1 ++
    (if b.enable then [.printed "banner"] else []), ?_⟩
  unfold main
  rw [load_first.2 h]
  simp only [h1, h2, hok, if_true]

theorem main_up {w : World} {path : String} (h : (main w path).2 ≠ .crash) :
    ∃ conf c p b, Names w path conf ∧ Complete conf c p b ∧ (c.write w .info "logging configured").2 = true := by
  unfold main at h
  cases hl : (Loaded.start.load w path).2 with
  | none => rw [hl] at h; exact absurd rfl h
  | some conf =>
    rw [hl] at h
    simp only at h
    cases h1 : conf.log with
    | none => rw [h1] at h; exact absurd rfl h
    | some c =>
      rw [h1] at h
      simp only at h
      cases hok : (c.write w .info "logging configured").2 with
      | false => rw [hok] at h; exact absurd rfl h
      | true =>
        rw [hok] at h
        simp only [if_true] at h
        cases h2 : conf.server with
        | none => rw [h2] at h; exact absurd rfl h
        | some srv =>
          rw [h2] at h
          simp only at h
          cases h3 : srv.banner with
          | none => rw [h3] at h; exact absurd rfl h
          | some b =>
            rw [h3] at h
            simp only at h
            cases h4 : srv.port with
            | none => rw [h4] at h; exact absurd rfl h
            | some p =>
              refine ⟨conf, c, p, b, load_first.1 hl, ⟨h1, srv.name, ?_⟩, hok⟩
              rw [h2, ← h3, ← h4]

/-- When the server comes up, and on which ports: exactly if the path stands for a configuration with all sections, both
ports can be had, and there is a place for the log files unless nothing is to be written yet. -/
theorem C118_up_iff (w : World) (path t h : String) :
    (main w path).2 = .up t h ↔
      ∃ conf c p b, Names w path conf ∧ Complete conf c p b ∧ ¬ (NoPlace w c ∧ writes c.level .info = true) ∧
        p.tcp = t ∧ p.http = h ∧ w.free t = true ∧ w.free h = true ∧ t ≠ h := by
  constructor
  · intro hm
    obtain ⟨conf, c, p, b, h1, h2, h3⟩ := main_up (w := w) (path := path) (by rw [hm]; simp)
    obtain ⟨pre, e⟩ := main_eq h1 h2 h3
    rw [e] at hm
    simp only at hm
    refine ⟨conf, c, p, b, h1, h2, write_ok.1 h3, ?_⟩
    unfold listen at hm
    cases ht : w.free p.tcp with
    | false =>
      rw [ht] at hm
      simp only [Bool.false_eq_true, if_false] at hm
      split at hm <;> cases hm
    | true =>
      rw [ht] at hm
      simp only [if_true] at hm
      split at hm
      · unfold serveBoth at hm
        simp only at hm
        split at hm
        · split at hm
          · rename_i hh
            simp only [Bool.and_eq_true, bne_iff_ne, ne_eq] at hh
            injection hm with e1 e2
            subst e1 e2
            exact ⟨rfl, rfl, ht, hh.1, fun e => hh.2 e.symm⟩
          · simp only at hm
            split at hm <;> cases hm
        · cases hm
      · cases hm
  · rintro ⟨conf, c, p, b, h1, h2, h3, rfl, rfl, h4, h5, h6⟩
    obtain ⟨pre, e⟩ := main_eq h1 h2 (write_ok.2 h3)
    have hd : ∀ what, (c.write w .debug what).2 = true := fun what =>
      write_ok.2 fun ⟨hn, hw⟩ => h3 ⟨hn, writes_mono hw (by decide)⟩
    rw [e]
    unfold listen serveBoth
    simp [h4, h5, hd, Ne.symm h6]

/-- What holds of the rest of C118: if the process ends with status 1, its configuration was complete and a port could not be
had; and if there is a place for the log files and the level is a documented one, the last thing it said was the error, to
everything that is configured. Missing: the crashes (C118_no_ports, C118_no_directory), silence (C118_silent) and that
nothing is served before (C118_http_taken). -/
theorem C118_exit_partial (w : World) (path : String) (hm : (main w path).2 = .exit1) :
    ∃ conf c p b, Names w path conf ∧ Complete conf c p b ∧
      (w.free p.tcp = false ∨ w.free p.http = false ∨ p.tcp = p.http) ∧
      (¬ NoPlace w c → c.level ≠ "FATAl" → ∃ what, (main w path).1.getLast? = some (.logged .error what (c.writers w))) := by
  obtain ⟨conf, c, p, b, h1, h2, h3⟩ := main_up (w := w) (path := path) (by rw [hm]; simp)
  obtain ⟨pre, e⟩ := main_eq h1 h2 h3
  have hwr : c.level ≠ "FATAl" → writes c.level .error = true := by
    intro hl
    unfold writes parseLevel
    rw [if_neg hl]
    simp only [decide_eq_true_eq]
    split
    · decide
    · split
      · decide
      · split
        · decide
        · split <;> decide
  refine ⟨conf, c, p, b, h1, h2, ?_, ?_⟩
  · rw [e] at hm
    simp only at hm
    unfold listen at hm
    cases ht : w.free p.tcp with
    | false => exact .inl rfl
    | true =>
      right
      rw [ht] at hm
      simp only [if_true] at hm
      split at hm
      · unfold serveBoth at hm
        simp only at hm
        split at hm
        · split at hm
          · cases hm
          · rename_i hh
            cases hf : w.free p.http with
            | false => exact .inl rfl
            | true => rw [hf] at hh; simp only [Bool.true_and, bne_iff_ne, ne_eq, Decidable.not_not] at hh; exact .inr hh.symm
        · cases hm
      · cases hm
  · intro hn hl
    have said := fun what => write_said (what := what) hn (hwr hl)
    rw [e] at hm ⊢
    simp only at hm ⊢
    unfold listen at hm ⊢
    cases ht : w.free p.tcp with
    | false =>
      simp only [Bool.false_eq_true, if_false, said]
      exact ⟨"Fail to listen tcp addr", by simp⟩
    | true =>
      rw [ht] at hm
      simp only [if_true] at hm ⊢
      split at hm
      · rename_i ho
        simp only [ho, if_true]
        unfold serveBoth at hm ⊢
        simp only at hm ⊢
        split at hm
        · rename_i ho2
          simp only [ho2, if_true]
          split at hm
          · cases hm
          · rename_i hh
            simp only [hh, said]
            refine ⟨"Fail to run gin router", ?_⟩
            simp
        · cases hm
      · cases hm

/-- A configuration without ports ends in a panic, not an error. -/
theorem C118_no_ports : (main (demoWorld true []) "b.yaml").2 = .crash := by decide

/-- So does a directory for log files that cannot be made; the first event reaches the terminal, then the process is gone. -/
theorem C118_no_directory :
    main (demoWorld false []) "a.yaml" =
      ([.printed "Start with configuration a.yaml", .logged .info "logging configured" [.stderr]], .crash) := by decide

/-- With a level above INFO the server comes up all the same, and the first warning or error is the end of it: writing it
panics. -/
theorem C118_lurking :
    (main (demoWorld false []) "c.yaml").2 = .up "8080" "8008" ∧
    ((demoLog "WARN").write (demoWorld false []) .error "Fail to do listener accept").2 = false := by decide

/-- If the port of the HTTP server is taken, terminals can connect before the process ends. -/
theorem C118_http_taken :
    main (demoWorld true ["8008"]) "a.yaml" =
      ([.printed "Start with configuration a.yaml", .logged .info "logging configured" [.stderr, .file], .printed "banner",
        .logged .debug "Listening" [.stderr, .file], .logged .debug "Listening and serving HTTP" [.stderr, .file],
        .logged .error "Fail to run gin router" [.stderr, .file]], .exit1) := by decide

/-- With the level FATAl it ends without a word. -/
theorem C118_silent :
    main (demoWorld true ["8080"]) "d.yaml" = ([.printed "Start with configuration d.yaml", .printed "banner"], .exit1) := by
  decide

-- the built-in configuration comes up
example : (main (demoWorld true []) "embedded-default-server-config").2 = .up "8080" "8008" := by decide
-- a port that is taken: C118_exit_partial
example : (main (demoWorld true ["8080"]) "a.yaml").2 = .exit1 := by decide

end JT808.Startup
