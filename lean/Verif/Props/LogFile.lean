import Verif.Props.SimFile
/-
C137: what is logged at the start, of the server and of the simulator, goes where the configuration file says.
-/
namespace JT808
open Spec

/-- The four documented levels and what each of them lets through. -/
def Spec.levelShows : List (String × List Level) :=
  [("DEBUG", [.debug, .info, .warn, .error, .fatal]), ("INFO", [.info, .warn, .error, .fatal]), ("WARN", [.warn, .error, .fatal]),
    ("ERROR", [.error, .fatal])]

/-- What the process of the simulator says, with what the goroutine of each terminal logs of a panic. -/
def Spec.simSaid (r : List Startup.Said × Startup.SimFate) : List Startup.Said :=
  r.1 ++ match r.2 with
    | .connected _ said _ => said
    | _ => []

namespace Startup

/-- An event was written by a logger. -/
def Written (w : World) (c : LogConf) (x : Said) : Prop := ∃ lv what, x ∈ (c.write w lv what).1

theorem listen_written {w : World} {c : LogConf} {p : PortConf} {x : Said} (h : x ∈ (listen w c p).1) : Written w c x := by
  unfold listen serveBoth at h
  split at h
  · dsimp only at h
    split at h
    · rw [List.mem_append] at h
      rcases h with h | h
      · exact ⟨_, _, h⟩
      · split at h
        · split at h
          · exact ⟨_, _, h⟩
          · rw [List.mem_append] at h
            rcases h with h | h <;> exact ⟨_, _, h⟩
        · exact ⟨_, _, h⟩
    · exact ⟨_, _, h⟩
  · exact ⟨_, _, h⟩

theorem dial_written {w : World} {reach : Reach} {c : LogConf} {addr : String} {i n : Nat} {x : Said}
    (h : x ∈ (dial w reach c addr i n).1) : Written w c x := by
  induction n with
  | zero =>
    unfold dial at h
    split at h <;> exact ⟨_, _, h⟩
  | succ n ih =>
    unfold dial at h
    split at h
    · exact ⟨_, _, h⟩
    · dsimp only at h
      split at h
      · rw [List.mem_append] at h
        rcases h with h | h
        · exact ⟨_, _, h⟩
        · exact ih h
      · exact ⟨_, _, h⟩

theorem dialAll_written {w : World} {reach : Reach} {c : LogConf} {cl : ClientConf} {n : Nat} {x : Said} :
    ∀ {i}, x ∈ (dialAll w reach c cl i n).1 → Written w c x := by
  induction n with
  | zero => intro i h; cases h
  | succ n ih =>
    intro i h
    unfold dialAll at h
    split at h
    · cases h
    · dsimp only at h
      split at h
      · split at h
        · rw [List.mem_append] at h
          rcases h with h | h
          · exact dial_written h
          · exact ih h
        · exact dial_written h
      · exact dial_written h

/-- Everything a server says at its start is the name of the configuration, the banner, or written by the logger configured. -/
theorem main_written {w : World} {path : String} {x : Said} (h : x ∈ (main w path).1) :
    x = .printed ("Start with configuration " ++ path) ∨
    ∃ conf c, Names w path conf ∧ conf.log = some c ∧
      (Written w c x ∨ x = .printed "banner" ∧ ∃ srv b, conf.server = some srv ∧ srv.banner = some b ∧ b.enable = true) := by
  unfold main at h
  cases hl : (Loaded.start.load w path).2 with
  | none => rw [hl] at h; exact .inl (List.mem_singleton.1 h)
  | some conf =>
    have hn := load_first.1 hl
    rw [hl] at h
    dsimp only at h
    cases h1 : conf.log with
    | none => rw [h1] at h; exact .inl (List.mem_singleton.1 h)
    | some c =>
      rw [h1] at h
      dsimp only at h
      have two : x ∈ [.printed ("Start with configuration " ++ path)] ++ (c.write w .info "logging configured").1 →
          x = .printed ("Start with configuration " ++ path) ∨ Written w c x := by
        intro h
        rw [List.mem_append, List.mem_singleton] at h
        exact h.imp id fun h => ⟨_, _, h⟩
      have fin : x = .printed ("Start with configuration " ++ path) ∨ Written w c x →
          x = .printed ("Start with configuration " ++ path) ∨ ∃ conf c, Names w path conf ∧ conf.log = some c ∧
      (Written w c x ∨ x = .printed "banner" ∧ ∃ srv b, conf.server = some srv ∧ srv.banner = some b ∧ b.enable = true) :=
        fun h => h.imp id fun h => ⟨conf, c, hn, h1, .inl h⟩
      split at h
      · cases h2 : conf.server with
        | none => rw [h2] at h; exact fin (two h)
        | some srv =>
          rw [h2] at h
          dsimp only at h
          cases h3 : srv.banner with
          | none => rw [h3] at h; exact fin (two h)
          | some b =>
            rw [h3] at h
            dsimp only at h
            have three : x ∈ [.printed ("Start with configuration " ++ path)] ++ (c.write w .info "logging configured").1 ++
                (if b.enable then [.printed "banner"] else []) →
                x = .printed ("Start with configuration " ++ path) ∨ ∃ conf c, Names w path conf ∧ conf.log = some c ∧
                  (Written w c x ∨ x = .printed "banner" ∧ ∃ srv b, conf.server = some srv ∧ srv.banner = some b ∧ b.enable = true) := by
              intro h
              rw [List.mem_append] at h
              rcases h with h | h
              · exact fin (two h)
              · split at h
                · exact .inr ⟨conf, c, hn, h1, .inr ⟨List.mem_singleton.1 h, srv, b, h2, h3, by assumption⟩⟩
                · cases h
            split at h
            · exact three h
            · rw [List.mem_append] at h
              rcases h with h | h
              · exact three h
              · exact fin (.inr (listen_written h))
      · exact fin (two h)

/-- The same of the simulator. -/
theorem simMain_written {w : World} {reach : Reach} {path : String} {x : Said} (h : x ∈ simSaid (simMain w reach path)) :
    x = .printed ("Start with configuration " ++ path) ∨ ∃ conf c, Names w path conf ∧ conf.log = some c ∧ Written w c x := by
  unfold simSaid simMain at h
  cases hl : (Loaded.start.load w path).2 with
  | none => rw [hl] at h; exact .inl (by simpa using h)
  | some conf =>
    have hn := load_first.1 hl
    rw [hl] at h
    dsimp only at h
    cases h1 : conf.log with
    | none => rw [h1] at h; exact .inl (by simpa using h)
    | some c =>
      rw [h1] at h
      dsimp only at h
      have two : x ∈ [.printed ("Start with configuration " ++ path)] ++ (c.write w .info "logging configured").1 →
          x = .printed ("Start with configuration " ++ path) ∨ Written w c x := by
        intro h
        rw [List.mem_append, List.mem_singleton] at h
        exact h.imp id fun h => ⟨_, _, h⟩
      have fin : x = .printed ("Start with configuration " ++ path) ∨ Written w c x →
          x = .printed ("Start with configuration " ++ path) ∨ ∃ conf c, Names w path conf ∧ conf.log = some c ∧ Written w c x :=
        fun h => h.imp id fun h => ⟨conf, c, hn, h1, h⟩
      split at h
      · cases h2 : conf.client with
        | none => rw [h2] at h; exact fin (two (by simpa using h))
        | some cl =>
          rw [h2] at h
          dsimp only at h
          split at h
          · exact fin (two (by simpa using h))
          · split at h
            · exact fin (two (by simpa using h))
            · dsimp only at h
              rw [List.mem_append, List.mem_append] at h
              rcases h with (h | h) | h
              · exact fin (two h)
              · exact fin (.inr (dialAll_written h))
              · split at h
                · rename_i hc
                  split at hc
                  · rename_i ht
                    cases hc
                    unfold terminalCourse at ht
                    split at ht
                    · cases ht; cases h
                    · dsimp only at ht
                      split at ht
                      · cases ht
                        exact fin (.inr ⟨_, _, h⟩)
                      · cases ht
                  · cases hc
                  · cases hc
                · cases h
      · exact fin (two (by simpa using h))

theorem takeWhile_bne {α : Type} [BEq α] [LawfulBEq α] {a : α} {l : List α} (h : a ∉ l) : l.takeWhile (· != a) = l := by
  induction l with
  | nil => rfl
  | cons b l ih =>
    rw [List.mem_cons, not_or] at h
    rw [List.takeWhile_cons_of_pos (by simpa using Ne.symm h.1), ih h.2]

theorem written_logged {w : World} {c : LogConf} {lv : Level} {what : String} {to : List Writer}
    (h : Written w c (.logged lv what to)) : writes c.level lv = true ∧ (.stderr ∈ to ↔ c.console = true) ∧
      (.file ∈ to ↔ c.file = true ∧ w.creatable c.dir = true) := by
  obtain ⟨lv', what', h⟩ := h
  unfold LogConf.write at h
  split at h
  · rename_i hw
    dsimp only at h
    have key : lv = lv' ∧ to = (c.writers w).takeWhile (· != .nothing) := by
      split at h
      · have := List.mem_singleton.1 h
        injection this with a b c
        exact ⟨a, c⟩
      · rename_i hn
        have := List.mem_singleton.1 h
        injection this with a b c
        refine ⟨a, ?_⟩
        rw [c, takeWhile_bne hn]
    obtain ⟨rfl, rfl⟩ := key
    refine ⟨hw, ?_⟩
    unfold LogConf.writers
    cases c.console <;> cases c.file <;> cases w.creatable c.dir <;> decide
  · cases h

end Startup

open Startup

theorem log_fields {es : List (List Str × Scalar)} {c : LogConf} (h : YamlFile.log es = some (some c)) :
    YamlFile.flag es ["log", "consoleenable"] = some c.console ∧ YamlFile.flag es ["log", "fileenable"] = some c.file ∧
    (∃ l, YamlFile.text es ["log", "loglevel"] = some l ∧ c.level = asString l) ∧
    (∃ d, YamlFile.text es ["log", "logdirectory"] = some d ∧ c.dir = asString d) := by
  unfold YamlFile.log at h
  split at h
  · simp only [Option.bind_eq_bind, Option.bind_eq_some_iff, Option.pure_def, Option.some.injEq] at h
    obtain ⟨a, h1, b, h2, _, _, l, h3, d, h4, rfl⟩ := h
    exact ⟨h1, h2, ⟨l, h3, rfl⟩, ⟨d, h4, rfl⟩⟩
  · cases h

/-- The setting says yes; a setting that is not there says no. -/
def Spec.SaysFlag (es : List (List Str × JT808.Scalar)) (path : List String) (b : Bool) : Prop :=
  (∃ v, Setting es path (some v) ∧ MeansFlag v b) ∨ (Setting es path none ∧ b = false)

theorem says_flag {es : List (List Str × Scalar)} (ho : OnceEach es) {path : List String} (hn : Named path) {b : Bool}
    (h : SaysFlag es path b) : YamlFile.flag es path = some b := by
  rcases h with ⟨v, hv, hb⟩ | ⟨h, rfl⟩
  · exact flag_said ((setting_at ho hn _).1 hv) hb
  · have := (setting_at ho hn _).1 h
    simp [YamlFile.flag, YamlFile.val, this]

/-- What the file says on logging: the level, to the terminal or not, into files or not, and in which directory. -/
structure Spec.LogFile (es : List (List Str × JT808.Scalar)) (level : String) (console file : Bool) (dir : String) : Prop where
  level : ∃ v, Setting es ["log", "loglevel"] (some v) ∧ MeansText v level.toUTF8.toList
  console : SaysFlag es ["log", "consoleenable"] console
  file : SaysFlag es ["log", "fileenable"] file
  dir : ∃ v d, Setting es ["log", "logdirectory"] (some v) ∧ MeansText v d ∧ asString d = dir

theorem log_is {es : List (List Str × Scalar)} (ho : OnceEach es) {level : String} (hl : level ∈ levelShows.map (·.1)) {console file : Bool}
    {dir : String} (hf : LogFile es level console file dir) {c : LogConf} (h : YamlFile.log es = some (some c)) :
    c.level = level ∧ c.console = console ∧ c.file = file ∧ c.dir = dir := by
  obtain ⟨h1, h2, ⟨l, h3, h4⟩, ⟨d, h5, h6⟩⟩ := log_fields h
  obtain ⟨v, a1, a2⟩ := hf.level
  obtain ⟨u, d', b1, b2, b3⟩ := hf.dir
  have e1 := text_said ((setting_at ho (by unfold Named; decide +kernel) _).1 a1) a2
  have e2 := text_said ((setting_at ho (by unfold Named; decide +kernel) _).1 b1) b2
  have e3 := says_flag ho (by unfold Named; decide +kernel) hf.console
  have e4 := says_flag ho (by unfold Named; decide +kernel) hf.file
  rw [e1] at h3
  rw [e2] at h5
  rw [e3] at h1
  rw [e4] at h2
  injection h1 with h1
  injection h2 with h2
  injection h3 with h3
  injection h5 with h5
  subst h3 h5
  have : ∀ l ∈ levelShows.map (·.1), asString l.toUTF8.toList = l := by decide +kernel
  exact ⟨h4.trans (this level hl), h1.symm, h2.symm, h6.trans b3⟩

theorem level_shows : ∀ e ∈ levelShows, ∀ lv : Level, writes e.1 lv = true ↔ lv ∈ e.2 := by
  have h : ∀ e ∈ levelShows, ∀ lv ∈ [Level.debug, .info, .warn, .error, .fatal], writes e.1 lv = true ↔ lv ∈ e.2 := by decide +kernel
  intro e he lv
  exact h e he lv (by cases lv <;> simp)

/-- Every event the server or the simulator logs at its start has at least the level of the file, reaches the terminal exactly if
the file says so, and the log files exactly if the file says so and their directory can be made. -/
theorem C137_events (w : Startup.World) (reach : Reach) (path : String) (hp : path ≠ "embedded-default-server-config")
    (hp' : path ≠ "embedded-default-client-config") (text : Str) (hw : w.content path = contentOf text)
    (es : List (List Str × Scalar)) (h : YamlSays text es) (ho : OnceEach es) (level : String) (shown : List Level)
    (console file : Bool) (dir : String) (hl : (level, shown) ∈ levelShows) (hf : LogFile es level console file dir)
    (lv : Level) (what : String) (to : List Writer)
    (hm : .logged lv what to ∈ (Startup.main w path).1 ∨ .logged lv what to ∈ simSaid (simMain w reach path)) :
    lv ∈ shown ∧ (.stderr ∈ to ↔ console = true) ∧ (.file ∈ to ↔ file = true ∧ w.creatable dir = true) := by
  have key : ∃ conf c, Names w path conf ∧ conf.log = some c ∧ Written w c (.logged lv what to) := by
    rcases hm with hm | hm
    · rcases main_written hm with hm | ⟨conf, c, h1, h2, h3 | ⟨h3, -⟩⟩
      · cases hm
      · exact ⟨conf, c, h1, h2, h3⟩
      · cases h3
    · rcases simMain_written hm with hm | hm
      · cases hm
      · exact hm
  obtain ⟨conf, c, h1, h2, h3⟩ := key
  have h4 := (conf_client ((file_conf hp hp' hw h conf).1 h1)).2
  rw [h2] at h4
  obtain ⟨rfl, rfl, rfl, rfl⟩ := log_is ho (List.mem_map_of_mem hl) hf h4
  obtain ⟨a, b, d⟩ := written_logged h3
  exact ⟨(level_shows _ hl _).1 a, b, d⟩

/-- What a server that comes up has said: which configuration it starts with; from the level INFO on, that logging is configured;
the banner, if the file says so; and at the level DEBUG, that it listens.  Nothing else. -/
theorem C137_output (w : Startup.World) (path : String) (hp : path ≠ "embedded-default-server-config")
    (hp' : path ≠ "embedded-default-client-config") (text : Str) (hw : w.content path = contentOf text)
    (es : List (List Str × Scalar)) (h : YamlSays text es) (ho : OnceEach es) (level : String) (shown : List Level)
    (console file : Bool) (dir : String) (hl : (level, shown) ∈ levelShows) (hf : LogFile es level console file dir)
    (banner : Bool) (hb : SaysFlag es ["server", "banner", "enable"] banner) (t u : String)
    (hup : (Startup.main w path).2 = .up t u) :
    let outs : List Writer := (if console then [.stderr] else []) ++ (if file then [.file] else [])
    (Startup.main w path).1 = [.printed ("Start with configuration " ++ path)] ++
      (if .info ∈ shown then [.logged .info "logging configured" outs] else []) ++
      (if banner then [.printed "banner"] else []) ++
      (if .debug ∈ shown then [.logged .debug "Listening" outs, .logged .debug "Listening and serving HTTP" outs] else []) := by
  intro outs
  obtain ⟨conf, c, p, b, h1, ⟨h2, name, h3⟩, h4, rfl, rfl, f1, f2, f3⟩ := (C118_up_iff w path t u).1 hup
  have hc := (file_conf hp hp' hw h conf).1 h1
  have h5 := (conf_client hc).2
  rw [h2] at h5
  obtain ⟨rfl, rfl, rfl, rfl⟩ := log_is ho (List.mem_map_of_mem hl) hf h5
  have hben : b.enable = banner := by
    unfold YamlFile.conf at hc
    split at hc
    · simp only [Option.bind_eq_bind, Option.bind_eq_some_iff, Option.pure_def, Option.some.injEq] at hc
      obtain ⟨_, _, srv, hs, cl, _, rfl⟩ := hc
      have h3 : srv = some ⟨name, some p, some b⟩ := h3
      subst h3
      unfold YamlFile.server at hs
      split at hs
      · simp only [Option.bind_eq_bind, Option.bind_eq_some_iff, Option.pure_def, Option.some.injEq] at hs
        obtain ⟨_, _, _, _, bn, hbn, e⟩ := hs
        injection e with _ _ e
        subst e
        unfold YamlFile.banner at hbn
        split at hbn
        · simp only [Option.bind_eq_bind, Option.bind_eq_some_iff, Option.pure_def, Option.some.injEq] at hbn
          obtain ⟨en, hen, _, _, rfl⟩ := hbn
          rw [says_flag ho (by unfold Named; decide +kernel) hb] at hen
          injection hen with hen
          exact hen.symm
        · cases hbn
      · cases hs
    · cases hc
  have hw' : ∀ lv what, (lv = .info ∨ lv = .debug) → c.write w lv what = (if lv ∈ shown then [.logged lv what outs] else [], true) := by
    intro lv what hlv
    have hs := level_shows _ hl lv
    by_cases hin : lv ∈ shown
    · have hwr := hs.2 hin
      have hi : writes c.level .info = true := by
        rcases hlv with rfl | rfl
        · exact hwr
        · exact writes_mono hwr (by decide)
      have hno : ¬ NoPlace w c := fun hn => h4 ⟨hn, hi⟩
      have e1 := write_said (what := what) hno hwr
      have e2 : (c.write w lv what).2 = true := write_ok.2 fun hh => hno hh.1
      have e3 : c.writers w = outs := by
        unfold LogConf.writers
        show _ = (if c.console then [Writer.stderr] else []) ++ (if c.file then [Writer.file] else [])
        cases hcf : c.file with
        | false => simp
        | true =>
          have : w.creatable c.dir = true := by
            cases hcr : w.creatable c.dir with
            | true => rfl
            | false => exact absurd ⟨hcf, hcr⟩ hno
          simp [this]
      rw [if_pos hin, ← e3, ← e1, ← e2]
    · have : writes c.level lv = false := by
        rw [Bool.eq_false_iff]
        exact fun hh => hin (hs.1 hh)
      unfold LogConf.write
      rw [this, if_neg hin]
      rfl
  unfold Startup.main
  rw [load_first.2 h1]
  dsimp only
  rw [h2, h3]
  dsimp only
  rw [hw' .info _ (.inl rfl)]
  dsimp only
  unfold listen serveBoth
  rw [f1, hw' .debug _ (.inr rfl), hw' .debug _ (.inr rfl), f2, hben]
  have : (p.http != p.tcp) = true := by simpa using Ne.symm f3
  rw [this]
  by_cases hd : Level.debug ∈ shown
  · simp [hd]
  · simp [hd]

/-- Whatever becomes of the process, if its configuration has a section on logging, the level lets it through and there is a place
for the log files, the first two things it says are the name of the configuration and that logging is configured. -/
theorem C137_first (w : Startup.World) (reach : Reach) (path : String) (conf : Conf) (c : LogConf) (h : Names w path conf)
    (hl : conf.log = some c) (hn : ¬ NoPlace w c) (hi : writes c.level .info = true) :
    (Startup.main w path).1.take 2 =
      [.printed ("Start with configuration " ++ path), .logged .info "logging configured" (c.writers w)] ∧
    (simMain w reach path).1.take 2 =
      [.printed ("Start with configuration " ++ path), .logged .info "logging configured" (c.writers w)] := by
  have e1 := write_said (what := "logging configured") hn hi
  have e2 : (c.write w .info "logging configured").2 = true := write_ok.2 fun hh => hn hh.1
  constructor
  · unfold Startup.main
    rw [load_first.2 h]
    dsimp only
    rw [hl]
    dsimp only
    rw [e1, e2, if_pos rfl]
    cases conf.server with
    | none => rfl
    | some srv =>
      dsimp only
      cases srv.banner with
      | none => rfl
      | some b =>
        dsimp only
        cases srv.port <;> simp
  · unfold simMain
    rw [load_first.2 h]
    dsimp only
    rw [hl]
    dsimp only
    rw [e1, e2, if_pos rfl]
    cases conf.client with
    | none => rfl
    | some cl =>
      dsimp only
      split
      · rfl
      · split
        · rfl
        · simp

/-! ## Examples -/

-- C137_first: a simulator that is to start a negative number of terminals
example : (simMain (simWorld true) (refuses 0) "e.yaml").1.length = 2 ∧
    (simMain (simWorld true) (refuses 0) "e.yaml").2 = .crash := by decide

def logLines : List Str :=
  ["log:", " logLevel: \"WARN\"", " fileEnable: true", " consoleEnable: \"false\"", " logDirectory: \"./logs/\"", "server:", " port:",
    "  tcpPort: 9090", "  httpPort: 9009", " banner:", "  enable: 1"].map (·.toUTF8.toList)

def logSettings : List (List Str × Scalar) :=
  [(["log", "logLevel"], .quoted "WARN".toUTF8.toList), (["log", "fileEnable"], .plain "true".toUTF8.toList),
    (["log", "consoleEnable"], .quoted "false".toUTF8.toList), (["log", "logDirectory"], .quoted "./logs/".toUTF8.toList),
    (["server", "port", "tcpPort"], .plain "9090".toUTF8.toList), (["server", "port", "httpPort"], .plain "9009".toUTF8.toList),
    (["server", "banner", "enable"], .plain "1".toUTF8.toList)].map fun e => (e.1.map (·.toUTF8.toList), e.2)

theorem log_says : YamlSays (unlines logLines) logSettings := by
  have hk : ∀ k ∈ ["log", "logLevel", "fileEnable", "consoleEnable", "logDirectory", "server", "port", "tcpPort", "httpPort", "banner",
      "enable"], YamlKey (String.toUTF8 k).toList := by unfold YamlKey; decide +kernel
  simp only [List.mem_cons, List.not_mem_nil, or_false, forall_eq_or_imp, forall_eq] at hk
  obtain ⟨k1, k2, k3, k4, k5, k6, k7, k8, k9, k10, k11⟩ := hk
  have hp : ∀ s ∈ ["true", "9090", "9009", "1"], YamlScalar (.plain (String.toUTF8 s).toList) (String.toUTF8 s).toList := by
    intro s hs
    refine .plain ?_ ?_ <;> revert s <;> decide +kernel
  have hq : ∀ s ∈ ["WARN", "false", "./logs/"],
      YamlScalar (.quoted (String.toUTF8 s).toList) (0x22 :: (String.toUTF8 s).toList ++ [0x22]) := by
    intro s hs
    refine .quoted ?_ ?_ <;> revert s <;> decide +kernel
  refine ⟨logLines, by simp [logLines], by decide +kernel, rfl, ?_⟩
  have b1 := YamlBlock.value (n := 2) k11 (hp "1" (by simp)) (.none 0) .nil
  have b2 := YamlBlock.section (n := 1) (m := 2) k10 (.none 0) (by decide) b1 .nil
  have p1 := YamlBlock.value (n := 2) k9 (hp "9009" (by simp)) (.none 0) .nil
  have p2 := YamlBlock.value (n := 2) k8 (hp "9090" (by simp)) (.none 0) p1
  have p3 := YamlBlock.section (n := 1) (m := 2) k7 (.none 0) (by decide) p2 b2
  have s1 := YamlBlock.section (n := 0) (m := 1) k6 (.none 0) (by decide) p3 .nil
  have l1 := YamlBlock.value (n := 1) k5 (hq "./logs/" (by simp)) (.none 0) .nil
  have l2 := YamlBlock.value (n := 1) k4 (hq "false" (by simp)) (.none 0) l1
  have l3 := YamlBlock.value (n := 1) k3 (hp "true" (by simp)) (.none 0) l2
  have l4 := YamlBlock.value (n := 1) k2 (hq "WARN" (by simp)) (.none 0) l3
  have l5 := YamlBlock.section (n := 0) (m := 1) k1 (.none 0) (by decide) l4 s1
  exact block_cast l5 (by decide +kernel) (by decide +kernel)

theorem log_once : OnceEach logSettings := by unfold OnceEach; decide +kernel

theorem log_log : LogFile logSettings "WARN" false true "./logs/" ∧ SaysFlag logSettings ["server", "banner", "enable"] true := by
  have st : ∀ (p : List String) (v : Option Scalar), Named p → YamlFile.at logSettings p = v → Setting logSettings p v :=
    fun p v hn h => (setting_at log_once hn v).2 h
  exact ⟨⟨⟨_, st _ _ (by unfold Named; decide +kernel) (by decide +kernel : _ = some (.quoted "WARN".toUTF8.toList)), .quoted⟩,
    .inl ⟨_, st _ _ (by unfold Named; decide +kernel) (by decide +kernel : _ = some (.quoted "false".toUTF8.toList)), .quotedNo (by simp)⟩,
    .inl ⟨_, st _ _ (by unfold Named; decide +kernel) (by decide +kernel : _ = some (.plain "true".toUTF8.toList)), .yes⟩,
    ⟨_, _, st _ _ (by unfold Named; decide +kernel) (by decide +kernel : _ = some (.quoted "./logs/".toUTF8.toList)), .quoted, by decide +kernel⟩⟩,
    .inl ⟨.plain [0x31], st _ _ (by unfold Named; decide +kernel) (by decide +kernel), by
      rw [show ([0x31] : Str) = (Nat.toDigits 10 1).map fun c => UInt8.ofNat c.toNat by decide +kernel]
      exact .some (by decide) (by decide)⟩⟩

/-- A machine with this file. -/
def logWorld (free creatable : Bool) : Startup.World :=
  { demoWorld creatable [] with content := fun _ => contentOf (unlines logLines), free := fun _ => free }

-- C137_output: it comes up, and has said nothing but two lines
example : (Startup.main (logWorld true true) "a.yaml").2 = .up "9090" "9009" ∧
    (Startup.main (logWorld true true) "a.yaml").1 = [.printed "Start with configuration a.yaml", .printed "banner"] := by decide +kernel
-- C137_events: the ports are taken
example : .logged .error "Fail to listen tcp addr" [.file] ∈ (Startup.main (logWorld false true) "a.yaml").1 ∧
    .logged .error "Fail to listen tcp addr" [] ∈ (Startup.main (logWorld false false) "a.yaml").1 := by decide +kernel

end JT808
