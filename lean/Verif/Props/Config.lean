import Verif.Model.Config
/-
C63: log levels.
-/
namespace JT808

/-- The documented names, from the least to the most severe. -/
def levelNames : List (String × Level) :=
  [("DEBUG", .debug), ("INFO", .info), ("WARN", .warn), ("ERROR", .error), ("FATAL", .fatal)]

/-- `a` is at least as severe as `b`: it comes no earlier in the documented order. -/
def atLeast (a b : Level) : Prop := [Level.debug, .info, .warn, .error, .fatal].idxOf b ≤ [Level.debug, .info, .warn, .error, .fatal].idxOf a

instance (a b : Level) : Decidable (atLeast a b) := inferInstanceAs (Decidable (_ ≤ _))

/-- What holds of C63: with each documented name but FATAL, exactly the events of at least that severity are written.
Missing: FATAL, for which it is false (C63_fatal_writes_everything). -/
theorem C63_levels_partial (name : String) (l : Level) (h : (name, l) ∈ levelNames) (hf : l ≠ .fatal) (ev : Level) :
    writes name ev = true ↔ atLeast ev l := by
  simp only [levelNames, List.mem_cons, Prod.mk.injEq, List.not_mem_nil, or_false] at h
  rcases h with ⟨rfl, rfl⟩ | ⟨rfl, rfl⟩ | ⟨rfl, rfl⟩ | ⟨rfl, rfl⟩ | ⟨rfl, rfl⟩
  · cases ev <;> decide
  · cases ev <;> decide
  · cases ev <;> decide
  · cases ev <;> decide
  · exact absurd rfl hf

/-- The opposite of C63: with FATAL every event is written. -/
theorem C63_fatal_writes_everything (ev : Level) : writes "FATAL" ev = true := by cases ev <;> decide

/-- So it is with every string that is not one of five: these are not the documented ones. -/
theorem C63_unknown_writes_everything (s : String) (ev : Level)
    (h : s ∉ ["INFO", "WARN", "ERROR", "FATAl"]) : writes s ev = true := by
  simp only [List.mem_cons, List.not_mem_nil, or_false, not_or] at h
  obtain ⟨h1, h2, h3, h4⟩ := h
  unfold writes parseLevel
  rw [if_neg h1, if_neg h2, if_neg h3, if_neg h4]
  cases ev <;> split <;> decide

/-- The name that silences everything below a fatal error is not a documented one: it ends in a small letter. -/
theorem C63_fatal_misspelt (ev : Level) : (writes "FATAl" ev = true ↔ ev = .fatal) ∧ "FATAl" ∉ levelNames.map (·.1) := by
  cases ev <;> decide

example : ("WARN", Level.warn) ∈ levelNames ∧ writes "WARN" .error = true ∧ writes "WARN" .info = false := by decide
example : "FATAL" ∉ ["INFO", "WARN", "ERROR", "FATAl"] := by decide

end JT808
