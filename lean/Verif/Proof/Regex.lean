import Verif.Model.Yaml
import Verif.Spec.Regex
namespace JT808
open Spec

theorem isMeta_eq (c : UInt8) : isMeta c = decide (c ∈ reMeta) := by
  have h : jsonName "\\.+*?()|[]{}^$" = reMeta := by decide +kernel
  unfold isMeta
  rw [h]
  simp

theorem not_meta {c m : UInt8} (h : c ∉ reMeta) (hm : m ∈ reMeta) : c ≠ m := fun e => h (e ▸ hm)

/-! ## Classes -/

theorem mem_span (a b c : UInt8) :
    c ∈ (List.range (b.toNat + 1 - a.toNat)).map (fun i => UInt8.ofNat (a.toNat + i)) ↔ a ≤ c ∧ c ≤ b := by
  simp only [List.mem_map, List.mem_range]
  constructor
  · rintro ⟨i, hi, rfl⟩
    have hb := b.toNat_lt
    have e : (UInt8.ofNat (a.toNat + i)).toNat = a.toNat + i := by
      rw [UInt8.toNat_ofNat']
      exact Nat.mod_eq_of_lt (by omega)
    constructor
    · rw [UInt8.le_iff_toNat_le, e]; omega
    · rw [UInt8.le_iff_toNat_le, e]; omega
  · rintro ⟨h1, h2⟩
    rw [UInt8.le_iff_toNat_le] at h1 h2
    refine ⟨c.toNat - a.toNat, by omega, ?_⟩
    have e : a.toNat + (c.toNat - a.toNat) = c.toNat := by omega
    rw [e]
    exact UInt8.ofNat_toNat

theorem classChars_written : ∀ {items : List ReItem}, (∀ i ∈ items, i.Good) →
    ∃ cls, classChars (items.flatMap ReItem.written) = some cls ∧ ∀ c, c ∈ cls ↔ ∃ i ∈ items, i.Has c := by
  intro items
  induction items with
  | nil => intro _; exact ⟨[], rfl, by simp⟩
  | cons i items ih =>
    intro h
    obtain ⟨cls, hc, hm⟩ := ih fun j hj => h j (List.mem_cons_of_mem _ hj)
    have hi := h i List.mem_cons_self
    cases i with
    | range a b =>
      refine ⟨(List.range (b.toNat + 1 - a.toNat)).map (fun i => UInt8.ofNat (a.toNat + i)) ++ cls, ?_, ?_⟩
      · simp only [List.flatMap_cons, ReItem.written, List.cons_append, List.nil_append, classChars, hc, Option.map_some]
      · intro c
        rw [List.mem_append, mem_span, hm]
        simp [ReItem.Has]
    | one a =>
      refine ⟨a :: cls, ?_, ?_⟩
      · simp only [List.flatMap_cons, ReItem.written, List.cons_append, List.nil_append]
        -- what follows does not begin with a hyphen
        have hh : (items.flatMap ReItem.written).head? ≠ some 0x2d := by
          cases items with
          | nil => simp
          | cons j js =>
            have hj := h j (by simp)
            cases j with
            | one b => simp only [List.flatMap_cons, ReItem.written, List.cons_append, List.nil_append, List.head?_cons]
                       intro e; exact hj.2.1 (Option.some.inj e)
            | range b d => simp only [List.flatMap_cons, ReItem.written, List.cons_append, List.nil_append, List.head?_cons]
                           intro e; exact hj.1.2.1 (Option.some.inj e)
        revert hc hh
        generalize items.flatMap ReItem.written = w
        intro hc hh
        cases w with
        | nil => simpa [classChars] using hc
        | cons x w =>
          cases w with
          | nil =>
            rw [classChars]
            · rw [hc]; rfl
            · intro b rest e; cases e
          | cons y w =>
            rw [classChars]
            · rw [hc]; rfl
            · intro b rest e
              cases e
              exact hh rfl
      · intro c
        rw [List.mem_cons, hm]
        simp [ReItem.Has]

theorem mem_written_good {items : List ReItem} (h : ∀ i ∈ items, i.Good) {c : UInt8}
    (hc : c ∈ items.flatMap ReItem.written) : c ∉ reMeta := by
  obtain ⟨i, hi, hc⟩ := List.mem_flatMap.1 hc
  have hg := h i hi
  cases i with
  | one a => simp only [ReItem.written, List.mem_singleton] at hc; subst hc; exact hg.1
  | range a b =>
    simp only [ReItem.written, List.mem_cons, List.not_mem_nil, or_false] at hc
    rcases hc with rfl | rfl | rfl
    · exact hg.1.1
    · decide
    · exact hg.2.1

theorem atoiDigits_digits : ∀ {ds : List UInt8} (n : Nat), (∀ d ∈ ds, 0x30 ≤ d ∧ d ≤ 0x39) →
    atoiDigits n ds = some (ds.foldl (fun n d => n * 10 + (d.toNat - 0x30)) n) := by
  intro ds
  induction ds with
  | nil => intro n _; rfl
  | cons d ds ih =>
    intro n h
    rw [atoiDigits, if_pos (h d List.mem_cons_self), ih _ fun e he => h e (List.mem_cons_of_mem _ he)]
    rfl

theorem takeWhile_all {p : UInt8 → Bool} {a r : List UInt8} (ha : ∀ c ∈ a, p c = true) (hr : ∀ c, r.head? = some c → p c = false) :
    (a ++ r).takeWhile p = a := by
  induction a with
  | nil =>
    cases r with
    | nil => rfl
    | cons c r => simp [hr c rfl]
  | cons c a ih =>
    rw [List.cons_append, List.takeWhile_cons, ha c List.mem_cons_self, if_pos rfl, ih fun d hd => ha d (List.mem_cons_of_mem _ hd)]

/-! ## Pieces -/

/-- The texts of pieces one after the other. -/
def MakesAll : List Pattern → Str → Prop
  | [], t => t = []
  | p :: ps, t => ∃ u v, t = u ++ v ∧ p.Makes u ∧ MakesAll ps v

theorem joinPieces_makes : ∀ (ps : List Pattern) (t : Str), (joinPieces ps).Makes t ↔ MakesAll ps t := by
  intro ps
  induction ps with
  | nil => intro t; exact Iff.rfl
  | cons p ps ih =>
    intro t
    cases ps with
    | nil =>
      simp only [joinPieces, MakesAll]
      constructor
      · intro h; exact ⟨t, [], by simp, h, rfl⟩
      · rintro ⟨u, v, rfl, h, rfl⟩; simpa using h
    | cons q ps =>
      simp only [joinPieces, Pattern.Makes]
      constructor
      · rintro ⟨u, v, e, h1, h2⟩; exact ⟨u, v, e, h1, (ih v).1 h2⟩
      · rintro ⟨u, v, e, h1, h2⟩; exact ⟨u, v, e, h1, (ih v).2 h2⟩

theorem seqFits_chars : ∀ (cs : List UInt8) (ps : List RePiece) (t : List UInt8),
    SeqFits (cs.map RePiece.char ++ ps) t ↔ ∃ v, t = cs ++ v ∧ SeqFits ps v := by
  intro cs
  induction cs with
  | nil => intro ps t; simp
  | cons c cs ih =>
    intro ps t
    constructor
    · intro h
      rw [List.map_cons, List.cons_append] at h
      cases h with
      | cons h1 h2 =>
        obtain ⟨v, rfl, h3⟩ := (ih ps _).1 h2
        have h1 : _ = [c] := h1
        rw [h1]
        exact ⟨v, rfl, h3⟩
    · rintro ⟨v, rfl, h⟩
      exact SeqFits.cons (s := [c]) rfl ((ih ps _).2 ⟨v, rfl, h⟩)

/-- Pieces are a run of characters and then nothing or a class. -/
theorem run_split : ∀ (ps : List RePiece), ∃ (cs : List UInt8) (rest : List RePiece), ps = cs.map RePiece.char ++ rest ∧
    (rest = [] ∨ ∃ items times r, rest = RePiece.cls items times :: r) := by
  intro ps
  induction ps with
  | nil => exact ⟨[], [], rfl, .inl rfl⟩
  | cons p ps ih =>
    cases p with
    | char c =>
      obtain ⟨cs, rest, rfl, h⟩ := ih
      exact ⟨c :: cs, rest, rfl, h⟩
    | cls items times => exact ⟨[], _, rfl, .inr ⟨items, times, ps, rfl⟩⟩

theorem written_chars (cs : List UInt8) : (cs.map RePiece.char).flatMap RePiece.written = cs := by
  induction cs with
  | nil => rfl
  | cons c cs ih => rw [List.map_cons, List.flatMap_cons, ih]; rfl

theorem written_ne_nil (p : RePiece) : p.written ≠ [] := by
  cases p with
  | char c => simp [RePiece.written]
  | cls items times => cases times <;> simp [RePiece.written]

theorem head_cls (items : List ReItem) (times : Option (List UInt8)) (r : List RePiece) :
    ((RePiece.cls items times :: r).flatMap RePiece.written).head? = some 0x5b := by
  cases times <;> simp [RePiece.written]

theorem readPieces_cls {items : List ReItem} {times : Option (List UInt8)} (hg : (RePiece.cls items times).Good)
    {rest : List UInt8} (hrest : rest.head? ≠ some 0x7b) (fuel : Nat) :
    ∃ p : Pattern, (∀ t, p.Makes t ↔ (RePiece.cls items times).Fits t) ∧
      readPieces (fuel + 1) ((RePiece.cls items times).written ++ rest) = (readPieces fuel rest).map fun ps => p :: ps := by
  obtain ⟨hne, hi, hd⟩ := hg
  obtain ⟨cls, hc, hm⟩ := classChars_written hi
  have hb : ∀ r : List UInt8, (items.flatMap ReItem.written ++ 0x5d :: r).takeWhile (· != 0x5d) = items.flatMap ReItem.written := by
    intro r
    refine takeWhile_all (fun c hc => ?_) (fun c hc => ?_)
    · have := not_meta (mem_written_good hi hc) (m := 0x5d) (by decide)
      simpa using this
    · rw [List.head?_cons] at hc; cases hc; rfl
  cases times with
  | none =>
    refine ⟨.chars cls 1, ?_, ?_⟩
    · intro t
      simp only [Pattern.Makes, RePiece.Fits, Option.map_none, Option.getD_none, hm]
    · simp only [RePiece.written, List.cons_append, List.append_assoc, List.nil_append, readPieces, if_true, hb,
        List.drop_left, hc]
      split
      · rename_i more; exact absurd rfl hrest
      · rfl
  | some ds =>
    obtain ⟨hds, hdd⟩ := hd ds rfl
    refine ⟨.chars cls (reNumber ds), ?_, ?_⟩
    · intro t
      simp only [Pattern.Makes, RePiece.Fits, Option.map_some, Option.getD_some, hm]
    · have ht : (ds ++ 0x7d :: rest).takeWhile (· != 0x7d) = ds := by
        refine takeWhile_all (fun c hc => ?_) (fun c hc => ?_)
        · have h2 := (hdd c hc).2
          have : c ≠ 0x7d := by rintro rfl; exact absurd h2 (by decide)
          simpa using this
        · rw [List.head?_cons] at hc; cases hc; rfl
      simp only [RePiece.written, List.cons_append, List.append_assoc, List.nil_append, readPieces, if_true, hb,
        List.drop_left, hc, ht, atoiDigits_digits 0 hdd, if_neg hds]
      rfl

theorem readPieces_written : ∀ (n : Nat) (ps : List RePiece), ps.length ≤ n → (∀ p ∈ ps, p.Good) → ∀ fuel,
    (ps.flatMap RePiece.written).length ≤ fuel →
    ∃ qs, readPieces fuel (ps.flatMap RePiece.written) = some qs ∧ ∀ t, MakesAll qs t ↔ SeqFits ps t := by
  intro n
  induction n with
  | zero =>
    intro ps hl _ fuel _
    cases ps with
    | nil =>
      refine ⟨[], by simp [readPieces], fun t => ?_⟩
      constructor
      · intro h; have h : t = [] := h; subst h; exact .nil
      · intro h; cases h; rfl
    | cons p ps => simp at hl
  | succ n ih =>
    intro ps hl hg fuel hf
    obtain ⟨cs, rest, rfl, hrest⟩ := run_split ps
    rw [List.flatMap_append, written_chars] at hf ⊢
    -- the class that comes next
    have next : ∀ fuel, rest.length ≤ n + 1 → (∀ p ∈ rest, p.Good) → (rest.flatMap RePiece.written).length ≤ fuel →
        ∃ qs, readPieces fuel (rest.flatMap RePiece.written) = some qs ∧ ∀ t, MakesAll qs t ↔ SeqFits rest t := by
      intro fuel hl hg hf
      rcases hrest with rfl | ⟨items, times, r, rfl⟩
      · refine ⟨[], by simp [readPieces], fun t => ?_⟩
        constructor
        · intro h; have h : t = [] := h; subst h; exact .nil
        · intro h; cases h; rfl
      · rw [List.flatMap_cons, List.length_append] at hf
        have h0 : 0 < (RePiece.cls items times).written.length := List.length_pos_iff.2 (written_ne_nil _)
        obtain ⟨f, rfl⟩ : ∃ f, fuel = f + 1 := ⟨fuel - 1, by omega⟩
        obtain ⟨qs, hq, hm⟩ := ih r (by simp at hl; omega) (fun p hp => hg p (List.mem_cons_of_mem _ hp)) f (by omega)
        have hh : (r.flatMap RePiece.written).head? ≠ some 0x7b := by
          cases r with
          | nil => simp
          | cons p r =>
            have hp := hg p (by simp)
            cases p with
            | cls i t => rw [head_cls]; decide
            | char c =>
              simp only [List.flatMap_cons, RePiece.written, List.cons_append, List.nil_append, List.head?_cons]
              intro e
              exact not_meta hp (m := 0x7b) (by decide) (Option.some.inj e)
        obtain ⟨p, hp, he⟩ := readPieces_cls (hg _ List.mem_cons_self) hh f
        refine ⟨p :: qs, by rw [List.flatMap_cons, he, hq]; rfl, fun t => ?_⟩
        constructor
        · rintro ⟨u, v, rfl, h1, h2⟩
          exact .cons ((hp u).1 h1) ((hm v).1 h2)
        · intro h
          cases h with
          | cons h1 h2 => exact ⟨_, _, rfl, (hp _).2 h1, (hm _).2 h2⟩
    have hgr : ∀ p ∈ rest, p.Good := fun p hp => hg p (List.mem_append_right _ hp)
    cases cs with
    | nil =>
      obtain ⟨qs, hq, hm⟩ := next fuel (by simpa using hl) hgr (by simpa using hf)
      exact ⟨qs, by simpa using hq, by simpa using hm⟩
    | cons c cs =>
      simp only [List.cons_append, List.length_cons, List.length_append] at hf
      obtain ⟨f, rfl⟩ : ∃ f, fuel = f + 1 := ⟨fuel - 1, by omega⟩
      obtain ⟨qs, hq, hm⟩ := next f (by simp at hl; omega) hgr (by omega)
      have hcs : ∀ x ∈ c :: cs, x ∉ reMeta := by
        intro x hx
        exact hg (.char x) (List.mem_append_left _ (List.mem_map_of_mem hx))
      have ht : (c :: cs ++ rest.flatMap RePiece.written).takeWhile (fun b => !isMeta b) = c :: cs := by
        refine takeWhile_all (fun x hx => ?_) (fun x hx => ?_)
        · rw [isMeta_eq]; simpa using hcs x hx
        · rcases hrest with rfl | ⟨items, times, r, rfl⟩
          · simp at hx
          · rw [head_cls] at hx; cases hx; rw [isMeta_eq]; decide
      refine ⟨.fixed (c :: cs) :: qs, ?_, fun t => ?_⟩
      · have hb : c ≠ 0x5b := not_meta (hcs c List.mem_cons_self) (by decide)
        have ht' := ht
        rw [List.cons_append] at ht' ⊢
        rw [readPieces, if_neg hb]
        simp only [ht']
        rw [if_neg (by simp), ← List.cons_append, List.drop_left, hq]
        rfl
      · rw [seqFits_chars]
        constructor
        · rintro ⟨u, v, rfl, h1, h2⟩
          have h1 : u = c :: cs := h1
          exact ⟨v, by rw [h1], (hm v).1 h2⟩
        · rintro ⟨v, rfl, h⟩
          exact ⟨c :: cs, v, rfl, rfl, (hm v).2 h⟩

/-! ## Alternatives -/

theorem no_bar {p : RePiece} (h : p.Good) : (0x7c : UInt8) ∉ p.written := by
  intro hm
  cases p with
  | char c => simp only [RePiece.written, List.mem_singleton] at hm; subst hm; exact h (by decide)
  | cls items times =>
    obtain ⟨_, hi, hd⟩ := h
    cases times with
    | none =>
      simp only [RePiece.written, List.cons_append, List.mem_cons, List.mem_append, List.not_mem_nil, or_false] at hm
      rcases hm with hm | hm | hm
      · exact absurd hm (by decide)
      · exact mem_written_good hi hm (by decide)
      · exact absurd hm (by decide)
    | some ds =>
      simp only [RePiece.written, List.cons_append, List.append_assoc, List.mem_cons, List.mem_append, List.not_mem_nil,
        or_false] at hm
      rcases hm with hm | hm | hm | hm | hm | hm
      · exact absurd hm (by decide)
      · exact mem_written_good hi hm (by decide)
      · exact absurd hm (by decide)
      · exact absurd hm (by decide)
      · exact absurd ((hd ds rfl).2 _ hm).2 (by decide)
      · exact absurd hm (by decide)

theorem splitBar_clean : ∀ {s : Str}, 0x7c ∉ s → splitBar s = [s] := by
  intro s
  induction s with
  | nil => intro _; rfl
  | cons b s ih =>
    intro h
    rw [splitBar, if_neg fun e => h (by simp [e]), ih fun e => h (List.mem_cons_of_mem _ e)]

theorem splitBar_cons : ∀ {s r : Str}, 0x7c ∉ s → splitBar (s ++ 0x7c :: r) = s :: splitBar r := by
  intro s r
  induction s with
  | nil => intro _; rw [List.nil_append, splitBar, if_pos rfl]
  | cons b s ih =>
    intro h
    rw [List.cons_append, splitBar, if_neg fun e => h (by simp [e]), ih fun e => h (List.mem_cons_of_mem _ e)]

theorem readAlternatives_written : ∀ (r : Re), r.Good →
    ∃ p, readAlternatives (splitBar r.written) = some p ∧ ∀ t, p.Makes t ↔ r.Fits t := by
  intro r
  induction r with
  | nil => intro h; exact absurd rfl h.1
  | cons a r ih =>
    intro h
    have hb : (0x7c : UInt8) ∉ a.flatMap RePiece.written := by
      intro hm
      obtain ⟨p, hp, hm⟩ := List.mem_flatMap.1 hm
      exact no_bar (h.2 a List.mem_cons_self p hp) hm
    obtain ⟨qs, hq, hm⟩ := readPieces_written a.length a (Nat.le_refl _) (h.2 a List.mem_cons_self)
      ((a.flatMap RePiece.written).length + 1) (Nat.le_succ _)
    cases r with
    | nil =>
      refine ⟨joinPieces qs, ?_, fun t => ?_⟩
      · simp only [Re.written]
        rw [splitBar_clean hb, readAlternatives, hq]
        rfl
      · rw [joinPieces_makes, hm]; simp [Re.Fits]
    | cons b r =>
      obtain ⟨p, hp, hf⟩ := ih ⟨by simp, fun x hx => h.2 x (List.mem_cons_of_mem _ hx)⟩
      refine ⟨.either (joinPieces qs) p, ?_, fun t => ?_⟩
      · simp only [Re.written]
        rw [splitBar_cons hb]
        cases hs : splitBar (Re.written (b :: r)) with
        | nil => rw [hs] at hp; cases hp
        | cons s ss =>
          rw [readAlternatives]
          · rw [hq, ← hs, hp]; rfl
          · simp
      · rw [Pattern.Makes, joinPieces_makes, hm, hf]
        simp [Re.Fits]

end JT808
