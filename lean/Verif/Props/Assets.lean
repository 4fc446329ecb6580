import Verif.Proof.Assets
import Verif.Proof.Regex
/-
C129: the files built into the program are those of the repository, and the tables of the model that were copied from them by
hand say what is in them.
-/
namespace JT808
open Spec

/-! ## Names -/

theorem written_iff : ∀ {path : List UInt8}, (0x5c : UInt8) ∉ path → ∀ name, Written name path ↔ canonical name = path := by
  intro path
  induction path with
  | nil =>
    intro _ name
    constructor
    · intro h; cases h; rfl
    · intro h
      cases name with
      | nil => exact .nil
      | cons b n => simp [canonical] at h
  | cons p path ih =>
    intro hp name
    have hp' : (0x5c : UInt8) ∉ path := fun h => hp (List.mem_cons_of_mem _ h)
    constructor
    · intro h
      cases h with
      | same hb h => rw [← (ih hp' _).1 h]; simp [canonical, hb]
      | back h => rw [← (ih hp' _).1 h]; simp [canonical]
    · intro h
      cases name with
      | nil => simp [canonical] at h
      | cons b n =>
        simp only [canonical, List.map_cons, List.cons.injEq] at h
        have hn := (ih hp' n).2 h.2
        by_cases hb : b = 0x5c
        · subst hb
          rw [if_pos rfl] at h
          rw [← h.1]
          exact .back hn
        · rw [if_neg hb] at h
          rw [← h.1]
          exact .same hb hn

theorem path_banner : joined (["configs", "banner.txt"].map encoded) = ascii "configs/banner.txt" := by decide +kernel
theorem path_server : joined (["configs", "default.yaml"].map encoded) = ascii "configs/default.yaml" := by decide +kernel
theorem path_client :
    joined (["test", "client", "configs", "default.yaml"].map encoded) = ascii "test/client/configs/default.yaml" := by
  decide +kernel

theorem files_clean : ∀ f ∈ files, (0x5c : UInt8) ∉ joined f.parts := by decide +kernel

/-- What is found under a name. -/
theorem findAsset_iff (name : Str) (a : Asset) :
    findAsset name = some a ↔ ∃ f ∈ files, Written name (joined f.parts) ∧ a = ⟨f.bytes, joined f.parts, f.bytes.length, 420⟩ := by
  have h1 := written_iff (files_clean ⟨["configs", "banner.txt"], bannerFile⟩ (by simp [files])) name
  have h2 := written_iff (files_clean ⟨["configs", "default.yaml"], serverFile⟩ (by simp [files])) name
  have h3 := written_iff (files_clean ⟨["test", "client", "configs", "default.yaml"], clientFile⟩ (by simp [files])) name
  simp only [SourceFile.parts, path_banner, path_server, path_client] at h1 h2 h3
  have d12 : ascii "configs/banner.txt" ≠ ascii "configs/default.yaml" := by decide +kernel
  have d13 : ascii "configs/banner.txt" ≠ ascii "test/client/configs/default.yaml" := by decide +kernel
  have d23 : ascii "configs/default.yaml" ≠ ascii "test/client/configs/default.yaml" := by decide +kernel
  have l1 : bannerBytes.length = 509 := by decide +kernel
  have l2 : serverBytes.length = 385 := by decide +kernel
  have l3 : clientBytes.length = 1673 := by decide +kernel
  simp only [files, List.mem_cons, List.not_mem_nil, or_false, exists_eq_or_imp, exists_eq_left, SourceFile.parts,
    SourceFile.bytes, path_banner, path_server, path_client, h1, h2, h3, banner_file, server_file, client_file, l1, l2, l3]
  unfold findAsset bindata
  rw [banner_data, server_data, client_data]
  generalize canonical name = n
  simp only [List.lookup]
  by_cases e1 : n = ascii "configs/banner.txt"
  · subst e1
    simp [d12, d13, eq_comm]
  · by_cases e2 : n = ascii "configs/default.yaml"
    · subst e2
      simp only [beq_eq_false_iff_ne.2 e1, beq_self_eq_true, e1, d23, false_and, true_and, false_or, or_false,
        Option.getD_some, Option.some.injEq]
      exact eq_comm
    · by_cases e3 : n = ascii "test/client/configs/default.yaml"
      · subst e3
        simp only [beq_eq_false_iff_ne.2 e1, beq_eq_false_iff_ne.2 e2, beq_self_eq_true, e1, e2, false_and, true_and,
          false_or, Option.getD_some, Option.some.injEq]
        exact eq_comm
      · have b1 : (n == ascii "configs/banner.txt") = false := by simpa using e1
        have b2 : (n == ascii "configs/default.yaml") = false := by simpa using e2
        have b3 : (n == ascii "test/client/configs/default.yaml") = false := by simpa using e3
        simp [b1, b2, b3, e1, e2, e3]

/-- Asset returns the content of a file of the repository under the file's path, with slashes or backslashes, and an error
under every other name. -/
theorem C129_found (name : Str) (b : List UInt8) :
    assetBytes name = some b ↔ ∃ f ∈ files, Written name (joined f.parts) ∧ b = f.bytes := by
  unfold assetBytes
  rw [Option.map_eq_some_iff]
  constructor
  · rintro ⟨a, ha, rfl⟩
    obtain ⟨f, hf, hw, rfl⟩ := (findAsset_iff name a).1 ha
    exact ⟨f, hf, hw, rfl⟩
  · rintro ⟨f, hf, hw, rfl⟩
    exact ⟨_, (findAsset_iff name _).2 ⟨f, hf, hw, rfl⟩, rfl⟩

/-- AssetInfo tells the path and the size of what Asset returns, and 0644. -/
theorem C129_info (name : Str) (path : Str) (size mode : Nat) :
    assetInfo name = some (path, size, mode) ↔
      ∃ b, assetBytes name = some b ∧ Written name path ∧ (0x5c : UInt8) ∉ path ∧ size = b.length ∧ mode = 0o644 := by
  unfold assetInfo
  rw [Option.map_eq_some_iff]
  constructor
  · rintro ⟨a, ha, e⟩
    obtain ⟨f, hf, hw, rfl⟩ := (findAsset_iff name a).1 ha
    simp only [Prod.mk.injEq] at e
    obtain ⟨rfl, rfl, rfl⟩ := e
    exact ⟨f.bytes, (C129_found _ _).2 ⟨f, hf, hw, rfl⟩, hw, files_clean f hf, rfl, rfl⟩
  · rintro ⟨b, hb, hw, hc, rfl, rfl⟩
    obtain ⟨f, hf, hw', rfl⟩ := (C129_found _ _).1 hb
    refine ⟨_, (findAsset_iff name _).2 ⟨f, hf, hw', rfl⟩, ?_⟩
    have e : joined f.parts = path := by
      rw [← (written_iff (files_clean f hf) name).1 hw', (written_iff hc name).1 hw]
    rw [e]

/-- AssetNames are the paths of the files. -/
theorem C129_names : assetNames = files.map fun f => joined f.parts := by decide +kernel

/-! ## Directories -/

theorem splitSlash_clean : ∀ {s : Str}, 0x2f ∉ s → splitSlash s = [s] := by
  intro s
  induction s with
  | nil => intro _; rfl
  | cons b s ih =>
    intro h
    rw [splitSlash, if_neg fun e => h (by simp [e]), ih fun e => h (List.mem_cons_of_mem _ e)]

theorem splitSlash_cons : ∀ {s r : Str}, 0x2f ∉ s → splitSlash (s ++ 0x2f :: r) = s :: splitSlash r := by
  intro s r
  induction s with
  | nil => intro _; rw [List.nil_append, splitSlash, if_pos rfl]
  | cons b s ih =>
    intro h
    rw [List.cons_append, splitSlash, if_neg fun e => h (by simp [e]), ih fun e => h (List.mem_cons_of_mem _ e)]

theorem splitSlash_joined : ∀ {ps : List Str}, ps ≠ [] → (∀ p ∈ ps, 0x2f ∉ p) → splitSlash (joined ps) = ps := by
  intro ps
  induction ps with
  | nil => intro h; exact absurd rfl h
  | cons p ps ih =>
    intro _ h
    cases ps with
    | nil => exact splitSlash_clean (h p List.mem_cons_self)
    | cons q qs =>
      rw [joined, splitSlash_cons (h p List.mem_cons_self), ih (by simp) fun x hx => h x (List.mem_cons_of_mem _ hx)]
      simp

/-- Every name is made of parts. -/
theorem has_parts : ∀ (s : Str), ∃ ps : List Str, ps ≠ [] ∧ (∀ p ∈ ps, 0x2f ∉ p) ∧ joined ps = s := by
  intro s
  induction s with
  | nil => exact ⟨[[]], by simp, by simp, rfl⟩
  | cons b s ih =>
    obtain ⟨ps, hne, hp, rfl⟩ := ih
    cases ps with
    | nil => exact absurd rfl hne
    | cons p ps =>
      by_cases hb : b = 0x2f
      · subst hb
        refine ⟨[] :: p :: ps, by simp, ?_, by simp [joined]⟩
        intro q hq
        rcases List.mem_cons.1 hq with rfl | hq
        · simp
        · exact hp q hq
      · refine ⟨(b :: p) :: ps, by simp, ?_, by cases ps <;> simp [joined]⟩
        intro q hq
        rcases List.mem_cons.1 hq with rfl | hq
        · intro hm
          rcases List.mem_cons.1 hm with e | hm
          · exact hb e.symm
          · exact hp p List.mem_cons_self hm
        · exact hp q (List.mem_cons_of_mem _ hq)

/-- The directories there are. -/
def dirTable : List (List Str × List Str) :=
  [([], [ascii "configs", ascii "test"]), ([ascii "configs"], [ascii "banner.txt", ascii "default.yaml"]),
   ([ascii "test"], [ascii "client"]), ([ascii "test", ascii "client"], [ascii "configs"]),
   ([ascii "test", ascii "client", ascii "configs"], [ascii "default.yaml"])]

/-- What a node is for AssetDir. -/
def listing : Option BinTree → Option (List Str)
  | some (.dir cs) => some (cs.map (·.1))
  | _ => none

theorem down_eq (ps : List Str) : listing (binTree.down ps) = dirTable.lookup ps := by
  have n1 : ascii "configs" ≠ ascii "test" := by decide +kernel
  have n2 : ascii "banner.txt" ≠ ascii "default.yaml" := by decide +kernel
  have m1 := beq_eq_false_iff_ne.2 n1.symm
  have m2 := beq_eq_false_iff_ne.2 n2.symm
  have n1 := beq_eq_false_iff_ne.2 n1
  match ps with
  | [] => rfl
  | a :: ps =>
    by_cases ha : a = ascii "configs"
    · subst ha
      match ps with
      | [] => simp [binTree, BinTree.down, BinTree.child, List.lookup, listing, dirTable]
      | b :: ps =>
        have hr : dirTable.lookup (ascii "configs" :: b :: ps) = none := by
          simp [dirTable, List.lookup_cons, n1]
        rw [hr]
        by_cases hb : b = ascii "banner.txt"
        · subst hb; cases ps <;> simp [binTree, BinTree.down, BinTree.child, listing]
        · by_cases hb' : b = ascii "default.yaml"
          · subst hb'; cases ps <;> simp [binTree, BinTree.down, BinTree.child, List.lookup_cons, listing, m2]
          · simp [binTree, BinTree.down, BinTree.child, List.lookup_cons, listing, beq_eq_false_iff_ne.2 hb, beq_eq_false_iff_ne.2 hb']
    · by_cases ha' : a = ascii "test"
      · subst ha'
        match ps with
        | [] => simp [binTree, BinTree.down, BinTree.child, List.lookup_cons, listing, dirTable, m1]
        | b :: ps =>
          by_cases hb : b = ascii "client"
          · subst hb
            match ps with
            | [] => simp [binTree, BinTree.down, BinTree.child, List.lookup_cons, listing, dirTable, m1]
            | c :: ps =>
              by_cases hc : c = ascii "configs"
              · subst hc
                match ps with
                | [] => simp [binTree, BinTree.down, BinTree.child, List.lookup_cons, listing, dirTable, m1]
                | d :: ps =>
                  by_cases hd : d = ascii "default.yaml"
                  · subst hd
                    cases ps <;> simp [binTree, BinTree.down, BinTree.child, List.lookup_cons, listing, dirTable, m1]
                  · simp [binTree, BinTree.down, BinTree.child, List.lookup_cons, listing, dirTable, m1, beq_eq_false_iff_ne.2 hd]
              · simp [binTree, BinTree.down, BinTree.child, List.lookup_cons, listing, dirTable, m1, beq_eq_false_iff_ne.2 hc]
          · simp [binTree, BinTree.down, BinTree.child, List.lookup_cons, listing, dirTable, m1, beq_eq_false_iff_ne.2 hb]
      · simp [binTree, BinTree.down, BinTree.child, List.lookup_cons, listing, dirTable, beq_eq_false_iff_ne.2 ha, beq_eq_false_iff_ne.2 ha']

/-- Directories and what is in them, as the paths of the files have it. -/
def entries : List (List Str × Str) :=
  files.flatMap fun f => (List.range f.parts.length).map fun i => (f.parts.take i, (f.parts[i]?).getD [])

theorem inDir_iff (dir : List Str) (x : Str) : InDir dir x ↔ (dir, x) ∈ entries := by
  unfold InDir entries
  simp only [List.mem_flatMap, List.mem_map, List.mem_range, Prod.mk.injEq]
  constructor
  · rintro ⟨f, hf, rest, e⟩
    refine ⟨f, hf, dir.length, ?_, ?_, ?_⟩
    · rw [e]; simp
    · rw [e]; simp
    · rw [e]; simp
  · rintro ⟨f, hf, i, hi, rfl, rfl⟩
    refine ⟨f, hf, f.parts.drop (i + 1), ?_⟩
    rw [List.getElem?_eq_getElem hi, Option.getD_some, List.getElem_cons_drop, List.take_append_drop]

theorem entries_listed : ∀ e ∈ entries, e.2 ∈ (dirTable.lookup e.1).getD [] := by decide +kernel

theorem listed_entries : ∀ e ∈ dirTable, e.2.Nodup ∧ e.2 ≠ [] ∧ ∀ x ∈ e.2, (e.1, x) ∈ entries := by decide +kernel

theorem dir_lookup_mem {l : List (List Str × List Str)} {k : List Str} {v : List Str} (h : l.lookup k = some v) : (k, v) ∈ l := by
  induction l with
  | nil => simp at h
  | cons e l ih =>
    rw [List.lookup_cons] at h
    cases hb : k == e.1 with
    | true =>
      rw [hb] at h
      have hk : k = e.1 := by simpa using hb
      simp only [Option.some.injEq] at h
      rw [hk, ← h]
      exact List.mem_cons_self
    | false => rw [hb] at h; exact List.mem_cons_of_mem _ (ih h)

theorem joined_clean : ∀ {ps : List Str}, (∀ p ∈ ps, (0x5c : UInt8) ∉ p) → (0x5c : UInt8) ∉ joined ps := by
  intro ps
  induction ps with
  | nil => intro _; simp [joined]
  | cons p ps ih =>
    intro h
    cases ps with
    | nil => exact h p List.mem_cons_self
    | cons q qs =>
      rw [joined]
      · intro hm
        rcases List.mem_append.1 hm with hm | hm
        · exact h p List.mem_cons_self hm
        · rcases List.mem_cons.1 hm with hm | hm
          · exact absurd hm (by decide)
          · exact ih (fun x hx => h x (List.mem_cons_of_mem _ hx)) hm
      · simp

theorem assetDir_eq {name : Str} {ps : List Str} (h : PartsOf name ps) : assetDir name = dirTable.lookup ps := by
  rw [← down_eq]
  have e : (if name = [] then some binTree else binTree.down (splitSlash (canonical name))) = binTree.down ps := by
    rcases h with ⟨rfl, rfl⟩ | ⟨h1, h2, h3, h4⟩
    · rfl
    · rw [if_neg h1, (written_iff (joined_clean fun p hp => (h3 p hp).2) name).1 h4,
        splitSlash_joined h2 fun p hp => (h3 p hp).1]
  unfold assetDir
  rw [e]
  unfold listing
  rfl

/-- AssetDir lists, once each, the files and directories that are directly in a directory; under the name of a file and under
every name of no directory it is an error. -/
theorem C129_dir (name : Str) (ps : List Str) (h : PartsOf name ps) :
    (∀ l, assetDir name = some l → l.Nodup ∧ ∀ x, x ∈ l ↔ InDir ps x) ∧ (assetDir name = none ↔ ∀ x, ¬ InDir ps x) := by
  rw [assetDir_eq h]
  cases hl : dirTable.lookup ps with
  | none =>
    refine ⟨by simp, ?_⟩
    simp only [true_iff]
    intro x hx
    have := entries_listed _ ((inDir_iff ps x).1 hx)
    rw [hl] at this
    simp at this
  | some l =>
    obtain ⟨h1, h2, h3⟩ := listed_entries _ (dir_lookup_mem hl)
    refine ⟨?_, ?_⟩
    · intro l' e
      cases e
      refine ⟨h1, fun x => ⟨fun hx => (inDir_iff ps x).2 (h3 x hx), fun hx => ?_⟩⟩
      have := entries_listed _ ((inDir_iff ps x).1 hx)
      rw [hl] at this
      exact this
    · simp only [reduceCtorEq, false_iff, Classical.not_forall, Classical.not_not]
      obtain ⟨x, hx⟩ := List.exists_mem_of_ne_nil _ h2
      exact ⟨x, (inDir_iff ps x).2 (h3 x hx)⟩

/-- Every name has parts. -/
theorem C129_every_name (name : Str) : ∃ ps, PartsOf name ps := by
  by_cases hn : name = []
  · exact ⟨[], .inl ⟨hn, rfl⟩⟩
  · obtain ⟨ps, h1, h2, h3⟩ := has_parts (canonical name)
    have hc : (0x5c : UInt8) ∉ canonical name := by
      intro hm
      simp only [canonical, List.mem_map] at hm
      obtain ⟨b, _, hb⟩ := hm
      by_cases e : b = 0x5c
      · rw [if_pos e] at hb; exact absurd hb (by decide)
      · rw [if_neg e] at hb; exact e hb
    refine ⟨ps, .inr ⟨hn, h1, fun p hp => ⟨h2 p hp, fun hm => hc ?_⟩, (written_iff (h3 ▸ hc) name).2 h3.symm⟩⟩
    rw [← h3]
    clear h3 hc h1 h2
    induction ps with
    | nil => cases hp
    | cons q ps ih =>
      cases ps with
      | nil => simp only [List.mem_singleton] at hp; subst hp; exact hm
      | cons r rs =>
        rw [joined]
        · rcases List.mem_cons.1 hp with rfl | hp
          · exact List.mem_append_left _ hm
          · exact List.mem_append_right _ (List.mem_cons_of_mem _ (ih hp))
        · simp

-- the directory of the client's configuration, written with a backslash
example : PartsOf (ascii "test\\client") [ascii "test", ascii "client"] :=
  .inr ⟨by decide +kernel, by decide, by decide +kernel, (written_iff (by decide +kernel) _).2 (by decide +kernel)⟩
example : assetDir (ascii "test\\client") = some [ascii "configs"] := by decide +kernel
-- a slash at the end is one too many
example : assetDir (ascii "configs/") = none := by decide +kernel
example : assetBytes (ascii "./configs/default.yaml") = none := by decide +kernel
example : Written (ascii "configs\\default.yaml") (ascii "configs/default.yaml") :=
  (written_iff (by decide +kernel) _).2 (by decide +kernel)

/-! ## What the files say -/

set_option maxRecDepth 100000 in
theorem server_conf : (readYaml serverBytes).bind (·.conf) = some (Startup.demoConf "DEBUG") := by decide +kernel

set_option maxRecDepth 100000 in
theorem client_conf : (readYaml clientBytes).bind (·.conf) =
    some ⟨some (Startup.demoLog "DEBUG"), none, some ⟨some "119.249.51.166:5080", 1, true, some ⟨true, true, true⟩⟩⟩ := by
  decide +kernel

set_option maxRecDepth 100000 in
theorem client_device : (readYaml clientBytes).bind (·.device) = some shippedConf := by decide +kernel

set_option maxRecDepth 100000 in
theorem client_numbers : (readYaml clientBytes).bind (fun y =>
      ["provinceidreg", "cityidreg", "platecolorreg"].mapM fun k => (y.pattern ["client", "device", k]).map fun p => (k, p)) =
    some (shippedNumbers.map fun e => (asString (lowerKey (jsonName e.1)), e.2)) := by decide +kernel

set_option maxRecDepth 100000 in
theorem client_geo : (readYaml clientBytes).bind (fun y => do
      let a ← y.patterns ["client", "devicegeo", "geo"]
      let b ← y.patterns ["client", "devicegeo", "location"]
      let c ← y.patterns ["client", "devicegeo", "drive"]
      return a ++ b ++ c) = some (shippedGeo.map fun e => (jsonName e.1, e.2)) := by decide +kernel

set_option maxRecDepth 100000 in
theorem client_addr : (readYaml clientBytes).bind (fun y => do
      let addr ← y.text ["client", "conn", "remoteaddr"]
      let keepalive ← y.num ["client", "device", "keepalive"]
      let interval ← y.num ["client", "devicegeo", "locationreportinterval"]
      let count ← y.num ["client", "concurrency"]
      return (asString addr, keepalive, interval, count)) = some ("119.249.51.166:5080", 20, 10, 1) := by decide +kernel

/-- What a process makes of a built-in file. -/
def builtIn (path : String) : Option YamlFile := (assetBytes (ascii path)).bind readYaml

theorem builtIn_server : builtIn "configs/default.yaml" = readYaml serverBytes := by
  unfold builtIn
  rw [(C129_found _ serverBytes).2 ⟨⟨["configs", "default.yaml"], serverFile⟩, by simp [files], ?_, ?_⟩]
  · rfl
  · rw [SourceFile.parts, path_server]
    exact (written_iff (by decide +kernel) _).2 (by decide +kernel)
  · exact server_file.symm

theorem builtIn_client : builtIn "test/client/configs/default.yaml" = readYaml clientBytes := by
  unfold builtIn
  rw [(C129_found _ clientBytes).2 ⟨⟨["test", "client", "configs", "default.yaml"], clientFile⟩, by simp [files], ?_, ?_⟩]
  · rfl
  · rw [SourceFile.parts, path_client]
    exact (written_iff (by decide +kernel) _).2 (by decide +kernel)
  · exact client_file.symm

/-- A server started without a configuration file comes up, with terminals on port 8080 and HTTP on port 8008, exactly if both
are free and the directory ./logs/ can be made. -/
theorem C129_starts (w : Startup.World) (h : (builtIn "configs/default.yaml").bind (·.conf) = some w.builtInServer) :
    (Startup.main w "embedded-default-server-config").2 = .up "8080" "8008" ↔
      w.creatable "./logs/" = true ∧ w.free "8080" = true ∧ w.free "8008" = true := by
  rw [builtIn_server, server_conf, Option.some.injEq] at h
  have hn : ∀ conf, Startup.Names w "embedded-default-server-config" conf ↔ conf = Startup.demoConf "DEBUG" := by
    intro conf
    constructor
    · intro hc
      cases hc with
      | server => exact h.symm
      | client hc => exact absurd hc (by decide)
      | file hc => exact absurd rfl hc
    · rintro rfl
      rw [h]
      exact .server rfl
  have hp : Startup.NoPlace w (Startup.demoLog "DEBUG") ↔ w.creatable "./logs/" = false := by
    simp [Startup.NoPlace, Startup.demoLog]
  have hw : writes "DEBUG" .info = true := by decide
  rw [Startup.C118_up_iff]
  constructor
  · rintro ⟨conf, c, p, b, h1, ⟨h2, name, h3⟩, h4, _, _, h5, h6, _⟩
    rw [(hn conf).1 h1] at h2 h3
    simp only [Startup.demoConf, Option.some.injEq] at h2
    subst h2
    refine ⟨?_, h5, h6⟩
    rw [← Bool.not_eq_false]
    intro hf
    exact h4 ⟨hp.2 hf, hw⟩
  · rintro ⟨h1, h2, h3⟩
    refine ⟨_, Startup.demoLog "DEBUG", ⟨"8080", "8081", "8008"⟩, ⟨true, "configs/banner.txt"⟩, (hn _).2 rfl,
      ⟨rfl, "jt808-server-go", rfl⟩, ?_, rfl, rfl, h2, h3, by decide⟩
    rintro ⟨h4, _⟩
    rw [hp.1 h4] at h1
    cases h1

/-- It never comes up elsewhere. -/
theorem C129_ports (w : Startup.World) (h : (builtIn "configs/default.yaml").bind (·.conf) = some w.builtInServer)
    (t u : String) (hu : (Startup.main w "embedded-default-server-config").2 = .up t u) : t = "8080" ∧ u = "8008" := by
  rw [builtIn_server, server_conf, Option.some.injEq] at h
  rw [Startup.C118_up_iff] at hu
  obtain ⟨conf, c, p, b, h1, ⟨h2, name, h3⟩, h4, rfl, rfl, _⟩ := hu
  have e : conf = Startup.demoConf "DEBUG" := by
    cases h1 with
    | server => exact h.symm
    | client hc => exact absurd hc (by decide)
    | file hc => exact absurd rfl hc
  subst e
  simp only [Startup.demoConf, Option.some.injEq, Startup.ServerConf.mk.injEq] at h3
  obtain ⟨_, rfl, _⟩ := h3
  exact ⟨rfl, rfl⟩

/-- The two tables of the decompressor are those of the standard: consecutive ranges, each of as many numbers as its extra bits
can tell apart; the lengths are 3 to 257 with one to five bits added in groups of four, and 258; the distances are 1 to 32768
with one to thirteen bits added in groups of two. -/
theorem C129_deflate_tables :
    (lengthTable.length = 29 ∧ lengthTable[0]? = some (3, 0) ∧ lengthTable[28]? = some (258, 0) ∧
      ∀ i < 27, ∃ b, lengthTable[i]? = some (b, if i < 8 then 0 else i / 4 - 1) ∧
        (lengthTable[i + 1]?).map (·.1) = some (b + 2 ^ (if i < 8 then 0 else i / 4 - 1))) ∧
    (distTable.length = 30 ∧ distTable[0]? = some (1, 0) ∧ distTable[29]? = some (24577, 13) ∧
      ∀ i < 29, ∃ b, distTable[i]? = some (b, if i < 4 then 0 else i / 2 - 1) ∧
        (distTable[i + 1]?).map (·.1) = some (b + 2 ^ (if i < 4 then 0 else i / 2 - 1))) ∧
    (lengthTable[27]?).map (·.2) = some 5 := by
  have h1 : ∀ i < 27, lengthTable[i]? = some ((lengthTable[i]?.map (·.1)).getD 0, if i < 8 then 0 else i / 4 - 1) ∧
      (lengthTable[i + 1]?).map (·.1) =
        some ((lengthTable[i]?.map (·.1)).getD 0 + 2 ^ (if i < 8 then 0 else i / 4 - 1)) := by decide
  have h2 : ∀ i < 29, distTable[i]? = some ((distTable[i]?.map (·.1)).getD 0, if i < 4 then 0 else i / 2 - 1) ∧
      (distTable[i + 1]?).map (·.1) =
        some ((distTable[i]?.map (·.1)).getD 0 + 2 ^ (if i < 4 then 0 else i / 2 - 1)) := by decide
  exact ⟨⟨by decide, by decide, by decide, fun i hi => ⟨_, h1 i hi⟩⟩,
    ⟨by decide, by decide, by decide, fun i hi => ⟨_, h2 i hi⟩⟩, by decide⟩

/-- The tables of the model that were copied from the client's configuration by hand say what is in the file: the device, the
numbers of a registration, the numbers of a position. -/
theorem C129_tables : ∃ y, builtIn "test/client/configs/default.yaml" = some y ∧ y.device = some shippedConf ∧
    (["provinceidreg", "cityidreg", "platecolorreg"].mapM fun k =>
      (y.pattern ["client", "device", k]).map fun p => (k, p)) =
      some (shippedNumbers.map fun e => (asString (lowerKey (jsonName e.1)), e.2)) ∧
    (do let a ← y.patterns ["client", "devicegeo", "geo"]
        let b ← y.patterns ["client", "devicegeo", "location"]
        let c ← y.patterns ["client", "devicegeo", "drive"]
        return a ++ b ++ c) = some (shippedGeo.map fun e => (jsonName e.1, e.2)) := by
  rw [builtIn_client]
  have h1 := client_device
  have h2 := client_numbers
  have h3 := client_geo
  cases hy : readYaml clientBytes with
  | none => rw [hy] at h1; cases h1
  | some y =>
    rw [hy] at h1 h2 h3
    exact ⟨y, rfl, h1, h2, h3⟩

/-- A simulator started with the built-in configuration does not connect to a server started with the built-in configuration:
it dials a fixed address on the internet, at a port that server does not listen at.  It reports every 10 seconds and sends a
heartbeat every 20. -/
theorem C129_dials : ∃ y, builtIn "test/client/configs/default.yaml" = some y ∧
    (y.text ["client", "conn", "remoteaddr"]).map asString = some "119.249.51.166:5080" ∧
    y.num ["client", "device", "keepalive"] = some 20 ∧
    y.num ["client", "devicegeo", "locationreportinterval"] = some 10 ∧ y.num ["client", "concurrency"] = some 1 := by
  rw [builtIn_client]
  have h1 := client_addr
  cases hy : readYaml clientBytes with
  | none => rw [hy] at h1; cases h1
  | some y =>
    rw [hy] at h1
    refine ⟨y, rfl, ?_⟩
    revert h1
    simp only [Option.bind_some]
    cases y.text ["client", "conn", "remoteaddr"] <;> cases y.num ["client", "device", "keepalive"] <;>
      cases y.num ["client", "devicegeo", "locationreportinterval"] <;> cases y.num ["client", "concurrency"] <;> simp

-- a world as in C129_starts
example : (builtIn "configs/default.yaml").bind (·.conf) = some (Startup.demoWorld true []).builtInServer := by
  rw [builtIn_server, server_conf]; rfl

/-- The expressions of the simulator's configuration mean what their patterns in the model make: reading an expression gives a
pattern that makes exactly the texts the expression matches. -/
theorem C129_patterns (r : Re) (h : r.Good) : ∃ p, readPattern r.written = some p ∧ ∀ t, p.Makes t ↔ r.Fits t :=
  readAlternatives_written r h

-- `1[0-7][0-9]|[0-9]{2}`
def demoRe : Re :=
  [[.char 0x31, .cls [.range 0x30 0x37] none, .cls [.range 0x30 0x39] none], [.cls [.range 0x30 0x39] (some [0x32])]]
example : demoRe.written = ascii "1[0-7][0-9]|[0-9]{2}" := by decide +kernel
example : demoRe.Good := by
  refine ⟨by simp [demoRe], ?_⟩
  simp only [demoRe, List.mem_cons, List.not_mem_nil, or_false, forall_eq_or_imp, forall_eq, RePiece.Good, ReItem.Good,
    ClassChar, Option.mem_def, Option.some.injEq, reduceCtorEq, ne_eq, not_false_eq_true, false_imp_iff, implies_true,
    and_true, true_and, forall_eq']
  decide

end JT808
