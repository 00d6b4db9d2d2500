import Verif.Props.VersionArchive

/-!
# C84: the keywords read from the text of version.py (`git_get_keywords`)
-/

namespace Verif.Props.Version
open Verif.Version

/-- a line of the file that defines a variable: some spaces, its name, and its value in quotation marks -/
def assignment (indent : Nat) (name value : Str) : Str :=
  List.replicate indent ' ' ++ name ++ " = \"".toList ++ value ++ "\"\n".toList

/-- the line, without the spaces around it, begins with the name and ` =` -/
def Defines (name line : Str) : Prop := (name ++ " =".toList) <+: strip line

theorem lstrip_spaces (n : Nat) (s : Str) : lstrip (List.replicate n ' ' ++ s) = lstrip s := by
  induction n with
  | zero => simp
  | succ n ih =>
    unfold lstrip at *
    rw [List.replicate_succ, List.cons_append, List.dropWhile_cons, if_pos (by decide), ih]

/-- without the spaces around it -/
theorem strip_assignment (n : Nat) (name value : Str) (h0 : name ≠ []) (hw : ∀ c ∈ name, c.isWhitespace = false) :
    strip (assignment n name value) = name ++ " = \"".toList ++ value ++ ['"'] := by
  have e : strip (assignment n name value) = strip ((name ++ " = \"".toList ++ value ++ ['"']) ++ ['\n']) := by
    unfold strip assignment
    have e1 : List.replicate n ' ' ++ name ++ " = \"".toList ++ value ++ "\"\n".toList =
        List.replicate n ' ' ++ (name ++ " = \"".toList ++ value ++ ['"'] ++ ['\n']) := by simp
    rw [e1, lstrip_spaces]
  rw [e]
  refine strip_of_ends (by simp) ?_ ?_ _ (by simp)
  · intro c hc
    obtain ⟨a, r, rfl⟩ := List.exists_cons_of_ne_nil h0
    simp only [List.cons_append, List.head?_cons, Option.some.injEq] at hc
    exact hw c (by simp [hc])
  · intro c hc
    rw [List.getLast?_append] at hc
    simp at hc
    subst hc
    decide

theorem defines_assignment (n : Nat) (name value : Str) (h0 : name ≠ []) (hw : ∀ c ∈ name, c.isWhitespace = false) :
    Defines name (assignment n name value) := by
  unfold Defines
  rw [strip_assignment n name value h0 hw]
  refine ⟨" \"".toList ++ value ++ ['"'], ?_⟩
  simp

theorem quoted_value (v : Str) (h : '\n' ∉ v) : quoted (v ++ "\"\n".toList) = some v := by
  have e : v ++ "\"\n".toList = (v ++ ['"']) ++ ['\n'] := by simp
  have hv : ∀ c ∈ v ++ ['"'], (c != '\n') = true := by
    intro c hc
    rw [List.mem_append] at hc
    rcases hc with hc | hc
    · simp only [bne_iff_ne, ne_eq]
      rintro rfl
      exact h hc
    · simp at hc; subst hc; decide
  have ht : (v ++ "\"\n".toList).takeWhile (· != '\n') = v ++ ['"'] := by
    rw [e, List.takeWhile_append_of_pos hv]
    simp
  unfold quoted
  rw [ht]
  simp

theorem searchValue_skip {a s : Str} (h : '=' ∉ a) : searchValue (a ++ s) = searchValue s := by
  induction a with
  | nil => rfl
  | cons c a ih =>
    simp only [List.mem_cons, not_or] at h
    rw [List.cons_append, searchValue, if_neg (fun e => h.1 e.symm), ih h.2]

theorem search_assignment (n : Nat) (name value : Str) (he : '=' ∉ name) (h : '\n' ∉ value) :
    searchValue (assignment n name value) = some value := by
  have e : assignment n name value = (List.replicate n ' ' ++ name ++ [' ']) ++ ('=' :: ' ' :: '"' :: (value ++ "\"\n".toList)) := by
    simp [assignment]
  have hs : '=' ∉ List.replicate n ' ' ++ name ++ [' '] := by
    simp only [List.mem_append, not_or]
    refine ⟨⟨?_, he⟩, by decide⟩
    intro h
    have := List.eq_of_mem_replicate h
    exact absurd this (by decide)
  rw [e, searchValue_skip hs, searchValue, if_pos rfl]
  have hd : (' ' :: '"' :: (value ++ "\"\n".toList)).dropWhile Char.isWhitespace = '"' :: (value ++ "\"\n".toList) := by
    rw [List.dropWhile_cons, if_pos (by decide), List.dropWhile_cons, if_neg (by decide)]
  rw [hd]
  simp only [quoted_value value h]

/-- the fold for one keyword -/
theorem keyword_fold (f : Keywords → Option Str) (name : Str)
    (hf : ∀ k line, f ⟨lineValue "git_refnames =".toList line k.refnames, lineValue "git_full =".toList line k.full,
      lineValue "git_date =".toList line k.date⟩ = lineValue name line (f k)) (lines : List Str) (k : Keywords) :
    f (lines.foldl (fun k line => ⟨lineValue "git_refnames =".toList line k.refnames,
      lineValue "git_full =".toList line k.full, lineValue "git_date =".toList line k.date⟩) k) =
      lines.foldl (fun v line => lineValue name line v) (f k) := by
  induction lines generalizing k with
  | nil => rfl
  | cons l ls ih => rw [List.foldl_cons, List.foldl_cons, ih, hf]

theorem lineValue_other (name line : Str) (old : Option Str) (h : ¬ name <+: strip line) : lineValue name line old = old := by
  unfold lineValue
  rw [if_neg]
  intro hp
  exact h (List.isPrefixOf_iff_prefix.mp hp)

theorem fold_other (name : Str) (lines : List Str) (old : Option Str) (h : ∀ l ∈ lines, ¬ name <+: strip l) :
    lines.foldl (fun v line => lineValue name line v) old = old := by
  induction lines generalizing old with
  | nil => rfl
  | cons l ls ih =>
    rw [List.foldl_cons, lineValue_other _ _ _ (h l (by simp)), ih _ (fun x hx => h x (by simp [hx]))]

theorem search_none (s : Str) (h : '"' ∉ s) : searchValue s = none := by
  induction s with
  | nil => rfl
  | cons c s ih =>
    simp only [List.mem_cons, not_or] at h
    rw [searchValue, ih h.2]
    split
    · split
      · next r e =>
        have : '"' ∈ s.dropWhile Char.isWhitespace := by rw [e]; simp
        exact absurd ((List.dropWhile_suffix _).subset this) h.2
      · rfl
    · rfl

theorem fold_kept (name : Str) (lines : List Str) (old : Option Str) (h : ∀ l ∈ lines, name <+: strip l → '"' ∉ l) :
    lines.foldl (fun v line => lineValue name line v) old = old := by
  induction lines generalizing old with
  | nil => rfl
  | cons l ls ih =>
    have : lineValue name l old = old := by
      by_cases hp : name <+: strip l
      · unfold lineValue
        rw [search_none l (h l (by simp) hp)]
        simp
      · exact lineValue_other _ _ _ hp
    rw [List.foldl_cons, this, ih _ (fun x hx => h x (by simp [hx]))]

theorem fold_last (name value : Str) (n : Nat) (before after : List Str) (old : Option Str) (h0 : name ≠ [])
    (hw : ∀ c ∈ name, c.isWhitespace = false) (he : '=' ∉ name) (hv : '\n' ∉ value) (ha : ∀ l ∈ after, Defines name l → '"' ∉ l) :
    (before ++ assignment n name value :: after).foldl (fun v line => lineValue (name ++ " =".toList) line v) old = some value := by
  rw [List.foldl_append, List.foldl_cons]
  have : ∀ o, lineValue (name ++ " =".toList) (assignment n name value) o = some value := by
    intro o
    unfold lineValue
    rw [if_pos (List.isPrefixOf_iff_prefix.mpr (defines_assignment n name value h0 hw)), search_assignment n name value he hv]
  rw [this]
  exact fold_kept _ _ _ ha

/-- the three variables -/
def refnamesVar : Str := "git_refnames".toList
def fullVar : Str := "git_full".toList
def dateVar : Str := "git_date".toList

/-- **C84**: whatever else is in the file, the keywords are the values of the last definitions of the three variables with a string.
(`b`, `a`: the lines before and after a definition.) -/
theorem C84_keywords (lines b1 a1 b2 a2 b3 a3 : List Str) (n1 n2 n3 : Nat) (refnames full date : Str)
    (h1 : lines = b1 ++ assignment n1 refnamesVar refnames :: a1) (h2 : lines = b2 ++ assignment n2 fullVar full :: a2)
    (h3 : lines = b3 ++ assignment n3 dateVar date :: a3)
    (e1 : ∀ l ∈ a1, Defines refnamesVar l → '"' ∉ l) (e2 : ∀ l ∈ a2, Defines fullVar l → '"' ∉ l)
    (e3 : ∀ l ∈ a3, Defines dateVar l → '"' ∉ l)
    (v1 : '\n' ∉ refnames) (v2 : '\n' ∉ full) (v3 : '\n' ∉ date) :
    getKeywords (some lines) = ⟨some refnames, some full, some date⟩ := by
  have r1 : (getKeywords (some lines)).refnames = some refnames := by
    have := fold_last refnamesVar refnames n1 b1 a1 none (by decide) (by decide) (by decide) v1 e1
    rw [← h1] at this
    exact (keyword_fold (·.refnames) _ (fun _ _ => rfl) lines ⟨none, none, none⟩).trans this
  have r2 : (getKeywords (some lines)).full = some full := by
    have := fold_last fullVar full n2 b2 a2 none (by decide) (by decide) (by decide) v2 e2
    rw [← h2] at this
    exact (keyword_fold (·.full) _ (fun _ _ => rfl) lines ⟨none, none, none⟩).trans this
  have r3 : (getKeywords (some lines)).date = some date := by
    have := fold_last dateVar date n3 b3 a3 none (by decide) (by decide) (by decide) v3 e3
    rw [← h3] at this
    exact (keyword_fold (·.date) _ (fun _ _ => rfl) lines ⟨none, none, none⟩).trans this
  have : ∀ k : Keywords, k.refnames = some refnames → k.full = some full → k.date = some date → k = ⟨some refnames, some full, some date⟩ := by
    rintro ⟨a, b, c⟩ ha hb hc
    simp only at ha hb hc
    rw [ha, hb, hc]
  exact this _ r1 r2 r3

/-- **C84 (missing)**: a keyword no line defines is missing; without the one for the references the version is looked for
elsewhere, as it is if the file cannot be opened. -/
theorem C84_missing (lines : Option (List Str)) (pre : Str) (h : ∀ ls, lines = some ls → ∀ l ∈ ls, ¬ Defines refnamesVar l) :
    (getKeywords lines).refnames = none ∧ versionsFromKeywords (getKeywords lines) pre = .error .notThisMethod := by
  have e : (getKeywords lines).refnames = none := by
    cases lines with
    | none => rfl
    | some ls =>
      exact (keyword_fold (·.refnames) _ (fun _ _ => rfl) ls ⟨none, none, none⟩).trans (fold_other _ _ _ (h ls rfl))
  refine ⟨e, ?_⟩
  unfold versionsFromKeywords
  rw [e]

/-- **C84 (repository)**: from lines 23-33 of version.py as they are in the repository: the keywords of `get_keywords`. -/
theorem C84_repository (before after : List Str) (ha : ∀ l ∈ after, ¬ Defines refnamesVar l ∧ ¬ Defines fullVar l ∧ ¬ Defines dateVar l) :
    getKeywords (some (before ++ [assignment 4 refnamesVar "$Format:%d$".toList, assignment 4 fullVar "$Format:%H$".toList,
      assignment 4 dateVar "$Format:%ci$".toList] ++ after)) = repoKeywords := by
  have hd : ∀ (n name value other : Str), n = name ++ " = \"".toList ++ value ++ ['"'] → (other ++ " =".toList).isPrefixOf n = false →
      name ≠ [] → (∀ c ∈ name, c.isWhitespace = false) → ¬ Defines other (assignment 4 name value) := by
    intro n name value other e h h0 hw hdef
    unfold Defines at hdef
    rw [strip_assignment 4 name value h0 hw, ← e] at hdef
    rw [List.isPrefixOf_iff_prefix.mpr hdef] at h
    cases h
  refine C84_keywords _ before ([assignment 4 fullVar "$Format:%H$".toList, assignment 4 dateVar "$Format:%ci$".toList] ++ after)
    (before ++ [assignment 4 refnamesVar "$Format:%d$".toList]) ([assignment 4 dateVar "$Format:%ci$".toList] ++ after)
    (before ++ [assignment 4 refnamesVar "$Format:%d$".toList, assignment 4 fullVar "$Format:%H$".toList]) after
    4 4 4 _ _ _ (by simp) (by simp) (by simp) ?_ ?_ (fun l hl h => absurd h (ha l hl).2.2) (by decide) (by decide) (by decide)
  · intro l hl h
    refine absurd h ?_
    clear h
    simp only [List.cons_append, List.nil_append, List.mem_cons] at hl
    rcases hl with rfl | rfl | hl
    · exact hd _ _ _ _ rfl (by decide) (by decide) (by decide)
    · exact hd _ _ _ _ rfl (by decide) (by decide) (by decide)
    · exact (ha l hl).1
  · intro l hl h
    refine absurd h ?_
    clear h
    simp only [List.cons_append, List.nil_append, List.mem_cons] at hl
    rcases hl with rfl | hl
    · exact hd _ _ _ _ rfl (by decide) (by decide) (by decide)
    · exact (ha l hl).2.1

/-! ### examples -/

/-- the line that names the keywords (version.py:32) -/
def sampleLine : Str := "    keywords = {\"refnames\": git_refnames, \"full\": git_full, \"date\": git_date}\n".toList

theorem sampleLine_other : ¬ Defines refnamesVar sampleLine ∧ ¬ Defines fullVar sampleLine ∧ ¬ Defines dateVar sampleLine := by
  have h : ∀ name, (name ++ " =".toList).isPrefixOf (strip sampleLine) = false → ¬ Defines name sampleLine := by
    intro name h hd
    rw [List.isPrefixOf_iff_prefix.mpr hd] at h
    cases h
  exact ⟨h _ (by decide +kernel), h _ (by decide +kernel), h _ (by decide +kernel)⟩

example : getKeywords (some [assignment 4 refnamesVar " (tag: v1.7.4)".toList, assignment 4 fullVar "deadbeef".toList,
    assignment 4 dateVar "2024-05-06".toList, sampleLine]) = ⟨some " (tag: v1.7.4)".toList, some "deadbeef".toList, some "2024-05-06".toList⟩ := by
  have other : ∀ (name : Str) (line : Str), (name ++ " =".toList).isPrefixOf (strip line) = false → Defines name line → '"' ∉ line := by
    intro name line h hd
    rw [List.isPrefixOf_iff_prefix.mpr hd] at h
    cases h
  refine C84_keywords _ [] _ [assignment 4 refnamesVar " (tag: v1.7.4)".toList] _
    [assignment 4 refnamesVar " (tag: v1.7.4)".toList, assignment 4 fullVar "deadbeef".toList] [sampleLine] 4 4 4 _ _ _ rfl rfl rfl
    ?_ ?_ ?_ (by decide) (by decide) (by decide)
  · intro l hl
    simp only [List.mem_cons, List.not_mem_nil, or_false] at hl
    rcases hl with rfl | rfl | rfl <;> exact other _ _ (by decide +kernel)
  · intro l hl
    simp only [List.mem_cons, List.not_mem_nil, or_false] at hl
    rcases hl with rfl | rfl <;> exact other _ _ (by decide +kernel)
  · intro l hl
    simp only [List.mem_cons, List.not_mem_nil, or_false] at hl
    subst hl
    exact other _ _ (by decide +kernel)

example : getKeywords (some (["def get_keywords():\n".toList] ++ [assignment 4 refnamesVar "$Format:%d$".toList,
    assignment 4 fullVar "$Format:%H$".toList, assignment 4 dateVar "$Format:%ci$".toList] ++ [sampleLine])) = repoKeywords :=
  C84_repository _ _ (by
    intro l hl
    rw [List.mem_singleton] at hl
    subst hl
    exact sampleLine_other)
example : (getKeywords (some [sampleLine])).refnames = none :=
  (C84_missing (some [sampleLine]) ['v'] (by
    intro ls h l hl
    injection h with h
    subst h
    rw [List.mem_singleton] at hl
    subst hl
    exact sampleLine_other.1)).1
example : assignment 4 refnamesVar " (tag: v1.7.4)".toList = "    git_refnames = \" (tag: v1.7.4)\"\n".toList := by decide +kernel

end Verif.Props.Version
