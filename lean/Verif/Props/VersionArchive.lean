import Verif.Props.VersionGit

/-!
# C81: the version of an archive (`git_versions_from_keywords`), C82: what happens without git (`get_versions`)
-/

namespace Verif.Props.Version
open Verif.Version

/-! ### the order of strings -/

theorem strLe_refl (a : Str) : strLe a a = true := by
  induction a with
  | nil => rfl
  | cons c a ih => simp [strLe, ih]

theorem strLe_total (a b : Str) : (strLe a b || strLe b a) = true := by
  induction a generalizing b with
  | nil => simp [strLe]
  | cons c a ih =>
    cases b with
    | nil => simp [strLe]
    | cons d b =>
      unfold strLe
      rcases Nat.lt_trichotomy c.toNat d.toNat with h | h | h
      · simp [h]
      · simpa [h] using ih b
      · simp [h]

theorem strLe_trans (a b c : Str) (h1 : strLe a b = true) (h2 : strLe b c = true) : strLe a c = true := by
  induction a generalizing b c with
  | nil => simp [strLe]
  | cons x a ih =>
    cases b with
    | nil => simp [strLe] at h1
    | cons y b =>
      cases c with
      | nil => simp [strLe] at h2
      | cons z c =>
        unfold strLe at h1 h2 ⊢
        split at h1
        · split at h2
          · rw [if_pos (by omega)]
          · split at h2
            · cases h2
            · rw [if_pos (by omega)]
        · split at h1
          · cases h1
          · split at h2
            · rw [if_pos (by omega)]
            · split at h2
              · cases h2
              · rw [if_neg (by omega), if_neg (by omega)]
                exact ih b c h1 h2

theorem char_of_toNat {c d : Char} (h : c.toNat = d.toNat) : c = d := by
  apply Char.ext
  exact UInt32.toNat_inj.mp h

theorem strLe_antisymm {a b : Str} (h1 : strLe a b = true) (h2 : strLe b a = true) : a = b := by
  induction a generalizing b with
  | nil => cases b with
    | nil => rfl
    | cons y b => simp [strLe] at h2
  | cons x a ih =>
    cases b with
    | nil => simp [strLe] at h1
    | cons y b =>
      unfold strLe at h1 h2
      rcases Nat.lt_trichotomy x.toNat y.toNat with h | h | h
      · rw [if_neg (by omega), if_pos h] at h2; cases h2
      · rw [if_neg (by omega), if_neg (by omega)] at h1 h2
        rw [char_of_toNat h, ih h1 h2]
      · rw [if_neg (by omega), if_pos h] at h1; cases h1

/-- a string does not follow its extensions -/
theorem strLe_append (a b : Str) : strLe a (a ++ b) = true := by
  induction a with
  | nil => rfl
  | cons c a ih => simp [strLe, ih]

/-! ### the tag that is picked -/

/-- a reference that names a version: the prefix and then a digit -/
def VersionTag (pre r v : Str) : Prop := r = pre ++ v ∧ ∃ c t, v = c :: t ∧ c.isDigit

theorem versionTag_iff {pre r : Str} :
    (pre.isPrefixOf r && digitFirst (r.drop pre.length)) = true ↔ VersionTag pre r (r.drop pre.length) := by
  rw [Bool.and_eq_true, List.isPrefixOf_iff_prefix]
  constructor
  · rintro ⟨⟨v, rfl⟩, h⟩
    rw [List.drop_left] at h ⊢
    refine ⟨rfl, ?_⟩
    cases v with
    | nil => cases h
    | cons c t => exact ⟨c, t, rfl, h⟩
  · rintro ⟨h1, c, t, h2, h3⟩
    refine ⟨⟨_, h1.symm⟩, ?_⟩
    rw [h2]
    exact h3

/-- what `find?` gives in a sorted list -/
theorem find_sorted {p : Str → Bool} {l : List Str} {r : Str} (h : (l.mergeSort strLe).find? p = some r) :
    r ∈ l ∧ p r = true ∧ ∀ s ∈ l, p s = true → strLe r s = true := by
  refine ⟨List.mem_mergeSort.mp (List.mem_of_find?_eq_some h), List.find?_some h, fun s hs hps => ?_⟩
  obtain ⟨_, as, bs, e, hnot⟩ := List.find?_eq_some_iff_append.mp h
  have hsort := List.pairwise_mergeSort strLe_trans strLe_total l
  rw [e] at hsort
  have hs' : s ∈ as ++ r :: bs := by rw [← e]; exact List.mem_mergeSort.mpr hs
  rcases List.mem_append.mp hs' with hs' | hs'
  · have := hnot s hs'
    rw [hps] at this
    cases this
  · rcases List.mem_cons.mp hs' with rfl | hs'
    · exact strLe_refl _
    · exact List.rel_of_pairwise_cons (List.pairwise_append.mp hsort).2.1 hs'

theorem find_unsorted_none {p : Str → Bool} {l : List Str} : (l.mergeSort strLe).find? p = none ↔ ∀ s ∈ l, p s = false := by
  rw [List.find?_eq_none]
  simp [List.mem_mergeSort]

/-- the date of an archive -/
def archiveDate (d : Option Str) : Except VErr (Option Str) :=
  match d with
  | none => .ok none
  | some d => (isoDate d).map some

theorem keywords_eq (names full pre : Str) (date iso : Option Str) (hd : archiveDate date = .ok iso)
    (hf : "$Format".toList.isPrefixOf (strip names) = false) :
    versionsFromKeywords ⟨some names, some full, date⟩ pre =
      match ((candidates (strip names)).mergeSort strLe).find? (fun r => pre.isPrefixOf r && digitFirst (r.drop pre.length)) with
      | some r => .ok ⟨r.drop pre.length, some (strip full), some false, none, iso⟩
      | none => .ok ⟨unknownVersion, some (strip full), some false, some "no suitable tags".toList, none⟩ := by
  unfold versionsFromKeywords
  cases date with
  | none =>
    injection hd with hd
    subst hd
    simp only [bind, Except.bind, hf, Bool.false_eq_true, if_false]
    split <;> simp only [*]
  | some d =>
    unfold archiveDate at hd
    simp only at hd
    cases hi : isoDate d with
    | error e => rw [hi] at hd; cases hd
    | ok d' =>
      rw [hi] at hd
      injection hd with hd
      subst hd
      simp only [bind, Except.bind, hi, hf, Bool.false_eq_true, if_false]
      split <;> simp only [*]

/-- **C81 (picked)**: if some candidate names a version, the version of the archive is the first one in the order of strings:
the tag without its prefix. -/
theorem C81_picked (names full pre : Str) (date iso : Option Str) (hd : archiveDate date = .ok iso)
    (hf : "$Format".toList.isPrefixOf (strip names) = false) (h : ∃ r ∈ candidates (strip names), ∃ v, VersionTag pre r v) :
    ∃ v, versionsFromKeywords ⟨some names, some full, date⟩ pre = .ok ⟨v, some (strip full), some false, none, iso⟩ ∧
      pre ++ v ∈ candidates (strip names) ∧ VersionTag pre (pre ++ v) v ∧
      ∀ r ∈ candidates (strip names), ∀ w, VersionTag pre r w → strLe (pre ++ v) (pre ++ w) = true := by
  rw [keywords_eq names full pre date iso hd hf]
  cases hm : ((candidates (strip names)).mergeSort strLe).find? (fun r => pre.isPrefixOf r && digitFirst (r.drop pre.length)) with
  | none =>
    obtain ⟨r, hr, v, hv⟩ := h
    have := find_unsorted_none.mp hm r hr
    rw [Bool.eq_false_iff] at this
    refine absurd (versionTag_iff.mpr ?_) this
    have e : r.drop pre.length = v := by rw [hv.1, List.drop_left]
    rw [e]
    exact hv
  | some r =>
    obtain ⟨h1, h2, h3⟩ := find_sorted hm
    have hv := versionTag_iff.mp h2
    refine ⟨r.drop pre.length, rfl, ?_, ?_, ?_⟩
    · rw [← hv.1]; exact h1
    · exact ⟨rfl, hv.2⟩
    · intro s hs w hw
      rw [← hv.1, ← hw.1]
      refine h3 s hs (versionTag_iff.mpr ?_)
      have e : s.drop pre.length = w := by rw [hw.1, List.drop_left]
      rw [e]
      exact hw

/-- **C81 (final)**: a final release is preferred to its own pre-releases: if the tags of a commit include `v` and `v` with
something after it (`2.0` and `2.0rc1`), the latter is not picked. -/
theorem C81_final (names full pre v ext : Str) (date iso : Option Str) (hd : archiveDate date = .ok iso)
    (hf : "$Format".toList.isPrefixOf (strip names) = false) (hc : pre ++ v ∈ candidates (strip names))
    (hv : VersionTag pre (pre ++ v) v) (he : ext ≠ []) (info : Info)
    (h : versionsFromKeywords ⟨some names, some full, date⟩ pre = .ok info) : info.version ≠ v ++ ext := by
  obtain ⟨w, h1, h2, h3, h4⟩ := C81_picked names full pre date iso hd hf ⟨_, hc, v, hv⟩
  rw [h1] at h
  injection h with h
  subst h
  rintro rfl
  have hle := h4 _ hc v hv
  have hge : strLe (pre ++ v) (pre ++ (v ++ ext)) = true := by
    rw [← List.append_assoc]; exact strLe_append _ _
  have := strLe_antisymm hle hge
  exact he (by simpa using this)

/-- **C81 (none)**: without such a candidate the version is unknown, with the revision and without the date. -/
theorem C81_none (names full pre : Str) (date iso : Option Str) (hd : archiveDate date = .ok iso)
    (hf : "$Format".toList.isPrefixOf (strip names) = false) (h : ∀ r ∈ candidates (strip names), ∀ v, ¬ VersionTag pre r v) :
    versionsFromKeywords ⟨some names, some full, date⟩ pre =
      .ok ⟨"0+unknown".toList, some (strip full), some false, some "no suitable tags".toList, none⟩ := by
  rw [keywords_eq names full pre date iso hd hf]
  have : ((candidates (strip names)).mergeSort strLe).find? (fun r => pre.isPrefixOf r && digitFirst (r.drop pre.length)) = none := by
    rw [find_unsorted_none]
    intro s hs
    rw [Bool.eq_false_iff]
    intro hp
    exact h s hs _ (versionTag_iff.mp hp)
  rw [this]
  rfl

/-! ### the references `git archive` writes -/

/-- a name without commas, parentheses and outer spaces -/
structure RefName (r : Str) : Prop where
  ne : r ≠ []
  comma : ',' ∉ r
  paren : ∀ c ∈ r, isParen c = false
  first : ∀ c, r.head? = some c → c.isWhitespace = false
  last : ∀ c, r.getLast? = some c → c.isWhitespace = false

/-- the names separated by a comma and a space -/
def joined : List Str → Str
  | [] => []
  | [r] => r
  | r :: rs => r ++ ',' :: ' ' :: joined rs

/-- `%d`: ` (HEAD -> main, tag: v1.2, origin/main)` -/
def decoration (refs : List Str) : Str := ' ' :: '(' :: joined refs ++ [')']

theorem splitChar_none {c : Char} {s : Str} (h : c ∉ s) : splitChar c s = [s] := by
  induction s with
  | nil => rfl
  | cons x s ih =>
    rw [List.mem_cons, not_or] at h
    rw [splitChar, if_neg (fun e => h.1 e.symm), ih h.2]

theorem splitChar_append {c : Char} {a : Str} (b : Str) (h : c ∉ a) : splitChar c (a ++ c :: b) = a :: splitChar c b := by
  induction a with
  | nil => simp [splitChar]
  | cons x a ih =>
    rw [List.mem_cons, not_or] at h
    rw [List.cons_append, splitChar, if_neg (fun e => h.1 e.symm), ih h.2]

theorem strip_ref {r : Str} (h : RefName r) : strip r = r ∧ strip (' ' :: r) = r := by
  have e : strip r = r := by simpa using strip_of_ends h.ne h.first h.last [] (by simp)
  refine ⟨e, ?_⟩
  have : lstrip (' ' :: r) = lstrip r := by
    unfold lstrip
    rw [List.dropWhile_cons, if_pos (by decide)]
  unfold strip at e ⊢
  rw [this]
  exact e

theorem split_joined {refs : List Str} (h : ∀ r ∈ refs, RefName r) (h0 : refs ≠ []) (sp : Str) (hs : sp = [] ∨ sp = [' ']) :
    (splitChar ',' (sp ++ joined refs)).map strip = refs := by
  have hst : ∀ r, RefName r → strip (sp ++ r) = r := by
    intro r hr
    rcases hs with rfl | rfl
    · exact (strip_ref hr).1
    · exact (strip_ref hr).2
  have hc : ∀ r, RefName r → ',' ∉ sp ++ r := by
    intro r hr hm
    rcases List.mem_append.mp hm with hm | hm
    · rcases hs with rfl | rfl
      · cases hm
      · exact absurd hm (by decide)
    · exact hr.comma hm
  induction refs generalizing sp with
  | nil => exact absurd rfl h0
  | cons r rs ih =>
    have hr := h r (by simp)
    cases rs with
    | nil =>
      rw [joined, splitChar_none (hc r hr)]
      simp [hst r hr]
    | cons q rs =>
      have e : sp ++ joined (r :: q :: rs) = (sp ++ r) ++ ',' :: ([' '] ++ joined (q :: rs)) := by simp [joined]
      rw [e, splitChar_append _ (hc r hr), List.map_cons, hst r hr]
      have hst' : ∀ r, RefName r → strip ([' '] ++ r) = r := fun r hr => (strip_ref hr).2
      have hc' : ∀ r, RefName r → ',' ∉ [' '] ++ r := by
        intro r hr hm
        rcases List.mem_append.mp hm with hm | hm
        · exact absurd hm (by decide)
        · exact hr.comma hm
      rw [ih (fun x hx => h x (List.mem_cons_of_mem _ hx)) (by simp) [' '] (Or.inr rfl) hst' hc']

theorem joined_paren {refs : List Str} (h : ∀ r ∈ refs, RefName r) : ∀ c ∈ joined refs, isParen c = false := by
  induction refs with
  | nil => intro c hc; cases hc
  | cons r rs ih =>
    cases rs with
    | nil => exact (h r (by simp)).paren
    | cons q rs =>
      intro c hc
      rw [joined] at hc
      · rcases List.mem_append.mp hc with hc | hc
        · exact (h r (by simp)).paren c hc
        · rcases List.mem_cons.mp hc with rfl | hc
          · decide
          · rcases List.mem_cons.mp hc with rfl | hc
            · decide
            · exact ih (fun x hx => h x (List.mem_cons_of_mem _ hx)) c hc
      · simp

theorem stripParens_decoration {s : Str} (h : ∀ c ∈ s, isParen c = false) (h0 : s ≠ []) : stripParens ('(' :: s ++ [')']) = s := by
  obtain ⟨c, r, rfl⟩ := List.exists_cons_of_ne_nil h0
  unfold stripParens
  have e1 : ('(' :: (c :: r) ++ [')']).dropWhile isParen = c :: r ++ [')'] := by
    rw [List.cons_append, List.dropWhile_cons, if_pos (by decide), List.cons_append, List.dropWhile_cons, if_neg (by simp [h c (by simp)])]
  rw [e1, List.reverse_append]
  have e2 : ([')'].reverse ++ (c :: r).reverse).dropWhile isParen = (c :: r).reverse := by
    refine (takeWhile_prefix (by simp; decide) (fun d hd => h d ?_)).2
    rw [List.head?_reverse] at hd
    exact List.mem_of_getLast? hd
  rw [e2, List.reverse_reverse]

theorem strip_decoration (refs : List Str) : strip (decoration refs) = '(' :: joined refs ++ [')'] := by
  have e : lstrip (decoration refs) = '(' :: joined refs ++ [')'] := by
    unfold lstrip decoration
    rw [List.cons_append, List.dropWhile_cons, if_pos (by decide), List.cons_append, List.dropWhile_cons, if_neg (by decide)]
  unfold strip
  rw [e]
  have : lstrip ('(' :: joined refs ++ [')']).reverse = ('(' :: joined refs ++ [')']).reverse := by
    rw [List.reverse_append]
    unfold lstrip
    rw [List.reverse_singleton, List.singleton_append, List.dropWhile_cons, if_neg (by decide)]
  rw [this, List.reverse_reverse]

/-- **C81 (candidates)**: the candidates of the references of a commit are the tags; if there are none, the references with a
digit. -/
theorem C81_candidates (refs : List Str) (h : ∀ r ∈ refs, RefName r) (h0 : refs ≠ []) :
    "$Format".toList.isPrefixOf (strip (decoration refs)) = false ∧
    ((∀ t, "tag: ".toList ++ t ∉ refs) → candidates (strip (decoration refs)) = refs.filter (·.any Char.isDigit)) ∧
    ((∃ t, "tag: ".toList ++ t ∈ refs) → ∀ t, t ∈ candidates (strip (decoration refs)) ↔ "tag: ".toList ++ t ∈ refs) := by
  have hj : joined refs ≠ [] := by
    cases refs with
    | nil => exact absurd rfl h0
    | cons r rs =>
      have := (h r (by simp)).ne
      cases rs with
      | nil => exact this
      | cons q rs => simp [joined]
  have hs : (splitChar ',' (stripParens (strip (decoration refs)))).map strip = refs := by
    rw [strip_decoration, stripParens_decoration (joined_paren h) hj]
    exact split_joined h h0 [] (Or.inl rfl)
  have hmem : ∀ t, t ∈ (refs.filter (tagMark.isPrefixOf ·)).map (·.drop tagMark.length) ↔ tagMark ++ t ∈ refs := by
    intro t
    rw [List.mem_map]
    constructor
    · rintro ⟨r, hr, rfl⟩
      rw [List.mem_filter, List.isPrefixOf_iff_prefix] at hr
      obtain ⟨hr, u, rfl⟩ := hr
      rw [List.drop_left]
      exact hr
    · intro hr
      refine ⟨tagMark ++ t, ?_, List.drop_left⟩
      rw [List.mem_filter, List.isPrefixOf_iff_prefix]
      exact ⟨hr, List.prefix_append _ _⟩
  refine ⟨?_, ?_, ?_⟩
  · rw [strip_decoration]
    rfl
  · intro ht
    unfold candidates
    simp only [hs]
    rw [if_pos]
    rw [List.eq_nil_iff_forall_not_mem]
    intro t hm
    exact ht t ((hmem t).mp hm)
  · rintro ⟨t0, ht0⟩ t
    unfold candidates
    simp only [hs]
    rw [if_neg]
    · exact hmem t
    · intro e
      have := (hmem t0).mpr ht0
      rw [e] at this
      cases this

/-- **C81 (release)**: an archive of a commit with exactly one version tag, `vTAG`, has the version TAG, whatever else points
to the commit. -/
theorem C81_release (refs : List Str) (full pre v : Str) (date iso : Option Str) (hd : archiveDate date = .ok iso)
    (h : ∀ r ∈ refs, RefName r) (ht : "tag: ".toList ++ (pre ++ v) ∈ refs) (hv : VersionTag pre (pre ++ v) v)
    (hu : ∀ w, "tag: ".toList ++ (pre ++ w) ∈ refs → VersionTag pre (pre ++ w) w → w = v) :
    versionsFromKeywords ⟨some (decoration refs), some full, date⟩ pre = .ok ⟨v, some (strip full), some false, none, iso⟩ := by
  have h0 : refs ≠ [] := List.ne_nil_of_mem ht
  obtain ⟨hf, _, hc⟩ := C81_candidates refs h h0
  have hc := hc ⟨_, ht⟩
  obtain ⟨w, h1, h2, h3, _⟩ := C81_picked (decoration refs) full pre date iso hd hf ⟨_, (hc _).mpr ht, v, hv⟩
  rw [h1, hu w ((hc _).mp h2) h3]

/-- **C81 (negation)**: with several version tags at the same commit the latest is not picked: of `v` and `v` with something
after it, such as 1.9 and 1.9.1, it is always `v`. -/
theorem C81_negation_latest (refs : List Str) (full pre v ext : Str) (date iso : Option Str) (hd : archiveDate date = .ok iso)
    (h : ∀ r ∈ refs, RefName r) (ht : "tag: ".toList ++ (pre ++ v) ∈ refs) (hv : VersionTag pre (pre ++ v) v) (he : ext ≠ [])
    (hu : ∀ w, "tag: ".toList ++ (pre ++ w) ∈ refs → VersionTag pre (pre ++ w) w → w = v ∨ w = v ++ ext) :
    versionsFromKeywords ⟨some (decoration refs), some full, date⟩ pre = .ok ⟨v, some (strip full), some false, none, iso⟩ := by
  have h0 : refs ≠ [] := List.ne_nil_of_mem ht
  obtain ⟨hf, _, hc⟩ := C81_candidates refs h h0
  have hc := hc ⟨_, ht⟩
  obtain ⟨w, h1, h2, h3, _⟩ := C81_picked (decoration refs) full pre date iso hd hf ⟨_, (hc _).mpr ht, v, hv⟩
  rcases hu w ((hc _).mp h2) h3 with rfl | rfl
  · exact h1
  · exact absurd rfl (C81_final (decoration refs) full pre v ext date iso hd hf ((hc _).mpr ht) hv he _ h1)

/-! ### without git -/

/-- the places tried: the root, its parent and the parent of that -/
theorem parentdir_three (pre : Str) (root : List Str) (h1 : pre.isPrefixOf (basename root) = false)
    (h2 : pre.isPrefixOf (basename root.dropLast) = false) (h3 : pre.isPrefixOf (basename root.dropLast.dropLast) = false) :
    versionsFromParentdir pre root = .error .notThisMethod := by
  simp [versionsFromParentdir, fromParentdir, h1, h2, h3]

/-- **C82 (no git)**: an unpacked source archive without git (keywords not replaced): unless one of three directories begins
with `None`, the version is unknown. -/
theorem C82_no_git (path : List Str) (exec : List Str → Str → List Str → Exec) (top name : Str)
    (hg : ∀ root args out, exec root "git".toList args ≠ .ran out 0)
    (h1 : "None".toList.isPrefixOf name = false) (h2 : "None".toList.isPrefixOf top = false)
    (h3 : "None".toList.isPrefixOf (basename path) = false) :
    getVersions repoKeywords (some (path ++ [top, name, "geotiepoints".toList, "version.py".toList])) exec =
      .ok ⟨"0+unknown".toList, none, none, some "unable to compute version".toList, none⟩ := by
  have hroot : (splitChar '/' repoConfig.versionfileSource).foldl (fun r _ => r.dropLast)
      (path ++ [top, name, "geotiepoints".toList, "version.py".toList]) = path ++ [top, name] := by
    have : splitChar '/' repoConfig.versionfileSource = ["geotiepoints".toList, "version.py".toList] := by decide
    rw [this]
    simp
  have hrun : ∀ root args, (runCommand (exec root) ["git".toList] args).2 ≠ some 0 := by
    intro root args
    unfold runCommand
    split
    · simp [runCommand]
    · simp
    · next out rc he =>
      by_cases h : rc = 0
      · subst h; exact absurd he (hg root args out)
      · simp [h]
  unfold getVersions getVersionsWith
  rw [repo_keywords]
  simp only [orElse, hroot]
  have hv : piecesFromVcs repoConfig.tagPrefix (fun args => runCommand (exec (path ++ [top, name])) ["git".toList] args)
      = .error .notThisMethod := by
    unfold piecesFromVcs
    have := hrun (path ++ [top, name]) ["rev-parse".toList, "--git-dir".toList]
    simp only [ne_eq, this, not_false_eq_true, if_true]
  have e1 : path ++ [top, name] = (path ++ [top]) ++ [name] := by simp
  have hp : versionsFromParentdir repoConfig.parentdirPrefix (path ++ [top, name]) = .error .notThisMethod := by
    have hpre : repoConfig.parentdirPrefix = "None".toList := rfl
    apply parentdir_three <;> rw [hpre, e1]
    · simpa [basename, List.getLastD_concat] using h1
    · rw [List.dropLast_concat]
      simpa [basename, List.getLastD_concat] using h2
    · rw [List.dropLast_concat, List.dropLast_concat]
      exact h3
  rw [hv, hp]
  simp only [bind, Except.bind]
  rw [if_pos (by decide)]
  rfl

example : getVersions repoKeywords (some ["home".toList, "user".toList, "python-geotiepoints-1.7.4".toList, "geotiepoints".toList,
      "version.py".toList]) (fun _ _ _ => .missing) =
    .ok ⟨"0+unknown".toList, none, none, some "unable to compute version".toList, none⟩ :=
  C82_no_git ["home".toList] (fun _ _ _ => .missing) "user".toList "python-geotiepoints-1.7.4".toList (by simp) (by decide) (by decide) (by decide)

/-- **C82 (negation)**: the version in the name of the directory is not found: the prefix of the configuration is the string
"None", not the name of the project.  Unpacked as `python-geotiepoints-VERSION` the package has the version 0+unknown. -/
theorem C82_negation_parentdir (exec : List Str → Str → List Str → Exec) (version : Str)
    (hg : ∀ root args out, exec root "git".toList args ≠ .ran out 0) :
    (getVersions repoKeywords (some ["home".toList, "src".toList, "python-geotiepoints-".toList ++ version, "geotiepoints".toList,
      "version.py".toList]) exec).map (·.version) = .ok "0+unknown".toList := by
  have := C82_no_git ["home".toList] exec "src".toList ("python-geotiepoints-".toList ++ version) hg rfl (by decide) (by decide)
  simp only [List.singleton_append] at this
  rw [this]
  rfl

/-- with a prefix that is the name of the project it would be found -/
theorem parentdir_found (pre version : Str) (path : List Str) :
    versionsFromParentdir pre (path ++ [pre ++ version]) = .ok ⟨version, none, some false, none, none⟩ := by
  have e : basename (path ++ [pre ++ version]) = pre ++ version := by simp [basename]
  have hp : pre.isPrefixOf (pre ++ version) = true := List.isPrefixOf_iff_prefix.mpr (List.prefix_append _ _)
  unfold versionsFromParentdir fromParentdir
  rw [e, if_pos hp, List.drop_left]

/-- **C82 (frozen)**: without a file name the version is unknown. -/
theorem C82_no_file (exec : List Str → Str → List Str → Exec) :
    getVersions repoKeywords none exec = .ok ⟨"0+unknown".toList, none, none, some "unable to find root of source tree".toList, none⟩ := by
  unfold getVersions getVersionsWith
  rw [repo_keywords]
  rfl

/-! ### errors -/

theorem lastLine_ok {s : Str} (h : s ≠ []) : ∃ l, lastLine s = .ok l := by
  have : ∀ (s acc : Str), s ≠ [] ∨ acc ≠ [] → linesAux acc s ≠ [] := by
    intro s
    induction s with
    | nil => intro acc h; simp at h; simp [linesAux, h]
    | cons c s ih =>
      intro acc _
      rw [linesAux]
      split
      · simp
      · exact ih _ (Or.inr (by simp))
  have h1 := this s [] (Or.inl h)
  refine ⟨(linesAux [] s).getLast h1, ?_⟩
  unfold lastLine
  rw [List.getLast?_eq_some_getLast h1]

theorem parts_error {p : Pieces} {pre out gd : Str} {count : Option Str} {e : VErr} (h : parseParts p pre out gd count = .error e) :
    e = .attributeError ∧ count = none := by
  unfold parseParts at h
  split at h
  · split at h
    · cases h
    · split at h <;> cases h
  · cases count with
    | none =>
      injection h with h
      exact ⟨h.symm, rfl⟩
    | some o => cases h

theorem parse_error {p : Pieces} {pre out : Str} {count : Option Str} {e : VErr} (h : parseDescribe p pre out count = .error e) :
    e = .attributeError ∧ count = none := parts_error h

theorem branch_error {a b : Option Str × Option Int} {e : VErr} (h : branchName a b = .error e) : e = .notThisMethod := by
  unfold branchName at h
  repeat' first | split at h | (dsimp only at h; split at h)
  all_goals first
    | cases h; done
    | (injection h with h; exact h.symm)

/-- the style of the configuration always renders -/
theorem render_total (p : Pieces) : ∃ info, render p repoConfig.style = .ok info := by
  have h : renderStyle p repoConfig.style = .ok (renderPep440 p) := by
    have : repoConfig.style = "pep440".toList := rfl
    unfold renderStyle
    rw [this]
    simp
  unfold render
  cases p.error with
  | some e => exact ⟨_, rfl⟩
  | none =>
    rw [h]
    exact ⟨_, rfl⟩

/-- **C82 (total)**: `get_versions` returns if, in the root of the source tree, `git show` prints a date and `git rev-list` does
not fail. -/
theorem C82_total_partial (file : Option (List Str)) (exec : List Str → Str → List Str → Exec)
    (hs : ∀ path, file = some path → ∃ d, strip d ≠ [] ∧
      (runCommand (exec path.dropLast.dropLast) ["git".toList] ["show".toList, "-s".toList, "--format=%ci".toList, "HEAD".toList]).1 = some d)
    (hl : ∀ path, file = some path → ∃ o,
      (runCommand (exec path.dropLast.dropLast) ["git".toList] ["rev-list".toList, "HEAD".toList, "--left-right".toList]).1 = some o) :
    ∃ info, getVersions repoKeywords file exec = .ok info := by
  cases file with
  | none => exact ⟨_, C82_no_file exec⟩
  | some path =>
    have hroot : (splitChar '/' repoConfig.versionfileSource).foldl (fun r _ => r.dropLast) path = path.dropLast.dropLast := by
      have : splitChar '/' repoConfig.versionfileSource = ["geotiepoints".toList, "version.py".toList] := by decide
      rw [this]; rfl
    obtain ⟨d, hd, hd'⟩ := hs path rfl
    obtain ⟨o, ho⟩ := hl path rfl
    have hlast : ∃ info, orElse (if repoConfig.parentdirPrefix ≠ [] then versionsFromParentdir repoConfig.parentdirPrefix path.dropLast.dropLast
        else .error .notThisMethod)
        (.ok ⟨unknownVersion, none, none, some "unable to compute version".toList, none⟩) = .ok info := by
      have : ∀ n root, (∃ info, fromParentdir repoConfig.parentdirPrefix n root = .ok info) ∨
          fromParentdir repoConfig.parentdirPrefix n root = .error .notThisMethod := by
        intro n
        induction n with
        | zero => intro root; exact Or.inr rfl
        | succ n ih =>
          intro root
          rw [fromParentdir]
          split
          · exact Or.inl ⟨_, rfl⟩
          · exact ih _
      rw [if_pos (by decide)]
      unfold versionsFromParentdir
      rcases this 3 path.dropLast.dropLast with ⟨info, h⟩ | h
      · rw [h]; exact ⟨_, rfl⟩
      · rw [h]; exact ⟨_, rfl⟩
    have hv : (∃ p, piecesFromVcs repoConfig.tagPrefix (fun args => runCommand (exec path.dropLast.dropLast) ["git".toList] args) = .ok p) ∨
        piecesFromVcs repoConfig.tagPrefix (fun args => runCommand (exec path.dropLast.dropLast) ["git".toList] args)
          = .error .notThisMethod := by
      unfold piecesFromVcs
      simp only [hd', ho]
      split
      · exact Or.inr rfl
      · split
        · exact Or.inr rfl
        · split
          · exact Or.inr rfl
          · simp only [bind, Except.bind]
            split
            · next e he => rw [branch_error he]; exact Or.inr rfl
            · split
              · next e he => exact absurd (parse_error he).2 (by simp)
              · split
                · exact Or.inl ⟨_, rfl⟩
                · obtain ⟨l, hl⟩ := lastLine_ok hd
                  unfold isoDate
                  simp only [hl, bind, Except.bind]
                  exact Or.inl ⟨_, rfl⟩
    unfold getVersions getVersionsWith
    rw [repo_keywords]
    simp only [orElse, hroot] at hlast ⊢
    rcases hv with ⟨p, hp⟩ | hp
    · obtain ⟨info, hi⟩ := render_total p
      rw [hp]
      simp only [bind, Except.bind, hi]
      exact ⟨_, rfl⟩
    · rw [hp]
      exact hlast

/-- **C82 (negation)**: `get_versions` can raise, although its last resort is meant to be an unknown version: if git answers
everything but `git show`, there is an AttributeError, and importing the package fails with it. -/
theorem C82_negation_raises (path : List Str) :
    ∃ exec : List Str → Str → List Str → Exec, getVersions repoKeywords (some path) exec = .error .attributeError := by
  refine ⟨fun _ _ args => if args.head? = some "show".toList then .ran [] 128 else
    if args = ["rev-parse".toList, "--abbrev-ref".toList, "HEAD".toList] then .ran "main".toList 0 else .ran "v1.7.4-0-gabc".toList 0, ?_⟩
  unfold getVersions getVersionsWith
  rw [repo_keywords]
  simp only [orElse]
  have h : piecesFromVcs repoConfig.tagPrefix (fun args => runCommand (fun _ args =>
      if args.head? = some "show".toList then .ran [] 128 else
      if args = ["rev-parse".toList, "--abbrev-ref".toList, "HEAD".toList] then .ran "main".toList 0
      else .ran "v1.7.4-0-gabc".toList 0) ["git".toList] args) = .error .attributeError := by decide
  rw [h]
  rfl

/-! ### examples -/

theorem sample_ref (r : Str) (h1 : r ≠ []) (h2 : ',' ∉ r) (h3 : ∀ c ∈ r, isParen c = false)
    (h4 : r.head?.all (fun c => !c.isWhitespace) = true) (h5 : r.getLast?.all (fun c => !c.isWhitespace) = true) : RefName r :=
  ⟨h1, h2, h3, fun c hc => by rw [hc] at h4; simpa using h4, fun c hc => by rw [hc] at h5; simpa using h5⟩

theorem sample_refs : ∀ r ∈ ["HEAD -> main".toList, "tag: v1.7.4".toList, "tag: stable".toList, "origin/v2.0".toList], RefName r := by
  intro r hr
  simp only [List.mem_cons, List.not_mem_nil, or_false] at hr
  rcases hr with rfl | rfl | rfl | rfl <;> exact sample_ref _ (by decide) (by decide) (by decide) (by decide) (by decide)

example (info : Info) (h : versionsFromKeywords ⟨some " (tag: v1.8, tag: v1.8rc1)".toList, some "deadbeef".toList, none⟩ "v".toList = .ok info) :
    info.version ≠ "1.8rc1".toList :=
  C81_final _ _ "v".toList "1.8".toList "rc1".toList none none rfl (by decide +kernel) (by decide +kernel) ⟨rfl, '1', ".8".toList, rfl, by decide⟩
    (by decide) info h

example := C81_picked " (tag: v1.9, tag: stable, tag: v1.10)".toList "deadbeef".toList "v".toList none none rfl (by decide +kernel)
  ⟨"v1.9".toList, by decide +kernel, "1.9".toList, rfl, '1', ".9".toList, rfl, by decide⟩

example : versionsFromKeywords ⟨some " (HEAD -> main, tag: v1.7.4, tag: stable, origin/v2.0)".toList, some "deadbeef".toList, none⟩ "v".toList =
    .ok ⟨"1.7.4".toList, some "deadbeef".toList, some false, none, none⟩ := by
  have h := C81_release ["HEAD -> main".toList, "tag: v1.7.4".toList, "tag: stable".toList, "origin/v2.0".toList] "deadbeef".toList "v".toList
    "1.7.4".toList none none rfl sample_refs (by decide) ⟨rfl, '1', ".7.4".toList, rfl, by decide⟩ (by
      intro w hw ⟨_, c, t, hc, hcd⟩
      subst hc
      simp at hw
      rcases hw with ⟨rfl, rfl⟩
      rfl)
  have e : strip "deadbeef".toList = "deadbeef".toList := by decide
  rw [e] at h
  exact h

example : (versionsFromKeywords ⟨some " (tag: v1.9.1, tag: v1.9)".toList, some "deadbeef".toList, none⟩ "v".toList).map (·.version) =
    .ok "1.9".toList := by
  have h := C81_negation_latest ["tag: v1.9.1".toList, "tag: v1.9".toList] "deadbeef".toList "v".toList
    "1.9".toList ".1".toList none none rfl (by
      intro r hr
      simp only [List.mem_cons, List.not_mem_nil, or_false] at hr
      rcases hr with rfl | rfl <;> exact sample_ref _ (by decide) (by decide) (by decide) (by decide) (by decide))
    (by decide) ⟨rfl, '1', ".9".toList, rfl, by decide⟩ (by decide) (by
      intro w hw ⟨_, c, t, hc, hcd⟩
      subst hc
      simp at hw
      rcases hw with ⟨rfl, rfl⟩ | ⟨rfl, rfl⟩
      · exact Or.inr rfl
      · exact Or.inl rfl)
  have e : (" (tag: v1.9.1, tag: v1.9)".toList : Str) = decoration ["tag: v1.9.1".toList, "tag: v1.9".toList] := by decide
  rw [e, h]
  rfl

example : versionsFromKeywords ⟨some " (HEAD -> main, develop)".toList, some "deadbeef".toList, some "2024-05-06 07:08:09 +0200".toList⟩ "v".toList =
    .ok ⟨"0+unknown".toList, some "deadbeef".toList, some false, some "no suitable tags".toList, none⟩ := by
  have hr : ∀ r ∈ ["HEAD -> main".toList, "develop".toList], RefName r := by
    intro r hr
    simp only [List.mem_cons, List.not_mem_nil, or_false] at hr
    rcases hr with rfl | rfl <;> exact sample_ref _ (by decide) (by decide) (by decide) (by decide) (by decide)
  obtain ⟨h1, h2, _⟩ := C81_candidates ["HEAD -> main".toList, "develop".toList] hr (by decide)
  have h2 := h2 (by intro t; simp)
  have h := C81_none (decoration ["HEAD -> main".toList, "develop".toList]) "deadbeef".toList "v".toList
    (some "2024-05-06 07:08:09 +0200".toList) (some "2024-05-06T07:08:09+0200".toList) rfl h1 (by
      have e : (["HEAD -> main".toList, "develop".toList] : List Str).filter (·.any Char.isDigit) = [] := by decide
      rw [h2, e]
      simp)
  exact h

example : (getVersions repoKeywords (some ["home".toList, "src".toList, "python-geotiepoints-1.7.4".toList, "geotiepoints".toList,
    "version.py".toList]) (fun _ _ _ => .missing)).map (·.version) = .ok "0+unknown".toList :=
  C82_negation_parentdir (fun _ _ _ => .missing) "1.7.4".toList (by intros; simp)

example : ∃ info, getVersions repoKeywords (some ["src".toList, "geotiepoints".toList, "version.py".toList]) sampleGit = .ok info :=
  C82_total_partial _ _ (by
      rintro path h
      injection h with h
      subst h
      exact ⟨"2024-05-06 07:08:09 +0200".toList, by decide, by decide⟩) (by
      rintro path h
      injection h with h
      subst h
      exact ⟨"deadbeef".toList, by decide⟩)

end Verif.Props.Version
