import Verif.Props.VersionStyles
import Verif.Props.VersionArchive

/-!
# C80, C82, C83: the branch, the parent directories, versions of changed working trees
-/

namespace Verif.Props.Version
open Verif.Version
open Verif.Spec.Version (IsVersion IsPublic Num Segment Dotted value)

/-! ### the branch -/

/-- **C80 (branch)**: the name git reports for HEAD is the branch. -/
theorem C80_branch_named (name : Str) (contains : Option Str × Option Int) (h0 : name ≠ [])
    (hw : ∀ c ∈ name, c.isWhitespace = false) (hh : name ≠ "HEAD".toList) :
    branchName (some name, some 0) contains = .ok (some name) := by
  unfold branchName
  simp only [(strip_line h0 hw).2, if_neg hh]

/-- the lines after the first one of `git branch --contains`: two characters, then the name of a branch -/
def branchLines : List (Char × Char × Str) → Str
  | [] => []
  | (a, b, name) :: rest => '\n' :: a :: b :: name ++ branchLines rest

theorem split_lines (first : Str) (l : List (Char × Char × Str)) (hf : '\n' ∉ first)
    (hl : ∀ x ∈ l, x.1 ≠ '\n' ∧ x.2.1 ≠ '\n' ∧ '\n' ∉ x.2.2) :
    splitChar '\n' (first ++ branchLines l) = first :: l.map (fun x => x.1 :: x.2.1 :: x.2.2) := by
  induction l generalizing first with
  | nil => simpa [branchLines] using splitChar_none hf
  | cons x l ih =>
    obtain ⟨a, b, name⟩ := x
    obtain ⟨ha, hb, hn⟩ := hl _ (List.mem_cons_self ..)
    have e : first ++ branchLines ((a, b, name) :: l) = first ++ '\n' :: ((a :: b :: name) ++ branchLines l) := by
      simp [branchLines]
    have hn' : '\n' ∉ a :: b :: name := by
      simp only [List.mem_cons, not_or]
      exact ⟨fun h => ha h.symm, fun h => hb h.symm, hn⟩
    rw [e, splitChar_append _ hf, ih (a :: b :: name) hn' (fun x hx => hl x (List.mem_cons_of_mem _ hx))]
    simp

/-- **C80 (detached)**: away from any branch, where git first prints a line such as `* (HEAD detached at v1.7.4)` and then the
branches that contain the commit, the branch is master if it is one of them, else the first one, and none if there is none. -/
theorem C80_branch_detached (first : Str) (l : List (Char × Char × Str)) (hf : '\n' ∉ first) (hp : '(' ∈ first)
    (hl : ∀ x ∈ l, x.1 ≠ '\n' ∧ x.2.1 ≠ '\n' ∧ '\n' ∉ x.2.2) :
    branchName (some "HEAD".toList, some 0) (some (first ++ branchLines l), some 0) =
      .ok (if "master".toList ∈ l.map (·.2.2) then some "master".toList else (l.map (·.2.2)).head?) := by
  have hs : strip "HEAD".toList = "HEAD".toList := by decide
  have hm : (l.map (fun x => x.1 :: x.2.1 :: x.2.2)).map (fun b => b.drop 2) = l.map (·.2.2) := by
    simp [Function.comp_def]
  unfold branchName
  simp only [hs, if_true]
  rw [split_lines first l hf hl]
  simp only [if_pos hp, hm]
  by_cases h : "master".toList ∈ l.map (·.2.2)
  · rw [if_pos h, if_pos h]
  · rw [if_neg h, if_neg h]

/-- **C80 (failure)**: a failing git means that the version is looked for elsewhere. -/
theorem C80_branch_error (out : Option Str) (rc : Option Int) (contains : Option Str × Option Int) (h : rc ≠ some 0 ∨ out = none) :
    branchName (out, rc) contains = .error .notThisMethod := by
  unfold branchName
  split
  · next name e =>
    rw [Prod.mk.injEq] at e
    obtain ⟨rfl, rfl⟩ := e
    rcases h with h | h
    · exact absurd rfl h
    · cases h
  · rfl

/-! ### the parent directories -/

/-- **C82 (parent directory)**: the version is what follows the prefix in the name of the root directory, else of its parent,
else of the parent of that one; other directories are not looked at. -/
theorem C82_parentdir (pre : Str) (path : List Str) (a b c : Str) :
    versionsFromParentdir pre (path ++ [a, b, c]) =
      match [c, b, a].find? (fun d => pre.isPrefixOf d) with
      | some d => .ok ⟨d.drop pre.length, none, some false, none, none⟩
      | none => .error .notThisMethod := by
  have e1 : basename (path ++ [a, b, c]) = c := by simp [basename]
  have d1 : (path ++ [a, b, c]).dropLast = path ++ [a, b] := by simp
  have e2 : basename (path ++ [a, b]) = b := by simp [basename]
  have d2 : (path ++ [a, b]).dropLast = path ++ [a] := by simp
  have e3 : basename (path ++ [a]) = a := by simp [basename]
  simp only [versionsFromParentdir, fromParentdir, e1, d1, e2, d2, e3, List.find?_cons, List.find?_nil]
  cases pre.isPrefixOf c <;> cases pre.isPrefixOf b <;> cases pre.isPrefixOf a <;> rfl

/-! ### styles without a tag, and of changed working trees -/

/-- **C83 (pre, no number)**: `.post` without a number is post-release 0, so the next one is 1. -/
theorem C83_pre_empty (p : Pieces) (s : Str) (hs : Plain s) (hd : p.distance ≠ 0) (h : p.tag = some (s ++ ".post".toList)) :
    renderPep440Pre p = .ok (s ++ ".post1.dev".toList ++ dec p.distance) := by
  have hq := tag?_some h (by simp)
  have hsp : splitStr ".post".toList (s ++ ".post".toList) = [s, []] := by
    have := split_one s [] (plain_no_p hs) (by simp) []
    simpa [splitStr] using this
  have hp : splitPost (s ++ ".post".toList) = .ok (s, some 0) := by
    unfold splitPost
    rw [hsp]
    rfl
  have hdec : dec (0 + 1) = ['1'] := by unfold dec; rfl
  unfold renderPep440Pre
  rw [hq]
  simp only [if_pos hd, hp, bind, Except.bind, hdec]
  simp

/-- **C83 (no tag)**: every style for versions gives a valid one without a tag. -/
theorem C83_untagged (p : Pieces) (h : p.tag = none ∨ p.tag = some []) (hs : ∀ c ∈ p.short, c.isDigit ∨ c.isLower) :
    renderPep440Post p = "0.post".toList ++ dec p.distance ++ (if p.dirty then ".dev0".toList else []) ++ "+g".toList ++ p.short ∧
    renderPep440Old p = "0.post".toList ++ dec p.distance ++ (if p.dirty then ".dev0".toList else []) ∧
    renderPep440Pre p = .ok ("0.post0.dev".toList ++ dec p.distance) ∧
    IsVersion (renderPep440Branch p) ∧ IsVersion (renderPep440Post p) ∧ IsVersion (renderPep440PostBranch p) ∧
    IsVersion (renderPep440Old p) ∧ IsVersion ("0.post0.dev".toList ++ dec p.distance) := by
  have hq : p.tag? = none := by
    unfold Pieces.tag?
    rcases h with h | h <;> rw [h]
  have h0 : Plain ['0'] := ⟨[], ['0'], [], rfl, Or.inl rfl, Dotted.one ⟨by simp, by decide⟩, Or.inl rfl⟩
  unfold renderPep440Branch renderPep440Post renderPep440PostBranch renderPep440Old renderPep440Pre devDirty dotDirty
  rw [hq]
  have hb : devBranch p = [] ∨ ∃ n, Num n ∧ devBranch p = ['.', 'd', 'e', 'v'] ++ n := dev_part _
  generalize devBranch p = br at hb ⊢
  refine ⟨rfl, rfl, rfl, ?_, ?_, ?_, ?_, ?_⟩
  · have hu : Dotted Segment ("untagged".toList ++ '.' :: dec p.distance ++ '.' :: 'g' :: p.short) := by
      refine Dotted.more (Dotted.more (Dotted.one ⟨by simp, by decide⟩) ?_) (segment_g hs)
      exact ⟨(num_dec _).1, fun c hc => Or.inl ((num_dec _).2 c hc)⟩
    have hp := plain_public (post := []) h0 (Or.inl rfl) hb
    cases hy : p.dirty with
    | false => simpa using version_plus hp hu
    | true => simpa using version_plus hp (Dotted.more hu segment_dirty)
  · have := version_plus (plain_public h0 (post_part p.distance) (dev_part (p.dirty = true))) (Dotted.one (segment_g hs))
    simpa using this
  · have := version_plus (plain_public h0 (post_part p.distance) hb) (hex_segment hs p.dirty)
    simpa using this
  · have : IsVersion _ := Or.inl (plain_public h0 (post_part p.distance) (dev_part (p.dirty = true)))
    simpa using this
  · have : IsVersion _ := Or.inl (plain_public h0 (post_part 0) (Or.inr ⟨dec p.distance, num_dec _, rfl⟩))
    have hdec : dec 0 = ['0'] := by unfold dec; rfl
    rw [hdec] at this
    simpa using this

/-- **C83 (changes)**: in every style but pep440-pre the version of a changed working tree differs from that of the unchanged
one. -/
theorem C83_dirty (p : Pieces) (style : Str) (hs : style ∈ styles) (hp : style ≠ "pep440-pre".toList) :
    renderStyle { p with dirty := true } style ≠ renderStyle { p with dirty := false } style := by
  have key : ∀ f : Pieces → Str, (f { p with dirty := true }).length ≠ (f { p with dirty := false }).length →
      (Except.ok (f { p with dirty := true }) : Except VErr Str) ≠ .ok (f { p with dirty := false }) := by
    intro f hf h
    injection h with h
    exact hf (congrArg _ h)
  have ht : ({ p with dirty := true } : Pieces).tag? = p.tag? := rfl
  have hf : ({ p with dirty := false } : Pieces).tag? = p.tag? := rfl
  have bt : devBranch { p with dirty := true } = devBranch p := rfl
  have bf : devBranch { p with dirty := false } = devBranch p := rfl
  have l1 : (renderPep440 { p with dirty := true }).length ≠ (renderPep440 { p with dirty := false }).length := by
    unfold renderPep440
    rw [ht, hf]
    cases p.tag? with
    | none => simp [dotDirty]
    | some t => by_cases h : p.distance = 0 <;> simp [Pieces.moved, h, dotDirty]
  have l2 : (renderPep440Branch { p with dirty := true }).length ≠ (renderPep440Branch { p with dirty := false }).length := by
    unfold renderPep440Branch
    rw [ht, hf, bt, bf]
    generalize devBranch p = br
    cases p.tag? with
    | none => simp [dotDirty]
    | some t => by_cases h : p.distance = 0 <;> simp [Pieces.moved, h, dotDirty]
  have l3 : (renderPep440Post { p with dirty := true }).length ≠ (renderPep440Post { p with dirty := false }).length := by
    unfold renderPep440Post
    rw [ht, hf]
    cases p.tag? with
    | none => 
      simp [devDirty]
      omega
    | some t => by_cases h : p.distance = 0 <;> simp [Pieces.moved, h, devDirty] <;> omega
  have l4 : (renderPep440PostBranch { p with dirty := true }).length ≠ (renderPep440PostBranch { p with dirty := false }).length := by
    unfold renderPep440PostBranch
    rw [ht, hf, bt, bf]
    generalize devBranch p = br
    cases p.tag? with
    | none => simp [dotDirty]
    | some t => by_cases h : p.distance = 0 <;> simp [Pieces.moved, h, dotDirty]
  have l5 : (renderPep440Old { p with dirty := true }).length ≠ (renderPep440Old { p with dirty := false }).length := by
    unfold renderPep440Old
    rw [ht, hf]
    cases p.tag? with
    | none => simp [devDirty]
    | some t => by_cases h : p.distance = 0 <;> simp [Pieces.moved, h, devDirty]
  have l6 : (renderGitDescribe { p with dirty := true }).length ≠ (renderGitDescribe { p with dirty := false }).length := by
    unfold renderGitDescribe
    rw [ht, hf]
    simp [hyphenDirty]
  have l7 : (renderGitDescribeLong { p with dirty := true }).length ≠ (renderGitDescribeLong { p with dirty := false }).length := by
    unfold renderGitDescribeLong
    rw [ht, hf]
    simp [hyphenDirty]
  simp only [styles, List.mem_cons, List.not_mem_nil, or_false] at hs
  rcases hs with rfl | rfl | rfl | rfl | rfl | rfl | rfl | rfl | rfl | rfl
  · exact key _ l1
  · exact key _ l2
  · exact absurd rfl hp
  · exact key _ l3
  · exact key _ l4
  · exact key _ l5
  · exact key _ l6
  · exact key _ l7
  · exact key _ l1
  · exact key _ l1

/-- **C83 (negation for pep440-pre)**: this style never shows changes. -/
theorem C83_negation_dirty_pre (p : Pieces) :
    renderStyle { p with dirty := true } "pep440-pre".toList = renderStyle { p with dirty := false } "pep440-pre".toList := rfl

/-! ### examples -/

example : branchName (some "main".toList, some 0) (none, none) = .ok (some "main".toList) :=
  C80_branch_named _ _ (by decide) (by decide) (by decide)
example : branchName (some "HEAD".toList, some 0)
    (some ("* (HEAD detached at v1.7.4)".toList ++ branchLines [(' ', ' ', "fix".toList), ('+', ' ', "main".toList)]), some 0) =
    .ok (some "fix".toList) :=
  C80_branch_detached _ _ (by decide) (by decide) (by decide)
example : branchName (some "HEAD".toList, some 0)
    (some ("* (HEAD detached at v1.7.4)".toList ++ branchLines [(' ', ' ', "fix".toList), (' ', ' ', "master".toList)]), some 0) =
    .ok (some "master".toList) :=
  C80_branch_detached _ _ (by decide) (by decide) (by decide)
example : branchName (none, some 128) (none, none) = .error .notThisMethod := C80_branch_error _ _ _ (Or.inr rfl)
example : versionsFromParentdir "geo-".toList ["home".toList, "geo-1".toList, "geo-2".toList, "src".toList] =
    .ok ⟨['2'], none, some false, none, none⟩ := C82_parentdir _ ["home".toList] _ _ _
example : renderPep440Pre { sample with tag := some "1.7rc1.post".toList } = .ok ("1.7rc1".toList ++ ".post1.dev".toList ++ dec 3) :=
  C83_pre_empty { sample with tag := some "1.7rc1.post".toList } "1.7rc1".toList sample_plain (by decide) (by decide)
example : IsVersion (renderPep440Post { sample with tag := none }) := (C83_untagged _ (Or.inl rfl) (by decide)).2.2.2.2.1
example : renderStyle { sample with dirty := true } "pep440-old".toList ≠ renderStyle { sample with dirty := false } "pep440-old".toList :=
  C83_dirty sample _ (by decide) (by decide)

end Verif.Props.Version
