import Verif.Props.VersionGit

/-!
# C83: the other styles of the version (`render`)
-/

namespace Verif.Props.Version
open Verif.Version
open Verif.Spec.Version (IsVersion IsPublic Num Segment Dotted publicPart localPart localKeys Precedes Key key value)

/-! ### parts of public versions -/

/-- a release, possibly with an epoch and a pre-release, but neither post- nor development release -/
def Plain (s : Str) : Prop :=
  ∃ epoch release pre, s = epoch ++ release ++ pre ∧ (epoch = [] ∨ ∃ n, Num n ∧ epoch = n ++ ['!']) ∧ Dotted Num release ∧
    (pre = [] ∨ ∃ k n, (k = ['a'] ∨ k = ['b'] ∨ k = ['r', 'c']) ∧ Num n ∧ pre = k ++ n)

theorem plain_public {s post dev : Str} (h : Plain s) (hp : post = [] ∨ ∃ n, Num n ∧ post = ['.', 'p', 'o', 's', 't'] ++ n)
    (hd : dev = [] ∨ ∃ n, Num n ∧ dev = ['.', 'd', 'e', 'v'] ++ n) : IsPublic (s ++ post ++ dev) := by
  obtain ⟨e, r, a, rfl, he, hr, ha⟩ := h
  exact ⟨e, r, a, post, dev, rfl, he, hr, ha, hp, hd⟩

theorem digits_no {n : Str} (h : Num n) {c : Char} (hc : c.isDigit = false) : c ∉ n := fun hm => by
  rw [h.2 c hm] at hc; cases hc

theorem dotted_no {s : Str} (h : Dotted Num s) {c : Char} (hc : c.isDigit = false) (hc' : c ≠ '.') : c ∉ s := by
  induction h with
  | one h => exact digits_no h hc
  | more h1 h2 ih =>
    simp only [List.mem_append, List.mem_cons, not_or]
    exact ⟨ih, hc', digits_no h2 hc⟩

theorem plain_no_p {s : Str} (h : Plain s) : 'p' ∉ s := by
  obtain ⟨e, r, a, rfl, he, hr, ha⟩ := h
  simp only [List.mem_append, not_or]
  refine ⟨⟨?_, dotted_no hr (by decide) (by decide)⟩, ?_⟩
  · rcases he with rfl | ⟨n, hn, rfl⟩
    · simp
    · simp [digits_no hn (c := 'p') (by decide)]
  · rcases ha with rfl | ⟨k, n, hk, hn, rfl⟩
    · simp
    · rcases hk with rfl | rfl | rfl <;> simp [digits_no hn (c := 'p') (by decide)]

theorem plain_ne {s : Str} (h : Plain s) : s ≠ [] := by
  obtain ⟨e, r, a, rfl, he, hr, ha⟩ := h
  have : r ≠ [] := by
    cases hr with
    | one h => exact h.1
    | more _ _ => simp
  simp [this]

/-- a public version has at most one `p`, that of its post-release -/
theorem public_count_p {s : Str} (h : IsPublic s) : s.count 'p' ≤ 1 := by
  obtain ⟨e, r, a, p, d, rfl, he, hr, ha, hp, hd⟩ := h.parts
  have hpl : Plain (e ++ r ++ a) := ⟨e, r, a, rfl, he, hr, ha⟩
  have h1 : (e ++ r ++ a).count 'p' = 0 := List.count_eq_zero.mpr (plain_no_p hpl)
  have h2 : p.count 'p' ≤ 1 := by
    rcases hp with rfl | ⟨n, hn, rfl⟩
    · simp
    · rw [List.count_append, List.count_eq_zero.mpr (digits_no hn (c := 'p') (by decide))]
      decide
  have h3 : d.count 'p' = 0 := by
    rcases hd with rfl | ⟨n, hn, rfl⟩
    · simp
    · rw [List.count_append, List.count_eq_zero.mpr (digits_no hn (c := 'p') (by decide))]
      decide
  rw [List.count_append, List.count_append, h1, h3]
  omega

theorem version_public {s : Str} (h : IsVersion s) : IsPublic (publicPart s) := by
  rcases h with h | ⟨pub, loc, h, _, rfl⟩
  · rw [publicPart_self (public_no_plus h)]; exact h
  · rw [publicPart_plus (public_no_plus h)]; exact h

/-! ### the styles -/

theorem tag?_some {p : Pieces} {tag : Str} (h : p.tag = some tag) (h0 : tag ≠ []) : p.tag? = some tag := by
  unfold Pieces.tag?
  rw [h]
  cases tag with
  | nil => exact absurd rfl h0
  | cons a b => rfl

/-- the names of the styles -/
def styles : List Str := ["pep440".toList, "pep440-branch".toList, "pep440-pre".toList, "pep440-post".toList, "pep440-post-branch".toList,
  "pep440-old".toList, "git-describe".toList, "git-describe-long".toList, "default".toList, []]

/-- **C83 (unknown style)**: a ValueError. -/
theorem C83_unknown (p : Pieces) (style : Str) (h : style ∉ styles) (he : p.error = none) : render p style = .error .valueError := by
  simp only [styles, List.mem_cons, List.not_mem_nil, or_false, not_or] at h
  obtain ⟨h1, h2, h3, h4, h5, h6, h7, h8, h9, h10⟩ := h
  unfold render
  rw [he]
  unfold renderStyle
  simp only [h1, h2, h3, h4, h5, h6, h7, h8, h9, h10, or_self, if_false]
  rfl

/-- **C83 (error)**: if git could not be understood the version is "unknown" and the error is reported. -/
theorem C83_error (p : Pieces) (style e : Str) (he : p.error = some e) :
    render p style = .ok ⟨"unknown".toList, some p.long, none, some e, none⟩ := by
  unfold render
  rw [he]

example (p : Pieces) : render { p with error := some "no suitable tags".toList } "pep441".toList
    = .ok ⟨"unknown".toList, some p.long, none, some "no suitable tags".toList, none⟩ := C83_error _ _ _ rfl

/-- **C83 (release)**: on a tag, without changes, every style but git-describe-long gives the tag. -/
theorem C83_release (p : Pieces) (style tag : Str) (hs : style ∈ styles) (hl : style ≠ "git-describe-long".toList)
    (h : p.tag = some tag) (h0 : tag ≠ []) (he : p.error = none) (hd : p.distance = 0) (hy : p.dirty = false) :
    render p style = .ok ⟨tag, some p.long, some false, none, p.date⟩ := by
  have ht := tag?_some h h0
  have hm : p.moved = false := by simp [Pieces.moved, hd, hy]
  unfold render
  rw [he]
  have : renderStyle p style = .ok tag := by
    simp only [styles, List.mem_cons, List.not_mem_nil, or_false] at hs
    rcases hs with rfl | rfl | rfl | rfl | rfl | rfl | rfl | h | rfl | rfl
    · simp [renderStyle, renderPep440, ht, hm]
    · simp [renderStyle, renderPep440Branch, ht, hm]
    · simp [renderStyle, renderPep440Pre, ht, hd]
    · simp [renderStyle, renderPep440Post, ht, hm]
    · simp [renderStyle, renderPep440PostBranch, ht, hm]
    · simp [renderStyle, renderPep440Old, ht, hm]
    · simp [renderStyle, renderGitDescribe, hyphenDirty, ht, hd, hy]
    · exact absurd h hl
    · simp [renderStyle, renderPep440, ht, hm]
    · simp [renderStyle, renderPep440, ht, hm]
  simp only [this, hy, bind, Except.bind]

/-- the part after `+` -/
theorem version_plus {pub loc : Str} (hp : IsPublic pub) (hl : Dotted Segment loc) : IsVersion (pub ++ '+' :: loc) :=
  Or.inr ⟨pub, loc, hp, hl, rfl⟩

theorem dev_part (b : Prop) [Decidable b] : (if b then ".dev0".toList else [] : Str) = [] ∨
    ∃ n, Num n ∧ (if b then ".dev0".toList else [] : Str) = ['.', 'd', 'e', 'v'] ++ n := by
  by_cases h : b
  · right
    refine ⟨['0'], ⟨by simp, by decide⟩, ?_⟩
    rw [if_pos h]; rfl
  · left; rw [if_neg h]

theorem post_part (n : Nat) : (['.', 'p', 'o', 's', 't'] ++ dec n = [] ∨ ∃ m, Num m ∧ ['.', 'p', 'o', 's', 't'] ++ dec n = ['.', 'p', 'o', 's', 't'] ++ m) :=
  Or.inr ⟨dec n, num_dec n, rfl⟩

theorem hex_segment {p : Pieces} (hs : ∀ c ∈ p.short, c.isDigit ∨ c.isLower) (b : Bool) :
    Dotted Segment ('g' :: p.short ++ (if b then ".dirty".toList else [])) := by
  cases b with
  | false => simpa using Dotted.one (segment_g hs)
  | true =>
    have := Dotted.more (Dotted.one (segment_g hs)) segment_dirty
    simpa using this

/-- **C83 (valid)**: after a plain tag (no post- or development release), all the PEP 440 styles give valid versions. -/
theorem C83_valid (p : Pieces) (tag : Str) (h : p.tag = some tag) (ht : Plain tag) (hs : ∀ c ∈ p.short, c.isDigit ∨ c.isLower) :
    IsVersion (renderPep440Branch p) ∧ IsVersion (renderPep440Post p) ∧ IsVersion (renderPep440PostBranch p) ∧
      IsVersion (renderPep440Old p) := by
  have hq := tag?_some h (plain_ne ht)
  have hpub : IsPublic tag := by simpa using plain_public ht (Or.inl rfl) (Or.inl rfl)
  have hplus : '+' ∉ tag := public_no_plus hpub
  have e0 : plusOrDot tag = ['+'] := by unfold plusOrDot; rw [if_neg hplus]
  unfold renderPep440Branch renderPep440Post renderPep440PostBranch renderPep440Old
  rw [hq]
  by_cases hm : p.moved
  · simp only [hm, if_true, e0]
    refine ⟨?_, ?_, ?_, ?_⟩
    · have hb : IsPublic (tag ++ devBranch p) := by
        have := plain_public (post := []) ht (Or.inl rfl) (dev_part (p.branch ≠ some "master".toList))
        simpa [devBranch] using this
      have hd : Dotted Segment (suffix p) := dotted_suffix hs
      have := version_plus hb hd
      have e : tag ++ devBranch p ++ ['+'] ++ (dec p.distance ++ ".g".toList ++ p.short) ++ dotDirty p
          = (tag ++ devBranch p) ++ '+' :: suffix p := by
        cases hy : p.dirty <;> simp [suffix, dotDirty, hy]
      rw [e]; exact this
    · have hb := plain_public ht (post_part p.distance) (dev_part (p.dirty = true))
      have := version_plus hb (hex_segment hs false)
      have e : tag ++ ".post".toList ++ dec p.distance ++ devDirty p ++ ['+'] ++ "g".toList ++ p.short
          = tag ++ (['.', 'p', 'o', 's', 't'] ++ dec p.distance) ++ (if p.dirty = true then ".dev0".toList else [])
            ++ '+' :: ('g' :: p.short ++ (if false = true then ".dirty".toList else [])) := by
        cases hy : p.dirty <;> simp [devDirty, hy]
      rw [e]; exact this
    · have hb := plain_public ht (post_part p.distance) (dev_part (p.branch ≠ some "master".toList))
      have := version_plus hb (hex_segment hs p.dirty)
      have e : tag ++ ".post".toList ++ dec p.distance ++ devBranch p ++ ['+'] ++ "g".toList ++ p.short ++ dotDirty p
          = tag ++ (['.', 'p', 'o', 's', 't'] ++ dec p.distance) ++ (if p.branch ≠ some "master".toList then ".dev0".toList else [])
            ++ '+' :: ('g' :: p.short ++ (if p.dirty = true then ".dirty".toList else [])) := by
        have e1 : devBranch p = if p.branch ≠ some "master".toList then ".dev0".toList else [] := rfl
        rw [← e1]
        cases hy : p.dirty <;> simp [dotDirty, hy]
      rw [e]; exact this
    · have hb := plain_public ht (post_part p.distance) (dev_part (p.dirty = true))
      have e : tag ++ ".post".toList ++ dec p.distance ++ devDirty p
          = tag ++ (['.', 'p', 'o', 's', 't'] ++ dec p.distance) ++ (if p.dirty = true then ".dev0".toList else []) := by
        cases hy : p.dirty <;> simp [devDirty, hy]
      rw [e]; exact Or.inl hb
  · have hv : IsVersion tag := Or.inl hpub
    simp [hm, hv]

/-- **C83 (negation)**: after the tag of a post-release the styles pep440-post and pep440-old give versions that are not valid:
TAG.postM.postN. -/
theorem C83_negation_post (p : Pieces) (s m : Str) (hs : Plain s) (hm : Num m) (h : p.tag = some (s ++ ".post".toList ++ m))
    (hd : p.distance ≠ 0) : ¬ IsVersion (renderPep440Post p) ∧ ¬ IsVersion (renderPep440Old p) := by
  have hpub : IsPublic (s ++ ".post".toList ++ m) := by
    have := plain_public (dev := []) hs (Or.inr ⟨m, hm, rfl⟩) (Or.inl rfl)
    simpa using this
  have hplus := public_no_plus hpub
  have hq := tag?_some h (by simp)
  have hmv : p.moved = true := by simp [Pieces.moved, hd]
  have hdig : '+' ∉ dec p.distance := num_no_plus _ (num_dec _)
  have hdev : '+' ∉ devDirty p := by unfold devDirty; split <;> decide
  have hcount : ∀ t : Str, 2 ≤ ((s ++ ".post".toList ++ m) ++ ".post".toList ++ t).count 'p' := by
    intro t
    have e : (".post".toList : Str).count 'p' = 1 := by decide
    rw [List.count_append, List.count_append, List.count_append, List.count_append, e]
    omega
  have hpp : '+' ∉ (s ++ ".post".toList ++ m) ++ ".post".toList ++ dec p.distance ++ devDirty p := by
    simp only [List.mem_append, not_or] at hplus ⊢
    exact ⟨⟨⟨hplus, by decide⟩, hdig⟩, hdev⟩
  constructor
  · intro hv
    unfold renderPep440Post at hv
    rw [hq] at hv
    simp only [hmv, if_true] at hv
    have e : plusOrDot (s ++ ".post".toList ++ m) = ['+'] := by unfold plusOrDot; rw [if_neg hplus]
    rw [e] at hv
    have e2 : s ++ ".post".toList ++ m ++ ".post".toList ++ dec p.distance ++ devDirty p ++ ['+'] ++ "g".toList ++ p.short =
        (s ++ ".post".toList ++ m ++ ".post".toList ++ dec p.distance ++ devDirty p) ++ '+' :: ("g".toList ++ p.short) := by simp
    rw [e2] at hv
    have := public_count_p (version_public hv)
    rw [publicPart_plus hpp, List.append_assoc] at this
    exact absurd (hcount (dec p.distance ++ devDirty p)) (by rw [List.append_assoc (_ ++ m)] at this ⊢; omega)
  · intro hv
    unfold renderPep440Old at hv
    rw [hq] at hv
    simp only [hmv, if_true] at hv
    have := public_count_p (version_public hv)
    rw [publicPart_self hpp, List.append_assoc _ (dec p.distance)] at this
    exact absurd (hcount (dec p.distance ++ devDirty p)) (by omega)

/-! ### pep440-pre -/

theorem split_none (s : Str) (h : 'p' ∉ s) : ∀ acc, splitStrAux ".post".toList acc 0 s = [acc.reverse ++ s] := by
  induction s with
  | nil => intro acc; simp [splitStrAux]
  | cons c s ih =>
    intro acc
    have hp : (".post".toList : Str).isPrefixOf (c :: s) = false := by
      rw [Bool.eq_false_iff]
      intro hp
      obtain ⟨t, ht⟩ := List.isPrefixOf_iff_prefix.mp hp
      exact h (by rw [← ht]; simp)
    rw [List.mem_cons, not_or] at h
    rw [splitStrAux, if_neg (by rw [hp]; simp), ih h.2]
    simp

theorem split_one (a b : Str) (ha : 'p' ∉ a) (hb : 'p' ∉ b) :
    ∀ acc, splitStrAux ".post".toList acc 0 (a ++ ".post".toList ++ b) = [acc.reverse ++ a, b] := by
  induction a with
  | nil =>
    intro acc
    have e : ([] : Str) ++ ".post".toList ++ b = '.' :: 'p' :: 'o' :: 's' :: 't' :: b := by simp
    rw [e, splitStrAux, if_pos (by simp [List.isPrefixOf])]
    have e2 : (".post".toList : Str).length - 1 = 4 := by decide
    rw [e2, splitStrAux, splitStrAux, splitStrAux, splitStrAux, split_none b hb]
    simp
  | cons c a ih =>
    intro acc
    rw [List.mem_cons, not_or] at ha
    have hp : (".post".toList : Str).isPrefixOf (c :: (a ++ ".post".toList ++ b)) = false := by
      cases a with
      | nil => simp [List.isPrefixOf]
      | cons d a =>
        rw [List.mem_cons, not_or] at ha
        have hd : ('p' == d) = false := by simpa using ha.2.1
        simp [List.isPrefixOf, hd]
    have e : c :: a ++ ".post".toList ++ b = c :: (a ++ ".post".toList ++ b) := by simp
    rw [e, splitStrAux, if_neg (by rw [hp]; simp), ih ha.2]
    simp

/-- **C83 (pre)**: `n` commits after a plain tag, pep440-pre gives TAG.post0.devn; after a post-release TAG.postM, it gives
TAG.post(M+1).devn.  Both are valid. -/
theorem C83_pre (p : Pieces) (s : Str) (hs : Plain s) (hd : p.distance ≠ 0) :
    (p.tag = some s → renderPep440Pre p = .ok (s ++ ".post0.dev".toList ++ dec p.distance) ∧
      IsVersion (s ++ ".post0.dev".toList ++ dec p.distance)) ∧
    (∀ m, Num m → p.tag = some (s ++ ".post".toList ++ m) →
      renderPep440Pre p = .ok (s ++ ".post".toList ++ dec (value m + 1) ++ ".dev".toList ++ dec p.distance) ∧
      IsVersion (s ++ ".post".toList ++ dec (value m + 1) ++ ".dev".toList ++ dec p.distance)) := by
  have hdev : (['.', 'd', 'e', 'v'] ++ dec p.distance = [] ∨ ∃ n, Num n ∧ ['.', 'd', 'e', 'v'] ++ dec p.distance = ['.', 'd', 'e', 'v'] ++ n) :=
    Or.inr ⟨_, num_dec _, rfl⟩
  constructor
  · intro h
    refine ⟨?_, ?_⟩
    · unfold renderPep440Pre
      rw [tag?_some h (plain_ne hs)]
      have : splitPost s = .ok (s, none) := by
        unfold splitPost splitStr
        rw [split_none s (plain_no_p hs)]
        rfl
      simp only [ne_eq, hd, not_false_eq_true, if_true, this, bind, Except.bind]
    · have := plain_public hs (Or.inr ⟨['0'], ⟨by simp, by decide⟩, rfl⟩) hdev
      have : IsVersion _ := Or.inl this
      simpa using this
  · intro m hm h
    refine ⟨?_, ?_⟩
    · unfold renderPep440Pre
      rw [tag?_some h (by simp)]
      have : splitPost (s ++ ".post".toList ++ m) = .ok (s, some (value m)) := by
        unfold splitPost splitStr
        rw [split_one s m (plain_no_p hs) (digits_no hm (by decide))]
        have hn : isNumber m = true := by
          unfold isNumber
          rw [Bool.and_eq_true, bne_iff_ne, List.all_eq_true]
          exact hm
        simp only [List.reverse_nil, List.nil_append, if_neg hm.1, hn, if_true]
        rfl
      simp only [ne_eq, hd, not_false_eq_true, if_true, this, bind, Except.bind]
    · have := plain_public hs (post_part (value m + 1)) hdev
      have : IsVersion _ := Or.inl this
      simpa using this

/-- **C83 (negation)**: after the tag of a development version of a post-release pep440-pre raises ValueError. -/
theorem C83_negation_pre (p : Pieces) (s m d : Str) (hs : Plain s) (hm : Num m) (hd' : Num d)
    (h : p.tag = some (s ++ ".post".toList ++ (m ++ ".dev".toList ++ d))) (hd : p.distance ≠ 0) :
    IsVersion (s ++ ".post".toList ++ (m ++ ".dev".toList ++ d)) ∧ renderPep440Pre p = .error .valueError := by
  constructor
  · have := plain_public hs (Or.inr ⟨m, hm, rfl⟩) (Or.inr ⟨d, hd', rfl⟩)
    have : IsVersion _ := Or.inl this
    simpa using this
  · unfold renderPep440Pre
    rw [tag?_some h (by simp)]
    have : splitPost (s ++ ".post".toList ++ (m ++ ".dev".toList ++ d)) = .error .valueError := by
      unfold splitPost splitStr
      rw [split_one s _ (plain_no_p hs) (by
        simp only [List.mem_append, not_or]
        exact ⟨⟨digits_no hm (by decide), by decide⟩, digits_no hd' (by decide)⟩)]
      have hn : isNumber (m ++ ".dev".toList ++ d) = false := by
        unfold isNumber
        simp
      simp only [hn]
      rw [if_neg (by simp)]
      rfl
    simp only [ne_eq, hd, not_false_eq_true, if_true, this, bind, Except.bind]

/-! ### examples -/

theorem sample_plain : Plain "1.7rc1".toList := by
  have h1 : Num ['1'] := ⟨by simp, by decide⟩
  have h7 : Num ['7'] := ⟨by simp, by decide⟩
  exact ⟨[], "1.7".toList, "rc1".toList, rfl, Or.inl rfl, Dotted.more (Dotted.one h1) h7, Or.inr ⟨['r', 'c'], ['1'], by simp, h1, rfl⟩⟩

example : IsVersion (renderPep440PostBranch { sample with tag := some "1.7rc1".toList }) :=
  (C83_valid _ "1.7rc1".toList rfl sample_plain (by decide)).2.2.1
example : ¬ IsVersion (renderPep440Post { sample with tag := some "1.7rc1.post2".toList }) :=
  (C83_negation_post { sample with tag := some "1.7rc1.post2".toList } "1.7rc1".toList ['2'] sample_plain ⟨by simp, by decide⟩ (by decide)
    (by decide)).1
example : renderPep440Pre { sample with tag := some "1.7rc1.post2".toList } = .ok ("1.7rc1".toList ++ ".post".toList ++ dec 3 ++ ".dev".toList ++ dec 3) :=
  ((C83_pre { sample with tag := some "1.7rc1.post2".toList } "1.7rc1".toList sample_plain (by decide)).2 ['2'] ⟨by simp, by decide⟩ (by decide)).1
example : renderPep440Pre { sample with tag := some "1.7rc1.post2.dev5".toList } = .error .valueError :=
  (C83_negation_pre _ "1.7rc1".toList ['2'] ['5'] sample_plain ⟨by simp, by decide⟩ ⟨by simp, by decide⟩ (by decide) (by decide)).2
example : render sample "pep441".toList = .error .valueError := C83_unknown sample _ (by decide) rfl
example : render { sample with distance := 0, dirty := false } "pep440-post".toList =
    .ok ⟨"1.7.4".toList, some "deadbeef".toList, some false, none, none⟩ :=
  C83_release _ _ _ (by decide) (by decide) rfl (by decide) rfl rfl rfl

end Verif.Props.Version
