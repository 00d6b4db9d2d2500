import Verif.Props.Version
import Mathlib.Data.List.TakeWhile

/-!
# C80: what `git describe` says is understood (`git_pieces_from_vcs`, `get_versions`)
-/

namespace Verif.Props.Version
open Verif.Version
open Verif.Spec.Version (IsVersion IsPublic Num Segment Dotted publicPart localPart localKeys Precedes Key key value)

/-! ### strings -/

theorem rsplit_append (c : Char) {a b : Str} (h : c ∉ b) : rsplit c (a ++ c :: b) = some (a, b) := by
  have hb : ∀ x ∈ b.reverse, (fun x => x != c) x = true := by
    intro x hx
    simp only [bne_iff_ne, ne_eq]
    rintro rfl; exact h (List.mem_reverse.mp hx)
  obtain ⟨h1, h2⟩ := takeWhile_prefix (b := c :: a.reverse) hb (by simp)
  have e : (a ++ c :: b).reverse = b.reverse ++ c :: a.reverse := by simp
  unfold rsplit
  simp only [e, h1, h2, List.reverse_reverse]

theorem rsplit_some {c : Char} {s a b : Str} (h : rsplit c s = some (a, b)) : s = a ++ c :: b ∧ c ∉ b := by
  unfold rsplit at h
  simp only at h
  split at h
  · cases h
  next x rest hd =>
    injection h with h
    injection h with h1 h2
    have hx : x = c := by
      have := List.head?_dropWhile_not (fun y => y != c) s.reverse
      rw [hd] at this
      simpa using this
    have e := List.takeWhile_append_dropWhile (p := fun y => y != c) (l := s.reverse)
    rw [hd, hx] at e
    constructor
    · have := congrArg List.reverse e
      rw [List.reverse_reverse] at this
      rw [← this, ← h1, ← h2]
      simp
    · rw [← h2, List.mem_reverse]
      intro hm
      have := List.mem_takeWhile_imp hm
      simp at this

theorem hex_range {c : Char} (h : isHex c) : c.isDigit ∨ c.isLower := by
  unfold isHex at h
  rw [Bool.or_eq_true] at h
  rcases h with h | h
  · exact Or.inl h
  · right
    unfold Char.isLower
    simp only [Char.le_def, UInt32.le_iff_toNat_le, ge_iff_le, Bool.and_eq_true, decide_eq_true_eq] at h ⊢
    have e1 : ('f' : Char).val.toNat = 102 := rfl
    have e2 : ('z' : Char).val.toNat = 122 := rfl
    exact ⟨h.1, by omega⟩

theorem hex_not_hyphen {s : Str} (h : ∀ c ∈ s, isHex c) : '-' ∉ s := by
  intro hm
  exact absurd (h _ hm) (by decide)

/-- the two last hyphens -/
theorem matchDescribe_some {tag num hex : Str} (h0 : tag ≠ []) (h1 : '\n' ∉ tag) (hn : Num num) (hx : hex ≠ []) (hh : ∀ c ∈ hex, isHex c) :
    matchDescribe (tag ++ '-' :: num ++ '-' :: 'g' :: hex) = some (tag, num, hex) := by
  unfold matchDescribe
  rw [rsplit_append '-' (a := tag ++ '-' :: num) (b := 'g' :: hex) (by
    intro hm
    rcases List.mem_cons.mp hm with hm | hm
    · exact absurd hm (by decide)
    · exact hex_not_hyphen hh hm)]
  simp only
  rw [rsplit_append '-' (fun hm => (plus_not_digit (hn.2 _ hm)).2.2 rfl)]
  simp only
  rw [if_pos]
  refine ⟨h0, ?_, ?_, hx, ?_⟩
  · rw [List.all_eq_true]; intro c hc; simp only [bne_iff_ne, ne_eq]; rintro rfl; exact h1 hc
  · unfold isNumber
    rw [Bool.and_eq_true, List.all_eq_true]
    exact ⟨by simp only [bne_iff_ne]; exact hn.1, hn.2⟩
  · rw [List.all_eq_true]; exact hh

/-- what the expression accepts -/
theorem matchDescribe_sound {s tag num hex : Str} (h : matchDescribe s = some (tag, num, hex)) :
    s = tag ++ '-' :: num ++ '-' :: 'g' :: hex ∧ tag ≠ [] ∧ Num num ∧ hex ≠ [] ∧ ∀ c ∈ hex, isHex c := by
  unfold matchDescribe at h
  split at h
  · next s1 hx e1 =>
    split at h
    · next t n e2 =>
      split at h
      · next hc =>
        injection h with h
        injection h with h1 h
        injection h with h2 h3
        subst h1 h2 h3
        obtain ⟨a1, a2, a3, a4, a5⟩ := hc
        obtain ⟨r1, -⟩ := rsplit_some e1
        obtain ⟨r2, -⟩ := rsplit_some e2
        refine ⟨by rw [r1, r2], a1, ?_, a4, List.all_eq_true.mp a5⟩
        unfold isNumber at a3
        rw [Bool.and_eq_true, List.all_eq_true] at a3
        exact ⟨by simpa using a3.1, a3.2⟩
      · cases h
    · cases h
  · cases h

/-! ### parsing -/

/-- the output of `git describe --tags --dirty --always --long --match PREFIX[0-9]*` at a commit `n` commits after a tag -/
def describeTag (tagPrefix tag : Str) (n : Nat) (hex : Str) (dirty : Bool) : Str :=
  tagPrefix ++ tag ++ '-' :: dec n ++ '-' :: 'g' :: hex ++ (if dirty then ['-', 'd', 'i', 'r', 't', 'y'] else [])

/-- the same without any tag -/
def describeHex (hex : Str) (dirty : Bool) : Str := hex ++ (if dirty then ['-', 'd', 'i', 'r', 't', 'y'] else [])

theorem dirty_suffix {s : Str} (hl : ∀ c, s.getLast? = some c → c ≠ 'y') : dirtyMark.isSuffixOf s = false := by
  rw [Bool.eq_false_iff]
  intro hs
  rw [List.isSuffixOf_iff_suffix] at hs
  obtain ⟨t, ht⟩ := hs
  have : s.getLast? = some 'y' := by
    rw [← ht]
    have : dirtyMark = ['-', 'd', 'i', 'r', 't'] ++ ['y'] := rfl
    rw [this, ← List.append_assoc, List.getLast?_append]
    rfl
  exact hl _ this rfl

theorem cut_dirty (s : Str) : dirtyMark.isSuffixOf (s ++ ['-', 'd', 'i', 'r', 't', 'y']) = true ∧
    (s ++ ['-', 'd', 'i', 'r', 't', 'y']).take ((s ++ ['-', 'd', 'i', 'r', 't', 'y']).length - dirtyMark.length) = s := by
  constructor
  · rw [List.isSuffixOf_iff_suffix]; exact ⟨s, rfl⟩
  · have : (s ++ ['-', 'd', 'i', 'r', 't', 'y']).length - dirtyMark.length = s.length := by
      simp [dirtyMark]
    rw [this, List.take_left]

/-- dirt and the rest -/
theorem parse_cut (p : Pieces) (pre s : Str) (dirty : Bool) (count : Option Str)
    (hl : ∀ c, s.getLast? = some c → c ≠ 'y') :
    parseDescribe p pre (s ++ (if dirty then ['-', 'd', 'i', 'r', 't', 'y'] else [])) count
      = parseParts { p with dirty := dirty } pre (s ++ (if dirty then ['-', 'd', 'i', 'r', 't', 'y'] else [])) s count := by
  unfold parseDescribe
  cases dirty
  · simp only [Bool.false_eq_true, if_false, List.append_nil, dirty_suffix hl]
  · simp only [if_true, (cut_dirty s).1, (cut_dirty s).2]

theorem last_hex {s hex : Str} (hx : hex ≠ []) (hh : ∀ c ∈ hex, isHex c) : ∀ c, (s ++ hex).getLast? = some c → c ≠ 'y' := by
  intro c hc
  rw [List.getLast?_append] at hc
  obtain ⟨d, hd⟩ : ∃ d, hex.getLast? = some d := ⟨_, List.getLast?_eq_some_getLast hx⟩
  rw [hd] at hc
  have e : d = c := by simpa using hc
  rintro rfl
  have := hh d (List.mem_of_getLast? hd)
  rw [e] at this
  exact absurd this (by decide)

/-- **C80 (tagged)**: for every tag, hyphens and all, the tag without its prefix, the number of commits, the commit and the
dirt come back. -/
theorem C80_tagged (p : Pieces) (pre tag : Str) (n : Nat) (hex : Str) (dirty : Bool) (count : Option Str)
    (h0 : pre ++ tag ≠ []) (hl : '\n' ∉ pre ++ tag) (hx : hex ≠ []) (hh : ∀ c ∈ hex, isHex c) :
    parseDescribe p pre (describeTag pre tag n hex dirty) count
      = .ok { p with dirty := dirty, tag := some tag, distance := n, short := hex } := by
  have hm := matchDescribe_some h0 hl (num_dec n) hx hh
  unfold describeTag
  rw [parse_cut p pre (pre ++ tag ++ '-' :: dec n ++ '-' :: 'g' :: hex) dirty count (by
    have : pre ++ tag ++ '-' :: dec n ++ '-' :: 'g' :: hex = (pre ++ tag ++ '-' :: dec n ++ ['-', 'g']) ++ hex := by simp
    rw [this]
    exact last_hex hx hh)]
  unfold parseParts
  rw [if_pos (by simp), hm]
  simp only
  rw [if_pos (by rw [List.isPrefixOf_iff_prefix]; exact List.prefix_append pre tag), intOf_dec]
  simp

/-- **C80 (no tags)**: the number of commits is the number of words `git rev-list` prints. -/
theorem C80_untagged (p : Pieces) (pre hex : Str) (dirty : Bool) (list : Str) (hx : hex ≠ []) (hh : ∀ c ∈ hex, isHex c) :
    parseDescribe p pre (describeHex hex dirty) (some list)
      = .ok { p with dirty := dirty, tag := none, distance := (wordsAux [] list).length } := by
  unfold describeHex
  rw [parse_cut p pre hex dirty (some list) (by
    have := last_hex (s := []) hx hh
    simpa using this)]
  unfold parseParts
  rw [if_neg (hex_not_hyphen hh)]

example (p : Pieces) : parseDescribe p "v".toList (describeTag "v".toList "1.7.4".toList 3 "deadbee".toList true) none
    = .ok { p with dirty := true, tag := some "1.7.4".toList, distance := 3, short := "deadbee".toList } :=
  C80_tagged p _ _ 3 _ true none (by decide) (by decide) (by decide) (by decide)

example (p : Pieces) : parseDescribe p "v".toList (describeHex "deadbee".toList false) (some "deadbeef\nabadcafe\n".toList)
    = .ok { p with dirty := false, tag := none, distance := 2 } :=
  C80_untagged p _ _ false _ (by decide) (by decide)

theorem parts_sound {p q : Pieces} {pre out gd tag : Str} {count : Option Str} (h : parseParts p pre out gd count = .ok q)
    (he : q.error = none) (ht : q.tag = some tag) :
    ∃ num, Num num ∧ gd = pre ++ tag ++ '-' :: num ++ '-' :: 'g' :: q.short ∧ q.distance = value num ∧ q.short ≠ [] ∧
      (∀ c ∈ q.short, isHex c) ∧ q.dirty = p.dirty := by
  unfold parseParts at h
  split at h
  · split at h
    · injection h with h; subst h; cases he
    · next ft num hex hm =>
      split at h
      · next hpre =>
        injection h with h; subst h
        obtain ⟨s1, s2, s3, s4, s5⟩ := matchDescribe_sound hm
        obtain ⟨r, hr⟩ := List.isPrefixOf_iff_prefix.mp hpre
        subst hr
        simp only [List.drop_left, Option.some.injEq] at ht
        subst ht
        exact ⟨num, s3, s1, rfl, s4, s5, rfl⟩
      · injection h with h; subst h; cases he
  · split at h
    · cases h
    · injection h with h; subst h; cases ht

/-- **C80 (nothing else)**: a tag is reported only if the output is of that form, with the prefix. -/
theorem C80_sound (p : Pieces) (pre out tag : Str) (count : Option Str) (q : Pieces)
    (h : parseDescribe p pre out count = .ok q) (he : q.error = none) (ht : q.tag = some tag) :
    ∃ num, Num num ∧ q.distance = value num ∧ q.short ≠ [] ∧ (∀ c ∈ q.short, isHex c) ∧
      out = pre ++ tag ++ '-' :: num ++ '-' :: 'g' :: q.short ++ (if q.dirty then ['-', 'd', 'i', 'r', 't', 'y'] else []) := by
  unfold parseDescribe at h
  simp only at h
  obtain ⟨num, h1, h2, h3, h4, h5, h6⟩ := parts_sound h he ht
  refine ⟨num, h1, h3, h4, h5, ?_⟩
  rw [← h2, h6]
  by_cases hd : dirtyMark.isSuffixOf out = true
  · obtain ⟨t, ht'⟩ := List.isSuffixOf_iff_suffix.mp hd
    have ht'' : out = t ++ ['-', 'd', 'i', 'r', 't', 'y'] := ht'.symm
    subst ht''
    rw [(cut_dirty t).1, (cut_dirty t).2]
    simp
  · rw [Bool.not_eq_true] at hd
    rw [hd]
    simp

/-- **C80 (round trip)**: `render_git_describe_long` writes what `git describe` said, without the prefix. -/
theorem C80_roundtrip (p : Pieces) (pre tag : Str) (n : Nat) (hex : Str) (dirty : Bool) (count : Option Str)
    (h0 : tag ≠ []) (hl : '\n' ∉ pre ++ tag) (hx : hex ≠ []) (hh : ∀ c ∈ hex, isHex c) :
    ∃ q, parseDescribe p pre (describeTag pre tag n hex dirty) count = .ok q ∧
      pre ++ renderGitDescribeLong q = describeTag pre tag n hex dirty := by
  refine ⟨_, C80_tagged p pre tag n hex dirty count (by simp [h0]) hl hx hh, ?_⟩
  have ht : ∀ q : Pieces, q.tag = some tag → q.tag? = some tag := by
    intro q hq
    unfold Pieces.tag?
    rw [hq]
    cases tag with
    | nil => exact absurd rfl h0
    | cons a b => rfl
  unfold renderGitDescribeLong
  rw [ht _ rfl]
  cases dirty <;> simp [describeTag, hyphenDirty]

/-! ### the whole of `get_versions` in a checkout -/

theorem strip_of_ends {s : Str} (h0 : s ≠ []) (h1 : ∀ c, s.head? = some c → c.isWhitespace = false)
    (h2 : ∀ c, s.getLast? = some c → c.isWhitespace = false) (t : Str) (ht : ∀ c ∈ t, c.isWhitespace) : strip (s ++ t) = s := by
  obtain ⟨c, r, rfl⟩ := List.exists_cons_of_ne_nil h0
  have e1 : lstrip (c :: r ++ t) = c :: r ++ t := by
    unfold lstrip
    rw [List.cons_append, List.dropWhile_cons, if_neg (by simp [h1 c rfl])]
  unfold strip
  rw [e1, List.reverse_append]
  have e2 : lstrip (t.reverse ++ (c :: r).reverse) = (c :: r).reverse := by
    unfold lstrip
    have hh : ∀ d, ((c :: r).reverse).head? = some d → d.isWhitespace = false := by
      intro d hd
      rw [List.head?_reverse] at hd
      exact h2 d hd
    exact (takeWhile_prefix (fun d hd => ht d (List.mem_reverse.mp hd)) hh).2
  rw [e2, List.reverse_reverse]

/-- a printed line comes back without its end -/
theorem strip_line {s : Str} (h0 : s ≠ []) (h : ∀ c ∈ s, c.isWhitespace = false) : strip (s ++ ['\n']) = s ∧ strip s = s := by
  have h1 : ∀ c, s.head? = some c → c.isWhitespace = false := fun c hc => h c (List.mem_of_head? hc)
  have h2 : ∀ c, s.getLast? = some c → c.isWhitespace = false := fun c hc => h c (List.mem_of_getLast? hc)
  refine ⟨strip_of_ends h0 h1 h2 _ (by simp), ?_⟩
  have := strip_of_ends h0 h1 h2 [] (by simp)
  simpa using this

theorem lines_single {l : Str} (h : '\n' ∉ l) : ∀ acc, l ≠ [] ∨ acc ≠ [] → linesAux acc l = [acc.reverse ++ l] := by
  induction l with
  | nil => intro acc h; simp at h; simp [linesAux, h]
  | cons c l ih =>
    intro acc _
    rw [List.mem_cons, not_or] at h
    rw [linesAux, if_neg (fun e => h.1 e.symm), ih h.2 _ (Or.inr (by simp))]
    simp

/-- the date as git prints it, day, time and zone, in the last line -/
theorem isoDate_line {day time zone : Str} (h1 : ∀ c ∈ day ++ time ++ zone, c.isWhitespace = false) (hd : day ≠ []) (hz : zone ≠ []) :
    isoDate (day ++ ' ' :: time ++ ' ' :: zone) = .ok (day ++ 'T' :: time ++ zone) := by
  have hday : ∀ c ∈ day, c.isWhitespace = false := fun c hc => h1 c (by simp [hc])
  have htime : ∀ c ∈ time, c.isWhitespace = false := fun c hc => h1 c (by simp [hc])
  have hzone : ∀ c ∈ zone, c.isWhitespace = false := fun c hc => h1 c (by simp [hc])
  have hnl : ∀ t : Str, (∀ c ∈ t, c.isWhitespace = false) → '\n' ∉ t := fun t ht hm => absurd (ht _ hm) (by decide)
  have hl : '\n' ∉ day ++ ' ' :: time ++ ' ' :: zone := by
    simp [hnl _ hday, hnl _ htime, hnl _ hzone]
  have hne : day ++ ' ' :: time ++ ' ' :: zone ≠ [] := by simp
  have e1 : lastLine (day ++ ' ' :: time ++ ' ' :: zone) = .ok (day ++ ' ' :: time ++ ' ' :: zone) := by
    unfold lastLine
    rw [lines_single hl [] (Or.inl hne)]
    rfl
  have e2 : strip (day ++ ' ' :: time ++ ' ' :: zone) = day ++ ' ' :: time ++ ' ' :: zone := by
    have := strip_of_ends hne (fun c hc => by
        obtain ⟨d, r, rfl⟩ := List.exists_cons_of_ne_nil hd
        simp only [List.cons_append, List.head?_cons, Option.some.injEq] at hc
        exact hday c (by simp [hc])) (fun c hc => by
        have hz' : (day ++ ' ' :: time ++ ' ' :: zone).getLast? = zone.getLast? := by
          have : day ++ ' ' :: time ++ ' ' :: zone = (day ++ ' ' :: time ++ [' ']) ++ zone := by simp
          rw [this, List.getLast?_append, List.getLast?_eq_some_getLast hz]
          rfl
        rw [hz'] at hc
        exact hzone c (List.mem_of_getLast? hc)) [] (by simp)
    simpa using this
  have rep : ∀ (t a b : Str), (∀ c ∈ a, c.isWhitespace = false) → replaceSpace t (a ++ ' ' :: b) = a ++ t ++ b := by
    intro t a b ha
    induction a with
    | nil => simp [replaceSpace]
    | cons c a ih =>
      have hc : c ≠ ' ' := by
        rintro rfl
        exact absurd (ha ' ' (by simp)) (by decide)
      rw [List.cons_append, replaceSpace, if_neg hc, ih (fun d hd => ha d (List.mem_cons_of_mem _ hd))]
      simp
  unfold isoDate
  simp only [e1, bind, Except.bind, e2]
  have e3 : day ++ ' ' :: time ++ ' ' :: zone = day ++ ' ' :: (time ++ ' ' :: zone) := by simp
  rw [e3, rep _ _ _ hday]
  have e4 : day ++ ['T'] ++ (time ++ ' ' :: zone) = (day ++ 'T' :: time) ++ ' ' :: zone := by simp
  rw [e4, rep _ _ _ (by
    intro c hc
    rcases List.mem_append.mp hc with hc | hc
    · exact hday c hc
    · rcases List.mem_cons.mp hc with rfl | hc
      · decide
      · exact htime c hc)]
  simp

/-- the keywords in the repository are not used -/
theorem repo_keywords : versionsFromKeywords repoKeywords repoConfig.tagPrefix = .error .notThisMethod := by decide

/-- what git says in a working tree: the lines it prints, apart from the branch -/
structure Checkout (exec : Str → List Str → Exec) (describe full date : Str) : Prop where
  gitDir : ∃ out, exec "git".toList ["rev-parse".toList, "--git-dir".toList] = .ran out 0
  describe : exec "git".toList ["describe".toList, "--tags".toList, "--dirty".toList, "--always".toList, "--long".toList,
    "--match".toList, "v[[:digit:]]*".toList] = .ran (describe ++ ['\n']) 0
  full : exec "git".toList ["rev-parse".toList, "HEAD".toList] = .ran (full ++ ['\n']) 0
  show' : exec "git".toList ["show".toList, "-s".toList, "--format=%ci".toList, "HEAD".toList] = .ran (date ++ ['\n']) 0

/-- the working tree is on a branch, or at a commit of no branch -/
inductive OnBranch (exec : Str → List Str → Exec) : Prop
  | named (name : Str) (h : name ≠ []) (h' : ∀ c ∈ name, c.isWhitespace = false) (h'' : name ≠ "HEAD".toList)
      (e : exec "git".toList ["rev-parse".toList, "--abbrev-ref".toList, "HEAD".toList] = .ran (name ++ ['\n']) 0)
  | detached (out : Str) (e : exec "git".toList ["rev-parse".toList, "--abbrev-ref".toList, "HEAD".toList] = .ran "HEAD\n".toList 0)
      (e' : exec "git".toList ["branch".toList, "--contains".toList] = .ran out 0)

/-- no spaces -/
def Word (s : Str) : Prop := s ≠ [] ∧ ∀ c ∈ s, c.isWhitespace = false

theorem hex_word {c : Char} (h : isHex c) : c.isWhitespace = false := by
  rw [Bool.eq_false_iff]
  intro hw
  unfold Char.isWhitespace at hw
  simp only [Bool.or_eq_true, decide_eq_true_eq] at hw
  rcases hw with ((rfl | rfl) | rfl) | rfl <;> exact absurd h (by decide)

theorem digit_word {c : Char} (h : c.isDigit) : c.isWhitespace = false := hex_word (by unfold isHex; rw [h]; rfl)

theorem dirty_word {dirty : Bool} {c : Char} (hc : c ∈ if dirty then ['-', 'd', 'i', 'r', 't', 'y'] else []) : c.isWhitespace = false := by
  split at hc
  · simp only [List.mem_cons, List.not_mem_nil, or_false] at hc
    rcases hc with rfl | rfl | rfl | rfl | rfl | rfl <;> decide
  · cases hc

theorem describe_word {tag hex : Str} {n : Nat} {dirty : Bool} (ht : ∀ c ∈ tag, c.isWhitespace = false) (hh : ∀ c ∈ hex, isHex c) :
    Word (describeTag ['v'] tag n hex dirty) := by
  refine ⟨by simp [describeTag], fun c hc => ?_⟩
  unfold describeTag at hc
  simp only [List.mem_append, List.mem_cons, List.not_mem_nil, or_false] at hc
  rcases hc with ((((rfl | hc) | rfl | hc)) | rfl | rfl | hc) | hc
  · decide
  · exact ht c hc
  · decide
  · exact digit_word (dec_digits n c hc)
  · decide
  · decide
  · exact hex_word (hh c hc)
  · exact dirty_word hc

theorem run_git {exec : Str → List Str → Exec} {args : List Str} {out : Str} (h : exec "git".toList args = .ran out 0) :
    runCommand exec ["git".toList] args = (some (strip out), some 0) := by
  unfold runCommand
  rw [h]
  simp

theorem branch_ok {exec : Str → List Str → Exec} (h : OnBranch exec) :
    ∃ b, branchName (runCommand exec ["git".toList] ["rev-parse".toList, "--abbrev-ref".toList, "HEAD".toList])
      (runCommand exec ["git".toList] ["branch".toList, "--contains".toList]) = .ok b := by
  cases h with
  | named name h h' h'' e =>
    rw [run_git e, (strip_line h h').1]
    unfold branchName
    simp only [(strip_line h h').2, if_neg h'']
    exact ⟨_, rfl⟩
  | detached out e e' =>
    rw [run_git e, run_git e']
    have hs : strip (strip "HEAD\n".toList) = "HEAD".toList := by decide
    unfold branchName
    simp only [hs, if_true]
    have : ∀ l : List Str, ∃ b : Option Str,
        (if "master".toList ∈ l then Except.ok (some "master".toList) else Except.ok l.head? : Except VErr (Option Str)) = .ok b := by
      intro l
      split <;> exact ⟨_, rfl⟩
    exact this _

theorem root_two (file : List Str) :
    (splitChar '/' repoConfig.versionfileSource).foldl (fun r _ => r.dropLast) file = file.dropLast.dropLast := by
  have : splitChar '/' repoConfig.versionfileSource = ["geotiepoints".toList, "version.py".toList] := by decide
  rw [this]; rfl

/-- `get_versions` in a working tree in terms of `parseDescribe` -/
theorem versions_checkout {file : List Str} {exec : List Str → Str → List Str → Exec} {describe full day time zone : Str}
    (hg : Checkout (exec file.dropLast.dropLast) describe full (day ++ ' ' :: time ++ ' ' :: zone))
    (hb : OnBranch (exec file.dropLast.dropLast)) (hdw : Word describe) (hf : Word full)
    (hd : ∀ c ∈ day ++ time ++ zone, c.isWhitespace = false) (hd' : day ≠ []) (hz : zone ≠ []) (q : Pieces)
    (hq : ∀ b, parseDescribe ⟨full, full.take 7, b, false, none, none, 0, none⟩ ['v'] describe
      (runCommand (exec file.dropLast.dropLast) ["git".toList] ["rev-list".toList, "HEAD".toList, "--left-right".toList]).1
      = .ok { q with branch := b }) (hql : q.long = full) (hqe : q.error = none) :
    getVersions repoKeywords (some file) exec = .ok ⟨renderPep440 q, some full, some q.dirty, none, some (day ++ 'T' :: time ++ zone)⟩ := by
  obtain ⟨ql, qs, qb, qd, qe, qt, qn, qdate⟩ := q
  simp only at hql hqe
  subst hql hqe
  obtain ⟨o, hg0⟩ := hg.gitDir
  obtain ⟨b, hbn⟩ := branch_ok hb
  have hdate : strip (day ++ ' ' :: time ++ ' ' :: zone ++ ['\n']) = day ++ ' ' :: time ++ ' ' :: zone ∧
      strip (day ++ ' ' :: time ++ ' ' :: zone) = day ++ ' ' :: time ++ ' ' :: zone := by
    have hne : day ++ ' ' :: time ++ ' ' :: zone ≠ [] := by simp
    have a1 : ∀ c, (day ++ ' ' :: time ++ ' ' :: zone).head? = some c → c.isWhitespace = false := by
      intro c hc
      obtain ⟨d, r, rfl⟩ := List.exists_cons_of_ne_nil hd'
      simp only [List.cons_append, List.head?_cons, Option.some.injEq] at hc
      exact hd c (by simp [hc])
    have a2 : ∀ c, (day ++ ' ' :: time ++ ' ' :: zone).getLast? = some c → c.isWhitespace = false := by
      intro c hc
      have : day ++ ' ' :: time ++ ' ' :: zone = (day ++ ' ' :: time ++ [' ']) ++ zone := by simp
      rw [this, List.getLast?_append, List.getLast?_eq_some_getLast hz] at hc
      have hc' : zone.getLast hz = c := by simpa using hc
      rw [← hc']
      exact hd _ (by simp)
    refine ⟨strip_of_ends hne a1 a2 _ (by simp), ?_⟩
    have := strip_of_ends hne a1 a2 [] (by simp)
    simpa using this
  unfold getVersions getVersionsWith
  rw [repo_keywords]
  simp only [orElse, root_two]
  have hv : piecesFromVcs repoConfig.tagPrefix (fun args => runCommand (exec file.dropLast.dropLast) ["git".toList] args)
      = .ok ⟨ql, qs, b, qd, none, qt, qn, some (day ++ 'T' :: time ++ zone)⟩ := by
    have hpre : repoConfig.tagPrefix = ['v'] := rfl
    have hm : ['v'] ++ "[[:digit:]]*".toList = "v[[:digit:]]*".toList := by decide
    unfold piecesFromVcs
    simp only [hpre, hm, run_git hg0, run_git hg.describe, run_git hg.full, run_git hg.show', hbn,
      (strip_line hdw.1 hdw.2).1, (strip_line hdw.1 hdw.2).2, (strip_line hf.1 hf.2).1, (strip_line hf.1 hf.2).2,
      bind, Except.bind, hq, hdate.1, hdate.2,
      isoDate_line hd hd' hz, ne_eq, not_true_eq_false, if_false, Option.isSome_none, Bool.false_eq_true]
  simp only [hv, bind, Except.bind, render]
  have hs : ∀ p, renderStyle p repoConfig.style = .ok (renderPep440 p) := by
    intro p
    have : repoConfig.style = "pep440".toList := rfl
    unfold renderStyle
    rw [this]
    simp
  rw [hs]
  rfl

/-- **C80 (whole)**: in a working tree `n` commits after the tag `vTAG` (or on it, or dirty), on a branch or not, the version
is TAG, or TAG+n.gHEX, or TAG+n.gHEX.dirty, with the revision, the flag and the date of the commit. -/
theorem C80_checkout (file : List Str) (exec : List Str → Str → List Str → Exec) (tag : Str) (n : Nat)
    (hex full day time zone : Str) (dirty : Bool)
    (hg : Checkout (exec file.dropLast.dropLast) (describeTag ['v'] tag n hex dirty) full (day ++ ' ' :: time ++ ' ' :: zone))
    (hb : OnBranch (exec file.dropLast.dropLast))
    (ht : Word tag) (hp : '+' ∉ tag) (hx : hex ≠ []) (hh : ∀ c ∈ hex, isHex c) (hf : Word full)
    (hd : ∀ c ∈ day ++ time ++ zone, c.isWhitespace = false) (hd' : day ≠ []) (hz : zone ≠ []) :
    getVersions repoKeywords (some file) exec = .ok
      ⟨if n = 0 ∧ dirty = false then tag
        else tag ++ '+' :: dec n ++ '.' :: 'g' :: hex ++ (if dirty then ['.', 'd', 'i', 'r', 't', 'y'] else []),
      some full, some dirty, none, some (day ++ 'T' :: time ++ zone)⟩ := by
  rw [versions_checkout hg hb (describe_word ht.2 hh) hf hd hd' hz ⟨full, hex, none, dirty, none, some tag, n, none⟩
    (fun b => C80_tagged _ ['v'] tag n hex dirty _ (by simp) (fun hm => by
      rcases List.mem_append.mp hm with hm | hm
      · exact absurd hm (by decide)
      · exact absurd (ht.2 _ hm) (by decide)) hx hh) rfl rfl, render_tag rfl ht.1, if_neg hp]
  simp [suffix]

/-- **C80 (whole, no tags)**: in a working tree of a repository without a version tag the version is 0+untagged.n.gHEX, where
`n` is the number of commits and HEX the first seven digits of the revision, and `.dirty` if there are changes. -/
theorem C80_checkout_untagged (file : List Str) (exec : List Str → Str → List Str → Exec) (list : Str)
    (hex full day time zone : Str) (dirty : Bool)
    (hg : Checkout (exec file.dropLast.dropLast) (describeHex hex dirty) full (day ++ ' ' :: time ++ ' ' :: zone))
    (hb : OnBranch (exec file.dropLast.dropLast))
    (hl : exec file.dropLast.dropLast "git".toList ["rev-list".toList, "HEAD".toList, "--left-right".toList] = .ran list 0)
    (hx : hex ≠ []) (hh : ∀ c ∈ hex, isHex c) (hf : Word full)
    (hd : ∀ c ∈ day ++ time ++ zone, c.isWhitespace = false) (hd' : day ≠ []) (hz : zone ≠ []) :
    getVersions repoKeywords (some file) exec = .ok
      ⟨"0+untagged.".toList ++ dec (wordsAux [] (strip list)).length ++ '.' :: 'g' :: full.take 7 ++
        (if dirty then ['.', 'd', 'i', 'r', 't', 'y'] else []),
      some full, some dirty, none, some (day ++ 'T' :: time ++ zone)⟩ := by
  have hw : Word (describeHex hex dirty) := by
    refine ⟨by simp [describeHex, hx], fun c hc => ?_⟩
    unfold describeHex at hc
    rcases List.mem_append.mp hc with hc | hc
    · exact hex_word (hh c hc)
    · exact dirty_word hc
  rw [versions_checkout hg hb hw hf hd hd' hz
    ⟨full, full.take 7, none, dirty, none, none, (wordsAux [] (strip list)).length, none⟩
    (fun b => by rw [run_git hl]; exact C80_untagged _ ['v'] hex dirty _ hx hh) rfl rfl, render_untagged (Or.inl rfl)]
  simp [suffix]

/-! ### counting the commits -/

theorem words_spaces (t : Str) (ht : ∀ c ∈ t, c.isWhitespace) : wordsAux [] t = [] := by
  induction t with
  | nil => rfl
  | cons c t ih =>
    simp only [wordsAux, ht c (by simp), if_true]
    exact ih (fun d hd => ht d (by simp [hd]))

theorem words_trail (s t : Str) (ht : ∀ c ∈ t, c.isWhitespace) (acc : Str) : wordsAux acc (s ++ t) = wordsAux acc s := by
  induction s generalizing acc with
  | nil =>
    cases t with
    | nil => rfl
    | cons c t =>
      have h := words_spaces t (fun d hd => ht d (by simp [hd]))
      simp only [List.nil_append, wordsAux, ht c (by simp), if_true, h]
  | cons c s ih => simp only [List.cons_append, wordsAux, ih]

theorem words_lstrip (s : Str) : wordsAux [] (lstrip s) = wordsAux [] s := by
  induction s with
  | nil => rfl
  | cons c s ih =>
    unfold lstrip at ih ⊢
    rw [List.dropWhile_cons]
    by_cases h : c.isWhitespace = true
    · rw [if_pos h, ih]
      simp [wordsAux, h]
    · rw [if_neg h]

/-- stripping changes no word -/
theorem words_strip (s : Str) : wordsAux [] (strip s) = wordsAux [] s := by
  have h : lstrip s = strip s ++ ((lstrip s).reverse.takeWhile Char.isWhitespace).reverse := by
    unfold strip
    rw [← List.reverse_append]
    conv_lhs => rw [← List.reverse_reverse (lstrip s), ← List.takeWhile_append_dropWhile (p := Char.isWhitespace) (l := (lstrip s).reverse)]
    rfl
  rw [← words_lstrip s, h, words_trail]
  intro c hc
  exact List.mem_takeWhile_imp (List.mem_reverse.mp hc)

theorem words_cons (w : Str) (hw : ∀ c ∈ w, c.isWhitespace = false) (acc rest : Str) (h : acc ++ w ≠ []) :
    wordsAux acc (w ++ '\n' :: rest) = (acc.reverse ++ w) :: wordsAux [] rest := by
  induction w generalizing acc with
  | nil =>
    have ha : acc ≠ [] := by simpa using h
    have hn : ('\n').isWhitespace = true := by decide
    simp [wordsAux, ha, hn]
  | cons c w ih =>
    have hc : c.isWhitespace = false := hw c (by simp)
    simp only [List.cons_append, wordsAux, hc]
    rw [if_neg (by simp), ih (fun d hd => hw d (by simp [hd])) (c :: acc) (by simp)]
    simp

/-- one word on every line -/
theorem words_lines (ws : List Str) (h : ∀ w ∈ ws, Word w) : wordsAux [] (ws.flatMap (· ++ ['\n'])) = ws := by
  induction ws with
  | nil => rfl
  | cons w ws ih =>
    have hw := h w (by simp)
    rw [List.flatMap_cons, List.append_assoc, List.singleton_append, words_cons w hw.2 [] _ (by simpa using hw.1),
      ih (fun v hv => h v (by simp [hv]))]
    rfl

/-- **C80 (whole, number of commits)**: `git rev-list` prints one line for every commit; the number in the version is the number of
commits. -/
theorem C80_checkout_commits (file : List Str) (exec : List Str → Str → List Str → Exec) (commits : List Str) (hc : ∀ w ∈ commits, Word w)
    (hex full day time zone : Str) (dirty : Bool)
    (hg : Checkout (exec file.dropLast.dropLast) (describeHex hex dirty) full (day ++ ' ' :: time ++ ' ' :: zone))
    (hb : OnBranch (exec file.dropLast.dropLast))
    (hl : exec file.dropLast.dropLast "git".toList ["rev-list".toList, "HEAD".toList, "--left-right".toList]
      = .ran (commits.flatMap (· ++ ['\n'])) 0)
    (hx : hex ≠ []) (hh : ∀ c ∈ hex, isHex c) (hf : Word full)
    (hd : ∀ c ∈ day ++ time ++ zone, c.isWhitespace = false) (hd' : day ≠ []) (hz : zone ≠ []) :
    getVersions repoKeywords (some file) exec = .ok
      ⟨"0+untagged.".toList ++ dec commits.length ++ '.' :: 'g' :: full.take 7 ++
        (if dirty then ['.', 'd', 'i', 'r', 't', 'y'] else []),
      some full, some dirty, none, some (day ++ 'T' :: time ++ zone)⟩ := by
  rw [C80_checkout_untagged file exec _ hex full day time zone dirty hg hb hl hx hh hf hd hd' hz, words_strip, words_lines commits hc]

/-! ### examples -/

/-- a repository three commits after `v1.7.4`, with changes -/
def sampleGit (root : List Str) (_ : Str) (args : List Str) : Exec :=
  if root ≠ ["src".toList] then .ran [] 128
  else if args.head? = some "describe".toList then .ran "v1.7.4-3-gdeadbee-dirty\n".toList 0
  else if args = ["rev-parse".toList, "--abbrev-ref".toList, "HEAD".toList] then .ran "main\n".toList 0
  else if args.head? = some "show".toList then .ran "2024-05-06 07:08:09 +0200\n".toList 0
  else .ran "deadbeef\n".toList 0

theorem sampleGit_checkout : Checkout (sampleGit ["src".toList]) (describeTag ['v'] "1.7.4".toList 3 "deadbee".toList true) "deadbeef".toList
    ("2024-05-06".toList ++ ' ' :: "07:08:09".toList ++ ' ' :: "+0200".toList) where
  gitDir := ⟨"deadbeef\n".toList, by decide⟩
  describe := by
    have : describeTag ['v'] "1.7.4".toList 3 "deadbee".toList true ++ ['\n'] = "v1.7.4-3-gdeadbee-dirty\n".toList := by
      simp [describeTag, dec]
    rw [this]; decide
  full := by decide
  show' := by decide

example : getVersions repoKeywords (some ["src".toList, "geotiepoints".toList, "version.py".toList]) sampleGit = .ok
    ⟨"1.7.4+3.gdeadbee.dirty".toList, some "deadbeef".toList, some true, none, some "2024-05-06T07:08:09+0200".toList⟩ := by
  have h := C80_checkout ["src".toList, "geotiepoints".toList, "version.py".toList] sampleGit "1.7.4".toList 3 "deadbee".toList
    "deadbeef".toList "2024-05-06".toList "07:08:09".toList "+0200".toList true sampleGit_checkout
    (.named "main".toList (by decide) (by decide) (by decide) (by decide)) ⟨by decide, by decide⟩ (by decide) (by decide) (by decide)
    ⟨by decide, by decide⟩ (by decide) (by decide) (by decide)
  rw [h]
  simp [dec]
/-- a detached commit without tags -/
def sampleDetached (_ : List Str) (_ : Str) (args : List Str) : Exec :=
  if args.head? = some "describe".toList then .ran "deadbee\n".toList 0
  else if args = ["rev-parse".toList, "--abbrev-ref".toList, "HEAD".toList] then .ran "HEAD\n".toList 0
  else if args.head? = some "branch".toList then .ran "* (no branch)\n".toList 0
  else if args.head? = some "rev-list".toList then .ran "deadbeef\nabadcafe\n".toList 0
  else if args.head? = some "show".toList then .ran "2024-05-06 07:08:09 +0200\n".toList 0
  else .ran "deadbeef\n".toList 0

example : getVersions repoKeywords (some ["src".toList, "geotiepoints".toList, "version.py".toList]) sampleDetached = .ok
    ⟨"0+untagged.2.gdeadbee".toList, some "deadbeef".toList, some false, none, some "2024-05-06T07:08:09+0200".toList⟩ := by
  have h := C80_checkout_untagged ["src".toList, "geotiepoints".toList, "version.py".toList] sampleDetached "deadbeef\nabadcafe\n".toList
    "deadbee".toList "deadbeef".toList "2024-05-06".toList "07:08:09".toList "+0200".toList false
    ⟨⟨"deadbeef\n".toList, by decide⟩, by decide, by decide, by decide⟩
    (.detached "* (no branch)\n".toList (by decide) (by decide)) (by decide) (by decide) (by decide)
    ⟨by decide, by decide⟩ (by decide) (by decide) (by decide)
  rw [h]
  simp [dec, strip, lstrip, wordsAux]

/-- the same, by the number of commits -/
example : getVersions repoKeywords (some ["src".toList, "geotiepoints".toList, "version.py".toList]) sampleDetached = .ok
    ⟨"0+untagged.2.gdeadbee".toList, some "deadbeef".toList, some false, none, some "2024-05-06T07:08:09+0200".toList⟩ := by
  have h := C80_checkout_commits ["src".toList, "geotiepoints".toList, "version.py".toList] sampleDetached ["deadbeef".toList, "abadcafe".toList]
    (by
      intro w hw
      rcases List.mem_cons.mp hw with rfl | hw
      · exact ⟨by decide, by decide⟩
      · rcases List.mem_cons.mp hw with rfl | hw
        · exact ⟨by decide, by decide⟩
        · cases hw)
    "deadbee".toList "deadbeef".toList "2024-05-06".toList "07:08:09".toList "+0200".toList false
    ⟨⟨"deadbeef\n".toList, by decide⟩, by decide, by decide, by decide⟩
    (.detached "* (no branch)\n".toList (by decide) (by decide)) (by decide) (by decide) (by decide)
    ⟨by decide, by decide⟩ (by decide) (by decide) (by decide)
  rw [h]
  simp [dec]

example : ∃ q, parseDescribe sample "v".toList "v1.7.4-rc-3-gdeadbee-dirty".toList none = .ok q ∧
    "v".toList ++ renderGitDescribeLong q = "v1.7.4-rc-3-gdeadbee-dirty".toList := by
  have h := C80_roundtrip sample "v".toList "1.7.4-rc".toList 3 "deadbee".toList true none (by decide) (by decide) (by decide) (by decide)
  have e : describeTag "v".toList "1.7.4-rc".toList 3 "deadbee".toList true = "v1.7.4-rc-3-gdeadbee-dirty".toList := by
    simp [describeTag, dec]
  rw [e] at h
  exact h

example (q : Pieces) (h : parseDescribe sample "v".toList "v1-2-gabc".toList none = .ok q) (he : q.error = none)
    (ht : q.tag = some "1".toList) : ∃ num, Num num ∧ q.distance = value num := by
  obtain ⟨num, h1, h2, _⟩ := C80_sound sample "v".toList _ _ none q h he ht
  exact ⟨num, h1, h2⟩

end Verif.Props.Version
