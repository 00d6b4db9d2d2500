import Verif.Model.Version
import Verif.Spec.Version
import Mathlib.Tactic.Ring
import Mathlib.Data.List.Basic

/-!
# C79: the version string of a checkout (`render_pep440`)
-/

namespace Verif.Props.Version
open Verif.Version
open Verif.Spec.Version (IsVersion IsPublic Num Segment Dotted publicPart localPart localKeys Precedes Key key value)

/-! ### decimal numbers -/

theorem digit_isDigit {k : Nat} (h : k < 10) : (Char.ofNat (48 + k)).isDigit ∧ (Char.ofNat (48 + k)).toNat = 48 + k := by
  have : k = 0 ∨ k = 1 ∨ k = 2 ∨ k = 3 ∨ k = 4 ∨ k = 5 ∨ k = 6 ∨ k = 7 ∨ k = 8 ∨ k = 9 := by omega
  rcases this with rfl | rfl | rfl | rfl | rfl | rfl | rfl | rfl | rfl | rfl <;> decide

theorem dec_digits (n : Nat) : ∀ c ∈ dec n, c.isDigit := by
  induction n using Nat.strongRecOn with
  | _ n ih =>
    rw [dec]
    split
    · intro c hc
      rw [List.mem_singleton.mp hc]
      exact (digit_isDigit (by assumption)).1
    · intro c hc
      rcases List.mem_append.mp hc with hc | hc
      · exact ih (n / 10) (by omega) c hc
      · rw [List.mem_singleton.mp hc]
        exact (digit_isDigit (Nat.mod_lt _ (by norm_num))).1

theorem dec_ne_nil (n : Nat) : dec n ≠ [] := by
  rw [dec]; split <;> simp

theorem value_dec (n : Nat) : value (dec n) = n := by
  induction n using Nat.strongRecOn with
  | _ n ih =>
    rw [dec]
    split
    · next h => simp [value, (digit_isDigit h).2]
    · next h =>
      have e := ih (n / 10) (by omega)
      unfold value at e ⊢
      rw [List.foldl_append, e]
      simp only [List.foldl_cons, List.foldl_nil, (digit_isDigit (Nat.mod_lt n (by norm_num : 10 > 0))).2]
      omega

theorem intOf_dec (n : Nat) : intOf (dec n) = n := value_dec n

theorem dec_injective {m n : Nat} (h : dec m = dec n) : m = n := by
  rw [← value_dec m, h, value_dec]

theorem num_dec (n : Nat) : Num (dec n) := ⟨dec_ne_nil n, dec_digits n⟩

/-! ### the parts of a version -/

/-- a character that is neither digit nor lower-case letter is in no segment -/
theorem plus_not_digit {c : Char} (h : c.isDigit) : c ≠ '+' ∧ c ≠ '.' ∧ c ≠ '-' := by
  refine ⟨?_, ?_, ?_⟩ <;> · rintro rfl; exact absurd h (by decide)

theorem plus_not_lower {c : Char} (h : c.isLower) : c ≠ '+' ∧ c ≠ '.' ∧ c ≠ '-' := by
  refine ⟨?_, ?_, ?_⟩ <;> · rintro rfl; exact absurd h (by decide)

theorem dotted_no_plus {P : Str → Prop} (hP : ∀ s, P s → '+' ∉ s) {s : Str} (h : Dotted P s) : '+' ∉ s := by
  induction h with
  | one h => exact hP _ h
  | more h1 h2 ih =>
    intro hm
    rcases List.mem_append.mp hm with hm | hm
    · exact ih hm
    · rcases List.mem_cons.mp hm with hm | hm
      · exact absurd hm (by decide)
      · exact hP _ h2 hm

theorem num_no_plus (s : Str) (h : Num s) : '+' ∉ s := fun hm => (plus_not_digit (h.2 _ hm)).1 rfl

theorem public_no_plus {s : Str} (h : IsPublic s) : '+' ∉ s := by
  obtain ⟨e, r, a, p, d, rfl, he, hr, ha, hp, hd⟩ := h.parts
  simp only [List.mem_append, not_or]
  refine ⟨⟨⟨⟨?_, dotted_no_plus num_no_plus hr⟩, ?_⟩, ?_⟩, ?_⟩
  · rcases he with rfl | ⟨n, hn, rfl⟩
    · simp
    · have := num_no_plus n hn; simp [this]
  · rcases ha with rfl | ⟨k, n, hk, hn, rfl⟩
    · simp
    · have := num_no_plus n hn
      rcases hk with rfl | rfl | rfl <;> simp [this]
  · rcases hp with rfl | ⟨n, hn, rfl⟩
    · simp
    · have := num_no_plus n hn; simp [this]
  · rcases hd with rfl | ⟨n, hn, rfl⟩
    · simp
    · have := num_no_plus n hn; simp [this]

theorem publicPart_plus {a b : Str} (h : '+' ∉ a) : publicPart (a ++ '+' :: b) = a := by
  unfold publicPart
  rw [List.takeWhile_append_of_pos (by intro c hc; simp; rintro rfl; exact h hc)]
  simp

theorem publicPart_self {a : Str} (h : '+' ∉ a) : publicPart a = a := by
  unfold publicPart
  have := List.takeWhile_append_of_pos (p := (· != '+')) (l₁ := a) (l₂ := []) (by intro c hc; simp; rintro rfl; exact h hc)
  simpa using this

theorem localPart_plus {a b : Str} (h : '+' ∉ a) : localPart (a ++ '+' :: b) = b := by
  unfold localPart
  rw [List.dropWhile_append_of_pos (by intro c hc; simp; rintro rfl; exact h hc)]
  simp

theorem localKeys_plus {a b : Str} (h : '+' ∉ a) : localKeys (a ++ '+' :: b) = (b.splitOn '.').map key := by
  unfold localKeys
  rw [if_pos (by simp), localPart_plus h]

theorem localKeys_none {a : Str} (h : '+' ∉ a) : localKeys a = [] := by
  unfold localKeys
  rw [if_neg h]

theorem splitOn_dot (a b : Str) : (a ++ '.' :: b).splitOn '.' = a.splitOn '.' ++ b.splitOn '.' := by
  unfold List.splitOn
  exact List.splitOnP_append_cons a b (by simp)

theorem splitOn_single {a : Str} (h : '.' ∉ a) : a.splitOn '.' = [a] := by
  unfold List.splitOn
  refine List.splitOnP_eq_singleton (fun c hc => ?_)
  simp only [beq_eq_false_iff_ne, ne_eq]
  rintro rfl; exact h hc

theorem key_dec (n : Nat) : key (dec n) = .num n := by
  unfold key
  rw [if_pos (by rw [List.all_eq_true]; exact dec_digits n), value_dec]

/-! ### rendering -/

/-- what is added to the tag (without the `+` or `.`) -/
def suffix (p : Pieces) : Str := dec p.distance ++ '.' :: 'g' :: p.short ++ (if p.dirty then ['.', 'd', 'i', 'r', 't', 'y'] else [])

theorem render_tag {p : Pieces} {tag : Str} (h : p.tag = some tag) (h0 : tag ≠ []) :
    renderPep440 p = if p.distance = 0 ∧ p.dirty = false then tag
      else tag ++ (if '+' ∈ tag then '.' else '+') :: suffix p := by
  have ht : p.tag? = some tag := by
    unfold Pieces.tag?
    rw [h]
    cases tag with
    | nil => exact absurd rfl h0
    | cons a b => rfl
  unfold renderPep440 Pieces.moved
  rw [ht]
  by_cases hd : p.distance = 0 <;> cases hy : p.dirty <;> by_cases hp : '+' ∈ tag <;>
    simp [hd, hp, hy, plusOrDot, suffix, dotDirty]

theorem render_untagged {p : Pieces} (h : p.tag = none ∨ p.tag = some []) :
    renderPep440 p = ['0', '+', 'u', 'n', 't', 'a', 'g', 'g', 'e', 'd', '.'] ++ suffix p := by
  have ht : p.tag? = none := by
    unfold Pieces.tag?
    rcases h with h | h <;> rw [h]
  unfold renderPep440
  rw [ht]
  cases hy : p.dirty <;> simp [hy, suffix, dotDirty]

/-- **C79 (on a tag)**: a clean checkout of a tagged commit has the tag as its version. -/
theorem C79_clean (p : Pieces) (tag : Str) (h : p.tag = some tag) (h0 : tag ≠ []) (hd : p.distance = 0) (hy : p.dirty = false) :
    renderPep440 p = tag := by
  rw [render_tag h h0, if_pos ⟨hd, hy⟩]

theorem segment_dec (n : Nat) : Segment (dec n) := ⟨dec_ne_nil n, fun c hc => Or.inl (dec_digits n c hc)⟩

theorem segment_g {s : Str} (h : ∀ c ∈ s, c.isDigit ∨ c.isLower) : Segment ('g' :: s) := by
  refine ⟨by simp, fun c hc => ?_⟩
  rcases List.mem_cons.mp hc with rfl | hc
  · exact Or.inr (by decide)
  · exact h c hc

theorem dotted_append {P : Str → Prop} {a b : Str} (ha : Dotted P a) (hb : Dotted P b) : Dotted P (a ++ '.' :: b) := by
  induction hb with
  | one h => exact Dotted.more ha h
  | @more r s h1 h2 ih =>
    have : a ++ '.' :: (r ++ '.' :: s) = (a ++ '.' :: r) ++ '.' :: s := by simp
    rw [this]
    exact Dotted.more ih h2

theorem segment_dirty : Segment ['d', 'i', 'r', 't', 'y'] := by
  refine ⟨by simp, fun c hc => Or.inr ?_⟩
  simp only [List.mem_cons, List.not_mem_nil, or_false] at hc
  rcases hc with rfl | rfl | rfl | rfl | rfl <;> decide

theorem dotted_suffix {p : Pieces} (h : ∀ c ∈ p.short, c.isDigit ∨ c.isLower) : Dotted Segment (suffix p) := by
  have h1 : Dotted Segment (dec p.distance ++ '.' :: 'g' :: p.short) :=
    Dotted.more (Dotted.one (segment_dec _)) (segment_g h)
  unfold suffix
  cases p.dirty
  · simpa using h1
  · have : dec p.distance ++ '.' :: 'g' :: p.short ++ ['.', 'd', 'i', 'r', 't', 'y']
        = (dec p.distance ++ '.' :: 'g' :: p.short) ++ '.' :: ['d', 'i', 'r', 't', 'y'] := rfl
    simp only [if_true]
    rw [this]
    exact Dotted.more h1 segment_dirty

/-- **C79 (valid)**: if the tag (without its prefix) is a version, so is the rendered string, with the same public part. -/
theorem C79_valid (p : Pieces) (tag : Str) (h : p.tag = some tag) (hv : IsVersion tag)
    (hs : ∀ c ∈ p.short, c.isDigit ∨ c.isLower) :
    IsVersion (renderPep440 p) ∧ publicPart (renderPep440 p) = publicPart tag := by
  have h0 : tag ≠ [] := by
    rintro rfl
    rcases hv with hv | ⟨a, b, -, -, e⟩
    · obtain ⟨e, r, a, q, d, he, -, hr, -⟩ := hv.parts
      have : r = [] := by
        have := congrArg List.length he
        simp only [List.length_nil, List.length_append] at this
        exact List.length_eq_zero_iff.mp (by omega)
      subst this
      have key : ∀ s, Dotted Num s → s ≠ [] := by
        intro s hs
        cases hs with
        | one h => exact h.1
        | more h1 h2 => simp
      exact key [] hr rfl
    · have := congrArg List.length e
      simp at this
  rw [render_tag h h0]
  split
  · exact ⟨hv, rfl⟩
  · rcases hv with hv | ⟨pub, loc, h1, h2, rfl⟩
    · have hp := public_no_plus hv
      rw [if_neg hp, publicPart_plus hp, publicPart_self hp]
      exact ⟨Or.inr ⟨tag, suffix p, hv, dotted_suffix hs, rfl⟩, rfl⟩
    · have hp := public_no_plus h1
      rw [if_pos (by simp), publicPart_plus hp]
      have : pub ++ '+' :: loc ++ '.' :: suffix p = pub ++ '+' :: (loc ++ '.' :: suffix p) := by simp
      rw [this, publicPart_plus hp]
      exact ⟨Or.inr ⟨pub, _, h1, dotted_append h2 (dotted_suffix hs), rfl⟩, rfl⟩

/-- **C79 (no tags)**: without a tag the version is a local version of `0`. -/
theorem C79_untagged (p : Pieces) (h : p.tag = none) (hs : ∀ c ∈ p.short, c.isDigit ∨ c.isLower) :
    IsVersion (renderPep440 p) ∧ publicPart (renderPep440 p) = ['0'] := by
  rw [render_untagged (Or.inl h)]
  have e : ['0', '+', 'u', 'n', 't', 'a', 'g', 'g', 'e', 'd', '.'] ++ suffix p
      = ['0'] ++ '+' :: (['u', 'n', 't', 'a', 'g', 'g', 'e', 'd'] ++ '.' :: suffix p) := rfl
  rw [e, publicPart_plus (by decide)]
  refine ⟨Or.inr ⟨['0'], _, ⟨[], ['0'], [], [], [], rfl, Or.inl rfl, Dotted.one ⟨by simp, by decide⟩, Or.inl rfl, Or.inl rfl, Or.inl rfl⟩,
    dotted_append (Dotted.one ⟨by simp, ?_⟩) (dotted_suffix hs), rfl⟩, rfl⟩
  decide

theorem lex_append {r : Key → Key → Prop} (k : List Key) {a b : List Key} (h : List.Lex r a b) : List.Lex r (k ++ a) (k ++ b) := by
  induction k with
  | nil => exact h
  | cons x k ih => exact List.Lex.cons ih

theorem keys_suffix (p : Pieces) : ∃ ks, ((suffix p).splitOn '.').map key = .num p.distance :: ks := by
  have e : suffix p = dec p.distance ++ '.' :: ('g' :: p.short ++ (if p.dirty then ['.', 'd', 'i', 'r', 't', 'y'] else [])) := by
    simp [suffix]
  rw [e, splitOn_dot, splitOn_single (fun hm => (plus_not_digit (dec_digits _ _ hm)).2.1 rfl)]
  simp [key_dec]

/-- the tag without or with a suffix -/
theorem keys_render {p : Pieces} {tag : Str} (h : p.tag = some tag) (h0 : tag ≠ []) :
    publicPart (renderPep440 p) = publicPart tag ∧
    localKeys (renderPep440 p) = localKeys tag ++
      if p.distance = 0 ∧ p.dirty = false then [] else ((suffix p).splitOn '.').map key := by
  rw [render_tag h h0]
  split
  · simp
  · by_cases hp : '+' ∈ tag
    · obtain ⟨a, b, rfl, ha⟩ := List.eq_append_cons_of_mem hp
      rw [if_pos hp, publicPart_plus ha]
      have : a ++ '+' :: b ++ '.' :: suffix p = a ++ '+' :: (b ++ '.' :: suffix p) := by simp
      rw [this, publicPart_plus ha, localKeys_plus ha, localKeys_plus ha, splitOn_dot, List.map_append]
      exact ⟨rfl, rfl⟩
    · rw [if_neg hp, publicPart_plus hp, publicPart_self hp, localKeys_plus hp, localKeys_none hp]
      exact ⟨rfl, rfl⟩

/-- **C79 (order)**: with the same tag, more commits make a later version, and so does dirt on a tagged commit. -/
theorem C79_order (p q : Pieces) (tag : Str) (hp : p.tag = some tag) (hq : q.tag = some tag) (h0 : tag ≠ [])
    (h : p.distance < q.distance ∨ (p.distance = 0 ∧ p.dirty = false ∧ q.dirty = true)) :
    Precedes (renderPep440 p) (renderPep440 q) := by
  obtain ⟨p1, p2⟩ := keys_render hp h0
  obtain ⟨q1, q2⟩ := keys_render hq h0
  refine ⟨by rw [p1, q1], ?_⟩
  rw [p2, q2]
  refine lex_append _ ?_
  have hq' : ¬ (q.distance = 0 ∧ q.dirty = false) := by
    rcases h with h | h
    · omega
    · rw [h.2.2]; simp
  obtain ⟨kq, eq⟩ := keys_suffix q
  rw [if_neg hq', eq]
  by_cases hp' : p.distance = 0 ∧ p.dirty = false
  · rw [if_pos hp']; exact List.Lex.nil
  · obtain ⟨kp, ep⟩ := keys_suffix p
    rw [if_neg hp', ep]
    refine List.Lex.rel (Key.Lt.num_num ?_)
    rcases h with h | h
    · exact h
    · exact absurd ⟨h.1, h.2.1⟩ hp'

theorem takeWhile_prefix {f : Char → Bool} {a b : Str} (ha : ∀ c ∈ a, f c) (hb : ∀ c, b.head? = some c → f c = false) :
    (a ++ b).takeWhile f = a ∧ (a ++ b).dropWhile f = b := by
  rw [List.takeWhile_append_of_pos ha, List.dropWhile_append_of_pos ha]
  cases b with
  | nil => simp
  | cons c b => simp [hb c rfl]

/-- two strings with the same characters up to the first that fails -/
theorem split_at {f : Char → Bool} {a a' b b' : Str} (h : a ++ b = a' ++ b') (ha : ∀ c ∈ a, f c) (ha' : ∀ c ∈ a', f c)
    (hb : ∀ c, b.head? = some c → f c = false) (hb' : ∀ c, b'.head? = some c → f c = false) : a = a' ∧ b = b' := by
  obtain ⟨h1, h2⟩ := takeWhile_prefix ha hb
  obtain ⟨h3, h4⟩ := takeWhile_prefix ha' hb'
  rw [h] at h1 h2
  exact ⟨h1.symm.trans h3, h2.symm.trans h4⟩

/-- **C79 (identification)**: for tags without a local part, the version determines tag, number of commits and dirt, and the
commit unless it is the tagged one itself. -/
theorem C79_identifies (p q : Pieces) (tp tq : Str) (hp : p.tag = some tp) (hq : q.tag = some tq) (np : tp ≠ []) (nq : tq ≠ [])
    (pp : '+' ∉ tp) (pq : '+' ∉ tq) (sp : ∀ c ∈ p.short, c.isDigit ∨ c.isLower) (sq : ∀ c ∈ q.short, c.isDigit ∨ c.isLower)
    (h : renderPep440 p = renderPep440 q) :
    tp = tq ∧ p.distance = q.distance ∧ p.dirty = q.dirty ∧ (p.distance ≠ 0 ∨ p.dirty → p.short = q.short) := by
  rw [render_tag hp np, render_tag hq nq, if_neg pp, if_neg pq] at h
  have ht : ∀ (t : Str), '+' ∉ t → ∀ c ∈ t, (fun c => c != '+') c = true := by
    intro t ht c hc
    simp only [bne_iff_ne, ne_eq]
    rintro rfl; exact ht hc
  have key : tp ++ (if p.distance = 0 ∧ p.dirty = false then [] else '+' :: suffix p)
      = tq ++ (if q.distance = 0 ∧ q.dirty = false then [] else '+' :: suffix q) := by
    by_cases c1 : p.distance = 0 ∧ p.dirty = false <;> by_cases c2 : q.distance = 0 ∧ q.dirty = false <;>
      simpa only [c1, c2, if_true, if_false, and_self, List.append_nil] using h
  obtain ⟨e1, e2⟩ := split_at (f := fun c => c != '+') key (ht _ pp) (ht _ pq) (by intro c hc; split at hc <;> simp at hc; subst hc; decide)
    (by intro c hc; split at hc <;> simp at hc; subst hc; decide)
  refine ⟨e1, ?_⟩
  by_cases c1 : p.distance = 0 ∧ p.dirty = false
  · by_cases c2 : q.distance = 0 ∧ q.dirty = false
    · exact ⟨by rw [c1.1, c2.1], by rw [c1.2, c2.2], by rw [c1.1, c1.2]; simp⟩
    · rw [if_pos c1, if_neg c2] at e2; cases e2
  · by_cases c2 : q.distance = 0 ∧ q.dirty = false
    · rw [if_neg c1, if_pos c2] at e2; cases e2
    · rw [if_neg c1, if_neg c2] at e2
      injection e2 with _ e2
      unfold suffix at e2
      rw [List.append_assoc, List.append_assoc] at e2
      obtain ⟨e3, e4⟩ := split_at (f := Char.isDigit) e2 (dec_digits _) (dec_digits _)
        (by intro c hc; simp only [List.cons_append, List.head?_cons, Option.some.injEq] at hc; subst hc; decide)
        (by intro c hc; simp only [List.cons_append, List.head?_cons, Option.some.injEq] at hc; subst hc; decide)
      have hs : ∀ (t : Str), (∀ c ∈ t, c.isDigit ∨ c.isLower) → ∀ c ∈ t, (fun c => c != '.') c = true := by
        intro t ht c hc
        simp only [bne_iff_ne, ne_eq]
        rcases ht c hc with h | h
        · exact (plus_not_digit h).2.1
        · exact (plus_not_lower h).2.1
      simp only [List.cons_append, List.cons.injEq, true_and] at e4
      obtain ⟨e5, e6⟩ := split_at (f := fun c => c != '.') e4 (hs _ sp) (hs _ sq)
        (by intro c hc; split at hc <;> simp at hc; subst hc; decide) (by intro c hc; split at hc <;> simp at hc; subst hc; decide)
      refine ⟨dec_injective e3, ?_, fun _ => e5⟩
      cases hy : p.dirty <;> cases hz : q.dirty <;> simp [hy, hz] at e6 ⊢

/-! ### examples -/

/-- three commits after `v1.7.4`, dirty -/
def sample : Pieces := ⟨"deadbeef".toList, "deadbee".toList, some "main".toList, true, none, some "1.7.4".toList, 3, none⟩

theorem sample_version : IsVersion "1.7.4".toList := by
  refine Or.inl ⟨[], "1.7.4".toList, [], [], [], rfl, Or.inl rfl, ?_, Or.inl rfl, Or.inl rfl, Or.inl rfl⟩
  have h1 : Num ['1'] := ⟨by simp, by decide⟩
  have h7 : Num ['7'] := ⟨by simp, by decide⟩
  have h4 : Num ['4'] := ⟨by simp, by decide⟩
  exact Dotted.more (Dotted.more (Dotted.one h1) h7) h4

example : IsVersion (renderPep440 sample) ∧ publicPart (renderPep440 sample) = publicPart "1.7.4".toList :=
  C79_valid sample "1.7.4".toList rfl sample_version (by decide)
example : Precedes (renderPep440 sample) (renderPep440 { sample with distance := 12, short := "0".toList }) :=
  C79_order _ _ "1.7.4".toList rfl rfl (by decide) (Or.inl (by decide))
example (q : Pieces) (tq : Str) (hq : q.tag = some tq) (nq : tq ≠ []) (pq : '+' ∉ tq) (sq : ∀ c ∈ q.short, c.isDigit ∨ c.isLower)
    (h : renderPep440 sample = renderPep440 q) : q.distance = 3 ∧ q.dirty = true :=
  have := C79_identifies sample q "1.7.4".toList tq rfl hq (by decide) nq (by decide) pq (by decide) sq h
  ⟨this.2.1.symm, this.2.2.1.symm⟩
example : IsVersion (renderPep440 { sample with tag := none }) ∧ publicPart (renderPep440 { sample with tag := none }) = ['0'] :=
  C79_untagged _ rfl (by decide)
example : renderPep440 { sample with distance := 0, dirty := false } = "1.7.4".toList := C79_clean _ _ rfl (by decide) rfl rfl

end Verif.Props.Version
