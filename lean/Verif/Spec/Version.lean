/-!
# Version identifiers (PEP 440, canonical form) and their order, independently of version.py
-/

namespace Verif.Spec.Version

/-- a string -/
abbrev Str := List Char

/-- a number -/
def Num (s : Str) : Prop := s ≠ [] ∧ ∀ c ∈ s, c.isDigit

/-- a segment of a local version: letters and digits -/
def Segment (s : Str) : Prop := s ≠ [] ∧ ∀ c ∈ s, c.isDigit ∨ c.isLower

/-- non-empty pieces, each with property `P`, separated by dots -/
inductive Dotted (P : Str → Prop) : Str → Prop
  | one {s} : P s → Dotted P s
  | more {r s} : Dotted P r → P s → Dotted P (r ++ '.' :: s)

/-- `[N!]N(.N)*[{a|b|rc}N][.postN][.devN]` -/
structure IsPublic (s : Str) : Prop where
  parts : ∃ epoch release pre post dev, s = epoch ++ release ++ pre ++ post ++ dev ∧
    (epoch = [] ∨ ∃ n, Num n ∧ epoch = n ++ ['!']) ∧ Dotted Num release ∧
    (pre = [] ∨ ∃ k n, (k = ['a'] ∨ k = ['b'] ∨ k = ['r', 'c']) ∧ Num n ∧ pre = k ++ n) ∧
    (post = [] ∨ ∃ n, Num n ∧ post = ['.', 'p', 'o', 's', 't'] ++ n) ∧
    (dev = [] ∨ ∃ n, Num n ∧ dev = ['.', 'd', 'e', 'v'] ++ n)

/-- a version: a public part, and possibly `+` and a local part -/
def IsVersion (s : Str) : Prop :=
  IsPublic s ∨ ∃ pub loc, IsPublic pub ∧ Dotted Segment loc ∧ s = pub ++ '+' :: loc

/-- what precedes the first `+` -/
def publicPart (s : Str) : Str := s.takeWhile (· != '+')

/-- what follows the first `+` -/
def localPart (s : Str) : Str := (s.dropWhile (· != '+')).drop 1

/-- the number a string of digits stands for -/
def value (s : Str) : Nat := s.foldl (fun n c => 10 * n + (c.toNat - 48)) 0

/-- a segment of the local version as it is compared -/
inductive Key where
  | text (s : Str)
  | num (n : Nat)

/-- numbers follow texts; numbers are ordered by size, texts by character -/
inductive Key.Lt : Key → Key → Prop
  | text_num {s n} : Lt (.text s) (.num n)
  | num_num {m n} : m < n → Lt (.num m) (.num n)
  | text_text {s t} : List.Lex (fun a b : Char => a.toNat < b.toNat) s t → Lt (.text s) (.text t)

/-- the key of one segment -/
def key (s : Str) : Key := if s.all Char.isDigit then .num (value s) else .text s

/-- the keys of the local version (none: the empty list, which precedes every other) -/
def localKeys (v : Str) : List Key := if '+' ∈ v then ((localPart v).splitOn '.').map key else []

/-- `v` precedes `w`: the public parts agree and the local parts are in order -/
def Precedes (v w : Str) : Prop := publicPart v = publicPart w ∧ List.Lex Key.Lt (localKeys v) (localKeys w)

end Verif.Spec.Version
