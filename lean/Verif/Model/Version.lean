/-!
# `version.py`: the version of the package

Strings are lists of characters.  Simplifications: whitespace and digits are the ASCII ones; lines end with `\n`; paths are
absolute and normalised (`os.path.realpath`), given by their components; the environment and what is printed (`verbose`) are
not modelled.
-/

namespace Verif.Version

/-- a Python string -/
abbrev Str := List Char

/-- the exceptions of version.py; `notThisMethod` is its own class (lines 54-55) -/
inductive VErr where
  | notThisMethod | valueError | attributeError | indexError | keyError
deriving DecidableEq, Repr

/-! ### string functions of Python -/

/-- `s.lstrip()` -/
def lstrip (s : Str) : Str := s.dropWhile Char.isWhitespace

/-- `s.strip()` -/
def strip (s : Str) : Str := (lstrip (lstrip s).reverse).reverse

/-- is the character in the argument of `strip("()")` -/
def isParen (c : Char) : Bool := c == '(' || c == ')'

/-- `s.strip("()")` -/
def stripParens (s : Str) : Str := ((s.dropWhile isParen).reverse.dropWhile isParen).reverse

/-- `s.replace(" ", t, 1)` -/
def replaceSpace (t : Str) : Str → Str
  | [] => []
  | c :: s => if c = ' ' then t ++ s else c :: replaceSpace t s

/-- `s.split(c)` for one character -/
def splitChar (c : Char) : Str → List Str
  | [] => [[]]
  | x :: s =>
    if x = c then [] :: splitChar c s
    else match splitChar c s with
      | [] => [[x]]
      | p :: ps => (x :: p) :: ps

/-- `s.split(sep)` for a string, from a position on; `skip` characters belong to a separator already found and `acc` is the
piece so far, reversed -/
def splitStrAux (sep : Str) (acc : Str) : Nat → Str → List Str
  | _, [] => [acc.reverse]
  | skip + 1, _ :: s => splitStrAux sep acc skip s
  | 0, c :: s =>
    if sep.isPrefixOf (c :: s) then acc.reverse :: splitStrAux sep [] (sep.length - 1) s
    else splitStrAux sep (c :: acc) 0 s

/-- `s.split(sep)` -/
def splitStr (sep s : Str) : List Str := splitStrAux sep [] 0 s

/-- `s.split()`: the words -/
def wordsAux (acc : Str) : Str → List Str
  | [] => if acc = [] then [] else [acc.reverse]
  | c :: s => if c.isWhitespace then (if acc = [] then wordsAux [] s else acc.reverse :: wordsAux [] s) else wordsAux (c :: acc) s

/-- `s.splitlines()` -/
def linesAux (acc : Str) : Str → List Str
  | [] => if acc = [] then [] else [acc.reverse]
  | c :: s => if c = '\n' then acc.reverse :: linesAux [] s else linesAux (c :: acc) s

/-- `s.splitlines()[-1]` -/
def lastLine (s : Str) : Except VErr Str :=
  match (linesAux [] s).getLast? with
  | some l => .ok l
  | none => .error .indexError

/-- `"%d" % n` -/
def dec (n : Nat) : Str :=
  if n < 10 then [Char.ofNat (48 + n)] else dec (n / 10) ++ [Char.ofNat (48 + n % 10)]
termination_by n

/-- `int(s)` for a string of digits -/
def intOf (s : Str) : Nat := s.foldl (fun n c => 10 * n + (c.toNat - 48)) 0

/-- is `s` a string `int` accepts (signs, spaces and underscores left out) -/
def isNumber (s : Str) : Bool := s != [] && s.all Char.isDigit

/-- `[0-9a-f]` -/
def isHex (c : Char) : Bool := c.isDigit || ('a' ≤ c && c ≤ 'f')

/-! ### running git (lines 73-113) -/

/-- what happens when a command is started -/
inductive Exec where
  /-- `OSError` with `ENOENT` -/
  | missing
  /-- another `OSError` -/
  | failed
  | ran (stdout : Str) (returncode : Int)
deriving DecidableEq

/-- `run_command` (lines 73-113): output and return code -/
def runCommand (exec : Str → List Str → Exec) (commands : List Str) (args : List Str) : Option Str × Option Int :=
  match commands with
  | [] => (none, none)
  | c :: cs => match exec c args with
    | .missing => runCommand exec cs args
    | .failed => (none, none)
    | .ran out rc => if rc ≠ 0 then (none, some rc) else (some (strip out), some rc)

/-! ### results -/

/-- the dictionary `get_versions` returns -/
structure Info where
  version : Str
  fullRev : Option Str
  dirty : Option Bool
  error : Option Str
  date : Option Str
deriving DecidableEq, Repr

/-- `"0+unknown"` -/
def unknownVersion : Str := "0+unknown".toList

/-! ### keywords of an archive (lines 23-33, 168-229) -/

/-- the keywords of `get_keywords` (lines 23-33); a missing one is `none` -/
structure Keywords where
  refnames : Option Str
  full : Option Str
  date : Option Str

/-- the keywords in the repository itself, not replaced by `git archive` -/
def repoKeywords : Keywords := ⟨some "$Format:%d$".toList, some "$Format:%H$".toList, some "$Format:%ci$".toList⟩

/-- `date.strip().replace(" ", "T", 1).replace(" ", "", 1)` of the last line (lines 177-185, 356-360) -/
def isoDate (date : Str) : Except VErr Str := do
  let l ← lastLine date
  .ok (replaceSpace [] (replaceSpace ['T'] (strip l)))

/-- order of Python strings: by code points -/
def strLe : Str → Str → Bool
  | [], _ => true
  | _ :: _, [] => false
  | a :: s, b :: t => if a.toNat < b.toNat then true else if b.toNat < a.toNat then false else strLe s t

/-- `TAG` (line 194) -/
def tagMark : Str := "tag: ".toList

/-- the candidates (lines 191-204): the references marked as tags, or else those with a digit -/
def candidates (refnames : Str) : List Str :=
  let refs := (splitChar ',' (stripParens refnames)).map strip
  let tags := (refs.filter (tagMark.isPrefixOf ·)).map (·.drop tagMark.length)
  if tags = [] then refs.filter (·.any Char.isDigit) else tags

/-- `re.match(r'\d', r)` -/
def digitFirst : Str → Bool
  | c :: _ => c.isDigit
  | [] => false

/-- `git_versions_from_keywords` (lines 168-229).  (A set is a list; `sorted` of the list only repeats equal elements.) -/
def versionsFromKeywords (k : Keywords) (tagPrefix : Str) : Except VErr Info := do
  match k.refnames with
  | none => .error .notThisMethod
  | some refnames =>
    let date ← match k.date with
      | none => Except.ok none
      | some d => do
        let d ← isoDate d
        Except.ok (some d)
    let refnames := strip refnames
    if "$Format".toList.isPrefixOf refnames then .error .notThisMethod else
    match ((candidates refnames).mergeSort strLe).find? (fun r => tagPrefix.isPrefixOf r && digitFirst (r.drop tagPrefix.length)) with
    | some r => match k.full with
      | none => .error .keyError
      | some full => .ok ⟨r.drop tagPrefix.length, some (strip full), some false, none, date⟩
    | none => match k.full with
      | none => .error .keyError
      | some full => .ok ⟨unknownVersion, some (strip full), some false, some "no suitable tags".toList, none⟩

/-- what follows the opening quotation mark up to the last one of the line -/
def quoted (s : Str) : Option Str :=
  let r := (s.takeWhile (· != '\n')).reverse
  match r.dropWhile (· != '"') with
  | [] => none
  | _ :: v => some v.reverse

/-- `re.search(r'=\s*"(.*)"', line)` and `mo.group(1)` (lines 152-153, 156-157, 160-161) -/
def searchValue : Str → Option Str
  | [] => none
  | c :: s =>
    if c = '=' then
      match s.dropWhile Char.isWhitespace with
      | '"' :: r => match quoted r with
        | some v => some v
        | none => searchValue s
      | _ => searchValue s
    else searchValue s

/-- `if line.strip().startswith(name)` ... (lines 151-162): the new value of one keyword -/
def lineValue (name line : Str) (old : Option Str) : Option Str :=
  if name.isPrefixOf (strip line) then
    match searchValue line with
    | some v => some v
    | none => old
  else old

/-- `git_get_keywords` (lines 140-165) from the lines of the file; `none`: it cannot be opened -/
def getKeywords : Option (List Str) → Keywords
  | none => ⟨none, none, none⟩
  | some lines => lines.foldl (fun k line => ⟨lineValue "git_refnames =".toList line k.refnames,
      lineValue "git_full =".toList line k.full, lineValue "git_date =".toList line k.date⟩) ⟨none, none, none⟩

/-! ### `git describe` (lines 232-362) -/

/-- the dictionary `git_pieces_from_vcs` returns.  If `error` is set the keys after it are missing; they are never read. -/
structure Pieces where
  long : Str
  short : Str
  branch : Option Str
  dirty : Bool
  error : Option Str
  tag : Option Str
  distance : Nat
  date : Option Str
deriving DecidableEq, Repr

/-- the part before the last `c` and the part after it -/
def rsplit (c : Char) (s : Str) : Option (Str × Str) :=
  let r := s.reverse
  match r.dropWhile (· != c) with
  | [] => none
  | _ :: rest => some (rest.reverse, (r.takeWhile (· != c)).reverse)

/-- `re.search(r'^(.+)-(\d+)-g([0-9a-f]+)$', s)` (line 325): the three groups.  The second and third cannot contain `-`, so
they are what follows the last two hyphens. -/
def matchDescribe (s : Str) : Option (Str × Str × Str) :=
  match rsplit '-' s with
  | some (s1, 'g' :: hex) =>
    match rsplit '-' s1 with
    | some (tag, num) =>
      if tag ≠ [] ∧ tag.all (· != '\n') ∧ isNumber num ∧ hex ≠ [] ∧ hex.all isHex then some (tag, num, hex) else none
    | none => none
  | _ => none

/-- lines 323-353: `gd` is `describe_out` without `-dirty`; `count` is the output of `git rev-list`, which must not be
`None` -/
def parseParts (p : Pieces) (tagPrefix describeOut gd : Str) (count : Option Str) : Except VErr Pieces :=
  if '-' ∈ gd then
    match matchDescribe gd with
    | none => .ok { p with error := some ("unable to parse git-describe output: '".toList ++ describeOut ++ ['\'']) }
    | some (fullTag, num, hex) =>
      if tagPrefix.isPrefixOf fullTag then
        .ok { p with tag := some (fullTag.drop tagPrefix.length), distance := intOf num, short := hex }
      else
        .ok { p with error := some ("tag '".toList ++ fullTag ++ "' doesn't start with prefix '".toList ++ tagPrefix ++ ['\'']) }
  else match count with
    | none => .error .attributeError
    | some out => .ok { p with tag := none, distance := (wordsAux [] out).length }

/-- the mark of a changed working tree -/
def dirtyMark : Str := "-dirty".toList

/-- lines 313-353: `describe_out` into tag, distance, commit and dirty flag (`s[:s.rindex("-dirty")]` for a string that ends
with `-dirty`) -/
def parseDescribe (p : Pieces) (tagPrefix describeOut : Str) (count : Option Str) : Except VErr Pieces :=
  let dirty := dirtyMark.isSuffixOf describeOut
  parseParts { p with dirty := dirty } tagPrefix describeOut
    (if dirty then describeOut.take (describeOut.length - dirtyMark.length) else describeOut) count

/-- the branch (lines 281-307) from the output of `rev-parse --abbrev-ref` and, if that is `HEAD`, of `branch --contains` -/
def branchName (current : Option Str × Option Int) (contains : Option Str × Option Int) : Except VErr (Option Str) :=
  match current with
  | (some name, some 0) =>
    let name := strip name
    if name = "HEAD".toList then
      match contains with
      | (some out, some 0) =>
        let branches := splitChar '\n' out
        let branches := match branches with
          | b :: bs => if '(' ∈ b then bs else b :: bs
          | [] => []
        let branches : List Str := branches.map (fun b => b.drop 2)
        if "master".toList ∈ branches then .ok (some "master".toList)
        else .ok branches.head?
      | _ => .error .notThisMethod
    else .ok (some name)
  | _ => .error .notThisMethod

/-- `git_pieces_from_vcs` (lines 232-362); `git args` is `runner(GITS, args, cwd=root)` -/
def piecesFromVcs (tagPrefix : Str) (git : List Str → Option Str × Option Int) : Except VErr Pieces := do
  let (_, rc) := git ["rev-parse".toList, "--git-dir".toList]
  if rc ≠ some 0 then .error .notThisMethod else
  match (git ["describe".toList, "--tags".toList, "--dirty".toList, "--always".toList, "--long".toList, "--match".toList,
      tagPrefix ++ "[[:digit:]]*".toList]).1 with
  | none => .error .notThisMethod
  | some describeOut =>
    let describeOut := strip describeOut
    match (git ["rev-parse".toList, "HEAD".toList]).1 with
    | none => .error .notThisMethod
    | some full =>
      let full := strip full
      let branch ← branchName (git ["rev-parse".toList, "--abbrev-ref".toList, "HEAD".toList])
        (git ["branch".toList, "--contains".toList])
      let p ← parseDescribe ⟨full, full.take 7, branch, false, none, none, 0, none⟩ tagPrefix describeOut
        (git ["rev-list".toList, "HEAD".toList, "--left-right".toList]).1
      -- the two error returns (lines 328-330, 338-340) skip the date
      if p.error.isSome then .ok p else
      match (git ["show".toList, "-s".toList, "--format=%ci".toList, "HEAD".toList]).1 with
      | none => .error .attributeError
      | some d => do
        let date ← isoDate (strip d)
        .ok { p with date := some date }

/-! ### rendering (lines 365-612) -/

/-- truth of `pieces["closest-tag"]`: there is one and it is not empty -/
def Pieces.tag? (p : Pieces) : Option Str :=
  match p.tag with
  | some [] => none
  | t => t

/-- `plus_or_dot` (lines 365-369); only called with a tag -/
def plusOrDot (tag : Str) : Str := if '+' ∈ tag then ['.'] else ['+']

/-- `".dirty"` if dirty -/
def dotDirty (p : Pieces) : Str := if p.dirty then ".dirty".toList else []

/-- `".dev0"` if not on master -/
def devBranch (p : Pieces) : Str := if p.branch ≠ some "master".toList then ".dev0".toList else []

/-- `".dev0"` if dirty -/
def devDirty (p : Pieces) : Str := if p.dirty then ".dev0".toList else []

/-- `pieces["distance"] or pieces["dirty"]` -/
def Pieces.moved (p : Pieces) : Bool := p.distance != 0 || p.dirty

/-- `render_pep440` (lines 372-394) -/
def renderPep440 (p : Pieces) : Str :=
  match p.tag? with
  | some tag =>
    if p.moved then tag ++ plusOrDot tag ++ (dec p.distance ++ ".g".toList ++ p.short) ++ dotDirty p else tag
  | none => "0+untagged.".toList ++ dec p.distance ++ ".g".toList ++ p.short ++ dotDirty p

/-- `render_pep440_branch` (lines 397-424) -/
def renderPep440Branch (p : Pieces) : Str :=
  match p.tag? with
  | some tag =>
    if p.moved then tag ++ devBranch p ++ plusOrDot tag ++ (dec p.distance ++ ".g".toList ++ p.short) ++ dotDirty p else tag
  | none => "0".toList ++ devBranch p ++ "+untagged.".toList ++ dec p.distance ++ ".g".toList ++ p.short ++ dotDirty p

/-- `pep440_split_post` (lines 427-434) -/
def splitPost (ver : Str) : Except VErr (Str × Option Nat) :=
  match splitStr ".post".toList ver with
  | [a, b] =>
    if b = [] then .ok (a, some 0)
    else if isNumber b then .ok (a, some (intOf b)) else .error .valueError
  | a :: _ => .ok (a, none)
  | [] => .error .indexError

/-- `render_pep440_pre` (lines 437-458) -/
def renderPep440Pre (p : Pieces) : Except VErr Str :=
  match p.tag? with
  | some tag =>
    if p.distance ≠ 0 then do
      let (v, post) ← splitPost tag
      match post with
      | some n => .ok (v ++ ".post".toList ++ dec (n + 1) ++ ".dev".toList ++ dec p.distance)
      | none => .ok (v ++ ".post0.dev".toList ++ dec p.distance)
    else .ok tag
  | none => .ok ("0.post0.dev".toList ++ dec p.distance)

/-- `render_pep440_post` (lines 461-485) -/
def renderPep440Post (p : Pieces) : Str :=
  match p.tag? with
  | some tag =>
    if p.moved then tag ++ ".post".toList ++ dec p.distance ++ devDirty p ++ plusOrDot tag ++ "g".toList ++ p.short else tag
  | none => "0.post".toList ++ dec p.distance ++ devDirty p ++ "+g".toList ++ p.short

/-- `render_pep440_post_branch` (lines 488-514) -/
def renderPep440PostBranch (p : Pieces) : Str :=
  match p.tag? with
  | some tag =>
    if p.moved then
      tag ++ ".post".toList ++ dec p.distance ++ devBranch p ++ plusOrDot tag ++ "g".toList ++ p.short ++ dotDirty p
    else tag
  | none => "0.post".toList ++ dec p.distance ++ devBranch p ++ "+g".toList ++ p.short ++ dotDirty p

/-- `render_pep440_old` (lines 517-536) -/
def renderPep440Old (p : Pieces) : Str :=
  match p.tag? with
  | some tag => if p.moved then tag ++ ".post".toList ++ dec p.distance ++ devDirty p else tag
  | none => "0.post".toList ++ dec p.distance ++ devDirty p

/-- `"-dirty"` if dirty -/
def hyphenDirty (p : Pieces) : Str := if p.dirty then "-dirty".toList else []

/-- `render_git_describe` (lines 539-556) -/
def renderGitDescribe (p : Pieces) : Str :=
  (match p.tag? with
  | some tag => if p.distance ≠ 0 then tag ++ "-".toList ++ dec p.distance ++ "-g".toList ++ p.short else tag
  | none => p.short) ++ hyphenDirty p

/-- `render_git_describe_long` (lines 559-576) -/
def renderGitDescribeLong (p : Pieces) : Str :=
  (match p.tag? with
  | some tag => tag ++ "-".toList ++ dec p.distance ++ "-g".toList ++ p.short
  | none => p.short) ++ hyphenDirty p

/-- the choice of `render` (lines 588-608) -/
def renderStyle (p : Pieces) (style : Str) : Except VErr Str :=
  let style := if style = [] ∨ style = "default".toList then "pep440".toList else style
  if style = "pep440".toList then .ok (renderPep440 p)
  else if style = "pep440-branch".toList then .ok (renderPep440Branch p)
  else if style = "pep440-pre".toList then renderPep440Pre p
  else if style = "pep440-post".toList then .ok (renderPep440Post p)
  else if style = "pep440-post-branch".toList then .ok (renderPep440PostBranch p)
  else if style = "pep440-old".toList then .ok (renderPep440Old p)
  else if style = "git-describe".toList then .ok (renderGitDescribe p)
  else if style = "git-describe-long".toList then .ok (renderGitDescribeLong p)
  else .error .valueError

/-- `render` (lines 579-612) -/
def render (p : Pieces) (style : Str) : Except VErr Info :=
  match p.error with
  | some e => .ok ⟨"unknown".toList, some p.long, none, some e, none⟩
  | none => do
    let v ← renderStyle p style
    .ok ⟨v, some p.long, some p.dirty, none, p.date⟩

/-! ### the parent directory (lines 116-137) and the choice of the method (lines 615-658) -/

/-- `os.path.basename` of the path with these components -/
def basename (path : List Str) : Str := path.getLastD []

/-- the loop over `n` levels in `versions_from_parentdir` (lines 125-132) -/
def fromParentdir (pre : Str) : Nat → List Str → Except VErr Info
  | 0, _ => .error .notThisMethod
  | n + 1, root =>
    if pre.isPrefixOf (basename root) then .ok ⟨(basename root).drop pre.length, none, some false, none, none⟩
    else fromParentdir pre n root.dropLast

/-- `versions_from_parentdir` (lines 116-137) -/
def versionsFromParentdir (pre : Str) (root : List Str) : Except VErr Info := fromParentdir pre 3 root

/-- `get_config` (lines 40-51) -/
structure Config where
  style : Str
  tagPrefix : Str
  parentdirPrefix : Str
  versionfileSource : Str

/-- the values written into version.py (lines 45-49) -/
def repoConfig : Config := ⟨"pep440".toList, "v".toList, "None".toList, "geotiepoints/version.py".toList⟩

/-- handler of the three `try` blocks: go on only after `NotThisMethod` -/
def orElse {β : Type} (x : Except VErr β) (y : Except VErr β) : Except VErr β :=
  match x with
  | .error .notThisMethod => y
  | r => r

/-- `get_versions` (lines 615-658); `file` is `__file__` (`none`: not defined), `git root args` runs git in `root` -/
def getVersionsWith (cfg : Config) (k : Keywords) (file : Option (List Str)) (git : List Str → List Str → Option Str × Option Int) :
    Except VErr Info :=
  orElse (versionsFromKeywords k cfg.tagPrefix) <|
  match file with
  | none => .ok ⟨unknownVersion, none, none, some "unable to find root of source tree".toList, none⟩
  | some path =>
    let root := (splitChar '/' cfg.versionfileSource).foldl (fun r _ => r.dropLast) path
    orElse (do
      let p ← piecesFromVcs cfg.tagPrefix (git root)
      render p cfg.style) <|
    orElse (if cfg.parentdirPrefix ≠ [] then versionsFromParentdir cfg.parentdirPrefix root else .error .notThisMethod) <|
    .ok ⟨unknownVersion, none, none, some "unable to compute version".toList, none⟩

/-- `get_versions()` as called in `__init__.py:156`: `exec root` starts a command in `root` (`GITS` is `["git"]`, lines
240-242) -/
def getVersions (k : Keywords) (file : Option (List Str)) (exec : List Str → Str → List Str → Exec) : Except VErr Info :=
  getVersionsWith repoConfig k file (fun root args => runCommand (exec root) ["git".toList] args)

end Verif.Version
