import Verif.Model.IO

/-!
# Model of `crowddynamics/_version.py`

The configuration has `verbose = False`, so nothing is printed and the branches that print are left
out. Output of programs is text; that its decoding may fail is left out. White space and digits
outside of ASCII are not treated as such.
-/

namespace CrowdDynamics

/-- An exception: `NotThisMethod` or another one.
Source: crowddynamics/_version.py:51-52. -/
inductive VersionErr where
  /-- `NotThisMethod` -/
  | notThisMethod
  /-- any other exception -/
  | py (e : PyErr)
  deriving DecidableEq

/-- The dictionary that `get_versions` returns.
Source: crowddynamics/_version.py:204-213, 448-452, 472-474, 501-504, 518-520. -/
structure VersionInfo where
  /-- `"version"` -/
  version : Text
  /-- `"full-revisionid"` -/
  fullRevisionid : Option Text
  /-- `"dirty"` -/
  dirty : Option Bool
  /-- `"error"` -/
  error : Option Text
  /-- `"date"` -/
  date : Option Text
  deriving DecidableEq

/-- The dictionary of keywords; `none` for a key that does not exist.
Source: crowddynamics/_version.py:20-30. -/
structure Keywords where
  /-- `"refnames"` -/
  refnames : Option Text
  /-- `"full"` -/
  full : Option Text
  /-- `"date"` -/
  date : Option Text

/-- The keywords as they stand in the file; `git archive` replaces them.
Source: crowddynamics/_version.py:20-30 (`get_keywords`). -/
def getKeywords : Keywords :=
  ⟨some "$Format:%d$".toList, some "$Format:%H$".toList, some "$Format:%ci$".toList⟩

/-- The configuration. Source: crowddynamics/_version.py:33-48 (`get_config`). -/
structure VersioneerConfig where
  /-- `style` -/
  style : Text
  /-- `tag_prefix` -/
  tagPrefix : Text
  /-- `parentdir_prefix` -/
  parentdirPrefix : Text
  /-- `versionfile_source` -/
  versionfileSource : Text

/-- Source: crowddynamics/_version.py:37-48 (`get_config`). -/
def getConfig : VersioneerConfig :=
  ⟨"pep440".toList, [], "crowddynamics-".toList, "crowddynamics/_version.py".toList⟩

/-! ## Text -/

/-- `s.strip()`. Source: crowddynamics/_version.py:96, 174-175, 180, 205, 212, 244, 248, 302-303. -/
def pyStrip (s : Text) : Text := ((s.dropWhile isSpace).reverse.dropWhile isSpace).reverse

/-- `s.strip("()")`. Source: crowddynamics/_version.py:180. -/
def stripParens (s : Text) : Text := rstrip ['(', ')'] (lstrip ['(', ')'] s)

/-- `s.replace(c, r, 1)` for a single character `c`. Source: crowddynamics/_version.py:174, 303. -/
def replaceFirst (c : Char) (r : Text) : Text → Text
  | [] => []
  | x :: rest => if x = c then r ++ rest else x :: replaceFirst c r rest

/-- The date in the form of ISO 8601. Source: crowddynamics/_version.py:174, 303. -/
def isoDate (date : Text) : Text := replaceFirst ' ' [] (replaceFirst ' ' ['T'] (pyStrip date))

/-- `"%d" % i`. Source: crowddynamics/_version.py:328-379. -/
def formatInt (i : ℤ) : Text := if i < 0 then '-' :: decimal i.natAbs else decimal i.natAbs

/-- `s <= t` for strings. Source: crowddynamics/_version.py:198 (`sorted`). -/
def textLe : Text → Text → Bool
  | [], _ => true
  | _ :: _, [] => false
  | a :: s, b :: t => if a = b then textLe s t else decide (a.toNat < b.toNat)

/-- Insertion of a string into a sorted list without repetition.
Source: crowddynamics/_version.py:180-198 (`set`, `sorted`). -/
def insertText (x : Text) : List Text → List Text
  | [] => [x]
  | y :: rest => if x = y then y :: rest else if textLe x y then x :: y :: rest
      else y :: insertText x rest

/-- `sorted(set(l))`. Source: crowddynamics/_version.py:180-198. -/
def sortedSet (l : List Text) : List Text := l.foldr insertText []

/-- `os.path.basename(path)` (POSIX). Source: crowddynamics/_version.py:117. -/
def pathBasename (path : Text) : Text := (path.reverse.takeWhile fun c => decide (c ≠ '/')).reverse

/-- `os.path.dirname(path)` (POSIX). Source: crowddynamics/_version.py:124, 499. -/
def pathDirname (path : Text) : Text :=
  let head := (path.reverse.dropWhile fun c => decide (c ≠ '/')).reverse
  if head.all fun c => decide (c = '/') then head else rstrip ['/'] head

/-! ## Running git -/

/-- What `subprocess.Popen` and `communicate` do for a command.
Source: crowddynamics/_version.py:79-96. -/
inductive Ran where
  /-- `EnvironmentError` with `ENOENT` -/
  | notFound
  /-- another `EnvironmentError` -/
  | failed
  /-- the output and the return code -/
  | done (stdout : Text) (code : ℤ)

/-- Source: crowddynamics/_version.py:70-104 (`run_command`). `popen` depends on the command, the
arguments and the directory. -/
def runCommand (popen : Text → List Text → Text → Ran) (args : List Text) (cwd : Text) :
    List Text → Option Text × Option ℤ
  | [] => (none, none)
  | c :: commands =>
    match popen c args cwd with
    | .notFound => runCommand popen args cwd commands
    | .failed => (none, none)
    | .done stdout code => if code ≠ 0 then (none, some code) else (some (pyStrip stdout), some code)

/-- The names of git. Source: crowddynamics/_version.py:224-226. -/
def gitNames (win32 : Bool) : List Text :=
  if win32 then ["git.cmd".toList, "git.exe".toList] else ["git".toList]

/-- The dictionary `pieces`; the outer `none` stands for a key that does not exist.
Source: crowddynamics/_version.py:250-253, 261, 285-298, 303. -/
structure Pieces where
  /-- `"long"` -/
  long : Text
  /-- `"short"` -/
  short : Text
  /-- `"error"` -/
  error : Option Text
  /-- `"dirty"` -/
  dirty : Bool
  /-- `"closest-tag"` -/
  closestTag : Option (Option Text)
  /-- `"distance"` -/
  distance : Option ℤ
  /-- `"date"` -/
  date : Option Text

/-- Is the character in `[0-9a-f]`? Source: crowddynamics/_version.py:269. -/
def isHexChar (c : Char) : Bool :=
  (decide (48 ≤ c.toNat) && decide (c.toNat ≤ 57)) || (decide (97 ≤ c.toNat) && decide (c.toNat ≤ 102))

/-- Is the character in `\d`? Source: crowddynamics/_version.py:193, 269. -/
def isDigitChar (c : Char) : Bool := decide (48 ≤ c.toNat) && decide (c.toNat ≤ 57)

/-- A reversed text without the line break at its end. Source: crowddynamics/_version.py:269. -/
def skipBreak : Text → Text
  | '\n' :: r => r
  | r => r

/-- `re.search(r'^(.+)-(\d+)-g([0-9a-f]+)$', s)`: the groups. The text is read from the end: the last
group is the longest suffix of hexadecimal digits because `g` is none, the second one the longest run
of digits before because `-` is none. The anchor `$` also matches before a final line break.
Source: crowddynamics/_version.py:269. -/
def describeMatch (s : Text) : Option (Text × Text × Text) :=
  let r := skipBreak s.reverse
  let hex := r.takeWhile isHexChar
  match hex, r.dropWhile isHexChar with
  | _ :: _, 'g' :: '-' :: r =>
    let num := r.takeWhile isDigitChar
    match num, r.dropWhile isDigitChar with
    | _ :: _, '-' :: tag =>
      if tag ≠ [] ∧ '\n' ∉ tag then some (tag.reverse, num.reverse, hex.reverse) else none
    | _, _ => none
  | _, _ => none

/-- The arguments of the calls of git. Source: crowddynamics/_version.py:228, 237-239, 245, 296, 301. -/
def argsGitDir : List Text := ["rev-parse".toList, "--git-dir".toList]

/-- Source: crowddynamics/_version.py:237-239. -/
def argsDescribe (tagPrefix : Text) : List Text :=
  ["describe".toList, "--tags".toList, "--dirty".toList, "--always".toList, "--long".toList,
    "--match".toList, tagPrefix ++ ['*']]

/-- Source: crowddynamics/_version.py:245. -/
def argsHead : List Text := ["rev-parse".toList, "HEAD".toList]

/-- Source: crowddynamics/_version.py:296. -/
def argsCount : List Text := ["rev-list".toList, "HEAD".toList, "--count".toList]

/-- Source: crowddynamics/_version.py:301. -/
def argsShow : List Text := ["show".toList, "-s".toList, "--format=%ci".toList, "HEAD".toList]

/-- The end of `git_pieces_from_vcs`: the date. Source: crowddynamics/_version.py:301-305. -/
def piecesDate (run : List Text → Option Text × Option ℤ) (pieces : Pieces) : Except VersionErr Pieces :=
  match (run argsShow).1 with
  | none => .error (.py .attribute)
  | some date => .ok { pieces with date := some (isoDate (pyStrip date)) }

/-- Source: crowddynamics/_version.py:216-305 (`git_pieces_from_vcs`). -/
def gitPiecesFromVcs (run : List Text → Option Text × Option ℤ) (tagPrefix : Text) :
    Except VersionErr Pieces :=
  if (run argsGitDir).2 ≠ some 0 then .error .notThisMethod
  else match (run (argsDescribe tagPrefix)).1 with
    | none => .error .notThisMethod
    | some describeOut =>
      let describeOut := pyStrip describeOut
      match (run argsHead).1 with
      | none => .error .notThisMethod
      | some fullOut =>
        let fullOut := pyStrip fullOut
        let dirty := "-dirty".toList.isSuffixOf describeOut
        let gitDescribe := if dirty then describeOut.take (describeOut.length - 6) else describeOut
        let pieces : Pieces := ⟨fullOut, fullOut.take 7, none, dirty, none, none, none⟩
        if '-' ∈ gitDescribe then
          match describeMatch gitDescribe with
          | none => .ok { pieces with
              error := some ("unable to parse git-describe output: '".toList ++ describeOut ++ ['\'']) }
          | some (fullTag, num, hex) =>
            if ¬ tagPrefix.isPrefixOf fullTag then .ok { pieces with
              error := some ("tag '".toList ++ fullTag ++ "' doesn't start with prefix '".toList ++
                tagPrefix ++ ['\'']) }
            else match pyInt num with
              | .error e => .error (.py e)
              | .ok distance => piecesDate run { pieces with
                  closestTag := some (some (fullTag.drop tagPrefix.length))
                  distance := some distance
                  short := hex }
        else match (run argsCount).1 with
          | none => .error (.py .type)
          | some count => match pyInt count with
            | .error e => .error (.py e)
            | .ok distance => piecesDate run { pieces with
                closestTag := some none
                distance := some distance }

/-! ## Rendering -/

/-- `pieces[key]`. Source: crowddynamics/_version.py:324-440. -/
def getKey {α : Type} : Option α → Except PyErr α
  | none => .error .key
  | some a => .ok a

/-- The truth value of `pieces["closest-tag"]` and its value: `none` if it is false.
Source: crowddynamics/_version.py:324, 346, 366, 391, 413, 434. -/
def truthyTag (pieces : Pieces) : Except PyErr (Option Text) := do
  match ← getKey pieces.closestTag with
  | none => .ok none
  | some [] => .ok none
  | some t => .ok (some t)

/-- Source: crowddynamics/_version.py:308-312 (`plus_or_dot`). -/
def plusOrDot (pieces : Pieces) : Except PyErr Text :=
  match pieces.closestTag with
  | none => .ok ['+']
  | some none => .error .type
  | some (some t) => if '+' ∈ t then .ok ['.'] else .ok ['+']

/-- Source: crowddynamics/_version.py:315-337 (`render_pep440`). -/
def renderPep440 (pieces : Pieces) : Except PyErr Text := do
  match ← truthyTag pieces with
  | some tag =>
    let distance ← getKey pieces.distance
    if distance ≠ 0 ∨ pieces.dirty = true then
      let sep ← plusOrDot pieces
      .ok (tag ++ sep ++ (formatInt distance ++ ".g".toList ++ pieces.short) ++
        if pieces.dirty then ".dirty".toList else [])
    else .ok tag
  | none =>
    let distance ← getKey pieces.distance
    .ok ("0+untagged.".toList ++ formatInt distance ++ ".g".toList ++ pieces.short ++
      if pieces.dirty then ".dirty".toList else [])

/-- Source: crowddynamics/_version.py:340-353 (`render_pep440_pre`). -/
def renderPep440Pre (pieces : Pieces) : Except PyErr Text := do
  match ← truthyTag pieces with
  | some tag =>
    let distance ← getKey pieces.distance
    .ok (if distance ≠ 0 then tag ++ ".post.dev".toList ++ formatInt distance else tag)
  | none =>
    let distance ← getKey pieces.distance
    .ok ("0.post.dev".toList ++ formatInt distance)

/-- Source: crowddynamics/_version.py:356-380 (`render_pep440_post`). -/
def renderPep440Post (pieces : Pieces) : Except PyErr Text := do
  match ← truthyTag pieces with
  | some tag =>
    let distance ← getKey pieces.distance
    if distance ≠ 0 ∨ pieces.dirty = true then
      let sep ← plusOrDot pieces
      .ok (tag ++ ".post".toList ++ formatInt distance ++
        (if pieces.dirty then ".dev0".toList else []) ++ sep ++ 'g' :: pieces.short)
    else .ok tag
  | none =>
    let distance ← getKey pieces.distance
    .ok ("0.post".toList ++ formatInt distance ++
      (if pieces.dirty then ".dev0".toList else []) ++ "+g".toList ++ pieces.short)

/-- Source: crowddynamics/_version.py:383-402 (`render_pep440_old`). -/
def renderPep440Old (pieces : Pieces) : Except PyErr Text := do
  match ← truthyTag pieces with
  | some tag =>
    let distance ← getKey pieces.distance
    .ok (if distance ≠ 0 ∨ pieces.dirty = true then tag ++ ".post".toList ++ formatInt distance ++
      (if pieces.dirty then ".dev0".toList else []) else tag)
  | none =>
    let distance ← getKey pieces.distance
    .ok ("0.post".toList ++ formatInt distance ++ if pieces.dirty then ".dev0".toList else [])

/-- Source: crowddynamics/_version.py:405-422 (`render_git_describe`). -/
def renderGitDescribe (pieces : Pieces) : Except PyErr Text := do
  let suffix := if pieces.dirty then "-dirty".toList else []
  match ← truthyTag pieces with
  | some tag =>
    let distance ← getKey pieces.distance
    .ok ((if distance ≠ 0 then tag ++ '-' :: formatInt distance ++ "-g".toList ++ pieces.short
      else tag) ++ suffix)
  | none => .ok (pieces.short ++ suffix)

/-- Source: crowddynamics/_version.py:425-442 (`render_git_describe_long`). -/
def renderGitDescribeLong (pieces : Pieces) : Except PyErr Text := do
  let suffix := if pieces.dirty then "-dirty".toList else []
  match ← truthyTag pieces with
  | some tag =>
    let distance ← getKey pieces.distance
    .ok (tag ++ '-' :: formatInt distance ++ "-g".toList ++ pieces.short ++ suffix)
  | none => .ok (pieces.short ++ suffix)

/-- The choice of the renderer. Source: crowddynamics/_version.py:454-470. -/
def renderStyle (pieces : Pieces) (style : Text) : Except PyErr Text :=
  let style := if style = [] ∨ style = "default".toList then "pep440".toList else style
  if style = "pep440".toList then renderPep440 pieces
  else if style = "pep440-pre".toList then renderPep440Pre pieces
  else if style = "pep440-post".toList then renderPep440Post pieces
  else if style = "pep440-old".toList then renderPep440Old pieces
  else if style = "git-describe".toList then renderGitDescribe pieces
  else if style = "git-describe-long".toList then renderGitDescribeLong pieces
  else .error .value

/-- Source: crowddynamics/_version.py:445-474 (`render`). The text of an error is never empty. -/
def renderVersion (pieces : Pieces) (style : Text) : Except PyErr VersionInfo :=
  match pieces.error with
  | some e => .ok ⟨"unknown".toList, some pieces.long, none, some e, none⟩
  | none => do
    let rendered ← renderStyle pieces style
    .ok ⟨rendered, some pieces.long, some pieces.dirty, none, pieces.date⟩

/-! ## Keywords and directories -/

/-- The refs in the keyword. Source: crowddynamics/_version.py:175, 180. -/
def keywordRefs (refnames : Text) : List Text :=
  ((stripParens (pyStrip refnames)).splitOn ',').map pyStrip

/-- The candidates for tags. Source: crowddynamics/_version.py:183-193. -/
def likelyTags (refs : List Text) : List Text :=
  let tags := (refs.filter fun r => "tag: ".toList.isPrefixOf r).map fun r => r.drop 5
  if tags = [] then refs.filter fun r => r.any isDigitChar else tags

/-- Source: crowddynamics/_version.py:161-213 (`git_versions_from_keywords`). -/
def gitVersionsFromKeywords (keywords : Keywords) (tagPrefix : Text) : Except VersionErr VersionInfo :=
  match keywords with
  | ⟨none, none, none⟩ => .error .notThisMethod
  | ⟨none, _, _⟩ => .error (.py .key)
  | ⟨some refnames, full, date⟩ =>
    if "$Format".toList.isPrefixOf (pyStrip refnames) then .error .notThisMethod
    else
      match (sortedSet (likelyTags (keywordRefs refnames))).find? fun ref =>
        tagPrefix.isPrefixOf ref with
      | some ref => match full with
        | none => .error (.py .key)
        | some full => .ok ⟨ref.drop tagPrefix.length, some (pyStrip full), some false, none,
            date.map isoDate⟩
      | none => match full with
        | none => .error (.py .key)
        | some full => .ok ⟨"0+unknown".toList, some (pyStrip full), some false,
            some "no suitable tags".toList, none⟩

/-- The loop of `versions_from_parentdir`. Source: crowddynamics/_version.py:116-129. -/
def parentdirLoop (pfx : Text) : ℕ → Text → Except VersionErr VersionInfo
  | 0, _ => .error .notThisMethod
  | k + 1, root =>
    if pfx.isPrefixOf (pathBasename root) then
      .ok ⟨(pathBasename root).drop pfx.length, none, some false, none, none⟩
    else parentdirLoop pfx k (pathDirname root)

/-- Source: crowddynamics/_version.py:107-129 (`versions_from_parentdir`). -/
def versionsFromParentdir (pfx root : Text) : Except VersionErr VersionInfo :=
  parentdirLoop pfx 3 root

/-- The loop that goes up from the file to the root of the source tree.
Source: crowddynamics/_version.py:498-499. -/
def goUp : ℕ → Text → Text
  | 0, root => root
  | k + 1, root => goUp k (pathDirname root)

/-- `get_versions`; `file` is the real path of the file, `none` if `__file__` does not exist.
Source: crowddynamics/_version.py:477-520 (`get_versions`). -/
def getVersions (cfg : VersioneerConfig) (keywords : Keywords) (file : Option Text) (win32 : Bool)
    (popen : Text → List Text → Text → Ran) : Except PyErr VersionInfo :=
  match gitVersionsFromKeywords keywords cfg.tagPrefix with
  | .ok v => .ok v
  | .error (.py e) => .error e
  | .error .notThisMethod =>
    match file with
    | none => .ok ⟨"0+unknown".toList, none, none, some "unable to find root of source tree".toList, none⟩
    | some file =>
      let root := goUp (cfg.versionfileSource.splitOn '/').length file
      match gitPiecesFromVcs (fun args => runCommand popen args root (gitNames win32)) cfg.tagPrefix with
      | .ok pieces => renderVersion pieces cfg.style
      | .error (.py e) => .error e
      | .error .notThisMethod =>
        let unable : VersionInfo :=
          ⟨"0+unknown".toList, none, none, some "unable to compute version".toList, none⟩
        if cfg.parentdirPrefix = [] then .ok unable
        else match versionsFromParentdir cfg.parentdirPrefix root with
          | .ok v => .ok v
          | .error (.py e) => .error e
          | .error .notThisMethod => .ok unable

end CrowdDynamics
