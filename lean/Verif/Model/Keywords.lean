import Verif.Model.Version

/-!
# Model of `git_get_keywords` in `crowddynamics/_version.py`

White space outside of ASCII is not treated as such, as in `Verif.Model.Version`.
-/

namespace CrowdDynamics

/-- `f.readlines()`: every line keeps its line feed.
Source: crowddynamics/_version.py:142. -/
def readLines : Text → List Text
  | [] => []
  | c :: rest =>
    if c = '\n' then ['\n'] :: readLines rest
    else match readLines rest with
      | [] => [[c]]
      | l :: ls => (c :: l) :: ls

/-- `(.*)"` after the opening quote: as much as possible within the line, up to a quote.
Source: crowddynamics/_version.py:144, 148, 152. -/
def upToLastQuote : Text → Option Text
  | [] => none
  | c :: rest =>
    if c = '"' then
      match upToLastQuote rest with
      | some v => some (c :: v)
      | none => some []
    else if c = '\n' then none
    else (upToLastQuote rest).map (c :: ·)

/-- `=\s*"(.*)"` at the beginning of the text; the value of the group.
Source: crowddynamics/_version.py:144, 148, 152. -/
def matchValue : Text → Option Text
  | '=' :: rest =>
    match rest.dropWhile isSpace with
    | '"' :: rest => upToLastQuote rest
    | _ => none
  | _ => none

/-- `re.search(r'=\s*"(.*)"', line)`: the first position where it matches.
Source: crowddynamics/_version.py:144, 148, 152. -/
def searchValue : Text → Option Text
  | [] => none
  | c :: rest =>
    match matchValue (c :: rest) with
    | some v => some v
    | none => searchValue rest

/-- What one line does to one keyword: the value if the line defines it, the old one otherwise.
Source: crowddynamics/_version.py:143-146, 147-150, 151-154. -/
def keywordOfLine (name : Text) (line : Text) (old : Option Text) : Option Text :=
  if (name ++ " =".toList).isPrefixOf (pyStrip line) then
    match searchValue line with
    | some v => some v
    | none => old
  else old

/-- `git_get_keywords`; `none` for a file that cannot be opened. That reading fails later is left out.
Source: crowddynamics/_version.py:133-158 (`git_get_keywords`). -/
def gitGetKeywords (file : Option Text) : Keywords :=
  match file with
  | none => ⟨none, none, none⟩
  | some text =>
    (readLines text).foldl (fun k line =>
      ⟨keywordOfLine "git_refnames".toList line k.refnames,
        keywordOfLine "git_full".toList line k.full,
        keywordOfLine "git_date".toList line k.date⟩) ⟨none, none, none⟩

/-- The text of the function `get_keywords` in the repository, where git has not replaced anything.
Source: crowddynamics/_version.py:20-30. -/
def getKeywordsSource : Text :=
  ("def get_keywords():\n" ++
  "    \"\"\"Get the keywords needed to look up the version information.\"\"\"\n" ++
  "    # these strings will be replaced by git during git-archive.\n" ++
  "    # setup.py/versioneer.py will grep for the variable names, so they must\n" ++
  "    # each be defined on a line of their own. _version.py will just call\n" ++
  "    # get_keywords().\n" ++
  "    git_refnames = \"$Format:%d$\"\n" ++
  "    git_full = \"$Format:%H$\"\n" ++
  "    git_date = \"$Format:%ci$\"\n" ++
  "    keywords = {\"refnames\": git_refnames, \"full\": git_full, \"date\": git_date}\n" ++
  "    return keywords\n").toList

end CrowdDynamics
