import Verif.Model.Version

/-!
# What the version of a package should be

A checkout of a git repository, what git prints about it, and the version that the documentation
promises (`TAG[+DISTANCE.gHEX[.dirty]]`).
-/

namespace CrowdDynamics.Spec

open CrowdDynamics

/-- The state of a working copy. -/
structure Checkout where
  /-- the closest tag and the number of commits since then, if there is a tag -/
  tag : Option (Text × ℕ)
  /-- the number of commits -/
  commits : ℕ
  /-- the hash of the last commit -/
  hash : Text
  /-- its abbreviation by git -/
  short : Text
  /-- there are changes since the last commit -/
  dirty : Bool
  /-- the day, the time and the time zone of the last commit -/
  date : Text × Text × Text

/-- A number in decimal notation. -/
def numeral (k : ℕ) : Text := (toString k).toList

/-- Lower case hexadecimal digits. -/
def hexDigits : Text := "0123456789abcdef".toList

/-- No white space. -/
def Black (s : Text) : Prop := ∀ c ∈ s, 32 < c.toNat

/-- What git guarantees about names, hashes and dates. -/
structure Checkout.WellFormed (c : Checkout) : Prop where
  tag : ∀ t k, c.tag = some (t, k) → t ≠ [] ∧ Black t
  hash : c.hash ≠ [] ∧ ∀ x ∈ c.hash, x ∈ hexDigits
  short : c.short ≠ [] ∧ ∀ x ∈ c.short, x ∈ hexDigits
  date : ∀ s, s = c.date.1 ∨ s = c.date.2.1 ∨ s = c.date.2.2 → s ≠ [] ∧ Black s

/-- The output of `git describe --tags --dirty --always --long`. -/
def Checkout.describe (c : Checkout) : Text :=
  (match c.tag with
    | some (t, k) => t ++ "-".toList ++ numeral k ++ "-g".toList ++ c.short
    | none => c.short) ++ if c.dirty then "-dirty".toList else []

/-- The output of `git describe --tags --dirty --always`: no distance at the tag itself. -/
def Checkout.describeShort (c : Checkout) : Text :=
  (match c.tag with
    | some (t, 0) => t
    | some (t, k) => t ++ "-".toList ++ numeral k ++ "-g".toList ++ c.short
    | none => c.short) ++ if c.dirty then "-dirty".toList else []

/-- `git` answers the questions of the package about the working copy `c`. -/
structure Reports (git : List Text → Ran) (c : Checkout) : Prop where
  gitDir : ∃ d, git ["rev-parse".toList, "--git-dir".toList] = .done d 0
  describe : git ["describe".toList, "--tags".toList, "--dirty".toList, "--always".toList,
    "--long".toList, "--match".toList, "*".toList] = .done (c.describe ++ "\n".toList) 0
  head : git ["rev-parse".toList, "HEAD".toList] = .done (c.hash ++ "\n".toList) 0
  count : git ["rev-list".toList, "HEAD".toList, "--count".toList] =
    .done (numeral c.commits ++ "\n".toList) 0
  show_ : git ["show".toList, "-s".toList, "--format=%ci".toList, "HEAD".toList] =
    .done (c.date.1 ++ " ".toList ++ c.date.2.1 ++ " ".toList ++ c.date.2.2 ++ "\n".toList) 0

/-- In the directory `root` the first of the given programs that exists is `git`. -/
def Installed (popen : Text → List Text → Text → Ran) (names : List Text) (root : Text)
    (git : List Text → Ran) : Prop :=
  ∃ before name after, names = before ++ name :: after ∧
    (∀ x ∈ before, ∀ args, popen x args root = .notFound) ∧ ∀ args, popen name args root = git args

/-- The documented version: `TAG[+DISTANCE.gHEX[.dirty]]`, with a dot instead of `+` after a tag that
contains `+`, and `0+untagged.DISTANCE.gHEX[.dirty]` without a tag. -/
def Checkout.version (c : Checkout) : Text :=
  let dirty := if c.dirty then ".dirty".toList else []
  match c.tag with
  | some (t, k) =>
    if k = 0 ∧ c.dirty = false then t
    else t ++ (if '+' ∈ t then ".".toList else "+".toList) ++ numeral k ++ ".g".toList ++ c.short ++
      dirty
  | none => "0+untagged.".toList ++ numeral c.commits ++ ".g".toList ++ c.hash.take 7 ++ dirty

/-- The information about the working copy. -/
def Checkout.info (c : Checkout) : VersionInfo :=
  ⟨c.version, some c.hash, some c.dirty, none,
    some (c.date.1 ++ "T".toList ++ c.date.2.1 ++ c.date.2.2)⟩

/-! ## Canonical versions of PEP 440 -/

/-- A number without leading zeros. -/
def IsNumber (s : Text) : Prop :=
  s ≠ [] ∧ (∀ c ∈ s, 48 ≤ c.toNat ∧ c.toNat ≤ 57) ∧ (s.head? = some '0' → s = ['0'])

/-- Either nothing or the given separator and a number. -/
def OptNumber (sep : Text) (s : Text) : Prop := s = [] ∨ ∃ k, IsNumber k ∧ s = sep ++ k

/-- `N(.N)*` -/
inductive IsRelease : Text → Prop
  | one {k} : IsNumber k → IsRelease k
  | more {k r} : IsNumber k → IsRelease r → IsRelease (k ++ ".".toList ++ r)

/-- `[N!]N(.N)*[{a|b|rc}N][.postN][.devN]` -/
def IsPublic (s : Text) : Prop :=
  ∃ epoch release pre post dev, s = epoch ++ release ++ pre ++ post ++ dev ∧
    (epoch = [] ∨ ∃ k, IsNumber k ∧ epoch = k ++ "!".toList) ∧ IsRelease release ∧
    (OptNumber "a".toList pre ∨ OptNumber "b".toList pre ∨ OptNumber "rc".toList pre) ∧
    OptNumber ".post".toList post ∧ OptNumber ".dev".toList dev

/-- Lower case letters and digits. -/
def Alnum (s : Text) : Prop :=
  s ≠ [] ∧ ∀ c ∈ s, (48 ≤ c.toNat ∧ c.toNat ≤ 57) ∨ (97 ≤ c.toNat ∧ c.toNat ≤ 122)

/-- `[a-z0-9]+(.[a-z0-9]+)*` -/
inductive IsLocal : Text → Prop
  | one {k} : Alnum k → IsLocal k
  | more {k r} : Alnum k → IsLocal r → IsLocal (k ++ ".".toList ++ r)

/-- A canonical version: `PUBLIC[+LOCAL]`. -/
def IsVersion (s : Text) : Prop :=
  IsPublic s ∨ ∃ p l, IsPublic p ∧ IsLocal l ∧ s = p ++ "+".toList ++ l

/-! ## Names of commits -/

/-- A name of a commit as printed by git. -/
inductive Ref where
  /-- a tag -/
  | tag (name : Text)
  /-- a branch, or `HEAD`, or `HEAD -> branch` -/
  | other (name : Text)

/-- How git prints the name. -/
def Ref.text : Ref → Text
  | .tag name => "tag: ".toList ++ name
  | .other name => name

/-- The names as they are printed for `%d`. -/
def decorate : List Ref → Text
  | [] => []
  | [r] => r.text
  | r :: rest => r.text ++ ", ".toList ++ decorate rest

/-- What `git archive` writes for `%d`. -/
def expanded (refs : List Ref) : Text :=
  if refs = [] then [] else " (".toList ++ decorate refs ++ ")".toList

/-- The tags among the names. -/
def tagNames (refs : List Ref) : List Text :=
  refs.filterMap fun r => match r with
    | .tag name => some name
    | .other _ => none

/-- `s` comes before `t` in the order of strings (by code points), or they are equal. -/
def Before (s t : Text) : Prop := s = t ∨ List.Lex (fun a b => a.toNat < b.toNat) s t

/-- Names that the format of the keyword can represent: nonempty, without commas, parentheses and
without white space at the ends; other names do not look like tags. -/
def Ref.Plain (r : Ref) : Prop :=
  (∀ c ∈ r.text, c ≠ ',' ∧ c ≠ '(' ∧ c ≠ ')') ∧
  match r with
  | .tag name => name ≠ [] ∧ Black name
  | .other name => name ≠ [] ∧ (∀ c, name.head? = some c → 32 < c.toNat) ∧
      (∀ c, name.getLast? = some c → 32 < c.toNat) ∧ ¬ "tag: ".toList <+: name

end CrowdDynamics.Spec
