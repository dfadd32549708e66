import Verif.Model.IO

/-!
# Specification vocabulary for storing and loading data
-/

namespace CrowdDynamics.Spec

/-- The white space characters of ASCII, for Python: space, tab, line feed, vertical tab, form feed,
carriage return and the four separators. -/
def asciiSpaces : List Char :=
  [' ', '\t', '\n', '\x0b', '\x0c', '\r', '\x1c', '\x1d', '\x1e', '\x1f']

/-- The items up to and including the last one whose flag is set. -/
def uptoLastDump {β : Type} (h : List (β × Bool)) : List β :=
  ((h.reverse.dropWhile fun x => !x.2).reverse).map Prod.fst

/-- The arrays that are sent in a history, with their contents at that moment and the flag. -/
def sentFrames {α : Type} : (ℕ → List α) → List (NpyEvent α) → List (List α × Bool)
  | _, [] => []
  | heap, .update ref rows :: rest => sentFrames (Function.update heap ref rows) rest
  | heap, .send ref dump :: rest => (heap ref, dump) :: sentFrames heap rest

/-- The contents of the sent arrays at the moment of the next dump, up to the last dump; `waiting`
are the arrays sent before. -/
def framesAtDump {α : Type} : (ℕ → List α) → List ℕ → List (NpyEvent α) → List (List α)
  | _, _, [] => []
  | heap, waiting, .update ref rows :: rest =>
    framesAtDump (Function.update heap ref rows) waiting rest
  | heap, waiting, .send ref true :: rest =>
    (waiting ++ [ref]).map heap ++ framesAtDump heap [] rest
  | heap, waiting, .send ref false :: rest => framesAtDump heap (waiting ++ [ref]) rest

/-- No array is changed between being sent and being dumped. -/
def Undisturbed {α : Type} : List ℕ → List (NpyEvent α) → Prop
  | _, [] => True
  | waiting, .update ref _ :: rest => ref ∉ waiting ∧ Undisturbed waiting rest
  | _, .send _ true :: rest => Undisturbed [] rest
  | waiting, .send ref false :: rest => Undisturbed (waiting ++ [ref]) rest

/-- Number of dumps in a history. -/
def dumps {α : Type} : List (NpyEvent α) → ℕ
  | [] => 0
  | .send _ true :: rest => dumps rest + 1
  | _ :: rest => dumps rest

/-- `basename_i.npy`. -/
def npyName (basename : Text) (i : ℕ) : Text :=
  basename ++ '_' :: ((toString i).toList ++ ".npy".toList)

/-- `directory/basename_i.npy`. -/
def npyPath (directory basename : Text) (i : ℕ) : Text := directory ++ '/' :: npyName basename i

/-- Ordinary names: the directory is named and its name does not end with a slash, the basename
contains no slash. -/
structure Ordinary (directory basename : Text) : Prop where
  /-- there is a directory name -/
  named : directory ≠ []
  /-- that does not end with a slash -/
  noTrail : directory.getLast? ≠ some '/'
  /-- the basename has no slash -/
  noSlash : '/' ∉ basename

/-- No braces in a text. -/
def NoBraces (s : Text) : Prop := '{' ∉ s ∧ '}' ∉ s

/-- The frames in the files `0, …, k-1`, if all of them exist. -/
def FilesHold {α : Type} (disk : Text → Option (List (List α))) (directory basename : Text) (k : ℕ)
    (frames : List (List α)) : Prop :=
  ∃ parts : List (List (List α)), parts.length = k ∧
    (∀ i (h : i < parts.length), disk (npyPath directory basename i) = some parts[i]) ∧
    parts.flatten = frames

/-- All files found by a walk, with their directories. -/
def allFiles (walk : List (Text × List Text)) : List (Text × Text) :=
  walk.flatMap fun d => d.2.map fun f => (d.1, f)

open Classical in
/-- Among the files found by the walk, those whose name begins with the basename and ends with
`.npy` are exactly the files `0, …, k-1` of this basename, in any order. -/
def OnlyOwnFiles (walk : List (Text × List Text)) (directory basename : Text) (k : ℕ) : Prop :=
  ((allFiles walk).filter fun p => decide (basename <+: p.2 ∧ ".npy".toList <:+ p.2)).Perm
    ((List.range k).map fun i => (directory, npyName basename i))

/-- The text of a csv file with these records. -/
def csvText {V : Type} (fmt : CsvFormat V) : List (Dict V) → Text
  | [] => []
  | d :: rest => fmt.keys (d.map Prod.fst) ++ (d :: rest).flatMap fun d => fmt.values (d.map Prod.snd)

/-- The sends of a history of records, each followed by its flag, with file access that works. -/
def csvEvents {V : Type} (h : List (Dict V × Bool)) : List (CsvSend V × Bool) :=
  h.flatMap fun x => [(.dict x.1, true), (.flag x.2, true)]

/-- `None` or a list of geometries. -/
def IsNoneOrList {G : Type} : GeomEntry G → Prop
  | .none => True
  | .list _ => True
  | _ => False

end CrowdDynamics.Spec
