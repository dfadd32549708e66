import Verif.Model.SaveData
import Verif.Spec.IO

/-!
# Specification vocabulary for stored simulations

A history of a simulation is a list of updates; of each we note the rows of the agents, the data, and
whether the condition for saving was met.
-/

namespace CrowdDynamics.Spec

/-- Rows of the agents after each update, with the flag. -/
def historyRows {α V : Type} (h : List (List α × Dict V × Bool)) : List (List α × Bool) :=
  h.map fun x => (x.1, x.2.2)

/-- Data of each update, with the flag. -/
def historyData {α V : Type} (h : List (List α × Dict V × Bool)) : List (Dict V × Bool) :=
  h.map fun x => x.2

/-- Number of updates at which was saved. -/
def saves {α V : Type} (h : List (List α × Dict V × Bool)) : ℕ := (h.filter fun x => x.2.2).length

/-- The rows at each save, as often as there were updates since the save before; `k` updates are
waiting already. -/
def copiesAtSave {α : Type} : ℕ → List (List α × Bool) → List (List α)
  | _, [] => []
  | k, (_, false) :: rest => copiesAtSave (k + 1) rest
  | k, (rows, true) :: rest => List.replicate (k + 1) rows ++ copiesAtSave 0 rest

/-- Nothing has been stored in the directory. -/
structure Fresh {α J : Type} (directory : Text) (w : SaveWorld α J) : Prop where
  /-- no data -/
  data : w.csv (directory ++ "/data.csv".toList) = none
  /-- no metadata -/
  metadata : w.csv (directory ++ "/metadata.csv".toList) = none
  /-- no geometry -/
  geometry : w.json (directory ++ "/geometry.json".toList) = none

/-- The csv file holds these records: it does not exist if there are none. -/
def CsvHolds {V : Type} (fmt : CsvFormat V) (file : Option Text) (records : List (Dict V)) : Prop :=
  file = if records.isEmpty then none else some (csvText fmt records)

/-- An ordinary name of a directory, that has no braces. -/
structure Plain (directory : Text) : Prop where
  /-- there is a directory name -/
  named : directory ≠ []
  /-- that does not end with a slash -/
  noTrail : directory.getLast? ≠ some '/'
  /-- no braces -/
  noBraces : NoBraces directory

/-- A date and a time of day, separated by a space. -/
def IsTimestamp (s : Text) : Prop :=
  ∃ date time : Text, s = date ++ ' ' :: time ∧
    ' ' ∉ date ∧ ' ' ∉ time ∧ '_' ∉ date ∧ '_' ∉ time

end CrowdDynamics.Spec
