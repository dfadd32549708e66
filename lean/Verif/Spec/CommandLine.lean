import Verif.Model.CommandLine

/-!
# What the log and the command line should do
-/

namespace CrowdDynamics.Spec

open CrowdDynamics

/-- The logger belongs to the package: `crowddynamics` or `crowddynamics.….…`. -/
def OfPackage (name : List Text) : Prop := ∃ rest, name = "crowddynamics".toList :: rest

/-- The meaning of the texts that the option should accept: the names of the levels and their numbers. -/
def meantLevel : List (Text × ℕ) :=
  [("CRITICAL".toList, 50), ("FATAL".toList, 50), ("ERROR".toList, 40), ("WARNING".toList, 30),
    ("WARN".toList, 30), ("INFO".toList, 20), ("DEBUG".toList, 10), ("NOTSET".toList, 0),
    ("50".toList, 50), ("40".toList, 40), ("30".toList, 30), ("20".toList, 20), ("10".toList, 10),
    ("0".toList, 0)]

/-- With this configuration a logger of the package writes a message somewhere exactly if its level is at
least `level`. -/
def WritesFrom (cfg : LogConfig) (level : ℕ) : Prop :=
  ∀ name, OfPackage name → ∀ v, logTo cfg name v ≠ [] ↔ level ≤ v

end CrowdDynamics.Spec
