import Verif.Model.Utils

/-!
# Specification vocabulary for directories, commands and groups
-/

namespace CrowdDynamics.Spec

noncomputable section

open Classical

/-- The directory in which one is after entering the given directories one after the other, if all of
them exist. -/
def enter {P D : Type} (resolve : P → D → P) (isDir : P → Prop) : P → List D → Option P
  | p, [] => some p
  | p, d :: rest => if isDir (resolve p d) then enter resolve isDir (resolve p d) rest else none

/-- The name of a python file: a stem that does not only consist of dots, and `.py`. -/
def IsPythonFile (name : Text) : Prop :=
  ∃ stem : Text, name = stem ++ ['.', 'p', 'y'] ∧ ∃ c ∈ stem, c ≠ '.'

/-- The module binds the name to a proper subclass of the base class. -/
def Binds {C : Type} (sub : C → C → Bool) (base : C) (entries : List (Text × PyObj C)) (name : Text)
    (c : C) : Prop := (name, PyObj.cls c) ∈ entries ∧ sub c base = true ∧ c ≠ base

/-- The last python file that binds the name to a simulation class binds it to `c`. -/
def LastBinding {C : Type} (sub : C → C → Bool) (base : C)
    (files : List (Text × List (Text × PyObj C))) (name : Text) (c : C) : Prop :=
  ∃ before f after, files = before ++ f :: after ∧ IsPythonFile f.1 ∧ Binds sub base f.2 name c ∧
    ∀ f' ∈ after, IsPythonFile f'.1 → ∀ c', ¬ Binds sub base f'.2 name c'

/-- The members were made from the first `n` items, in order. -/
def InOrder {A M : Type} (make : A → Except PyErr M) (items : ℕ → Option A) (n : ℕ)
    (members : List M) : Prop :=
  members.length = n ∧ ∀ i < n, ∃ a m, items i = some a ∧ make a = .ok m ∧ members[i]? = some m

/-- The items number `k` to `k + n - 1` exist and agents can be made from them. -/
def Usable {A M : Type} (make : A → Except PyErr M) (items : ℕ → Option A) (k n : ℕ) : Prop :=
  ∀ i < n, ∃ a m, items (k + i) = some a ∧ make a = .ok m

end

end CrowdDynamics.Spec
