import Verif.Proofs.FieldTraits

/-!
# Validation of domain and obstacles
-/

namespace CrowdDynamics

open Spec

/-- **C129** Whatever is assigned to domain and obstacles of a new field, successfully or not, they
are always `None` or valid and not empty. -/
theorem C129_invariant (lib : ShapelyLib) (targets spawns : List Geom) (l : List FieldAssignment) :
    WellFormed lib (l.foldl (fun f a => (a.run lib f).2) ⟨none, none, targets, spawns⟩) := by
  have : ∀ (l : List FieldAssignment) (f : Field), WellFormed lib f →
      WellFormed lib (l.foldl (fun f a => (a.run lib f).2) f) := by
    intro l
    induction l with
    | nil => intro f h; exact h
    | cons a l ih => intro f h; exact ih _ (run_wellFormed lib f h a)
  exact this l _ ⟨fun d hd => (by cases hd), fun d hd => (by cases hd)⟩

/-- **C129** An acceptable value and `None` are stored. Of all other values, geometries of the right
class raise `ValidationError`, other objects raise `TraitError`, and the field is not changed. -/
theorem C129_assign (lib : ShapelyLib) (f : Field) :
    (∀ ext ints, Acceptable lib (.polygon ext ints) →
      assignDomain lib f (.geom (.polygon ext ints)) = (.ok (), { f with domain := some (ext, ints) })) ∧
    (∀ ext ints, ¬ Acceptable lib (.polygon ext ints) →
      assignDomain lib f (.geom (.polygon ext ints)) = (.error .validation, f)) ∧
    (∀ v, v ≠ .none → (∀ ext ints, v ≠ .geom (.polygon ext ints)) →
      assignDomain lib f v = (.error .other, f)) ∧
    assignDomain lib f .none = (.ok (), { f with domain := none }) ∧
    (∀ g, Acceptable lib g →
      assignObstacles lib f (.geom g) = (.ok (), { f with obstacles := some g })) ∧
    (∀ g, g ≠ .other → ¬ Acceptable lib g →
      assignObstacles lib f (.geom g) = (.error .validation, f)) ∧
    (assignObstacles lib f (.geom .other) = (.error .other, f) ∧
      assignObstacles lib f .object = (.error .other, f)) ∧
    assignObstacles lib f .none = (.ok (), { f with obstacles := none }) := by
  have obs : ∀ g, g ≠ .other → assignObstacles lib f (.geom g) = match validateGeom lib g with
      | .error e => (.error e, f)
      | .ok g => (.ok (), { f with obstacles := some g }) := by
    intro g hg
    cases g <;> first | rfl | exact absurd rfl hg
  refine ⟨fun ext ints h => ?_, fun ext ints h => ?_, fun v h1 h2 => ?_, rfl, fun g h => ?_,
    fun g h0 h => ?_, ⟨rfl, rfl⟩, rfl⟩
  · rw [assignDomain, validateGeom_acceptable h.2.1 h.2.2]
  · rw [assignDomain, validateGeom_refused fun hc => h ⟨by simp, hc⟩]
  · match v with
    | .none => exact absurd rfl h1
    | .geom (.polygon ext ints) => exact absurd rfl (h2 ext ints)
    | .geom (.point _) => rfl
    | .geom (.lineString _) => rfl
    | .geom (.multi _) => rfl
    | .geom .other => rfl
    | .object => rfl
  · rw [obs g h.1, validateGeom_acceptable h.2.1 h.2.2]
  · rw [obs g h0, validateGeom_refused fun hc => h ⟨h0, hc⟩]

/-- A library for which exactly the geometries without coordinates are empty, and all are valid. -/
def plainShapely : ShapelyLib :=
  ⟨fun _ => true, fun g => match g with
    | .lineString [] => true
    | .polygon [] _ => true
    | .multi [] => true
    | _ => false⟩

/-- There are acceptable geometries and others. -/
example : Acceptable plainShapely (.polygon [(0, 0), (1, 0), (1, 1), (0, 0)] []) ∧
    ¬ Acceptable plainShapely (.polygon [] []) ∧ Acceptable plainShapely (.lineString [(0, 0), (1, 1)]) :=
  ⟨⟨by simp, rfl, rfl⟩, fun h => (by cases h.2.2), ⟨by simp, rfl, rfl⟩⟩

end CrowdDynamics
