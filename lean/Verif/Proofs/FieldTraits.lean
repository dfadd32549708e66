import Verif.Spec.FieldTraits

/-!
# Lemmas about the validators of fields
-/

namespace CrowdDynamics

open Spec

theorem validateGeom_ok {lib : ShapelyLib} {g h : Geom} (e : validateGeom lib g = .ok h) :
    h = g ∧ lib.isValid g = true ∧ lib.isEmpty g = false := by
  unfold validateGeom at e
  cases h1 : lib.isValid g <;> cases h2 : lib.isEmpty g <;> simp_all

theorem validateGeom_acceptable {lib : ShapelyLib} {g : Geom} (h1 : lib.isValid g = true)
    (h2 : lib.isEmpty g = false) : validateGeom lib g = .ok g := by
  unfold validateGeom; simp [h1, h2]

theorem validateGeom_refused {lib : ShapelyLib} {g : Geom}
    (h : ¬ (lib.isValid g = true ∧ lib.isEmpty g = false)) : validateGeom lib g = .error .validation := by
  unfold validateGeom
  cases h1 : lib.isValid g <;> cases h2 : lib.isEmpty g <;> simp_all

theorem run_wellFormed (lib : ShapelyLib) (f : Field) (h : WellFormed lib f) (a : FieldAssignment) :
    WellFormed lib (a.run lib f).2 := by
  cases a with
  | domain v =>
    match v with
    | .none => exact ⟨fun d hd => (by cases hd), h.2⟩
    | .geom (.polygon ext ints) =>
      rw [FieldAssignment.run, assignDomain]
      cases e : validateGeom lib (.polygon ext ints) with
      | error _ => exact h
      | ok g => exact ⟨fun d hd => by cases hd; exact (validateGeom_ok e).2, h.2⟩
    | .geom (.point _) => exact h
    | .geom (.lineString _) => exact h
    | .geom (.multi _) => exact h
    | .geom .other => exact h
    | .object => exact h
  | obstacles v =>
    have key : ∀ g, g ≠ .other → WellFormed lib (assignObstacles lib f (.geom g)).2 := by
      intro g hg
      have : assignObstacles lib f (.geom g) = match validateGeom lib g with
        | .error e => (.error e, f)
        | .ok g => (.ok (), { f with obstacles := some g }) := by
        cases g <;> first | rfl | exact absurd rfl hg
      rw [this]
      cases e : validateGeom lib g with
      | error _ => exact h
      | ok g' =>
        refine ⟨h.1, fun g'' hg'' => ?_⟩
        cases hg''
        obtain ⟨rfl, h1, h2⟩ := validateGeom_ok e
        exact ⟨h1, h2⟩
    match v with
    | .none => exact ⟨h.1, fun d hd => by cases hd⟩
    | .object => exact h
    | .geom g =>
      by_cases hg : g = .other
      · subst hg; exact h
      · exact key g hg

end CrowdDynamics
