import Verif.Proofs.Standoff

/-!
# Cases for `Verif.Props.Standoff`
-/

namespace CrowdDynamics

open Spec

/-- An open field in which random forces of medium strength push the two agents apart. -/
noncomputable def pushedEnv : SimEnv 2 :=
  { emptyEnv with
    fields := fun _ => ⟨some ([(0, 0), (0, 10), (20, 10), (20, 0), (0, 0)], []), none, [], []⟩
    z := fun _ _ a b => (a + b) / 2
    phi := fun _ i => if i = 0 then Real.pi else 0 }

theorem pushed_world : OpenField pushedEnv ∧ OppositeDraws pushedEnv := by
  refine ⟨⟨by simp [SimEnv.field, pushedEnv], by simp [SimEnv.field, pushedEnv],
    fun d k a b h => ⟨?_, ?_⟩, fun _ _ _ => two_cells _ _⟩, fun _ => rfl, fun d i => ?_, fun d => ?_⟩
  · simp only [pushedEnv]; linarith
  · simp only [pushedEnv]; linarith
  · fin_cases i <;> simp [pushedEnv]
  · simp [pushedEnv]

end CrowdDynamics
