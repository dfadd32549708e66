import Verif.Spec.Poisson
import Mathlib.Data.List.Sort
import Mathlib.Data.Real.Basic

/-!
# A function that sorts, for the examples
-/

namespace CrowdDynamics

open Spec

noncomputable section

open Classical in
/-- A function that sorts as `np.argsort`. -/
def orderOf {α : Type} [LinearOrder α] [Zero α] (l : List α) : List ℕ :=
  (List.range l.length).insertionSort fun i j => l.getD i 0 ≤ l.getD j 0

theorem orderOf_sorts {α : Type} [LinearOrder α] [Zero α] : IsArgsort (orderOf (α := α)) := by
  classical
  intro l
  refine ⟨List.perm_insertionSort _ _, ?_⟩
  unfold orderOf
  have : Std.Total (fun i j : ℕ => l.getD i 0 ≤ l.getD j 0) := ⟨fun i j => le_total _ _⟩
  have : IsTrans ℕ (fun i j : ℕ => l.getD i 0 ≤ l.getD j 0) := ⟨fun i j k h1 h2 => le_trans h1 h2⟩
  exact List.pairwise_map.2
    (List.pairwise_insertionSort (fun i j : ℕ => l.getD i 0 ≤ l.getD j 0) _)

end

end CrowdDynamics
