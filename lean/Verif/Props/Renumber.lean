import Verif.Proofs.Renumber

/-!
# C212: the numbers of the agents have no influence of their own in floating point
-/

namespace CrowdDynamics

open Spec

/-- **C212** If the agents get other numbers, and the pairs of neighbours come in the same order as before, every
agent moves exactly as before, digit by digit, for any number of updates; the same exceptions are raised. This
includes infinite numbers and NaN. Hence the numbering matters only through the order of the pairs (C211). -/
theorem C212_numbering {n : ℕ} (σ : Equiv.Perm (Fin n)) (A : Arith) (walls : List Wall) (dtMin dtMax : ℝ)
    (inputs : List (StepInput n)) (agents : Fin n → AgentI) :
    runI A walls dtMin dtMax (inputs.map (renumberInput σ)) (fun i => agents (σ i)) =
      (runI A walls dtMin dtMax inputs agents).map fun c i => c (σ i) :=
  runI_renumber σ A walls dtMin dtMax inputs agents

/-- Three agents whose numbers are exchanged in a circle, with two updates and a wall; the pairs (0, 1) and (1, 2)
become (2, 0) and (0, 1). -/
example (a b c : AgentI) (dtMin dtMax : ℝ) :
    runI Arith.machine [⟨(2, 0), (2, 1)⟩] dtMin dtMax
        [⟨![(.num 5, .num 6), (.nan, .num 8), (.num 3, .num 4)], fun _ => (.num 1, .num 0), [(2, 0), (0, 1)]⟩,
          ⟨fun _ => (.num 0, .num 0), ![(.num 0, .num 1), (.num 1, .num 0), (.inf true, .num 0)], [(0, 1)]⟩]
        ![b, c, a] =
      (runI Arith.machine [⟨(2, 0), (2, 1)⟩] dtMin dtMax
        [⟨![(.num 3, .num 4), (.num 5, .num 6), (.nan, .num 8)], fun _ => (.num 1, .num 0), [(0, 1), (1, 2)]⟩,
          ⟨fun _ => (.num 0, .num 0), ![(.inf true, .num 0), (.num 0, .num 1), (.num 1, .num 0)], [(1, 2)]⟩]
        ![a, b, c]).map fun d => ![d 1, d 2, d 0] := by
  have := C212_numbering (finRotate 3) Arith.machine [⟨(2, 0), (2, 1)⟩] dtMin dtMax
    [⟨![(.num 3, .num 4), (.num 5, .num 6), (.nan, .num 8)], fun _ => (.num 1, .num 0), [(0, 1), (1, 2)]⟩,
      ⟨fun _ => (.num 0, .num 0), ![(.inf true, .num 0), (.num 0, .num 1), (.num 1, .num 0)], [(1, 2)]⟩] ![a, b, c]
  have t : ∀ {α : Type} (x y z : α), (fun i => ![x, y, z] (finRotate 3 i)) = ![y, z, x] := by
    intro α x y z
    funext i
    fin_cases i <;> rfl
  have u : (fun (d : Fin 3 → AgentI) i => d (finRotate 3 i)) = fun d => ![d 1, d 2, d 0] := by
    funext d i
    fin_cases i <;> rfl
  have s0 : (finRotate 3).symm 0 = 2 := by decide
  have s1 : (finRotate 3).symm 1 = 0 := by decide
  have s2 : (finRotate 3).symm 2 = 1 := by decide
  simp only [List.map_cons, List.map_nil, renumberInput, t, u, s0, s1, s2] at this
  exact this

end CrowdDynamics
