import Verif.Proofs.PairTurn
import Verif.Proofs.Renumber
import Verif.Proofs.GridSymmetryMachine

/-!
# C213: which agent of a pair comes first has no influence in floating point
-/

namespace CrowdDynamics

open Spec

/-- **C213** The forces on a pair of agents, with rounding, do not depend on which of the two comes first. Each
agent gets exactly the same force, digit by digit; the same exceptions are raised. This includes infinite numbers
and NaN. -/
theorem C213_pair {A : Arith} (hA : SignFree A) {n : ℕ} (agents : Fin n → AgentI) {i j : Fin n} (h : i ≠ j)
    (F : Fin n → F64 × F64) :
    interactionAgentAgentCircularG A agents j i F = interactionAgentAgentCircularG A agents i j F :=
  interactionG_turn hA agents h F

/-- The rounding of the machine, with agents that may be anywhere, even at infinity. -/
example (a b : AgentI) (F : Fin 2 → F64 × F64) :
    interactionAgentAgentCircularG Arith.machine ![{ a with position := (.inf true, .num 1) }, b] 1 0 F =
      interactionAgentAgentCircularG Arith.machine ![{ a with position := (.inf true, .num 1) }, b] 0 1 F :=
  C213_pair machine_signFree _ (by decide) F

/-- **C213** The same for any number of updates: if the pairs come in the same order, and in any of them the two
agents are exchanged, every agent moves exactly as before. -/
theorem C213_run {A : Arith} (hA : SignFree A) {n : ℕ} (walls : List Wall) (dtMin dtMax : ℝ)
    {inputs inputs' : List (StepInput n)} (h : List.Forall₂ InputUpToTurn inputs inputs') (agents : Fin n → AgentI) :
    runI A walls dtMin dtMax inputs' agents = runI A walls dtMin dtMax inputs agents :=
  runI_turn hA walls dtMin dtMax h agents

/-- Three agents and two updates; one pair is turned in each. -/
example (agents : Fin 3 → AgentI) (f d : Fin 3 → F64 × F64) (dtMin dtMax : ℝ) :
    runI Arith.machine [⟨(2, 0), (2, 1)⟩] dtMin dtMax [⟨f, d, [(1, 0), (1, 2)]⟩, ⟨f, d, [(2, 0)]⟩] agents =
      runI Arith.machine [⟨(2, 0), (2, 1)⟩] dtMin dtMax [⟨f, d, [(0, 1), (1, 2)]⟩, ⟨f, d, [(0, 2)]⟩] agents := by
  apply C213_run machine_signFree
  refine .cons ⟨rfl, rfl, ?_⟩ (.cons ⟨rfl, rfl, ?_⟩ .nil)
  · exact .cons ⟨by decide, .inr rfl⟩ (.cons ⟨by decide, .inl rfl⟩ .nil)
  · exact .cons ⟨by decide, .inr rfl⟩ .nil

/-- **C213** Together with C212: if the agents get other numbers, and the pairs come in the same order as before
but the two agents of a pair in any order (the cell list puts the two of a pair in an order that depends on their
numbers), every agent moves exactly as before. -/
theorem C213_numbering {A : Arith} (hA : SignFree A) {n : ℕ} (σ : Equiv.Perm (Fin n)) (walls : List Wall)
    (dtMin dtMax : ℝ) {inputs inputs' : List (StepInput n)}
    (h : List.Forall₂ InputUpToTurn (inputs.map (renumberInput σ)) inputs') (agents : Fin n → AgentI) :
    runI A walls dtMin dtMax inputs' (fun i => agents (σ i)) =
      (runI A walls dtMin dtMax inputs agents).map fun c i => c (σ i) := by
  rw [runI_turn hA walls dtMin dtMax h, runI_renumber]

/-- Two agents that exchange their numbers; the pair is (0, 1) both times. -/
example (a b : AgentI) (dtMin dtMax : ℝ) :
    runI Arith.machine [⟨(2, 0), (2, 1)⟩] dtMin dtMax
        [⟨![(.num 5, .num 6), (.nan, .num 8)], fun _ => (.num 1, .num 0), [(0, 1)]⟩] ![b, a] =
      (runI Arith.machine [⟨(2, 0), (2, 1)⟩] dtMin dtMax
        [⟨![(.nan, .num 8), (.num 5, .num 6)], fun _ => (.num 1, .num 0), [(0, 1)]⟩] ![a, b]).map
          fun c => ![c 1, c 0] := by
  have t : ∀ {α : Type} (x y : α), (fun i => ![x, y] (Equiv.swap (0 : Fin 2) 1 i)) = ![y, x] := by
    intro α x y
    funext i
    fin_cases i <;> rfl
  have u : (fun (c : Fin 2 → AgentI) i => c (Equiv.swap (0 : Fin 2) 1 i)) = fun c => ![c 1, c 0] := by
    funext c i
    fin_cases i <;> rfl
  rw [← u, ← t a b]
  refine C213_numbering machine_signFree (Equiv.swap (0 : Fin 2) 1) _ _ _ (.cons ⟨(t _ _).symm, rfl, ?_⟩ .nil) _
  exact .cons ⟨by decide, .inr (by decide)⟩ .nil

end CrowdDynamics
