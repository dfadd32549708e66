import Verif.Proofs.GridSymmetryMachine
import Verif.Proofs.IeeeSymmetry
import Verif.Props.RoundedWall

/-!
# C209: turns by right angles and reflections change no digit
-/

namespace CrowdDynamics

open Spec

/-- **C209** In floating point, agents, walls, random forces and target directions that are all turned by a
multiple of 90 degrees, or reflected in an axis or a diagonal, lead to the turned or reflected agents, digit by
digit and after any number of updates; a force is NaN in the one run if and only if it is in the other.
This holds for any `hypot` that depends neither on signs nor on the order of its arguments and for any `exp`. -/
theorem C209_symmetry {A : Arith} (hA : SignFree A) (swap flip₁ flip₂ : Bool) {n : ℕ} (walls : List Wall)
    (dtMin dtMax : ℝ) (xi direction : Fin n → Vec) (pairs : List (Fin n × Fin n)) (agents : Crowd n) (k : ℕ) :
    runF A (walls.map (mapWall (axisMap swap flip₁ flip₂))) dtMin dtMax
        (fun i => axisMap swap flip₁ flip₂ (xi i)) (fun i => axisMap swap flip₁ flip₂ (direction i)) pairs
        (fun i => mapAgent (axisMap swap flip₁ flip₂) (agents i)) k =
      (runF A walls dtMin dtMax xi direction pairs agents k).map
        fun c i => mapAgent (axisMap swap flip₁ flip₂) (c i) :=
  (axisLike hA swap flip₁ flip₂).run walls dtMin dtMax xi direction pairs agents k

/-- The arithmetic of the machine meets the condition: two agents who walk to the left, towards a wall, move as
when they walk up towards a wall above them, turned by 90 degrees. -/
example (a b : Agent) (k : ℕ) :
    runF Arith.machine [⟨(-2, 0), (-2, 1)⟩] 0.001 0.01 (fun _ => (0, 0)) (fun _ => (-1, 0)) [(0, 1)]
        (fun i : Fin 2 => mapAgent (fun v => (-v.2, v.1)) (![a, b] i)) k =
      (runF Arith.machine [⟨(0, 2), (1, 2)⟩] 0.001 0.01 (fun _ => (0, 0)) (fun _ => (0, 1)) [(0, 1)]
        ![a, b] k).map fun c i => mapAgent (fun v => (-v.2, v.1)) (c i) := by
  have e : axisMap true true false = fun v => (-v.2, v.1) := by
    funext v
    simp [axisMap]
  have := C209_symmetry machine_signFree true true false [⟨(0, 2), (1, 2)⟩] 0.001 0.01 (fun _ => (0, 0))
    (fun _ => (0, 1)) [(0, 1)] ![a, b] k
  rw [e] at this
  simpa [mapWall] using this

/-- **C209** The same holds when numbers overflow: with infinities, NaN and exceptions in the model, and with
random forces, directions and pairs that change from update to update, the mapped run gives the mapped agents,
or raises the same exception. -/
theorem C209_overflow {A : Arith} (hA : SignFree A) (swap flip₁ flip₂ : Bool) {n : ℕ} (walls : List Wall)
    (dtMin dtMax : ℝ) (inputs : List (StepInput n)) (agents : Fin n → AgentI) :
    runI A (walls.map (mapWall (axisMap swap flip₁ flip₂))) dtMin dtMax
        (inputs.map (mapInput (axisMapI swap flip₁ flip₂)))
        (fun i => mapAgentI (axisMapI swap flip₁ flip₂) (agents i)) =
      (runI A walls dtMin dtMax inputs agents).map
        fun c i => mapAgentI (axisMapI swap flip₁ flip₂) (c i) :=
  (axisLikeI hA swap flip₁ flip₂).run walls dtMin dtMax inputs agents

/-- Two agents, one of whom has left to the right for ever and is pushed by an infinite force: on the left of the
mirror the same happens. -/
example (a b : AgentI) (ha : a.position = (.inf false, .num 1)) :
    runI Arith.machine [⟨(-2, 0), (-2, 1)⟩] 0.001 0.01
        [⟨fun _ => (.inf true, .num 0), fun _ => (.num (-1), .num 0), [(0, 1)]⟩,
          ⟨fun _ => (.num 0, .num 0), fun _ => (.nan, .num 1), []⟩]
        ![{ mapAgentI (fun v => (v.1.neg, v.2)) a with position := (.inf true, .num 1) },
          mapAgentI (fun v => (v.1.neg, v.2)) b] =
      (runI Arith.machine [⟨(2, 0), (2, 1)⟩] 0.001 0.01
        [⟨fun _ => (.inf false, .num 0), fun _ => (.num 1, .num 0), [(0, 1)]⟩,
          ⟨fun _ => (.num 0, .num 0), fun _ => (.nan, .num 1), []⟩] ![a, b]).map
        fun c i => mapAgentI (fun v => (v.1.neg, v.2)) (c i) := by
  have e : axisMapI false true false = fun v => (v.1.neg, v.2) := by
    funext v
    simp [axisMapI]
  have := C209_overflow machine_signFree false true false [⟨(2, 0), (2, 1)⟩] 0.001 0.01
    [⟨fun _ => (.inf false, .num 0), fun _ => (.num 1, .num 0), [(0, 1)]⟩,
      ⟨fun _ => (.num 0, .num 0), fun _ => (.nan, .num 1), []⟩] ![a, b]
  rw [e] at this
  have f : (fun i : Fin 2 => mapAgentI (fun v => (v.1.neg, v.2)) (![a, b] i)) =
      ![{ mapAgentI (fun v => (v.1.neg, v.2)) a with position := (.inf true, .num 1) },
          mapAgentI (fun v => (v.1.neg, v.2)) b] := by
    funext i
    fin_cases i
    · simp [mapAgentI, ha, F64.neg]
    · rfl
  rw [f] at this
  simpa [mapWall, axisMap, mapInput, F64.neg] using this

/-- **C209** So walls stop agents who walk straight against them (C208) from all four sides. -/
theorem C209_walls {a : Agent} {X Y0 Y1 : ℝ} (h : PressStart a X Y0 Y1) (swap flip₁ flip₂ : Bool) (k : ℕ) :
    ∃ b : Agent, runF Arith.machine [mapWall (axisMap swap flip₁ flip₂) ⟨(X, Y0), (X, Y1)⟩] (fl64 (1 / 100))
        (fl64 (1 / 100)) (fun _ => 0) (fun _ => axisMap swap flip₁ flip₂ (1, 0)) []
        (fun _ : Fin 1 => mapAgent (axisMap swap flip₁ flip₂) a) k =
          some (fun _ => mapAgent (axisMap swap flip₁ flip₂) b) ∧
      a.radius - 0.151 ≤ X - b.position.1 ∧ b.position.2 = a.position.2 := by
  obtain ⟨b, e, h1, -, h2, -⟩ := C208_stopped h k
  have z : axisMap swap flip₁ flip₂ (0 : Vec) = 0 := (axisLike machine_signFree swap flip₁ flip₂).zero
  have := C209_symmetry machine_signFree swap flip₁ flip₂ [⟨(X, Y0), (X, Y1)⟩] (fl64 (1 / 100)) (fl64 (1 / 100))
    (fun _ => 0) (fun _ => (1, 0)) [] (fun _ : Fin 1 => a) k
  rw [e, z] at this
  exact ⟨b, this, h1, h2⟩

/-- An adult of 73.5 kg who walks up from the origin against the wall from (1, 2) to (-1, 2), for ever. -/
example : ∃ a : Agent, a.position = (0, 0) ∧ a.radius = 1 / 4 ∧ a.targetVelocity = 5 / 4 ∧ ∀ k : ℕ, ∃ b : Agent,
    runF Arith.machine [⟨(1, 2), (-1, 2)⟩] (fl64 (1 / 100)) (fl64 (1 / 100)) (fun _ => 0) (fun _ => (0, 1)) []
      (fun _ : Fin 1 => a) k = some (fun _ => b) ∧ b.position.1 = 0 ∧ b.position.2 ≤ 1.91 := by
  have b0 : Binary64 0 := (binary64_iff _).2 fl64_zero
  have e : axisMap true true false = fun v => (-v.2, v.1) := by
    funext v
    simp [axisMap]
  have h : PressStart { Agent.default with
      radius := 1 / 4, mass := 73.5, targetVelocity := 5 / 4, tauAdj := 1 / 2, position := (0, 0)
      targetDirection := (1, 0) } 2 (-1) 1 :=
    { tau := rfl, mu := rfl, damping := rfl, mass := by norm_num
      radius := ⟨⟨1, -2, by norm_num, by norm_num, by norm_num⟩, by norm_num, by norm_num⟩
      pace := ⟨⟨5, -2, by norm_num, by norm_num, by norm_num⟩, by norm_num, by norm_num⟩
      place := ⟨b0, b0⟩
      slow := ⟨b0, by norm_num [Agent.default, Agent.zero], rfl⟩
      aim := rfl, force := ⟨rfl, rfl⟩
      wall := ⟨⟨1, 1, by norm_num, by norm_num, by norm_num⟩, by norm_num,
        ⟨-1, 0, by norm_num, by norm_num, by norm_num⟩, ⟨1, 0, by norm_num, by norm_num, by norm_num⟩, by norm_num⟩
      beside := by rw [Set.uIcc_of_le (by norm_num)]; norm_num
      clear := by norm_num }
  refine ⟨mapAgent (axisMap true true false) { Agent.default with
      radius := 1 / 4, mass := 73.5, targetVelocity := 5 / 4, tauAdj := 1 / 2, position := (0, 0)
      targetDirection := (1, 0) }, ?_, rfl, rfl, fun k => ?_⟩
  rotate_left
  · obtain ⟨b, e1, h1, h2⟩ := C209_walls h true true false k
    refine ⟨mapAgent (axisMap true true false) b, ?_, ?_, ?_⟩
    · simpa [mapWall, e] using e1
    · simp [mapAgent, e, h2]
    · simp only [mapAgent, e]
      norm_num at h1 ⊢
      linarith
  · simp [mapAgent, e]

end CrowdDynamics
