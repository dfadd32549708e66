import Verif.Proofs.Partners
import Verif.Proofs.Renumber
import Verif.Proofs.GridSymmetryMachine

/-!
# C214: only the order in which each agent meets the others matters; symmetric crowds stay symmetric
-/

namespace CrowdDynamics

open Spec

/-- **C214** Two runs in which every agent meets the same agents in the same order are equal, digit by digit. How
the pairs of different agents are interleaved in the list, and which agent of a pair comes first, has no influence;
the same exceptions are raised. This includes infinite numbers and NaN. -/
theorem C214_partners {A : Arith} (hA : SignFree A) {n : ℕ} (walls : List Wall) (dtMin dtMax : ℝ)
    {inputs inputs' : List (StepInput n)} (h : List.Forall₂ InputSamePartners inputs inputs')
    (agents : Fin n → AgentI) :
    runI A walls dtMin dtMax inputs' agents = runI A walls dtMin dtMax inputs agents :=
  runI_same hA agents walls dtMin dtMax h

/-- Four agents in a ring. The pairs come in another order and some are turned, but each agent meets its two
neighbours in the same order. -/
example (agents : Fin 4 → AgentI) (f d : Fin 4 → F64 × F64) (dtMin dtMax : ℝ) :
    runI Arith.machine [⟨(2, 0), (2, 1)⟩] dtMin dtMax [⟨f, d, [(3, 2), (0, 1), (1, 2), (0, 3)]⟩] agents =
      runI Arith.machine [⟨(2, 0), (2, 1)⟩] dtMin dtMax [⟨f, d, [(0, 1), (2, 3), (3, 0), (2, 1)]⟩] agents := by
  apply C214_partners machine_signFree
  exact .cons ⟨rfl, rfl, by dsimp only; decide, by dsimp only; decide, by dsimp only; decide⟩ .nil

/-- **C214** A crowd of any size that a reflection or a turn maps to itself (agent `i` to agent `σ i`) stays so
for any number of updates, digit by digit, if the random forces and directions are symmetric too, the walls are
their own images, and each agent meets the others in the order in which its image meets their images. -/
theorem C214_symmetric {A : Arith} (hA : SignFree A) (swap flip₁ flip₂ : Bool) {n : ℕ} (σ : Equiv.Perm (Fin n))
    (walls : List Wall) (hw : walls.map (mapWall (axisMap swap flip₁ flip₂)) = walls) (dtMin dtMax : ℝ)
    (inputs : List (StepInput n))
    (hi : ∀ inp ∈ inputs, (∀ i, inp.fluctuation (σ i) = axisMapI swap flip₁ flip₂ (inp.fluctuation i)) ∧
      (∀ i, inp.direction (σ i) = axisMapI swap flip₁ flip₂ (inp.direction i)) ∧ (∀ p ∈ inp.pairs, p.1 ≠ p.2) ∧
      ∀ k, partnersOf (σ k) inp.pairs = (partnersOf k inp.pairs).map σ)
    (agents : Fin n → AgentI) (ha : ∀ i, agents (σ i) = mapAgentI (axisMapI swap flip₁ flip₂) (agents i))
    {c : Fin n → AgentI} (hc : runI A walls dtMin dtMax inputs agents = .ok c) (i : Fin n) :
    c (σ i) = mapAgentI (axisMapI swap flip₁ flip₂) (c i) := by
  have h1 := (axisLikeI hA swap flip₁ flip₂).run walls dtMin dtMax inputs agents
  have h2 : List.Forall₂ InputSamePartners (inputs.map (renumberInput σ))
      (inputs.map (mapInput (axisMapI swap flip₁ flip₂))) := by
    rw [List.forall₂_map_left_iff, List.forall₂_map_right_iff, List.forall₂_same]
    intro inp hm
    obtain ⟨a1, a2, a3, a4⟩ := hi inp hm
    refine ⟨funext fun i => (a1 i).symm, funext fun i => (a2 i).symm, ?_, a3, fun k => ?_⟩
    · intro p hp
      obtain ⟨q, hq, rfl⟩ := List.mem_map.1 hp
      exact fun h => a3 q hq (σ.symm.injective h)
    · exact partnersOf_renumber σ inp.pairs k (a4 k)
  have h3 := runI_same hA (fun i => agents (σ i)) walls dtMin dtMax h2
  rw [runI_renumber, hc] at h3
  rw [hw, hc, ← funext ha, h3] at h1
  exact congrFun (Except.ok.inj h1) i

/-- Four agents in two pairs of mirror images with respect to the first axis, with a wall on this axis. The agents
0 and 1 are images of each other, and so are 2 and 3. All six pairs are in the list. -/
example (a b : AgentI) (f d f' d' : F64 × F64) (dtMin dtMax : ℝ) {c : Fin 4 → AgentI}
    (hc : runI Arith.machine [⟨(2, 0), (5, 0)⟩] dtMin dtMax
      [⟨![f, (f.1, f.2.neg), f', (f'.1, f'.2.neg)], ![d, (d.1, d.2.neg), d', (d'.1, d'.2.neg)],
        [(0, 1), (0, 2), (1, 3), (0, 3), (1, 2), (2, 3)]⟩]
      ![a, mapAgentI (axisMapI false false true) a, b, mapAgentI (axisMapI false false true) b] = .ok c) :
    c 1 = mapAgentI (axisMapI false false true) (c 0) ∧ c 3 = mapAgentI (axisMapI false false true) (c 2) := by
  have m : ∀ a : AgentI, mapAgentI (axisMapI false false true) (mapAgentI (axisMapI false false true) a) = a := by
    intro a
    simp [mapAgentI, axisMapI, F64.neg_neg']
  have := C214_symmetric machine_signFree false false true (Equiv.swap (0 : Fin 4) 1 * Equiv.swap 2 3)
    [⟨(2, 0), (5, 0)⟩] (by simp [mapWall, axisMap]) dtMin dtMax _ (by
      intro inp hm
      rw [List.mem_singleton] at hm
      subst hm
      refine ⟨?_, ?_, by dsimp only; decide, by dsimp only; decide⟩
      · intro i
        fin_cases i
        · rfl
        · exact (Prod.ext rfl (F64.neg_neg' _).symm)
        · rfl
        · exact (Prod.ext rfl (F64.neg_neg' _).symm)
      · intro i
        fin_cases i
        · rfl
        · exact (Prod.ext rfl (F64.neg_neg' _).symm)
        · rfl
        · exact (Prod.ext rfl (F64.neg_neg' _).symm)) _ (by
      intro i
      fin_cases i
      · rfl
      · exact (m a).symm
      · rfl
      · exact (m b).symm) hc
  exact ⟨this 0, this 2⟩

/-- **C214** In particular agents in single file on the first axis, with walls on this axis only, stay on the axis
exactly: the second coordinates of their positions and velocities are zero for ever, or NaN after an overflow. -/
theorem C214_single_file {A : Arith} (hA : SignFree A) {n : ℕ} (walls : List Wall)
    (hw : ∀ w ∈ walls, w.p0.2 = 0 ∧ w.p1.2 = 0) (dtMin dtMax : ℝ) (inputs : List (StepInput n))
    (hi : ∀ inp ∈ inputs, (∀ i, (inp.fluctuation i).2 = .num 0) ∧ (∀ i, (inp.direction i).2 = .num 0) ∧
      ∀ p ∈ inp.pairs, p.1 ≠ p.2) (agents : Fin n → AgentI)
    (ha : ∀ i, (agents i).position.2 = .num 0 ∧ (agents i).velocity.2 = .num 0 ∧ (agents i).force.2 = .num 0 ∧
      (agents i).forcePrev.2 = .num 0)
    {c : Fin n → AgentI} (hc : runI A walls dtMin dtMax inputs agents = .ok c) (i : Fin n) :
    ((c i).position.2 = .num 0 ∨ (c i).position.2 = .nan) ∧
      ((c i).velocity.2 = .num 0 ∨ (c i).velocity.2 = .nan) := by
  have z : ∀ v : F64 × F64, v.2 = .num 0 → v = axisMapI false false true v := by
    rintro ⟨x, y⟩ rfl
    simp [axisMapI, F64.neg]
  have z' : ∀ v : F64 × F64, v = axisMapI false false true v → v.2 = .num 0 ∨ v.2 = .nan := by
    rintro ⟨x, y⟩ h
    have h : y = y.neg := (Prod.mk.inj h).2
    cases y with
    | nan => exact .inr rfl
    | inf s => cases s <;> cases h
    | num y =>
      have := F64.num.inj h
      exact .inl (by rw [show y = 0 by linarith])
  have w : walls.map (mapWall (axisMap false false true)) = walls := by
    refine (List.map_congr_left fun w h => ?_).trans (List.map_id _)
    obtain ⟨⟨x0, y0⟩, x1, y1⟩ := w
    obtain ⟨h0, h1⟩ := hw _ h
    simp only at h0 h1
    subst h0 h1
    simp [mapWall, axisMap]
  have := C214_symmetric hA false false true (Equiv.refl _) walls w dtMin dtMax inputs
    (fun inp h => ⟨fun i => z _ ((hi inp h).1 i), fun i => z _ ((hi inp h).2.1 i), (hi inp h).2.2, fun k => by simp⟩)
    agents (fun i => by
      obtain ⟨h1, h2, h3, h4⟩ := ha i
      unfold mapAgentI
      rw [← z _ h1, ← z _ h2, ← z _ h3, ← z _ h4]
      rfl) hc i
  exact ⟨z' _ (congrArg (fun a => a.position) this), z' _ (congrArg (fun a => a.velocity) this)⟩

/-- Three agents on the first axis and two updates, with a wall on the axis. -/
example (a : AgentI) (x y z u : F64) {c : Fin 3 → AgentI}
    (hc : runI Arith.machine [⟨(4, 0), (5, 0)⟩] 0.001 0.01
      [⟨fun _ => (u, .num 0), fun _ => (.num 1, .num 0), [(0, 1), (2, 1)]⟩,
        ⟨fun _ => (.num 0, .num 0), fun _ => (.num (-1), .num 0), [(0, 2)]⟩]
      ![{ a with position := (x, .num 0), velocity := (u, .num 0), force := (.num 0, .num 0), forcePrev := (u, .num 0) },
        { a with position := (y, .num 0), velocity := (y, .num 0), force := (.num 0, .num 0), forcePrev := (u, .num 0) },
        { a with position := (z, .num 0), velocity := (z, .num 0), force := (.num 0, .num 0), forcePrev := (u, .num 0) }]
      = .ok c) :
    (c 1).position.2 = .num 0 ∨ (c 1).position.2 = .nan :=
  (C214_single_file machine_signFree _ (by simp) _ _ _ (by simp; decide) _
    (by intro i; fin_cases i <;> exact ⟨rfl, rfl, rfl, rfl⟩) hc 1).1

end CrowdDynamics
