import Verif.Model.Interactions
import Verif.Proofs.SocialForce
import Mathlib.Algebra.BigOperators.Group.List.Basic
import Mathlib.Algebra.BigOperators.Group.Finset.Basic
import Mathlib.Algebra.BigOperators.Pi
import Mathlib.Data.Finset.Sym
import Mathlib.Algebra.BigOperators.Fin
import Verif.Spec.Interactions
import Verif.Proofs.BlockList

/-! # Helper lemmas about `interactions.py` -/

namespace CrowdDynamics

open Real

variable {n : ℕ}

/-- Force and torque added to every agent. -/
abbrev Effect (n : ℕ) : Type := Fin n → Vec × ℝ

/-- Add forces and torques. -/
def applyEffect (agents : Crowd n) (e : Effect n) : Crowd n := fun k =>
  { agents k with force := (agents k).force + (e k).1, torque := (agents k).torque + (e k).2 }

lemma applyEffect_zero (agents : Crowd n) : applyEffect agents 0 = agents := by
  funext k
  simp [applyEffect]

lemma applyEffect_add (agents : Crowd n) (e e' : Effect n) :
    applyEffect (applyEffect agents e) e' = applyEffect agents (e + e') := by
  funext k
  simp [applyEffect, add_assoc]

lemma addForce_eq (agents : Crowd n) (i : Fin n) (f : Vec) :
    addForce agents i f = applyEffect agents (Pi.single i (f, 0)) := by
  funext k
  unfold addForce applyEffect
  by_cases h : k = i
  · subst h; simp
  · simp [h]

lemma addTorque_eq (agents : Crowd n) (i : Fin n) (m : ℝ) :
    addTorque agents i m = applyEffect agents (Pi.single i (0, m)) := by
  funext k
  unfold addTorque applyEffect
  by_cases h : k = i
  · subst h; simp
  · simp [h]

/-- Everything about an agent except force and torque. -/
def bare (a : Agent) : Agent := { a with force := 0, torque := 0 }

lemma bare_applyEffect (agents : Crowd n) (e : Effect n) (k : Fin n) :
    bare (applyEffect agents e k) = bare (agents k) := rfl

/-- The forces added by `interaction_agent_agent_circular`. -/
noncomputable def pairForces (a b : Agent) : Vec × Vec :=
  let hn := distanceCircles a.position a.radius b.position b.radius
  open Classical in
  if hn.1 < sigthSoc then
    let f := forceSocialCircular a b
    if hn.1 < 0 then
      (f.1 + forceContact hn.1 hn.2 (a.velocity - b.velocity) (rotate270 hn.2) a.mu a.kappa a.damping,
       f.2 - forceContact hn.1 hn.2 (a.velocity - b.velocity) (rotate270 hn.2) b.mu b.kappa b.damping)
    else f
  else (0, 0)

/-- The forces and torques added by `interaction_agent_agent_three_circle`. -/
noncomputable def pairForcesThree (a b : Agent) : (Vec × ℝ) × (Vec × ℝ) :=
  let d := distanceThreeCircles a.circles a.radii b.circles b.radii
  open Classical in
  if d.h < sigthSoc then
    let f := forceSocialThreeCircle a b
    let f : Vec × Vec := if d.h < 0 then
      (f.1 + forceContact d.h d.n (a.velocity - b.velocity) (rotate270 d.n) a.mu a.kappa a.damping,
       f.2 - forceContact d.h d.n (a.velocity - b.velocity) (rotate270 d.n) b.mu b.kappa b.damping)
      else f
    ((f.1, cross d.rm0 f.1), (f.2, cross d.rm1 f.2))
  else ((0, 0), (0, 0))

/-- The effect of one circular interaction. -/
noncomputable def effectCirc (p : Fin n × Fin n) (agents : Crowd n) : Effect n :=
  Pi.single p.1 ((pairForces (agents p.1) (agents p.2)).1, 0) +
    Pi.single p.2 ((pairForces (agents p.1) (agents p.2)).2, 0)

/-- The effect of one three-circle interaction. -/
noncomputable def effectThree (p : Fin n × Fin n) (agents : Crowd n) : Effect n :=
  Pi.single p.1 (pairForcesThree (agents p.1) (agents p.2)).1 +
    Pi.single p.2 (pairForcesThree (agents p.1) (agents p.2)).2

lemma interactionCirc_eq (p : Fin n × Fin n) (agents : Crowd n) :
    interactionAgentAgentCircular p.1 p.2 agents = applyEffect agents (effectCirc p agents) := by
  unfold interactionAgentAgentCircular effectCirc pairForces
  simp only
  by_cases h : (distanceCircles (agents p.1).position (agents p.1).radius
    (agents p.2).position (agents p.2).radius).1 < sigthSoc
  · rw [if_pos h, if_pos h, addForce_eq, addForce_eq, applyEffect_add]
  · rw [if_neg h, if_neg h]
    have : ((0 : Vec), (0 : ℝ)) = 0 := rfl
    simp only [this, Pi.single_zero, add_zero, applyEffect_zero]

lemma interactionThree_eq (p : Fin n × Fin n) (agents : Crowd n) :
    interactionAgentAgentThreeCircle p.1 p.2 agents =
      applyEffect agents (effectThree p agents) := by
  unfold interactionAgentAgentThreeCircle effectThree pairForcesThree
  simp only
  by_cases h : (distanceThreeCircles (agents p.1).circles (agents p.1).radii
    (agents p.2).circles (agents p.2).radii).h < sigthSoc
  · rw [if_pos h, if_pos h]
    simp only [addForce_eq, addTorque_eq, applyEffect_add]
    congr 1
    generalize (if (distanceThreeCircles (agents p.1).circles (agents p.1).radii
      (agents p.2).circles (agents p.2).radii).h < 0 then _ else _ : Vec × Vec) = f
    have split : ∀ (i : Fin n) (f : Vec) (m : ℝ), (Pi.single i (f, m) : Effect n) =
        Pi.single i (f, 0) + Pi.single i (0, m) := by
      intro i f m
      rw [← Pi.single_add]; simp
    generalize cross _ f.1 = m1
    generalize cross _ f.2 = m2
    rw [split p.1 f.1 m1, split p.2 f.2 m2]
    abel
  · rw [if_neg h, if_neg h]
    have : ((0 : Vec), (0 : ℝ)) = 0 := rfl
    simp only [this, Pi.single_zero, add_zero, applyEffect_zero]

lemma effectCirc_apply (p : Fin n × Fin n) (agents : Crowd n) (e : Effect n) :
    effectCirc p (applyEffect agents e) = effectCirc p agents := rfl

lemma effectThree_apply (p : Fin n × Fin n) (agents : Crowd n) (e : Effect n) :
    effectThree p (applyEffect agents e) = effectThree p agents := rfl

/-- A loop whose steps add forces that depend only on the other data adds the sum. -/
lemma fold_effect {β : Type} (step : β → Crowd n → Crowd n) (E : β → Crowd n → Effect n)
    (h1 : ∀ b A, step b A = applyEffect A (E b A))
    (h2 : ∀ b A e, E b (applyEffect A e) = E b A) (l : List β) :
    ∀ A : Crowd n, l.foldl (fun A b => step b A) A =
      applyEffect A ((l.map fun b => E b A).sum) := by
  induction l with
  | nil => intro A; simp [applyEffect_zero]
  | cons b l ih =>
    intro A
    rw [List.foldl_cons, h1, ih, applyEffect_add]
    simp only [h2, List.map_cons, List.sum_cons]

lemma agentAgentCircular_eq (agents : Crowd n) (pairs : List (Fin n × Fin n)) :
    agentAgentCircular agents pairs =
      applyEffect agents ((pairs.map fun p => effectCirc p agents).sum) := by
  have h := fold_effect (fun (p : Fin n × Fin n) A => interactionAgentAgentCircular p.1 p.2 A)
    effectCirc (fun p A => interactionCirc_eq p A) (fun p A e => effectCirc_apply p A e) pairs
  exact h agents

lemma agentAgentThreeCircle_eq (agents : Crowd n) (pairs : List (Fin n × Fin n)) :
    agentAgentThreeCircle agents pairs =
      applyEffect agents ((pairs.map fun p => effectThree p agents).sum) := by
  have h := fold_effect (fun (p : Fin n × Fin n) A => interactionAgentAgentThreeCircle p.1 p.2 A)
    effectThree (fun p A => interactionThree_eq p A) (fun p A e => effectThree_apply p A e) pairs
  exact h agents

/-! ## Symmetry -/

lemma rotate270_neg (v : Vec) : rotate270 (-v) = -rotate270 v := by
  unfold rotate270; ext <;> simp

lemma forceContact_neg (h : ℝ) (n v t : Vec) (mu kappa damping : ℝ) :
    forceContact h (-n) (-v) (-t) mu kappa damping = -forceContact h n v t mu kappa damping := by
  unfold forceContact
  simp only [dot_neg_neg, smul_neg]
  ext <;> simp <;> ring

lemma pairForces_swap (a b : Agent) :
    pairForces b a = ((pairForces a b).2, (pairForces a b).1) := by
  unfold pairForces
  obtain ⟨h1, h2⟩ := distanceCircles_swap a.position a.radius b.position b.radius
  have hs : forceSocialCircular b a =
      ((forceSocialCircular a b).2, (forceSocialCircular a b).1) := by
    rw [forceSocialCircular_eq, forceSocialCircular_eq, ← neg_sub a.position,
      ← neg_sub a.velocity, add_comm b.radius, timeToCollision_neg]
    cases timeToCollisionCircleCircle (a.position - b.position) (a.velocity - b.velocity)
      (a.radius + b.radius) with
    | none => rfl
    | some p =>
      simp only [Option.map]
      split_ifs
      · rfl
      · exact socialForces_swap a b _ _
  simp only [h1, h2, hs, rotate270_neg, ← neg_sub a.velocity b.velocity, forceContact_neg]
  split_ifs
  · simp [sub_eq_add_neg]
  · rfl
  · rfl

lemma effectCirc_swap (i j : Fin n) (agents : Crowd n) :
    effectCirc (j, i) agents = effectCirc (i, j) agents := by
  unfold effectCirc
  simp only
  rw [pairForces_swap (agents i) (agents j), add_comm]

/-- Pairs that do not see each other have no effect. -/
lemma effectCirc_far {i j : Fin n} {agents : Crowd n}
    (h : 3 + ((agents i).radius + (agents j).radius) ≤
      Spec.dist (agents i).position (agents j).position) : effectCirc (i, j) agents = 0 := by
  have hh : ¬ (distanceCircles (agents i).position (agents i).radius (agents j).position
      (agents j).radius).1 < sigthSoc := by
    rw [distanceCircles_fst]
    unfold sigthSoc
    linarith
  unfold effectCirc pairForces
  simp only
  rw [if_neg hh]
  have : ((0 : Vec), (0 : ℝ)) = 0 := rfl
  simp only [this, Pi.single_zero, add_zero]

lemma dist_triangle4 (a b c d : Vec) :
    Spec.dist a d ≤ Spec.dist a b + Spec.dist b c + Spec.dist c d := by
  have h1 := length_sub_le a b d
  have h2 := length_sub_le b c d
  unfold Spec.dist
  simp only [← length_eq]
  linarith

lemma effectThree_far {i j : Fin n} {agents : Crowd n} {ri rj : ℝ}
    (hi : Spec.BodyWithin .threeCircle (agents i) ri)
    (hj : Spec.BodyWithin .threeCircle (agents j) rj)
    (h : 3 + (ri + rj) ≤ Spec.dist (agents i).position (agents j).position) :
    effectThree (i, j) agents = 0 := by
  obtain ⟨p, q, m, h1, -⟩ := distanceThreeCircles_spec (agents i).circles (agents i).radii
    (agents j).circles (agents j).radii
  have hp : Spec.dist (agents i).position ((agents i).circles p) + (agents i).radii p ≤ ri := by
    apply hi ((agents i).circles p, (agents i).radii p)
    fin_cases p <;> simp [Spec.discs, Agent.circles, Agent.radii]
  have hq : Spec.dist (agents j).position ((agents j).circles q) + (agents j).radii q ≤ rj := by
    apply hj ((agents j).circles q, (agents j).radii q)
    fin_cases q <;> simp [Spec.discs, Agent.circles, Agent.radii]
  have ht := dist_triangle4 (agents i).position ((agents i).circles p) ((agents j).circles q)
    (agents j).position
  have hc : Spec.dist ((agents j).circles q) (agents j).position =
      Spec.dist (agents j).position ((agents j).circles q) := length_sub_comm _ _
  have hh : ¬ (distanceThreeCircles (agents i).circles (agents i).radii
    (agents j).circles (agents j).radii).h < sigthSoc := by
    rw [h1]
    unfold sigthSoc
    linarith
  unfold effectThree pairForcesThree
  simp only
  rw [if_neg hh]
  have : ((0 : Vec), (0 : ℝ)) = 0 := rfl
  simp only [this, Pi.single_zero, add_zero]

/-! ## Momentum -/

lemma pairForces_opposite {a b : Agent} (h : Spec.SamePhysics a b) :
    (pairForces a b).1 + (pairForces a b).2 = 0 := by
  obtain ⟨h1, h2, h3, h4, h5, h6⟩ := h
  have hs : (forceSocialCircular a b).1 + (forceSocialCircular a b).2 = 0 := by
    rw [forceSocialCircular_eq]
    cases timeToCollisionCircleCircle (a.position - b.position) (a.velocity - b.velocity)
      (a.radius + b.radius) with
    | none => simp
    | some p =>
      simp only
      split_ifs
      · simp
      · rw [socialForces_opposite h1 h2 h3]; simp
  unfold pairForces
  simp only
  rw [h4, h5, h6]
  split_ifs
  · simp only
    rw [add_add_sub_cancel, hs]
  · exact hs
  · simp

lemma pairForcesThree_opposite {a b : Agent} (h : Spec.SamePhysics a b) :
    (pairForcesThree a b).1.1 + (pairForcesThree a b).2.1 = 0 := by
  obtain ⟨h1, h2, h3, h4, h5, h6⟩ := h
  have hs : (forceSocialThreeCircle a b).1 + (forceSocialThreeCircle a b).2 = 0 := by
    rcases threeCircle_cases a b with h | ⟨c, -, -, -, h⟩
    · rw [h]; simp
    · rw [h, socialForces_opposite h1 h2 h3]; simp
  unfold pairForcesThree
  simp only
  rw [h4, h5, h6]
  split_ifs
  · simp only
    rw [add_add_sub_cancel, hs]
  · exact hs
  · simp

lemma sum_fst_single (i : Fin n) (x : Vec × ℝ) :
    ∑ k, ((Pi.single i x : Effect n) k).1 = x.1 := by
  rw [Finset.sum_eq_single i]
  · simp
  · intro k _ hk; simp [hk]
  · simp

lemma sum_effect_list {β : Type} (l : List β) (E : β → Effect n)
    (h : ∀ b ∈ l, ∑ k, (E b k).1 = 0) : ∑ k, ((l.map E).sum k).1 = 0 := by
  induction l with
  | nil => simp
  | cons b l ih =>
    simp only [List.map_cons, List.sum_cons, Pi.add_apply, Prod.fst_add, Finset.sum_add_distrib]
    rw [h b (by simp), ih fun c hc => h c (by simp [hc]), add_zero]

lemma sum_force_applyEffect (agents : Crowd n) (e : Effect n) (h : ∑ k, (e k).1 = 0) :
    ∑ k, (applyEffect agents e k).force = ∑ k, (agents k).force := by
  simp only [applyEffect, Finset.sum_add_distrib, h, add_zero]

/-! ## Cell lists -/

/-- The effect of an unordered pair. -/
noncomputable def effectSym (agents : Crowd n) : Sym2 (Fin n) → Effect n :=
  Sym2.lift ⟨fun i j => effectCirc (i, j) agents, fun i j => effectCirc_swap j i agents⟩

lemma effectSym_mk (agents : Crowd n) (p : Fin n × Fin n) :
    effectSym agents s(p.1, p.2) = effectCirc p agents := rfl

lemma sum_circ_eq (agents : Crowd n) (l : List (Fin n × Fin n))
    (h : (l.map fun p => s(p.1, p.2)).Nodup) :
    (l.map fun p => effectCirc p agents).sum =
      ∑ z ∈ (l.map fun p => s(p.1, p.2)).toFinset, effectSym agents z := by
  rw [List.sum_toFinset _ h, List.map_map]
  rfl

lemma mem_map_of_or {l : List (Fin n × Fin n)} {i j : Fin n} (h : (i, j) ∈ l ∨ (j, i) ∈ l) :
    s(i, j) ∈ l.map fun p => s(p.1, p.2) := by
  rcases h with h | h
  · exact List.mem_map.2 ⟨_, h, rfl⟩
  · exact List.mem_map.2 ⟨_, h, Sym2.eq_swap⟩

/-- Two enumerations that both contain all pairs with an effect give the same sum. -/
lemma sum_circ_congr (agents : Crowd n) (l l' : List (Fin n × Fin n))
    (h : (l.map fun p => s(p.1, p.2)).Nodup) (h' : (l'.map fun p => s(p.1, p.2)).Nodup)
    (hl : ∀ p ∈ l, p.1 ≠ p.2) (hl' : ∀ p ∈ l', p.1 ≠ p.2)
    (hc : ∀ i j, i ≠ j → effectCirc (i, j) agents ≠ 0 →
      ((i, j) ∈ l ∨ (j, i) ∈ l) ∧ ((i, j) ∈ l' ∨ (j, i) ∈ l')) :
    (l.map fun p => effectCirc p agents).sum = (l'.map fun p => effectCirc p agents).sum := by
  classical
  have key : ∀ m : List (Fin n × Fin n), (m.map fun p => s(p.1, p.2)).Nodup →
      (∀ p ∈ m, p.1 ≠ p.2) →
      (∀ i j, i ≠ j → effectCirc (i, j) agents ≠ 0 → (i, j) ∈ m ∨ (j, i) ∈ m) →
      (m.map fun p => effectCirc p agents).sum =
        ∑ z ∈ Finset.univ.filter (fun z : Sym2 (Fin n) => ¬ z.IsDiag), effectSym agents z := by
    intro m hm hd hmc
    rw [sum_circ_eq agents m hm]
    refine Finset.sum_subset ?_ ?_
    · intro z hz
      obtain ⟨p, hp, rfl⟩ := List.mem_map.1 (List.mem_toFinset.1 hz)
      simpa using hd p hp
    · intro z hz hnot
      induction z using Sym2.ind with
      | _ i j =>
        have hij : i ≠ j := by simpa using hz
        by_contra hne
        exact hnot (List.mem_toFinset.2 (mem_map_of_or (hmc i j hij hne)))
  rw [key l h hl fun i j hij hne => (hc i j hij hne).1,
    key l' h' hl' fun i j hij hne => (hc i j hij hne).2]

/-- Points at distance at most the cell size are in adjacent cells. -/
lemma cells_close {c : ℝ} (hc : 0 < c) {p q o : Vec} (h : Spec.dist p q ≤ c) :
    |⌊(p.1 - o.1) / c⌋ - ⌊(q.1 - o.1) / c⌋| ≤ 1 ∧
      |⌊(p.2 - o.2) / c⌋ - ⌊(q.2 - o.2) / c⌋| ≤ 1 := by
  constructor
  · apply floor_close hc
    have := abs_fst_le_length (p - q)
    rw [Prod.fst_sub] at this
    rw [sub_sub_sub_cancel_right]
    push_cast
    rw [one_mul]
    exact this.trans h
  · apply floor_close hc
    have := abs_snd_le_length (p - q)
    rw [Prod.snd_sub] at this
    rw [sub_sub_sub_cancel_right]
    push_cast
    rw [one_mul]
    exact this.trans h

lemma mem_allPairs {i j : Fin n} : (i, j) ∈ Spec.allPairs n ↔ i < j := by
  unfold Spec.allPairs
  simp

lemma enumeratesAll_allPairs : Spec.EnumeratesAll (Spec.allPairs n) := by
  have hnd : (Spec.allPairs n).Nodup := by
    unfold Spec.allPairs
    rw [List.nodup_flatMap]
    refine ⟨fun i _ => ((List.nodup_finRange n).filter _).map fun a b h => (Prod.mk.inj h).2, ?_⟩
    refine (List.nodup_finRange n).imp_of_mem ?_
    intro i j _ _ hij
    simp only [Function.onFun, List.disjoint_left, List.mem_map]
    rintro _ ⟨a, _, rfl⟩ ⟨b, _, h⟩
    exact hij (Prod.mk.inj h).1.symm
  refine ⟨?_, ?_, ?_⟩
  · rintro ⟨i, j⟩ h
    exact (mem_allPairs.1 h).ne
  · refine List.Nodup.map_on ?_ hnd
    rintro ⟨i, j⟩ h ⟨a, b⟩ h' e
    have h1 := mem_allPairs.1 h
    have h2 := mem_allPairs.1 h'
    rcases Sym2.eq_iff.1 e with ⟨rfl, rfl⟩ | ⟨rfl, rfl⟩
    · rfl
    · exact absurd h1 (not_lt.2 h2.le)
  · intro i j hij
    rcases lt_or_gt_of_ne hij with h | h
    · exact Or.inl (mem_allPairs.2 h)
    · exact Or.inr (mem_allPairs.2 h)

/-- Pairs missing in a sublist have no effect. -/
lemma sum_three_congr (agents : Crowd n) (l l' : List (Fin n × Fin n)) (h : l.Nodup)
    (h' : l'.Nodup) (hsub : l ⊆ l') (hc : ∀ p ∈ l', p ∉ l → effectThree p agents = 0) :
    (l.map fun p => effectThree p agents).sum = (l'.map fun p => effectThree p agents).sum := by
  classical
  rw [← List.sum_toFinset _ h, ← List.sum_toFinset _ h']
  refine Finset.sum_subset (fun p hp => ?_) (fun p hp hnot => ?_)
  · exact List.mem_toFinset.2 (hsub (List.mem_toFinset.1 hp))
  · exact hc p (List.mem_toFinset.1 hp) fun h => hnot (List.mem_toFinset.2 h)

lemma nodup_of_sym {l : List (Fin n × Fin n)} (h : (l.map fun p => s(p.1, p.2)).Nodup) :
    l.Nodup := List.Nodup.of_map _ h

/-! ## Walls -/

/-- The effect of a wall on a circular agent. -/
noncomputable def wallForce (a : Agent) (w : Wall) : Vec :=
  match distanceCircleLine a.position a.radius w.p0 w.p1 with
  | none => 0
  | some (h, m) => open Classical in
    if h < 0 then forceContact h m a.velocity (rotate270 m) a.mu a.kappa a.damping else 0

/-- The effect of a wall on a three-circle agent. -/
noncomputable def wallForceThree (a : Agent) (w : Wall) : Vec × ℝ :=
  match distanceThreeCircleLine a.circles a.radii w.p0 w.p1 with
  | none => 0
  | some (h, m, r) => open Classical in
    if h < 0 then (forceContact h m a.velocity (rotate270 m) a.mu a.kappa a.damping,
      cross r (forceContact h m a.velocity (rotate270 m) a.mu a.kappa a.damping)) else 0

lemma wallStep_eq (i : Fin n) (w : Wall) (agents : Crowd n) :
    interactionAgentCircularObstacle i w agents =
      applyEffect agents (Pi.single i (wallForce (agents i) w, 0)) := by
  unfold interactionAgentCircularObstacle wallForce
  cases distanceCircleLine (agents i).position (agents i).radius w.p0 w.p1 with
  | none =>
    have : ((0 : Vec), (0 : ℝ)) = 0 := rfl
    simp only [this, Pi.single_zero, applyEffect_zero]
  | some hm =>
    simp only
    split_ifs
    · rw [addForce_eq]
    · have : ((0 : Vec), (0 : ℝ)) = 0 := rfl
      simp only [this, Pi.single_zero, applyEffect_zero]

lemma wallStepThree_eq (i : Fin n) (w : Wall) (agents : Crowd n) :
    interactionAgentThreeCircleObstacle i w agents =
      applyEffect agents (Pi.single i (wallForceThree (agents i) w)) := by
  unfold interactionAgentThreeCircleObstacle wallForceThree
  cases distanceThreeCircleLine (agents i).circles (agents i).radii w.p0 w.p1 with
  | none => simp only [Pi.single_zero, applyEffect_zero]
  | some hm =>
    simp only
    split_ifs
    · rw [addForce_eq, addTorque_eq, applyEffect_add, ← Pi.single_add]
      simp
    · simp only [Pi.single_zero, applyEffect_zero]

lemma wallForce_apply (a : Agent) (f : Vec) (m : ℝ) (w : Wall) :
    wallForce { a with force := f, torque := m } w = wallForce a w := rfl

lemma wallForceThree_apply (a : Agent) (f : Vec) (m : ℝ) (w : Wall) :
    wallForceThree { a with force := f, torque := m } w = wallForceThree a w := rfl

/-- Both loops over any list of agent indices. -/
lemma wallLoop_eq (agents : Crowd n) (obstacles : List Wall) (is : List (Fin n)) :
    is.foldl (fun agents i => obstacles.foldl
      (fun agents w => interactionAgentCircularObstacle i w agents) agents) agents =
    applyEffect agents ((is.map fun i => (obstacles.map fun w =>
      (Pi.single i (wallForce (agents i) w, 0) : Effect n)).sum).sum) := by
  refine fold_effect (fun i agents => obstacles.foldl
      (fun agents w => interactionAgentCircularObstacle i w agents) agents)
    (fun i agents => (obstacles.map fun w =>
      (Pi.single i (wallForce (agents i) w, 0) : Effect n)).sum) ?_ ?_ is agents
  · intro i A
    exact fold_effect (fun w agents => interactionAgentCircularObstacle i w agents)
      (fun w agents => (Pi.single i (wallForce (agents i) w, 0) : Effect n))
      (fun w A => wallStep_eq i w A) (fun w A e => rfl) obstacles A
  · intro i A e
    rfl

lemma wallLoopThree_eq (agents : Crowd n) (obstacles : List Wall) (is : List (Fin n)) :
    is.foldl (fun agents i => obstacles.foldl
      (fun agents w => interactionAgentThreeCircleObstacle i w agents) agents) agents =
    applyEffect agents ((is.map fun i => (obstacles.map fun w =>
      (Pi.single i (wallForceThree (agents i) w) : Effect n)).sum).sum) := by
  refine fold_effect (fun i agents => obstacles.foldl
      (fun agents w => interactionAgentThreeCircleObstacle i w agents) agents)
    (fun i agents => (obstacles.map fun w =>
      (Pi.single i (wallForceThree (agents i) w) : Effect n)).sum) ?_ ?_ is agents
  · intro i A
    exact fold_effect (fun w agents => interactionAgentThreeCircleObstacle i w agents)
      (fun w agents => (Pi.single i (wallForceThree (agents i) w) : Effect n))
      (fun w A => wallStepThree_eq i w A) (fun w A e => rfl) obstacles A
  · intro i A e
    rfl

lemma sum_single_list {β : Type} (i k : Fin n) (l : List β) (f : β → Vec × ℝ) :
    (l.map fun w => (Pi.single i (f w) : Effect n)).sum k = if k = i then (l.map f).sum else 0 := by
  induction l with
  | nil => simp
  | cons w l ih =>
    simp only [List.map_cons, List.sum_cons, Pi.add_apply, ih]
    by_cases h : k = i
    · subst h; simp
    · simp [h]

lemma sum_finRange_single (k : Fin n) (g : Fin n → Vec × ℝ) :
    ((List.finRange n).map fun i => if k = i then g i else 0).sum = g k := by
  rw [← Fin.sum_univ_def]
  simp

lemma agentCircularObstacle_apply (agents : Crowd n) (obstacles : List Wall) (k : Fin n) :
    agentCircularObstacle agents obstacles k =
      { agents k with
        force := (agents k).force + (obstacles.map fun w => wallForce (agents k) w).sum } := by
  unfold agentCircularObstacle
  rw [wallLoop_eq]
  have h : ((List.finRange n).map fun i => (obstacles.map fun w =>
      (Pi.single i (wallForce (agents i) w, 0) : Effect n)).sum).sum k =
      (obstacles.map fun w => (wallForce (agents k) w, (0 : ℝ))).sum := by
    rw [← Fin.sum_univ_def, Finset.sum_apply, ← sum_finRange_single k fun i =>
      (obstacles.map fun w => (wallForce (agents i) w, (0 : ℝ))).sum, ← Fin.sum_univ_def]
    exact Finset.sum_congr rfl fun i _ => sum_single_list i k obstacles _
  have h1 : ∀ l : List Wall, (l.map fun w => (wallForce (agents k) w, (0 : ℝ))).sum =
      ((l.map fun w => wallForce (agents k) w).sum, 0) := by
    intro l
    induction l with
    | nil => rfl
    | cons w l ih => simp only [List.map_cons, List.sum_cons, ih, Prod.mk_add_mk, add_zero]
  unfold applyEffect
  rw [h, h1]
  simp

lemma agentThreeCircleObstacle_apply (agents : Crowd n) (obstacles : List Wall) (k : Fin n) :
    agentThreeCircleObstacle agents obstacles k =
      { agents k with
        force := (agents k).force + (obstacles.map fun w => wallForceThree (agents k) w).sum.1
        torque := (agents k).torque +
          (obstacles.map fun w => wallForceThree (agents k) w).sum.2 } := by
  unfold agentThreeCircleObstacle
  rw [wallLoopThree_eq]
  have h : ((List.finRange n).map fun i => (obstacles.map fun w =>
      (Pi.single i (wallForceThree (agents i) w) : Effect n)).sum).sum k =
      (obstacles.map fun w => wallForceThree (agents k) w).sum := by
    rw [← Fin.sum_univ_def, Finset.sum_apply, ← sum_finRange_single k fun i =>
      (obstacles.map fun w => wallForceThree (agents i) w).sum, ← Fin.sum_univ_def]
    exact Finset.sum_congr rfl fun i _ => sum_single_list i k obstacles _
  unfold applyEffect
  rw [h]

lemma wallForce_spec (a : Agent) (w : Wall) :
    Spec.IsWallEffect .circular a w.p0 w.p1 (wallForce a w, 0) := by
  constructor
  · intro h
    unfold wallForce
    rw [← h, distanceCircleLine_degenerate]
    rfl
  · intro h
    obtain ⟨d, m, he, ⟨q, hq, h1, h2, h3, h4⟩, h5⟩ := distanceCircleLine_spec a.position a.radius
      w.p0 w.p1 h
    refine ⟨(a.position, a.radius), by simp [Spec.discs], q, hq, ?_, ?_, ?_⟩
    · intro d' hd' z hz
      simp only [Spec.discs, List.mem_singleton] at hd'
      subst hd'
      have := h5 z hz
      simp only
      linarith
    · intro hr
      simp only at hr
      unfold wallForce
      rw [he]
      have : ¬ d < 0 := by linarith
      simp only [this, if_false]
      rfl
    · intro hr
      simp only at hr
      refine ⟨m, ⟨by simp only; rw [h1]; exact h2, h3, h4, ?_⟩, rfl⟩
      have hd : d < 0 := by linarith
      unfold wallForce
      rw [he]
      simp only [hd, if_true]
      unfold forceContact
      rw [show a.radius - Spec.dist a.position q = -d by rw [h1]; ring]
      rfl

lemma disc_mem (a : Agent) (i : Fin 3) :
    (a.circles i, a.radii i) ∈ Spec.discs .threeCircle a := by
  fin_cases i <;> simp [Spec.discs, Agent.circles, Agent.radii]

lemma exists_of_disc_mem {a : Agent} {d : Vec × ℝ} (h : d ∈ Spec.discs .threeCircle a) :
    ∃ i : Fin 3, d = (a.circles i, a.radii i) := by
  simp only [Spec.discs, List.mem_cons, List.not_mem_nil, or_false] at h
  rcases h with rfl | rfl | rfl
  · exact ⟨0, rfl⟩
  · exact ⟨1, rfl⟩
  · exact ⟨2, rfl⟩

lemma wallForceThree_spec (a : Agent) (w : Wall) :
    Spec.IsWallEffect .threeCircle a w.p0 w.p1 (wallForceThree a w) := by
  constructor
  · intro h
    unfold wallForceThree
    rw [← h, distanceThreeCircleLine_degenerate]
  · intro h
    obtain ⟨d, m, arm, he, ⟨i, q, hq, h1, h2, h3, h4, h5⟩, h6⟩ :=
      distanceThreeCircleLine_spec a.circles a.radii w.p0 w.p1 h
    refine ⟨(a.circles i, a.radii i), disc_mem a i, q, hq, ?_, ?_, ?_⟩
    · intro d' hd' z hz
      obtain ⟨j, rfl⟩ := exists_of_disc_mem hd'
      have := h6 j z hz
      simp only
      linarith
    · intro hr
      simp only at hr
      unfold wallForceThree
      rw [he]
      have : ¬ d < 0 := by linarith
      simp only [this, if_false]
    · intro hr
      simp only at hr
      have hd : d < 0 := by linarith
      have hf : wallForceThree a w =
          (forceContact d m a.velocity (rotate270 m) a.mu a.kappa a.damping,
            cross arm (forceContact d m a.velocity (rotate270 m) a.mu a.kappa a.damping)) := by
        unfold wallForceThree
        rw [he]
        simp only [hd, if_true]
      rw [hf]
      refine ⟨m, ⟨by simp only; rw [h1]; exact h2, h3, h4, ?_⟩, ?_⟩
      · unfold forceContact
        rw [show a.radii i - Spec.dist (a.circles i) q = -d by rw [h1]; ring]
        rfl
      · rw [h5]
        rfl

end CrowdDynamics
