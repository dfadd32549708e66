import Verif.Spec.Nowhere
import Verif.Spec.IeeeCrowd
import Verif.Proofs.IeeeCrowd
import Verif.Proofs.CoreTests

/-!
# Agents who are nowhere: helper lemmas
-/

namespace CrowdDynamics

open Spec
open scoped Classical

/-- Infinite or not a number. -/
def F64.Wild (x : F64) : Prop := ∀ r : ℝ, x ≠ .num r

/-- Plus infinity or not a number. -/
def F64.Beyond (x : F64) : Prop := x = .nan ∨ x = .inf false

theorem wild_nan : F64.Wild .nan := fun _ h => F64.noConfusion h

theorem wild_inf (s : Bool) : F64.Wild (.inf s) := fun _ h => F64.noConfusion h

theorem not_wild_num (r : ℝ) : ¬ F64.Wild (.num r) := fun h => h r rfl

theorem wild_add {rnd : ℝ → ℝ} {x y : F64} (h : x.Wild ∨ y.Wild) : (x.add rnd y).Wild := by
  cases x with
  | nan => exact wild_nan
  | inf s =>
    cases y with
    | nan => exact wild_nan
    | inf t =>
      dsimp only [F64.add]
      split_ifs
      · exact wild_inf s
      · exact wild_nan
    | num y => exact wild_inf s
  | num x =>
    cases y with
    | nan => exact wild_nan
    | inf t => exact wild_inf t
    | num y => exact (h.elim (not_wild_num x) (not_wild_num y)).elim

theorem wild_neg {x : F64} (h : x.Wild) : x.neg.Wild := by
  cases x with
  | nan => exact wild_nan
  | inf s => exact wild_inf _
  | num x => exact (not_wild_num x h).elim

theorem wild_sub {rnd : ℝ → ℝ} {x y : F64} (h : x.Wild ∨ y.Wild) : (x.sub rnd y).Wild :=
  wild_add (h.imp id wild_neg)

theorem wild_mul {rnd : ℝ → ℝ} {x y : F64} (h : y.Wild) : (x.mul rnd y).Wild := by
  cases y with
  | nan => cases x <;> exact wild_nan
  | inf t =>
    cases x with
    | nan => exact wild_nan
    | inf s => exact wild_inf _
    | num x =>
      dsimp only [F64.mul]
      split_ifs
      · exact wild_nan
      · exact wild_inf _
  | num y => exact (not_wild_num y h).elim

theorem wild_dot {rnd : ℝ → ℝ} {u v : F64 × F64} (h : v.1.Wild ∨ v.2.Wild) : (dotI rnd u v).Wild :=
  wild_add (h.imp wild_mul wild_mul)

theorem beyond_hypot {A : Arith} {x y : F64} (h : x.Wild ∨ y.Wild) : (x.hypot A y).Beyond := by
  cases x with
  | nan => cases y <;> simp [F64.hypot, F64.Beyond]
  | inf s => simp [F64.hypot, F64.Beyond]
  | num x =>
    cases y with
    | nan => simp [F64.hypot, F64.Beyond]
    | inf s => simp [F64.hypot, F64.Beyond]
    | num y => exact (h.elim (not_wild_num x) (not_wild_num y)).elim

theorem beyond_abs {x : F64} (h : x.Wild) : x.abs.Beyond := by
  cases x with
  | nan => exact .inl rfl
  | inf s => exact .inr rfl
  | num x => exact (not_wild_num x h).elim

theorem beyond_add {rnd : ℝ → ℝ} {x : F64} (h : x.Beyond) (y : F64) : (x.add rnd y).Beyond := by
  rcases h with rfl | rfl
  · exact .inl rfl
  · cases y with
    | nan => exact .inl rfl
    | inf s =>
      cases s
      · exact .inr rfl
      · exact .inl rfl
    | num y => exact .inr rfl

theorem not_gt_beyond {x : F64} (r : ℝ) (h : x.Beyond) : ¬ (F64.num r).gt x := by
  rcases h with rfl | rfl
  · exact fun h => h
  · exact fun h => Bool.noConfusion h

theorem nowhere_iff (a : AgentI) : Nowhere a ↔ a.position.1.Wild ∨ a.position.2.Wild := by
  unfold Nowhere
  obtain ⟨x, y⟩ := a.position
  constructor
  · intro h
    cases x with
    | nan => exact .inl wild_nan
    | inf s => exact .inl (wild_inf s)
    | num x =>
      cases y with
      | nan => exact .inr wild_nan
      | inf s => exact .inr (wild_inf s)
      | num y => exact absurd ⟨x, y, rfl⟩ h
  · rintro h ⟨r, s, e⟩
    obtain ⟨rfl, rfl⟩ := Prod.mk.inj e
    exact h.elim (not_wild_num r) (not_wild_num s)

/-- The distance of a wall from somebody who is nowhere is not a number or infinite. -/
theorem nowhere_line (A : Arith) {x : F64 × F64} (h : x.1.Wild ∨ x.2.Wild) (r : ℝ) (p0 p1 : Vec) :
    (distanceCircleLineG A x r p0 p1).1.Beyond := by
  have q : ∀ p : Vec, (vsubI A.rnd x (.num p.1, .num p.2)).1.Wild ∨ (vsubI A.rnd x (.num p.1, .num p.2)).2.Wild :=
    fun p => h.imp (fun h => wild_sub (.inl h)) (fun h => wild_sub (.inl h))
  unfold distanceCircleLineG
  extract_lets d lw tw nw q0 q1 lt ln
  have h0 : q0.1.Wild ∨ q0.2.Wild := q p0
  have h1 : q1.1.Wild ∨ q1.2.Wild := q p1
  split_ifs
  · exact beyond_add (beyond_hypot h0) _
  · exact beyond_add (beyond_hypot h1) _
  · exact beyond_add (beyond_abs (wild_dot h0)) _

theorem nowhere_wall (A : Arith) {n : ℕ} (agents : Fin n → AgentI) {i : Fin n} (h : Nowhere (agents i)) (w : Wall)
    (F : Fin n → F64 × F64) : interactionAgentCircularObstacleG A agents i w F = F := by
  unfold interactionAgentCircularObstacleG
  exact if_neg (not_gt_beyond 0 (nowhere_line A ((nowhere_iff _).1 h) _ _ _))

theorem nowhere_pair (A : Arith) {ai aj : AgentI} (h : Nowhere ai ∨ Nowhere aj) :
    pairForcesG A ai aj = .ok none := by
  have hw : (vsubI A.rnd ai.position aj.position).1.Wild ∨ (vsubI A.rnd ai.position aj.position).2.Wild := by
    rw [nowhere_iff, nowhere_iff] at h
    rcases h with (h | h) | (h | h)
    · exact .inl (wild_sub (.inl h))
    · exact .inr (wild_sub (.inl h))
    · exact .inl (wild_sub (.inr h))
    · exact .inr (wild_sub (.inr h))
  have hd : (distanceCirclesG A ai.position ai.radius aj.position aj.radius).1.Beyond :=
    beyond_add (beyond_hypot hw) _
  unfold pairForcesG
  exact if_neg (not_gt_beyond _ hd)

theorem nowhere_pairs (A : Arith) {n : ℕ} (agents : Fin n → AgentI) {i : Fin n} (h : Nowhere (agents i))
    (ps : List (Fin n × Fin n)) (F : Fin n → F64 × F64) :
    agentAgentCircularG A agents (ps.filter fun p => NotIn i p) F = agentAgentCircularG A agents ps F := by
  unfold agentAgentCircularG
  induction ps generalizing F with
  | nil => rfl
  | cons p ps ih =>
    by_cases hp : NotIn i p
    · rw [List.filter_cons_of_pos (by simpa using hp), List.foldlM_cons, List.foldlM_cons]
      cases interactionAgentAgentCircularG A agents p.1 p.2 F with
      | error _ => rfl
      | ok F' => exact ih F'
    · rw [List.filter_cons_of_neg (by simpa using hp), List.foldlM_cons]
      have hn : Nowhere (agents p.1) ∨ Nowhere (agents p.2) := by
        by_cases h1 : p.1 = i
        · exact .inl (h1 ▸ h)
        · have h2 : p.2 = i := by_contra fun h2 => hp ⟨h1, h2⟩
          exact .inr (h2 ▸ h)
      have e : interactionAgentAgentCircularG A agents p.1 p.2 F = .ok F := by
        unfold interactionAgentAgentCircularG
        rw [nowhere_pair A hn]
        rfl
      rw [e]
      exact ih F

theorem nowhere_update (A : Arith) {n : ℕ} (agents : Fin n → AgentI) {i : Fin n} (h : Nowhere (agents i))
    (walls : List Wall) (dtMin dtMax : ℝ) (inp : StepInput n) :
    updateI A walls dtMin dtMax (avoiding i inp) agents = updateI A walls dtMin dtMax inp agents := by
  unfold updateI
  simp only [avoiding, nowhere_pairs A agents h]

theorem nowhere_stays (A : Arith) {n : ℕ} (agents : Fin n → AgentI) {i : Fin n} (h : Nowhere (agents i))
    (walls : List Wall) (dtMin dtMax : ℝ) (inp : StepInput n) {c : Fin n → AgentI}
    (hc : updateI A walls dtMin dtMax inp agents = .ok c) : Nowhere (c i) := by
  have e : ∃ u, (c i).position = vaddI A.rnd (agents i).position u := by
    unfold updateI velocityVerletIntegratorI at hc
    simp only [bind, Except.bind] at hc
    split at hc
    · cases hc
    split at hc
    · cases hc
    split at hc
    · cases hc
    rename_i hm
    split at hm
    · cases hm
    obtain rfl := Except.ok.inj hm
    obtain rfl := Except.ok.inj hc
    exact ⟨_, rfl⟩
  obtain ⟨u, e⟩ := e
  rw [nowhere_iff] at h ⊢
  rw [e]
  exact h.imp (fun h => wild_add (.inl h)) fun h => wild_add (.inl h)

theorem nowhere_run (A : Arith) {n : ℕ} (agents : Fin n → AgentI) {i : Fin n} (h : Nowhere (agents i))
    (walls : List Wall) (dtMin dtMax : ℝ) (inputs : List (StepInput n)) :
    runI A walls dtMin dtMax (inputs.map (avoiding i)) agents = runI A walls dtMin dtMax inputs agents ∧
      ∀ c, runI A walls dtMin dtMax inputs agents = .ok c → Nowhere (c i) := by
  unfold runI
  induction inputs generalizing agents with
  | nil => exact ⟨rfl, fun c hc => Except.ok.inj hc ▸ h⟩
  | cons inp inputs ih =>
    rw [List.map_cons, List.foldlM_cons, List.foldlM_cons, nowhere_update A agents h]
    cases hu : updateI A walls dtMin dtMax inp agents with
    | error e => exact ⟨rfl, fun c hc => nomatch hc⟩
    | ok b => exact ih b (nowhere_stays A agents h walls dtMin dtMax inp hu)

theorem nowhere_updateI_without {n : ℕ} {A : Arith} (hr : A.rnd = fl64) (walls : List Wall) {dt : ℝ}
    (h0 : 0 ≤ dt) (h1 : dt ≤ 2 ^ (10 : ℤ)) {k : Fin (n + 1)} {I : StepInput (n + 1)}
    {J : StepInput n} (hIJ : Without k I J) {agents : Fin (n + 1) → AgentI}
    (h : Nowhere (agents k)) (hk : (agents k).tauAdj ≠ 0)
    (ht : ∀ i, |(agents i).targetVelocity| ≤ 2 ^ (10 : ℤ)) :
    (updateI A walls dt dt I agents).map (fun R i => R (k.succAbove i)) =
      updateI A walls dt dt J (fun i => agents (k.succAbove i)) := by
  obtain ⟨j1, j2, j3⟩ := hIJ
  have f1 : J.fluctuation = fun i => I.fluctuation (k.succAbove i) := funext j1
  have f2 : J.direction = fun i => I.direction (k.succAbove i) := funext j2
  unfold updateI
  rw [f1, f2]
  simp only [bind, Except.bind]
  by_cases hz : ∃ i, (agents (k.succAbove i)).tauAdj = 0
  · obtain ⟨i, hi⟩ := hz
    rw [forceAdjustAgentsI_error _ agents hi,
      forceAdjustAgentsI_error _ (fun i => agents (k.succAbove i)) hi]
    rfl
  push Not at hz
  have hz' : ∀ i, (agents i).tauAdj ≠ 0 := by
    intro i
    by_cases hi : i = k
    · rw [hi]
      exact hk
    · obtain ⟨j, rfl⟩ := Fin.exists_succAbove_eq hi
      exact hz j
  rw [forceAdjustAgentsI_ok _ agents hz',
    forceAdjustAgentsI_ok _ (fun i => agents (k.succAbove i)) hz]
  dsimp only
  rw [← nowhere_pairs A agents h I.pairs, ← j3]
  have c := agentAgentCircularG_comp A k agents J.pairs (fun i => adjustedI A.rnd (agents i)
    (I.direction i) (vaddI A.rnd (agents i).force (I.fluctuation i)))
  rw [← c]
  cases agentAgentCircularG A agents (J.pairs.map fun p => (k.succAbove p.1, k.succAbove p.2))
    (fun i => adjustedI A.rnd (agents i) (I.direction i)
      (vaddI A.rnd (agents i).force (I.fluctuation i))) with
  | error err => rfl
  | ok F =>
    simp only [Except.map]
    rw [agentCircularObstacleG_apply, agentCircularObstacleG_apply]
    unfold velocityVerletIntegratorI
    simp only [bind, Except.bind]
    obtain ⟨s, es, l, u⟩ := adaptiveTimestepI_num hr (fun i => { (agents i).toRowI with
      force := walls.foldl (wallForceG A (agents i)) (F i) }) h0 le_rfl h1 ht
    obtain ⟨s', es', l', u'⟩ := adaptiveTimestepI_num hr (fun i =>
      { (agents (k.succAbove i)).toRowI with
        force := walls.foldl (wallForceG A (agents (k.succAbove i))) (F (k.succAbove i)) })
      h0 le_rfl h1 (fun i => ht _)
    rw [es, es']
    obtain rfl : s = dt := le_antisymm u l
    obtain rfl : s' = s := le_antisymm u' l'
    rfl

theorem nowhere_runI_without {n : ℕ} {A : Arith} (hr : A.rnd = fl64) (walls : List Wall) {dt : ℝ}
    (h0 : 0 ≤ dt) (h1 : dt ≤ 2 ^ (10 : ℤ)) {k : Fin (n + 1)}
    {inputs : List (StepInput (n + 1))} {rest : List (StepInput n)}
    (hI : List.Forall₂ (Without k) inputs rest) : ∀ {agents : Fin (n + 1) → AgentI},
    Nowhere (agents k) → (agents k).tauAdj ≠ 0 →
    (∀ i, |(agents i).targetVelocity| ≤ 2 ^ (10 : ℤ)) →
    (runI A walls dt dt inputs agents).map (fun R i => R (k.succAbove i)) =
      runI A walls dt dt rest (fun i => agents (k.succAbove i)) := by
  induction hI with
  | nil => exact fun _ _ _ => rfl
  | cons hIJ _ ih =>
    intro agents h hk ht
    have s := nowhere_updateI_without hr walls h0 h1 hIJ h hk ht
    unfold runI at ih ⊢
    rw [List.foldlM_cons, List.foldlM_cons, ← s]
    cases e : updateI A walls dt dt _ agents with
    | error err => rfl
    | ok R =>
      refine ih (nowhere_stays A agents h walls dt dt _ e) ?_ fun i => ?_
      · rw [(updateI_kept e k).2.1]
        exact hk
      · rw [(updateI_kept e i).1]
        exact ht i

/-- An upright wall and somebody who is infinitely far away to one side. -/
theorem upright_infinite {X Y0 Y1 y r : ℝ} (s : Bool) (h : 0 < fl64 (Y1 - Y0))
    (hb : |fl64 (Y1 - Y0)| < 2 ^ (1024 : ℤ))
    (hy : |fl64 (y - Y0)| < 2 ^ (1024 : ℤ)) :
    distanceCircleLineG Arith.machine (.inf s, .num y) r (X, Y0) (X, Y1) =
      (.inf false, (.num (if s then -1 else 1), .num 0)) := by
  have p0 : F64.pack 0 = .num 0 := by
    unfold F64.pack
    rw [if_pos (by rw [abs_zero]; positivity)]
  have p1 : F64.pack 1 = .num 1 := by
    unfold F64.pack
    rw [if_pos (by rw [abs_one]; exact one_lt_zpow₀ (by norm_num) (by norm_num))]
  have p2 : F64.pack (-1) = .num (-1) := by
    unfold F64.pack
    rw [if_pos (by rw [abs_neg, abs_one]; exact one_lt_zpow₀ (by norm_num) (by norm_num))]
  have e1 : (F64.num X).sub fl64 (.num X) = .num 0 := by
    simp only [F64.sub, F64.neg, F64.add, add_neg_cancel, fl64_zero, p0]
  have e2 : (F64.num Y1).sub fl64 (.num Y0) = .num (fl64 (Y1 - Y0)) := by
    simp only [F64.sub, F64.neg, F64.add, ← sub_eq_add_neg, F64.pack, if_pos hb]
  have e3 : (F64.num y).sub fl64 (.num Y0) = .num (fl64 (y - Y0)) := by
    simp only [F64.sub, F64.neg, F64.add, ← sub_eq_add_neg, F64.pack, if_pos hy]
  have eL := fl64_idem (Y1 - Y0)
  have e4 : (F64.num 0).hypot Arith.machine (.num (fl64 (Y1 - Y0))) = .num (fl64 (Y1 - Y0)) := by
    simp only [F64.hypot, Arith.machine]
    rw [zero_pow two_ne_zero, zero_add, Real.sqrt_sq h.le, eL, F64.pack, if_pos hb]
  generalize fl64 (Y1 - Y0) = L at *
  have e5 : divI fl64 (.num 0, .num L) (.num L) = (.num 0, .num 1) := by
    simp only [divI, F64.div, if_neg h.ne', zero_div, div_self h.ne', fl64_zero, fl64_one, p0, p1]
  have m : Arith.machine.rnd = fl64 := rfl
  have e6 : ∀ t : F64, dotI fl64 (.num 0, .num 1) (.inf s, t) = .nan := fun t => by
    simp [dotI, F64.mul, F64.add]
  have e7 : dotI fl64 (.num (-1), .num 0) (.inf s, .num (fl64 (y - Y0))) = .inf (!s) := by
    simp [dotI, F64.mul, F64.add, fl64_zero, p0]
  have e8 : ∀ t : ℝ, (F64.inf s).sub fl64 (.num t) = .inf s := fun t => rfl
  unfold distanceCircleLineG
  simp only [m, subI, vsubI, e1, e2, e3, e4, e5, e6, e8]
  have e9 : rotate90I (.num 0, .num 1) = (.num (-1), .num 0) := by simp [rotate90I, F64.neg]
  simp only [e9, e7, F64.neg, F64.sub, F64.add, F64.gt, if_false]
  cases s <;> simp [F64.abs, F64.sign, F64.mul, fl64_zero, fl64_one, fl64_neg, p0, p1, p2]

end CrowdDynamics
