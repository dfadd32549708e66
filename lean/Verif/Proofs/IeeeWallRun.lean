import Verif.Proofs.IeeeUpdate
import Verif.Proofs.RoundedWallRun
import Verif.Proofs.CoreTestsCases

/-!
# A wall stops an agent, with overflow: helper lemmas
-/

namespace CrowdDynamics

open Spec Real
open scoped Classical

lemma numI_add {a b : ℝ} (ha : |a| ≤ 2 ^ (30 : ℤ)) (hb : |b| ≤ 2 ^ (30 : ℤ)) :
    (F64.num a).add fl64 (.num b) = .num (fl64 (a + b)) :=
  (IsNum.add ⟨rfl, ha⟩ ⟨rfl, hb⟩ (k := 31) (by norm_num) (by norm_num) (by norm_num) (by norm_num)).1

lemma numI_sub {a b : ℝ} (ha : |a| ≤ 2 ^ (30 : ℤ)) (hb : |b| ≤ 2 ^ (30 : ℤ)) :
    (F64.num a).sub fl64 (.num b) = .num (fl64 (a - b)) :=
  (IsNum.sub ⟨rfl, ha⟩ ⟨rfl, hb⟩ (k := 31) (by norm_num) (by norm_num) (by norm_num) (by norm_num)).1

lemma numI_mul {a b : ℝ} (ha : |a| ≤ 2 ^ (30 : ℤ)) (hb : |b| ≤ 2 ^ (30 : ℤ)) :
    (F64.num a).mul fl64 (.num b) = .num (fl64 (a * b)) :=
  (IsNum.mul ⟨rfl, ha⟩ ⟨rfl, hb⟩ (k := 60) (by norm_num) (by norm_num) (by norm_num)).1

lemma numI_pack {y : ℝ} (h : |y| ≤ 2 ^ (30 : ℤ)) : F64.pack y = .num y :=
  (pack_num (k := 30) (by norm_num) h).1

/-- The computed distance from an upright wall beside the agent. -/
lemma upright_distanceI {X x η Y0 Y1 r s L : ℝ} (hs : s = 1 ∨ s = -1) (hL : fl64 (Y1 - Y0) = s * L)
    (L0 : 0 < L) (eL : fl64 L = L) (hη : |fl64 (-(s * fl64 (η - Y1)) - s * fl64 (η - Y0))| ≤ L)
    (hX : |X| ≤ 2 ^ (20 : ℤ)) (hx : |x| ≤ 2 ^ (20 : ℤ)) (h0 : |Y0| ≤ 2 ^ (20 : ℤ))
    (h1 : |Y1| ≤ 2 ^ (20 : ℤ)) (h2 : |η| ≤ 2 ^ (20 : ℤ)) (hr : |r| ≤ 2 ^ (10 : ℤ))
    (hp : 0 < fl64 (X - x)) :
    distanceCircleLineI Arith.machine (x, η) r (X, Y0) (X, Y1) =
      (.num (fl64 (fl64 (X - x) - r)), (.num (-1), .num 0)) := by
  have up : ∀ {k : ℤ} {z : ℝ}, k ≤ 30 → |z| ≤ 2 ^ k → |z| ≤ 2 ^ (30 : ℤ) := fun hk h =>
    h.trans (zpow_le_zpow_right₀ (by norm_num) hk)
  have sub : ∀ {y z : ℝ}, |y| ≤ 2 ^ (20 : ℤ) → |z| ≤ 2 ^ (20 : ℤ) →
      (F64.num y).sub fl64 (.num z) = .num (fl64 (y - z)) ∧ |fl64 (y - z)| ≤ 2 ^ (21 : ℤ) :=
    fun hy hz => IsNum.sub ⟨rfl, hy⟩ ⟨rfl, hz⟩ (by norm_num) (by norm_num) (by norm_num) (by norm_num)
  obtain ⟨e1, -⟩ := sub hX hX
  obtain ⟨e2, b2⟩ := sub h1 h0
  obtain ⟨e3, -⟩ := sub hx hX
  obtain ⟨e3', b3⟩ := sub hX hx
  obtain ⟨e4, b4⟩ := sub h2 h0
  obtain ⟨e5, b5⟩ := sub h2 h1
  have en : fl64 (x - X) = -fl64 (X - x) := by rw [← fl64_neg, neg_sub]
  rw [sub_self, fl64_zero] at e1
  rw [hL] at e2 b2
  rw [en] at e3
  have ip := fl64_idem (η - Y0)
  have iq := fl64_idem (η - Y1)
  have ig := fl64_idem (X - x)
  generalize fl64 (η - Y0) = p at *
  generalize fl64 (η - Y1) = q at *
  generalize fl64 (X - x) = g at *
  have s1 : |s| = 1 := by rcases hs with rfl | rfl <;> norm_num
  have ss : s * s = 1 := by rcases hs with rfl | rfl <;> norm_num
  have bL : |L| ≤ 2 ^ (30 : ℤ) := by
    rw [abs_mul, s1, one_mul] at b2
    exact up (by norm_num) b2
  have is : fl64 s = s := by
    rcases hs with rfl | rfl
    · exact fl64_one
    · rw [fl64_neg, fl64_one]
  have im : ∀ {z : ℝ}, fl64 z = z → fl64 (s * z) = s * z := by
    intro z hz
    rcases hs with rfl | rfl
    · rw [one_mul, hz]
    · rw [neg_one_mul, fl64_neg, hz]
  have am : ∀ z : ℝ, |s * z| = |z| := fun z => by rw [abs_mul, s1, one_mul]
  have hz : |(0 : ℝ)| ≤ 2 ^ (30 : ℤ) := by rw [abs_zero]; positivity
  have hs30 : |s| ≤ 2 ^ (30 : ℤ) := by rw [s1]; norm_num
  have hs30' : |-s| ≤ 2 ^ (30 : ℤ) := by rw [abs_neg, s1]; norm_num
  have bg : |g| ≤ 2 ^ (30 : ℤ) := up (by norm_num) b3
  have bg' : |-g| ≤ 2 ^ (30 : ℤ) := by rwa [abs_neg]
  have bp : |p| ≤ 2 ^ (30 : ℤ) := up (by norm_num) b4
  have bq : |q| ≤ 2 ^ (30 : ℤ) := up (by norm_num) b5
  have lw : (F64.num 0).hypot Arith.machine (.num (s * L)) = .num L := by
    have : Arith.machine.hypot 0 (s * L) = L := by
      change fl64 (√(0 ^ 2 + (s * L) ^ 2)) = L
      rw [show (0 : ℝ) ^ 2 + (s * L) ^ 2 = (s * s) * L ^ 2 by ring, ss, one_mul, Real.sqrt_sq L0.le, eL]
    change F64.pack (Arith.machine.hypot 0 (s * L)) = _
    rw [this, numI_pack bL]
  have t1 : (F64.num 0).div fl64 (.num L) = .num 0 := by
    simp only [F64.div, if_neg L0.ne', zero_div, fl64_zero, numI_pack hz]
  have t2 : (F64.num (s * L)).div fl64 (.num L) = .num s := by
    simp only [F64.div, if_neg L0.ne', mul_div_assoc, div_self L0.ne', mul_one, is, numI_pack hs30]
  have d1 : dotI fl64 (.num 0, .num s) (.num (-g), .num q) = .num (s * q) := by
    simp only [dotI]
    rw [numI_mul hz bg', numI_mul hs30 bq, zero_mul, fl64_zero, im iq, numI_add hz (by rwa [am]),
      zero_add, im iq]
  have d2 : dotI fl64 (.num 0, .num s) (.num (-g), .num p) = .num (s * p) := by
    simp only [dotI]
    rw [numI_mul hz bg', numI_mul hs30 bp, zero_mul, fl64_zero, im ip, numI_add hz (by rwa [am]),
      zero_add, im ip]
  have d3 : dotI fl64 (.num (-s), .num 0) (.num (-g), .num p) = .num (s * g) := by
    simp only [dotI]
    rw [numI_mul hs30' bg', numI_mul hz bp, zero_mul, fl64_zero, neg_mul_neg, im ig,
      numI_add (by rwa [am]) hz, add_zero, im ig]
  have lt : (F64.num (-(s * q))).sub fl64 (.num (s * p)) = .num (fl64 (-(s * q) - s * p)) :=
    numI_sub (by rwa [abs_neg, am]) (by rwa [am])
  obtain ⟨l1, l2⟩ := abs_le.1 hη
  have c1 : ¬ (F64.num (fl64 (-(s * q) - s * p))).gt (.num L) := not_lt.2 l2
  have c2 : ¬ (F64.num (-L)).gt (.num (fl64 (-(s * q) - s * p))) := not_lt.2 l1
  have sg : npSign (s * g) = s := by
    rcases hs with rfl | rfl
    · simp [npSign, hp]
    · simp [npSign, hp, not_lt.2 hp.le]
  unfold distanceCircleLineI
  simp only [subI, divI, rotate90I, show Arith.machine.rnd = fl64 from rfl, e1, e2, e3, e4, e5, lw, t1, t2,
    d1, d2, F64.neg, lt, if_neg c1, if_neg c2, d3, F64.abs, F64.sign, sg, am, abs_of_pos hp]
  rw [numI_mul hs30 hs30', numI_mul hs30 hz, mul_zero, fl64_zero, mul_neg, ss, fl64_neg, fl64_one,
    numI_sub bg (up (by norm_num) hr)]

/-- One interaction with a wall whose distance is a number. -/
lemma obstacleI_of {n : ℕ} {A : Arith} (hr : A.rnd = fl64) {agents : Crowd n} {i : Fin n}
    (hv : |(agents i).velocity.1| ≤ 2 ^ (10 : ℤ) ∧ |(agents i).velocity.2| ≤ 2 ^ (10 : ℤ))
    (hc : ModerateContact (agents i)) {w : Wall} {d : ℝ} {n' : Vec}
    (hF : distanceCircleLineF A (agents i).position (agents i).radius w.p0 w.p1 = some (d, some n'))
    (hd : IsNum (distanceCircleLineI A (agents i).position (agents i).radius w.p0 w.p1).1 d 105)
    (hn : IsVec (distanceCircleLineI A (agents i).position (agents i).radius w.p0 w.p1).2 n' 82)
    {m : ℕ} {F : Fin n → F64 × F64} {f : Fin n → Vec} (h : SumForces m F f) (hm : m + 1 < 2 ^ 53) :
    ∃ f', interactionAgentCircularObstacleF A i w (withForces agents f) =
        some (withForces agents f') ∧
      SumForces (m + 1) (interactionAgentCircularObstacleI A agents i w F) f' := by
  unfold interactionAgentCircularObstacleI interactionAgentCircularObstacleF
  have hF' : distanceCircleLineF A (withForces agents f i).position (withForces agents f i).radius
      w.p0 w.p1 = some (d, some n') := hF
  rw [hF']
  generalize distanceCircleLineI A (agents i).position (agents i).radius w.p0 w.p1 = D at *
  obtain ⟨H, N1, N2⟩ := D
  simp only at hd hn ⊢
  have c : (F64.num 0).gt H ↔ d < 0 := by rw [hd.1]; exact Iff.rfl
  rw [c]
  split_ifs
  · have num : ∀ {x : ℝ}, |x| ≤ 2 ^ (20 : ℤ) → IsNum (.num x) x 20 := fun h => ⟨rfl, h⟩
    have vel : ∀ {x : ℝ}, |x| ≤ 2 ^ (10 : ℤ) → IsNum (.num x) x 11 :=
      fun h => IsNum.mono ⟨rfl, h⟩ (by norm_num)
    have k := contact_comp (t := (n'.2, -n'.1)) (v := (agents i).velocity) hd hn.1 hn.2 hn.2
      hn.1.neg (vel hv.1) (vel hv.2) (num hc.1) (num hc.2.1) (num hc.2.2)
    rw [hr]
    exact ⟨_, congrArg some (addForceF_with agents f i _),
      h.add hm i ⟨k.1.mono (by norm_num), k.2.mono (by norm_num)⟩⟩
  · exact ⟨f, rfl, h.mono (by omega)⟩

/-- One update of one agent beside one wall. -/
lemma updateI_single {a : Agent} {w : Wall} {dt : ℝ} (d0 : 0 ≤ dt) (d1 : dt ≤ 2 ^ (10 : ℤ))
    (hx : |a.position.1| ≤ 2 ^ (20 : ℤ) ∧ |a.position.2| ≤ 2 ^ (20 : ℤ))
    (hv : |a.velocity.1| ≤ 2 ^ (10 : ℤ) ∧ |a.velocity.2| ≤ 2 ^ (10 : ℤ)) (hf : a.force = 0)
    (hm : |a.mass| ≤ 2 ^ (10 : ℤ)) (hc : ModerateContact a) (hw : ModerateWalk a) {d : ℝ} {n' : Vec}
    (hF : distanceCircleLineF Arith.machine a.position a.radius w.p0 w.p1 = some (d, some n'))
    (hd : IsNum (distanceCircleLineI Arith.machine a.position a.radius w.p0 w.p1).1 d 105)
    (hn : IsVec (distanceCircleLineI Arith.machine a.position a.radius w.p0 w.p1).2 n' 82) :
    ∃ R : Crowd 1, updateF Arith.machine [w] dt dt (fun _ => 0) (fun _ => (1, 0)) [] (fun _ => a) = some R ∧
      updateI Arith.machine [w] dt dt (finiteInput (fun _ => 0) (fun _ => (1, 0)) [])
        (fun _ : Fin 1 => finiteAgent a) = .ok fun i => finiteAgent (R i) := by
  set A := Arith.machine with hA
  have hr : A.rnd = fl64 := rfl
  set B : Crowd 1 := fun _ => { a with targetDirection := (1, 0) } with hB
  set f0 : Fin 1 → Vec := fun _ =>
    (fl64 (fl64 (a.force.1 + (0 : Vec).1) + forceAdjustF fl64 a.mass a.tauAdj a.targetVelocity 1 a.velocity.1),
    fl64 (fl64 (a.force.2 + (0 : Vec).2) + forceAdjustF fl64 a.mass a.tauAdj a.targetVelocity 0 a.velocity.2))
    with hf0
  have tz : ∀ _ : Fin 1, (finiteAgent a).tauAdj ≠ 0 := by
    intro _ h
    have h' : a.tauAdj = 0 := h
    have := hw.tauAdj.1
    rw [h', abs_zero] at this
    exact absurd this (not_le.2 (two_zpow_pos _))
  have z : ∀ k : ℤ, |(0 : ℝ)| ≤ 2 ^ k := fun k => by rw [abs_zero]; exact (two_zpow_pos k).le
  have hf1 : |a.force.1| ≤ 2 ^ (20 : ℤ) := by rw [hf]; exact z _
  have hf2 : |a.force.2| ≤ 2 ^ (20 : ℤ) := by rw [hf]; exact z _
  have s0 : SumForces 1 (fun i : Fin 1 => adjustedI fl64 (finiteAgent a)
      ((finiteInput (fun _ : Fin 1 => (0 : Vec)) (fun _ => (1, 0)) []).direction i)
      (vaddI fl64 (finiteAgent a).force
        ((finiteInput (fun _ : Fin 1 => (0 : Vec)) (fun _ => (1, 0)) []).fluctuation i))) f0 := fun i =>
    ⟨sumNum_one (adjust_comp hf1 (z _) hm hw.tauAdj hw.targetVelocity (by norm_num) hv.1),
    sumNum_one (adjust_comp hf2 (z _) hm hw.tauAdj hw.targetVelocity (z _) hv.2)⟩
  obtain ⟨f2, e3, s2⟩ := obstacleI_of (A := A) (agents := B) (i := 0) hr hv hc hF hd hn s0 (by norm_num)
  have big : ∀ {k : ℤ} {x : ℝ}, k ≤ 400 → |x| ≤ 2 ^ k → |x| ≤ 2 ^ (400 : ℤ) := fun hk h =>
    h.trans (zpow_le_zpow_right₀ (by norm_num) hk)
  have fin : ∀ i, FiniteRow (finiteRow (withForces B f2 i)) := fun i =>
    { position := ⟨_, _, rfl, big (by norm_num) hx.1, big (by norm_num) hx.2⟩
      velocity := ⟨_, _, rfl, big (by norm_num) hv.1, big (by norm_num) hv.2⟩
      force := ⟨_, _, rfl, (s2 i).1.bound (by norm_num), (s2 i).2.bound (by norm_num)⟩
      forcePrev := ⟨_, _, rfl, hw.forcePrev.1, hw.forcePrev.2⟩
      mass := ⟨(zpow_le_zpow_right₀ (by norm_num) (by norm_num)).trans hw.mass, big (by norm_num) hm⟩ }
  have et := adaptiveTimestepI_refines (A := A) hr accurate_machine (withForces B f2) fin d0 le_rfl d1
    (fun _ => hw.targetVelocity)
  rw [fixed_timestepF] at et
  have hdt : |dt| ≤ 2 ^ (10 : ℤ) := by rwa [abs_of_nonneg d0]
  refine ⟨fun i => { translationalVerletRowF fl64 dt (withForces B f2 i) with force := 0 }, ?_, ?_⟩
  · unfold updateF
    have b : (fun i : Fin 1 => forceAdjustRowF A.rnd { a with
        targetDirection := (1, 0)
        force := (A.rnd (a.force.1 + (0 : Vec).1), A.rnd (a.force.2 + (0 : Vec).2)) }) =
        withForces B f0 := rfl
    dsimp only
    rw [b]
    have e4 : agentCircularObstacleF A (withForces B f0) [w] = some (withForces B f2) := by
      unfold agentCircularObstacleF
      simp only [List.finRange_succ, List.finRange_zero, List.map_nil, List.foldlM_cons, List.foldlM_nil, e3]
      rfl
    simp only [agentAgentCircularF, List.foldl_nil, e4, fixed_timestepF, hr]
  · unfold updateI
    simp only [bind, Except.bind]
    rw [forceAdjustAgentsI_ok _ _ tz]
    dsimp only
    have g2 : ∀ F, agentCircularObstacleG A (fun _ : Fin 1 => finiteAgent a) [w] F =
        interactionAgentCircularObstacleI A B 0 w F := fun F => rfl
    have g0 : (finiteInput (fun _ : Fin 1 => (0 : Vec)) (fun _ => (1, 0)) []).pairs = [] := rfl
    rw [g0]
    simp only [agentAgentCircularG, List.foldlM_nil, pure, Except.pure, hr]
    rw [g2]
    generalize interactionAgentCircularObstacleI A B 0 w _ = F2 at *
    have g3 : (fun i => ({ (finiteAgent a).toRowI with force := F2 i } : RowI)) =
        fun i => finiteRow (withForces B f2 i) := by
      funext i
      have : F2 i = (.num (f2 i).1, .num (f2 i).2) := Prod.ext (s2 i).1.1 (s2 i).2.1
      rw [this]
      rfl
    rw [g3, verlet_run et]
    simp only [hr, verlet_refines hdt (fin _)]
    rfl

/-- The computed distance from an upright wall beside the agent, whichever end is above. -/
lemma upright_distanceI_any {X x η Y0 Y1 r : ℝ} (b0 : Binary64 Y0) (b1 : Binary64 Y1) (hne : Y0 ≠ Y1)
    (hη : η ∈ Set.uIcc Y0 Y1) (hX : |X| ≤ 2 ^ (20 : ℤ)) (hx : |x| ≤ 2 ^ (20 : ℤ))
    (h0 : |Y0| ≤ 2 ^ (20 : ℤ)) (h1 : |Y1| ≤ 2 ^ (20 : ℤ)) (h2 : |η| ≤ 2 ^ (20 : ℤ))
    (hr : |r| ≤ 2 ^ (10 : ℤ)) (hp : 1 / 64 ≤ X - x) :
    distanceCircleLineI Arith.machine (x, η) r (X, Y0) (X, Y1) =
      (.num (fl64 (fl64 (X - x) - r)), (.num (-1), .num 0)) := by
  have g0 : 0 < fl64 (X - x) := by
    have := fl64_ge_two_zpow (e := -6) (by norm_num) (x := X - x) (by norm_num; linarith)
    exact (two_zpow_pos _).trans_le this
  rcases lt_or_gt_of_ne hne with h | h
  · rw [Set.uIcc_of_le h.le] at hη
    have L0 := wall_length_pos b0 b1 h
    have iL := fl64_idem (Y1 - Y0)
    refine upright_distanceI (s := 1) (L := fl64 (Y1 - Y0)) (Or.inl rfl) (one_mul _).symm L0 iL ?_ hX hx h0 h1
      h2 hr g0
    have p0 : 0 ≤ fl64 (η - Y0) := fl64_nonneg (by linarith [hη.1])
    have p1 : fl64 (η - Y0) ≤ fl64 (Y1 - Y0) := fl64_mono (by linarith [hη.2])
    have en : fl64 (η - Y1) = -fl64 (Y1 - η) := by rw [← fl64_neg, neg_sub]
    have q0 : 0 ≤ fl64 (Y1 - η) := fl64_nonneg (by linarith [hη.2])
    have q1 : fl64 (Y1 - η) ≤ fl64 (Y1 - Y0) := fl64_mono (by linarith [hη.1])
    have a1 := fl64_mono (show -(1 * fl64 (η - Y1)) - 1 * fl64 (η - Y0) ≤ fl64 (Y1 - Y0) by
      rw [en]; linarith)
    have a2 := fl64_mono (show -fl64 (Y1 - Y0) ≤ -(1 * fl64 (η - Y1)) - 1 * fl64 (η - Y0) by
      rw [en]; linarith)
    rw [fl64_neg, iL] at a2
    rw [iL] at a1
    exact abs_le.2 ⟨a2, a1⟩
  · rw [Set.uIcc_of_ge h.le] at hη
    have L0 := wall_length_pos b1 b0 h
    have iL := fl64_idem (Y0 - Y1)
    refine upright_distanceI (s := -1) (L := fl64 (Y0 - Y1)) (Or.inr rfl)
      (by rw [neg_one_mul, ← fl64_neg, neg_sub]) L0 iL ?_ hX hx h0 h1 h2 hr g0
    have p0 : 0 ≤ fl64 (η - Y1) := fl64_nonneg (by linarith [hη.1])
    have p1 : fl64 (η - Y1) ≤ fl64 (Y0 - Y1) := fl64_mono (by linarith [hη.2])
    have en : fl64 (η - Y0) = -fl64 (Y0 - η) := by rw [← fl64_neg, neg_sub]
    have q0 : 0 ≤ fl64 (Y0 - η) := fl64_nonneg (by linarith [hη.2])
    have q1 : fl64 (Y0 - η) ≤ fl64 (Y0 - Y1) := fl64_mono (by linarith [hη.1])
    have a1 := fl64_mono (show -(-1 * fl64 (η - Y1)) - -1 * fl64 (η - Y0) ≤ fl64 (Y0 - Y1) by
      rw [en]; linarith)
    have a2 := fl64_mono (show -fl64 (Y0 - Y1) ≤ -(-1 * fl64 (η - Y1)) - -1 * fl64 (η - Y0) by
      rw [en]; linarith)
    rw [fl64_neg, iL] at a2
    rw [iL] at a1
    exact abs_le.2 ⟨a2, a1⟩

/-- A rounded quotient of moderate size has a moderate dividend. -/
lemma force_of_acc {f m : ℝ} (m0 : 50 ≤ m) (m1 : m ≤ 90) (h : |fl64 (f / m)| ≤ 1000) :
    |f| ≤ 2 ^ (400 : ℤ) := by
  have mp : 0 < m := by linarith
  have key : |f / m| < 2 ^ (10 : ℤ) := by
    by_contra hc
    rw [not_lt] at hc
    have h1 := fl64_ge_two_zpow (e := 10) (by norm_num) hc
    have h2 : fl64 |f / m| = |fl64 (f / m)| := by
      rcases abs_cases (f / m) with ⟨e, h'⟩ | ⟨e, h'⟩
      · rw [e, abs_of_nonneg (fl64_nonneg h')]
      · have := fl64_nonneg (neg_nonneg.2 h'.le)
        rw [e, ← abs_neg, ← fl64_neg, abs_of_nonneg this]
    rw [h2] at h1
    norm_num at h1
    linarith
  rw [abs_div, abs_of_pos mp, div_lt_iff₀ mp] at key
  have : (2 : ℝ) ^ (20 : ℤ) ≤ 2 ^ (400 : ℤ) := zpow_le_zpow_right₀ (by norm_num) (by norm_num)
  refine le_trans ?_ this
  norm_num at key ⊢
  linarith

/-- With overflow the run is the same. -/
lemma press_runI {a : Agent} {X Y0 Y1 : ℝ} (h : PressStart a X Y0 Y1) (hκ : |a.kappa| ≤ 2 ^ (20 : ℤ))
    (hY0 : |Y0| ≤ 2 ^ (20 : ℤ)) (hY1 : |Y1| ≤ 2 ^ (20 : ℤ)) (k : ℕ) (b : Agent)
    (hb : runF Arith.machine [⟨(X, Y0), (X, Y1)⟩] (fl64 (1 / 100)) (fl64 (1 / 100)) (fun _ => 0)
      (fun _ => (1, 0)) [] (fun _ : Fin 1 => a) k = some fun _ => b) :
    runI Arith.machine [⟨(X, Y0), (X, Y1)⟩] (fl64 (1 / 100)) (fl64 (1 / 100))
      (List.replicate k (finiteInput (fun _ => 0) (fun _ => (1, 0)) [])) (fun _ : Fin 1 => finiteAgent a) =
      .ok fun _ => finiteAgent b := by
  obtain ⟨ρ, ρ0, hk⟩ := press_run h
  induction k generalizing b with
  | zero =>
    have := congrFun (Option.some.inj hb) 0
    rw [← this]
    rfl
  | succ k ih =>
    obtain ⟨x, u, f, w, t, e, -, -, hs⟩ := hk k
    have hi := ih _ e
    obtain ⟨B1, B2, B3⟩ := hs.walk.bounds (press_constants h.mass.1 h.mass.2)
    have n1 := abs_le.1 hs.mean
    have n2 := hs.top'
    have n3 := hs.far
    have n4 := hs.acc
    rw [abs_neg] at n4
    have X1 := abs_le.1 h.wall.2.1
    obtain ⟨-, R0, R1⟩ := h.radius
    obtain ⟨bV, V0, V1⟩ := h.pace
    obtain ⟨m0, m1⟩ := h.mass
    have hη : |a.position.2| ≤ 2 ^ (20 : ℤ) := by
      have := Set.mem_uIcc.1 h.beside
      have y0 := abs_le.1 hY0
      have y1 := abs_le.1 hY1
      rcases this with q | q <;> exact abs_le.2 ⟨by linarith [q.1], by linarith [q.2]⟩
    have hx : |x| ≤ 2 ^ (20 : ℤ) := by norm_num [abs_le]; constructor <;> linarith
    have hX : |X| ≤ 2 ^ (20 : ℤ) := by norm_num [abs_le]; constructor <;> linarith
    have hu : |u| ≤ 2 ^ (10 : ℤ) := by norm_num [abs_le]; constructor <;> linarith
    have hR : |a.radius| ≤ 2 ^ (10 : ℤ) := by norm_num [abs_le]; constructor <;> linarith
    have hV : |a.targetVelocity| ≤ 2 ^ (10 : ℤ) := by norm_num [abs_le]; constructor <;> linarith
    have hm : |a.mass| ≤ 2 ^ (10 : ℤ) := by norm_num [abs_le]; constructor <;> linarith
    have hm' : (2 : ℝ) ^ (-10 : ℤ) ≤ |a.mass| := by rw [abs_of_pos (by linarith)]; norm_num; linarith
    have z : ∀ k : ℤ, |(0 : ℝ)| ≤ 2 ^ k := fun k => by rw [abs_zero]; exact (two_zpow_pos k).le
    have hd := upright_distance (r := a.radius) h.wall.2.2.1 h.wall.2.2.2.1 h.wall.2.2.2.2 h.beside
      (X := X) (x := x) (by linarith)
    have hdI := upright_distanceI_any (r := a.radius) h.wall.2.2.1 h.wall.2.2.2.1 h.wall.2.2.2.2 h.beside
      hX hx hY0 hY1 hη hR (by linarith)
    have hg : |fl64 (fl64 (X - x) - a.radius)| ≤ 2 ^ (105 : ℤ) := by
      have g1 := IsNum.sub (X := .num X) (Y := .num x) ⟨rfl, hX⟩ ⟨rfl, hx⟩ (k := 21) (by norm_num)
        (by norm_num) (by norm_num) (by norm_num)
      exact (g1.sub (Y := .num a.radius) ⟨rfl, hR⟩ (k := 105) (by norm_num) (by norm_num) (by norm_num)
        (by norm_num)).2
    have dt0 : 0 ≤ fl64 (1 / 100) := fl64_nonneg (by norm_num)
    have dt1 : fl64 (1 / 100) ≤ 2 ^ (10 : ℤ) := by
      have := fl64_mono (show (1 / 100 : ℝ) ≤ 1 by norm_num)
      rw [fl64_one] at this
      exact this.trans (by norm_num)
    obtain ⟨R, r1, r2⟩ := updateI_single (a := pressRow a x u f) (w := ⟨(X, Y0), (X, Y1)⟩) dt0 dt1
      ⟨hx, hη⟩ ⟨hu, z _⟩ rfl hm
      ⟨by change |a.mu| ≤ _; rw [h.mu]; norm_num, hκ, by change |a.damping| ≤ _; rw [h.damping]; norm_num⟩
      ⟨hm', by change _ ≤ |a.tauAdj| ∧ |a.tauAdj| ≤ _; rw [h.tau]; norm_num [abs_of_pos], hV,
        force_of_acc m0 m1 n4, z _⟩ hd
      (by change IsNum (distanceCircleLineI Arith.machine (x, a.position.2) a.radius (X, Y0) (X, Y1)).1 _ _
          rw [hdI]; exact ⟨rfl, hg⟩)
      (by change IsVec (distanceCircleLineI Arith.machine (x, a.position.2) a.radius (X, Y0) (X, Y1)).2 _ _
          rw [hdI]; exact ⟨⟨rfl, by norm_num⟩, rfl, z _⟩)
    rw [runF, e, Option.bind_some, r1] at hb
    obtain rfl := Option.some.inj hb
    unfold runI at hi ⊢
    rw [List.replicate_succ', List.foldlM_append, hi]
    simp only [bind, Except.bind, List.foldlM_cons, List.foldlM_nil, pure, Except.pure, r2]

end CrowdDynamics
