import Verif.Spec.IeeeUpdate
import Verif.Model.RoundedUpdate
import Verif.Proofs.IeeeCrowd

/-!
# An update of an ordinary crowd is finite: helper lemmas
-/

namespace CrowdDynamics

open Spec Real
open scoped Classical

/-- One component of the force after the random force and the adjusting force. -/
theorem adjust_comp {f xi mass tau v0 e v : ℝ} (hf : |f| ≤ 2 ^ (20 : ℤ)) (hx : |xi| ≤ 2 ^ (20 : ℤ))
    (hm : |mass| ≤ 2 ^ (10 : ℤ)) (ht : (2 : ℝ) ^ (-10 : ℤ) ≤ |tau| ∧ |tau| ≤ 2 ^ (10 : ℤ))
    (h0 : |v0| ≤ 2 ^ (10 : ℤ)) (he : |e| ≤ 2 ^ (1 : ℤ)) (hv : |v| ≤ 2 ^ (10 : ℤ)) :
    IsNum (((F64.num f).add fl64 (.num xi)).add fl64 (((F64.num mass).div fl64 (.num tau)).mul fl64
      (((F64.num v0).mul fl64 (.num e)).sub fl64 (.num v))))
      (fl64 (fl64 (f + xi) + forceAdjustF fl64 mass tau v0 e v)) 304 := by
  have nf : IsNum (.num f) f 20 := ⟨rfl, hf⟩
  have nx : IsNum (.num xi) xi 20 := ⟨rfl, hx⟩
  have nm : IsNum (.num mass) mass 10 := ⟨rfl, hm⟩
  have nt : IsNum (.num tau) tau 10 := ⟨rfl, ht.2⟩
  have n0 : IsNum (.num v0) v0 10 := ⟨rfl, h0⟩
  have ne : IsNum (.num e) e 1 := ⟨rfl, he⟩
  have nv : IsNum (.num v) v 10 := ⟨rfl, hv⟩
  have a := nf.add nx (k := 21) (by norm_num) (by norm_num) (by norm_num) (by norm_num)
  have q := (nm.div nt ht.1 (k := 20) (by norm_num) (by norm_num) (by norm_num)).1
  have w := n0.mul ne (k := 11) (by norm_num) (by norm_num) (by norm_num)
  have s := w.sub nv (k := 12) (by norm_num) (by norm_num) (by norm_num) (by norm_num)
  have p := q.mul s (k := 32) (by norm_num) (by norm_num) (by norm_num)
  exact (a.add p (k := 33) (by norm_num) (by norm_num) (by norm_num) (by norm_num)).mono
    (by norm_num)

theorem sumNum_one {X : F64} {x : ℝ} (h : IsNum X x 304) : SumNum 1 X x :=
  ⟨h.1, by rw [Nat.cast_one, one_mul]; exact h.2⟩

/-- A sum of few forces is of moderate size. -/
theorem SumNum.bound {m : ℕ} {X : F64} {x : ℝ} (hm : m < 2 ^ 53) (h : SumNum m X x) :
    |x| ≤ 2 ^ (400 : ℤ) := by
  have : (m : ℝ) ≤ 2 ^ (53 : ℤ) := by exact_mod_cast hm.le
  calc |x| ≤ m * 2 ^ (304 : ℤ) := h.2
    _ ≤ 2 ^ (53 : ℤ) * 2 ^ (304 : ℤ) := mul_le_mul_of_nonneg_right this (two_zpow_pos _).le
    _ = 2 ^ (357 : ℤ) := by rw [← zpow_add₀ (by norm_num)]; norm_num
    _ ≤ _ := zpow_le_zpow_right₀ (by norm_num) (by norm_num)

/-- One update. -/
theorem updateI_finite {n : ℕ} {A : Arith} (hr : A.rnd = fl64) (hh : AccurateHypot A.hypot)
    (he : SaneExp A.exp) {agents : Crowd n} {pairs : List (Fin n × Fin n)} {walls : List Wall}
    {xi direction : Fin n → Vec} {dtMin dtMax : ℝ}
    (ha : ∀ i, ModerateAgent (agents i) ∧ ModerateContact (agents i) ∧ ModerateWalk (agents i))
    (hf : ModerateForces fun i => (agents i).force) (hx : ModerateForces xi)
    (hd : ∀ i, |(direction i).1| ≤ 2 ^ (1 : ℤ) ∧ |(direction i).2| ≤ 2 ^ (1 : ℤ))
    (hw : ∀ w ∈ walls, ModerateWall w ∧ ∀ i, (agents i).position ≠ w.p0 ∧
      (agents i).position ≠ w.p1)
    (hn : 1 + 2 * pairs.length + n * walls.length < 2 ^ 53)
    (h0 : 0 ≤ dtMin) (h1 : dtMin ≤ dtMax) (h2 : dtMax ≤ 2 ^ (10 : ℤ)) :
    ∃ R, updateF A walls dtMin dtMax xi direction pairs agents = some R ∧
      updateI A walls dtMin dtMax (finiteInput xi direction pairs)
        (fun i => finiteAgent (agents i)) = .ok fun i => finiteAgent (R i) := by
  obtain ⟨rnd, hyp, ex⟩ := A
  obtain rfl : rnd = fl64 := hr
  set A : Arith := ⟨fl64, hyp, ex⟩ with hA
  set B : Crowd n := fun i => { agents i with targetDirection := direction i } with hB
  set f0 : Fin n → Vec := fun i =>
    (fl64 (fl64 ((agents i).force.1 + (xi i).1) + forceAdjustF fl64 (agents i).mass
      (agents i).tauAdj (agents i).targetVelocity (direction i).1 (agents i).velocity.1),
    fl64 (fl64 ((agents i).force.2 + (xi i).2) + forceAdjustF fl64 (agents i).mass
      (agents i).tauAdj (agents i).targetVelocity (direction i).2 (agents i).velocity.2)) with hf0
  have tz : ∀ i, (finiteAgent (agents i)).tauAdj ≠ 0 := by
    intro i h
    have h' : (agents i).tauAdj = 0 := h
    have := (ha i).2.2.tauAdj.1
    rw [h', abs_zero] at this
    exact absurd this (not_le.2 (two_zpow_pos _))
  have s0 : SumForces 1 (fun i => adjustedI fl64 (finiteAgent (agents i))
      ((finiteInput xi direction pairs).direction i)
      (vaddI fl64 (finiteAgent (agents i)).force
        ((finiteInput xi direction pairs).fluctuation i))) f0 := fun i =>
    ⟨sumNum_one (adjust_comp (hf i).1 (hx i).1 (ha i).1.mass (ha i).2.2.tauAdj
      (ha i).2.2.targetVelocity (hd i).1 (ha i).1.velocity.1.1),
    sumNum_one (adjust_comp (hf i).2 (hx i).2 (ha i).1.mass (ha i).2.2.tauAdj
      (ha i).2.2.targetVelocity (hd i).2 (ha i).1.velocity.2.1)⟩
  have hB' : ∀ i, ModerateAgent (B i) ∧ ModerateContact (B i) := fun i =>
    ⟨⟨(ha i).1.position, (ha i).1.velocity, (ha i).1.radius, (ha i).1.mass, (ha i).1.kSoc,
      (ha i).1.tau0⟩, (ha i).2.1⟩
  obtain ⟨F1, f1, e1, e2, s1⟩ := agentAgentCircularI_num (A := A) rfl hh he hB' pairs s0 (by omega)
  obtain ⟨f2, e3, s2⟩ := agentCircularObstacleI_num (A := A) rfl hh hB' hw s1 hn
  set F2 := agentCircularObstacleI A B walls F1 with hF2
  have big : ∀ {k : ℤ} {x : ℝ}, k ≤ 400 → |x| ≤ 2 ^ k → |x| ≤ 2 ^ (400 : ℤ) := fun hk h =>
    h.trans (zpow_le_zpow_right₀ (by norm_num) hk)
  have fin : ∀ i, FiniteRow (finiteRow (withForces B f2 i)) := fun i =>
    { position := ⟨_, _, rfl, big (by norm_num) (ha i).1.position.1.1,
        big (by norm_num) (ha i).1.position.2.1⟩
      velocity := ⟨_, _, rfl, big (by norm_num) (ha i).1.velocity.1.1,
        big (by norm_num) (ha i).1.velocity.2.1⟩
      force := ⟨_, _, rfl, (s2 i).1.bound hn, (s2 i).2.bound hn⟩
      forcePrev := ⟨_, _, rfl, (ha i).2.2.forcePrev.1, (ha i).2.2.forcePrev.2⟩
      mass := ⟨(zpow_le_zpow_right₀ (by norm_num) (by norm_num)).trans (ha i).2.2.mass,
        big (by norm_num) (ha i).1.mass⟩ }
  have tv : ∀ i, |(withForces B f2 i).targetVelocity| ≤ 2 ^ (10 : ℤ) :=
    fun i => (ha i).2.2.targetVelocity
  have et := adaptiveTimestepI_refines (A := A) rfl hh (withForces B f2) fin h0 h1 h2 tv
  obtain ⟨dt, e4, l, u⟩ := adaptiveTimestepI_num (A := A) rfl
    (fun i => finiteRow (withForces B f2 i)) h0 h1 h2 tv
  rw [e4] at et
  injection et with et
  injection et with et
  have hdt : |dt| ≤ 2 ^ (10 : ℤ) := by
    rw [abs_of_nonneg (h0.trans l)]
    exact u.trans h2
  refine ⟨fun i => { translationalVerletRowF fl64 dt (withForces B f2 i) with force := 0 }, ?_, ?_⟩
  · unfold updateF
    have b : (fun i => forceAdjustRowF fl64 { agents i with
        targetDirection := direction i
        force := (fl64 ((agents i).force.1 + (xi i).1), fl64 ((agents i).force.2 + (xi i).2)) }) =
        withForces B f0 := rfl
    dsimp only
    rw [b, e2, e3, et]
  · unfold updateI
    simp only [bind, Except.bind]
    rw [forceAdjustAgentsI_ok _ _ tz]
    dsimp only
    have g1 : agentAgentCircularG A (fun i => finiteAgent (agents i)) pairs
        (fun i => adjustedI fl64 (finiteAgent (agents i))
          ((finiteInput xi direction pairs).direction i)
          (vaddI fl64 (finiteAgent (agents i)).force
            ((finiteInput xi direction pairs).fluctuation i))) = .ok F1 := e1
    have g2 : agentCircularObstacleG A (fun i => finiteAgent (agents i)) walls F1 = F2 := rfl
    have g0 : (finiteInput xi direction pairs).pairs = pairs := rfl
    rw [g0, g1]
    dsimp only
    rw [g2]
    have g3 : (fun i => ({ (finiteAgent (agents i)).toRowI with force := F2 i } : RowI)) =
        fun i => finiteRow (withForces B f2 i) := by
      funext i
      have : F2 i = (.num (f2 i).1, .num (f2 i).2) := Prod.ext (s2 i).1.1 (s2 i).2.1
      rw [this]
      rfl
    rw [g3, verlet_run e4]
    simp only [verlet_refines hdt (fin _), hA]
    rfl

end CrowdDynamics
