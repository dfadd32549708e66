import Verif.Spec.Convergence
import Verif.Props.Integrator
import Mathlib.Analysis.Calculus.MeanValue
import Mathlib.Analysis.SpecialFunctions.Exp

/-!
# Lemmas about convergence
-/

namespace CrowdDynamics

open Spec Real

variable {n : ℕ}

/-! ## One step along the solution -/

theorem solves_velocity_le {A : Points n → Points n → Points n} {T B : ℝ} {X W : ℝ → Points n}
    (h : Solves A T X W) (hB : ∀ t ∈ Set.Icc 0 T, ‖A (X t) (W t)‖ ≤ B) {s u : ℝ} (h0 : 0 ≤ s)
    (hsu : s ≤ u) (hu : u ≤ T) : ‖W u - W s‖ ≤ B * (u - s) := by
  have hsub : Set.Icc s u ⊆ Set.Icc 0 T := Set.Icc_subset_Icc h0 hu
  exact norm_image_sub_le_of_norm_deriv_le_segment' (f := W) (f' := fun r => A (X r) (W r))
    (fun x hx => (h.velocity x (hsub hx)).mono hsub)
    (fun x hx => hB x (hsub ⟨hx.1, hx.2.le⟩)) u ⟨hsu, le_rfl⟩

theorem solves_position_le {A : Points n → Points n → Points n} {T V : ℝ} {X W : ℝ → Points n}
    (h : Solves A T X W) (hV : ∀ t ∈ Set.Icc 0 T, ‖W t‖ ≤ V) {s u : ℝ} (h0 : 0 ≤ s)
    (hsu : s ≤ u) (hu : u ≤ T) : ‖X u - X s‖ ≤ V * (u - s) := by
  have hsub : Set.Icc s u ⊆ Set.Icc 0 T := Set.Icc_subset_Icc h0 hu
  exact norm_image_sub_le_of_norm_deriv_le_segment' (f := X) (f' := W)
    (fun x hx => (h.position x (hsub hx)).mono hsub)
    (fun x hx => hV x (hsub ⟨hx.1, hx.2.le⟩)) u ⟨hsu, le_rfl⟩

theorem solves_position_step {A : Points n → Points n → Points n} {T B : ℝ} {X W : ℝ → Points n}
    (h : Solves A T X W) (hB : ∀ t ∈ Set.Icc 0 T, ‖A (X t) (W t)‖ ≤ B) (hB0 : 0 ≤ B) {s u : ℝ}
    (h0 : 0 ≤ s) (hsu : s ≤ u) (hu : u ≤ T) :
    ‖X u - X s - (u - s) • W s‖ ≤ B * (u - s) ^ 2 := by
  have hsub : Set.Icc s u ⊆ Set.Icc 0 T := Set.Icc_subset_Icc h0 hu
  have := norm_image_sub_le_of_norm_deriv_le_segment' (f := fun r => X r - r • W s)
    (f' := fun r => W r - W s) (a := s) (b := u) (C := B * (u - s))
    (fun x hx => ((h.position x (hsub hx)).mono hsub).sub (by
      simpa using (hasDerivWithinAt_id x (Set.Icc s u)).smul_const (W s)))
    (fun x hx => (solves_velocity_le h hB h0 hx.1 (hx.2.le.trans hu)).trans
      (mul_le_mul_of_nonneg_left (by linarith [hx.2]) hB0)) u ⟨hsu, le_rfl⟩
  refine (le_of_eq ?_).trans (this.trans (le_of_eq (by ring)))
  congr 1
  rw [sub_smul]
  abel

theorem solves_velocity_step {A : Points n → Points n → Points n} {L T B V : ℝ}
    {X W : ℝ → Points n} (h : Solves A T X W) (hA : LipschitzLaw A L) (hL : 0 ≤ L)
    (hB : ∀ t ∈ Set.Icc 0 T, ‖A (X t) (W t)‖ ≤ B) (hV : ∀ t ∈ Set.Icc 0 T, ‖W t‖ ≤ V)
    (hVB : 0 ≤ V + B) {s u : ℝ} (h0 : 0 ≤ s) (hsu : s ≤ u) (hu : u ≤ T) :
    ‖W u - W s - (u - s) • A (X s) (W s)‖ ≤ L * (V + B) * (u - s) ^ 2 := by
  have hsub : Set.Icc s u ⊆ Set.Icc 0 T := Set.Icc_subset_Icc h0 hu
  have := norm_image_sub_le_of_norm_deriv_le_segment' (f := fun r => W r - r • A (X s) (W s))
    (f' := fun r => A (X r) (W r) - A (X s) (W s)) (a := s) (b := u)
    (C := L * (V + B) * (u - s))
    (fun x hx => ((h.velocity x (hsub hx)).mono hsub).sub (by
      simpa using (hasDerivWithinAt_id x (Set.Icc s u)).smul_const (A (X s) (W s))))
    (fun x hx => by
      refine (hA _ _ _ _).trans ?_
      have h1 := solves_position_le h hV h0 hx.1 (hx.2.le.trans hu)
      have h2 := solves_velocity_le h hB h0 hx.1 (hx.2.le.trans hu)
      have h3 : ‖X x - X s‖ + ‖W x - W s‖ ≤ (V + B) * (u - s) := by
        refine (add_le_add h1 h2).trans ?_
        rw [← add_mul]
        exact mul_le_mul_of_nonneg_left (by linarith [hx.2]) hVB
      rw [mul_assoc]
      exact mul_le_mul_of_nonneg_left h3 hL) u ⟨hsu, le_rfl⟩
  refine (le_of_eq ?_).trans (this.trans (le_of_eq (by ring)))
  congr 1
  rw [sub_smul]
  abel

/-! ## One step of the integrators -/

theorem inv_mass_smul {m : ℝ} (h : m ≠ 0) (a : ℝ × ℝ) : (1 / m) • m • a = a := by
  rw [smul_smul, one_div, inv_mul_cancel₀ h, one_smul]

theorem euler_step (A : Points n → Points n → Points n) (dtMin dtMax : ℝ) (s f r : AgentArray n)
    (dt : ℝ) (hm : Massive s) (hf : ForcesSet A s f) (h : eulerIntegrator f dtMin dtMax = (dt, r)) :
    positions r = positions s + dt • velocities s +
        (dt ^ 2 / 2) • A (positions s) (velocities s) ∧
      velocities r = velocities s + dt • A (positions s) (velocities s) ∧ Massive r ∧
      (dtMin ≤ dtMax → dtMin ≤ dt ∧ dt ≤ dtMax) := by
  have e1 : dt = adaptiveTimestep f.rows dtMin dtMax := (congrArg Prod.fst h).symm
  have e2 : ∀ i, (r.rows i).position = (translationalEulerRow dt (f.rows i)).position ∧
      (r.rows i).velocity = (translationalEulerRow dt (f.rows i)).velocity ∧
      (r.rows i).mass = (f.rows i).mass := by
    intro i
    have e3 : r = (eulerIntegrator f dtMin dtMax).2 := (congrArg Prod.snd h).symm
    rw [e3, e1]
    simp only [eulerIntegrator]
    split <;> exact ⟨rfl, rfl, rfl⟩
  refine ⟨?_, ?_, fun i => ?_, fun hd => ?_⟩
  · funext i
    have hi := (hm i).ne'
    simp only [positions, velocities, Pi.add_apply, Pi.smul_apply]
    rw [(e2 i).1, hf.2 i]
    simp only [translationalEulerRow]
    rw [inv_mass_smul hi, smul_smul, add_assoc]
    congr 3
    ring
  · funext i
    have hi := (hm i).ne'
    simp only [velocities, Pi.add_apply, Pi.smul_apply]
    rw [(e2 i).2.1, hf.2 i]
    simp only [translationalEulerRow]
    rw [inv_mass_smul hi]
  · rw [(e2 i).2.2, hf.2 i]
    exact hm i
  · rw [e1]
    exact C19_timestep_bounds _ _ _ hd

/-- The acceleration of the force of the last step. -/
noncomputable def lastAcceleration (s : AgentArray n) : Points n := fun i =>
  (1 / (s.rows i).mass) • (s.rows i).forcePrev

theorem verlet_step (A : Points n → Points n → Points n) (dtMin dtMax : ℝ) (s f r : AgentArray n)
    (dt : ℝ) (hm : Massive s) (hf : ForcesSet A s f)
    (h : velocityVerletIntegrator f dtMin dtMax = (dt, r)) :
    velocities r = velocities s +
        (dt / 2) • (lastAcceleration s + A (positions s) (velocities s)) ∧
      positions r = positions s + dt • velocities r +
        (dt ^ 2 / 2) • A (positions s) (velocities s) ∧
      lastAcceleration r = A (positions s) (velocities s) ∧ Massive r ∧
      (dtMin ≤ dtMax → dtMin ≤ dt ∧ dt ≤ dtMax) := by
  have e1 : dt = adaptiveTimestep f.rows dtMin dtMax := (congrArg Prod.fst h).symm
  have e2 : ∀ i, (r.rows i).position = (translationalVerletRow dt (f.rows i)).position ∧
      (r.rows i).velocity = (translationalVerletRow dt (f.rows i)).velocity ∧
      (r.rows i).forcePrev = (f.rows i).force ∧
      (r.rows i).mass = (f.rows i).mass := by
    intro i
    have e3 : r = (velocityVerletIntegrator f dtMin dtMax).2 := (congrArg Prod.snd h).symm
    rw [e3, e1]
    simp only [velocityVerletIntegrator]
    split <;> exact ⟨rfl, rfl, rfl, rfl⟩
  have hv : velocities r = velocities s +
        (dt / 2) • (lastAcceleration s + A (positions s) (velocities s)) := by
    funext i
    have hi := (hm i).ne'
    simp only [velocities, Pi.add_apply, Pi.smul_apply, lastAcceleration]
    rw [(e2 i).2.1, hf.2 i]
    simp only [translationalVerletRow]
    rw [inv_mass_smul hi, smul_smul]
    congr 2
    ring
  refine ⟨hv, ?_, ?_, fun i => ?_, fun hd => ?_⟩
  · funext i
    have hi := (hm i).ne'
    simp only [positions, velocities, Pi.add_apply, Pi.smul_apply]
    rw [(e2 i).1, (e2 i).2.1, hf.2 i]
    simp only [translationalVerletRow]
    rw [inv_mass_smul hi, smul_smul (dt ^ 2), add_assoc]
    congr 3
    ring
  · funext i
    have hi := (hm i).ne'
    simp only [lastAcceleration]
    rw [(e2 i).2.2.1, (e2 i).2.2.2, hf.2 i]
    rw [inv_mass_smul hi]
  · rw [(e2 i).2.2.2, hf.2 i]
    exact hm i
  · rw [e1]
    exact C19_timestep_bounds _ _ _ hd

/-! ## Growth of the error -/

theorem euler_error {A : Points n → Points n → Points n} {L T B V H : ℝ} {X W : ℝ → Points n}
    (h : Solves A T X W) (hA : LipschitzLaw A L) (hL : 0 ≤ L)
    (hB : ∀ t ∈ Set.Icc 0 T, ‖A (X t) (W t)‖ ≤ B) (hB0 : 0 ≤ B) (hV : ∀ t ∈ Set.Icc 0 T, ‖W t‖ ≤ V)
    (hV0 : 0 ≤ V) {t dt : ℝ} (h0 : 0 ≤ t) (hd : 0 ≤ dt) (hH : dt ≤ H) (hH1 : H ≤ 1) (hT : t + dt ≤ T)
    (s r : AgentArray n)
    (hp : positions r = positions s + dt • velocities s +
        (dt ^ 2 / 2) • A (positions s) (velocities s))
    (hv : velocities r = velocities s + dt • A (positions s) (velocities s)) :
    deviation r (X (t + dt)) (W (t + dt)) ≤ deviation s (X t) (W t) * (1 + dt * (1 + 3 / 2 * L)) +
      dt * H * (3 / 2 * B + L * (V + B)) := by
  have h1 := solves_position_step h hB hB0 h0 (by linarith : t ≤ t + dt) hT
  have h2 := solves_velocity_step h hA hL hB hV (add_nonneg hV0 hB0) h0 (by linarith : t ≤ t + dt) hT
  rw [add_sub_cancel_left] at h1 h2
  have h3 := hA (positions s) (velocities s) (X t) (W t)
  have h4 := hB t ⟨h0, by linarith⟩
  unfold deviation
  rw [hp, hv]
  generalize positions s = x at *
  generalize velocities s = v at *
  obtain ⟨ex, hex⟩ : ∃ e, ‖x - X t‖ = e := ⟨_, rfl⟩
  obtain ⟨ev, hev⟩ : ∃ e, ‖v - W t‖ = e := ⟨_, rfl⟩
  rw [hex, hev] at h3 ⊢
  have hex0 : 0 ≤ ex := hex ▸ norm_nonneg _
  have hev0 : 0 ≤ ev := hev ▸ norm_nonneg _
  have hAx : ‖A x v‖ ≤ B + L * (ex + ev) := by
    have := norm_add_le (A (X t) (W t)) (A x v - A (X t) (W t))
    rw [add_sub_cancel] at this
    linarith
  have hpos : ‖x + dt • v + (dt ^ 2 / 2) • A x v - X (t + dt)‖ ≤
      ex + dt * ev + dt ^ 2 / 2 * (B + L * (ex + ev)) + B * dt ^ 2 := by
    have e : x + dt • v + (dt ^ 2 / 2) • A x v - X (t + dt) =
        (x - X t) + dt • (v - W t) + (dt ^ 2 / 2) • A x v - (X (t + dt) - X t - dt • W t) := by
      rw [smul_sub]; abel
    rw [e]
    refine (norm_sub_le _ _).trans (add_le_add ((norm_add_le _ _).trans (add_le_add
      ((norm_add_le _ _).trans (add_le_add hex.le ?_)) ?_)) h1)
    · rw [norm_smul, hev, norm_of_nonneg hd]
    · rw [norm_smul, norm_of_nonneg (by positivity)]
      exact mul_le_mul_of_nonneg_left hAx (by positivity)
  have hvel : ‖v + dt • A x v - W (t + dt)‖ ≤
      ev + dt * (L * (ex + ev)) + L * (V + B) * dt ^ 2 := by
    have e : v + dt • A x v - W (t + dt) =
        (v - W t) + dt • (A x v - A (X t) (W t)) - (W (t + dt) - W t - dt • A (X t) (W t)) := by
      rw [smul_sub]; abel
    rw [e]
    refine (norm_sub_le _ _).trans (add_le_add ((norm_add_le _ _).trans (add_le_add
      hev.le ?_)) h2)
    rw [norm_smul, norm_of_nonneg hd]
    exact mul_le_mul_of_nonneg_left h3 hd
  refine (add_le_add hpos hvel).trans ?_
  have hdd : dt ^ 2 ≤ dt * H := by rw [sq]; exact mul_le_mul_of_nonneg_left hH hd
  have hdd1 : dt ^ 2 ≤ dt := by
    rw [sq]; exact mul_le_of_le_one_right hd (hH.trans hH1)
  have k1 : dt ^ 2 * (3 / 2 * B + L * (V + B)) ≤ dt * H * (3 / 2 * B + L * (V + B)) :=
    mul_le_mul_of_nonneg_right hdd (by positivity)
  have k2 : dt ^ 2 * (L * (ex + ev)) ≤ dt * (L * (ex + ev)) :=
    mul_le_mul_of_nonneg_right hdd1 (by positivity)
  have k3 : 0 ≤ dt * ex := by positivity
  nlinarith

theorem verlet_error {A : Points n → Points n → Points n} {L T B V H : ℝ} {X W : ℝ → Points n}
    (h : Solves A T X W) (hA : LipschitzLaw A L) (hL : 0 ≤ L)
    (hB : ∀ t ∈ Set.Icc 0 T, ‖A (X t) (W t)‖ ≤ B) (hB0 : 0 ≤ B) (hV : ∀ t ∈ Set.Icc 0 T, ‖W t‖ ≤ V)
    (hV0 : 0 ≤ V) {t dt : ℝ} (h0 : 0 ≤ t) (hd : 0 ≤ dt) (hH : dt ≤ H) (hH1 : H ≤ 1) (hT : t + dt ≤ T)
    (s r : AgentArray n)
    (hv : velocities r = velocities s +
        (dt / 2) • (lastAcceleration s + A (positions s) (velocities s)))
    (hp : positions r = positions s + dt • velocities r +
        (dt ^ 2 / 2) • A (positions s) (velocities s)) :
    deviation r (X (t + dt)) (W (t + dt)) ≤ deviation s (X t) (W t) * (1 + dt * (1 + 5 / 2 * L)) +
      dt * H * (5 / 2 * B + L * (V + B)) +
      dt * ‖lastAcceleration s - A (positions s) (velocities s)‖ := by
  have h1 := solves_position_step h hB hB0 h0 (by linarith : t ≤ t + dt) hT
  have h2 := solves_velocity_step h hA hL hB hV (add_nonneg hV0 hB0) h0 (by linarith : t ≤ t + dt) hT
  rw [add_sub_cancel_left] at h1 h2
  have h3 := hA (positions s) (velocities s) (X t) (W t)
  have h4 := hB t ⟨h0, by linarith⟩
  unfold deviation
  rw [hp, hv]
  generalize lastAcceleration s = p at *
  generalize positions s = x at *
  generalize velocities s = v at *
  obtain ⟨ex, hex⟩ : ∃ e, ‖x - X t‖ = e := ⟨_, rfl⟩
  obtain ⟨ev, hev⟩ : ∃ e, ‖v - W t‖ = e := ⟨_, rfl⟩
  obtain ⟨δ, hδ⟩ : ∃ e, ‖p - A x v‖ = e := ⟨_, rfl⟩
  rw [hex, hev] at h3 ⊢
  rw [hδ]
  have hex0 : 0 ≤ ex := hex ▸ norm_nonneg _
  have hev0 : 0 ≤ ev := hev ▸ norm_nonneg _
  have hδ0 : 0 ≤ δ := hδ ▸ norm_nonneg _
  have hAx : ‖A x v‖ ≤ B + L * (ex + ev) := by
    have := norm_add_le (A (X t) (W t)) (A x v - A (X t) (W t))
    rw [add_sub_cancel] at this
    linarith
  have hnew : v + (dt / 2) • (p + A x v) = v + dt • A x v + (dt / 2) • (p - A x v) := by
    have : dt • A x v = (dt / 2) • A x v + (dt / 2) • A x v := by rw [← add_smul]; ring_nf
    rw [smul_add, smul_sub, this]
    abel
  rw [hnew]
  have hpos : ‖x + dt • (v + dt • A x v + (dt / 2) • (p - A x v)) + (dt ^ 2 / 2) • A x v -
      X (t + dt)‖ ≤
      ex + dt * ev + 3 / 2 * dt ^ 2 * (B + L * (ex + ev)) + dt ^ 2 / 2 * δ + B * dt ^ 2 := by
    have e : x + dt • (v + dt • A x v + (dt / 2) • (p - A x v)) + (dt ^ 2 / 2) • A x v -
        X (t + dt) =
        (x - X t) + dt • (v - W t) + (3 / 2 * dt ^ 2) • A x v + (dt ^ 2 / 2) • (p - A x v) -
          (X (t + dt) - X t - dt • W t) := by
      have e1 : (3 / 2 * dt ^ 2) • A x v = dt • dt • A x v + (dt ^ 2 / 2) • A x v := by
        rw [smul_smul, ← add_smul]; ring_nf
      have e2 : (dt ^ 2 / 2) • (p - A x v) = dt • (dt / 2) • (p - A x v) := by
        rw [smul_smul]; ring_nf
      rw [e1, e2, smul_add, smul_add, smul_sub dt v]
      abel
    rw [e]
    refine (norm_sub_le _ _).trans (add_le_add ((norm_add_le _ _).trans (add_le_add
      ((norm_add_le _ _).trans (add_le_add ((norm_add_le _ _).trans (add_le_add hex.le ?_)) ?_))
        ?_)) h1)
    · rw [norm_smul, hev, norm_of_nonneg hd]
    · rw [norm_smul, norm_of_nonneg (by positivity)]
      exact mul_le_mul_of_nonneg_left hAx (by positivity)
    · rw [norm_smul, hδ, norm_of_nonneg (by positivity)]
  have hvel : ‖v + dt • A x v + (dt / 2) • (p - A x v) - W (t + dt)‖ ≤
      ev + dt * (L * (ex + ev)) + dt / 2 * δ + L * (V + B) * dt ^ 2 := by
    have e : v + dt • A x v + (dt / 2) • (p - A x v) - W (t + dt) =
        (v - W t) + dt • (A x v - A (X t) (W t)) + (dt / 2) • (p - A x v) -
          (W (t + dt) - W t - dt • A (X t) (W t)) := by
      rw [smul_sub dt]; abel
    rw [e]
    refine (norm_sub_le _ _).trans (add_le_add ((norm_add_le _ _).trans (add_le_add
      ((norm_add_le _ _).trans (add_le_add hev.le ?_)) ?_)) h2)
    · rw [norm_smul, norm_of_nonneg hd]
      exact mul_le_mul_of_nonneg_left h3 hd
    · rw [norm_smul, hδ, norm_of_nonneg (by positivity)]
  refine (add_le_add hpos hvel).trans ?_
  have hdd : dt ^ 2 ≤ dt * H := by rw [sq]; exact mul_le_mul_of_nonneg_left hH hd
  have hdd1 : dt ^ 2 ≤ dt := by
    rw [sq]; exact mul_le_of_le_one_right hd (hH.trans hH1)
  have k1 : dt ^ 2 * (5 / 2 * B + L * (V + B)) ≤ dt * H * (5 / 2 * B + L * (V + B)) :=
    mul_le_mul_of_nonneg_right hdd (by positivity)
  have k2 : dt ^ 2 * (L * (ex + ev)) ≤ dt * (L * (ex + ev)) :=
    mul_le_mul_of_nonneg_right hdd1 (by positivity)
  have k3 : 0 ≤ dt * ex := by positivity
  have k4 : dt ^ 2 * δ ≤ dt * δ := mul_le_mul_of_nonneg_right hdd1 hδ0
  nlinarith

/-- One step of the bound. -/
theorem bound_step {e0 C H K t dt E : ℝ} (hC : 0 ≤ C) (hH : 0 ≤ H) (hK : 0 ≤ K)
    (ht : 0 ≤ t) (hd : 0 ≤ dt) (hE : E ≤ (e0 + C * H * t) * exp (K * t)) (hE0 : 0 ≤ E) :
    E * (1 + dt * K) + dt * H * C ≤ (e0 + C * H * (t + dt)) * exp (K * (t + dt)) := by
  have h1 : 1 + dt * K ≤ exp (K * dt) := by
    have := add_one_le_exp (K * dt)
    linarith
  have h2 : E * (1 + dt * K) ≤ (e0 + C * H * t) * exp (K * t) * exp (K * dt) :=
    mul_le_mul hE h1 (by positivity) (hE0.trans hE)
  have h3 : exp (K * (t + dt)) = exp (K * t) * exp (K * dt) := by rw [← exp_add]; ring_nf
  have h4 : 1 ≤ exp (K * (t + dt)) := one_le_exp (by positivity)
  have h5 : dt * H * C ≤ C * H * dt * exp (K * (t + dt)) := by
    have : 0 ≤ C * H * dt := by positivity
    nlinarith
  rw [mul_add (C * H), ← add_assoc, add_mul _ (C * H * dt)]
  refine add_le_add (h2.trans (le_of_eq ?_)) h5
  rw [h3]
  ring

theorem deviation_nonneg (s : AgentArray n) (x v : Points n) : 0 ≤ deviation s x v :=
  add_nonneg (norm_nonneg _) (norm_nonneg _)

theorem euler_convergence {A : Points n → Points n → Points n} {L T B V dtMin dtMax : ℝ}
    {X W : ℝ → Points n} {S : ℕ → AgentArray n} {t : ℕ → ℝ} (h : Solves A T X W)
    (hA : LipschitzLaw A L) (hL : 0 ≤ L) (hB : ∀ t ∈ Set.Icc 0 T, ‖A (X t) (W t)‖ ≤ B) (hB0 : 0 ≤ B)
    (hV : ∀ t ∈ Set.Icc 0 T, ‖W t‖ ≤ V) (hV0 : 0 ≤ V) (h0 : 0 ≤ dtMin) (h1 : dtMin ≤ dtMax)
    (h2 : dtMax ≤ 1) (hm : Massive (S 0)) (hr : Run (eulerIntegrator · dtMin dtMax) A S t) :
    ∀ k, 0 ≤ t k ∧ Massive (S k) ∧ (t k ≤ T → deviation (S k) (X (t k)) (W (t k)) ≤
      (deviation (S 0) (X 0) (W 0) + (3 / 2 * B + L * (V + B)) * dtMax * t k) *
        exp ((1 + 3 / 2 * L) * t k)) := by
  intro k
  induction k with
  | zero =>
    refine ⟨hr.start.ge, hm, fun _ => ?_⟩
    rw [hr.start]
    simp
  | succ k ih =>
    obtain ⟨hk0, hkm, hk⟩ := ih
    obtain ⟨f, hf, hs⟩ := hr.step k
    obtain ⟨hp, hv, hm', hd⟩ := euler_step A dtMin dtMax _ f _ _ hkm hf hs
    obtain ⟨hd0, hd1⟩ := hd h1
    have hd0' := h0.trans hd0
    refine ⟨by linarith, hm', fun hT => ?_⟩
    have hE := euler_error h hA hL hB hB0 hV hV0 hk0 hd0' hd1 h2 (by linarith) _ _ hp hv
    rw [add_sub_cancel] at hE
    refine hE.trans ?_
    have := bound_step (C := 3 / 2 * B + L * (V + B)) (H := dtMax) (K := 1 + 3 / 2 * L)
      (e0 := deviation (S 0) (X 0) (W 0)) (t := t k) (dt := t (k + 1) - t k) (by positivity)
      (h0.trans h1) (by positivity) hk0 hd0' (hk (by linarith))
      (deviation_nonneg _ _ _)
    rwa [add_sub_cancel] at this

theorem verlet_convergence {A : Points n → Points n → Points n} {L T B V dtMin dtMax : ℝ}
    {X W : ℝ → Points n} {S : ℕ → AgentArray n} {t : ℕ → ℝ} (h : Solves A T X W)
    (hA : LipschitzLaw A L) (hL : 0 ≤ L) (hB : ∀ t ∈ Set.Icc 0 T, ‖A (X t) (W t)‖ ≤ B) (hB0 : 0 ≤ B)
    (hV : ∀ t ∈ Set.Icc 0 T, ‖W t‖ ≤ V) (hV0 : 0 ≤ V) (h0 : 0 ≤ dtMin) (h1 : dtMin ≤ dtMax)
    (h2 : dtMax ≤ 1) (hm : Massive (S 0)) (hr : Run (velocityVerletIntegrator · dtMin dtMax) A S t)
    (D : ℝ) (hD : ‖lastAcceleration (S 0) - A (positions (S 0)) (velocities (S 0))‖ ≤ D) :
    ∀ k, 0 ≤ t k ∧ Massive (S k) ∧ (t k ≤ T → deviation (S k) (X (t k)) (W (t k)) ≤
      (deviation (S 0) (X 0) (W 0) + D * dtMax + (5 / 2 * B + 2 * L * (V + B)) * dtMax * t k) *
        exp ((1 + 9 / 2 * L) * t k) ∧
      (k ≠ 0 → ‖lastAcceleration (S k) - A (positions (S k)) (velocities (S k))‖ ≤
        2 * L * ((deviation (S 0) (X 0) (W 0) + D * dtMax +
          (5 / 2 * B + 2 * L * (V + B)) * dtMax * t k) *
        exp ((1 + 9 / 2 * L) * t k)) + L * (V + B) * dtMax)) := by
  have hD0 : 0 ≤ D := (norm_nonneg _).trans hD
  have hH : 0 ≤ dtMax := h0.trans h1
  have hdev := deviation_nonneg (S 0) (X 0) (W 0)
  intro k
  induction k with
  | zero =>
    refine ⟨hr.start.ge, hm, fun _ => ⟨?_, fun h => absurd rfl h⟩⟩
    rw [hr.start]
    simp only [mul_zero, add_zero, exp_zero, mul_one]
    have : 0 ≤ D * dtMax := by positivity
    linarith
  | succ k ih =>
    obtain ⟨hk0, hkm, hk⟩ := ih
    obtain ⟨f, hf, hs⟩ := hr.step k
    obtain ⟨hv, hp, hl, hm', hd⟩ := verlet_step A dtMin dtMax _ f _ _ hkm hf hs
    obtain ⟨hd0, hd1⟩ := hd h1
    have hd0' := h0.trans hd0
    refine ⟨by linarith, hm', fun hT => ?_⟩
    obtain ⟨hk1, hk2⟩ := hk (by linarith)
    obtain ⟨e0, he0⟩ : ∃ e, deviation (S 0) (X 0) (W 0) = e := ⟨_, rfl⟩
    rw [he0] at hk1 hk2 hdev ⊢
    have hE := verlet_error h hA hL hB hB0 hV hV0 hk0 hd0' hd1 h2 (by linarith) _ _ hv hp
    have hstep := bound_step (C := 5 / 2 * B + 2 * L * (V + B)) (H := dtMax) (K := 1 + 9 / 2 * L)
      (e0 := e0 + D * dtMax) (t := t k) (dt := t (k + 1) - t k) (by positivity)
      hH (by positivity) hk0 hd0' (le_refl _) (by positivity)
    rw [add_sub_cancel] at hE hstep
    have main : deviation (S (k + 1)) (X (t (k + 1))) (W (t (k + 1))) ≤
        (e0 + D * dtMax + (5 / 2 * B + 2 * L * (V + B)) * dtMax * t (k + 1)) *
          exp ((1 + 9 / 2 * L) * t (k + 1)) := by
      by_cases hk00 : k = 0
      · subst hk00
        rw [hr.start] at hE hd0' hd1 hstep
        rw [sub_zero] at hE hd0' hd1 hstep
        rw [he0] at hE
        simp only [mul_zero, add_zero, exp_zero, mul_one] at hstep
        refine hE.trans (le_trans ?_ hstep)
        have k1 : t 1 * ‖lastAcceleration (S 0) - A (positions (S 0)) (velocities (S 0))‖ ≤
            dtMax * D := mul_le_mul hd1 hD (norm_nonneg _) hH
        have k2 : 0 ≤ t 1 * (D * dtMax) * (1 + 9 / 2 * L) := by positivity
        have k3 : 0 ≤ t 1 * e0 * L := by positivity
        have k4 : 0 ≤ t 1 * dtMax * (L * (V + B)) := by positivity
        simp only [zero_add] at *
        nlinarith
      · refine hE.trans (le_trans ?_ hstep)
        have hδ := hk2 hk00
        obtain ⟨E, hEE⟩ : ∃ E, (e0 + D * dtMax + (5 / 2 * B + 2 * L * (V + B)) * dtMax * t k) *
          exp ((1 + 9 / 2 * L) * t k) = E := ⟨_, rfl⟩
        rw [hEE] at hk1 hδ ⊢
        obtain ⟨dt, hdt⟩ : ∃ d, t (k + 1) - t k = d := ⟨_, rfl⟩
        rw [hdt] at hd0' ⊢
        have k1 := mul_le_mul_of_nonneg_left hδ hd0'
        have k2 : deviation (S k) (X (t k)) (W (t k)) * (1 + dt * (1 + 5 / 2 * L)) ≤
            E * (1 + dt * (1 + 5 / 2 * L)) := mul_le_mul_of_nonneg_right hk1 (by positivity)
        nlinarith
    refine ⟨main, fun _ => ?_⟩
    rw [hl]
    refine (hA _ _ _ _).trans ?_
    have c1 := solves_position_le h hV hk0 (by linarith : t k ≤ t (k + 1)) hT
    have c2 := solves_velocity_le h hB hk0 (by linarith : t k ≤ t (k + 1)) hT
    have c3 : ‖positions (S k) - positions (S (k + 1))‖ ≤
        ‖positions (S k) - X (t k)‖ + ‖X (t (k + 1)) - X (t k)‖ +
          ‖positions (S (k + 1)) - X (t (k + 1))‖ := by
      have e : positions (S k) - positions (S (k + 1)) = (positions (S k) - X (t k)) +
          (-(X (t (k + 1)) - X (t k))) + (-(positions (S (k + 1)) - X (t (k + 1)))) := by abel
      rw [e]
      refine (norm_add_le _ _).trans (add_le_add ((norm_add_le _ _).trans ?_) ?_)
      · rw [norm_neg]
      · rw [norm_neg]
    have c4 : ‖velocities (S k) - velocities (S (k + 1))‖ ≤
        ‖velocities (S k) - W (t k)‖ + ‖W (t (k + 1)) - W (t k)‖ +
          ‖velocities (S (k + 1)) - W (t (k + 1))‖ := by
      have e : velocities (S k) - velocities (S (k + 1)) = (velocities (S k) - W (t k)) +
          (-(W (t (k + 1)) - W (t k))) + (-(velocities (S (k + 1)) - W (t (k + 1)))) := by abel
      rw [e]
      refine (norm_add_le _ _).trans (add_le_add ((norm_add_le _ _).trans ?_) ?_)
      · rw [norm_neg]
      · rw [norm_neg]
    have c5 : deviation (S k) (X (t k)) (W (t k)) ≤
        (e0 + D * dtMax + (5 / 2 * B + 2 * L * (V + B)) * dtMax * t (k + 1)) *
          exp ((1 + 9 / 2 * L) * t (k + 1)) := by
      refine hk1.trans (mul_le_mul ?_ (exp_le_exp.2 (mul_le_mul_of_nonneg_left (by linarith)
        (by positivity))) (exp_pos _).le ?_)
      · have : (5 / 2 * B + 2 * L * (V + B)) * dtMax * t k ≤
            (5 / 2 * B + 2 * L * (V + B)) * dtMax * t (k + 1) :=
          mul_le_mul_of_nonneg_left (by linarith) (by positivity)
        linarith
      · have : 0 ≤ t (k + 1) := by linarith
        positivity
    obtain ⟨E, hEE⟩ : ∃ E, (e0 + D * dtMax + (5 / 2 * B + 2 * L * (V + B)) * dtMax * t (k + 1)) *
          exp ((1 + 9 / 2 * L) * t (k + 1)) = E := ⟨_, rfl⟩
    rw [hEE] at main c5 ⊢
    have hvb : (V + B) * (t (k + 1) - t k) ≤ (V + B) * dtMax :=
      mul_le_mul_of_nonneg_left hd1 (by positivity)
    have c6 : ‖positions (S k) - positions (S (k + 1))‖ + ‖velocities (S k) - velocities (S (k + 1))‖ ≤
        2 * E + (V + B) * dtMax := by
      unfold deviation at main c5
      nlinarith
    have := mul_le_mul_of_nonneg_left c6 hL
    calc L * (‖positions (S k) - positions (S (k + 1))‖ +
          ‖velocities (S k) - velocities (S (k + 1))‖) ≤ L * (2 * E + (V + B) * dtMax) := this
      _ = _ := by ring

theorem solves_bounds {A : Points n → Points n → Points n} {L T : ℝ} {X W : ℝ → Points n}
    (h : Solves A T X W) (hA : LipschitzLaw A L) (hL : 0 ≤ L) :
    ∃ B V, 0 ≤ B ∧ 0 ≤ V ∧ (∀ t ∈ Set.Icc 0 T, ‖A (X t) (W t)‖ ≤ B) ∧
      ∀ t ∈ Set.Icc 0 T, ‖W t‖ ≤ V := by
  obtain ⟨V, hV⟩ := isCompact_Icc.exists_bound_of_continuousOn
    (fun t ht => (h.velocity t ht).continuousWithinAt : ContinuousOn W (Set.Icc 0 T))
  obtain ⟨U, hU⟩ := isCompact_Icc.exists_bound_of_continuousOn
    (fun t ht => (h.position t ht).continuousWithinAt : ContinuousOn X (Set.Icc 0 T))
  refine ⟨‖A 0 0‖ + L * (|U| + |V|), |V|, by positivity, abs_nonneg _, fun t ht => ?_,
    fun t ht => (hV t ht).trans (le_abs_self V)⟩
  have h1 := hA (X t) (W t) 0 0
  rw [sub_zero, sub_zero] at h1
  have h2 := norm_add_le (A 0 0) (A (X t) (W t) - A 0 0)
  rw [add_sub_cancel] at h2
  have h3 := mul_le_mul_of_nonneg_left (add_le_add ((hU t ht).trans (le_abs_self U))
    ((hV t ht).trans (le_abs_self V))) hL
  linarith

theorem exp_bound {e K T t M : ℝ} (hK : 0 ≤ K) (he : 0 ≤ e) (ht : t ≤ T) (hT : 0 ≤ t)
    (hM : 0 ≤ M) : (e + M * t) * exp (K * t) ≤ (e + M * T) * exp (K * T) := by
  have h1 := mul_le_mul_of_nonneg_left ht hM
  have h2 := exp_le_exp.2 (mul_le_mul_of_nonneg_left ht hK)
  have h3 : 0 ≤ M * t := mul_nonneg hM hT
  exact mul_le_mul (by linarith) h2 (exp_pos _).le (by linarith)

end CrowdDynamics
