import Verif.Proofs.Motion
import Verif.Proofs.SortCases

/-! # Properties of adjusting, fluctuation and random clocks (C32, C33, C37) -/

namespace CrowdDynamics

open Real

variable {n : ℕ}

/-! ## C32: adjusting -/

/-- **C32** The adjusting force vanishes exactly at the desired velocity. -/
theorem C32_force_zero_iff (mass tau v0 : ℝ) (e0 v : Vec) (hm : 0 < mass) (ht : 0 < tau) :
    forceAdjust mass tau v0 e0 v = 0 ↔ v = (v0 * e0.1, v0 * e0.2) := by
  unfold forceAdjust
  rw [smul_eq_zero, sub_eq_zero]
  constructor
  · rintro (h | h)
    · exact absurd h (div_pos hm ht).ne'
    · rw [← h]; rfl
  · rintro rfl
    right
    rfl

example := C32_force_zero_iff 80 0.5 1.2 (1, 0) (0, 1) (by norm_num) (by norm_num)

/-- **C32** Under the adjusting force alone an explicit step of size `dt` scales the distance
to the desired velocity by `|1 - dt / tau|`; so the distance does not grow for
`0 ≤ dt ≤ tau`. -/
theorem C32_force_relaxes (mass tau v0 dt : ℝ) (e0 v a : Vec) (hm : 0 < mass) (ht : 0 < tau)
    (ha : Spec.IsAcceleration mass (forceAdjust mass tau v0 e0 v) a) :
    Spec.dist (Spec.ballisticVelocity v a dt) (v0 * e0.1, v0 * e0.2) =
      |1 - dt / tau| * Spec.dist v (v0 * e0.1, v0 * e0.2) ∧
    (0 ≤ dt → dt ≤ tau →
      Spec.dist (Spec.ballisticVelocity v a dt) (v0 * e0.1, v0 * e0.2) ≤
        Spec.dist v (v0 * e0.1, v0 * e0.2)) := by
  have h1 : a.1 = (v0 * e0.1 - v.1) / tau := by
    have := congrArg Prod.fst ha
    simp only [forceAdjust, Prod.smul_fst, Prod.fst_sub, smul_eq_mul] at this
    field_simp at this ⊢
    linarith
  have h2 : a.2 = (v0 * e0.2 - v.2) / tau := by
    have := congrArg Prod.snd ha
    simp only [forceAdjust, Prod.smul_snd, Prod.snd_sub, smul_eq_mul] at this
    field_simp at this ⊢
    linarith
  have e : Spec.ballisticVelocity v a dt - (v0 * e0.1, v0 * e0.2) =
      (1 - dt / tau) • (v - (v0 * e0.1, v0 * e0.2)) := by
    unfold Spec.ballisticVelocity
    rw [h1, h2]
    ext <;> simp <;> ring
  have key : Spec.dist (Spec.ballisticVelocity v a dt) (v0 * e0.1, v0 * e0.2) =
      |1 - dt / tau| * Spec.dist v (v0 * e0.1, v0 * e0.2) := by
    unfold Spec.dist
    rw [e]
    exact length_smul _ _
  refine ⟨key, fun h0 h1 => ?_⟩
  rw [key]
  have hle : |1 - dt / tau| ≤ 1 := by
    have a1 : 0 ≤ dt / tau := div_nonneg h0 ht.le
    have a2 : dt / tau ≤ 1 := (div_le_one ht).2 h1
    rw [abs_le]
    constructor <;> linarith
  exact mul_le_of_le_one_left (length_nonneg _) hle

/-- **C32** The adjusting torque aims at the angular velocity `omega0 * d / π`, where `d` is
the shortest turn from the orientation to the target orientation. -/
theorem C32_torque_short_way (inertia tau phi0 phi omega0 omega : ℝ) :
    ∃ d : ℝ, Spec.ShortestTurn phi phi0 d ∧ |d| ≤ π ∧
      torqueAdjust inertia tau phi0 phi omega0 omega =
        inertia / tau * (omega0 * (d / π) - omega) := by
  obtain ⟨h1, h2⟩ := wrapToPi_mem (phi0 - phi)
  obtain ⟨k, hk⟩ := wrapToPi_congr (phi0 - phi)
  have hpi := Real.pi_pos
  refine ⟨wrapToPi (phi0 - phi), ⟨⟨k, by rw [hk]; ring⟩, ?_⟩, abs_le.2 ⟨h1, h2⟩, ?_⟩
  · rintro e ⟨j, hj⟩
    by_cases hjk : j = k
    · subst hjk
      rw [hk, show e = phi0 - phi + j * (2 * π) by linarith]
    · have he : e = wrapToPi (phi0 - phi) + ((j - k : ℤ) : ℝ) * (2 * π) := by
        rw [hk]; push_cast; linarith
      refine (abs_le.2 ⟨h1, h2⟩).trans ?_
      rcases lt_or_gt_of_ne hjk with h | h
      · have : ((j - k : ℤ) : ℝ) ≤ -1 := by exact_mod_cast (by omega : j - k ≤ -1)
        rw [he, abs_of_nonpos (by nlinarith)]
        nlinarith
      · have : (1 : ℝ) ≤ ((j - k : ℤ) : ℝ) := by exact_mod_cast (by omega : 1 ≤ j - k)
        rw [he, abs_of_nonneg (by nlinarith)]
        nlinarith
  · unfold torqueAdjust
    ring

/-- **C32** Without spin the torque vanishes exactly at the target orientation (up to whole
turns); at the target orientation it vanishes exactly without spin. -/
theorem C32_torque_zero_iff (inertia tau phi0 phi omega0 omega : ℝ) (hi : 0 < inertia)
    (ht : 0 < tau) (h0 : 0 < omega0) :
    (torqueAdjust inertia tau phi0 phi omega0 0 = 0 ↔ ∃ k : ℤ, phi0 = phi + k * (2 * π)) ∧
    ((∃ k : ℤ, phi0 = phi + k * (2 * π)) →
      (torqueAdjust inertia tau phi0 phi omega0 omega = 0 ↔ omega = 0)) := by
  have hp := div_pos hi ht
  have hpi := Real.pi_pos
  have hk : (∃ k : ℤ, phi0 = phi + k * (2 * π)) ↔ wrapToPi (phi0 - phi) = 0 := by
    rw [wrapToPi_eq_zero_iff]
    constructor
    · rintro ⟨k, h⟩; exact ⟨k, by linarith⟩
    · rintro ⟨k, h⟩; exact ⟨k, by linarith⟩
  constructor
  · rw [hk]
    unfold torqueAdjust
    constructor
    · intro h
      have h1 := (mul_eq_zero.1 h).resolve_left hp.ne'
      rw [sub_zero] at h1
      have h2 := (mul_eq_zero.1 h1).resolve_right h0.ne'
      exact (div_eq_zero_iff.1 h2).resolve_right hpi.ne'
    · intro h
      rw [h]
      simp
  · rw [hk]
    intro hw
    unfold torqueAdjust
    rw [hw, zero_div, zero_mul, zero_sub, mul_neg, neg_eq_zero, mul_eq_zero]
    constructor
    · rintro (h | h)
      · exact absurd h hp.ne'
      · exact h
    · exact Or.inr

example := C32_torque_zero_iff 4 0.2 0 1 (4 * π) 1 (by norm_num) (by norm_num) (by positivity)

/-- **C32** Mirroring the situation mirrors the torque. -/
theorem C32_torque_mirror (inertia tau phi0 phi omega0 omega : ℝ) :
    torqueAdjust inertia tau (-phi0) (-phi) omega0 (-omega) =
      -torqueAdjust inertia tau phi0 phi omega0 omega := by
  unfold torqueAdjust
  rw [show -phi0 - -phi = -(phi0 - phi) by ring, wrapToPi_neg]
  ring

/-- **C32** The torque is bounded. -/
theorem C32_torque_bounded (inertia tau phi0 phi omega0 omega : ℝ) (hi : 0 ≤ inertia)
    (ht : 0 < tau) (h0 : 0 ≤ omega0) :
    |torqueAdjust inertia tau phi0 phi omega0 omega| ≤ inertia / tau * (omega0 + |omega|) := by
  obtain ⟨d, -, hd, he⟩ := C32_torque_short_way inertia tau phi0 phi omega0 omega
  rw [he, abs_mul, abs_of_nonneg (div_nonneg hi ht.le)]
  apply mul_le_mul_of_nonneg_left _ (div_nonneg hi ht.le)
  refine (abs_sub _ _).trans ?_
  rw [abs_mul, abs_of_nonneg h0, abs_div, abs_of_pos Real.pi_pos]
  have : |d| / π ≤ 1 := (div_le_one Real.pi_pos).2 hd
  have := mul_le_of_le_one_right h0 this
  linarith

example := C32_torque_bounded 4 0.2 0 1 (4 * π) 1 (by norm_num) (by norm_num) (by positivity)

/-- **C32** The node `Adjusting` adds to each agent the adjusting force of that agent, to
three-circle agents also the adjusting torque, and changes nothing else. -/
theorem C32_adjusting_rows (A : AgentArray n) (k : Fin n) :
    (adjusting A).dtype = A.dtype ∧
    (adjusting A).rows k = { A.rows k with
      force := (A.rows k).force + forceAdjust (A.rows k).mass (A.rows k).tauAdj
        (A.rows k).targetVelocity (A.rows k).targetDirection (A.rows k).velocity
      torque := if A.dtype.kind = .threeCircle then
          (A.rows k).torque + torqueAdjust (A.rows k).inertiaRot (A.rows k).tauRot
            (A.rows k).targetOrientation (A.rows k).orientation
            (A.rows k).targetAngularVelocity (A.rows k).angularVelocity
        else (A.rows k).torque } := by
  unfold adjusting isModel
  by_cases h : A.dtype.kind = .threeCircle
  · simp [h, forceAdjustAgents, torqueAdjustAgents]
  · simp [h, forceAdjustAgents]

example : (0 : ℝ) < 80 ∧ (0 : ℝ) < 0.5 := by norm_num
example : Spec.IsAcceleration 80 (forceAdjust 80 0.5 1 (1, 0) (0, 0)) (2, 0) := by
  unfold Spec.IsAcceleration forceAdjust
  ext <;> norm_num
example : ∃ k : ℤ, (2 * π : ℝ) = 0 + k * (2 * π) := ⟨1, by push_cast; ring⟩

/-! ## C33: fluctuation -/

/-- **C33** Values of `truncnorm` lie between `loc + start * scale` and `loc + end * scale`;
with `abs_scale` and bounds `±b` they lie within `abs_scale` of `loc`. -/
theorem C33_truncnorm_range (start end_ loc scale : ℝ) (z : ℝ → ℝ → ℝ)
    (hz : start ≤ z start end_ ∧ z start end_ ≤ end_) (hs : 0 ≤ scale) :
    (loc + start * scale ≤ truncnorm start end_ loc scale none z ∧
      truncnorm start end_ loc scale none z ≤ loc + end_ * scale) ∧
    (∀ s : ℝ, 0 < s → 0 < max |start| |end_| →
      |truncnorm start end_ loc scale (some s) z - loc| ≤ s) := by
  refine ⟨⟨?_, ?_⟩, ?_⟩
  · unfold truncnorm; nlinarith [hz.1]
  · unfold truncnorm; nlinarith [hz.2]
  · intro s h0 hm
    unfold truncnorm
    simp only [h0.ne', if_false, add_sub_cancel_left]
    have hzabs : |z start end_| ≤ max |start| |end_| := by
      rw [abs_le]
      constructor
      · have := neg_abs_le start
        have := le_max_left |start| |end_|
        linarith [hz.1]
      · have := le_abs_self end_
        have := le_max_right |start| |end_|
        linarith [hz.2]
    rw [abs_mul, abs_div, abs_of_pos h0, abs_of_pos hm, div_mul_eq_mul_div, div_le_iff₀ hm]
    exact mul_le_mul_of_nonneg_left hzabs h0.le

example := C33_truncnorm_range (-3) 3 0.27 0.1 (fun a b => (a + b) / 2) (by norm_num) (by norm_num)

/-- **C33** `random_vector` makes one vector for each drawn angle: its length is the absolute value
of the magnitude and its component along the direction of the angle is the magnitude. -/
theorem C33_random_vector (orientation : List ℝ) (mag : ℝ) :
    List.Forall₂ (fun o v => Spec.len v = |mag| ∧
      v.1 * Real.cos o + v.2 * Real.sin o = mag) orientation (randomVector orientation mag) := by
  unfold randomVector
  rw [List.forall₂_map_right_iff, List.forall₂_same]
  intro o _
  have h := Real.sin_sq_add_cos_sq o
  refine ⟨?_, ?_⟩
  · rw [Spec.len, ← Real.sqrt_sq_eq_abs]
    congr 1
    simp only [Prod.smul_mk, smul_eq_mul]
    linear_combination mag ^ 2 * h
  · simp only [Prod.smul_mk, smul_eq_mul]
    linear_combination mag * h

example : (randomVector [0, 1, 2] 3).length = 3 :=
  (C33_random_vector [0, 1, 2] 3).length_eq.symm

/-- **C33** The fluctuation force of the node on agent `k` is at most
`3 * mass * std_rand_force`, the torque at most `3 * inertia * std_rand_torque`; the torque of
circular agents and everything else is not changed. -/
theorem C33_fluctuation_bounded (phi : Fin n → ℝ) (z w : Fin n → ℝ → ℝ → ℝ)
    (A : AgentArray n) (k : Fin n)
    (hzr : ∀ a b, a ≤ b → a ≤ z k a b ∧ z k a b ≤ b)
    (hwr : ∀ a b, a ≤ b → a ≤ w k a b ∧ w k a b ≤ b)
    (hm : 0 ≤ (A.rows k).mass) (hs : 0 ≤ (A.rows k).stdRandForce)
    (hi : 0 ≤ (A.rows k).inertiaRot) (ht : 0 ≤ (A.rows k).stdRandTorque) :
    Spec.dist ((fluctuation phi z w A).rows k).force (A.rows k).force ≤
      3 * (A.rows k).mass * (A.rows k).stdRandForce ∧
    |((fluctuation phi z w A).rows k).torque - (A.rows k).torque| ≤
      3 * (A.rows k).inertiaRot * (A.rows k).stdRandTorque ∧
    (A.dtype.kind = .circular → ((fluctuation phi z w A).rows k).torque = (A.rows k).torque) ∧
    (fluctuation phi z w A).dtype = A.dtype ∧
    { (fluctuation phi z w A).rows k with
      force := (A.rows k).force, torque := (A.rows k).torque } = A.rows k := by
  have hf : ((fluctuation phi z w A).rows k).force = (A.rows k).force +
      forceFluctuation (A.rows k).mass (A.rows k).stdRandForce (phi k) (z k) := by
    unfold fluctuation
    simp only
    split_ifs <;> rfl
  have hz := hzr 0 3 (by norm_num)
  have hw := hwr (-3) 3 (by norm_num)
  have hlen : Spec.len ((cos (phi k), sin (phi k)) : Vec) = 1 := by
    unfold Spec.len
    simp only
    rw [add_comm, sin_sq_add_cos_sq, sqrt_one]
  refine ⟨?_, ?_, ?_, ?_, ?_⟩
  · rw [hf]
    unfold Spec.dist forceFluctuation truncnorm
    rw [add_sub_cancel_left]
    have hl : Spec.len (((A.rows k).mass * (0 + (A.rows k).stdRandForce * z k 0 3)) •
        ((cos (phi k), sin (phi k)) : Vec)) =
        |(A.rows k).mass * (0 + (A.rows k).stdRandForce * z k 0 3)| *
          Spec.len ((cos (phi k), sin (phi k)) : Vec) := length_smul _ _
    simp only
    rw [hl, hlen, mul_one, zero_add, abs_of_nonneg (mul_nonneg hm (mul_nonneg hs hz.1))]
    nlinarith [mul_nonneg hm hs, hz.2]
  · unfold fluctuation
    simp only
    split_ifs
    · simp only [add_sub_cancel_left]
      unfold torqueFluctuation truncnorm
      simp only
      rw [zero_add, abs_mul, abs_mul, abs_of_nonneg hi, abs_of_nonneg ht]
      have : |w k (-3) 3| ≤ 3 := abs_le.2 hw
      nlinarith [mul_nonneg hi ht]
    · simp only [sub_self, abs_zero]
      positivity
  · intro hc
    unfold fluctuation isModel
    simp [hc]
  · unfold fluctuation
    simp only
    split_ifs <;> rfl
  · unfold fluctuation
    simp only
    split_ifs <;> rfl

example : ∃ (A : AgentArray 1), (A.rows 0).mass = 80 ∧ (A.rows 0).stdRandForce = 0.1 ∧
    A.dtype.kind = .threeCircle :=
  ⟨⟨.const .threeCircle, fun _ => { Agent.default with mass := 80 }⟩, rfl, rfl, rfl⟩
example : ∀ a b : ℝ, a ≤ b → a ≤ (fun a b => (a + b) / 2 : ℝ → ℝ → ℝ) a b ∧
    (fun a b => (a + b) / 2 : ℝ → ℝ → ℝ) a b ≤ b := by
  intro a b h
  constructor <;> simp only <;> linarith

/-! ## C37: random clocks -/

/-- **C37** If all intervals are nonnegative, `poisson_clock` yields exactly the partial sums
that are smaller than `dt`, in order. -/
theorem C37_clock_ticks (draws : ℕ → ℝ) (dt : ℝ) (h : ∀ k, 0 ≤ draws k) (start fuel : ℕ)
    (ts : List ℝ) (pos : ℕ) (hr : poissonClock draws dt fuel start = some (ts, pos)) :
    (∃ m, ts = (List.range m).map (Spec.tick draws start) ∧ pos = start + m + 1 ∧
      Spec.TicksBefore draws dt start m) ∧
    ts.Pairwise (· ≤ ·) ∧ (∀ t ∈ ts, t < dt) := by
  obtain ⟨m, h1, h2, h3⟩ := poissonClock_spec draws dt h start fuel ts pos hr
  refine ⟨⟨m, h1, h2, h3⟩, ?_, ?_⟩
  · rw [h1, List.pairwise_map]
    exact List.pairwise_lt_range.imp fun hab => tick_mono draws h start hab.le
  · intro t ht
    rw [h1] at ht
    obtain ⟨k, hk, rfl⟩ := List.mem_map.1 ht
    exact (h3 k).2 (List.mem_range.1 hk)

example := C37_clock_ticks (fun _ => 1) (5 / 2) (fun _ => zero_le_one) 0 5 [1, 2] 3
  (by norm_num [poissonClock, poissonClockLoop])

/-- **C37** The clock stops as soon as some partial sum reaches `dt`. -/
theorem C37_clock_terminates (draws : ℕ → ℝ) (dt : ℝ) (start N fuel : ℕ)
    (hN : dt ≤ Spec.tick draws start N) (hf : N < fuel) :
    (poissonClock draws dt fuel start).isSome :=
  poissonClock_terminates draws dt start N fuel hN hf

example := C37_clock_terminates (fun _ => 1) (5 / 2) 4 2 5 (by norm_num [Spec.tick]) (by norm_num)

/-- **C37** `poisson_timings` yields every player once for each tick of its clock, in
nondecreasing order of tick times; it also leaves `players` permuted. -/
theorem C37_timings_sorted (shuffle : List ℤ → List ℤ) (argsort : List ℝ → List ℕ)
    (draws : ℕ → ℝ) (dt : ℝ) (fuel start : ℕ) (players ys players' : List ℤ)
    (hshuffle : ∀ l, (shuffle l).Perm l) (hsort : Spec.IsArgsort argsort)
    (h : ∀ k, 0 ≤ draws k)
    (hr : poissonTimings shuffle argsort draws dt fuel start players = some (ys, players')) :
    players'.Perm players ∧
    ∃ events sorted : List (ℝ × ℤ), Spec.AllTicks draws dt players' start events ∧
      sorted.Perm events ∧ sorted.Pairwise (fun a b => a.1 ≤ b.1) ∧ ys = sorted.map Prod.snd := by
  unfold poissonTimings at hr
  simp only at hr
  cases hc : poissonCollect draws dt fuel (shuffle players) start with
  | none => rw [hc] at hr; simp at hr
  | some r =>
    rw [hc] at hr
    simp only [Option.some.injEq, Prod.mk.injEq] at hr
    obtain ⟨rfl, rfl⟩ := hr
    refine ⟨hshuffle players, r.1, (argsort (r.1.map Prod.fst)).map (fun j => r.1.getD j (0, 0)),
      poissonCollect_spec draws dt h fuel _ start r.1 r.2 (by rw [hc]), ?_, ?_, ?_⟩
    · refine map_getD_perm r.1 (0, 0) _ ?_
      have := (hsort (r.1.map Prod.fst)).1
      rwa [List.length_map] at this
    · have hs := (hsort (r.1.map Prod.fst)).2
      rw [List.pairwise_map] at hs ⊢
      refine hs.imp_of_mem fun {a b} ha hb hab => ?_
      have e : ∀ j, (r.1.map Prod.fst).getD j 0 = (r.1.getD j (0, 0)).1 := by
        intro j
        rw [List.getD_eq_getElem?_getD, List.getD_eq_getElem?_getD, List.getElem?_map]
        cases r.1[j]? <;> rfl
      rw [e, e] at hab
      exact hab
    · rw [List.map_map]
      apply List.map_congr_left
      intro j _
      simp only [Function.comp]
      rw [List.getD_eq_getElem?_getD, List.getD_eq_getElem?_getD, List.getElem?_map]
      cases r.1[j]? <;> rfl

example := fun ys players' => C37_timings_sorted List.reverse orderOf (fun _ => 1) (5 / 2) 5 0 [4, 7]
  ys players' List.reverse_perm orderOf_sorts (fun _ => zero_le_one)

/-- **C37** `poisson_timings` terminates if every tail of the intervals adds up to at least
`dt`. -/
theorem C37_timings_terminate (shuffle : List ℤ → List ℤ) (argsort : List ℝ → List ℕ)
    (draws : ℕ → ℝ) (dt : ℝ) (start : ℕ) (players : List ℤ)
    (hd : ∀ start, ∃ N, dt ≤ Spec.tick draws start N) :
    ∃ F, ∀ fuel, F ≤ fuel →
      (poissonTimings shuffle argsort draws dt fuel start players).isSome := by
  obtain ⟨F, hF⟩ := poissonCollect_mono draws dt (shuffle players) hd start
  refine ⟨F, fun fuel hf => ?_⟩
  obtain ⟨r, hr⟩ := hF fuel hf
  unfold poissonTimings
  simp only
  rw [hr]
  rfl

example := C37_timings_terminate List.reverse orderOf (fun _ => 1) (5 / 2) 0 [4, 7]
  (fun _ => ⟨2, by norm_num [Spec.tick]⟩)

/-- Intervals of length 1 and `dt = 5/2`: two ticks. -/
example : poissonClock (fun _ => 1) (5 / 2) 5 0 = some ([1, 2], 3) := by
  norm_num [poissonClock, poissonClockLoop]

/-- The contract of `argsort` can be met. -/
example : ∃ argsort : List ℝ → List ℕ, Spec.IsArgsort argsort := by
  refine ⟨fun l => (List.range l.length).insertionSort fun i j => l.getD i 0 ≤ l.getD j 0, ?_⟩
  intro l
  refine ⟨List.perm_insertionSort _ _, ?_⟩
  rw [List.pairwise_map]
  have : Std.Total fun i j => l.getD i 0 ≤ l.getD j 0 := ⟨fun i j => le_total _ _⟩
  have : IsTrans ℕ fun i j => l.getD i 0 ≤ l.getD j 0 := ⟨fun i j k h1 h2 => le_trans h1 h2⟩
  exact List.pairwise_insertionSort (fun i j => l.getD i 0 ≤ l.getD j 0) _

example : ∀ start, ∃ N, (5 / 2 : ℝ) ≤ Spec.tick (fun _ => 1) start N := by
  intro start
  exact ⟨2, by norm_num [Spec.tick]⟩

end CrowdDynamics
