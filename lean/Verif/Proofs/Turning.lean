import Mathlib.Analysis.Real.Pi.Bounds
import Mathlib.Tactic.Linarith
import Mathlib.Tactic.Positivity
import Mathlib.Tactic.NormNum
import Mathlib.Tactic.Ring

/-!
# Turning with the velocity Verlet method: a Lyapunov function
-/

namespace CrowdDynamics

theorem cross_le {K k x y p q : ℝ} (hK : |K| ≤ k) (hp : 0 < p) (hpq : 1 ≤ 4 * p * q) :
    K * (x * y) ≤ k * (p * x ^ 2 + q * y ^ 2) := by
  have h1 : K * (x * y) ≤ |K| * |x * y| := by
    rw [← abs_mul]
    exact le_abs_self _
  have h2 : |K| * |x * y| ≤ k * |x * y| := mul_le_mul_of_nonneg_right hK (abs_nonneg _)
  have h3 : |x * y| ≤ p * x ^ 2 + q * y ^ 2 := by
    rw [abs_mul]
    have hq : 1 / (4 * p) ≤ q := by
      rw [div_le_iff₀ (by linarith)]
      linarith
    have hy := mul_le_mul_of_nonneg_right hq (sq_nonneg y)
    have e : p * x ^ 2 + 1 / (4 * p) * y ^ 2 - |x| * |y| = p * (|x| - |y| / (2 * p)) ^ 2 := by
      rw [← sq_abs x, ← sq_abs y]
      field_simp
      ring
    have : 0 ≤ p * (|x| - |y| / (2 * p)) ^ 2 := by positivity
    linarith
  exact h1.trans (h2.trans (mul_le_mul_of_nonneg_left h3 ((abs_nonneg K).trans hK)))

/-- The energy of a turn. -/
noncomputable def turnEnergy (s b d u r : ℝ) : ℝ := u ^ 2 + s * d ^ 2 - (b - s) * (u * d) + r ^ 2 / 4

/-- The energy decreases. -/
theorem turn_energy {a s b : ℝ} (ha : a ≤ 1 / 8) (hs : 0 < s) (hb : 2 * s ≤ b) (hba : 2 * b ≤ a)
    (hsa : 8 * s ≤ a) (hab : 2 * (a * b) ≤ s) (d u r r' : ℝ)
    (hr : r' = s * d - a * u + a / 2 * r) :
    turnEnergy s b (d - (u + r')) (u + r') r' ≤ (1 - b / 2) * turnEnergy s b d u r := by
  have hb0 : 0 < b := by linarith
  have ha0 : 0 < a := by linarith
  obtain ⟨K, hK⟩ : ∃ K, 2 * b * s * (1 - a) + (b - s) * a - a * s / 2 - b / 2 * (b - s) = K := ⟨_, rfl⟩
  obtain ⟨L, hL⟩ : ∃ L, b * a * (1 - a) + a - a ^ 2 - a ^ 2 / 4 = L := ⟨_, rfl⟩
  obtain ⟨M, hM⟩ : ∃ M, b * a * s - (b - s) * a / 2 + a * s / 4 = M := ⟨_, rfl⟩
  have split : turnEnergy s b (d - (u + r')) (u + r') r' - (1 - b / 2) * turnEnergy s b d u r =
      (-2 * a + b * (1 - a) ^ 2 + 5 / 4 * a ^ 2 + b / 2) * u ^ 2 +
      (b * s ^ 2 - b * s / 2 + s ^ 2 / 4) * d ^ 2 +
      (b * a ^ 2 / 4 + a ^ 2 * (5 / 16) - 1 / 4 + b / 8) * r ^ 2 +
      K * (u * d) + L * (u * r) + M * (d * r) := by
    rw [← hK, ← hL, ← hM, hr]
    unfold turnEnergy
    ring
  have pab : 0 < a * b := by positivity
  have pas : 0 < a * s := by positivity
  have pbs : 0 < b * s := by positivity
  have h1 := mul_le_mul_of_nonneg_left hsa hb0.le
  have h2 := mul_le_mul_of_nonneg_left hb ha0.le
  have h3 := mul_le_mul_of_nonneg_left hba hb0.le
  have h4 := mul_le_mul_of_nonneg_left ha pbs.le
  have h5 := mul_le_mul_of_nonneg_right hba hs.le
  have h6 := mul_le_mul_of_nonneg_left ha pab.le
  have h7 := mul_le_mul_of_nonneg_left ha ha0.le
  have h8 : a * b ≤ a * (1 / 16) := mul_le_mul_of_nonneg_left (by linarith) ha0.le
  have h9 : 0 < b * s * a := by positivity
  have h10 : 0 < a * b * a := by positivity
  have h11 : 0 < b * b := by positivity
  have h12 : 0 < a * a := by positivity
  have kK : |K| ≤ a * b := by
    rw [← hK, abs_le]
    constructor <;> linarith
  have kL : |L| ≤ 17 / 16 * a := by
    rw [← hL, abs_le]
    constructor <;> linarith
  have kM : |M| ≤ a * b / 2 := by
    rw [← hM, abs_le]
    constructor <;> linarith
  have c1 := cross_le (x := u) (y := d) (p := 3 / 4 / b) (q := b / 3) kK (by positivity) (by
    rw [show 4 * (3 / 4 / b) * (b / 3) = 1 by field_simp])
  have c2 := cross_le (x := u) (y := r) (p := 1 / 5) (q := 5 / 4) kL (by norm_num) (by norm_num)
  have c3 := cross_le (x := d) (y := r) (p := b / 2) (q := 1 / 2 / b) kM (by positivity) (by
    rw [show 4 * (b / 2) * (1 / 2 / b) = 1 by field_simp; norm_num])
  have e1 : a * b * (3 / 4 / b * u ^ 2 + b / 3 * d ^ 2) =
      3 / 4 * a * u ^ 2 + a * b * b / 3 * d ^ 2 := by field_simp
  have e3 : a * b / 2 * (b / 2 * d ^ 2 + 1 / 2 / b * r ^ 2) =
      a * b * b / 4 * d ^ 2 + a / 4 * r ^ 2 := by
    field_simp
    ring
  rw [e1] at c1
  rw [e3] at c3
  have u2 := sq_nonneg u
  have d2 := sq_nonneg d
  have r2 := sq_nonneg r
  have abb := mul_le_mul_of_nonneg_right hab hb0.le
  have sb := mul_le_mul_of_nonneg_right hb hs.le
  have q1 : (-2 * a + b * (1 - a) ^ 2 + 5 / 4 * a ^ 2 + b / 2) + 3 / 4 * a + 17 / 80 * a ≤ 0 := by
    linarith
  have q2 : (b * s ^ 2 - b * s / 2 + s ^ 2 / 4) + a * b * b / 3 + a * b * b / 4 ≤ 0 := by
    have : b * s * s ≤ b * s * (1 / 64) := mul_le_mul_of_nonneg_left (by linarith) pbs.le
    linarith
  have q3 : (b * a ^ 2 / 4 + a ^ 2 * (5 / 16) - 1 / 4 + b / 8) + 85 / 64 * a + a / 4 ≤ 0 := by
    linarith
  have m1 := mul_nonpos_of_nonpos_of_nonneg q1 u2
  have m2 := mul_nonpos_of_nonpos_of_nonneg q2 d2
  have m3 := mul_nonpos_of_nonpos_of_nonneg q3 r2
  linarith

/-- The energy bounds the deviation. -/
theorem turnEnergy_lower {s b t d u r : ℝ} (hs : 0 ≤ s) (hb : 2 * s ≤ b)
    (hbb : b ^ 2 ≤ 4 * t * s) : (1 - t) * (s * d ^ 2) ≤ turnEnergy s b d u r := by
  have e : turnEnergy s b d u r =
      (u - (b - s) * d / 2) ^ 2 + (s - (b - s) ^ 2 / 4) * d ^ 2 + r ^ 2 / 4 := by
    unfold turnEnergy
    ring
  have h1 : (b - s) ^ 2 ≤ b ^ 2 := by nlinarith
  have h2 : ((1 - t) * s) * d ^ 2 ≤ (s - (b - s) ^ 2 / 4) * d ^ 2 :=
    mul_le_mul_of_nonneg_right (by linarith) (sq_nonneg d)
  have h3 := sq_nonneg (u - (b - s) * d / 2)
  have h4 := sq_nonneg r
  rw [e]
  linarith

/-- A turn without disturbance: `d` is what is left, `u` the turn of a step, `r` its last change. -/
structure TurnSeq (a k : ℝ) (N : ℕ) (d u r : ℕ → ℝ) : Prop where
  range : ∀ j ≤ N, |d j| ≤ Real.pi
  speed : u 0 = 0
  rest : r 0 = 0
  force : ∀ j < N, r (j + 1) = a * k * d j - a * u j + a / 2 * r j
  turn : ∀ j < N, u (j + 1) = u j + r (j + 1)
  left : ∀ j < N, ∃ n : ℤ, d (j + 1) = d j - u (j + 1) + n * (2 * Real.pi)

/-- What is left of a turn is determined up to full turns, hence determined if it is small. -/
theorem unwrap {x y : ℝ} {n : ℤ} (h : y = x + n * (2 * Real.pi)) (hy : |y| ≤ Real.pi)
    (hx : |x| < Real.pi) : y = x := by
  have hpi := Real.pi_pos
  have n0 : n = 0 := by
    rw [abs_lt] at hx
    rw [abs_le, h] at hy
    have l1 : (n : ℝ) * (2 * Real.pi) < 1 * (2 * Real.pi) := by linarith
    have l2 : -1 * (2 * Real.pi) < (n : ℝ) * (2 * Real.pi) := by linarith
    have m1 := lt_of_mul_lt_mul_right l1 (by positivity)
    have m2 := lt_of_mul_lt_mul_right l2 (by positivity)
    have m1' : n < 1 := by exact_mod_cast m1
    have m2' : -1 < n := by exact_mod_cast m2
    omega
  rw [h, n0]
  simp

/-- One step of the beginning of a turn. -/
theorem turn_begin {a k d0 d u r u' r' : ℝ} (ha0 : 0 < a) (ha : a ≤ 1 / 8) (hk0 : 0 < k)
    (hd : 0 ≤ d) (hd0 : d ≤ d0) (h1 : 0 ≤ u) (h2 : -u ≤ r)
    (h3 : 3 * r ≤ 4 * (a * (k * d0 - u + r / 2))) (h4 : 0 ≤ k * d0 - u + r / 2)
    (hr : r' = a * k * d - a * u + a / 2 * r) (hu : u' = u + r') :
    a * (k * d) ≤ u' ∧ -u' ≤ r' ∧ 3 * r' ≤ 4 * (a * (k * d0 - u' + r' / 2)) ∧
      0 ≤ k * d0 - u' + r' / 2 ∧ u' ≤ k * d0 := by
  obtain ⟨x, hx⟩ : ∃ x, k * d0 - u + r / 2 = x := ⟨_, rfl⟩
  rw [hx] at h3 h4
  have p1 : 0 ≤ k * d := by positivity
  have p2 : k * d ≤ k * d0 := mul_le_mul_of_nonneg_left hd0 hk0.le
  have p3 : 0 ≤ a * (k * d) := by positivity
  have p4 : 0 ≤ a * x := by positivity
  have p5 : a * x ≤ 1 / 8 * x := mul_le_mul_of_nonneg_right ha h4
  have p6 : a * u ≤ 1 / 8 * u := mul_le_mul_of_nonneg_right ha h1
  have p7 : a * -u ≤ a * r := mul_le_mul_of_nonneg_left h2 ha0.le
  have p8 : 0 ≤ a * u := by positivity
  have q1 : r' ≤ a * x := by
    have := mul_le_mul_of_nonneg_left p2 ha0.le
    rw [hr, ← hx]
    linarith
  have q2 : 3 / 4 * x ≤ k * d0 - u' + r' / 2 := by rw [hu]; linarith
  have q3 : a * (3 / 4 * x) ≤ a * (k * d0 - u' + r' / 2) := mul_le_mul_of_nonneg_left q2 ha0.le
  refine ⟨by rw [hu, hr]; linarith, by rw [hu, hr]; linarith, by linarith, by linarith, ?_⟩
  linarith

/-- At the beginning what is left decreases, without reaching 0. -/
theorem turnSeq_begin {a k : ℝ} {N : ℕ} {d u r : ℕ → ℝ} (H : TurnSeq a k N d u r) (ha0 : 0 < a)
    (ha : a ≤ 1 / 8) (hk0 : 0 < k) (hd : 0 < d 0) : ∀ j < N, (j + 1) * k ≤ 1 →
    d (j + 1) = d j - u (j + 1) := by
  have hpi := Real.pi_pos
  have hle := (abs_le.1 (H.range 0 (Nat.zero_le _))).2
  have step : ∀ j < N, (j + 1) * k ≤ 1 → (d 0 * (1 - j * k) ≤ d j ∧ d j ≤ d 0 ∧ 0 ≤ u j ∧
      -u j ≤ r j ∧ 3 * r j ≤ 4 * (a * (k * d 0 - u j + r j / 2)) ∧ 0 ≤ k * d 0 - u j + r j / 2) →
      d (j + 1) = d j - u (j + 1) ∧ (d 0 * (1 - (j + 1) * k) ≤ d (j + 1) ∧ d (j + 1) ≤ d 0 ∧
        0 ≤ u (j + 1) ∧ -u (j + 1) ≤ r (j + 1) ∧
        3 * r (j + 1) ≤ 4 * (a * (k * d 0 - u (j + 1) + r (j + 1) / 2)) ∧
        0 ≤ k * d 0 - u (j + 1) + r (j + 1) / 2) := by
    rintro j hj hjk ⟨i1, i2, i3, i4, i5, i6⟩
    have hpos : 0 < d j := lt_of_lt_of_le (mul_pos hd (by linarith)) i1
    obtain ⟨o1, o2, o3, o4, o5⟩ := turn_begin ha0 ha hk0 hpos.le i2 i3 i4 i5 i6 (H.force j hj)
      (H.turn j hj)
    have hu : 0 < u (j + 1) := lt_of_lt_of_le (by positivity) o1
    have low : d 0 * (1 - (j + 1) * k) ≤ d j - u (j + 1) := by linarith
    have low0 : 0 ≤ d 0 * (1 - (j + 1) * k) := mul_nonneg hd.le (by linarith)
    obtain ⟨n, hn⟩ := H.left j hj
    have e := unwrap hn (H.range (j + 1) hj) (by rw [abs_lt]; constructor <;> linarith)
    exact ⟨e, by rw [e]; exact low, by rw [e]; linarith, hu.le, o2, o3, o4⟩
  have inv : ∀ j < N, (j + 1) * k ≤ 1 → (d 0 * (1 - j * k) ≤ d j ∧ d j ≤ d 0 ∧ 0 ≤ u j ∧
      -u j ≤ r j ∧ 3 * r j ≤ 4 * (a * (k * d 0 - u j + r j / 2)) ∧ 0 ≤ k * d 0 - u j + r j / 2) := by
    intro j
    induction j with
    | zero =>
      intro _ _
      rw [H.speed, H.rest]
      refine ⟨by simp, le_rfl, le_rfl, by simp, ?_, ?_⟩
      · simp only [mul_zero, sub_zero, zero_div, add_zero]
        positivity
      · simp only [sub_zero, zero_div, add_zero]
        positivity
    | succ j ih =>
      intro hj hjk
      push_cast at hjk
      have hjk' : ((j : ℝ) + 1) * k ≤ 1 := by linarith
      have := (step j (by omega) hjk' (ih (by omega) hjk')).2
      push_cast
      exact this
  exact fun j hj hjk => (step j hj hjk (inv j hj hjk)).1

theorem turnSeq_neg {a k : ℝ} {N : ℕ} {d u r : ℕ → ℝ} (H : TurnSeq a k N d u r) :
    TurnSeq a k N (fun j => -d j) (fun j => -u j) fun j => -r j := by
  refine ⟨fun j hj => by rw [abs_neg]; exact H.range j hj, by simp [H.speed], by simp [H.rest],
    fun j hj => by rw [H.force j hj]; ring, fun j hj => by rw [H.turn j hj]; ring, fun j hj => ?_⟩
  obtain ⟨n, hn⟩ := H.left j hj
  exact ⟨-n, by rw [hn]; push_cast; ring⟩

/-- The factor of the energy after the beginning of a turn. -/
theorem turn_factor {m k : ℝ} (hm0 : 0 < m) (hmk : m ≤ k) (hk : k ≤ 1 / 8) {j : ℕ} (hj : 1 < j * k) :
    (1 - m / 4) ^ j < 1 - m / (16 * k) := by
  have hk0 : 0 < k := by linarith
  have hp : 0 ≤ (1 - m / 4) ^ j := pow_nonneg (by linarith) j
  have h1 : (1 - m / 4) ^ j * (1 + j * (m / 4)) ≤ 1 := by
    have b := one_add_mul_le_pow (a := m / 4) (by linarith) j
    have := mul_le_mul_of_nonneg_left b hp
    rw [← mul_pow] at this
    have : ((1 - m / 4) * (1 + m / 4)) ^ j ≤ 1 := pow_le_one₀ (by nlinarith) (by nlinarith)
    linarith
  obtain ⟨x, hx⟩ : ∃ x, m / (16 * k) = x := ⟨_, rfl⟩
  have hm : m = 16 * k * x := by rw [← hx]; field_simp
  have hx0 : 0 < x := by rw [← hx]; positivity
  have hx1 : x ≤ 1 / 16 := by rw [← hx, div_le_div_iff₀ (by linarith) (by norm_num)]; linarith
  have h2 : 1 + 4 * x ≤ 1 + j * (m / 4) := by
    have : 4 * x * 1 ≤ 4 * x * (j * k) := mul_le_mul_of_nonneg_left hj.le (by linarith)
    rw [hm]
    linarith
  have h3 := (mul_le_mul_of_nonneg_left h2 hp).trans h1
  rw [hx]
  by_contra hc
  push Not at hc
  have h4 := mul_le_mul_of_nonneg_right hc (show 0 ≤ 1 + 4 * x by linarith)
  nlinarith

theorem turnSeq_bound {a k : ℝ} {N : ℕ} {d u r : ℕ → ℝ} (H : TurnSeq a k N d u r) (ha0 : 0 < a)
    (ha : a ≤ 1 / 8) (hk0 : 0 < k) (hk : k ≤ 1 / 8) (j : ℕ)
    (hj : j ≤ N) : d j ^ 2 ≤ 16 / 15 * (1 - min a k / 4) ^ j * d 0 ^ 2 := by
  obtain ⟨s, hs⟩ : ∃ s, a * k = s := ⟨_, rfl⟩
  obtain ⟨m, hm⟩ : ∃ m, min a k = m := ⟨_, rfl⟩
  have hs0 : 0 < s := by rw [← hs]; positivity
  have hma : m ≤ a := hm ▸ min_le_left _ _
  have hmk : m ≤ k := hm ▸ min_le_right _ _
  have hm0 : 0 < m := hm ▸ lt_min ha0 hk0
  have hsm : 8 * s ≤ m := by
    rw [← hm, ← hs]
    refine le_min ?_ ?_ <;> nlinarith
  have ham : a * m ≤ s := by rw [← hs]; exact mul_le_mul_of_nonneg_left hmk ha0.le
  have hmm : m ^ 2 ≤ s := by nlinarith
  have hpi := Real.pi_pos
  have step1 : ∀ d u r r' : ℝ, r' = s * d - a * u + a / 2 * r →
      turnEnergy s (m / 2) (d - (u + r')) (u + r') r' ≤
        (1 - m / 4) * turnEnergy s (m / 2) d u r := fun d u r r' h => by
    have := turn_energy ha hs0 (b := m / 2) (by linarith) (by linarith) (by linarith) (by linarith)
      d u r r' h
    rwa [show 1 - m / 2 / 2 = 1 - m / 4 by ring] at this
  suffices key : ∀ j ≤ N, turnEnergy s (m / 2) (d j) (u j) (r j) ≤
      (1 - m / 4) ^ j * (s * d 0 ^ 2) by
    have h1 := turnEnergy_lower (t := 1 / 16) (d := d j) (u := u j) (r := r j) hs0.le
      (b := m / 2) (by linarith) (by linarith)
    have h2 := h1.trans (key j hj)
    rw [hm]
    have h3 : s * (d j ^ 2 * (15 / 16)) ≤ s * ((1 - m / 4) ^ j * d 0 ^ 2) := by linarith
    have := le_of_mul_le_mul_left h3 hs0
    linarith
  intro j
  induction j with
  | zero =>
    intro _
    unfold turnEnergy
    rw [H.speed, H.rest]
    norm_num
  | succ j ih =>
    intro hj
    have i1 := ih (by omega)
    have f := H.force j hj
    rw [hs] at f
    have s1 := step1 _ _ _ _ f
    rw [← H.turn j hj] at s1
    have i2 : turnEnergy s (m / 2) (d j - u (j + 1)) (u (j + 1)) (r (j + 1)) ≤
        (1 - m / 4) ^ (j + 1) * (s * d 0 ^ 2) := by
      refine s1.trans ?_
      rw [pow_succ', mul_assoc]
      exact mul_le_mul_of_nonneg_left i1 (by linarith)
    have h0 : d 0 ^ 2 ≤ Real.pi ^ 2 := by
      rw [← sq_abs]
      exact pow_le_pow_left₀ (abs_nonneg _) (H.range 0 (Nat.zero_le _)) 2
    have e : d (j + 1) = d j - u (j + 1) := by
      rcases le_or_gt (((j : ℝ) + 1) * k) 1 with hjk | hjk
      · rcases lt_trichotomy (d 0) 0 with hd | hd | hd
        · have := turnSeq_begin (turnSeq_neg H) ha0 ha hk0 (neg_pos.2 hd) j hj hjk
          linarith
        · obtain ⟨n, hn⟩ := H.left j hj
          refine unwrap hn (H.range (j + 1) hj) ?_
          have low := turnEnergy_lower (t := 1 / 16) (d := d j - u (j + 1)) (u := u (j + 1))
            (r := r (j + 1)) hs0.le (b := m / 2) (by linarith) (by linarith)
          rw [hd] at i2
          have : s * ((d j - u (j + 1)) ^ 2) ≤ s * 0 := by linarith
          have := le_of_mul_le_mul_left this hs0
          have : d j - u (j + 1) = 0 := pow_eq_zero_iff (n := 2) (by norm_num) |>.1
            (le_antisymm this (sq_nonneg _))
          rw [this, abs_zero]
          exact hpi
        · exact turnSeq_begin H ha0 ha hk0 hd j hj hjk
      · obtain ⟨n, hn⟩ := H.left j hj
        refine unwrap hn (H.range (j + 1) hj) ?_
        obtain ⟨t, ht⟩ : ∃ t, m / (16 * k) = t := ⟨_, rfl⟩
        have hf := turn_factor hm0 hmk hk (j := j + 1) (by push_cast; exact hjk)
        rw [ht] at hf
        have hmt : m = 16 * k * t := by rw [← ht]; field_simp
        have low := turnEnergy_lower (t := t) (d := d j - u (j + 1)) (u := u (j + 1))
            (r := r (j + 1)) hs0.le (b := m / 2) (by linarith) (by
              have : 4 * t * s = m * a / 4 := by rw [← hs, hmt]; ring
              rw [this]
              have := mul_le_mul_of_nonneg_left hma hm0.le
              linarith)
        have h1 := low.trans i2
        have hf0 : 0 ≤ (1 - m / 4) ^ (j + 1) := pow_nonneg (by linarith) _
        have h2 : (1 - m / 4) ^ (j + 1) * (s * d 0 ^ 2) ≤ (1 - m / 4) ^ (j + 1) * (s * Real.pi ^ 2) :=
          mul_le_mul_of_nonneg_left (mul_le_mul_of_nonneg_left h0 hs0.le) hf0
        have h3 : (1 - m / 4) ^ (j + 1) * (s * Real.pi ^ 2) < (1 - t) * (s * Real.pi ^ 2) :=
          mul_lt_mul_of_pos_right hf (by positivity)
        have h4 := lt_of_le_of_lt (h1.trans h2) h3
        have h5 := lt_of_mul_lt_mul_left h4 (by linarith)
        have h6 := lt_of_mul_lt_mul_left h5 hs0.le
        exact abs_lt_of_sq_lt_sq h6 hpi.le
    rw [e]
    exact i2

end CrowdDynamics
