import Verif.Model.CoreTests
import Verif.Proofs.VectorTests
import Verif.Proofs.RoundedLines
import Verif.Props.BlockList
import Verif.Proofs.UniformSampling

/-!
# Lemmas on the unit tests of cells, segments, clocks, time steps and samples
-/

namespace CrowdDynamics

open Spec

theorem fl64_one : fl64 1 = 1 := by have := fl64_int (n := 1) (by norm_num); simpa using this

/-! ## Cells -/

/-- The numbers of `random.uniform(-1.0, 2.0)` are in `[-1, 2)`. -/
theorem uniformF_range {k : ℕ} (hk : k < 2 ^ 53) :
    -1 ≤ uniformF fl64 (-1) 2 (k * 2 ^ (-53 : ℤ)) ∧ uniformF fl64 (-1) 2 (k * 2 ^ (-53 : ℤ)) < 2 := by
  have hk' : (k : ℝ) ≤ 9007199254740991 := by
    have : k ≤ 9007199254740991 := by omega
    exact_mod_cast this
  have h3 : fl64 (2 - -1) = 3 := by
    have := fl64_int (n := 3) (by norm_num)
    norm_num at this ⊢; exact this
  unfold uniformF
  rw [h3]
  have hlo : 0 ≤ fl64 (3 * (k * 2 ^ (-53 : ℤ))) := fl64_nonneg (by positivity)
  have hhi : fl64 (3 * (k * 2 ^ (-53 : ℤ))) ≤ 3 - 2 ^ (-51 : ℤ) := by
    have hle : 3 * (k * (2 : ℝ) ^ (-53 : ℤ)) ≤ 3 - 3 * 2 ^ (-53 : ℤ) := by
      norm_num; linarith
    have h1 := fl64_mono hle
    have h2 := fl64_eq_of_near (x := 3 - 3 * (2 : ℝ) ^ (-53 : ℤ)) (m := 6755399441055743) (e := -51)
      (by norm_num) (by norm_num) (by norm_num) (by norm_num)
    rw [h2] at h1
    norm_num at h1 ⊢; exact h1
  constructor
  · have := fl64_mono (show (-1 : ℝ) ≤ -1 + fl64 (3 * (k * 2 ^ (-53 : ℤ))) by linarith)
    rwa [fl64_neg, fl64_one] at this
  · have h1 := fl64_mono (show -1 + fl64 (3 * (k * (2 : ℝ) ^ (-53 : ℤ))) ≤ 2 - 2 ^ (-51 : ℤ) by
      linarith)
    have h2 := fl64_of_mul (m := 4503599627370495) (e := -51) (by norm_num) (by norm_num)
    have e : (2 : ℝ) - 2 ^ (-51 : ℤ) = ((4503599627370495 : ℤ) : ℝ) * 2 ^ (-51 : ℤ) := by norm_num
    rw [e, h2, ← e] at h1
    have : (0 : ℝ) < 2 ^ (-51 : ℤ) := two_zpow_pos _
    linarith

theorem foldl_setItem {V : Type} (f : ℕ → List ℝ) (g : ℕ → V) (l : List ℕ) (s : BlockList ℝ V) :
    l.foldl (fun s i => s.setItem (f i) (g i)) s = s.run (l.map fun i => BlockOp.set (f i) (g i)) := by
  induction l generalizing s with
  | nil => rfl
  | cons a l ih => simp only [List.foldl_cons, List.map_cons]; rw [ih]; rfl

theorem insertions_set {V : Type} (f : ℕ → List ℝ) (g : ℕ → V) (l : List ℕ) :
    insertions (l.map fun i => BlockOp.set (f i) (g i)) = l.map fun i => (f i, g i) := by
  induction l with
  | nil => rfl
  | cons a l ih => simp only [List.map_cons, insertions]; rw [ih]

theorem testPoint_within {rnd : ℝ → ℝ} {u : ℕ → ℝ} (h : ∀ j, -1 ≤ uniformF rnd (-1) 2 (u j) ∧
    uniformF rnd (-1) 2 (u j) < 2) (d : ℕ) :
    CellsWithin (1 : ℝ) 1 (testPoint rnd d u) (List.replicate d 0) := by
  unfold CellsWithin testPoint
  rw [List.forall₂_iff_get]
  refine ⟨by simp, fun i h1 h2 => ?_⟩
  simp only [List.get_eq_getElem, List.getElem_map, List.getElem_range, List.getElem_replicate,
    div_one, Int.floor_zero, sub_zero]
  have := h i
  rw [abs_le]
  constructor
  · exact Int.le_floor.2 (by push_cast; exact this.1)
  · have : ⌊uniformF rnd (-1) 2 (u i)⌋ < 2 := Int.floor_lt.2 (by push_cast; exact this.2)
    omega

/-! ## Clocks -/

theorem checkTimes_loop {rnd : ℝ → ℝ} {draws : ℕ → ℝ} {dt : ℝ}
    (hstep : ∀ t k, 0 < t → t < dt → t < rnd (t + draws k)) :
    ∀ (fuel pos : ℕ) (t prev : ℝ) (ts : List ℝ) (pos' : ℕ), 0 ≤ prev → prev < t →
      poissonClockLoopF rnd draws dt fuel pos t = some (ts, pos') → checkTimes dt prev ts := by
  intro fuel
  induction fuel with
  | zero => intro pos t prev ts pos' _ _ h; simp [poissonClockLoopF] at h
  | succ fuel ih =>
    intro pos t prev ts pos' h0 hp h
    unfold poissonClockLoopF at h
    by_cases ht : t < dt
    · rw [if_pos ht] at h
      cases hr : poissonClockLoopF rnd draws dt fuel (pos + 1) (rnd (t + draws pos)) with
      | none => rw [hr] at h; simp at h
      | some r =>
        obtain ⟨ts', p'⟩ := r
        rw [hr] at h
        simp only [Option.some.injEq, Prod.mk.injEq] at h
        obtain ⟨rfl, rfl⟩ := h
        have ht0 : 0 < t := h0.trans_lt hp
        exact ⟨⟨hp, ht⟩, ih _ _ _ _ _ ht0.le (hstep t pos ht0 ht) hr⟩
    · rw [if_neg ht] at h
      simp only [Option.some.injEq, Prod.mk.injEq] at h
      rw [← h.1]; trivial

/-- Times below `2 ^ -6` advance by steps of at least `2 ^ -58`. -/
theorem fl64_advance {t d : ℝ} (h0 : 0 < t) (ht : t < 2 ^ (-6 : ℤ)) (hd : (2 : ℝ) ^ (-58 : ℤ) ≤ d) :
    t < fl64 (t + d) := by
  have hd0 : 0 < d := (two_zpow_pos _).trans_le hd
  rcases lt_or_ge (t + d) (2 ^ (-5 : ℤ)) with h | h
  · have := fl64_err_lt (x := t + d) (j := -5) (by rw [abs_of_pos (by linarith)]; exact h)
      (by norm_num)
    rw [abs_le] at this
    norm_num at this hd
    linarith [this.1]
  · have := fl64_ge_two_zpow (by norm_num) h
    norm_num at this ht
    linarith

/-! ## Samples -/

/-- The convex combination of three numbers of size at most 100 with rounded weights. -/
theorem sample_comp_err {s r2 a b c : ℝ} (hs0 : 0 ≤ s) (hs1 : s ≤ 1) (hr0 : 0 ≤ r2) (hr1 : r2 ≤ 1)
    (ha : |a| ≤ 100) (hb : |b| ≤ 100) (hc : |c| ≤ 100) :
    |fl64 (fl64 (fl64 (fl64 (1 - s) * a) + fl64 (fl64 (s * fl64 (1 - r2)) * b)) +
      fl64 (fl64 (r2 * s) * c)) - ((1 - s) * a + s * (1 - r2) * b + r2 * s * c)| ≤ 2 ^ (-40 : ℤ) := by
  have unit : ∀ x : ℝ, 0 ≤ x → x ≤ 1 → 0 ≤ fl64 x ∧ fl64 x ≤ 1 ∧ |fl64 x - x| ≤ 2 ^ (-52 : ℤ) := by
    intro x h0 h1
    refine ⟨fl64_nonneg h0, ?_, ?_⟩
    · have := fl64_mono h1; rwa [fl64_one] at this
    · exact (fl64_err_abs (b := 1) (by rw [abs_of_nonneg h0]; exact h1)).trans (by norm_num)
  have big : ∀ x B : ℝ, |x| ≤ B → 1 ≤ B → |fl64 x - x| ≤ B * 2 ^ (-52 : ℤ) := by
    intro x B h h1
    refine (fl64_err_abs h).trans ?_
    have : (2 : ℝ) ^ (-200 : ℤ) ≤ 1 * 2 ^ (-53 : ℤ) := by norm_num
    have h2 : 1 * (2 : ℝ) ^ (-53 : ℤ) ≤ B * 2 ^ (-53 : ℤ) :=
      mul_le_mul_of_nonneg_right h1 (two_zpow_pos _).le
    have e : B * (2 : ℝ) ^ (-52 : ℤ) = B * 2 ^ (-53 : ℤ) + B * 2 ^ (-53 : ℤ) := by norm_num; ring
    linarith
  have term : ∀ w w' z δ : ℝ, 0 ≤ w → w ≤ 1 → |z| ≤ 100 → |w - w'| ≤ δ * 2 ^ (-52 : ℤ) →
      |fl64 (w * z) - w' * z| ≤ (100 + 100 * δ) * 2 ^ (-52 : ℤ) := by
    intro w w' z δ h0 h1 hz hw
    have h2 : |w * z| ≤ 100 := by
      rw [abs_mul, abs_of_nonneg h0]; nlinarith [abs_nonneg z]
    have h3 := big (w * z) 100 h2 (by norm_num)
    have h4 : |w * z - w' * z| ≤ 100 * (δ * 2 ^ (-52 : ℤ)) := by
      rw [← sub_mul, abs_mul, mul_comm]
      exact mul_le_mul hz hw (abs_nonneg _) (by norm_num)
    have h5 := abs_sub_le (fl64 (w * z)) (w * z) (w' * z)
    linarith
  obtain ⟨q0, q1, qe⟩ := unit (1 - s) (by linarith) (by linarith)
  obtain ⟨u0, u1, ue⟩ := unit (1 - r2) (by linarith) (by linarith)
  obtain ⟨q, hq⟩ : ∃ q, fl64 (1 - s) = q := ⟨_, rfl⟩
  obtain ⟨u, hu⟩ : ∃ u, fl64 (1 - r2) = u := ⟨_, rfl⟩
  rw [hq] at q0 q1 qe ⊢
  rw [hu] at u0 u1 ue ⊢
  obtain ⟨v0, v1, ve⟩ := unit (s * u) (mul_nonneg hs0 u0) (mul_le_one₀ hs1 u0 u1)
  obtain ⟨w0, w1, we⟩ := unit (r2 * s) (mul_nonneg hr0 hs0) (mul_le_one₀ hr1 hs0 hs1)
  obtain ⟨v, hv⟩ : ∃ v, fl64 (s * u) = v := ⟨_, rfl⟩
  obtain ⟨w, hw⟩ : ∃ w, fl64 (r2 * s) = w := ⟨_, rfl⟩
  rw [hv] at v0 v1 ve ⊢
  rw [hw] at w0 w1 we ⊢
  have ve' : |v - s * (1 - r2)| ≤ 2 * 2 ^ (-52 : ℤ) := by
    have h1 : |s * u - s * (1 - r2)| ≤ 2 ^ (-52 : ℤ) := by
      rw [← mul_sub, abs_mul, abs_of_nonneg hs0]
      exact (mul_le_of_le_one_left (abs_nonneg _) hs1).trans ue
    have h2 := abs_sub_le v (s * u) (s * (1 - r2))
    linarith
  have ta := term q (1 - s) a 1 q0 q1 ha (by linarith)
  have tb := term v (s * (1 - r2)) b 2 v0 v1 hb ve'
  have tc := term w (r2 * s) c 1 w0 w1 hc (by linarith)
  obtain ⟨A, hA⟩ : ∃ A, fl64 (q * a) = A := ⟨_, rfl⟩
  obtain ⟨B, hB⟩ : ∃ B, fl64 (v * b) = B := ⟨_, rfl⟩
  obtain ⟨C, hC⟩ : ∃ C, fl64 (w * c) = C := ⟨_, rfl⟩
  rw [hA] at ta ⊢
  rw [hB] at tb ⊢
  rw [hC] at tc ⊢
  have bound : ∀ w z : ℝ, 0 ≤ w → w ≤ 1 → |z| ≤ 100 → |w * z| ≤ 100 := by
    intro w z h0 h1 hz
    rw [abs_mul, abs_of_nonneg h0]; nlinarith [abs_nonneg z]
  have ba := bound (1 - s) a (by linarith) (by linarith) ha
  have bb := bound (s * (1 - r2)) b (mul_nonneg hs0 (by linarith))
    (mul_le_one₀ hs1 (by linarith) (by linarith)) hb
  have bc := bound (r2 * s) c (mul_nonneg hr0 hs0) (mul_le_one₀ hr1 hs0 hs1) hc
  obtain ⟨x, hx⟩ : ∃ x, (1 - s) * a = x := ⟨_, rfl⟩
  obtain ⟨y, hy⟩ : ∃ y, s * (1 - r2) * b = y := ⟨_, rfl⟩
  obtain ⟨z, hz⟩ : ∃ z, r2 * s * c = z := ⟨_, rfl⟩
  rw [hx] at ta ba ⊢
  rw [hy] at tb bb ⊢
  rw [hz] at tc bc ⊢
  rw [abs_le] at ta tb tc ba bb bc
  norm_num at ta tb tc
  have e1 := big (A + B) 300 (by rw [abs_le]; constructor <;> linarith) (by norm_num)
  obtain ⟨S, hS⟩ : ∃ S, fl64 (A + B) = S := ⟨_, rfl⟩
  rw [hS] at e1 ⊢
  rw [abs_le] at e1
  norm_num at e1
  have e2 := big (S + C) 400 (by rw [abs_le]; constructor <;> linarith) (by norm_num)
  rw [abs_le] at e2 ⊢
  norm_num at e2 ⊢
  constructor <;> linarith

theorem close_of_comp {p q : Vec} (h1 : |p.1 - q.1| ≤ 2 ^ (-40 : ℤ)) (h2 : |p.2 - q.2| ≤ 2 ^ (-40 : ℤ)) :
    isCloseF fl64 (√((p.1 - q.1) ^ 2 + (p.2 - q.2) ^ 2)) 0 := by
  refine isCloseF_of_near ?_
  rw [sub_zero, abs_of_nonneg (Real.sqrt_nonneg _)]
  have := norm_pair_lip (p.1 - q.1) (p.2 - q.2) 0 0
  simp only [ne_eq, OfNat.ofNat_ne_zero, not_false_eq_true, zero_pow, add_zero, Real.sqrt_zero,
    sub_zero] at this
  have h3 := (le_abs_self _).trans this
  norm_num at h1 h2 h3 ⊢
  linarith

theorem testRandomSampleTriangle_passes (a b c : Vec) (r1 r2 : ℝ) (h1 : r1 ∈ Set.Ico (0 : ℝ) 1)
    (h2 : r2 ∈ Set.Ico (0 : ℝ) 1) : testRandomSampleTriangle fl64 a b c r1 r2 := by
  intro a1 a2 b1 b2 c1 c2 _
  right
  have hs0 : 0 ≤ fl64 (√r1) := fl64_nonneg (Real.sqrt_nonneg _)
  have hs1 : fl64 (√r1) ≤ 1 := by
    have := fl64_mono (Real.sqrt_le_one.2 h1.2.le)
    rwa [fl64_one] at this
  have ab : ∀ {x : ℝ}, RealsBetween fl64 (-100) 100 x → |x| ≤ 100 := fun h => abs_le.2 h.2
  refine ⟨(1 - fl64 (√r1)) • a + (fl64 (√r1) * (1 - r2)) • b + (r2 * fl64 (√r1)) • c, ?_, ?_⟩
  · have hw : (1 - fl64 (√r1)) + fl64 (√r1) * (1 - r2) + r2 * fl64 (√r1) = 1 := by ring
    have hconv := convex_convexHull ℝ ({a, b, c} : Set Vec)
    have ha : a ∈ convexHull ℝ ({a, b, c} : Set Vec) := subset_convexHull _ _ (by simp)
    have hb : b ∈ convexHull ℝ ({a, b, c} : Set Vec) := subset_convexHull _ _ (by simp)
    have hc : c ∈ convexHull ℝ ({a, b, c} : Set Vec) := subset_convexHull _ _ (by simp)
    have hbc : (1 - r2) • b + r2 • c ∈ convexHull ℝ ({a, b, c} : Set Vec) :=
      hconv hb hc (by linarith [h2.2]) h2.1 (by ring)
    have := hconv ha hbc (sub_nonneg.2 hs1) hs0 (by ring)
    rw [smul_add, smul_smul, smul_smul, ← add_assoc, mul_comm (fl64 √r1) r2] at this
    exact this
  · refine close_of_comp ?_ ?_
    · exact sample_comp_err hs0 hs1 h2.1 h2.2.le (ab a1) (ab b1) (ab c1)
    · exact sample_comp_err hs0 hs1 h2.1 h2.2.le (ab a2) (ab b2) (ab c2)

theorem triangleAreaF_nonneg (t : Vec × Vec × Vec) : 0 ≤ triangleAreaF fl64 t :=
  fl64_nonneg (by positivity)

theorem cumsumF_sorted (mesh : List (Vec × Vec × Vec)) : testTriangleAreaCumsum fl64 mesh := by
  have key : ∀ (mesh : List (Vec × Vec × Vec)) (s : ℝ) (acc : List ℝ), fl64 s = s →
      acc.Pairwise (· ≤ ·) → (∀ x ∈ acc, x ≤ s) →
      ((mesh.foldl (fun (s : ℝ × List ℝ) t =>
        let area := fl64 (s.1 + triangleAreaF fl64 t)
        (area, s.2 ++ [area])) (s, acc)).2).Pairwise (· ≤ ·) := by
    intro mesh
    induction mesh with
    | nil => intro s acc _ h _; exact h
    | cons t mesh ih =>
      intro s acc hs h hle
      simp only [List.foldl_cons]
      have hmono : s ≤ fl64 (s + triangleAreaF fl64 t) := by
        have := fl64_mono (show s ≤ s + triangleAreaF fl64 t by linarith [triangleAreaF_nonneg t])
        rwa [hs] at this
      refine ih _ _ (fl64_idem _) ?_ ?_
      · rw [List.pairwise_append]
        refine ⟨h, List.pairwise_singleton _ _, ?_⟩
        intro x hx y hy
        rw [List.mem_singleton] at hy
        rw [hy]; exact (hle x hx).trans hmono
      · intro x hx
        rw [List.mem_append, List.mem_singleton] at hx
        rcases hx with hx | rfl
        · exact (hle x hx).trans hmono
        · exact le_rfl
  exact key mesh 0 [] fl64_zero List.Pairwise.nil (by simp)

/-- A point between two points of size at most 100, with rounding. -/
theorem line_comp_err {y a b : ℝ} (hy0 : 0 ≤ y) (hy1 : y ≤ 1) (ha : |a| ≤ 100) (hb : |b| ≤ 100) :
    |fl64 (fl64 (y * fl64 (b - a)) + a) - ((1 - y) * a + y * b)| ≤ 2 ^ (-40 : ℤ) := by
  have big : ∀ x B : ℝ, |x| ≤ B → 1 ≤ B → |fl64 x - x| ≤ B * 2 ^ (-52 : ℤ) := by
    intro x B h h1
    refine (fl64_err_abs h).trans ?_
    have : (2 : ℝ) ^ (-200 : ℤ) ≤ 1 * 2 ^ (-53 : ℤ) := by norm_num
    have h2 : 1 * (2 : ℝ) ^ (-53 : ℤ) ≤ B * 2 ^ (-53 : ℤ) :=
      mul_le_mul_of_nonneg_right h1 (two_zpow_pos _).le
    have e : B * (2 : ℝ) ^ (-52 : ℤ) = B * 2 ^ (-53 : ℤ) + B * 2 ^ (-53 : ℤ) := by norm_num; ring
    linarith
  rw [abs_le] at ha hb
  have e1 := big (b - a) 200 (by rw [abs_le]; constructor <;> linarith) (by norm_num)
  obtain ⟨d, hd⟩ : ∃ d, fl64 (b - a) = d := ⟨_, rfl⟩
  rw [hd] at e1 ⊢
  have hyd : |y * d - y * (b - a)| ≤ 200 * 2 ^ (-52 : ℤ) := by
    rw [← mul_sub, abs_mul, abs_of_nonneg hy0]
    exact (mul_le_of_le_one_left (abs_nonneg _) hy1).trans e1
  have hyb : |y * (b - a)| ≤ 200 := by
    rw [abs_mul, abs_of_nonneg hy0]
    have : |b - a| ≤ 200 := by rw [abs_le]; constructor <;> linarith
    nlinarith [abs_nonneg (b - a)]
  obtain ⟨z, hz⟩ : ∃ z, y * (b - a) = z := ⟨_, rfl⟩
  have hgoal : (1 - y) * a + y * b = z + a := by rw [← hz]; ring
  rw [hgoal]
  rw [hz] at hyd hyb
  rw [abs_le] at hyd hyb
  norm_num at hyd
  have e2 := big (y * d) 201 (by rw [abs_le]; constructor <;> linarith) (by norm_num)
  obtain ⟨f, hf⟩ : ∃ f, fl64 (y * d) = f := ⟨_, rfl⟩
  rw [hf] at e2 ⊢
  rw [abs_le] at e2
  norm_num at e2
  have e3 := big (f + a) 400 (by rw [abs_le]; constructor <;> linarith) (by norm_num)
  rw [abs_le] at e3 ⊢
  norm_num at e3 ⊢
  constructor <;> linarith

theorem testLinestringSample_passes {A : Arith} (hr : A.rnd = fl64) {vertices : List Vec}
    (hv : ∀ v ∈ vertices, |v.1| ≤ 100 ∧ |v.2| ≤ 100) (hn : 2 ≤ vertices.length)
    (hlast : 0 < lengthF A (vecSubF A.rnd (vertices.getD (vertices.length - 2) 0)
      (vertices.getD (vertices.length - 1) 0))) {x y : ℝ} (hx : x ∈ Set.Ico (0 : ℝ) 1)
    (hy : y ∈ Set.Ico (0 : ℝ) 1) : testLinestringSample A vertices x y := by
  obtain ⟨w, hw⟩ : ∃ w, linestringLengthCumsumF A vertices = w := ⟨_, rfl⟩
  have hwl : w.length = vertices.length - 1 := by
    rw [← hw]; unfold linestringLengthCumsumF; simp
  have hne : w ≠ [] := by intro h; rw [h] at hwl; simp at hwl; omega
  have hwlast : w.getLast? = some (lengthF A (vecSubF A.rnd (vertices.getD (vertices.length - 2) 0)
      (vertices.getD (vertices.length - 1) 0))) := by
    rw [List.getLast?_eq_getElem?, hwl, ← hw]
    unfold linestringLengthCumsumF
    rw [List.getElem?_map, List.getElem?_range (by omega)]
    simp only [Option.map_some]
    rw [show vertices.length - 1 - 1 + 1 = vertices.length - 1 by omega,
      show vertices.length - 1 - 1 = vertices.length - 2 by omega]
  obtain ⟨L, hL⟩ : ∃ L, lengthF A (vecSubF A.rnd (vertices.getD (vertices.length - 2) 0)
      (vertices.getD (vertices.length - 1) 0)) = L := ⟨_, rfl⟩
  rw [hL] at hwlast hlast
  obtain ⟨W, hW⟩ : ∃ W, (w.map fun a => fl64 (a / L)) = W := ⟨_, rfl⟩
  have hnw : normalizedWeightsF A.rnd (linestringLengthCumsumF A vertices) = some W := by
    unfold normalizedWeightsF
    rw [hw, hwlast, hr, ← hW]; rfl
  have hWl : W.length = w.length := by rw [← hW]; simp
  have hWlast : W.getD (W.length - 1) 0 = 1 := by
    have h1 : w[w.length - 1]? = some L := by rw [← List.getLast?_eq_getElem?]; exact hwlast
    rw [List.getD_eq_getElem?_getD, hWl, ← hW, List.getElem?_map, h1]
    simp only [Option.map_some, Option.getD_some]
    rw [div_self hlast.ne', fl64_one]
  have hi : searchsorted W x < W.length := by
    apply searchsorted_lt_length
    · intro h; rw [h] at hWl; exact hne (List.length_eq_zero_iff.1 hWl.symm)
    · rw [hWlast]; exact hx.2.le
  obtain ⟨i, hie⟩ : ∃ i, searchsorted W x = i := ⟨_, rfl⟩
  rw [hie] at hi
  have h0 : vertices[i]? = some (vertices[i]'(by omega)) := List.getElem?_eq_getElem _
  have h1 : vertices[i + 1]? = some (vertices[i + 1]'(by omega)) := List.getElem?_eq_getElem _
  have m0 := hv _ (List.getElem_mem (by omega : i < vertices.length))
  have m1 := hv _ (List.getElem_mem (by omega : i + 1 < vertices.length))
  obtain ⟨p0, hp0⟩ : ∃ p, vertices[i]'(by omega) = p := ⟨_, rfl⟩
  obtain ⟨p1, hp1⟩ : ∃ p, vertices[i + 1]'(by omega) = p := ⟨_, rfl⟩
  rw [hp0] at h0 m0
  rw [hp1] at h1 m1
  refine ⟨randomSampleLineF fl64 y p0 p1, ?_, i, p0, p1, (1 - y) • p0 + y • p1, h0, h1, ?_, ?_⟩
  · unfold linestringSampleF
    rw [hnw]
    simp only [hie, h0, h1, hr]
  · exact ⟨1 - y, y, by linarith [hy.2], hy.1, by ring, rfl⟩
  · rw [hr]
    refine close_of_comp ?_ ?_
    · exact line_comp_err hy.1 hy.2.le m0.1 m1.1
    · exact line_comp_err hy.1 hy.2.le m0.2 m1.2

/-! ## Points in the interior of a triangle -/

theorem mem_interior_triangle {a b c : Vec} (h : 0 < triArea a b c) {l m n : ℝ} (hl : 0 < l)
    (hm : 0 < m) (hn : 0 < n) (hsum : l + m + n = 1) :
    l • a + m • b + n • c ∈ interior (convexHull ℝ ({a, b, c} : Set Vec)) := by
  obtain ⟨D, hD⟩ : ∃ D, (b.1 - a.1) * (c.2 - a.2) - (b.2 - a.2) * (c.1 - a.1) = D := ⟨_, rfl⟩
  have hD0 : D ≠ 0 := by
    rintro rfl
    unfold triArea at h
    rw [hD] at h
    simp at h
  -- barycentric coordinates
  obtain ⟨f, hf⟩ : ∃ f : Vec → ℝ, f = fun p =>
    ((p.1 - a.1) * (c.2 - a.2) - (p.2 - a.2) * (c.1 - a.1)) / D := ⟨_, rfl⟩
  obtain ⟨g, hg⟩ : ∃ g : Vec → ℝ, g = fun p =>
    ((b.1 - a.1) * (p.2 - a.2) - (b.2 - a.2) * (p.1 - a.1)) / D := ⟨_, rfl⟩
  have hfc : Continuous f := by rw [hf]; fun_prop
  have hgc : Continuous g := by rw [hg]; fun_prop
  have hopen : IsOpen {p : Vec | 0 < f p ∧ 0 < g p ∧ f p + g p < 1} := by
    refine (isOpen_lt continuous_const hfc).inter ((isOpen_lt continuous_const hgc).inter
      (isOpen_lt (hfc.add hgc) continuous_const))
  rw [mem_interior]
  refine ⟨_, ?_, hopen, ?_⟩
  · intro p hp
    obtain ⟨h1, h2, h3⟩ := hp
    have hp' : p = (1 - f p - g p) • a + f p • b + g p • c := by
      have e1 : f p * D = (p.1 - a.1) * (c.2 - a.2) - (p.2 - a.2) * (c.1 - a.1) := by
        rw [hf]; field_simp
      have e2 : g p * D = (b.1 - a.1) * (p.2 - a.2) - (b.2 - a.2) * (p.1 - a.1) := by
        rw [hg]; field_simp
      refine Prod.ext ?_ ?_ <;> simp only [Prod.fst_add, Prod.smul_fst, Prod.snd_add, Prod.smul_snd,
        smul_eq_mul] <;> apply mul_right_cancel₀ hD0
      · have : ((1 - f p - g p) * a.1 + f p * b.1 + g p * c.1) * D =
            a.1 * D + (f p * D) * (b.1 - a.1) + (g p * D) * (c.1 - a.1) := by ring
        rw [this, e1, e2, ← hD]; ring
      · have : ((1 - f p - g p) * a.2 + f p * b.2 + g p * c.2) * D =
            a.2 * D + (f p * D) * (b.2 - a.2) + (g p * D) * (c.2 - a.2) := by ring
        rw [this, e1, e2, ← hD]; ring
    have hconv := convex_convexHull ℝ ({a, b, c} : Set Vec)
    have ha : a ∈ convexHull ℝ ({a, b, c} : Set Vec) := subset_convexHull _ _ (by simp)
    have hb : b ∈ convexHull ℝ ({a, b, c} : Set Vec) := subset_convexHull _ _ (by simp)
    have hc : c ∈ convexHull ℝ ({a, b, c} : Set Vec) := subset_convexHull _ _ (by simp)
    rw [hp']
    have hfg : 0 < f p + g p := by linarith
    have hbc : (f p / (f p + g p)) • b + (g p / (f p + g p)) • c ∈
        convexHull ℝ ({a, b, c} : Set Vec) :=
      hconv hb hc (by positivity) (by positivity) (by field_simp)
    have := hconv ha hbc (show 0 ≤ 1 - f p - g p by linarith) hfg.le (by ring)
    rw [smul_add, smul_smul, smul_smul, mul_div_cancel₀ _ hfg.ne', mul_div_cancel₀ _ hfg.ne',
      ← add_assoc] at this
    exact this
  · have hl' : l = 1 - m - n := by linarith
    have e1 : f (l • a + m • b + n • c) = m := by
      rw [hf]
      simp only [Prod.fst_add, Prod.smul_fst, Prod.snd_add, Prod.smul_snd, smul_eq_mul]
      rw [div_eq_iff hD0, ← hD, hl']; ring
    have e2 : g (l • a + m • b + n • c) = n := by
      rw [hg]
      simp only [Prod.fst_add, Prod.smul_fst, Prod.snd_add, Prod.smul_snd, smul_eq_mul]
      rw [div_eq_iff hD0, ← hD, hl']; ring
    show 0 < f _ ∧ 0 < g _ ∧ f _ + g _ < 1
    rw [e1, e2]
    exact ⟨hm, hn, by linarith⟩

end CrowdDynamics
