import Verif.Proofs.StrategiesCases
import Verif.Spec.Strategies
import Verif.Props.Sampling
import Verif.Props.CoreTests
import Verif.Proofs.VectorTests
import Verif.Proofs.RoundedAngles

/-!
# C185: the random inputs of the tests
-/

namespace CrowdDynamics

open Spec Real

/-- **C185** (full statement, refuted below): the arrays that `reals` draws contain numbers within the
bounds, without zero if it is excluded, for every type of floating point numbers. -/
def C185_statement : Prop :=
  ∀ (min max : Option ℝ) (ez : ExcludeZero) (dt : FloatDtype) (n : ℕ) (s : Set (List F64)),
    realsArray min max ez dt n = .ok s → ∀ l ∈ s, l.length = n ∧
      ∀ v ∈ l, ∃ x, v = .num x ∧ FitsBounds min max ez x

/-- **C185** (refutation): the numbers are drawn as `float64` and then stored in the array. With
`dtype=np.float32` and `exclude_zero='exact'` the array may contain a zero; with `dtype=np.float16` it
may contain an infinity. -/
theorem C185_small_dtype_fails : ¬ C185_statement ∧
    (∃ t, realsArray none none .exact .float32 1 = .ok t ∧ [F64.num 0] ∈ t) ∧
    (∃ t, realsArray none none .exact .float16 1 = .ok t ∧ [F64.inf false] ∈ t) := by
  obtain ⟨s, hs⟩ := free_strategy .exact
  have hp : ∀ k : ℤ, (0 : ℝ) < 2 ^ k := fun k => by positivity
  have key : ∀ k : ℤ, -1074 ≤ k → k < 1024 → (2 : ℝ) ^ k ∈ s := fun k h1 h2 =>
    free_mem hs (fl64_two_zpow h1)
      (by rw [abs_of_pos (hp k)]; exact zpow_lt_zpow_right₀ (by norm_num) h2) (hp k).ne'
  have w1 : ∃ t, realsArray none none .exact .float32 1 = .ok t ∧ [F64.num 0] ∈ t := by
    obtain ⟨t, h1, h2⟩ := one_draw (dt := .float32) hs (key (-200) (by norm_num) (by norm_num))
    refine ⟨t, h1, ?_⟩
    have e : castTo .float32 (2 ^ (-200 : ℤ)) = .num 0 := by
      unfold castTo FloatDtype.format
      dsimp only
      rw [roundTo_small (hp _) (zpow_lt_zpow_right₀ (by norm_num) (by norm_num)) (by norm_num)]
      rw [if_pos (by rw [abs_zero]; exact hp _)]
    rwa [e] at h2
  have w2 : ∃ t, realsArray none none .exact .float16 1 = .ok t ∧ [F64.inf false] ∈ t := by
    obtain ⟨t, h1, h2⟩ := one_draw (dt := .float16) hs (key 20 (by norm_num) (by norm_num))
    refine ⟨t, h1, ?_⟩
    have e : castTo .float16 (2 ^ (20 : ℤ)) = .inf false := by
      have hr : roundTo 10 (-24) ((2 : ℝ) ^ (20 : ℤ)) = 2 ^ (20 : ℤ) := by
        unfold roundTo
        have hl : Int.log 2 |(2 : ℝ) ^ (20 : ℤ)| = 20 := by
          rw [abs_of_pos (hp _)]
          have := Int.log_zpow (R := ℝ) (b := 2) (by norm_num) 20
          push_cast at this
          exact this
        dsimp only
        rw [hl]
        norm_num
        have : halfEven 1024 = 1024 := by
          have := halfEven_intCast 1024
          exact_mod_cast this
        rw [this]
        norm_num
      unfold castTo FloatDtype.format
      dsimp only
      rw [hr, if_neg (by rw [abs_of_pos (hp _)]; norm_num),
        decide_eq_false (not_lt.2 (hp _).le)]
    rwa [e] at h2
  refine ⟨fun H => ?_, w1, w2⟩
  obtain ⟨t, h1, h2⟩ := w1
  obtain ⟨x, hx, -, -, h3, -⟩ := (H _ _ _ _ _ _ h1 _ h2).2 _ (List.mem_singleton_self _)
  injection hx with hx
  exact h3 rfl hx.symm

/-- **C185** (what holds): with the default `dtype=np.float64` the arrays contain finite numbers within
the bounds, without zero if it is excluded. -/
theorem C185_arrays_partial (min max : Option ℝ) (ez : ExcludeZero) (n : ℕ) (s : Set (List F64))
    (h : realsArray min max ez .float64 n = .ok s) (l : List F64) (hl : l ∈ s) :
    l.length = n ∧ ∀ v ∈ l, ∃ x, v = .num x ∧ fl64 x = x ∧ FitsBounds min max ez x := by
  unfold realsArray at h
  rcases hr : realsStrategy min max ez with e | t
  · rw [hr] at h
    cases h
  rw [hr] at h
  injection h with h
  rw [← h] at hl
  refine ⟨hl.1, fun v hv => ?_⟩
  obtain ⟨x, hx, rfl⟩ := hl.2 v hv
  obtain ⟨⟨h1, h2⟩, h3⟩ := strategy_mem hr hx
  refine ⟨x, ?_, h1, h3⟩
  have : roundTo 52 (-1074) x = x := h1
  unfold castTo FloatDtype.format
  dsimp only
  rw [this, if_pos h2]

/-- **C185** (what holds): with any type, a drawn number that is not too large for it is stored as a number,
with the error of rounding to that type. What is missing: numbers that are too large, and bounds and zeros after
the rounding. -/
theorem C185_stored_partial (min max : Option ℝ) (ez : ExcludeZero) (dt : FloatDtype) (n : ℕ)
    (s : Set (List F64)) (h : realsArray min max ez dt n = .ok s) (l : List F64) (hl : l ∈ s) :
    l.length = n ∧ ∀ v ∈ l, ∃ x, FitsBounds min max ez x ∧
      (|x| ≤ (precision dt).2.2 → ∃ y, v = .num y ∧
        |y - x| ≤ Max.max (|x| * (precision dt).1) (precision dt).2.1) := by
  unfold realsArray at h
  rcases hr : realsStrategy min max ez with e | t
  · rw [hr] at h
    cases h
  rw [hr] at h
  injection h with h
  rw [← h] at hl
  refine ⟨hl.1, fun v hv => ?_⟩
  obtain ⟨x, hx, rfl⟩ := hl.2 v hv
  refine ⟨x, (strategy_mem hr hx).2, fun hb => ?_⟩
  have he := roundTo_err dt.format.1 dt.format.2.1 x
  have e1 : (2 : ℝ) ^ (-dt.format.1) / 2 = (precision dt).1 := by
    cases dt <;> norm_num [FloatDtype.format, precision]
  have e2 : (2 : ℝ) ^ dt.format.2.1 / 2 = (precision dt).2.1 := by
    cases dt
    · norm_num [FloatDtype.format, precision]
    · norm_num [FloatDtype.format, precision]
    · change (2 : ℝ) ^ (-1074 : ℤ) / 2 = 1 / 2 ^ 1075
      have h1 := pow_succ (2 : ℝ) 1074
      have h2 := zpow_natCast (2 : ℝ) 1074
      rw [Nat.cast_ofNat] at h2
      rw [zpow_neg, h2, h1, one_div, mul_inv, div_eq_mul_inv]
  have e3 : (precision dt).2.2 * 2 = 2 ^ dt.format.2.2 := by
    cases dt
    · norm_num [FloatDtype.format, precision]
    · norm_num [FloatDtype.format, precision]
    · change (2 : ℝ) ^ 1023 * 2 = 2 ^ (1024 : ℤ)
      have h1 := zpow_add_one₀ (two_ne_zero' ℝ) 1023
      have h2 := zpow_natCast (2 : ℝ) 1023
      rw [Nat.cast_ofNat] at h2
      rw [h2] at h1
      exact h1.symm
  rw [e1, e2] at he
  refine ⟨_, if_pos ?_, he⟩
  have p1 : (precision dt).1 ≤ 1 / 2 := by
    cases dt <;> norm_num [precision]
  have p2 : (precision dt).2.1 < 1 := by
    cases dt
    · norm_num [precision]
    · norm_num [precision]
    · change (1 : ℝ) / 2 ^ 1075 < 1
      rw [div_lt_one (by positivity)]
      exact one_lt_pow₀ (by norm_num) (by norm_num)
  have p3 : 2 ≤ (precision dt).2.2 := by
    cases dt
    · norm_num [precision]
    · norm_num [precision]
    · change (2 : ℝ) ≤ 2 ^ 1023
      exact le_self_pow₀ (by norm_num) (by norm_num)
  rw [← e3]
  have h1 := abs_sub_abs_le_abs_sub (roundTo dt.format.1 dt.format.2.1 x) x
  rcases le_max_iff.1 he with h2 | h2
  · have := mul_le_mul_of_nonneg_left p1 (abs_nonneg x)
    linarith
  · linarith

/-- **C185** `reals` refuses bounds in the wrong order, and nothing else. -/
theorem C185_bounds (min max : Option ℝ) (ez : ExcludeZero) :
    (∃ e, realsStrategy min max ez = .error e) ↔
      ∃ lo hi, min = some lo ∧ max = some hi ∧ hi ≤ lo := by
  rw [← strategy_error min max ez]
  constructor
  · rintro ⟨e, he⟩
    rw [he]
    unfold realsStrategy at he
    split_ifs at he
    injection he with he
    rw [he]
  · exact fun h => ⟨_, h⟩

/-- **C185** The numbers that `reals` draws fit the description, and every `float64` that fits can be
drawn, if zero is not excluded with its neighbourhood. -/
theorem C185_reals (min max : Option ℝ) (ez : ExcludeZero) (s : Set ℝ)
    (h : realsStrategy min max ez = .ok s) :
    (∀ x ∈ s, (fl64 x = x ∧ |x| < 2 ^ (1024 : ℤ)) ∧ FitsBounds min max ez x) ∧
    (ez ≠ .near → ∀ x, fl64 x = x → |x| < 2 ^ (1024 : ℤ) → FitsBounds min max ez x → x ∈ s) := by
  classical
  refine ⟨fun x hx => strategy_mem h hx, fun hez x h1 h2 h3 => ?_⟩
  unfold realsStrategy at h
  split_ifs at h
  injection h with h
  rw [← h]
  refine ⟨⟨h1, h2⟩, fun lo hl => h3.1 lo hl, fun hi hh => h3.2.1 hi hh, ?_⟩
  cases ez
  · trivial
  · exact h3.2.2.1 rfl
  · exact absurd rfl hez

/-- **C185** `test_unit_vectors` passes for all angles, with any `cos` and `sin` that err by at most
`2 ^ -52`, and any `hypot` that errs by at most two units in the last place. -/
theorem C185_test_unit_vectors (A : Arith) (hr : A.rnd = fl64) (H : AccurateHypot A.hypot)
    (cos sin : ℝ → ℝ) (hc : AccurateTrig cos Real.cos) (hs : AccurateTrig sin Real.sin) (phi : ℝ) :
    testUnitVectors A cos sin phi := by
  intro _
  rw [hr]
  refine isCloseF_of_near (hypot_near H (x' := Real.cos phi) (y' := Real.sin phi) ?_ ?_ le_rfl ?_)
  · exact (hc phi).trans (zpow_le_zpow_right₀ (by norm_num) (by norm_num))
  · exact (hs phi).trans (zpow_le_zpow_right₀ (by norm_num) (by norm_num))
  · rw [Real.cos_sq_add_sin_sq, Real.sqrt_one, sub_self, abs_zero]
    positivity

/-- **C185** Both coordinates of the points fit the bounds. -/
theorem C185_points (min max : Option ℝ) (ez : ExcludeZero) (s : Set Vec)
    (h : pointsStrategy min max ez = .ok s) (p : Vec) (hp : p ∈ s) :
    FitsBounds min max ez p.1 ∧ FitsBounds min max ez p.2 := by
  unfold pointsStrategy at h
  rcases hr : realsVecs min max ez 1 with e | t
  · rw [hr] at h
    cases h
  rw [hr] at h
  injection h with h
  rw [← h] at hp
  exact (vecs_mem hr hp).2 p (List.mem_singleton_self _)

/-- **C185** Line strings have the number of vertices asked for, within the bounds; closed ones have one
more, which is the first again. -/
theorem C185_linestrings (min max : Option ℝ) (ez : ExcludeZero) (numVerts : ℕ) (closed : Bool)
    (s : Set (List Vec)) (h : linestringsStrategy min max ez numVerts closed = .ok s) (l : List Vec)
    (hl : l ∈ s) :
    2 ≤ numVerts ∧ (∀ v ∈ l, FitsBounds min max ez v.1 ∧ FitsBounds min max ez v.2) ∧
    (closed = false → l.length = numVerts) ∧
    (closed = true → l.length = numVerts + 1 ∧ ∃ v, l.head? = some v ∧ l.getLast? = some v) := by
  unfold linestringsStrategy at h
  by_cases h2 : numVerts ≥ 2
  swap
  · rw [if_pos h2] at h
    cases h
  rw [if_neg (not_not.2 h2)] at h
  rcases hr : realsVecs min max ez numVerts with e | t
  · rw [hr] at h
    cases h
  rw [hr] at h
  injection h with h
  rw [← h] at hl
  obtain ⟨array, ha, rfl⟩ := hl
  obtain ⟨hlen, hv⟩ := vecs_mem hr ha
  refine ⟨h2, ?_, ?_, ?_⟩
  · intro v hm
    refine hv v ?_
    split_ifs at hm
    · rcases List.mem_append.1 hm with hm | hm
      · exact hm
      · exact List.mem_of_mem_take hm
    · exact hm
  · rintro rfl
    simpa using hlen
  · rintro rfl
    rcases array with _ | ⟨v, rest⟩
    · simp at hlen
      omega
    · refine ⟨?_, v, rfl, ?_⟩
      · rw [← hlen]
        simp
      · rw [if_pos rfl, List.take_one, List.head?_cons]
        exact List.getLast?_concat

/-- **C185** The shells of polygons have the number of vertices asked for, within the bounds. Without
`has_holes` there is no hole; with it the hole has three to five vertices, all of them in the convex
hull of the shell, unless the triangulation fails. -/
theorem C185_polygons (delaunay : List Vec → Option (List (Vec × Vec × Vec)))
    (hd : ∀ l mesh, delaunay l = some mesh → ProperMesh l mesh) (min max : Option ℝ)
    (ez : ExcludeZero) (numVerts : ℕ) (hasHoles : Bool) (s : Set (List Vec × Option (List Vec)))
    (h : polygonsStrategy delaunay min max ez numVerts hasHoles = .ok s)
    (g : List Vec × Option (List Vec)) (hg : g ∈ s) :
    3 ≤ numVerts ∧ g.1.length = numVerts ∧
    (∀ v ∈ g.1, FitsBounds min max ez v.1 ∧ FitsBounds min max ez v.2) ∧
    (hasHoles = false → g.2 = none) ∧ (delaunay g.1 = none → g.2 = none) ∧
    (hasHoles = true → delaunay g.1 ≠ none → ∃ hole, g.2 = some hole) ∧
    (∀ hole, g.2 = some hole → (3 ≤ hole.length ∧ hole.length ≤ 5) ∧
      ∀ p ∈ hole, p ∈ convexHull ℝ {v | v ∈ g.1}) := by
  unfold polygonsStrategy at h
  by_cases h3 : numVerts ≥ 3
  swap
  · rw [if_pos h3] at h
    cases h
  rw [if_neg (not_not.2 h3)] at h
  rcases hr : realsVecs min max ez numVerts with e | t
  · rw [hr] at h
    cases h
  rw [hr] at h
  injection h with h
  rw [← h] at hg
  obtain ⟨hs, hrest⟩ := hg
  obtain ⟨hlen, hv⟩ := vecs_mem hr hs
  refine ⟨h3, hlen, hv, ?_⟩
  cases hasHoles with
  | false =>
    have hn : g.2 = none := by simpa using hrest
    refine ⟨fun _ => hn, fun _ => hn, by simp, ?_⟩
    intro hole hh
    rw [hn] at hh
    cases hh
  | true =>
    simp only [if_true] at hrest
    rcases hm : delaunay g.1 with _ | mesh
    · rw [hm] at hrest
      have hn : g.2 = none := hrest
      refine ⟨by simp, fun _ => hn, by simp, ?_⟩
      intro hole hh
      rw [hn] at hh
      cases hh
    · rw [hm] at hrest
      obtain ⟨rs, hk, hrs, hole, hmap, hh⟩ := hrest
      refine ⟨by simp, by simp, fun _ _ => ⟨hole, hh⟩, ?_⟩
      intro hole' hh'
      rw [hh] at hh'
      injection hh' with hh'
      subst hh'
      obtain ⟨hc, harea⟩ := hd _ _ hm
      have hf := mapM_forall₂ hmap
      have hl := hf.length_eq
      refine ⟨by rw [← hl]; exact hk, ?_⟩
      intro p hp
      obtain ⟨i, hi, rfl⟩ := List.mem_iff_getElem.1 hp
      have hi' : i < rs.length := by rw [hl]; exact hi
      have he := hf.get hi' hi
      obtain ⟨a1, a2, a3⟩ := hrs _ (List.getElem_mem hi')
      obtain ⟨p, e, hp⟩ := C38_polygon (fun _ => mesh) g.1 hc harea rs[i].1 rs[i].2.1 rs[i].2.2
        a1.2 a2.2 a3.1 a3.2
      simp only [List.get_eq_getElem] at he
      rw [e] at he
      injection he with he
      rw [← he]
      exact hp

/-! ### The hypotheses can be met -/

/-- The strategies can draw: the hypotheses of `C185_reals`, `C185_points` and `C185_linestrings` hold
for the unit interval, and of `C185_arrays_partial`. -/
example : (∃ s, realsStrategy (some 0) (some 1) .exact = .ok s ∧ (1 : ℝ) ∈ s) ∧
    (∃ s, pointsStrategy (some 0) (some 1) .exact = .ok s ∧ ((1, 1) : Vec) ∈ s) ∧
    (∃ s, linestringsStrategy (some 0) (some 1) .exact 2 true = .ok s ∧
      ([(1, 1), (1, 1), (1, 1)] : List Vec) ∈ s) ∧
    (∃ s, realsArray (some 0) (some 1) .exact .float64 2 = .ok s ∧ [F64.num 1, F64.num 1] ∈ s) := by
  classical
  obtain ⟨s, hs⟩ : ∃ s, realsStrategy (some 0) (some 1) .exact = .ok s := by
    unfold realsStrategy
    rw [if_neg (by
      rintro ⟨lo, h1, hi, h2, h3⟩
      simp only [Option.mem_def, Option.some.injEq] at h1 h2
      subst h1 h2
      norm_num at h3)]
    exact ⟨_, rfl⟩
  have f1 : fl64 1 = 1 := by simpa using fl64_int (n := 1) (by norm_num)
  have b1 : |(1 : ℝ)| < 2 ^ (1024 : ℤ) := by
    rw [abs_one]
    exact one_lt_zpow₀ (by norm_num) (by norm_num)
  have m1 : (1 : ℝ) ∈ s := by
    refine (C185_reals _ _ _ _ hs).2 (by simp) 1 f1 b1 ⟨?_, ?_, by simp, by simp⟩
    · intro lo h
      injection h with h
      rw [← h]
      norm_num
    · intro hi h
      injection h with h
      rw [← h]
  refine ⟨⟨s, hs, m1⟩, ?_, ?_, ?_⟩
  · unfold pointsStrategy realsVecs
    rw [hs]
    refine ⟨_, rfl, rfl, ?_⟩
    intro v hv
    rw [List.mem_singleton] at hv
    rw [hv]
    exact ⟨m1, m1⟩
  · unfold linestringsStrategy realsVecs
    rw [hs, if_neg (by norm_num)]
    refine ⟨_, rfl, [(1, 1), (1, 1)], ⟨rfl, ?_⟩, rfl⟩
    intro v hv
    simp only [List.mem_cons, List.not_mem_nil, or_false, or_self] at hv
    rw [hv]
    exact ⟨m1, m1⟩
  · unfold realsArray
    rw [hs]
    refine ⟨_, rfl, rfl, ?_⟩
    intro v hv
    simp only [List.mem_cons, List.not_mem_nil, or_false, or_self] at hv
    refine ⟨1, m1, ?_⟩
    rw [hv]
    have : roundTo 52 (-1074) 1 = 1 := f1
    unfold castTo FloatDtype.format
    dsimp only
    rw [this, if_pos b1]

/-- An array of `float16` that can be drawn, as `C185_stored_partial` asks, from the number 1. -/
example : ∃ t, realsArray none none .exact .float16 1 = .ok t ∧ [castTo .float16 1] ∈ t ∧
    |(1 : ℝ)| ≤ (precision .float16).2.2 := by
  obtain ⟨s, hs⟩ := free_strategy .exact
  have f1 : fl64 1 = 1 := by simpa using fl64_int (n := 1) (by norm_num)
  obtain ⟨t, h1, h2⟩ := one_draw (dt := .float16) hs
    (free_mem hs f1 (by rw [abs_one]; exact one_lt_zpow₀ (by norm_num) (by norm_num)) one_ne_zero)
  exact ⟨t, h1, h2, by norm_num [precision]⟩

/-- Bounds in the wrong order. -/
example : ∃ e, realsStrategy (some 1) (some 0) .no = .error e :=
  (C185_bounds _ _ _).2 ⟨1, 0, rfl, rfl, by norm_num⟩

/-- Correctly rounded functions are accurate, as `C185_test_unit_vectors` asks. -/
example : AccurateTrig (fun x => fl64 (Real.cos x)) Real.cos ∧
    AccurateTrig (fun x => fl64 (Real.sin x)) Real.sin := by
  constructor
  · intro x
    exact (fl64_err_abs (Real.abs_cos_le_one x)).trans (by norm_num)
  · intro x
    exact (fl64_err_abs (Real.abs_sin_le_one x)).trans (by norm_num)

/-- A triangulation of a triangle, and a polygon with a hole that can be drawn, as `C185_polygons`
asks. -/
example : ∃ (delaunay : List Vec → Option (List (Vec × Vec × Vec))) (s : _)
    (g : List Vec × Option (List Vec)), (∀ l mesh, delaunay l = some mesh → ProperMesh l mesh) ∧
    polygonsStrategy delaunay none none .no 3 true = .ok s ∧ g ∈ s ∧ ∃ hole, g.2 = some hole := by
  classical
  have hproper : ProperMesh [(0, 0), (1, 0), (0, 1)] [((0, 0), (1, 0), (0, 1))] := by
    refine ⟨by simp, ?_⟩
    norm_num [triArea]
  obtain ⟨s, hs⟩ := free_strategy .no
  have f1 : fl64 1 = 1 := by simpa using fl64_int (n := 1) (by norm_num)
  have b1 : |(1 : ℝ)| < 2 ^ (1024 : ℤ) := by
    rw [abs_one]
    exact one_lt_zpow₀ (by norm_num) (by norm_num)
  have hf : ∀ x, FitsBounds none none .no x := fun x => ⟨by simp, by simp, by simp, by simp⟩
  have m1 : (1 : ℝ) ∈ s := (C185_reals _ _ _ _ hs).2 (by simp) 1 f1 b1 (hf 1)
  have m0 : (0 : ℝ) ∈ s := (C185_reals _ _ _ _ hs).2 (by simp) 0 fl64_zero
    (by rw [abs_zero]; positivity) (hf 0)
  obtain ⟨p, hp, -⟩ := C38_polygon (fun _ => [((0, 0), (1, 0), (0, 1))]) [(0, 0), (1, 0), (0, 1)]
    hproper.1 hproper.2 0 0 0 (by norm_num) (by norm_num) (by norm_num) (by norm_num)
  obtain ⟨d, hd⟩ : ∃ d : List Vec → Option (List (Vec × Vec × Vec)), d = fun l =>
      if l = [(0, 0), (1, 0), (0, 1)] then some [((0, 0), (1, 0), (0, 1))] else none := ⟨_, rfl⟩
  have hd1 : d [(0, 0), (1, 0), (0, 1)] = some [((0, 0), (1, 0), (0, 1))] := by
    rw [hd]
    exact if_pos rfl
  have hS : ∃ S, polygonsStrategy d none none .no 3 true = .ok S ∧
      (([(0, 0), (1, 0), (0, 1)], some [p, p, p]) : List Vec × Option (List Vec)) ∈ S := by
    unfold polygonsStrategy realsVecs
    rw [hs, if_neg (by norm_num)]
    refine ⟨_, rfl, ⟨rfl, ?_⟩, ?_⟩
    · intro v hv
      simp only [List.mem_cons, List.not_mem_nil, or_false] at hv
      rcases hv with rfl | rfl | rfl
      · exact ⟨m0, m0⟩
      · exact ⟨m1, m0⟩
      · exact ⟨m0, m1⟩
    · simp only [if_true, hd1]
      refine ⟨[(0, 0, 0), (0, 0, 0), (0, 0, 0)], by norm_num, ?_, [p, p, p], ?_, rfl⟩
      · intro r hr
        simp only [List.mem_cons, List.not_mem_nil, or_false, or_self] at hr
        rw [hr]
        unfold RandomTriple
        norm_num
      · simp [List.mapM_cons, hp]
  obtain ⟨S, h1, h2⟩ := hS
  refine ⟨d, S, _, ?_, h1, h2, [p, p, p], rfl⟩
  intro l mesh h
  rw [hd] at h
  dsimp only at h
  split_ifs at h with hl
  injection h with h
  rw [← h, hl]
  exact hproper

end CrowdDynamics
