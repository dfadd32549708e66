import Verif.Model.Navigation
import Verif.Spec.Steering
import Verif.Proofs.Vector2D
import Verif.Proofs.CollectiveMotion
import Verif.Proofs.Geometry

/-!
# Lemmas for C56, C57, C76
-/

namespace CrowdDynamics

open Spec

lemma arange_length {a b s : ℝ} (hs : 0 < s) (h : a ≤ b) :
    (arange a (b + s) s).length = ⌈(b - a) / s⌉.toNat + 1 := by
  have h0 : 0 ≤ (b - a) / s := div_nonneg (sub_nonneg.2 h) hs.le
  have e : (b + s - a) / s = (b - a) / s + 1 := by field_simp; ring
  have h1 : 0 ≤ ⌈(b - a) / s⌉ := Int.ceil_nonneg h0
  simp only [arange, List.length_map, List.length_range]
  rw [e, Int.ceil_add_one]
  omega

lemma arange_getD {a b s : ℝ} {k : ℕ} (h : k < (arange a b s).length) :
    (arange a b s).getD k 0 = a + k * s := by
  rw [List.getD_eq_getElem?_getD, List.getElem?_eq_getElem h]
  simp [arange]

lemma truncInt_of_nonneg {x : ℝ} (h : 0 ≤ x) : truncInt x = ⌊x⌋ := if_pos h

/-- When a truncated index is valid. -/
lemma truncInt_inside {x : ℝ} {n : ℕ} (hn : 0 < n) :
    (0 ≤ truncInt x ∧ truncInt x < n) ↔ -1 < x ∧ x < n := by
  unfold truncInt
  split_ifs with h
  · rw [Int.floor_nonneg, Int.floor_lt]
    simp only [Int.cast_natCast]
    exact ⟨fun h' => ⟨by linarith, h'.2⟩, fun h' => ⟨h, h'.2⟩⟩
  · push Not at h
    have h1 : ⌈x⌉ ≤ 0 := Int.ceil_le.2 (by simpa using h.le)
    have hn' : (0 : ℝ) < n := by exact_mod_cast hn
    constructor
    · rintro ⟨h2, _⟩
      have := Int.ceil_lt_add_one x
      have h3 : (0 : ℝ) ≤ ⌈x⌉ := by exact_mod_cast h2
      exact ⟨by linarith, by linarith⟩
    · rintro ⟨h2, _⟩
      refine ⟨?_, by omega⟩
      by_contra h3
      push Not at h3
      have h4 : ⌈x⌉ ≤ -1 := by omega
      have := Int.ceil_le.1 h4
      push_cast at this
      linarith

lemma isInside_iff (a u : ℤ × ℤ) :
    isInside a (0, 0) u = true ↔ (0 ≤ a.1 ∧ a.1 < u.1) ∧ (0 ≤ a.2 ∧ a.2 < u.2) := by
  unfold isInside
  split_ifs with h1 h2 <;> simp_all

lemma dir_of_div (v : Vec) :
    IsDirOf v (if √(v.1 ^ 2 + v.2 ^ 2) = 0 then none
      else some (v.1 / √(v.1 ^ 2 + v.2 ^ 2), v.2 / √(v.1 ^ 2 + v.2 ^ 2))) := by
  by_cases h : √(v.1 ^ 2 + v.2 ^ 2) = 0
  · left
    rw [if_pos h]
    exact ⟨(length_eq_zero (v := v)).1 h, rfl⟩
  · right
    rw [if_neg h]
    refine ⟨fun h0 => h ((length_eq_zero (v := v)).2 h0), ?_⟩
    congr 1
    unfold dir Spec.len
    ext <;> simp [div_eq_inv_mul]

lemma isDirOf_unit {v : Vec} {d : Vec} (h : IsDirOf v (some d)) : Spec.len d = 1 := by
  rcases h with ⟨_, h⟩ | ⟨h0, h⟩
  · simp at h
  · simp only [Option.some.injEq] at h
    have hl : Spec.len v ≠ 0 := fun h1 => h0 ((length_eq_zero (v := v)).1 h1)
    have hp : 0 ≤ Spec.len v := Real.sqrt_nonneg _
    rw [h]
    unfold dir
    have : Spec.len ((Spec.len v)⁻¹ • v) = (Spec.len v)⁻¹ * Spec.len v := by
      show √(((Spec.len v)⁻¹ • v).1 ^ 2 + ((Spec.len v)⁻¹ • v).2 ^ 2) = _
      have e : ((Spec.len v)⁻¹ • v).1 ^ 2 + ((Spec.len v)⁻¹ • v).2 ^ 2 =
          ((Spec.len v)⁻¹) ^ 2 * (v.1 ^ 2 + v.2 ^ 2) := by
        simp only [Prod.smul_fst, Prod.smul_snd, smul_eq_mul]; ring
      rw [e, Real.sqrt_mul (by positivity), Real.sqrt_sq (inv_nonneg.2 hp)]
      rfl
    rw [this, inv_mul_cancel₀ hl]

lemma dir_of_unit {v : Vec} (h : Spec.len v = 1) : dir v = v := by
  unfold dir; rw [h]; simp

lemma cell_far {d radius strength : ℝ} (h : -d ≤ 0 ∨ radius ≤ -d) (e1 : Option Vec) (e2 : Vec) :
    IsDirOf e2 (obstacleHandlingCell d e1 (some e2) radius strength) := by
  unfold obstacleHandlingCell
  have : ¬ (0 < -d ∧ -d < radius) := by
    rintro ⟨h1, h2⟩
    rcases h with h | h <;> linarith
  simp only [if_neg this]
  exact dir_of_div e2

lemma cell_near {d radius strength : ℝ} (h : 0 < -d ∧ -d < radius) (e1 e2 : Vec) :
    IsDirOf (mixture strength radius (-d) e1 e2)
      (obstacleHandlingCell d (some e1) (some e2) radius strength) := by
  unfold obstacleHandlingCell
  simp only [if_pos h]
  have e : mixture strength radius (-d) e1 e2 =
      (-(strength ^ (-d / radius)) * e1.1 + (1 - strength ^ (-d / radius)) * e2.1,
       -(strength ^ (-d / radius)) * e1.2 + (1 - strength ^ (-d / radius)) * e2.2) := by
    unfold mixture obstacleWeight
    ext <;> simp
  rw [e]
  exact dir_of_div _

lemma weight_bounds {strength radius x : ℝ} (hs0 : 0 < strength) (hs1 : strength < 1)
    (hx : 0 < x) (hxr : x < radius) :
    strength < obstacleWeight strength radius x ∧ obstacleWeight strength radius x < 1 := by
  have hr : 0 < radius := hx.trans hxr
  unfold obstacleWeight
  constructor
  · calc strength = strength ^ (1 : ℝ) := (Real.rpow_one _).symm
      _ < strength ^ (x / radius) :=
        Real.rpow_lt_rpow_of_exponent_gt hs0 hs1 ((div_lt_one hr).2 hxr)
  · exact Real.rpow_lt_one hs0.le hs1 (div_pos hx hr)

lemma weight_antitone {strength radius x y : ℝ} (hs0 : 0 < strength) (hs1 : strength < 1)
    (hr : 0 < radius) (h : x < y) :
    obstacleWeight strength radius y < obstacleWeight strength radius x :=
  Real.rpow_lt_rpow_of_exponent_gt hs0 hs1 (div_lt_div_of_pos_right h hr)

/-! ### the loop over the targets -/

lemma navLoop {n : ℕ} (nan : Vec)
    (nav : ℕ → Except PyErr (MeshGrid × Grid (Option ℝ) × Grid (Option Vec)))
    (res : ℕ → MeshGrid × Grid (Option ℝ) × Grid (Option Vec)) (l : List ℕ) (hl : l.Nodup)
    (h : ∀ t ∈ l, nav t = .ok (res t)) (a : Crowd n) :
    ∃ b, l.foldlM (navigationStep nan nav) a = .ok b ∧ ∀ k,
      ((∀ t ∈ l, (a k).target ≠ (t : ℤ)) → b k = a k) ∧
      ∀ t ∈ l, (a k).target = (t : ℤ) → b k = { a k with
        targetDirection := getdefaultRow nan (((res t).1.index (a k).position).2,
          ((res t).1.index (a k).position).1) (res t).2.2 (a k).targetDirection } := by
  induction l generalizing a with
  | nil => exact ⟨a, rfl, fun k => ⟨fun _ => rfl, by simp⟩⟩
  | cons t l ih =>
    rw [List.nodup_cons] at hl
    have hstep : ∃ b, navigationStep nan nav a t = .ok b ∧ ∀ k, b k =
        if (a k).target = (t : ℤ) then { a k with
          targetDirection := getdefaultRow nan (((res t).1.index (a k).position).2,
            ((res t).1.index (a k).position).1) (res t).2.2 (a k).targetDirection }
        else a k := by
      unfold navigationStep
      by_cases hn : n = 0
      · subst hn
        exact ⟨a, by simp, fun k => k.elim0⟩
      · rw [if_neg hn, h t (by simp)]
        exact ⟨_, rfl, fun k => rfl⟩
    obtain ⟨b1, e1, hb1⟩ := hstep
    obtain ⟨b, e, hb⟩ := ih hl.2 (fun t ht => h t (by simp [ht])) b1
    refine ⟨b, ?_, fun k => ?_⟩
    · rw [List.foldlM_cons, e1]; exact e
    · have ht1 : (b1 k).target = (a k).target := by
        rw [hb1]; split_ifs <;> rfl
      obtain ⟨h1, h2⟩ := hb k
      rw [ht1] at h1 h2
      refine ⟨fun hk => ?_, fun s hs hk => ?_⟩
      · rw [h1 fun t ht => hk t (by simp [ht]), hb1, if_neg (hk t (by simp))]
      · rcases List.mem_cons.1 hs with rfl | hs
        · rw [h1 fun t' ht' e' => hl.1 (by
            have : (s : ℤ) = t' := hk.symm.trans e'
            have : s = t' := by exact_mod_cast this
            rw [this]; exact ht'), hb1, if_pos hk]
        · have hne : (a k).target ≠ (t : ℤ) := by
            intro e'
            have : (s : ℤ) = t := hk.symm.trans e'
            have : s = t := by exact_mod_cast this
            exact hl.1 (this ▸ hs)
          have hbk : b1 k = a k := by rw [hb1, if_neg hne]
          rw [h2 s hs hk, hbk]

end CrowdDynamics
