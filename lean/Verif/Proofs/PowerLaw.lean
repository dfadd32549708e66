import Verif.Model.PowerLaw
import Verif.Proofs.Distance
import Verif.Spec.Collision
import Mathlib.Analysis.SpecialFunctions.Sqrt
import Mathlib.Analysis.SpecialFunctions.ExpDeriv
import Mathlib.Analysis.Calculus.Deriv.Inv
import Mathlib.Analysis.Calculus.Deriv.Pow
import Mathlib.Tactic.Linarith
import Mathlib.Tactic.LinearCombination
import Mathlib.Tactic.FieldSimp

/-! # Helper lemmas about `power_law.py` -/

namespace CrowdDynamics

open Real

lemma npSqrt_of_nonneg {x : ℝ} (h : 0 ≤ x) : npSqrt x = some (√x) := by
  unfold npSqrt; rw [if_neg (by linarith)]

lemma npSqrt_of_neg {x : ℝ} (h : x < 0) : npSqrt x = none := by
  unfold npSqrt; rw [if_pos h]

/-- Inversion of `npSqrt`. -/
lemma npSqrt_some {x d : ℝ} (h : npSqrt x = some d) : 0 ≤ x ∧ 0 ≤ d ∧ d ^ 2 = x := by
  unfold npSqrt at h
  split_ifs at h with hx
  have hx : 0 ≤ x := not_lt.1 hx
  obtain rfl := Option.some.inj h
  exact ⟨hx, sqrt_nonneg _, sq_sqrt hx⟩

lemma npSqrt_eq_of_sq {x d : ℝ} (hd : 0 ≤ d) (h : d ^ 2 = x) : npSqrt x = some d := by
  subst h
  rw [npSqrt_of_nonneg (sq_nonneg d), sqrt_sq hd]

/-- Squared distance of the centres after time `t`. -/
lemma sep_sq (x v : Vec) (t : ℝ) :
    Spec.len (x + t • v) ^ 2 = dot x x + 2 * t * dot x v + t ^ 2 * dot v v := by
  rw [← length_eq, length_sq]
  simp only [dot, Prod.fst_add, Prod.snd_add, Prod.smul_fst, Prod.smul_snd, smul_eq_mul]
  ring

lemma sep_identity (x v : Vec) (r t : ℝ) :
    dot v v * (Spec.len (x + t • v) ^ 2 - r ^ 2) =
      (dot v v * t - -dot x v) ^ 2 - ((-dot x v) ^ 2 - dot v v * (dot x x - r ^ 2)) := by
  rw [sep_sq]; ring

lemma len_nonneg' (v : Vec) : 0 ≤ Spec.len v := sqrt_nonneg _

lemma dot_self_nonneg (v : Vec) : 0 ≤ dot v v := by
  rw [dot_self]; positivity

/-- A positive smaller root of the quadratic is the first time of contact, and the discs
overlap afterwards. -/
lemma firstTouch_of_root {x v : Vec} {r d tau : ℝ} (hr : 0 ≤ r) (ha : 0 < dot v v) (hd : 0 < d)
    (hd2 : d ^ 2 = (-dot x v) ^ 2 - dot v v * (dot x x - r ^ 2))
    (htau : tau = (-dot x v - d) / dot v v) (hpos : 0 < tau) :
    Spec.FirstTouch x v r tau ∧ Spec.WillOverlap x v r := by
  have hta : dot v v * tau - -dot x v = -d := by rw [htau]; field_simp; ring
  refine ⟨⟨hpos.le, ?_, ?_⟩, ?_⟩
  · have h := sep_identity x v r tau
    rw [hta, ← hd2] at h
    have h0 : Spec.len (x + tau • v) ^ 2 = r ^ 2 := by
      have : dot v v * (Spec.len (x + tau • v) ^ 2 - r ^ 2) = 0 := by rw [h]; ring
      rcases mul_eq_zero.1 this with h | h
      · exact absurd h ha.ne'
      · linarith
    exact (pow_left_inj₀ (len_nonneg' _) hr two_ne_zero).1 h0
  · intro s _ hs
    have h := sep_identity x v r s
    rw [← hd2] at h
    have h1 : dot v v * s - -dot x v < -d := by
      rw [← hta]; have := mul_lt_mul_of_pos_left hs ha; linarith
    have h2 : 0 < dot v v * (Spec.len (x + s • v) ^ 2 - r ^ 2) := by rw [h]; nlinarith
    have h3 := (mul_pos_iff_of_pos_left ha).1 h2
    exact lt_of_pow_lt_pow_left₀ 2 (len_nonneg' _) (by linarith)
  · refine ⟨tau + d / dot v v, by positivity, ?_⟩
    have h := sep_identity x v r (tau + d / dot v v)
    have h0 : dot v v * (tau + d / dot v v) - -dot x v = 0 := by
      have : dot v v * (tau + d / dot v v) = dot v v * tau + d := by field_simp
      rw [this]; linarith
    rw [h0, ← hd2] at h
    have h2 : dot v v * (r ^ 2 - Spec.len (x + (tau + d / dot v v) • v) ^ 2) = d ^ 2 := by
      linarith
    have h3 : 0 < r ^ 2 - Spec.len (x + (tau + d / dot v v) • v) ^ 2 :=
      (mul_pos_iff_of_pos_left ha).1 (by rw [h2]; positivity)
    exact lt_of_pow_lt_pow_left₀ 2 hr (by linarith)

/-- If discs that are apart will overlap, the discriminant and the smaller root are
positive. -/
lemma root_of_overlap {x v : Vec} {r : ℝ} (hapart : r < Spec.len x) (hr : 0 ≤ r)
    (hov : Spec.WillOverlap x v r) :
    0 < dot v v ∧ 0 < (-dot x v) ^ 2 - dot v v * (dot x x - r ^ 2) ∧
      0 < (-dot x v - √((-dot x v) ^ 2 - dot v v * (dot x x - r ^ 2))) / dot v v := by
  obtain ⟨s, hs, hlt⟩ := hov
  have hc : 0 < dot x x - r ^ 2 := by
    rw [dot_self, length_eq]
    have := pow_lt_pow_left₀ hapart hr two_ne_zero
    linarith
  have hq : Spec.len (x + s • v) ^ 2 < r ^ 2 := pow_lt_pow_left₀ hlt (len_nonneg' _) two_ne_zero
  have hq' := hq
  rw [sep_sq] at hq'
  have ha : 0 < dot v v := by
    rcases (dot_self_nonneg v).lt_or_eq with h | h
    · exact h
    · exfalso
      have hv : v = 0 := by
        rw [dot_self] at h
        exact length_eq_zero.1 (pow_eq_zero_iff two_ne_zero |>.1 h.symm)
      rw [hv] at hq'
      simp only [dot, Prod.fst_zero, Prod.snd_zero] at hq' hc
      nlinarith
  have hdisc : 0 < (-dot x v) ^ 2 - dot v v * (dot x x - r ^ 2) := by
    have h := sep_identity x v r s
    have : dot v v * (Spec.len (x + s • v) ^ 2 - r ^ 2) < 0 :=
      mul_neg_of_pos_of_neg ha (by linarith)
    nlinarith [sq_nonneg (dot v v * s - -dot x v)]
  refine ⟨ha, hdisc, div_pos ?_ ha⟩
  have hb : 0 < -dot x v := by nlinarith [mul_nonneg (sq_nonneg s) ha.le]
  have : √((-dot x v) ^ 2 - dot v v * (dot x x - r ^ 2)) < -dot x v := by
    rw [sqrt_lt' hb]
    nlinarith [mul_pos ha hc]
  linarith

/-- A first contact that is followed by a proper overlap starts with the discs apart. -/
lemma apart_of_firstTouch {x v : Vec} {r t : ℝ} (ht : 0 < t) (h : Spec.FirstTouch x v r t) :
    r < Spec.len x := by
  have := h.2.2 0 le_rfl ht
  simpa using this

lemma firstTouch_unique {x v : Vec} {r s t : ℝ} (hs : Spec.FirstTouch x v r s)
    (ht : Spec.FirstTouch x v r t) : s = t := by
  rcases lt_trichotomy s t with h | h | h
  · exact absurd hs.2.1 (ne_of_gt (ht.2.2 s hs.1 h))
  · exact h
  · exact absurd ht.2.1 (ne_of_gt (hs.2.2 t ht.1 h))

lemma touchTime_eq {x v : Vec} {r t : ℝ} (h : Spec.FirstTouch x v r t) :
    Spec.touchTime x v r = t := by
  have : IsLeast {t | 0 ≤ t ∧ Spec.len (x + t • v) ≤ r} t := by
    refine ⟨⟨h.1, h.2.1.le⟩, ?_⟩
    rintro s ⟨hs0, hs⟩
    by_contra hlt
    exact absurd (h.2.2 s hs0 (not_le.1 hlt)) (not_lt.2 hs)
  exact this.csInf_eq

/-- The result of `time_to_collision_circle_circle`. -/
lemma timeToCollision_some {x v : Vec} {r tau : ℝ} {g : Vec}
    (h : timeToCollisionCircleCircle x v r = some (tau, g)) :
    ∃ d, 0 < d ∧ 0 < dot v v ∧ d ^ 2 = (-dot x v) ^ 2 - dot v v * (dot x x - r ^ 2) ∧
      tau = (-dot x v - d) / dot v v ∧ 0 < tau ∧
      g = gradientCircleCircle x v (dot v v) (-dot x v) d := by
  unfold timeToCollisionCircleCircle at h
  simp only at h
  cases hd : npSqrt ((-dot x v) ^ 2 - dot v v * (dot x x - r ^ 2)) with
  | none => rw [hd] at h; simp at h
  | some d =>
    rw [hd] at h
    simp only at h
    split_ifs at h with h1 h2
    obtain ⟨-, hd0, hd2⟩ := npSqrt_some hd
    push Not at h1
    obtain ⟨rfl, rfl⟩ := Prod.mk.inj (Option.some.inj h)
    exact ⟨d, lt_of_le_of_ne hd0 (Ne.symm h1.1),
      lt_of_le_of_ne (dot_self_nonneg v) (Ne.symm h1.2), hd2, rfl, not_le.1 h2, rfl⟩

lemma timeToCollision_of_root {x v : Vec} {r d : ℝ} (hd : 0 < d) (ha : 0 < dot v v)
    (hd2 : d ^ 2 = (-dot x v) ^ 2 - dot v v * (dot x x - r ^ 2))
    (hpos : 0 < (-dot x v - d) / dot v v) :
    timeToCollisionCircleCircle x v r = some ((-dot x v - d) / dot v v,
      gradientCircleCircle x v (dot v v) (-dot x v) d) := by
  unfold timeToCollisionCircleCircle
  simp only
  rw [npSqrt_eq_of_sq hd.le hd2]
  simp only
  rw [if_neg (by push Not; exact ⟨hd.ne', ha.ne'⟩), if_neg (not_le.2 hpos)]

/-- The social force of circular agents in terms of the time to collision. -/
lemma forceSocialCircular_eq (ai aj : Agent) :
    forceSocialCircular ai aj =
      match timeToCollisionCircleCircle (ai.position - aj.position) (ai.velocity - aj.velocity)
        (ai.radius + aj.radius) with
      | none => (0, 0)
      | some (tau, grad) => if tau > 30 then (0, 0) else socialForces ai aj grad tau := by
  unfold forceSocialCircular timeToCollisionCircleCircle
  simp only
  generalize ai.position - aj.position = x
  generalize ai.velocity - aj.velocity = v
  generalize ai.radius + aj.radius = r
  cases hd : npSqrt ((-dot x v) ^ 2 - dot v v * (dot x x - r ^ 2)) with
  | none => simp
  | some d =>
    simp only
    by_cases h1 : d = 0 ∨ dot v v = 0
    · rw [if_pos h1, if_pos h1]
    · rw [if_neg h1, if_neg h1]
      by_cases h2 : (-dot x v - d) / dot v v ≤ 0
      · rw [if_pos (Or.inl h2), if_pos h2]
      · rw [if_neg h2]
        by_cases h3 : (-dot x v - d) / dot v v > 30
        · rw [if_pos (Or.inr h3)]; simp only; rw [if_pos h3]
        · rw [if_neg (by push Not; exact ⟨not_le.1 h2, not_lt.1 h3⟩)]; simp only; rw [if_neg h3]

/-- Derivative of the first time of contact with respect to the relative position. -/
lemma touchTime_hasFDerivAt {x v : Vec} {r d : ℝ} (hr : 0 ≤ r) (ha : 0 < dot v v)
    (hd : 0 < d) (hd2 : d ^ 2 = (-dot x v) ^ 2 - dot v v * (dot x x - r ^ 2))
    (hpos : 0 < (-dot x v - d) / dot v v) :
    HasFDerivAt (fun y : Vec => Spec.touchTime y v r)
      (-((gradientCircleCircle x v (dot v v) (-dot x v) d).1 • ContinuousLinearMap.fst ℝ ℝ ℝ +
         (gradientCircleCircle x v (dot v v) (-dot x v) d).2 • ContinuousLinearMap.snd ℝ ℝ ℝ)) x := by
  set a := dot v v with hadef
  have hsq : √((-dot x v) ^ 2 - a * (dot x x - r ^ 2)) = d := by
    rw [← hd2, sqrt_sq hd.le]
  -- the explicit formula for the touch time
  set T : Vec → ℝ := fun y => (-dot y v - √((-dot y v) ^ 2 - a * (dot y y - r ^ 2))) / a with hT
  have hTx : T x = (-dot x v - d) / a := by rw [hT]; simp only; rw [hsq]
  have hcont : Continuous (fun y : Vec => (-dot y v) ^ 2 - a * (dot y y - r ^ 2)) := by
    unfold dot; fun_prop
  have hTcont : Continuous T := by
    rw [hT]; unfold dot; fun_prop
  have hev : ∀ᶠ y in nhds x, Spec.touchTime y v r = T y := by
    have h1 : ∀ᶠ y in nhds x, 0 < (-dot y v) ^ 2 - a * (dot y y - r ^ 2) :=
      hcont.continuousAt.eventually (lt_mem_nhds (by
        show 0 < (-dot x v) ^ 2 - a * (dot x x - r ^ 2)
        rw [← hd2]; positivity))
    have h2 : ∀ᶠ y in nhds x, 0 < T y :=
      hTcont.continuousAt.eventually (lt_mem_nhds (by rw [hTx]; exact hpos))
    filter_upwards [h1, h2] with y h1 h2
    exact touchTime_eq (firstTouch_of_root hr ha (sqrt_pos.2 h1) (sq_sqrt h1.le) rfl h2).1
  have hb : HasFDerivAt (fun y : Vec => -dot y v)
      (-(v.1 • ContinuousLinearMap.fst ℝ ℝ ℝ + v.2 • ContinuousLinearMap.snd ℝ ℝ ℝ)) x := by
    have := ((hasFDerivAt_fst (𝕜 := ℝ) (p := x)).mul_const v.1).add
      ((hasFDerivAt_snd (𝕜 := ℝ) (p := x)).mul_const v.2)
    exact this.neg
  have hxx : HasFDerivAt (fun y : Vec => dot y y)
      ((2 * x.1) • ContinuousLinearMap.fst ℝ ℝ ℝ + (2 * x.2) • ContinuousLinearMap.snd ℝ ℝ ℝ) x := by
    have h1 := (hasFDerivAt_fst (𝕜 := ℝ) (p := x))
    have h2 := (hasFDerivAt_snd (𝕜 := ℝ) (p := x))
    have := (h1.mul h1).add (h2.mul h2)
    refine this.congr_fderiv ?_
    ext <;> simp <;> ring
  have hD : HasFDerivAt (fun y : Vec => (-dot y v) ^ 2 - a * (dot y y - r ^ 2)) _ x :=
    (hb.pow 2).sub ((hxx.sub_const (r ^ 2)).const_mul a)
  have hS := hD.sqrt (by rw [← hd2]; positivity)
  rw [hsq] at hS
  have hTd := (hb.sub hS).mul_const a⁻¹
  have hTd' : HasFDerivAt T (-((gradientCircleCircle x v a (-dot x v) d).1 •
      ContinuousLinearMap.fst ℝ ℝ ℝ + (gradientCircleCircle x v a (-dot x v) d).2 •
      ContinuousLinearMap.snd ℝ ℝ ℝ)) x := by
    refine (hTd.congr_fderiv ?_).congr_of_eventuallyEq ?_
    · ext
      · simp [gradientCircleCircle]
        field_simp
        ring
      · simp [gradientCircleCircle]
        field_simp
        ring
    · exact Filter.Eventually.of_forall fun y => by
        rw [hT]; simp only [div_eq_mul_inv]; rfl
  exact hTd'.congr_of_eventuallyEq hev

/-- Derivative of the energy with respect to the time to collision. -/
lemma energy_hasDerivAt (k tau0 : ℝ) {t : ℝ} (hne : t ≠ 0) :
    HasDerivAt (fun t : ℝ => Spec.anticipationEnergy k tau0 t) (-(k * magnitude t tau0)) t := by
  unfold Spec.anticipationEnergy
  have h1 : HasDerivAt (fun t : ℝ => k / t ^ 2) _ t :=
    (hasDerivAt_const t k).div (hasDerivAt_pow 2 t) (pow_ne_zero 2 hne)
  have h2 : HasDerivAt (fun t : ℝ => exp (-t / tau0)) _ t :=
    ((hasDerivAt_id t).neg.div_const tau0).exp
  refine (h1.mul h2).congr_deriv ?_
  unfold magnitude
  simp only [id, Pi.neg_apply]
  by_cases h0 : tau0 = 0
  · subst h0; simp; field_simp
  · simp; field_simp; ring

/-- Derivative of the energy with respect to the relative position. -/
lemma energy_hasFDerivAt {x v : Vec} {r d : ℝ} (k tau0 : ℝ) (hr : 0 ≤ r) (ha : 0 < dot v v)
    (hd : 0 < d) (hd2 : d ^ 2 = (-dot x v) ^ 2 - dot v v * (dot x x - r ^ 2))
    (hpos : 0 < (-dot x v - d) / dot v v) :
    HasFDerivAt (fun y : Vec => Spec.anticipationEnergy k tau0 (Spec.touchTime y v r))
      ((k * magnitude ((-dot x v - d) / dot v v) tau0) •
        ((gradientCircleCircle x v (dot v v) (-dot x v) d).1 • ContinuousLinearMap.fst ℝ ℝ ℝ +
         (gradientCircleCircle x v (dot v v) (-dot x v) d).2 • ContinuousLinearMap.snd ℝ ℝ ℝ)) x := by
  have ht : Spec.touchTime x v r = (-dot x v - d) / dot v v :=
    touchTime_eq (firstTouch_of_root hr ha hd hd2 rfl hpos).1
  have hE := energy_hasDerivAt k tau0 (t := Spec.touchTime x v r) (by rw [ht]; exact hpos.ne')
  have hfin := hE.comp_hasFDerivAt x (touchTime_hasFDerivAt hr ha hd hd2 hpos)
  refine hfin.congr_fderiv ?_
  rw [ht]
  ext <;> simp

/-- Gradients are unique. -/
lemma isGradientAt_unique {E : Vec → ℝ} {g g' p : Vec} (h : Spec.IsGradientAt E g p)
    (h' : Spec.IsGradientAt E g' p) : g = g' := by
  obtain ⟨L, hL, hg⟩ := h
  obtain ⟨L', hL', hg'⟩ := h'
  have e := hL.unique hL'
  subst e
  have h1 := (hg (1, 0)).symm.trans (hg' (1, 0))
  have h2 := (hg (0, 1)).symm.trans (hg' (0, 1))
  simp only [Spec.inner, mul_one, mul_zero, add_zero, zero_add] at h1 h2
  exact Prod.ext h1 h2

/-- The gradient of the energy as a function of the position `p` of the first centre, where
`q` is the position of the second. -/
lemma energy_gradient_fst {x v q : Vec} {r d : ℝ} (k tau0 : ℝ) (hr : 0 ≤ r) (ha : 0 < dot v v)
    (hd : 0 < d) (hd2 : d ^ 2 = (-dot (x - q) v) ^ 2 - dot v v * (dot (x - q) (x - q) - r ^ 2))
    (hpos : 0 < (-dot (x - q) v - d) / dot v v) :
    Spec.IsGradientAt
      (fun y : Vec => Spec.anticipationEnergy k tau0 (Spec.touchTime (y - q) v r))
      ((k * magnitude ((-dot (x - q) v - d) / dot v v) tau0) •
        gradientCircleCircle (x - q) v (dot v v) (-dot (x - q) v) d) x := by
  refine ⟨_, HasFDerivAt.comp (f := fun y : Vec => y - q)
    (g := fun y : Vec => Spec.anticipationEnergy k tau0 (Spec.touchTime y v r)) x
    (energy_hasFDerivAt k tau0 hr ha hd hd2 hpos) ((hasFDerivAt_id x).sub_const q), fun u => ?_⟩
  simp [Spec.inner]
  ring

/-- The gradient of the energy as a function of the position of the second centre. -/
lemma energy_gradient_snd {x v q : Vec} {r d : ℝ} (k tau0 : ℝ) (hr : 0 ≤ r) (ha : 0 < dot v v)
    (hd : 0 < d) (hd2 : d ^ 2 = (-dot (x - q) v) ^ 2 - dot v v * (dot (x - q) (x - q) - r ^ 2))
    (hpos : 0 < (-dot (x - q) v - d) / dot v v) :
    Spec.IsGradientAt
      (fun y : Vec => Spec.anticipationEnergy k tau0 (Spec.touchTime (x - y) v r))
      (-((k * magnitude ((-dot (x - q) v - d) / dot v v) tau0) •
        gradientCircleCircle (x - q) v (dot v v) (-dot (x - q) v) d)) q := by
  refine ⟨_, HasFDerivAt.comp (f := fun y : Vec => x - y)
    (g := fun y : Vec => Spec.anticipationEnergy k tau0 (Spec.touchTime y v r)) q
    (energy_hasFDerivAt k tau0 hr ha hd hd2 hpos) ((hasFDerivAt_id q).const_sub x), fun u => ?_⟩
  simp [Spec.inner]
  ring

lemma cappedTo_truncate {l : ℝ} (hl : 0 < l) (f : Vec) : Spec.CappedTo l f (truncate f l) := by
  refine ⟨fun h => truncate_of_le h, fun h => ?_⟩
  have h' : l < length f := h
  have hpos : 0 < length f := hl.trans h'
  have e := truncate_of_gt h'
  refine ⟨⟨length f, l, hpos, hl, ?_⟩, ?_⟩
  · rw [e]
    ext <;> simp <;> field_simp
  · rw [e]
    rw [← length_eq]
    rw [length_smul, abs_of_pos (by positivity)]
    field_simp


lemma cappedTo_smul {f g : Vec} (h : f = g) : Spec.CappedTo 2000 f (truncate g fSocMax) := by
  subst h
  exact cappedTo_truncate (by norm_num) f

lemma magnitude_pos {tau tau0 : ℝ} (h : 0 < tau) (h0 : 0 < tau0) : 0 < magnitude tau tau0 := by
  unfold magnitude; positivity

/-- Both forces as multiples of the gradient. -/
lemma truncate_smul_pos {c : ℝ} (v : Vec) : ∃ e : ℝ, 0 < e ∧ e ≤ 1 ∧
    truncate (c • v) fSocMax = e • c • v := by
  by_cases h : length (c • v) ≤ fSocMax
  · exact ⟨1, one_pos, le_rfl, by rw [truncate_of_le h, one_smul]⟩
  · have h' := not_le.1 h
    have hp : (0:ℝ) < fSocMax := by norm_num [fSocMax]
    refine ⟨fSocMax / length (c • v), div_pos hp (hp.trans h'),
      (div_le_one (hp.trans h')).2 h'.le, ?_⟩
    rw [truncate_of_gt h']

/-! ## The search loop of the three-circle force -/

/-- Time, `b` and `d` of one pair of circles; `none` if the time is not defined. -/
noncomputable def pairTime (x v : Vec) (r a : ℝ) : Option (ℝ × ℝ × ℝ) :=
  match npSqrt ((-dot x v) ^ 2 - a * (dot x x - r ^ 2)) with
  | none => none
  | some d => open Classical in
    if d = 0 then none else some ((-dot x v - d) / a, -dot x v, d)

lemma contactStep_eq (xi : Fin 3 → Vec) (ri : Fin 3 → ℝ) (xj : Fin 3 → Vec) (rj : Fin 3 → ℝ)
    (v : Vec) (a : ℝ) (s : Option Contact) (k : Fin 3 × Fin 3) :
    contactStep xi ri xj rj v a s k =
      match pairTime (xi k.1 - xj k.2) v (ri k.1 + rj k.2) a with
      | none => s
      | some (t, b, d) =>
        match s with
        | none => some ⟨k.1, k.2, t, b, d⟩
        | some s' => open Classical in
          if 0 < t ∧ t < s'.tau then some ⟨k.1, k.2, t, b, d⟩ else some s' := by
  unfold contactStep pairTime
  simp only
  cases npSqrt ((-dot (xi k.1 - xj k.2) v) ^ 2 - a *
    (dot (xi k.1 - xj k.2) (xi k.1 - xj k.2) - (ri k.1 + rj k.2) ^ 2)) with
  | none => rfl
  | some d =>
    simp only
    by_cases hd : d = 0
    · simp [hd]
    · cases s <;> simp [hd]

lemma pairTime_some {x v : Vec} {r a t b d : ℝ} (h : pairTime x v r a = some (t, b, d)) :
    0 < d ∧ d ^ 2 = (-dot x v) ^ 2 - a * (dot x x - r ^ 2) ∧ b = -dot x v ∧
      t = (-dot x v - d) / a := by
  unfold pairTime at h
  cases hd : npSqrt ((-dot x v) ^ 2 - a * (dot x x - r ^ 2)) with
  | none => rw [hd] at h; simp at h
  | some e =>
    rw [hd] at h
    simp only at h
    split_ifs at h with h0
    obtain ⟨-, he0, he2⟩ := npSqrt_some hd
    simp only [Option.some.injEq, Prod.mk.injEq] at h
    obtain ⟨rfl, rfl, rfl⟩ := h
    exact ⟨lt_of_le_of_ne he0 (Ne.symm h0), he2, rfl, rfl⟩

lemma pairTime_of_root {x v : Vec} {r a d : ℝ} (hd : 0 < d)
    (hd2 : d ^ 2 = (-dot x v) ^ 2 - a * (dot x x - r ^ 2)) :
    pairTime x v r a = some ((-dot x v - d) / a, -dot x v, d) := by
  unfold pairTime
  rw [npSqrt_eq_of_sq hd.le hd2]
  simp only
  rw [if_neg hd.ne']

lemma pairTime_none {x v : Vec} {r a : ℝ}
    (h : (-dot x v) ^ 2 - a * (dot x x - r ^ 2) < 0) : pairTime x v r a = none := by
  unfold pairTime
  rw [npSqrt_of_neg h]

/-- Positive times of a pair are exactly the first contacts followed by an overlap. -/
lemma pairTime_touch {x v : Vec} {r t b d : ℝ} (hr : 0 ≤ r) (ha : 0 < dot v v)
    (h : pairTime x v r (dot v v) = some (t, b, d)) (ht : 0 < t) :
    Spec.FirstTouch x v r t ∧ Spec.WillOverlap x v r := by
  obtain ⟨hd, hd2, -, ht'⟩ := pairTime_some h
  exact firstTouch_of_root hr ha hd hd2 ht' ht

lemma pairTime_of_touch {x v : Vec} {r t : ℝ} (hr : 0 ≤ r) (ht : 0 < t)
    (h1 : Spec.FirstTouch x v r t) (h2 : Spec.WillOverlap x v r) :
    0 < dot v v ∧ ∃ b d, pairTime x v r (dot v v) = some (t, b, d) := by
  obtain ⟨ha, hD, hpos⟩ := root_of_overlap (apart_of_firstTouch ht h1) hr h2
  refine ⟨ha, -dot x v, √((-dot x v) ^ 2 - dot v v * (dot x x - r ^ 2)), ?_⟩
  rw [pairTime_of_root (sqrt_pos.2 hD) (sq_sqrt hD.le)]
  have := firstTouch_unique h1
    (firstTouch_of_root hr ha (sqrt_pos.2 hD) (sq_sqrt hD.le) rfl hpos).1
  rw [this]

section fold

variable (xi : Fin 3 → Vec) (ri : Fin 3 → ℝ) (xj : Fin 3 → Vec) (rj : Fin 3 → ℝ) (v : Vec) (a : ℝ)

/-- What the search loop has found after the pairs `done`. -/
def ContactInv (done : List (Fin 3 × Fin 3)) (s : Option Contact) : Prop :=
  match s with
  | none => ∀ k ∈ done, pairTime (xi k.1 - xj k.2) v (ri k.1 + rj k.2) a = none
  | some c => (c.i, c.j) ∈ done ∧
      pairTime (xi c.i - xj c.j) v (ri c.i + rj c.j) a = some (c.tau, c.b, c.d) ∧
      ∀ k ∈ done, ∀ t b d, pairTime (xi k.1 - xj k.2) v (ri k.1 + rj k.2) a = some (t, b, d) →
        0 < t → 0 < c.tau → c.tau ≤ t

lemma contactInv_step (done : List (Fin 3 × Fin 3)) (s : Option Contact) (k : Fin 3 × Fin 3)
    (h : ContactInv xi ri xj rj v a done s) :
    ContactInv xi ri xj rj v a (done ++ [k]) (contactStep xi ri xj rj v a s k) := by
  rw [contactStep_eq]
  cases hk : pairTime (xi k.1 - xj k.2) v (ri k.1 + rj k.2) a with
  | none =>
    simp only
    cases s with
    | none =>
      intro k' hk'
      rcases List.mem_append.1 hk' with h' | h'
      · exact h k' h'
      · rw [List.mem_singleton.1 h']; exact hk
    | some c =>
      refine ⟨List.mem_append_left _ h.1, h.2.1, fun k' hk' t b d e => ?_⟩
      rcases List.mem_append.1 hk' with h' | h'
      · exact h.2.2 k' h' t b d e
      · rw [List.mem_singleton.1 h', hk] at e; simp at e
  | some tbd =>
    obtain ⟨t, b, d⟩ := tbd
    simp only
    cases s with
    | none =>
      refine ⟨by simp, hk, fun k' hk' t' b' d' e ht' _ => ?_⟩
      rcases List.mem_append.1 hk' with h' | h'
      · rw [h k' h'] at e; simp at e
      · rw [List.mem_singleton.1 h', hk] at e
        simp only [Option.some.injEq, Prod.mk.injEq] at e
        exact e.1.le
    | some c =>
      simp only
      split_ifs with hc
      · refine ⟨by simp, hk, fun k' hk' t' b' d' e ht' _ => ?_⟩
        rcases List.mem_append.1 hk' with h' | h'
        · exact hc.2.le.trans (h.2.2 k' h' t' b' d' e ht' (hc.1.trans hc.2))
        · rw [List.mem_singleton.1 h', hk] at e
          simp only [Option.some.injEq, Prod.mk.injEq] at e
          exact e.1.le
      · refine ⟨List.mem_append_left _ h.1, h.2.1, fun k' hk' t' b' d' e ht' hp => ?_⟩
        rcases List.mem_append.1 hk' with h' | h'
        · exact h.2.2 k' h' t' b' d' e ht' hp
        · rw [List.mem_singleton.1 h', hk] at e
          simp only [Option.some.injEq, Prod.mk.injEq] at e
          obtain ⟨rfl, -⟩ := e
          by_contra hlt
          exact hc ⟨ht', not_le.1 hlt⟩

lemma contactInv_fold (l : List (Fin 3 × Fin 3)) : ∀ (done : List (Fin 3 × Fin 3))
    (s : Option Contact), ContactInv xi ri xj rj v a done s →
    ContactInv xi ri xj rj v a (done ++ l) (l.foldl (contactStep xi ri xj rj v a) s) := by
  induction l with
  | nil => intro done s h; simpa using h
  | cons k l ih =>
    intro done s h
    have := ih (done ++ [k]) _ (contactInv_step xi ri xj rj v a done s k h)
    simpa using this

lemma contactInv_result :
    ContactInv xi ri xj rj v a pairs33 (pairs33.foldl (contactStep xi ri xj rj v a) none) := by
  have := contactInv_fold xi ri xj rj v a pairs33 [] none (by intro k hk; simp at hk)
  simpa using this

/-- Once a time has been found, it can only get smaller but stays positive. -/
lemma fold_tau_pos (l : List (Fin 3 × Fin 3)) : ∀ c : Contact, 0 < c.tau →
    ∃ c', l.foldl (contactStep xi ri xj rj v a) (some c) = some c' ∧ 0 < c'.tau := by
  induction l with
  | nil => intro c hc; exact ⟨c, rfl, hc⟩
  | cons k l ih =>
    intro c hc
    rw [List.foldl_cons, contactStep_eq]
    cases pairTime (xi k.1 - xj k.2) v (ri k.1 + rj k.2) a with
    | none => exact ih c hc
    | some tbd =>
      obtain ⟨t, b, d⟩ := tbd
      simp only
      split_ifs with h
      · exact ih _ h.1
      · exact ih c hc

/-- If the first pair with a defined time has a positive one, the result is positive. -/
lemma fold_tau_pos_of_first (pre post : List (Fin 3 × Fin 3)) (k : Fin 3 × Fin 3)
    (hpre : ∀ q ∈ pre, pairTime (xi q.1 - xj q.2) v (ri q.1 + rj q.2) a = none) {t b d : ℝ}
    (hk : pairTime (xi k.1 - xj k.2) v (ri k.1 + rj k.2) a = some (t, b, d)) (ht : 0 < t) :
    ∃ c, (pre ++ k :: post).foldl (contactStep xi ri xj rj v a) none = some c ∧ 0 < c.tau := by
  rw [List.foldl_append]
  have hp : pre.foldl (contactStep xi ri xj rj v a) none = none := by
    induction pre with
    | nil => rfl
    | cons q pre ih =>
      rw [List.foldl_cons, contactStep_eq, hpre q (by simp)]
      exact ih fun q' hq' => hpre q' (by simp [hq'])
  rw [hp, List.foldl_cons, contactStep_eq, hk]
  exact fold_tau_pos xi ri xj rj v a post _ ht

/-- If the first pair with a defined time has a nonpositive one, the search is stuck. -/
lemma fold_stuck (post : List (Fin 3 × Fin 3)) : ∀ c : Contact, c.tau ≤ 0 →
    post.foldl (contactStep xi ri xj rj v a) (some c) = some c := by
  induction post with
  | nil => intro c _; rfl
  | cons k l ih =>
    intro c hc
    rw [List.foldl_cons, contactStep_eq]
    cases pairTime (xi k.1 - xj k.2) v (ri k.1 + rj k.2) a with
    | none => exact ih c hc
    | some tbd =>
      obtain ⟨t, b, d⟩ := tbd
      simp only
      rw [if_neg (by rintro ⟨h1, h2⟩; linarith)]
      exact ih c hc

end fold

/-! ## Symmetries -/

lemma dot_neg_neg (u v : Vec) : dot (-u) (-v) = dot u v := by simp [dot]

lemma gradientCircleCircle_neg (x v : Vec) (a b d : ℝ) :
    gradientCircleCircle (-x) (-v) a b d = -gradientCircleCircle x v a b d := by
  unfold gradientCircleCircle
  ext <;> simp <;> ring

lemma timeToCollision_neg (x v : Vec) (r : ℝ) :
    timeToCollisionCircleCircle (-x) (-v) r =
      (timeToCollisionCircleCircle x v r).map fun p => (p.1, -p.2) := by
  unfold timeToCollisionCircleCircle
  simp only [dot_neg_neg, gradientCircleCircle_neg]
  cases npSqrt ((-dot x v) ^ 2 - dot v v * (dot x x - r ^ 2)) with
  | none => rfl
  | some d =>
    simp only
    split_ifs <;> rfl

lemma socialForces_swap (ai aj : Agent) (g : Vec) (tau : ℝ) :
    socialForces aj ai (-g) tau = ((socialForces ai aj g tau).2, (socialForces ai aj g tau).1) := by
  unfold socialForces
  simp only [smul_neg, neg_neg]

lemma socialForces_opposite {ai aj : Agent} (hm : ai.mass = aj.mass) (hk : ai.kSoc = aj.kSoc)
    (h0 : ai.tau0 = aj.tau0) (g : Vec) (tau : ℝ) :
    (socialForces ai aj g tau).1 = -(socialForces ai aj g tau).2 := by
  unfold socialForces
  simp only
  rw [truncate_neg, neg_neg, hm, hk, h0]

lemma socialForces_antiparallel {ai aj : Agent} (hmi : 0 < ai.mass) (hmj : 0 < aj.mass)
    (hki : 0 < ai.kSoc) (hkj : 0 < aj.kSoc) (h0i : 0 < ai.tau0) (h0j : 0 < aj.tau0) (g : Vec)
    {tau : ℝ} (ht : 0 < tau) :
    Spec.SameDirection (socialForces ai aj g tau).1 (-(socialForces ai aj g tau).2) := by
  unfold socialForces
  simp only
  rw [truncate_neg, neg_neg]
  obtain ⟨e, he, -, h1⟩ := truncate_smul_pos (c := -ai.mass * ai.kSoc * magnitude tau ai.tau0) g
  obtain ⟨e', he', -, h2⟩ := truncate_smul_pos (c := -aj.mass * aj.kSoc * magnitude tau aj.tau0) g
  rw [h1, h2]
  have hi := magnitude_pos ht h0i
  have hj := magnitude_pos ht h0j
  refine ⟨e' * (aj.mass * aj.kSoc * magnitude tau aj.tau0),
    e * (ai.mass * ai.kSoc * magnitude tau ai.tau0), by positivity, by positivity, ?_⟩
  simp only [smul_smul]
  congr 1
  ring

lemma sameDirection_zero : Spec.SameDirection (0 : Vec) (-(0 : Vec)) :=
  ⟨1, 1, one_pos, one_pos, by simp⟩

/-- Either the three-circle force is zero or the search has found a positive time. -/
lemma threeCircle_cases (ai aj : Agent) :
    forceSocialThreeCircle ai aj = (0, 0) ∨
    ∃ c : Contact, 0 < dot (ai.velocity - aj.velocity) (ai.velocity - aj.velocity) ∧ 0 < c.tau ∧
      pairs33.foldl (contactStep ai.circles ai.radii aj.circles aj.radii
        (ai.velocity - aj.velocity) (dot (ai.velocity - aj.velocity)
        (ai.velocity - aj.velocity))) none = some c ∧
      forceSocialThreeCircle ai aj = socialForces ai aj
        (gradientThreeCircle (ai.position - aj.position) (ai.velocity - aj.velocity)
          (contactOffset ai c.i - contactOffset aj c.j)
          (dot (ai.velocity - aj.velocity) (ai.velocity - aj.velocity)) c.b c.d) c.tau := by
  unfold forceSocialThreeCircle
  simp only
  by_cases ha : dot (ai.velocity - aj.velocity) (ai.velocity - aj.velocity) = 0
  · left; rw [if_pos ha]
  · have ha' := lt_of_le_of_ne (dot_self_nonneg (ai.velocity - aj.velocity)) (Ne.symm ha)
    rw [if_neg ha]
    cases hf : pairs33.foldl (contactStep ai.circles ai.radii aj.circles aj.radii
        (ai.velocity - aj.velocity) (dot (ai.velocity - aj.velocity)
        (ai.velocity - aj.velocity))) none with
    | none => left; rfl
    | some c =>
      simp only
      by_cases hc : c.tau ≤ 0
      · left; rw [if_pos hc]
      · right; rw [if_neg hc]; exact ⟨c, ha', not_le.1 hc, rfl, rfl⟩

/-- The force when the search has found a positive time. -/
lemma threeCircle_of_contact {ai aj : Agent} {c : Contact}
    (ha : 0 < dot (ai.velocity - aj.velocity) (ai.velocity - aj.velocity)) (hc : 0 < c.tau)
    (hf : pairs33.foldl (contactStep ai.circles ai.radii aj.circles aj.radii
        (ai.velocity - aj.velocity) (dot (ai.velocity - aj.velocity)
        (ai.velocity - aj.velocity))) none = some c) :
    forceSocialThreeCircle ai aj = socialForces ai aj
        (gradientThreeCircle (ai.position - aj.position) (ai.velocity - aj.velocity)
          (contactOffset ai c.i - contactOffset aj c.j)
          (dot (ai.velocity - aj.velocity) (ai.velocity - aj.velocity)) c.b c.d) c.tau := by
  unfold forceSocialThreeCircle
  simp only
  rw [if_neg ha.ne', hf]
  simp only
  rw [if_neg (not_le.2 hc)]

lemma threeCircle_of_stuck {ai aj : Agent} {c : Contact} (hc : c.tau ≤ 0)
    (hf : pairs33.foldl (contactStep ai.circles ai.radii aj.circles aj.radii
        (ai.velocity - aj.velocity) (dot (ai.velocity - aj.velocity)
        (ai.velocity - aj.velocity))) none = some c) :
    forceSocialThreeCircle ai aj = (0, 0) := by
  unfold forceSocialThreeCircle
  simp only
  split_ifs with ha
  · rfl
  · rw [hf]
    simp only
    rw [if_pos hc]

/-- The force depends only on differences of positions and velocities. -/
lemma forceSocialCircular_congr {ai aj bi bj : Agent}
    (hx : ai.position - aj.position = bi.position - bj.position)
    (hv : ai.velocity - aj.velocity = bi.velocity - bj.velocity)
    (hr : ai.radius + aj.radius = bi.radius + bj.radius)
    (hi : ai.mass = bi.mass ∧ ai.kSoc = bi.kSoc ∧ ai.tau0 = bi.tau0)
    (hj : aj.mass = bj.mass ∧ aj.kSoc = bj.kSoc ∧ aj.tau0 = bj.tau0) :
    forceSocialCircular ai aj = forceSocialCircular bi bj := by
  unfold forceSocialCircular socialForces
  rw [hx, hv, hr, hi.1, hi.2.1, hi.2.2, hj.1, hj.2.1, hj.2.2]

lemma contactStep_congr {xi xj yi yj : Fin 3 → Vec} {ri rj : Fin 3 → ℝ} {v : Vec} {a : ℝ}
    (h : ∀ p q, xi p - xj q = yi p - yj q) (s : Option Contact) (k : Fin 3 × Fin 3) :
    contactStep xi ri xj rj v a s k = contactStep yi ri yj rj v a s k := by
  unfold contactStep
  simp only
  rw [h]

lemma foldl_congr' {α β : Type} (f g : α → β → α) (h : ∀ a b, f a b = g a b) (l : List β) (a : α) :
    l.foldl f a = l.foldl g a := by
  have : f = g := by funext a b; exact h a b
  rw [this]

lemma pairTime_neg (x v : Vec) (r a : ℝ) : pairTime (-x) (-v) r a = pairTime x v r a := by
  unfold pairTime
  simp only [dot_neg_neg]

lemma gradientThreeCircle_neg (x v o : Vec) (a b d : ℝ) :
    gradientThreeCircle (-x) (-v) (-o) a b d = -gradientThreeCircle x v o a b d := by
  unfold gradientThreeCircle
  ext <;> simp <;> ring

lemma gradientThreeCircle_zero (x v : Vec) (a b d : ℝ) :
    gradientThreeCircle x v 0 a b d = gradientCircleCircle x v a b d := by
  unfold gradientThreeCircle gradientCircleCircle
  ext <;> simp <;> ring

lemma pairs33_eq : pairs33 = [(0,0),(0,1),(0,2),(1,0),(1,1),(1,2),(2,0),(2,1),(2,2)] := by decide

end CrowdDynamics
