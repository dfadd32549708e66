import Verif.Spec.IeeeContact
import Verif.Model.RoundedWalls
import Verif.Proofs.Ieee
import Verif.Proofs.IeeeLength

/-!
# The interactions with infinities and NaN: helper lemmas
-/

namespace CrowdDynamics

open Spec Real

/-! ### Distances -/

theorem hypot_low {A : Arith} (hh : AccurateHypot A.hypot) {x y : ℝ} (hx : OnGrid (-60) x)
    (hy : OnGrid (-60) y) (h : x ≠ 0 ∨ y ≠ 0) : (2 : ℝ) ^ (-61 : ℤ) ≤ |A.hypot x y| := by
  have h1 : (2 : ℝ) ^ (-60 : ℤ) ≤ √(x ^ 2 + y ^ 2) := by
    refine Real.le_sqrt_of_sq_le ?_
    rcases h with h | h
    · have := hx.le_abs h
      have h2 := pow_le_pow_left₀ (two_zpow_pos _).le this 2
      rw [sq_abs] at h2
      nlinarith [sq_nonneg y]
    · have := hy.le_abs h
      have h2 := pow_le_pow_left₀ (two_zpow_pos _).le this 2
      rw [sq_abs] at h2
      nlinarith [sq_nonneg x]
  have h2 := (abs_le.1 (hh.near x y)).1
  have h3 : (2 : ℝ) ^ (-1074 : ℤ) ≤ 2 ^ (-62 : ℤ) := zpow_le_zpow_right₀ (by norm_num) (by norm_num)
  have h4 : √(x ^ 2 + y ^ 2) * (2 : ℝ) ^ (-52 : ℤ) ≤ √(x ^ 2 + y ^ 2) * (1 / 4) :=
    mul_le_mul_of_nonneg_left (by norm_num) (Real.sqrt_nonneg _)
  refine le_trans ?_ (le_abs_self _)
  have e1 : (2 : ℝ) ^ (-61 : ℤ) = 2 ^ (-60 : ℤ) * (1 / 2) := by norm_num
  have e2 : (2 : ℝ) ^ (-62 : ℤ) = 2 ^ (-60 : ℤ) * (1 / 4) := by norm_num
  rw [e2] at h3
  rw [e1]
  generalize (2 : ℝ) ^ (-1074 : ℤ) = z at *
  generalize (2 : ℝ) ^ (-60 : ℤ) = e at *
  generalize √(x ^ 2 + y ^ 2) * (2 : ℝ) ^ (-52 : ℤ) = s at *
  linarith

/-- A difference of moderate points. -/
theorem subI_num {k l : ℤ} {u v : Vec} (hk : 0 ≤ k) (hl : k + 1 = l) (hl' : l < 1024)
    (hu : ModerateNumber k u.1 ∧ ModerateNumber k u.2)
    (hv : ModerateNumber k v.1 ∧ ModerateNumber k v.2) :
    (IsNum (subI fl64 u v).1 (vecSubF fl64 u v).1 l ∧
      IsNum (subI fl64 u v).2 (vecSubF fl64 u v).2 l) ∧
    OnGrid (-60) (vecSubF fl64 u v).1 ∧ OnGrid (-60) (vecSubF fl64 u v).2 := by
  have num : ∀ {k : ℤ} {y : ℝ}, ModerateNumber k y → IsNum (.num y) y k := fun h => ⟨rfl, h.1⟩
  have grid : ∀ {k : ℤ} {y : ℝ}, ModerateNumber k y → OnGrid (-60) y := fun h => h.2
  refine ⟨⟨(num hu.1).sub (num hv.1) (by omega) (by omega) (by omega) (by omega),
    (num hu.2).sub (num hv.2) (by omega) (by omega) (by omega) (by omega)⟩, ?_, ?_⟩
  · show OnGrid _ (fl64 (_ - _))
    rw [sub_eq_add_neg]
    exact ((grid hu.1).add (grid hv.1).neg).fl (by norm_num)
  · show OnGrid _ (fl64 (_ - _))
    rw [sub_eq_add_neg]
    exact ((grid hu.2).add (grid hv.2).neg).fl (by norm_num)

/-- Distinct points have a difference that is not zero. -/
theorem sub_ne {k : ℤ} {x y : ℝ} (hx : ModerateNumber k x) (hy : ModerateNumber k y) (h : x ≠ y) :
    fl64 (x - y) ≠ 0 := by
  have g : OnGrid (-60) (x - y) := by
    have hx' : OnGrid (-60) x := hx.2
    have hy' : OnGrid (-60) y := hy.2
    rw [sub_eq_add_neg]
    exact hx'.add hy'.neg
  have h1 := fl_le_abs (by norm_num) (g.le_abs (sub_ne_zero.2 h))
  intro h0
  rw [h0, abs_zero] at h1
  exact absurd h1 (not_le.2 (two_zpow_pos _))

theorem vecSub_ne {k : ℤ} {u v : Vec} (hu : ModerateNumber k u.1 ∧ ModerateNumber k u.2)
    (hv : ModerateNumber k v.1 ∧ ModerateNumber k v.2) (h : u ≠ v) :
    (vecSubF fl64 u v).1 ≠ 0 ∨ (vecSubF fl64 u v).2 ≠ 0 := by
  by_contra h'
  push Not at h'
  refine h (Prod.ext ?_ ?_)
  · by_contra h1
    exact sub_ne hu.1 hv.1 h1 h'.1
  · by_contra h1
    exact sub_ne hu.2 hv.2 h1 h'.2

/-- A vector divided by its length. -/
theorem unit_num {A : Arith} (hr : A.rnd = fl64) (hh : AccurateHypot A.hypot) {X : F64 × F64}
    {x : Vec} (h1 : IsNum X.1 x.1 21) (h2 : IsNum X.2 x.2 21) (g1 : OnGrid (-60) x.1)
    (g2 : OnGrid (-60) x.2) (h : x.1 ≠ 0 ∨ x.2 ≠ 0) :
    IsNum (X.1.hypot A X.2) (A.hypot x.1 x.2) 23 ∧ A.hypot x.1 x.2 ≠ 0 ∧
    IsNum (divI A.rnd X (X.1.hypot A X.2)).1 (fl64 (x.1 / A.hypot x.1 x.2)) 82 ∧
    IsNum (divI A.rnd X (X.1.hypot A X.2)).2 (fl64 (x.2 / A.hypot x.1 x.2)) 82 := by
  have hl := hypot_num hh h1 h2 (by norm_num) (by norm_num)
  have hlow := hypot_low hh g1 g2 h
  refine ⟨hl, ?_, ?_, ?_⟩
  · intro h0
    rw [h0, abs_zero] at hlow
    exact absurd hlow (not_le.2 (two_zpow_pos _))
  · rw [hr]
    exact (h1.div hl hlow (by norm_num) (by norm_num) (by norm_num)).1
  · rw [hr]
    exact (h2.div hl hlow (by norm_num) (by norm_num) (by norm_num)).1

theorem distanceCirclesI_num {A : Arith} (hr : A.rnd = fl64) (hh : AccurateHypot A.hypot)
    {ai aj : Agent} (hi : ModerateAgent ai) (hj : ModerateAgent aj) :
    let D := distanceCirclesI A ai.position ai.radius aj.position aj.radius
    let d := distanceCirclesF A ai.position ai.radius aj.position aj.radius
    IsNum D.1 d.1 24 ∧ IsNum D.2.1 d.2.1 82 ∧ IsNum D.2.2 d.2.2 82 := by
  obtain ⟨⟨x1, x2⟩, g1, g2⟩ := subI_num (l := 21) (by norm_num) (by norm_num) (by norm_num)
    hi.position hj.position
  have rr : IsNum ((F64.num ai.radius).add fl64 (.num aj.radius)) (fl64 (ai.radius + aj.radius)) 11 :=
    IsNum.add (i := 10) (j := 10) ⟨rfl, hi.radius.1⟩ ⟨rfl, hj.radius.1⟩ (by norm_num) (by norm_num)
      (by norm_num) (by norm_num)
  obtain ⟨rnd, hyp, exp⟩ := A
  obtain rfl : rnd = fl64 := hr
  unfold distanceCirclesI distanceCirclesF lengthF
  dsimp only at *
  generalize subI fl64 ai.position aj.position = X at *
  generalize vecSubF fl64 ai.position aj.position = x at *
  have hl := hypot_num (A := ⟨fl64, hyp, exp⟩) hh x1 x2 (by norm_num) (by norm_num)
  refine ⟨hl.sub rr (by norm_num) (by norm_num) (by norm_num) (by norm_num), ?_⟩
  by_cases h0 : hyp x.1 x.2 = 0
  · rw [if_pos (by rw [hl.1]; exact congrArg F64.num h0), if_pos h0]
    exact ⟨⟨rfl, by rw [abs_zero]; exact (two_zpow_pos _).le⟩,
      ⟨rfl, by rw [abs_zero]; exact (two_zpow_pos _).le⟩⟩
  · have hx : x.1 ≠ 0 ∨ x.2 ≠ 0 := by
      by_contra h
      push Not at h
      rw [h.1, h.2] at h0
      exact h0 hh.zero
    have := unit_num (A := ⟨fl64, hyp, exp⟩) rfl hh x1 x2 g1 g2 hx
    rw [if_neg (by rw [hl.1]; intro h; injection h with h; exact h0 h), if_neg h0]
    exact ⟨this.2.2.1, this.2.2.2⟩

/-! ### The contact force -/

theorem contact_comp {H N1 N2 T1 T2 V1 V2 M K C : F64} {h mu kappa c : ℝ} {n t v : Vec}
    (hH : IsNum H h 105) (hn1 : IsNum N1 n.1 82) (hn2 : IsNum N2 n.2 82) (ht1 : IsNum T1 t.1 82)
    (ht2 : IsNum T2 t.2 82) (hv1 : IsNum V1 v.1 11) (hv2 : IsNum V2 v.2 11) (hM : IsNum M mu 20)
    (hK : IsNum K kappa 20) (hC : IsNum C c 20) :
    IsNum (forceContactI fl64 H (N1, N2) (V1, V2) (T1, T2) M K C).1
      (forceContactF fl64 h n v t mu kappa c).1 303 ∧
    IsNum (forceContactI fl64 H (N1, N2) (V1, V2) (T1, T2) M K C).2
      (forceContactF fl64 h n v t mu kappa c).2 303 := by
  have s1 := dotI_num hv1 hv2 ht1 ht2 (k := 94) (by norm_num) (by norm_num) (by norm_num)
  have s2 := dotI_num hv1 hv2 hn1 hn2 (k := 94) (by norm_num) (by norm_num) (by norm_num)
  have s3 := hK.mul s1 (k := 114) (by norm_num) (by norm_num) (by norm_num)
  have s4 := hC.mul s2 (k := 114) (by norm_num) (by norm_num) (by norm_num)
  have comp : ∀ {N T : F64} {ni ti : ℝ}, IsNum N ni 82 → IsNum T ti 82 → IsNum
      ((H.neg.mul fl64 ((M.mul fl64 N).sub fl64
        ((K.mul fl64 (dotI fl64 (V1, V2) (T1, T2))).mul fl64 T))).add fl64
        ((C.mul fl64 (dotI fl64 (V1, V2) (N1, N2))).mul fl64 N))
      (fl64 (fl64 (-h * fl64 (fl64 (mu * ni) - fl64 (fl64 (kappa * dotF fl64 v t) * ti))) +
        fl64 (fl64 (c * dotF fl64 v n) * ni))) 303 := by
    intro N T ni ti hN hT
    have a1 := hM.mul hN (k := 102) (by norm_num) (by norm_num) (by norm_num)
    have a2 := s3.mul hT (k := 196) (by norm_num) (by norm_num) (by norm_num)
    have a3 := a1.sub a2 (k := 197) (by norm_num) (by norm_num) (by norm_num) (by norm_num)
    have a4 := hH.neg.mul a3 (k := 302) (by norm_num) (by norm_num) (by norm_num)
    have a5 := s4.mul hN (k := 196) (by norm_num) (by norm_num) (by norm_num)
    exact a4.add a5 (by norm_num) (by norm_num) (by norm_num) (by norm_num)
  exact ⟨comp hn1 ht1, comp hn2 ht2⟩

theorem contact_nan {rnd : ℝ → ℝ} {H : F64} {n v t : F64 × F64} {mu kappa c : F64}
    (h1 : n.1 = .nan) (h2 : n.2 = .nan) : forceContactI rnd H n v t mu kappa c = (.nan, .nan) := by
  have m : ∀ X : F64, X.mul rnd .nan = .nan := by intro X; cases X <;> rfl
  have a : ∀ X : F64, X.add rnd .nan = .nan := by intro X; cases X <;> rfl
  unfold forceContactI
  simp only [h1, h2, m, a]

/-! ### The pair -/

theorem abs_le_of_len {p q : ℝ} (h : √(p ^ 2 + q ^ 2) ≤ 2000 + 1 / 10 ^ 9) :
    |p| ≤ 2 ^ (11 : ℤ) ∧ |q| ≤ 2 ^ (11 : ℤ) := by
  have h1 : |p| ≤ √(p ^ 2 + q ^ 2) := Real.abs_le_sqrt (by nlinarith [sq_nonneg q])
  have h2 : |q| ≤ √(p ^ 2 + q ^ 2) := Real.abs_le_sqrt (by nlinarith [sq_nonneg p])
  have h3 : (2000 + 1 / 10 ^ 9 : ℝ) ≤ 2 ^ (11 : ℤ) := by norm_num
  exact ⟨h1.trans (h.trans h3), h2.trans (h.trans h3)⟩

/-- Two numbers of at most `2 ^ k`. -/
def IsVec (X : F64 × F64) (x : Vec) (k : ℤ) : Prop := IsNum X.1 x.1 k ∧ IsNum X.2 x.2 k

/-- The forces of a pair are finite, the same as without overflow. -/
theorem pairForcesI_num {A : Arith} (hr : A.rnd = fl64) (hh : AccurateHypot A.hypot)
    (he : SaneExp A.exp) {ai aj : Agent} (hi : ModerateAgent ai) (hj : ModerateAgent aj)
    (ci : ModerateContact ai) (cj : ModerateContact aj) :
    (pairForcesI A ai aj = .ok none ∧ pairForcesF A ai aj = none) ∨
    ∃ F G f g, pairForcesI A ai aj = .ok (some (F, G)) ∧ pairForcesF A ai aj = some (f, g) ∧
      IsVec F f 304 ∧ IsVec G g 304 := by
  obtain ⟨d1, d2, d3⟩ := distanceCirclesI_num hr hh hi hj
  have hs := forceSocialCircularI_num hr hh he hi hj
  obtain ⟨b1, b2⟩ := forceSocialCircularI_length hr hh hs
  obtain ⟨b11, b12⟩ := abs_le_of_len b1
  obtain ⟨b21, b22⟩ := abs_le_of_len b2
  obtain ⟨⟨v1, v2⟩, -, -⟩ := subI_num (l := 11) (by norm_num) (by norm_num) (by norm_num)
    hi.velocity hj.velocity
  unfold pairForcesI pairForcesF
  rw [hs]
  simp only [hr]
  generalize distanceCirclesI A ai.position ai.radius aj.position aj.radius = D at *
  generalize distanceCirclesF A ai.position ai.radius aj.position aj.radius = d at *
  generalize forceSocialCircularF A ai aj = s at *
  generalize subI fl64 ai.velocity aj.velocity = V at *
  generalize vecSubF fl64 ai.velocity aj.velocity = v at *
  obtain ⟨D1, DN1, DN2⟩ := D
  obtain ⟨h, n1, n2⟩ := d
  obtain ⟨V1, V2⟩ := V
  simp only at d1 d2 d3 v1 v2 ⊢
  have c1 : (F64.num sigthSoc).gt D1 ↔ h < sigthSoc := by rw [d1.1]; exact Iff.rfl
  have c2 : (F64.num 0).gt D1 ↔ h < 0 := by rw [d1.1]; exact Iff.rfl
  by_cases hc : h < sigthSoc
  · right
    rw [if_pos (c1.2 hc), if_pos hc]
    by_cases hc' : h < 0
    · have num : ∀ {x : ℝ}, |x| ≤ 2 ^ (20 : ℤ) → IsNum (.num x) x 20 := fun h => ⟨rfl, h⟩
      have k1 := contact_comp (n := (n1, n2)) (t := (n2, -n1)) (v := v) (d1.mono (by norm_num)) d2
        d3 d3 d2.neg v1 v2 (num ci.1) (num ci.2.1) (num ci.2.2)
      have k2 := contact_comp (n := (n1, n2)) (t := (n2, -n1)) (v := v) (d1.mono (by norm_num)) d2
        d3 d3 d2.neg v1 v2 (num cj.1) (num cj.2.1) (num cj.2.2)
      simp only [bind, Except.bind]
      rw [if_pos (c2.2 hc'), if_pos hc']
      refine ⟨_, _, _, _, rfl, rfl, ?_, ?_⟩
      · exact ⟨IsNum.add ⟨rfl, b11⟩ k1.1 (by norm_num) (by norm_num) (by norm_num) (by norm_num),
          IsNum.add ⟨rfl, b12⟩ k1.2 (by norm_num) (by norm_num) (by norm_num) (by norm_num)⟩
      · exact ⟨IsNum.sub ⟨rfl, b21⟩ k2.1 (by norm_num) (by norm_num) (by norm_num) (by norm_num),
          IsNum.sub ⟨rfl, b22⟩ k2.2 (by norm_num) (by norm_num) (by norm_num) (by norm_num)⟩
    · simp only [bind, Except.bind]
      rw [if_neg (fun h => hc' (c2.1 h)), if_neg hc']
      refine ⟨_, _, s.1, s.2, rfl, rfl, ?_, ?_⟩
      · exact ⟨IsNum.mono ⟨rfl, b11⟩ (by norm_num), IsNum.mono ⟨rfl, b12⟩ (by norm_num)⟩
      · exact ⟨IsNum.mono ⟨rfl, b21⟩ (by norm_num), IsNum.mono ⟨rfl, b22⟩ (by norm_num)⟩
  · left
    rw [if_neg (fun h => hc (c1.1 h)), if_neg hc]
    exact ⟨rfl, rfl⟩

/-! ### Sums of forces -/

/-- `X` is the number `x`, at most `m` times `2 ^ 304`. -/
def SumNum (m : ℕ) (X : F64) (x : ℝ) : Prop := X = .num x ∧ |x| ≤ m * 2 ^ (304 : ℤ)

theorem SumNum.add {m : ℕ} {X Y : F64} {x y : ℝ} (hm : m + 1 < 2 ^ 53) (h : SumNum m X x)
    (h' : IsNum Y y 304) : SumNum (m + 1) (X.add fl64 Y) (fl64 (x + y)) := by
  obtain ⟨rfl, h⟩ := h
  obtain ⟨rfl, h'⟩ := h'
  have e : fl64 (((m + 1 : ℕ) : ℝ) * 2 ^ (304 : ℤ)) = ((m + 1 : ℕ) : ℝ) * 2 ^ (304 : ℤ) := by
    have := fl64_of_mul (m := ((m + 1 : ℕ) : ℤ)) (e := 304) (by
      rw [abs_of_nonneg (by positivity)]
      exact_mod_cast hm) (by norm_num)
    simpa using this
  have b : |x + y| ≤ ((m + 1 : ℕ) : ℝ) * 2 ^ (304 : ℤ) := by
    refine (abs_add_le _ _).trans ?_
    push_cast
    linarith
  have b' : |fl64 (x + y)| ≤ ((m + 1 : ℕ) : ℝ) * 2 ^ (304 : ℤ) := by
    rw [abs_le] at b ⊢
    have h1 := fl64_mono b.1
    have h2 := fl64_mono b.2
    rw [fl64_neg] at h1
    rw [e] at h1 h2
    exact ⟨h1, h2⟩
  refine ⟨?_, b'⟩
  show F64.pack _ = _
  unfold F64.pack
  rw [if_pos]
  refine lt_of_le_of_lt b' ?_
  have : ((m + 1 : ℕ) : ℝ) ≤ 2 ^ (53 : ℤ) := by exact_mod_cast hm.le
  calc ((m + 1 : ℕ) : ℝ) * 2 ^ (304 : ℤ) ≤ 2 ^ (53 : ℤ) * 2 ^ (304 : ℤ) :=
        mul_le_mul_of_nonneg_right this (two_zpow_pos _).le
    _ = 2 ^ (357 : ℤ) := by rw [← zpow_add₀ (by norm_num)]; norm_num
    _ < _ := zpow_lt_zpow_right₀ (by norm_num) (by norm_num)

theorem SumNum.mono {m k : ℕ} {X : F64} {x : ℝ} (h : SumNum m X x) (hk : m ≤ k) : SumNum k X x := by
  refine ⟨h.1, h.2.trans (mul_le_mul_of_nonneg_right ?_ (two_zpow_pos _).le)⟩
  exact_mod_cast hk

/-- A column of forces. -/
def SumForces {n : ℕ} (m : ℕ) (force : Fin n → F64 × F64) (f : Fin n → Vec) : Prop :=
  ∀ i, SumNum m (force i).1 (f i).1 ∧ SumNum m (force i).2 (f i).2

theorem SumForces.mono {n m k : ℕ} {F : Fin n → F64 × F64} {f : Fin n → Vec} (h : SumForces m F f)
    (hk : m ≤ k) : SumForces k F f := fun i => ⟨(h i).1.mono hk, (h i).2.mono hk⟩

/-- The rounded sum of a force. -/
noncomputable def addRounded {n : ℕ} (f : Fin n → Vec) (i : Fin n) (g : Vec) : Fin n → Vec :=
  Function.update f i (fl64 ((f i).1 + g.1), fl64 ((f i).2 + g.2))

theorem SumForces.add {n m : ℕ} {F : Fin n → F64 × F64} {f : Fin n → Vec} (h : SumForces m F f)
    (hm : m + 1 < 2 ^ 53) (i : Fin n) {G : F64 × F64} {g : Vec} (hg : IsVec G g 304) :
    SumForces (m + 1) (addForceI fl64 F i G) (addRounded f i g) := by
  intro j
  unfold addForceI addRounded
  by_cases hj : j = i
  · subst hj
    simp only [Function.update_self]
    exact ⟨(h j).1.add hm hg.1, (h j).2.add hm hg.2⟩
  · rw [Function.update_of_ne hj, Function.update_of_ne hj]
    exact ⟨(h j).1.mono (by omega), (h j).2.mono (by omega)⟩

theorem SumForces.finite {n m : ℕ} {F : Fin n → F64 × F64} {f : Fin n → Vec} (h : SumForces m F f) :
    FiniteForces F := fun i => ⟨_, _, Prod.ext (h i).1.1 (h i).2.1⟩

theorem SumForces.of_moderate {n : ℕ} {f : Fin n → Vec} (h : ModerateForces f) :
    SumForces 1 (fun i => (.num (f i).1, .num (f i).2)) f := by
  have e : (2 : ℝ) ^ (20 : ℤ) ≤ ((1 : ℕ) : ℝ) * 2 ^ (304 : ℤ) := by
    rw [Nat.cast_one, one_mul]
    exact zpow_le_zpow_right₀ (by norm_num) (by norm_num)
  exact fun i => ⟨⟨rfl, (h i).1.trans e⟩, ⟨rfl, (h i).2.trans e⟩⟩

/-! ### All pairs -/

/-- The agents with other forces. -/
def withForces {n : ℕ} (agents : Crowd n) (f : Fin n → Vec) : Crowd n :=
  fun i => { agents i with force := f i }

theorem addForceF_with {n : ℕ} (agents : Crowd n) (f : Fin n → Vec) (i : Fin n) (g : Vec) :
    addForceF fl64 (withForces agents f) i g = withForces agents (addRounded f i g) := by
  funext j
  unfold addForceF withForces addRounded
  by_cases hj : j = i
  · subst hj
    simp only [Function.update_self]
  · rw [Function.update_of_ne hj, Function.update_of_ne hj]

theorem pairForcesF_with {n : ℕ} (A : Arith) (agents : Crowd n) (f : Fin n → Vec) (i j : Fin n) :
    pairForcesF A (withForces agents f i) (withForces agents f j) =
      pairForcesF A (agents i) (agents j) := rfl

/-- All interactions of agents. -/
theorem agentAgentCircularI_num {n : ℕ} {A : Arith} (hr : A.rnd = fl64)
    (hh : AccurateHypot A.hypot) (he : SaneExp A.exp) {agents : Crowd n}
    (ha : ∀ i, ModerateAgent (agents i) ∧ ModerateContact (agents i))
    (pairs : List (Fin n × Fin n)) : ∀ {m : ℕ} {F : Fin n → F64 × F64} {f : Fin n → Vec},
    SumForces m F f → m + 2 * pairs.length < 2 ^ 53 →
    ∃ F' f', agentAgentCircularI A agents pairs F = .ok F' ∧
      agentAgentCircularF A (withForces agents f) pairs = withForces agents f' ∧
      SumForces (m + 2 * pairs.length) F' f' := by
  obtain ⟨rnd, hyp, exp⟩ := A
  obtain rfl : rnd = fl64 := hr
  induction pairs with
  | nil => exact fun h _ => ⟨_, _, rfl, rfl, h⟩
  | cons p pairs ih =>
    intro m F f h hm
    rw [List.length_cons] at hm ⊢
    unfold agentAgentCircularI agentAgentCircularF
    rw [List.foldlM_cons, List.foldl_cons]
    have hp := pairForcesI_num (A := ⟨fl64, hyp, exp⟩) rfl hh he (ha p.1).1 (ha p.2).1 (ha p.1).2 (ha p.2).2
    rcases hp with ⟨e1, e2⟩ | ⟨G1, G2, g1, g2, e1, e2, h1, h2⟩
    · obtain ⟨F', f', i1, i2, i3⟩ := ih h (by omega)
      refine ⟨F', f', ?_, ?_, i3.mono (by omega)⟩
      · unfold interactionAgentAgentCircularI
        rw [e1]
        exact i1
      · unfold interactionAgentAgentCircularF
        rw [pairForcesF_with, e2]
        exact i2
    · have s1 := h.add (by omega) p.1 h1
      have s2 := s1.add (by omega) p.2 h2
      obtain ⟨F', f', i1, i2, i3⟩ := ih s2 (by omega)
      refine ⟨F', f', ?_, ?_, i3.mono (by omega)⟩
      · unfold interactionAgentAgentCircularI
        rw [e1]
        exact i1
      · unfold interactionAgentAgentCircularF
        rw [pairForcesF_with, e2]
        simp only [addForceF_with]
        exact i2

/-! ### Walls -/

theorem sign_num {X : F64} {x : ℝ} {k : ℤ} (h : IsNum X x k) : IsNum X.sign (npSign x) 0 := by
  obtain ⟨rfl, -⟩ := h
  refine ⟨rfl, ?_⟩
  unfold npSign
  split_ifs <;> norm_num

theorem abs_num {X : F64} {x : ℝ} {k : ℤ} (h : IsNum X x k) : IsNum X.abs |x| k := by
  obtain ⟨rfl, h⟩ := h
  exact ⟨rfl, by rwa [abs_abs]⟩

theorem div_zero_nan {A : Arith} (hh : AccurateHypot A.hypot) {X : F64 × F64} {x : Vec}
    (h1 : IsNum X.1 x.1 21) (h2 : IsNum X.2 x.2 21) (h : x.1 = 0 ∧ x.2 = 0) :
    divI fl64 X (X.1.hypot A X.2) = (.nan, .nan) := by
  have hl := hypot_num hh h1 h2 (by norm_num) (by norm_num)
  unfold divI
  rw [hl.1, h1.1, h2.1, h.1, h.2, hh.zero]
  simp [F64.div]

/-- The product of a sign and a rounded number is not rounded again. -/
theorem sign_mul_rounded (s : ℝ) {u : ℝ} (h : fl64 u = u) :
    fl64 (npSign s * u) = npSign s * u := by
  unfold npSign
  split_ifs
  · rw [one_mul, h]
  · rw [neg_one_mul, fl64_neg, h]
  · rw [zero_mul, fl64_zero]

/-- The distance to a wall is finite; the normal is finite, or the model without overflow finds a
division of zero by zero. -/
theorem distanceCircleLineI_num {A : Arith} (hr : A.rnd = fl64) (hh : AccurateHypot A.hypot)
    {x : Vec} {r : ℝ} (hx : ModerateNumber 20 x.1 ∧ ModerateNumber 20 x.2)
    (hR : ModerateNumber 10 r) {w : Wall} (hw : ModerateWall w) :
    ∃ h n, distanceCircleLineF A x r w.p0 w.p1 = some (h, n) ∧
      IsNum (distanceCircleLineI A x r w.p0 w.p1).1 h 105 ∧
      ((n = none ∧ (x = w.p0 ∨ x = w.p1) ∧
        (distanceCircleLineI A x r w.p0 w.p1).2 = (.nan, .nan)) ∨
      ∃ k, n = some k ∧ IsVec (distanceCircleLineI A x r w.p0 w.p1).2 k 82) := by
  obtain ⟨⟨d1, d2⟩, gd1, gd2⟩ := subI_num (l := 21) (by norm_num) (by norm_num) (by norm_num)
    hw.p1 hw.p0
  obtain ⟨⟨a1, a2⟩, ga1, ga2⟩ := subI_num (l := 21) (by norm_num) (by norm_num) (by norm_num)
    hx hw.p0
  obtain ⟨⟨b1, b2⟩, gb1, gb2⟩ := subI_num (l := 21) (by norm_num) (by norm_num) (by norm_num)
    hx hw.p1
  have dne := vecSub_ne hw.p1 hw.p0 (Ne.symm hw.ne)
  have ane := vecSub_ne hx hw.p0
  have bne := vecSub_ne hx hw.p1
  have rr : IsNum (.num r) r 10 := ⟨rfl, hR.1⟩
  obtain ⟨hl, hl0, t1, t2⟩ := unit_num hr hh d1 d2 gd1 gd2 dne
  obtain ⟨rnd, hyp, ex⟩ := A
  obtain rfl : rnd = fl64 := hr
  unfold distanceCircleLineI distanceCircleLineF lengthF
  dsimp only at hh hl hl0 t1 t2 ⊢
  generalize subI fl64 w.p1 w.p0 = D at *
  generalize vecSubF fl64 w.p1 w.p0 = d at *
  generalize subI fl64 x w.p0 = Q0 at *
  generalize vecSubF fl64 x w.p0 = q0 at *
  generalize subI fl64 x w.p1 = Q1 at *
  generalize vecSubF fl64 x w.p1 = q1 at *
  generalize D.1.hypot ⟨fl64, hyp, ex⟩ D.2 = LW at *
  generalize hyp d.1 d.2 = lw at *
  rw [if_neg hl0]
  have i1 := fl64_idem (d.1 / lw)
  have i2 := fl64_idem (d.2 / lw)
  generalize fl64 (d.1 / lw) = u1 at *
  generalize fl64 (d.2 / lw) = u2 at *
  generalize divI fl64 D LW = T at *
  obtain ⟨T1, T2⟩ := T
  obtain ⟨A1, A2⟩ := Q0
  obtain ⟨B1, B2⟩ := Q1
  simp only at t1 t2 a1 a2 b1 b2
  have sa := dotI_num (u := (u1, u2)) (v := q0) t1 t2 a1 a2 (k := 104) (by norm_num) (by norm_num)
    (by norm_num)
  have sb := dotI_num (u := (u1, u2)) (v := q1) t1 t2 b1 b2 (k := 104) (by norm_num) (by norm_num)
    (by norm_num)
  have slt := sb.neg.sub sa (k := 105) (by norm_num) (by norm_num) (by norm_num) (by norm_num)
  generalize fl64 (-dotF fl64 (u1, u2) q1 - dotF fl64 (u1, u2) q0) = lt at *
  generalize (dotI fl64 (T1, T2) (B1, B2)).neg.sub fl64 (dotI fl64 (T1, T2) (A1, A2)) = LT at *
  have c1 : LT.gt LW ↔ lt > lw := by rw [slt.1, hl.1]; exact Iff.rfl
  have c2 : LW.neg.gt LT ↔ lt < -lw := by rw [slt.1, hl.1]; exact Iff.rfl
  rw [c1, c2]
  by_cases h1 : lt > lw
  · simp only [if_pos h1]
    refine ⟨_, _, rfl, ?_, ?_⟩
    · exact (hypot_num (A := ⟨fl64, hyp, ex⟩) hh a1 a2 (by norm_num) (by norm_num)).sub rr (by norm_num) (by norm_num)
        (by norm_num) (by norm_num)
    · by_cases h0 : q0.1 = 0 ∧ q0.2 = 0
      · left
        refine ⟨?_, ?_, div_zero_nan (A := ⟨fl64, hyp, ex⟩) hh (X := (A1, A2)) a1 a2 h0⟩
        · unfold unitF
          rw [h0.1, h0.2, hh.zero, if_pos rfl]
        · left
          by_contra hne
          rcases ane hne with h | h
          · exact h h0.1
          · exact h h0.2
      · right
        have hne : q0.1 ≠ 0 ∨ q0.2 ≠ 0 := by
          by_contra h
          push Not at h
          exact h0 h
        have := unit_num (X := (A1, A2)) (A := ⟨fl64, hyp, ex⟩) rfl hh a1 a2 ga1 ga2 hne
        exact ⟨_, if_neg this.2.1, this.2.2.1, this.2.2.2⟩
  · simp only [if_neg h1]
    by_cases h2 : lt < -lw
    · simp only [if_pos h2]
      refine ⟨_, _, rfl, ?_, ?_⟩
      · exact (hypot_num (A := ⟨fl64, hyp, ex⟩) hh b1 b2 (by norm_num) (by norm_num)).sub rr (by norm_num) (by norm_num)
          (by norm_num) (by norm_num)
      · by_cases h0 : q1.1 = 0 ∧ q1.2 = 0
        · left
          refine ⟨?_, ?_, div_zero_nan (A := ⟨fl64, hyp, ex⟩) hh (X := (B1, B2)) b1 b2 h0⟩
          · unfold unitF
            rw [h0.1, h0.2, hh.zero, if_pos rfl]
          · right
            by_contra hne
            rcases bne hne with h | h
            · exact h h0.1
            · exact h h0.2
        · right
          have hne : q1.1 ≠ 0 ∨ q1.2 ≠ 0 := by
            by_contra h
            push Not at h
            exact h0 h
          have := unit_num (X := (B1, B2)) (A := ⟨fl64, hyp, ex⟩) rfl hh b1 b2 gb1 gb2 hne
          exact ⟨_, if_neg this.2.1, this.2.2.1, this.2.2.2⟩
    · simp only [if_neg h2]
      have sl := dotI_num (u := (-u2, u1)) (v := q0) t2.neg t1 a1 a2 (k := 104) (by norm_num)
        (by norm_num) (by norm_num)
      have m1 := (sign_num sl).mul t2.neg (k := 82) (by norm_num) (by norm_num) (by norm_num)
      have m2 := (sign_num sl).mul t1 (k := 82) (by norm_num) (by norm_num) (by norm_num)
      rw [sign_mul_rounded _ (by rw [fl64_neg, i2])] at m1
      rw [sign_mul_rounded _ i1] at m2
      refine ⟨_, _, rfl, ?_, Or.inr ⟨_, rfl, m1, m2⟩⟩
      exact (abs_num sl).sub rr (by norm_num) (by norm_num) (by norm_num) (by norm_num)

/-- One interaction with a wall. -/
theorem obstacleI_num {n : ℕ} {A : Arith} (hr : A.rnd = fl64) (hh : AccurateHypot A.hypot)
    {agents : Crowd n} {i : Fin n} (ha : ModerateAgent (agents i)) (hc : ModerateContact (agents i))
    {w : Wall} (hw : ModerateWall w) (h0 : (agents i).position ≠ w.p0)
    (h1 : (agents i).position ≠ w.p1) {m : ℕ} {F : Fin n → F64 × F64} {f : Fin n → Vec}
    (h : SumForces m F f) (hm : m + 1 < 2 ^ 53) :
    ∃ f', interactionAgentCircularObstacleF A i w (withForces agents f) =
        some (withForces agents f') ∧
      SumForces (m + 1) (interactionAgentCircularObstacleI A agents i w F) f' := by
  obtain ⟨d, n, hF, hd, hn⟩ := distanceCircleLineI_num hr hh ha.position ha.radius hw
  replace hn := hn.resolve_left (fun h => h.2.1.elim h0 h1)
  obtain ⟨n', rfl, hn⟩ := hn
  unfold interactionAgentCircularObstacleI interactionAgentCircularObstacleF
  have hF' : distanceCircleLineF A (withForces agents f i).position (withForces agents f i).radius
      w.p0 w.p1 = some (d, some n') := hF
  rw [hF']
  generalize distanceCircleLineI A (agents i).position (agents i).radius w.p0 w.p1 = D at *
  obtain ⟨H, N1, N2⟩ := D
  simp only at hd hn ⊢
  have c : (F64.num 0).gt H ↔ d < 0 := by rw [hd.1]; exact Iff.rfl
  rw [c]
  split_ifs
  · have num : ∀ {x : ℝ}, |x| ≤ 2 ^ (20 : ℤ) → IsNum (.num x) x 20 := fun h => ⟨rfl, h⟩
    have vel : ∀ {x : ℝ}, ModerateNumber 10 x → IsNum (.num x) x 11 :=
      fun h => IsNum.mono ⟨rfl, h.1⟩ (by norm_num)
    have k := contact_comp (t := (n'.2, -n'.1)) (v := (agents i).velocity) hd hn.1 hn.2 hn.2
      hn.1.neg (vel ha.velocity.1) (vel ha.velocity.2) (num hc.1) (num hc.2.1) (num hc.2.2)
    rw [hr]
    exact ⟨_, congrArg some (addForceF_with agents f i _),
      h.add hm i ⟨k.1.mono (by norm_num), k.2.mono (by norm_num)⟩⟩
  · exact ⟨f, rfl, h.mono (by omega)⟩

theorem obstacles_num {n : ℕ} {A : Arith} (hr : A.rnd = fl64) (hh : AccurateHypot A.hypot)
    {agents : Crowd n} {i : Fin n} (ha : ModerateAgent (agents i)) (hc : ModerateContact (agents i))
    (walls : List Wall) (hw : ∀ w ∈ walls, ModerateWall w ∧ (agents i).position ≠ w.p0 ∧
      (agents i).position ≠ w.p1) : ∀ {m : ℕ} {F : Fin n → F64 × F64} {f : Fin n → Vec},
    SumForces m F f → m + walls.length < 2 ^ 53 →
    ∃ f', walls.foldlM (fun agents w => interactionAgentCircularObstacleF A i w agents)
        (withForces agents f) = some (withForces agents f') ∧
      SumForces (m + walls.length) (walls.foldl (fun force w =>
        interactionAgentCircularObstacleI A agents i w force) F) f' := by
  induction walls with
  | nil => exact fun h _ => ⟨_, rfl, h⟩
  | cons w walls ih =>
    intro m F f h hm
    rw [List.length_cons] at hm ⊢
    obtain ⟨w1, w2, w3⟩ := hw w (List.mem_cons_self ..)
    obtain ⟨f1, e1, s1⟩ := obstacleI_num hr hh ha hc w1 w2 w3 h (by omega)
    obtain ⟨f2, e2, s2⟩ := ih (fun v hv => hw v (List.mem_cons_of_mem _ hv)) s1 (by omega)
    refine ⟨f2, ?_, s2.mono (by omega)⟩
    rw [List.foldlM_cons, e1]
    exact e2

/-- All interactions with walls. -/
theorem agentCircularObstacleI_num {n : ℕ} {A : Arith} (hr : A.rnd = fl64)
    (hh : AccurateHypot A.hypot) {agents : Crowd n}
    (ha : ∀ i, ModerateAgent (agents i) ∧ ModerateContact (agents i)) {walls : List Wall}
    (hw : ∀ w ∈ walls, ModerateWall w ∧ ∀ i, (agents i).position ≠ w.p0 ∧
      (agents i).position ≠ w.p1) {m : ℕ} {F : Fin n → F64 × F64} {f : Fin n → Vec}
    (h : SumForces m F f) (hm : m + n * walls.length < 2 ^ 53) :
    ∃ f', agentCircularObstacleF A (withForces agents f) walls = some (withForces agents f') ∧
      SumForces (m + n * walls.length) (agentCircularObstacleI A agents walls F) f' := by
  have key : ∀ (l : List (Fin n)) {m : ℕ} {F : Fin n → F64 × F64} {f : Fin n → Vec},
      SumForces m F f → m + l.length * walls.length < 2 ^ 53 →
      ∃ f', l.foldlM (fun agents i => walls.foldlM (fun agents w =>
          interactionAgentCircularObstacleF A i w agents) agents) (withForces agents f) =
          some (withForces agents f') ∧
        SumForces (m + l.length * walls.length) (l.foldl (fun force i =>
        walls.foldl (fun force w => interactionAgentCircularObstacleI A agents i w force) force)
        F) f' := by
    intro l
    induction l with
    | nil => exact fun h _ => ⟨_, rfl, h.mono (by omega)⟩
    | cons i l ih =>
      intro m F f h hm
      rw [List.length_cons, add_mul, one_mul] at hm ⊢
      obtain ⟨f1, e1, s1⟩ := obstacles_num hr hh (ha i).1 (ha i).2 walls
        (fun w hw' => ⟨(hw w hw').1, (hw w hw').2 i⟩) h (by omega)
      obtain ⟨f2, e2, s2⟩ := ih s1 (by omega)
      refine ⟨f2, ?_, s2.mono (by omega)⟩
      rw [List.foldlM_cons, e1]
      exact e2
  have := key (List.finRange n) h (by rwa [List.length_finRange])
  rwa [List.length_finRange] at this

end CrowdDynamics
