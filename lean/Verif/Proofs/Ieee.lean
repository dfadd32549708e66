import Verif.Model.Ieee
import Verif.Spec.VectorTests
import Verif.Spec.Ieee
import Verif.Proofs.RoundedMotion

/-!
# The social force with infinities and NaN: helper lemmas
-/

namespace CrowdDynamics

open Spec Real

/-! ### Numbers on a grid -/

/-- `x` is a multiple of `2 ^ g`. -/
def OnGrid (g : ℤ) (x : ℝ) : Prop := ∃ m : ℤ, x = m * (2 : ℝ) ^ g

theorem OnGrid.neg {g : ℤ} {x : ℝ} (h : OnGrid g x) : OnGrid g (-x) := by
  obtain ⟨m, rfl⟩ := h
  exact ⟨-m, by push_cast; ring⟩

theorem OnGrid.add {g : ℤ} {x y : ℝ} (h : OnGrid g x) (h' : OnGrid g y) : OnGrid g (x + y) := by
  obtain ⟨m, rfl⟩ := h
  obtain ⟨n, rfl⟩ := h'
  exact ⟨m + n, by push_cast; ring⟩

theorem OnGrid.mul {g g' : ℤ} {x y : ℝ} (h : OnGrid g x) (h' : OnGrid g' y) :
    OnGrid (g + g') (x * y) := by
  obtain ⟨m, rfl⟩ := h
  obtain ⟨n, rfl⟩ := h'
  exact ⟨m * n, by rw [zpow_add₀ (by norm_num)]; push_cast; ring⟩

theorem OnGrid.coarser {g g' : ℤ} {x : ℝ} (h : OnGrid g x) (hg : g' ≤ g) : OnGrid g' x := by
  obtain ⟨m, rfl⟩ := h
  obtain ⟨k, hk⟩ := Int.eq_ofNat_of_zero_le (sub_nonneg.2 hg)
  refine ⟨m * 2 ^ k, ?_⟩
  rw [show g = (k : ℤ) + g' by omega, zpow_add₀ (by norm_num), zpow_natCast]
  push_cast
  ring

theorem OnGrid.fl {g : ℤ} (hg : -1074 ≤ g) {x : ℝ} (h : OnGrid g x) : OnGrid g (fl64 x) := by
  rcases le_total g (fl64Exp x) with h1 | h1
  · exact OnGrid.coarser ⟨halfEven (x / 2 ^ fl64Exp x), rfl⟩ h1
  · obtain ⟨m, hm⟩ := h.coarser h1
    have e : x / 2 ^ fl64Exp x = m := by
      rw [div_eq_iff (two_zpow_pos _).ne', ← hm]
    have : fl64 x = x := by
      unfold fl64
      rw [e, halfEven_intCast, ← hm]
    rw [this]
    exact h

theorem OnGrid.le_abs {g : ℤ} {x : ℝ} (h : OnGrid g x) (hx : x ≠ 0) : (2 : ℝ) ^ g ≤ |x| := by
  obtain ⟨m, rfl⟩ := h
  have hm : m ≠ 0 := by
    rintro rfl
    simp at hx
  rw [abs_mul, abs_of_pos (two_zpow_pos g)]
  have : (1 : ℝ) ≤ |(m : ℝ)| := by exact_mod_cast Int.one_le_abs hm
  nlinarith [two_zpow_pos g]

/-- A rounded number that is not small is on a grid. -/
theorem onGrid_of_le {x : ℝ} {k : ℤ} (hk : -1022 ≤ k) (h : (2 : ℝ) ^ k ≤ |x|) :
    OnGrid (k - 52) (fl64 x) := by
  refine OnGrid.coarser ⟨halfEven (x / 2 ^ fl64Exp x), rfl⟩ ?_
  have hx : 0 < |x| := (two_zpow_pos k).trans_le h
  have : k ≤ Int.log 2 |x| := by
    rw [← Int.zpow_le_iff_le_log (by norm_num) hx]
    exact_mod_cast h
  unfold fl64Exp
  omega

/-! ### Bounds by powers of two -/

theorem fl_abs_le {x : ℝ} {k : ℤ} (hk : -1074 ≤ k) (h : |x| ≤ 2 ^ k) : |fl64 x| ≤ 2 ^ k := by
  rw [abs_le] at h ⊢
  have h1 := fl64_mono h.1
  have h2 := fl64_mono h.2
  rw [fl64_neg] at h1
  rw [fl64_two_zpow hk] at h1 h2
  exact ⟨h1, h2⟩

theorem fl_le_abs {x : ℝ} {k : ℤ} (hk : -1074 ≤ k) (h : (2 : ℝ) ^ k ≤ |x|) :
    (2 : ℝ) ^ k ≤ |fl64 x| := by
  rcases abs_cases x with ⟨e, _⟩ | ⟨e, _⟩
  · rw [e] at h
    have := fl64_mono h
    rw [fl64_two_zpow hk] at this
    exact this.trans (le_abs_self _)
  · rw [e] at h
    have := fl64_mono h
    rw [fl64_two_zpow hk, fl64_neg] at this
    exact this.trans (neg_le_abs _)

/-- `X` is the finite number `x`, whose size is at most `2 ^ k`. -/
def IsNum (X : F64) (x : ℝ) (k : ℤ) : Prop := X = .num x ∧ |x| ≤ 2 ^ k

theorem pack_num {y : ℝ} {k : ℤ} (hk : k < 1024) (h : |y| ≤ 2 ^ k) : IsNum (F64.pack y) y k := by
  refine ⟨?_, h⟩
  unfold F64.pack
  rw [if_pos (lt_of_le_of_lt h (zpow_lt_zpow_right₀ (by norm_num) hk))]

theorem pack_fl {y : ℝ} {k : ℤ} (hk : k < 1024) (hk' : -1074 ≤ k) (h : |y| ≤ 2 ^ k) :
    IsNum (F64.pack (fl64 y)) (fl64 y) k := pack_num hk (fl_abs_le hk' h)

theorem IsNum.neg {X : F64} {x : ℝ} {k : ℤ} (h : IsNum X x k) : IsNum X.neg (-x) k := by
  obtain ⟨rfl, h⟩ := h
  exact ⟨rfl, by rwa [abs_neg]⟩

theorem IsNum.mono {X : F64} {x : ℝ} {k l : ℤ} (h : IsNum X x k) (hl : k ≤ l) : IsNum X x l :=
  ⟨h.1, h.2.trans (zpow_le_zpow_right₀ (by norm_num) hl)⟩

theorem IsNum.add {X Y : F64} {x y : ℝ} {i j k : ℤ} (h : IsNum X x i) (h' : IsNum Y y j)
    (hi : i + 1 ≤ k) (hj : j + 1 ≤ k) (hk : k < 1024) (hk' : -1074 ≤ k) :
    IsNum (X.add fl64 Y) (fl64 (x + y)) k := by
  obtain ⟨rfl, h⟩ := h.mono (show i ≤ k - 1 by omega)
  obtain ⟨rfl, h'⟩ := h'.mono (show j ≤ k - 1 by omega)
  refine pack_fl hk hk' ((abs_add_le _ _).trans ?_)
  have : (2 : ℝ) ^ k = 2 ^ (k - 1) * 2 := by
    rw [← zpow_add_one₀ (by norm_num)]
    congr 1
    ring
  linarith

theorem IsNum.sub {X Y : F64} {x y : ℝ} {i j k : ℤ} (h : IsNum X x i) (h' : IsNum Y y j)
    (hi : i + 1 ≤ k) (hj : j + 1 ≤ k) (hk : k < 1024) (hk' : -1074 ≤ k) :
    IsNum (X.sub fl64 Y) (fl64 (x - y)) k := by
  rw [sub_eq_add_neg]
  exact h.add h'.neg hi hj hk hk'

theorem IsNum.mul {X Y : F64} {x y : ℝ} {i j k : ℤ} (h : IsNum X x i) (h' : IsNum Y y j)
    (hi : i + j ≤ k) (hk : k < 1024) (hk' : -1074 ≤ k) :
    IsNum (X.mul fl64 Y) (fl64 (x * y)) k := by
  obtain ⟨rfl, h⟩ := h
  obtain ⟨rfl, h'⟩ := h'
  refine pack_fl hk hk' ?_
  rw [abs_mul]
  calc |x| * |y| ≤ 2 ^ i * 2 ^ j := mul_le_mul h h' (abs_nonneg _) (two_zpow_pos _).le
    _ = 2 ^ (i + j) := (zpow_add₀ (by norm_num) _ _).symm
    _ ≤ _ := zpow_le_zpow_right₀ (by norm_num) hi

theorem IsNum.div {X Y : F64} {x y : ℝ} {i j k l : ℤ} (h : IsNum X x i) (h' : IsNum Y y l)
    (hy : (2 : ℝ) ^ j ≤ |y|) (hi : i - j ≤ k) (hk : k < 1024) (hk' : -1074 ≤ k) :
    IsNum (X.div fl64 Y) (fl64 (x / y)) k ∧
      X.sdiv fl64 Y = .ok (X.div fl64 Y) := by
  obtain ⟨rfl, h⟩ := h
  obtain ⟨rfl, h'⟩ := h'
  have hy0 : y ≠ 0 := by
    rintro rfl
    rw [abs_zero] at hy
    exact absurd hy (not_le.2 (two_zpow_pos j))
  constructor
  · show IsNum (if y = 0 then _ else F64.pack (fl64 (x / y))) _ _
    rw [if_neg hy0]
    refine pack_fl hk hk' ?_
    rw [abs_div]
    calc |x| / |y| ≤ 2 ^ i / 2 ^ j :=
          div_le_div₀ (two_zpow_pos _).le h (two_zpow_pos _) hy
      _ = 2 ^ (i - j) := (zpow_sub₀ (by norm_num) _ _).symm
      _ ≤ _ := zpow_le_zpow_right₀ (by norm_num) hi
  · unfold F64.sdiv
    rw [if_neg]
    intro h0
    injection h0 with h0
    exact hy0 h0

/-! ### The parts of the social force -/

theorem hypot_num {A : Arith} (hh : AccurateHypot A.hypot) {X Y : F64} {x y : ℝ} {k : ℤ}
    (h : IsNum X x k) (h' : IsNum Y y k) (hk0 : 0 ≤ k) (hk : k + 2 < 1024) :
    IsNum (X.hypot A Y) (A.hypot x y) (k + 2) := by
  obtain ⟨rfl, h⟩ := h
  obtain ⟨rfl, h'⟩ := h'
  refine pack_num hk ?_
  rw [abs_of_nonneg (hh.nonneg _ _)]
  have h1 := (abs_le.1 (hh.near x y)).2
  have hp := two_zpow_pos k
  have h2 : √(x ^ 2 + y ^ 2) ≤ 2 * 2 ^ k := by
    rw [Real.sqrt_le_left (by positivity)]
    have := sq_le_sq' (by linarith [(abs_le.1 h).1]) (abs_le.1 h).2
    have := sq_le_sq' (by linarith [(abs_le.1 h').1]) (abs_le.1 h').2
    nlinarith
  have h3 : (2 : ℝ) ^ (-1074 : ℤ) ≤ 2 ^ k := zpow_le_zpow_right₀ (by norm_num) (by omega)
  have h4 : (2 : ℝ) ^ (k + 2) = 4 * 2 ^ k := by
    rw [zpow_add₀ (by norm_num)]
    norm_num
    ring
  have h5 : √(x ^ 2 + y ^ 2) * (2 : ℝ) ^ (-52 : ℤ) ≤ 2 ^ k := by
    have h6 : √(x ^ 2 + y ^ 2) * (2 : ℝ) ^ (-52 : ℤ) ≤ 2 * 2 ^ k * (1 / 2) :=
      mul_le_mul h2 (by norm_num) (two_zpow_pos _).le (by positivity)
    exact h6.trans_eq (by ring)
  rw [h4]
  generalize (2 : ℝ) ^ (-1074 : ℤ) = z at *
  linarith

theorem truncateI_num {A : Arith} (hr : A.rnd = fl64) (hh : AccurateHypot A.hypot) {X Y : F64}
    {x y : ℝ} {k : ℤ} (h : IsNum X x k) (h' : IsNum Y y k) (hk0 : 0 ≤ k) (hk : k + 2 < 1024) :
    truncateI A (X, Y) (.num fSocMax) =
      .ok (.num (truncateF A (x, y) fSocMax).1, .num (truncateF A (x, y) fSocMax).2) := by
  have hl := hypot_num hh h h' hk0 hk
  unfold truncateI truncateF lengthF
  simp only [hr]
  rw [hl.1]
  have hg : F64.gt (.num (A.hypot x y)) (.num fSocMax) ↔ A.hypot x y > fSocMax := Iff.rfl
  by_cases hc : A.hypot x y > fSocMax
  · rw [if_pos (hg.2 hc), if_pos hc]
    have hf : IsNum (.num fSocMax) fSocMax 11 := ⟨rfl, by norm_num [fSocMax]⟩
    have hpos : 0 < A.hypot x y := lt_trans (by norm_num [fSocMax]) hc
    have hd := hf.div hl (j := 10) (k := 1) (by
      rw [abs_of_pos hpos]
      exact le_trans (by norm_num [fSocMax]) hc.le) (by norm_num) (by norm_num) (by norm_num)
    rw [hl.1] at hd
    rw [hd.2]
    have e1 := h.mul hd.1 (k := k + 1) le_rfl (by omega) (by omega)
    have e2 := h'.mul hd.1 (k := k + 1) le_rfl (by omega) (by omega)
    show Except.ok (_, _) = _
    rw [e1.1, e2.1]
  · rw [if_neg (fun h0 => hc (hg.1 h0)), if_neg hc, h.1, h'.1]

theorem magnitudeI_num {A : Arith} (hr : A.rnd = fl64) (he : SaneExp A.exp) {tau tau0 : ℝ}
    (h1 : (2 : ℝ) ^ (-195 : ℤ) ≤ tau) (h2 : tau ≤ 30) (h3 : (2 : ℝ) ^ (-10 : ℤ) ≤ tau0)
    (h4 : tau0 ≤ 2 ^ (10 : ℤ)) :
    ∃ M, magnitudeI A (.num tau) (.num tau0) = .ok M ∧ IsNum M (magnitudeF A tau tau0) 587 := by
  have p1 : 0 < tau := (two_zpow_pos _).trans_le h1
  have p3 : 0 < tau0 := (two_zpow_pos _).trans_le h3
  have ht : IsNum (.num tau) tau 5 := ⟨rfl, by rw [abs_of_pos p1]; exact h2.trans (by norm_num)⟩
  have ht0 : IsNum (.num tau0) tau0 10 := ⟨rfl, by rw [abs_of_pos p3]; exact h4⟩
  have b1 : (2 : ℝ) ^ (-195 : ℤ) ≤ |tau| := by rwa [abs_of_pos p1]
  have b3 : (2 : ℝ) ^ (-10 : ℤ) ≤ |tau0| := by rwa [abs_of_pos p3]
  have q : IsNum (.num 2) 2 1 := ⟨rfl, by norm_num⟩
  have q0 : IsNum (.num 1) 1 0 := ⟨rfl, by norm_num⟩
  obtain ⟨s1, t1⟩ := q.div ht b1 (k := 196) (by norm_num) (by norm_num) (by norm_num)
  obtain ⟨s2, t2⟩ := q0.div ht0 b3 (k := 10) (by norm_num) (by norm_num) (by norm_num)
  obtain ⟨s3, t3⟩ := ht.neg.div ht0 b3 (k := 15) (by norm_num) (by norm_num) (by norm_num)
  have s4 := s1.add s2 (k := 197) (by norm_num) (by norm_num) (by norm_num) (by norm_num)
  have hx := he (fl64 (-tau / tau0)) (by
    have := fl64_mono (show -tau / tau0 ≤ 0 from
      div_nonpos_of_nonpos_of_nonneg (by linarith) p3.le)
    rwa [fl64_zero] at this)
  have s5 : IsNum ((F64.div fl64 (F64.num tau).neg (.num tau0)).exp A)
      (A.exp (fl64 (-tau / tau0))) 0 := by
    rw [s3.1]
    exact pack_num (by norm_num) (by rw [abs_of_nonneg hx.1, zpow_zero]; exact hx.2)
  have s6 := s4.mul s5 (k := 197) (by norm_num) (by norm_num) (by norm_num)
  have s7 := ht.mul ht (k := 10) (by norm_num) (by norm_num) (by norm_num)
  have b7 : (2 : ℝ) ^ (-390 : ℤ) ≤ |fl64 (tau * tau)| := by
    refine fl_le_abs (by norm_num) ?_
    rw [abs_mul, show (-390 : ℤ) = -195 + -195 by norm_num, zpow_add₀ (by norm_num)]
    exact mul_le_mul b1 b1 (two_zpow_pos _).le (abs_nonneg _)
  obtain ⟨s8, t8⟩ := s6.div s7 b7 (k := 587) (by norm_num) (by norm_num) (by norm_num)
  have em : magnitudeF A tau tau0 = fl64 (fl64 (fl64 (fl64 (2 / tau) + fl64 (1 / tau0)) *
      A.exp (fl64 (-tau / tau0))) / fl64 (tau * tau)) := by
    unfold magnitudeF
    simp only [hr]
  rw [em]
  refine ⟨_, ?_, s8⟩
  unfold magnitudeI
  simp only [hr]
  rw [t1, t2, t3]
  exact t8

theorem gradientI_comp {X V D AA B : F64} {x v a b d : ℝ} (hx : IsNum X x 21) (hv : IsNum V v 11)
    (ha : IsNum AA a 23) (hb : IsNum B b 33) (hd : IsNum D d 34)
    (ha' : (2 : ℝ) ^ (-120 : ℤ) ≤ |a|) (hd' : (2 : ℝ) ^ (-120 : ℤ) ≤ |d|) :
    IsNum ((V.sub fl64 (((V.mul fl64 B).add fl64 (X.mul fl64 AA)).div fl64 D)).div fl64 AA)
      (fl64 (fl64 (v - fl64 (fl64 (fl64 (v * b) + fl64 (x * a)) / d)) / a)) 286 := by
  have s1 := hv.mul hb (k := 44) (by norm_num) (by norm_num) (by norm_num)
  have s2 := hx.mul ha (k := 44) (by norm_num) (by norm_num) (by norm_num)
  have s3 := s1.add s2 (k := 45) (by norm_num) (by norm_num) (by norm_num) (by norm_num)
  have s4 := (s3.div hd hd' (k := 165) (by norm_num) (by norm_num) (by norm_num)).1
  have s5 := hv.sub s4 (k := 166) (by norm_num) (by norm_num) (by norm_num) (by norm_num)
  exact (s5.div ha ha' (k := 286) (by norm_num) (by norm_num) (by norm_num)).1

theorem socialPartI_num {A : Arith} (hr : A.rnd = fl64) {ag : Agent} (h1 : |ag.mass| ≤ 2 ^ (10 : ℤ))
    (h2 : |ag.kSoc| ≤ 2 ^ (10 : ℤ)) {G H M : F64} {g h m : ℝ} (hg : IsNum G g 286)
    (hh : IsNum H h 286) (hm : IsNum M m 587) :
    IsNum (socialPartI A ag (G, H) M).1 (fl64 (fl64 (fl64 (-ag.mass * ag.kSoc) * g) * m)) 893 ∧
    IsNum (socialPartI A ag (G, H) M).2 (fl64 (fl64 (fl64 (-ag.mass * ag.kSoc) * h) * m)) 893 := by
  have m1 : IsNum (.num ag.mass) ag.mass 10 := ⟨rfl, h1⟩
  have m2 : IsNum (.num ag.kSoc) ag.kSoc 10 := ⟨rfl, h2⟩
  have s1 := m1.neg.mul m2 (k := 20) (by norm_num) (by norm_num) (by norm_num)
  have s2 := s1.mul hg (k := 306) (by norm_num) (by norm_num) (by norm_num)
  have s3 := s1.mul hh (k := 306) (by norm_num) (by norm_num) (by norm_num)
  unfold socialPartI
  simp only [hr]
  exact ⟨s2.mul hm (by norm_num) (by norm_num) (by norm_num),
    s3.mul hm (by norm_num) (by norm_num) (by norm_num)⟩

/-- The coefficients of the quadratic equation. -/
theorem coefficients_num {ai aj : Agent} (hi : ModerateAgent ai) (hj : ModerateAgent aj) :
    ∃ (x v : Vec) (r : ℝ),
      x = vecSubF fl64 ai.position aj.position ∧ v = vecSubF fl64 ai.velocity aj.velocity ∧
      r = fl64 (ai.radius + aj.radius) ∧
      IsNum (subI fl64 ai.position aj.position).1 x.1 21 ∧
      IsNum (subI fl64 ai.position aj.position).2 x.2 21 ∧
      IsNum (subI fl64 ai.velocity aj.velocity).1 v.1 11 ∧
      IsNum (subI fl64 ai.velocity aj.velocity).2 v.2 11 ∧
      IsNum ((F64.num ai.radius).add fl64 (.num aj.radius)) r 11 ∧
      OnGrid (-60) x.1 ∧ OnGrid (-60) x.2 ∧ OnGrid (-60) v.1 ∧ OnGrid (-60) v.2 ∧
      OnGrid (-60) r := by
  have num : ∀ {k : ℤ} {y : ℝ}, ModerateNumber k y → IsNum (.num y) y k := fun h => ⟨rfl, h.1⟩
  have grid : ∀ {k : ℤ} {y : ℝ}, ModerateNumber k y → OnGrid (-60) y := fun h => h.2
  refine ⟨_, _, _, rfl, rfl, rfl, ?_, ?_, ?_, ?_, ?_, ?_, ?_, ?_, ?_, ?_⟩
  · exact (num hi.position.1).sub (num hj.position.1) (by norm_num) (by norm_num) (by norm_num)
      (by norm_num)
  · exact (num hi.position.2).sub (num hj.position.2) (by norm_num) (by norm_num) (by norm_num)
      (by norm_num)
  · exact (num hi.velocity.1).sub (num hj.velocity.1) (by norm_num) (by norm_num) (by norm_num)
      (by norm_num)
  · exact (num hi.velocity.2).sub (num hj.velocity.2) (by norm_num) (by norm_num) (by norm_num)
      (by norm_num)
  · exact (num hi.radius).add (num hj.radius) (by norm_num) (by norm_num) (by norm_num)
      (by norm_num)
  · show OnGrid _ (fl64 (_ - _))
    rw [sub_eq_add_neg]
    exact ((grid hi.position.1).add (grid hj.position.1).neg).fl (by norm_num)
  · show OnGrid _ (fl64 (_ - _))
    rw [sub_eq_add_neg]
    exact ((grid hi.position.2).add (grid hj.position.2).neg).fl (by norm_num)
  · show OnGrid _ (fl64 (_ - _))
    rw [sub_eq_add_neg]
    exact ((grid hi.velocity.1).add (grid hj.velocity.1).neg).fl (by norm_num)
  · show OnGrid _ (fl64 (_ - _))
    rw [sub_eq_add_neg]
    exact ((grid hi.velocity.2).add (grid hj.velocity.2).neg).fl (by norm_num)
  · exact ((grid hi.radius).add (grid hj.radius)).fl (by norm_num)

theorem dotI_num {U1 U2 V1 V2 : F64} {u v : Vec} {i j k : ℤ} (h1 : IsNum U1 u.1 i)
    (h2 : IsNum U2 u.2 i) (h3 : IsNum V1 v.1 j) (h4 : IsNum V2 v.2 j) (hk : i + j + 1 ≤ k)
    (hk1 : k < 1024) (hk2 : 0 ≤ i + j) :
    IsNum (dotI fl64 (U1, U2) (V1, V2)) (dotF fl64 u v) k :=
  (h1.mul h3 le_rfl (by omega) (by omega)).add (h2.mul h4 le_rfl (by omega) (by omega)) hk hk
    hk1 (by omega)

theorem dotF_grid {u v : Vec} {g : ℤ} (hg : -500 ≤ g) (h1 : OnGrid g u.1) (h2 : OnGrid g u.2)
    (h3 : OnGrid g v.1) (h4 : OnGrid g v.2) : OnGrid (g + g) (dotF fl64 u v) :=
  (((h1.mul h3).fl (by omega)).add ((h2.mul h4).fl (by omega))).fl (by omega)

/-- A finite social force, the same as without overflow. -/
theorem forceSocialCircularI_num {A : Arith} (hr : A.rnd = fl64) (hh : AccurateHypot A.hypot)
    (he : SaneExp A.exp) {ai aj : Agent} (hi : ModerateAgent ai) (hj : ModerateAgent aj) :
    forceSocialCircularI A ai aj = .ok
      ((.num (forceSocialCircularF A ai aj).1.1, .num (forceSocialCircularF A ai aj).1.2),
       (.num (forceSocialCircularF A ai aj).2.1, .num (forceSocialCircularF A ai aj).2.2)) := by
  obtain ⟨x, v, r, ex, ev, er, x1, x2, v1, v2, hr', gx1, gx2, gv1, gv2, gr⟩ :=
    coefficients_num hi hj
  classical
  obtain ⟨rnd, hyp, exp⟩ := A
  obtain rfl : rnd = fl64 := hr
  unfold forceSocialCircularI forceSocialCircularF
  dsimp only
  rw [← ex, ← ev, ← er]
  obtain ⟨X, hX⟩ : ∃ X, subI fl64 ai.position aj.position = X := ⟨_, rfl⟩
  obtain ⟨V, hV⟩ : ∃ V, subI fl64 ai.velocity aj.velocity = V := ⟨_, rfl⟩
  obtain ⟨R, hR⟩ : ∃ R, (F64.num ai.radius).add fl64 (.num aj.radius) = R := ⟨_, rfl⟩
  rw [hX] at x1 x2 ⊢
  rw [hV] at v1 v2 ⊢
  rw [hR] at hr' ⊢
  have sa := dotI_num v1 v2 v1 v2 (k := 23) (by norm_num) (by norm_num) (by norm_num)
  have sb := (dotI_num x1 x2 v1 v2 (k := 33) (by norm_num) (by norm_num) (by norm_num)).neg
  have sx := dotI_num x1 x2 x1 x2 (k := 43) (by norm_num) (by norm_num) (by norm_num)
  have srr := hr'.mul hr' (k := 22) (by norm_num) (by norm_num) (by norm_num)
  have sc := sx.sub srr (k := 44) (by norm_num) (by norm_num) (by norm_num) (by norm_num)
  have ga := dotF_grid (by norm_num) gv1 gv2 gv1 gv2
  have gb := (dotF_grid (by norm_num) gx1 gx2 gv1 gv2).neg
  have gc : OnGrid (-60 + -60) (fl64 (dotF fl64 x x - fl64 (r * r))) := by
    rw [sub_eq_add_neg]
    exact ((dotF_grid (by norm_num) gx1 gx2 gx1 gx2).add
      (((gr.mul gr).fl (by norm_num)).neg)).fl (by norm_num)
  simp only [Prod.mk.eta] at sa sb sx sc
  generalize dotF fl64 v v = a at *
  generalize -dotF fl64 x v = b at *
  generalize fl64 (dotF fl64 x x - fl64 (r * r)) = c at *
  generalize dotI fl64 V V = IA at *
  generalize (dotI fl64 X V).neg = IB at *
  generalize (dotI fl64 X X).sub fl64 (R.mul fl64 R) = IC at *
  have sbb := sb.mul sb (k := 66) (by norm_num) (by norm_num) (by norm_num)
  have sac := sa.mul sc (k := 67) (by norm_num) (by norm_num) (by norm_num)
  have sD := sbb.sub sac (k := 68) (by norm_num) (by norm_num) (by norm_num) (by norm_num)
  have gD : OnGrid (-240) (fl64 (fl64 (b * b) - fl64 (a * c))) := by
    rw [sub_eq_add_neg]
    exact (((gb.mul gb).fl (by norm_num)).add (((ga.mul gc).fl (by norm_num)).neg)).fl (by norm_num)
  generalize fl64 (fl64 (b * b) - fl64 (a * c)) = disc at *
  rw [sD.1]
  by_cases hneg : disc < 0
  · rw [if_pos hneg]
    have : F64.sqrt fl64 (.num disc) = .nan := if_pos hneg
    rw [if_pos (Or.inl this)]
    rfl
  have sd : IsNum (F64.sqrt fl64 (.num disc)) (fl64 (√disc)) 34 := by
    have e : F64.sqrt fl64 (.num disc) = .pack (fl64 (√disc)) := if_neg hneg
    rw [e]
    refine pack_fl (by norm_num) (by norm_num) ?_
    rw [abs_of_nonneg (Real.sqrt_nonneg _), Real.sqrt_le_left (two_zpow_pos _).le]
    refine (le_abs_self disc).trans (sD.2.trans_eq ?_)
    norm_num
  rw [if_neg hneg]
  by_cases h0 : fl64 (√disc) = 0 ∨ a = 0
  · rw [if_pos h0, if_pos]
    · rfl
    · right
      rw [sd.1, sa.1]
      rcases h0 with h0 | h0
      · left; rw [h0]
      · right; rw [h0]
  rw [if_neg h0, if_neg (by
    rw [sd.1, sa.1]
    rintro (h | h | h)
    · exact F64.noConfusion h
    · injection h with h
      exact h0 (Or.inl h)
    · injection h with h
      exact h0 (Or.inr h))]
  have ha' : (2 : ℝ) ^ (-120 : ℤ) ≤ |a| := ga.le_abs (fun h => h0 (Or.inr h))
  have hdisc : disc ≠ 0 := by
    rintro rfl
    exact h0 (Or.inl (by rw [Real.sqrt_zero, fl64_zero]))
  have hs : (2 : ℝ) ^ (-120 : ℤ) ≤ |√disc| := by
    rw [abs_of_nonneg (Real.sqrt_nonneg _)]
    refine Real.le_sqrt_of_sq_le ?_
    have := gD.le_abs hdisc
    rw [abs_of_nonneg (not_lt.1 hneg)] at this
    refine le_trans (le_of_eq ?_) this
    norm_num
  have hd' : (2 : ℝ) ^ (-120 : ℤ) ≤ |fl64 (√disc)| := fl_le_abs (by norm_num) hs
  have gd : OnGrid (-172) (fl64 (√disc)) := onGrid_of_le (k := -120) (by norm_num) hs
  generalize fl64 (√disc) = d at *
  generalize F64.sqrt fl64 (.num disc) = ID at *
  have sbd := sb.sub sd (k := 35) (by norm_num) (by norm_num) (by norm_num) (by norm_num)
  have gbd : OnGrid (-172) (fl64 (b - d)) := by
    rw [sub_eq_add_neg]
    exact ((gb.coarser (by norm_num)).add gd.neg).fl (by norm_num)
  obtain ⟨st, ht⟩ := sbd.div sa ha' (k := 155) (by norm_num) (by norm_num) (by norm_num)
  rw [ht]
  have htau : fl64 (fl64 (b - d) / a) ≠ 0 → (2 : ℝ) ^ (-195 : ℤ) ≤ |fl64 (fl64 (b - d) / a)| := by
    intro h
    have hn : fl64 (b - d) ≠ 0 := by
      intro h'
      rw [h', zero_div, fl64_zero] at h
      exact h rfl
    refine fl_le_abs (by norm_num) ?_
    rw [abs_div, le_div_iff₀ (lt_of_lt_of_le (two_zpow_pos _) ha')]
    refine le_trans ?_ (gbd.le_abs hn)
    calc (2 : ℝ) ^ (-195 : ℤ) * |a| ≤ 2 ^ (-195 : ℤ) * 2 ^ (23 : ℤ) :=
          mul_le_mul_of_nonneg_left sa.2 (two_zpow_pos _).le
      _ = 2 ^ (-172 : ℤ) := by rw [← zpow_add₀ (by norm_num)]; norm_num
  generalize fl64 (fl64 (b - d) / a) = tau at *
  generalize (IB.sub fl64 ID).div fl64 IA = IT at *
  obtain ⟨rfl, -⟩ := st
  have c1 : F64.le (.num tau) (.num 0) ↔ tau ≤ 0 := Iff.rfl
  have c2 : F64.gt (.num tau) (.num 30) ↔ tau > 30 := Iff.rfl
  show (if F64.le (.num tau) (.num 0) ∨ F64.gt (.num tau) (.num 30) then _ else _) = _
  rw [c1, c2]
  by_cases hc : tau ≤ 0 ∨ tau > 30
  · rw [if_pos hc, if_pos hc]
    rfl
  rw [if_neg hc, if_neg hc]
  push Not at hc
  have ht1 : (2 : ℝ) ^ (-195 : ℤ) ≤ tau := by
    have := htau hc.1.ne'
    rwa [abs_of_pos hc.1] at this
  obtain ⟨MI, mi, smi⟩ := magnitudeI_num rfl he ht1 hc.2 hi.tau0.1 hi.tau0.2
  obtain ⟨MJ, mj, smj⟩ := magnitudeI_num rfl he ht1 hc.2 hj.tau0.1 hj.tau0.2
  have g1 := gradientI_comp x1 v1 sa sb sd ha' hd'
  have g2 := gradientI_comp x2 v2 sa sb sd ha' hd'
  obtain ⟨pi1, pi2⟩ := socialPartI_num (A := ⟨fl64, hyp, exp⟩) rfl hi.mass hi.kSoc g1 g2 smi
  obtain ⟨pj1, pj2⟩ := socialPartI_num (A := ⟨fl64, hyp, exp⟩) rfl hj.mass hj.kSoc g1 g2 smj
  have fi := truncateI_num rfl hh pi1 pi2 (by norm_num) (by norm_num)
  have fj := truncateI_num rfl hh pj1.neg pj2.neg (by norm_num) (by norm_num)
  rw [mi, mj]
  simp only [bind, Except.bind, gradientI]
  simp only [Prod.mk.eta] at fi
  rw [fi]
  simp only [bind, Except.bind]
  rw [fj]
  rfl

end CrowdDynamics
