import Verif.Model.RoundedArea
import Verif.Model.CoreTests
import Verif.Proofs.RoundedMotion
import Verif.Proofs.Geom2D

/-!
# Areas of polygons with rounding: helper lemmas
-/

namespace CrowdDynamics

open Spec Real

/-- `s` is a rounded sum of `k` terms of the shoelace formula with the exact value `S`. -/
def AreaErr (M : ℝ) (k : ℕ) (s S : ℝ) : Prop :=
  |S| ≤ 2 * k * M ^ 2 ∧ |s - S| ≤ (8 * k + 2 * k ^ 2) * M ^ 2 * uu

theorem eta_le_area {M : ℝ} (hM : (2 : ℝ) ^ (-500 : ℤ) ≤ M) :
    2 ^ 20 * eta ≤ M ^ 2 * uu ∧ 2 ^ 20 * eta ≤ M * uu := by
  have h0 : (0 : ℝ) < 2 ^ (-500 : ℤ) := two_zpow_pos _
  have h1 : (2 : ℝ) ^ (-1000 : ℤ) ≤ M ^ 2 := by
    have := mul_le_mul hM hM h0.le (h0.le.trans hM)
    rw [← zpow_add₀ (by norm_num)] at this
    rw [pow_two]
    exact this
  have e1 : (2 : ℝ) ^ 20 * eta = 2 ^ (-1055 : ℤ) := by
    unfold eta
    rw [← zpow_natCast, ← zpow_add₀ (by norm_num)]
    norm_num
  have e2 : (2 : ℝ) ^ (-1055 : ℤ) ≤ 2 ^ (-1000 : ℤ) * uu := by
    unfold uu
    rw [← zpow_add₀ (by norm_num)]
    exact zpow_le_zpow_right₀ (by norm_num) (by norm_num)
  have e3 : (2 : ℝ) ^ (-1055 : ℤ) ≤ 2 ^ (-500 : ℤ) * uu := by
    unfold uu
    rw [← zpow_add₀ (by norm_num)]
    exact zpow_le_zpow_right₀ (by norm_num) (by norm_num)
  rw [e1]
  exact ⟨e2.trans (mul_le_mul_of_nonneg_right h1 uu_pos.le),
    e3.trans (mul_le_mul_of_nonneg_right hM uu_pos.le)⟩

/-- One term of the shoelace formula. -/
theorem areaTerm_err {M x y z : ℝ} (hM : (2 : ℝ) ^ (-500 : ℤ) ≤ M) (hx : |x| ≤ M) (hy : |y| ≤ M)
    (hz : |z| ≤ M) :
    |x * (y - z)| ≤ 2 * M ^ 2 ∧
      |fl64 (x * fl64 (y - z)) - x * (y - z)| ≤ 6 * M ^ 2 * uu := by
  have hM0 : 0 < M := (two_zpow_pos _).trans_le hM
  have hu := uu_pos
  have he := eta_pos
  have hus : uu ≤ 1 / 2 ^ 40 := by
    have := uu_small
    rw [le_div_iff₀ (by positivity)]
    linarith
  obtain ⟨g1, g2⟩ := eta_le_area hM
  have hD : |y - z| ≤ 2 * M := by
    have := abs_sub y z
    linarith
  have hT : |x * (y - z)| ≤ 2 * M ^ 2 := by
    rw [abs_mul]
    have := mul_le_mul hx hD (abs_nonneg _) hM0.le
    linarith
  refine ⟨hT, ?_⟩
  have e1 : |fl64 (y - z) - (y - z)| ≤ |y - z| * uu + eta := fl64_err_gen _
  have e2 : |x * fl64 (y - z) - x * (y - z)| ≤ 2 * M ^ 2 * uu + M * eta := by
    rw [← mul_sub, abs_mul]
    have h1 := mul_le_mul_of_nonneg_right hD hu.le
    calc |x| * |fl64 (y - z) - (y - z)| ≤ M * (2 * M * uu + eta) :=
          mul_le_mul hx (by linarith) (abs_nonneg _) hM0.le
      _ = _ := by ring
  have g3 : M * eta ≤ M ^ 2 * uu / 2 ^ 20 := by
    rw [le_div_iff₀ (by positivity)]
    have := mul_le_mul_of_nonneg_left g2 hM0.le
    linarith
  have hP := mul_pos (pow_pos hM0 2) hu
  have e3 : |x * fl64 (y - z)| ≤ 3 * M ^ 2 := by
    have h1 : |x * fl64 (y - z)| ≤ |x * (y - z)| + |x * fl64 (y - z) - x * (y - z)| := by
      calc |x * fl64 (y - z)| = |x * (y - z) + (x * fl64 (y - z) - x * (y - z))| := by
            congr 1; ring
        _ ≤ _ := abs_add_le _ _
    have h2 : M ^ 2 * uu ≤ M ^ 2 * (1 / 2 ^ 40) := mul_le_mul_of_nonneg_left hus (by positivity)
    have h3 : 0 < M ^ 2 := by positivity
    norm_num at h2 g3
    linarith
  have e4 : |fl64 (x * fl64 (y - z)) - x * fl64 (y - z)| ≤ |x * fl64 (y - z)| * uu + eta :=
    fl64_err_gen _
  have e5 := mul_le_mul_of_nonneg_right e3 hu.le
  have g4 : eta ≤ M ^ 2 * uu / 2 ^ 20 := by
    rw [le_div_iff₀ (by positivity)]
    linarith
  calc |fl64 (x * fl64 (y - z)) - x * (y - z)|
      = |(fl64 (x * fl64 (y - z)) - x * fl64 (y - z)) + (x * fl64 (y - z) - x * (y - z))| := by
        congr 1; ring
    _ ≤ (3 * M ^ 2 * uu + eta) + (2 * M ^ 2 * uu + M * eta) :=
        (abs_add_le _ _).trans (add_le_add (by linarith) e2)
    _ ≤ _ := by
      norm_num at g3 g4
      linarith

/-- One more term. -/
theorem areaErr_step {M s S t T : ℝ} {k : ℕ} (hM : (2 : ℝ) ^ (-500 : ℤ) ≤ M) (hk : k < 2 ^ 16)
    (h : AreaErr M k s S) (hT : |T| ≤ 2 * M ^ 2) (ht : |t - T| ≤ 6 * M ^ 2 * uu) :
    AreaErr M (k + 1) (fl64 (s + t)) (S + T) := by
  have hM0 : 0 < M := (two_zpow_pos _).trans_le hM
  have hu := uu_pos
  obtain ⟨g1, -⟩ := eta_le_area hM
  obtain ⟨h1, h2⟩ := h
  have hS : |S + T| ≤ 2 * (k + 1 : ℕ) * M ^ 2 := by
    have := abs_add_le S T
    push_cast
    linarith
  refine ⟨hS, ?_⟩
  have e1 : |(s + t) - (S + T)| ≤ (8 * k + 2 * k ^ 2 + 6) * M ^ 2 * uu := by
    calc |(s + t) - (S + T)| = |(s - S) + (t - T)| := by congr 1; ring
      _ ≤ _ := (abs_add_le _ _).trans (add_le_add h2 ht)
      _ = _ := by ring
  have hk' : (k : ℝ) ≤ 2 ^ 16 := by exact_mod_cast hk.le
  have hk0 : (0 : ℝ) ≤ k := Nat.cast_nonneg k
  have hsmall : (8 * k + 2 * k ^ 2 + 6) * uu ≤ 1 / 2 ^ 10 := by
    have hq : (8 * k + 2 * k ^ 2 + 6 : ℝ) ≤ 2 ^ 34 := by
      have : (k : ℝ) ^ 2 ≤ (2 ^ 16) ^ 2 := pow_le_pow_left₀ hk0 hk' 2
      generalize (k : ℝ) ^ 2 = q at this ⊢
      norm_num at this ⊢
      linarith
    have := mul_le_mul_of_nonneg_right hq hu.le
    have hus : uu = 1 / 2 ^ 53 := by unfold uu; norm_num
    calc (8 * k + 2 * k ^ 2 + 6) * uu ≤ 2 ^ 34 * uu := this
      _ ≤ _ := by rw [hus]; norm_num
  have hM2 : 0 < M ^ 2 := by positivity
  have e2 : |s + t| ≤ (2 * k + 3) * M ^ 2 := by
    have h3 : |s + t| ≤ |S + T| + |(s + t) - (S + T)| := by
      calc |s + t| = |(S + T) + ((s + t) - (S + T))| := by congr 1; ring
        _ ≤ _ := abs_add_le _ _
    have h4 := mul_le_mul_of_nonneg_right hsmall hM2.le
    push_cast at hS
    norm_num at h4
    linarith
  have e3 : |fl64 (s + t) - (s + t)| ≤ |s + t| * uu + eta := fl64_err_gen _
  have e4 := mul_le_mul_of_nonneg_right e2 hu.le
  have hP := mul_pos hM2 hu
  have hkP := mul_nonneg hk0 hP.le
  calc |fl64 (s + t) - (S + T)| = |(fl64 (s + t) - (s + t)) + ((s + t) - (S + T))| := by
        congr 1; ring
    _ ≤ ((2 * k + 3) * M ^ 2 * uu + eta) + (8 * k + 2 * k ^ 2 + 6) * M ^ 2 * uu :=
        (abs_add_le _ _).trans (add_le_add (by linarith) e1)
    _ ≤ _ := by
      push_cast
      norm_num at g1
      have : (2 * (k : ℝ) + 3) * M ^ 2 * uu + M ^ 2 * uu + (8 * k + 2 * k ^ 2 + 6) * M ^ 2 * uu ≤
          (8 * ((k : ℝ) + 1) + 2 * ((k : ℝ) + 1) ^ 2) * M ^ 2 * uu := by
        have : (8 * ((k : ℝ) + 1) + 2 * ((k : ℝ) + 1) ^ 2) * M ^ 2 * uu -
          ((2 * (k : ℝ) + 3) * M ^ 2 * uu + M ^ 2 * uu + (8 * k + 2 * k ^ 2 + 6) * M ^ 2 * uu) =
          2 * (k * (M ^ 2 * uu)) := by ring
        linarith
      linarith

/-- Any number of terms. -/
theorem areaErr_foldl {M : ℝ} (hM : (2 : ℝ) ^ (-500 : ℤ) ≤ M) (f g : ℕ → ℝ) (l : List ℕ)
    (hf : ∀ i ∈ l, |f i| ≤ 2 * M ^ 2 ∧ |g i - f i| ≤ 6 * M ^ 2 * uu) :
    ∀ (k : ℕ) (s S : ℝ), k + l.length < 2 ^ 16 → AreaErr M k s S →
      AreaErr M (k + l.length) (l.foldl (fun a i => fl64 (a + g i)) s)
        (l.foldl (fun a i => a + f i) S) := by
  induction l with
  | nil =>
    intro k s S _ h
    exact h
  | cons i l ih =>
    intro k s S hk h
    simp only [List.length_cons] at hk ⊢
    rw [List.foldl_cons, List.foldl_cons, show k + (l.length + 1) = (k + 1) + l.length by omega]
    have h0 := hf i (List.mem_cons_self ..)
    exact ih (fun j hj => hf j (List.mem_cons_of_mem _ hj)) _ _ _ (by omega)
      (areaErr_step hM (by omega) h h0.1 h0.2)

theorem getD_abs_le {M : ℝ} (hM : 0 ≤ M) {l : List Vec}
    (h : ∀ v ∈ l, |v.1| ≤ M ∧ |v.2| ≤ M) (i : ℕ) :
    |(l.getD i 0).1| ≤ M ∧ |(l.getD i 0).2| ≤ M := by
  by_cases hi : i < l.length
  · rw [List.getD_eq_getElem?_getD, List.getElem?_eq_getElem hi]
    exact h _ (List.getElem_mem hi)
  · rw [List.getD_eq_getElem?_getD, List.getElem?_eq_none (by omega)]
    simpa using hM

/-- The rounded area of a polygon. -/
theorem polygonAreaF_err {M : ℝ} (hM : (2 : ℝ) ^ (-500 : ℤ) ≤ M) {l : List Vec}
    (hn : l.length < 2 ^ 16) (h : ∀ v ∈ l, |v.1| ≤ M ∧ |v.2| ≤ M) :
    |polygonAreaF fl64 l - polygonArea l| ≤ 3 * l.length ^ 2 * M ^ 2 * uu := by
  have hM0 : 0 < M := (two_zpow_pos _).trans_le hM
  have hu := uu_pos
  have hP := mul_pos (pow_pos hM0 2) hu
  unfold polygonAreaF polygonArea
  simp only
  by_cases h3 : l.length < 3
  · rw [if_pos h3, if_pos h3, sub_zero, abs_zero]
    positivity
  rw [if_neg h3, if_neg h3]
  have hb := getD_abs_le hM0.le h
  have h0 : AreaErr M 0 0 0 := by
    constructor <;> simp
  have h1 := areaErr_foldl hM
    (fun i => (l.getD i 0).1 * ((l.getD (i + 1) 0).2 - (l.getD (i - 1) 0).2))
    (fun i => fl64 ((l.getD i 0).1 * fl64 ((l.getD (i + 1) 0).2 - (l.getD (i - 1) 0).2)))
    (List.range' 1 (l.length - 2))
    (fun i _ => areaTerm_err hM (hb i).1 (hb (i + 1)).2 (hb (i - 1)).2) 0 0 0
    (by rw [List.length_range']; omega) h0
  rw [List.length_range'] at h1
  have t2 := areaTerm_err hM (hb (l.length - 1)).1 (hb 0).2 (hb (l.length - 2)).2
  have h2 := areaErr_step hM (by omega) h1 t2.1 t2.2
  have t3 := areaTerm_err hM (hb 0).1 (hb 1).2 (hb (l.length - 1)).2
  have h4 := areaErr_step hM (by omega) h2 t3.1 t3.2
  rw [show 0 + (l.length - 2) + 1 + 1 = l.length by omega] at h4
  revert h4
  generalize fl64 (_ + fl64 ((l.getD 0 0).1 * _)) = s
  generalize (_ + (l.getD 0 0).1 * _ : ℝ) = S
  rintro ⟨a1, a2⟩
  have hn3 : (3 : ℝ) ≤ l.length := by exact_mod_cast not_lt.mp h3
  have hnk : (l.length : ℝ) ≤ 2 ^ 16 := by exact_mod_cast hn.le
  generalize (l.length : ℝ) = n at *
  obtain ⟨g1, -⟩ := eta_le_area hM
  have b1 : |(0.5 * |s| - 0.5 * |S|)| ≤ (4 * n + n ^ 2) * M ^ 2 * uu := by
    have := abs_abs_sub_abs_le s S
    rw [← mul_sub, abs_mul, abs_of_pos (by norm_num : (0 : ℝ) < 0.5)]
    norm_num
    linarith
  have hM2 : 0 < M ^ 2 := by positivity
  have hsmall : (4 * n + n ^ 2) * uu ≤ 1 := by
    have hq : (4 * n + n ^ 2 : ℝ) ≤ 2 ^ 34 := by
      have : n ^ 2 ≤ (2 ^ 16) ^ 2 := pow_le_pow_left₀ (by linarith) hnk 2
      generalize n ^ 2 = q at this ⊢
      norm_num at this ⊢
      linarith
    have := mul_le_mul_of_nonneg_right hq hu.le
    have hus : uu = 1 / 2 ^ 53 := by unfold uu; norm_num
    calc (4 * n + n ^ 2) * uu ≤ 2 ^ 34 * uu := this
      _ ≤ _ := by rw [hus]; norm_num
  have b2 : |(0.5 * |s|)| ≤ (n + 1) * M ^ 2 := by
    have c1 : |(0.5 * |s|)| ≤ |(0.5 * |S|)| + |(0.5 * |s| - 0.5 * |S|)| := by
      calc |(0.5 * |s|)| = |0.5 * |S| + (0.5 * |s| - 0.5 * |S|)| := by congr 1; ring
        _ ≤ _ := abs_add_le _ _
    have c2 : |(0.5 * |S|)| ≤ n * M ^ 2 := by
      rw [abs_mul, abs_abs, abs_of_pos (by norm_num : (0 : ℝ) < 0.5)]
      norm_num
      linarith
    have c3 := mul_le_mul_of_nonneg_right hsmall hM2.le
    linarith
  have b3 : |(fl64 (0.5 * |s|) - 0.5 * |s|)| ≤ |(0.5 * |s|)| * uu + eta := fl64_err_gen _
  have b4 := mul_le_mul_of_nonneg_right b2 hu.le
  have b5 : (n ^ 2 + 5 * n + 2) * (M ^ 2 * uu) ≤ 3 * n ^ 2 * (M ^ 2 * uu) := by
    refine mul_le_mul_of_nonneg_right ?_ hP.le
    nlinarith
  calc |(fl64 (0.5 * |s|) - 0.5 * |S|)|
      = |(fl64 (0.5 * |s|) - 0.5 * |s|) + (0.5 * |s| - 0.5 * |S|)| := by congr 1; ring
    _ ≤ ((n + 1) * M ^ 2 * uu + eta) + (4 * n + n ^ 2) * M ^ 2 * uu :=
        (abs_add_le _ _).trans (add_le_add (by linarith) b1)
    _ ≤ (n ^ 2 + 5 * n + 2) * (M ^ 2 * uu) := by
      norm_num at g1
      linarith
    _ ≤ 3 * n ^ 2 * (M ^ 2 * uu) := b5
    _ = _ := by ring

/-! ### Coordinates on a grid -/

theorem polygonAreaF_id (l : List Vec) : polygonAreaF id l = polygonArea l := rfl

theorem triangleAreaF_eq (rnd : ℝ → ℝ) (a b c : Vec) :
    triangleAreaF rnd (a, b, c) = polygonAreaF rnd [a, b, c] := by
  simp [triangleAreaF, polygonAreaF]

/-- `s` and `S` are the same sum of `k` terms with coordinates on the grid. -/
def AreaGrid (e : ℤ) (k : ℕ) (s S : ℝ) : Prop :=
  s = S ∧ ∃ K : ℤ, |K| ≤ 2 ^ 41 * k ∧ s = K * (2 : ℝ) ^ (2 * e)

theorem areaTerm_grid {e X Y Z : ℤ} (he : -500 ≤ e) (hX : |X| ≤ 2 ^ 20) (hY : |Y| ≤ 2 ^ 20)
    (hZ : |Z| ≤ 2 ^ 20) :
    fl64 (X * (2 : ℝ) ^ e * fl64 (Y * (2 : ℝ) ^ e - Z * (2 : ℝ) ^ e)) =
      X * (2 : ℝ) ^ e * (Y * (2 : ℝ) ^ e - Z * (2 : ℝ) ^ e) ∧
    |X * (Y - Z)| ≤ 2 ^ 41 ∧
    X * (2 : ℝ) ^ e * (Y * (2 : ℝ) ^ e - Z * (2 : ℝ) ^ e) =
      (X * (Y - Z) : ℤ) * (2 : ℝ) ^ (2 * e) := by
  have hp : (2 : ℝ) ^ e * (2 : ℝ) ^ e = 2 ^ (2 * e) := by
    rw [two_mul, zpow_add₀ (by norm_num)]
  have hd : |Y - Z| ≤ 2 ^ 21 := by
    have := abs_sub Y Z
    omega
  have e1 : (Y * (2 : ℝ) ^ e - Z * (2 : ℝ) ^ e) = (Y - Z : ℤ) * (2 : ℝ) ^ e := by
    push_cast
    ring
  have hm : |X * (Y - Z)| ≤ 2 ^ 41 := by
    rw [abs_mul]
    calc |X| * |Y - Z| ≤ 2 ^ 20 * 2 ^ 21 := mul_le_mul hX hd (abs_nonneg _) (by norm_num)
      _ = _ := by norm_num
  have e2 : X * (2 : ℝ) ^ e * ((Y - Z : ℤ) * (2 : ℝ) ^ e) =
      (X * (Y - Z) : ℤ) * (2 : ℝ) ^ (2 * e) := by
    rw [← hp]
    push_cast
    ring
  rw [e1]
  refine ⟨?_, hm, e2⟩
  rw [fl64_of_mul (lt_of_le_of_lt hd (by norm_num)) (by omega), e2]
  exact fl64_of_mul (lt_of_le_of_lt hm (by norm_num)) (by omega)

theorem areaGrid_step {e : ℤ} (he : -500 ≤ e) {k : ℕ} (hk : k < 2 ^ 11) {s S t T : ℝ}
    (h : AreaGrid e k s S) (ht : t = T) {L : ℤ} (hL : |L| ≤ 2 ^ 41) (hT : T = L * (2 : ℝ) ^ (2 * e)) :
    AreaGrid e (k + 1) (fl64 (s + t)) (S + T) := by
  obtain ⟨rfl, K, hK, hs⟩ := h
  subst ht
  have e1 : s + t = (K + L : ℤ) * (2 : ℝ) ^ (2 * e) := by
    rw [hs, hT]
    push_cast
    ring
  have hb : |K + L| ≤ 2 ^ 41 * (k + 1 : ℕ) := by
    have := abs_add_le K L
    push_cast
    linarith
  have h1 : (k : ℤ) + 1 ≤ 2 ^ 11 := by exact_mod_cast hk
  have e2 : fl64 (s + t) = s + t := by
    rw [e1]
    refine fl64_of_mul (lt_of_le_of_lt hb ?_) (by omega)
    push_cast
    linarith
  exact ⟨e2, K + L, hb, by rw [e2, e1]⟩

theorem areaGrid_foldl {e : ℤ} (he : -500 ≤ e) (f g : ℕ → ℝ) (l : List ℕ)
    (hf : ∀ i ∈ l, g i = f i ∧ ∃ L : ℤ, |L| ≤ 2 ^ 41 ∧ f i = L * (2 : ℝ) ^ (2 * e)) :
    ∀ (k : ℕ) (s S : ℝ), k + l.length ≤ 2 ^ 11 → AreaGrid e k s S →
      AreaGrid e (k + l.length) (l.foldl (fun a i => fl64 (a + g i)) s)
        (l.foldl (fun a i => a + f i) S) := by
  induction l with
  | nil =>
    intro k s S _ h
    exact h
  | cons i l ih =>
    intro k s S hk h
    simp only [List.length_cons] at hk ⊢
    rw [List.foldl_cons, List.foldl_cons, show k + (l.length + 1) = (k + 1) + l.length by omega]
    obtain ⟨h1, L, hL, h2⟩ := hf i (List.mem_cons_self ..)
    exact ih (fun j hj => hf j (List.mem_cons_of_mem _ hj)) _ _ _ (by omega)
      (areaGrid_step he (by omega) h h1 hL h2)

theorem getD_grid {e : ℤ} {l : List Vec}
    (h : ∀ v ∈ l, ∃ a b : ℤ, |a| ≤ 2 ^ 20 ∧ |b| ≤ 2 ^ 20 ∧
      v = (a * (2 : ℝ) ^ e, b * (2 : ℝ) ^ e)) (i : ℕ) :
    ∃ a b : ℤ, |a| ≤ 2 ^ 20 ∧ |b| ≤ 2 ^ 20 ∧
      l.getD i 0 = (a * (2 : ℝ) ^ e, b * (2 : ℝ) ^ e) := by
  by_cases hi : i < l.length
  · rw [List.getD_eq_getElem?_getD, List.getElem?_eq_getElem hi]
    exact h _ (List.getElem_mem hi)
  · rw [List.getD_eq_getElem?_getD, List.getElem?_eq_none (by omega)]
    exact ⟨0, 0, by norm_num, by norm_num, by simp [Prod.ext_iff]⟩

/-- On a grid the rounded area is exact. -/
theorem polygonAreaF_grid {e : ℤ} (he : -500 ≤ e) {l : List Vec} (hn : l.length ≤ 2 ^ 11)
    (h : ∀ v ∈ l, ∃ a b : ℤ, |a| ≤ 2 ^ 20 ∧ |b| ≤ 2 ^ 20 ∧
      v = (a * (2 : ℝ) ^ e, b * (2 : ℝ) ^ e)) :
    polygonAreaF fl64 l = polygonArea l := by
  unfold polygonAreaF polygonArea
  simp only
  by_cases h3 : l.length < 3
  · rw [if_pos h3, if_pos h3]
  rw [if_neg h3, if_neg h3]
  have hb := getD_grid h
  have term : ∀ i j k : ℕ,
      fl64 ((l.getD i 0).1 * fl64 ((l.getD j 0).2 - (l.getD k 0).2)) =
        (l.getD i 0).1 * ((l.getD j 0).2 - (l.getD k 0).2) ∧
      ∃ L : ℤ, |L| ≤ 2 ^ 41 ∧
        (l.getD i 0).1 * ((l.getD j 0).2 - (l.getD k 0).2) = L * (2 : ℝ) ^ (2 * e) := by
    intro i j k
    obtain ⟨a, _, ha, -, ea⟩ := hb i
    obtain ⟨_, b, -, hb', eb⟩ := hb j
    obtain ⟨_, c, -, hc, ec⟩ := hb k
    rw [ea, eb, ec]
    have := areaTerm_grid he ha hb' hc
    exact ⟨this.1, _, this.2.1, this.2.2⟩
  have h0 : AreaGrid e 0 0 0 := ⟨rfl, 0, by norm_num, by simp⟩
  have h1 := areaGrid_foldl he
    (fun i => (l.getD i 0).1 * ((l.getD (i + 1) 0).2 - (l.getD (i - 1) 0).2))
    (fun i => fl64 ((l.getD i 0).1 * fl64 ((l.getD (i + 1) 0).2 - (l.getD (i - 1) 0).2)))
    (List.range' 1 (l.length - 2)) (fun i _ => term i (i + 1) (i - 1)) 0 0 0
    (by rw [List.length_range']; omega) h0
  rw [List.length_range'] at h1
  obtain ⟨t2, L2, hL2, f2⟩ := term (l.length - 1) 0 (l.length - 2)
  have h2 := areaGrid_step he (by omega) h1 t2 hL2 f2
  obtain ⟨t3, L3, hL3, f3⟩ := term 0 1 (l.length - 1)
  obtain ⟨e4, K, hK, e5⟩ := areaGrid_step he (by omega) h2 t3 hL3 f3
  rw [← e4, e5]
  have e6 : 0.5 * |(K : ℝ) * (2 : ℝ) ^ (2 * e)| = (|K| : ℤ) * (2 : ℝ) ^ (2 * e - 1) := by
    rw [abs_mul, abs_of_pos (two_zpow_pos (2 * e)), zpow_sub_one₀ (by norm_num), Int.cast_abs]
    ring
  rw [e6]
  refine fl64_of_mul ?_ (by omega)
  rw [abs_abs]
  have h5 : (l.length : ℤ) ≤ 2 ^ 11 := by exact_mod_cast hn
  rw [show 0 + (l.length - 2) + 1 + 1 = l.length by omega] at hK
  linarith

end CrowdDynamics
