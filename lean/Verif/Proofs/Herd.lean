import Verif.Spec.Herd
import Verif.Props.CollectiveMotion
import Verif.Proofs.Progress
import Verif.Proofs.Navigation

/-!
# Lemmas about the directions of crowds that walk one way
-/

namespace CrowdDynamics

open Spec

variable {n : ℕ} {u : ℝ × ℝ} {c : ℝ}

lemma inner_add_left' (p q r : ℝ × ℝ) : Spec.inner (p + q) r = Spec.inner p r + Spec.inner q r := by
  unfold Spec.inner
  simp only [Prod.fst_add, Prod.snd_add]
  ring

lemma inner_smul_left' (t : ℝ) (q r : ℝ × ℝ) : Spec.inner (t • q) r = t * Spec.inner q r := by
  unfold Spec.inner
  simp only [Prod.smul_fst, Prod.smul_snd, smul_eq_mul]
  ring

lemma len_zero_pair : len (0 : ℝ × ℝ) = 0 := by simp [len]

lemma onward_zero : Onward u c 0 := by
  unfold Onward
  rw [len_zero_pair]
  simp [Spec.inner]

lemma onward_add (hc : 0 ≤ c) {p q : ℝ × ℝ} (hp : Onward u c p) (hq : Onward u c q) :
    Onward u c (p + q) := by
  unfold Onward at *
  rw [inner_add_left']
  have := mul_le_mul_of_nonneg_left (len_add_le' p q) hc
  linarith

lemma onward_smul {t : ℝ} (ht : 0 ≤ t) {p : ℝ × ℝ} (hp : Onward u c p) : Onward u c (t • p) := by
  unfold Onward at *
  rw [inner_smul_left', len_smul', abs_of_nonneg ht]
  have := mul_le_mul_of_nonneg_left hp ht
  linarith

lemma onward_dir {p : ℝ × ℝ} (hp : Onward u c p) : Onward u c (dir p) :=
  onward_smul (inv_nonneg.2 (Real.sqrt_nonneg _)) hp

lemma onward_mono {c' : ℝ} (h : c' ≤ c) {p : ℝ × ℝ} (hp : Onward u c p) : Onward u c' p := by
  unfold Onward at *
  have := mul_le_mul_of_nonneg_right h (Real.sqrt_nonneg (p.1 ^ 2 + p.2 ^ 2))
  unfold len at *
  linarith

lemma onward_sum (hc : 0 ≤ c) (l : List (ℝ × ℝ)) (h : ∀ p ∈ l, Onward u c p) : Onward u c l.sum := by
  induction l with
  | nil => exact onward_zero
  | cons p l ih =>
    rw [List.sum_cons]
    exact onward_add hc (h p List.mem_cons_self) (ih fun q hq => h q (List.mem_cons_of_mem _ hq))

lemma len_dir_le (p : ℝ × ℝ) : len (dir p) ≤ 1 := by
  rw [← normalize_eq_dir]
  rcases length_normalize_or p with h | h
  · exact h.le
  · rw [h, len_zero_pair]; norm_num

lemma len_dir_of_ne {p : ℝ × ℝ} (hp : p ≠ 0) : len (dir p) = 1 := by
  have h0 : len p ≠ 0 := by
    intro h
    apply hp
    have h1 := Real.sqrt_eq_zero'.1 h
    have h2 : p.1 = 0 := by nlinarith [sq_nonneg p.1, sq_nonneg p.2]
    have h3 : p.2 = 0 := by nlinarith [sq_nonneg p.1, sq_nonneg p.2]
    exact Prod.ext h2 h3
  unfold dir
  rw [len_smul', abs_of_nonneg (inv_nonneg.2 (show 0 ≤ len p from Real.sqrt_nonneg _)),
    inv_mul_cancel₀ h0]

/-- A unit vector or zero that points onward. -/
lemma onward_dir_unit {p : ℝ × ℝ} (hp : Onward u c p) : dir p = 0 ∨ c ≤ Spec.inner (dir p) u := by
  by_cases h : p = 0
  · left
    rw [h]
    simp [dir]
  · right
    have := onward_dir hp
    unfold Onward at this
    rwa [len_dir_of_ne h, mul_one] at this

/-- A vector that is not zero and points exactly along `u`. -/
lemma dir_of_onward_one (hu : len u = 1) {p : ℝ × ℝ} (hp : Onward u 1 p) (h : p ≠ 0) : dir p = u := by
  have h1 := len_dir_of_ne h
  have h2 := onward_dir hp
  unfold Onward at h2
  rw [h1, mul_one] at h2
  obtain ⟨x, y⟩ := u
  obtain ⟨⟨a, b⟩, hq⟩ : ∃ q, dir p = q := ⟨_, rfl⟩
  rw [hq] at h1 h2 ⊢
  unfold Spec.inner at h2
  unfold len at hu h1
  rw [Real.sqrt_eq_one] at hu h1
  simp only at *
  have : (a - x) ^ 2 + (b - y) ^ 2 ≤ 0 := by nlinarith
  have ha : a = x := by nlinarith [sq_nonneg (a - x), sq_nonneg (b - y)]
  have hb : b = y := by nlinarith [sq_nonneg (a - x), sq_nonneg (b - y)]
  rw [ha, hb]

lemma inner_self_one (hu : len u = 1) : Spec.inner u u = 1 := by
  unfold len at hu
  rw [Real.sqrt_eq_one] at hu
  unfold Spec.inner
  linarith

/-- Mixture of a direction that points onward with some other direction. -/
lemma onward_mix (hu : len u = 1) {w : ℝ} (hw : 0 ≤ w) (hw1 : w ≤ 1) {p q : ℝ × ℝ} (hp : len p ≤ 1)
    (hq : Onward u c q) (hl : len q = 1) (h : 0 ≤ (1 - w) * c - w) :
    Onward u ((1 - w) * c - w) (w • p + (1 - w) • q) := by
  unfold Onward at *
  rw [hl, mul_one] at hq
  have h1 : len (w • p + (1 - w) • q) ≤ 1 := by
    refine (len_add_le' _ _).trans ?_
    rw [len_smul', len_smul', abs_of_nonneg hw, abs_of_nonneg (by linarith), hl]
    nlinarith
  have h2 : |Spec.inner p u| ≤ 1 := (inner_le_len hu).trans hp
  rw [inner_add_left', inner_smul_left', inner_smul_left']
  have h3 := mul_le_mul_of_nonneg_left h1 h
  have h4 := mul_le_mul_of_nonneg_left hq (show (0 : ℝ) ≤ 1 - w by linarith)
  have h5 := mul_le_mul_of_nonneg_left (abs_le.1 h2).1 hw
  linarith

/-- Mixture of the direction `u` itself with some other direction. -/
lemma onward_mix_same (hu : len u = 1) {w s : ℝ} (hw : 0 ≤ w) (hs : 0 ≤ s)
    (hws : w < 1 - w) (he : s ^ 2 * (1 - w) ^ 2 = (1 - w) ^ 2 - w ^ 2) {p : ℝ × ℝ} (hp : len p ≤ 1) :
    Onward u s (w • p + (1 - w) • u) := by
  obtain ⟨x, y⟩ := u
  obtain ⟨a, b⟩ := p
  unfold Onward len Spec.inner at *
  rw [Real.sqrt_eq_one] at hu
  rw [Real.sqrt_le_one] at hp
  simp only [Prod.fst_add, Prod.snd_add, Prod.smul_fst, Prod.smul_snd, smul_eq_mul] at *
  obtain ⟨t, ht⟩ : ∃ t, a * x + b * y = t := ⟨_, rfl⟩
  obtain ⟨r, hr⟩ : ∃ r, a ^ 2 + b ^ 2 = r := ⟨_, rfl⟩
  have hcs : t ^ 2 ≤ r := by
    rw [← ht, ← hr]
    nlinarith [sq_nonneg (a * y - b * x)]
  have ht1 : -1 ≤ t := by nlinarith
  have e1 : (w * a + (1 - w) * x) * x + (w * b + (1 - w) * y) * y = w * t + (1 - w) := by
    rw [← ht]
    linear_combination (1 - w) * hu
  have e2 : (w * a + (1 - w) * x) ^ 2 + (w * b + (1 - w) * y) ^ 2 =
      w ^ 2 * r + 2 * w * (1 - w) * t + (1 - w) ^ 2 := by
    rw [← ht, ← hr]
    linear_combination (1 - w) ^ 2 * hu
  rw [e1, e2]
  have hpos : 0 ≤ w * t + (1 - w) := by nlinarith
  rw [show s * Real.sqrt (w ^ 2 * r + 2 * w * (1 - w) * t + (1 - w) ^ 2) =
    Real.sqrt (s ^ 2 * (w ^ 2 * r + 2 * w * (1 - w) * t + (1 - w) ^ 2)) by
      rw [Real.sqrt_mul (sq_nonneg s), Real.sqrt_sq hs]]
  refine Real.sqrt_le_iff.2 ⟨hpos, ?_⟩
  have hW : 0 < (1 - w) ^ 2 := by nlinarith
  refine le_of_mul_le_mul_left ?_ hW
  have : (1 - w) ^ 2 * (s ^ 2 * (w ^ 2 * r + 2 * w * (1 - w) * t + (1 - w) ^ 2)) =
      ((1 - w) ^ 2 - w ^ 2) * (w ^ 2 * r + 2 * w * (1 - w) * t + (1 - w) ^ 2) := by
    rw [← he]; ring
  rw [this]
  have hd : 0 ≤ ((1 - w) ^ 2 - w ^ 2) * w ^ 2 := by
    refine mul_nonneg ?_ (sq_nonneg w)
    nlinarith
  rw [hr] at hp
  have h1 := mul_le_mul_of_nonneg_left hp hd
  have h2 := mul_nonneg (sq_nonneg w) (sq_nonneg ((1 - w) * t + w))
  linear_combination h1 + h2

/-- What a follower takes over from a leader points onward if the visible leaders do. -/
lemma followRule_onward {a : Crowd n} {ws : List Wall} {sight phi w : ℝ} {old new : Fin n → ℤ}
    {i : Fin n} {memory : ℤ} {has : Bool} {d : ℝ × ℝ}
    (h : FollowRule a ws sight phi w old new i memory has d) {u : ℝ × ℝ} {c s : ℝ}
    (hmix : ∀ p q : ℝ × ℝ, len p ≤ 1 → len (dir q) = 1 → Onward u c (dir q) → q ≠ 0 →
      Onward u s (w • p + (1 - w) • dir q))
    (hall : ∀ j, (a j).isLeader = true → Spec.dist (a i).position (a j).position ≤ sight →
      (∀ x ∈ ws, ¬ Hides (a i).position (a j).position x) → Onward u c (a j).velocity) :
    ∃ p, Onward u s p ∧ d = dir p := by
  rcases h with ⟨j, hn, hv, -, -, -, hd⟩ | ⟨-, -, -, -, -, -, hd⟩ | ⟨-, -, -, -, -, hd⟩
  · refine ⟨_, ?_, hd⟩
    obtain ⟨⟨hl, hs, hm⟩, -⟩ := hn
    have hv0 : (a j).velocity ≠ 0 := by
      rcases hm with ⟨⟨x, hx, hx'⟩, -⟩ | ⟨-, hm⟩
      · exact absurd hx' (hv x hx)
      · exact hm.2.1
    exact hmix _ _ (len_dir_le _) (len_dir_of_ne hv0) (onward_dir (hall j hl hs hv)) hv0
  · exact ⟨0, onward_zero, by rw [hd]; simp [dir]⟩
  · exact ⟨0, onward_zero, by rw [hd]; simp [dir]⟩

/-- What a follower takes over from its neighbours points onward if the visible ones do. -/
lemma herdDirection_onward {a : Crowd n} {ws : List Wall} {sight phi w : ℝ} {k : ℕ} {i : Fin n}
    {row : List (Option (Fin n))} {h : ℝ × ℝ} (hd : HerdDirection a phi w i row h)
    (hrow : KNearest (fun i => (a i).position) ws sight k i row) {u : ℝ × ℝ} {c s : ℝ}
    (hc : 0 < c)
    (hmix : ∀ p q : ℝ × ℝ, len p ≤ 1 → len (dir q) = 1 → Onward u c (dir q) → q ≠ 0 →
      Onward u s (w • p + (1 - w) • dir q))
    (hall : ∀ j, CanSee (fun i => (a i).position) ws sight i j → Onward u c (a j).velocity) :
    ∃ p, Onward u s p ∧ h = dir p := by
  classical
  unfold HerdDirection at hd
  simp only at hd
  obtain ⟨F, hF⟩ : ∃ F, (row.reduceOption.filter fun j =>
    MayFollow (a i).position (a i).velocity (a j).position (a j).velocity phi) = F := ⟨_, rfl⟩
  rw [hF] at hd
  rcases hd with ⟨-, hd⟩ | ⟨hne, hd⟩
  · exact ⟨0, onward_zero, by rw [hd]; simp [dir]⟩
  · refine ⟨_, ?_, hd⟩
    have hmem : ∀ j ∈ F, Onward u c (a j).velocity ∧ (a j).velocity ≠ 0 := by
      intro j hj
      rw [← hF, List.mem_filter] at hj
      have h1 : some j ∈ row := List.reduceOption_mem_iff.1 hj.1
      have h2 : MayFollow (a i).position (a i).velocity (a j).position (a j).velocity phi := by
        simpa using hj.2
      exact ⟨hall j (hrow.sound j h1), h2.2.1⟩
    have hsum : Onward u c (F.map fun j => (a j).velocity).sum := by
      refine onward_sum hc.le _ fun p hp => ?_
      obtain ⟨j, hj, rfl⟩ := List.mem_map.1 hp
      exact (hmem j hj).1
    have h0 : (F.map fun j => (a j).velocity).sum ≠ 0 := by
      have key : ∀ G : List (Fin n), (∀ j ∈ G, Onward u c (a j).velocity ∧ (a j).velocity ≠ 0) →
          0 ≤ Spec.inner (G.map fun j => (a j).velocity).sum u ∧
          (G ≠ [] → 0 < Spec.inner (G.map fun j => (a j).velocity).sum u) := by
        intro G
        induction G with
        | nil => intro _; exact ⟨by simp [Spec.inner], fun h => absurd rfl h⟩
        | cons j G ih =>
          intro hG
          obtain ⟨g1, g2⟩ := hG j List.mem_cons_self
          have g3 := (ih fun j hj => hG j (List.mem_cons_of_mem _ hj)).1
          have g4 : 0 < len (a j).velocity := by
            have := len_dir_of_ne g2
            rcases (show 0 ≤ len (a j).velocity from Real.sqrt_nonneg _).lt_or_eq with g | g
            · exact g
            · exfalso
              unfold dir at this
              rw [len_smul', ← g] at this
              simp at this
          unfold Onward at g1
          have g5 : 0 < Spec.inner (a j).velocity u := lt_of_lt_of_le (mul_pos hc g4) g1
          rw [List.map_cons, List.sum_cons, inner_add_left']
          exact ⟨by linarith, fun _ => by linarith⟩
      intro hz
      have := (key F hmem).2 hne
      rw [hz] at this
      simp [Spec.inner] at this
    exact hmix _ _ (len_dir_le _) (len_dir_of_ne h0) (onward_dir hsum) h0

end CrowdDynamics
