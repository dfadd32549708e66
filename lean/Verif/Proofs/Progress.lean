import Verif.Proofs.LongRun
import Verif.Spec.ShippedLogic

/-!
# Helper lemmas: the way of a driven agent
-/

namespace CrowdDynamics

open Spec

lemma afterUpdates_iterate {σ : Type} {update : σ → Except PyErr Unit × σ} {k : ℕ} {s t : σ}
    (h : AfterUpdates update k s t) : t = (fun s => (update s).2)^[k] s := by
  induction h with
  | zero => rfl
  | @succ k s u v h1 h2 ih => rw [Function.iterate_succ_apply', ← ih, h2]

/-- If any number of updates can be made, they make a run. -/
lemma afterUpdates_next {σ : Type} {update : σ → Except PyErr Unit × σ} {s : σ}
    (h : ∀ k, ∃ t, AfterUpdates update k s t) (k : ℕ) :
    update ((fun s => (update s).2)^[k] s) = (.ok (), (fun s => (update s).2)^[k + 1] s) := by
  obtain ⟨t, ht⟩ := h (k + 1)
  have e := afterUpdates_iterate ht
  cases ht with
  | @succ _ _ u _ h1 h2 => rw [← e, ← afterUpdates_iterate h1, h2]

variable {dt tau : ℝ} {N : ℕ} {v A U x : ℕ → Vec}

/-- The way is the sum of what drives the agent, up to what depends only on the first and the last
step. -/
lemma drive_way (h : Drive dt tau N v A U)
    (hx : ∀ j < N, x (j + 1) = x j + dt • v (j + 1) + (dt ^ 2 / 2) • A j) :
    ∀ m < N, x (m + 1) - x 0 = dt • ∑ j ∈ Finset.range (m + 1), U j -
      (tau - 3 / 2 * dt) • (v (m + 1) - v 0) - (dt / 2 * (tau - dt / 2)) • A m := by
  intro m
  induction m with
  | zero =>
    intro hN
    have hU : U 0 = tau • A 0 + v 0 := by rw [h.drive 0 hN]; abel
    rw [hx 0 hN, Finset.sum_range_one, hU, show v (0 + 1) = _ from h.first hN]
    module
  | succ m ih =>
    intro hm
    have hU : U (m + 1) = tau • A (m + 1) + v (m + 1) := by rw [h.drive (m + 1) hm]; abel
    have e : x (m + 1 + 1) - x 0 = (x (m + 1) - x 0) + dt • v (m + 1 + 1) +
        (dt ^ 2 / 2) • A (m + 1) := by rw [hx (m + 1) hm]; abel
    rw [e, ih (by omega), Finset.sum_range_succ _ (m + 1), hU,
      show v (m + 1 + 1) = _ from h.next m hm]
    generalize (∑ j ∈ Finset.range (m + 1), U j) = W
    module

lemma inner_le_len {a u : Vec} (hu : len u = 1) : |Spec.inner a u| ≤ len a := by
  unfold len at hu ⊢
  have h1 : u.1 ^ 2 + u.2 ^ 2 = 1 := by
    have := congrArg (· ^ 2) hu
    simpa [Real.sq_sqrt (by positivity : 0 ≤ u.1 ^ 2 + u.2 ^ 2)] using this
  refine Real.abs_le_sqrt ?_
  unfold Spec.inner
  nlinarith [sq_nonneg (a.1 * u.2 - a.2 * u.1)]

lemma inner_sum_ge {c : ℝ} {u : Vec} (U : ℕ → Vec) :
    ∀ m : ℕ, (∀ j < m, c ≤ Spec.inner (U j) u) →
      m * c ≤ Spec.inner (∑ j ∈ Finset.range m, U j) u := by
  intro m
  induction m with
  | zero => intro _; simp [Spec.inner]
  | succ m ih =>
    intro h
    have h1 := ih fun j hj => h j (by omega)
    have h2 := h m (by omega)
    rw [Finset.sum_range_succ]
    unfold Spec.inner at *
    push_cast
    simp only [Prod.fst_add, Prod.snd_add]
    linarith

lemma drive_progress (h : Drive dt tau N v A U) (hdt : 0 < dt) (ht : dt / tau ≤ 0.3) (htau : 0 < tau)
    (hx : ∀ j < N, x (j + 1) = x j + dt • v (j + 1) + (dt ^ 2 / 2) • A j) {V c : ℝ} {u : Vec}
    (hu : len u = 1) (hU : ∀ j < N, len (U j) ≤ V) (hv : ∀ j ≤ N, len (v j) ≤ V)
    (hc : ∀ j < N, c ≤ Spec.inner (U j) u) :
    ∀ k ≤ N, dt * k * c - 2 * V * tau ≤ Spec.inner (x k - x 0) u := by
  have hV : 0 ≤ V := (Real.sqrt_nonneg _).trans (hv 0 (Nat.zero_le _))
  intro k hk
  rcases k with _ | m
  · have : 0 ≤ 2 * V * tau := by positivity
    simp [Spec.inner]
    exact this
  · have hm : m < N := hk
    have hsum := inner_sum_ge (c := c) (u := u) U (m + 1) fun j hj => hc j (by omega)
    have hs := mul_le_mul_of_nonneg_left hsum hdt.le
    rw [drive_way h hx m hm]
    have e : Spec.inner (dt • ∑ j ∈ Finset.range (m + 1), U j -
        (tau - 3 / 2 * dt) • (v (m + 1) - v 0) - (dt / 2 * (tau - dt / 2)) • A m) u =
        dt * Spec.inner (∑ j ∈ Finset.range (m + 1), U j) u -
          Spec.inner ((tau - 3 / 2 * dt) • (v (m + 1) - v 0)) u -
          Spec.inner ((dt / 2 * (tau - dt / 2)) • A m) u := by
      unfold Spec.inner
      simp only [Prod.fst_sub, Prod.snd_sub, Prod.smul_fst, Prod.smul_snd, smul_eq_mul]
      ring
    rw [e]
    have hd : dt ≤ 0.3 * tau := by rwa [div_le_iff₀ htau] at ht
    have p1 : 0 ≤ tau - 3 / 2 * dt := by linarith
    have p2 : 0 ≤ dt / 2 * (tau - dt / 2) := mul_nonneg (by linarith) (by linarith)
    have b1 : Spec.inner ((tau - 3 / 2 * dt) • (v (m + 1) - v 0)) u ≤
        (tau - 3 / 2 * dt) * (V + V) := by
      refine (le_abs_self _).trans ((inner_le_len hu).trans ?_)
      rw [len_smul', abs_of_nonneg p1]
      refine mul_le_mul_of_nonneg_left ?_ p1
      rw [sub_eq_add_neg]
      refine (len_add_le' _ _).trans ?_
      rw [len_neg']
      exact add_le_add (hv _ hm) (hv 0 (Nat.zero_le _))
    have b2 : Spec.inner ((dt / 2 * (tau - dt / 2)) • A m) u ≤
        dt / 2 * (tau - dt / 2) * (1 / tau * (V + V)) := by
      refine (le_abs_self _).trans ((inner_le_len hu).trans ?_)
      rw [len_smul', abs_of_nonneg p2]
      refine mul_le_mul_of_nonneg_left ?_ p2
      rw [h.accel htau hm, len_smul', abs_of_nonneg (one_div_pos.2 htau).le]
      refine mul_le_mul_of_nonneg_left ?_ (one_div_pos.2 htau).le
      rw [sub_eq_add_neg]
      refine (len_add_le' _ _).trans ?_
      rw [len_neg']
      exact add_le_add (hU m hm) (hv m hm.le)
    have b3 : dt / 2 * (tau - dt / 2) * (1 / tau * (V + V)) ≤ dt / 2 * (V + V) := by
      have : dt / 2 * (tau - dt / 2) * (1 / tau * (V + V)) =
          dt / 2 * (V + V) - dt / 2 * (dt / 2) * (1 / tau * (V + V)) := by
        field_simp
      have : 0 ≤ dt / 2 * (dt / 2) * (1 / tau * (V + V)) := by positivity
      linarith
    have : 0 ≤ dt * V := by positivity
    push_cast at hs ⊢
    nlinarith

end CrowdDynamics
