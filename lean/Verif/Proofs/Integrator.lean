import Verif.Model.Integrator
import Verif.Spec.Motion
import Verif.Proofs.Vector2D

/-! # Helper lemmas about `integrator.py` -/

namespace CrowdDynamics

open Classical Spec

lemma foldl_max_spec (l : List ℝ) (a : ℝ) :
    (l.foldl max a = a ∨ l.foldl max a ∈ l) ∧ a ≤ l.foldl max a ∧ ∀ x ∈ l, x ≤ l.foldl max a := by
  induction l generalizing a with
  | nil => simp
  | cons b t ih =>
    obtain ⟨h1, h2, h3⟩ := ih (max a b)
    rw [List.foldl_cons]
    refine ⟨?_, (le_max_left a b).trans h2, ?_⟩
    · rcases h1 with h | h
      · rcases max_choice a b with h' | h'
        · rw [h'] at h; exact Or.inl (by rw [h']; exact h)
        · rw [h'] at h; exact Or.inr (by rw [h', h]; simp)
      · exact Or.inr (List.mem_cons_of_mem _ h)
    · intro x hx
      rcases List.mem_cons.1 hx with rfl | hx
      · exact (le_max_right a x).trans h2
      · exact h3 x hx

/-- The value `np.max` returns for a nonempty array. -/
lemma npMax_spec {n : ℕ} (hn : 0 < n) (f : Fin n → ℝ) :
    ∃ m, npMax (List.ofFn f) = some m ∧ IsMaxOf m f := by
  obtain ⟨k, rfl⟩ : ∃ k, n = k + 1 := ⟨n - 1, by omega⟩
  rw [List.ofFn_succ]
  refine ⟨_, rfl, ?_⟩
  obtain ⟨h1, h2, h3⟩ := foldl_max_spec (List.ofFn fun i : Fin k => f i.succ) (f 0)
  constructor
  · rcases h1 with h | h
    · exact ⟨0, h.symm⟩
    · rw [List.mem_ofFn] at h
      obtain ⟨i, hi⟩ := h
      exact ⟨i.succ, hi⟩
  · intro i
    refine Fin.cases h2 (fun j => ?_) i
    exact h3 _ (List.mem_ofFn.2 ⟨j, rfl⟩)

lemma isMaxOf_unique {ι : Type} {m m' : ℝ} {f : ι → ℝ} (h : IsMaxOf m f) (h' : IsMaxOf m' f) :
    m = m' := by
  obtain ⟨⟨i, hi⟩, h2⟩ := h
  obtain ⟨⟨j, hj⟩, h4⟩ := h'
  apply le_antisymm
  · rw [← hi]; exact h4 i
  · rw [← hj]; exact h2 j

lemma vMax_foldl {ι : Type} (f : ι → ℝ) (l : List ι) (a : ℝ) :
    (l.foldl (fun m i => if f i > m then f i else m) a = a ∨
      ∃ i ∈ l, f i = l.foldl (fun m i => if f i > m then f i else m) a) ∧
    a ≤ l.foldl (fun m i => if f i > m then f i else m) a ∧
    ∀ i ∈ l, f i ≤ l.foldl (fun m i => if f i > m then f i else m) a := by
  induction l generalizing a with
  | nil => simp
  | cons b t ih =>
    rw [List.foldl_cons]
    obtain ⟨h1, h2, h3⟩ := ih (if f b > a then f b else a)
    have hab : a ≤ (if f b > a then f b else a) ∧ f b ≤ (if f b > a then f b else a) := by
      split
      · exact ⟨by linarith, le_rfl⟩
      · exact ⟨le_rfl, by linarith⟩
    refine ⟨?_, hab.1.trans h2, ?_⟩
    · rcases h1 with h | ⟨i, hi, h⟩
      · rw [h]
        by_cases hc : f b > a
        · rw [if_pos hc]; exact Or.inr ⟨b, by simp, rfl⟩
        · rw [if_neg hc]; exact Or.inl rfl
      · exact Or.inr ⟨i, List.mem_cons_of_mem _ hi, h⟩
    · intro i hi
      rcases List.mem_cons.1 hi with rfl | hi
      · exact hab.2.trans h2
      · exact h3 i hi

lemma vMaxLoop_spec {n : ℕ} (agents : Crowd n) :
    0 ≤ vMaxLoop agents ∧ (∀ i, Spec.len (agents i).velocity ≤ vMaxLoop agents) ∧
      (vMaxLoop agents = 0 ∨ ∃ i, Spec.len (agents i).velocity = vMaxLoop agents) := by
  obtain ⟨h1, h2, h3⟩ := vMax_foldl (fun i => length (agents i).velocity) (List.finRange n) 0
  refine ⟨h2, fun i => h3 i (List.mem_finRange i), ?_⟩
  rcases h1 with h | ⟨i, -, h⟩
  · exact Or.inl h
  · exact Or.inr ⟨i, h⟩

lemma vMaxLoop_eq_zero {n : ℕ} (agents : Crowd n) :
    vMaxLoop agents = 0 ↔ ∀ i, (agents i).velocity = 0 := by
  obtain ⟨h1, h2, h3⟩ := vMaxLoop_spec agents
  constructor
  · intro h i
    have := h2 i
    rw [h] at this
    exact length_eq_zero.1 (le_antisymm this (length_nonneg _))
  · intro h
    rcases h3 with h' | ⟨i, hi⟩
    · exact h'
    · rw [← hi, h i]; exact length_eq_zero.2 rfl

/-- The time step as a clamp. -/
lemma adaptiveTimestep_cases {n : ℕ} (agents : Crowd n) (dtMin dtMax : ℝ) :
    (vMaxLoop agents = 0 ∧ adaptiveTimestep agents dtMin dtMax = dtMax) ∨
    ∃ T V, IsMaxOf T (fun i => (agents i).targetVelocity) ∧
      IsMaxOf V (fun i => Spec.len (agents i).velocity) ∧ 0 < V ∧
      adaptiveTimestep agents dtMin dtMax =
        if 1.1 * T * dtMax / V > dtMax then dtMax
        else if 1.1 * T * dtMax / V < dtMin then dtMin else 1.1 * T * dtMax / V := by
  obtain ⟨h1, h2, h3⟩ := vMaxLoop_spec agents
  by_cases h0 : vMaxLoop agents = 0
  · exact Or.inl ⟨h0, by unfold adaptiveTimestep; simp [h0]⟩
  · right
    rcases h3 with h | ⟨i, hi⟩
    · exact absurd h h0
    · obtain ⟨T, hT, hm⟩ := npMax_spec (lt_of_le_of_lt (Nat.zero_le _) i.2)
        (fun i => (agents i).targetVelocity)
      refine ⟨T, vMaxLoop agents, hm, ⟨⟨i, hi⟩, h2⟩, lt_of_le_of_ne h1 (Ne.symm h0), ?_⟩
      unfold adaptiveTimestep
      simp only [if_neg h0, hT, Option.getD_some]

end CrowdDynamics
