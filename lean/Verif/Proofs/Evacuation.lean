import Verif.Model.Evacuation
import Verif.Spec.Poisson
import Verif.Spec.Sight
import Verif.Props.Geom2D
import Verif.Proofs.Vector2D
import Mathlib.Data.Finset.Card

/-!
# Lemmas about exits
-/

namespace CrowdDynamics

open Spec

/-! ## Sorting twice -/

/-- A sorted permutation of `0 .. n-1` is `0 .. n-1`. -/
lemma sorted_perm_range {l : List ℕ} {n : ℕ} (hp : l.Perm (List.range n))
    (hs : l.Pairwise (· ≤ ·)) : l = List.range n := by
  refine List.Perm.eq_of_pairwise (fun a b _ _ h1 h2 => le_antisymm h1 h2) hs ?_ hp
  exact List.pairwise_le_range

/-- Sorting the result of a sort inverts it. -/
lemma argsort_argsort {argsortI : List ℕ → List ℕ} (hI : IsArgsort argsortI) {s : List ℕ} {n : ℕ}
    (hs : s.Perm (List.range n)) :
    (argsortI s).Perm (List.range n) ∧
      ∀ i, i < n → s[(argsortI s).getD i 0]? = some i := by
  have hlen : s.length = n := by rw [hs.length_eq, List.length_range]
  obtain ⟨h1, h2⟩ := hI s
  rw [hlen] at h1
  refine ⟨h1, ?_⟩
  have hmap : ((argsortI s).map fun j => s.getD j 0).Perm (List.range n) := by
    refine (h1.map _).trans ?_
    have : (List.range n).map (fun j => s.getD j 0) = s := by
      apply List.ext_getElem
      · simp [hlen]
      · intro i h3 h4
        simp [List.getD_eq_getElem?_getD, List.getElem?_eq_getElem h4]
    rw [this]
    exact hs
  have heq := sorted_perm_range hmap h2
  intro i hi
  have hlt : (argsortI s).length = n := by rw [h1.length_eq, List.length_range]
  have hii : i < (argsortI s).length := by omega
  have e1 : (argsortI s).getD i 0 = (argsortI s)[i] := by
    rw [List.getD_eq_getElem?_getD, List.getElem?_eq_getElem hii]; rfl
  have hmem : (argsortI s)[i] < n := by
    have := h1.subset (List.getElem_mem hii)
    simpa using this
  have h3 : ((argsortI s).map fun j => s.getD j 0)[i]? = some i := by
    rw [heq, List.getElem?_range hi]
  rw [List.getElem?_map, List.getElem?_eq_getElem hii] at h3
  simp only [Option.map_some, Option.some.injEq] at h3
  rw [e1]
  have h4 : (argsortI s)[i] < s.length := by omega
  rw [List.getElem?_eq_getElem h4]
  rw [List.getD_eq_getElem?_getD, List.getElem?_eq_getElem h4] at h3
  simpa using h3

/-- The rank that two sorts compute. -/
lemma rank_spec {argsortF : List ℝ → List ℕ} {argsortI : List ℕ → List ℕ} (hF : IsArgsort argsortF)
    (hI : IsArgsort argsortI) (d : List ℝ) :
    (argsortI (argsortF d)).Perm (List.range d.length) ∧
    ∀ i, i < d.length →
      ((Finset.range d.length).filter fun j => d.getD j 0 < d.getD i 0).card ≤
        (argsortI (argsortF d)).getD i 0 ∧
      (argsortI (argsortF d)).getD i 0 <
        ((Finset.range d.length).filter fun j => d.getD j 0 ≤ d.getD i 0).card := by
  obtain ⟨h1, h2⟩ := hF d
  set s := argsortF d with hs
  set n := d.length with hn
  obtain ⟨h3, h4⟩ := argsort_argsort hI h1
  refine ⟨h3, fun i hi => ?_⟩
  obtain ⟨t, ht⟩ : ∃ t : ℕ → ℕ, ∀ i, (argsortI s).getD i 0 = t i := ⟨_, fun _ => rfl⟩
  simp only [ht] at h4 ⊢
  have hlen : s.length = n := by rw [h1.length_eq, List.length_range]
  have tlt : ∀ j, j < n → t j < n := by
    intro j hj
    have := h4 j hj
    have := (List.getElem?_eq_some_iff.1 this).1
    omega
  -- values along `s` do not decrease
  have mono : ∀ j k, j < n → k < n → t j < t k → d.getD j 0 ≤ d.getD k 0 := by
    intro j k hj hk hjk
    rw [List.pairwise_map, List.pairwise_iff_getElem] at h2
    have hj' := tlt j hj
    have hk' := tlt k hk
    have := h2 (t j) (t k) (by omega) (by omega) hjk
    have ej : s[t j]'(by omega) = j := by
      have := h4 j hj
      rw [List.getElem?_eq_getElem (by omega)] at this
      simpa using this
    have ek : s[t k]'(by omega) = k := by
      have := h4 k hk
      rw [List.getElem?_eq_getElem (by omega)] at this
      simpa using this
    rwa [ej, ek] at this
  have inj : ∀ j k, j < n → k < n → t j = t k → j = k := by
    intro j k hj hk h
    have a := h4 j hj
    have b := h4 k hk
    rw [h, b] at a
    simpa using a.symm
  have surj : ∀ b, b < n → ∃ j, j < n ∧ t j = b := by
    intro b hb
    have hmem : b ∈ argsortI s := h3.symm.subset (by simpa using hb)
    obtain ⟨j, hj, e⟩ := List.getElem_of_mem hmem
    have hl : (argsortI s).length = n := by rw [h3.length_eq, List.length_range]
    refine ⟨j, by omega, ?_⟩
    rw [← ht, List.getD_eq_getElem?_getD, List.getElem?_eq_getElem hj, e]; rfl
  constructor
  · have : ((Finset.range n).filter fun j => d.getD j 0 < d.getD i 0).card ≤
        (Finset.range (t i)).card := by
      refine Finset.card_le_card_of_injOn t ?_ ?_
      · intro j hj
        simp only [Finset.coe_filter, Finset.mem_range, Set.mem_ofPred_eq] at hj
        simp only [Finset.coe_range, Set.mem_Iio]
        by_contra hcon
        push Not at hcon
        rcases hcon.lt_or_eq with h | h
        · exact absurd (mono i j hi hj.1 h) (not_le.2 hj.2)
        · have := inj i j hi hj.1 h
          rw [this] at hj
          exact lt_irrefl _ hj.2
      · intro j hj k hk h
        simp only [Finset.coe_filter, Finset.mem_range, Set.mem_ofPred_eq] at hj hk
        exact inj j k hj.1 hk.1 h
    rwa [Finset.card_range] at this
  · choose! g hg1 hg2 using surj
    have hti := tlt i hi
    have : (Finset.range (t i + 1)).card ≤
        ((Finset.range n).filter fun j => d.getD j 0 ≤ d.getD i 0).card := by
      refine Finset.card_le_card_of_injOn g ?_ ?_
      · intro b hb
        simp only [Finset.coe_range, Set.mem_Iio] at hb
        simp only [Finset.coe_filter, Finset.mem_range, Set.mem_ofPred_eq]
        refine ⟨hg1 b (by omega), ?_⟩
        rcases Nat.lt_succ_iff_lt_or_eq.1 hb with h | h
        · exact mono _ _ (hg1 b (by omega)) hi (by rw [hg2 b (by omega)]; exact h)
        · have := inj (g b) i (hg1 b (by omega)) hi (by rw [hg2 b (by omega), h])
          rw [this]
      · intro a ha b hb h
        simp only [Finset.coe_range, Set.mem_Iio] at ha hb
        rw [← hg2 a (by omega), ← hg2 b (by omega), h]
    rw [Finset.card_range] at this
    omega

/-! ## The loop of `exit_detection` -/

/-- State after looking at the exits `0 .. k-1`. -/
def ExitInv (doors : List Vec) (ws : List Wall) (R : ℝ) (p : Vec) (k : ℕ) (s : ExitState) : Prop :=
  (s.has = false ∧ s.detected = -1 ∧ s.distance = R ∧
      ∀ c, c < k → ¬ Detectable doors ws R p c) ∨
  (∃ c door, c < k ∧ s.has = true ∧ s.detected = c ∧ doors[c]? = some door ∧
      s.distance = Spec.dist p door ∧ Detectable doors ws R p c ∧
      ∀ c' door', c' < k → doors[c']? = some door' → Detectable doors ws R p c' →
        Spec.dist p door ≤ Spec.dist p door' ∧ (c' < c → Spec.dist p door < Spec.dist p door'))

lemma exitStep_inv {doors : List Vec} {ws : List Wall} {R : ℝ} {p : Vec} {k : ℕ} {s : ExitState}
    (hk : k < doors.length) (h : ExitInv doors ws R p k s) :
    ExitInv doors ws R p (k + 1) (exitStep doors p ws s k) := by
  have hd : doors[k]? = some doors[k] := List.getElem?_eq_getElem hk
  have hget : doors.getD k 0 = doors[k] := by
    rw [List.getD_eq_getElem?_getD, hd]; rfl
  have hlen : length (doors[k] - p) = Spec.dist p doors[k] := length_sub_comm _ _
  have hvis : isObstacleBetweenPoints p doors[k] ws = true ↔ ∃ w ∈ ws, Hides p doors[k] w :=
    C07_obstacle_between_iff _ _ _
  have hdet : Detectable doors ws R p k ↔
      Spec.dist p doors[k] < R ∧ ¬ (isObstacleBetweenPoints p doors[k] ws = true) := by
    rw [hvis]
    constructor
    · rintro ⟨door, h1, h2, h3⟩
      rw [hd] at h1
      simp only [Option.some.injEq] at h1
      subst h1
      refine ⟨h2, ?_⟩
      rintro ⟨w, hw, hh⟩
      exact h3 w hw hh
    · rintro ⟨h1, h2⟩
      exact ⟨_, hd, h1, fun w hw hh => h2 ⟨w, hw, hh⟩⟩
  unfold exitStep
  simp only
  rw [hget, hlen]
  by_cases hob : isObstacleBetweenPoints p doors[k] ws = true
  · rw [if_pos hob]
    have hnd : ¬ Detectable doors ws R p k := fun hh => (hdet.1 hh).2 hob
    rcases h with ⟨a, b, c, d⟩ | ⟨c, door, h1, h2, h3, h4, h5, h6, h7⟩
    · left
      refine ⟨a, b, c, fun c' hc' => ?_⟩
      rcases Nat.lt_succ_iff_lt_or_eq.1 hc' with h | h
      · exact d c' h
      · rw [h]; exact hnd
    · right
      refine ⟨c, door, by omega, h2, h3, h4, h5, h6, fun c' door' hc' e hh => ?_⟩
      rcases Nat.lt_succ_iff_lt_or_eq.1 hc' with h | h
      · exact h7 c' door' h e hh
      · rw [h] at hh; exact absurd hh hnd
  · rw [if_neg hob]
    rcases h with ⟨a, b, c, d⟩ | ⟨c, door, h1, h2, h3, h4, h5, h6, h7⟩
    · rw [c]
      by_cases hlt : Spec.dist p doors[k] < R
      · rw [if_pos hlt]
        right
        refine ⟨k, doors[k], by omega, rfl, rfl, hd, rfl, hdet.2 ⟨hlt, hob⟩,
          fun c' door' hc' e hh => ?_⟩
        rcases Nat.lt_succ_iff_lt_or_eq.1 hc' with h | h
        · exact absurd hh (d c' h)
        · subst h
          rw [hd] at e
          simp only [Option.some.injEq] at e
          subst e
          exact ⟨le_refl _, fun h => absurd h (lt_irrefl _)⟩
      · rw [if_neg hlt]
        left
        refine ⟨a, b, c, fun c' hc' => ?_⟩
        rcases Nat.lt_succ_iff_lt_or_eq.1 hc' with h | h
        · exact d c' h
        · rw [h]; exact fun hh => hlt (hdet.1 hh).1
    · rw [h5]
      have hR : Spec.dist p door < R := by
        obtain ⟨door', e, hr, -⟩ := h6
        rw [h4] at e
        simp only [Option.some.injEq] at e
        rw [e]; exact hr
      by_cases hlt : Spec.dist p doors[k] < Spec.dist p door
      · rw [if_pos hlt]
        right
        refine ⟨k, doors[k], by omega, rfl, rfl, hd, rfl, hdet.2 ⟨hlt.trans hR, hob⟩,
          fun c' door' hc' e hh => ?_⟩
        rcases Nat.lt_succ_iff_lt_or_eq.1 hc' with h | h
        · have := (h7 c' door' h e hh).1
          exact ⟨(hlt.trans_le this).le, fun _ => hlt.trans_le this⟩
        · subst h
          rw [hd] at e
          simp only [Option.some.injEq] at e
          subst e
          exact ⟨le_refl _, fun h => absurd h (lt_irrefl _)⟩
      · rw [if_neg hlt]
        right
        refine ⟨c, door, by omega, h2, h3, h4, h5, h6, fun c' door' hc' e hh => ?_⟩
        rcases Nat.lt_succ_iff_lt_or_eq.1 hc' with h | h
        · exact h7 c' door' h e hh
        · subst h
          rw [hd] at e
          simp only [Option.some.injEq] at e
          subst e
          exact ⟨not_lt.1 hlt, fun h => absurd h (by omega)⟩

lemma exitLoop_inv (doors : List Vec) (ws : List Wall) (R : ℝ) (p : Vec) (k : ℕ)
    (hk : k ≤ doors.length) :
    ExitInv doors ws R p k
      ((List.range k).foldl (exitStep doors p ws) ⟨R, -1, false⟩) := by
  induction k with
  | zero => exact Or.inl ⟨rfl, rfl, rfl, fun c hc => absurd hc (by omega)⟩
  | succ k ih =>
    rw [List.range_succ, List.foldl_append]
    exact exitStep_inv (by omega) (ih (by omega))

/-- The result for one agent. -/
def ExitResult (doors : List Vec) (ws : List Wall) (R : ℝ) (p : Vec) (r : ℤ × Bool) : Prop :=
  (r = (-1, false) ∧ ∀ c, ¬ Detectable doors ws R p c) ∨
    ∃ c : ℕ, r = ((c : ℤ), true) ∧ FirstNearest doors ws R p c

lemma exitDetection_get (doors position : List Vec) (ws : List Wall) (R : ℝ) (i : ℕ) (p : Vec)
    (hp : position[i]? = some p) :
    ∃ r, (exitDetection doors position ws R)[i]? = some r ∧ ExitResult doors ws R p r := by
  unfold exitDetection
  rw [List.getElem?_map, hp]
  refine ⟨_, rfl, ?_⟩
  have hout : ∀ c, Detectable doors ws R p c → c < doors.length := by
    rintro c ⟨door, h, -⟩
    exact (List.getElem?_eq_some_iff.1 h).1
  rcases exitLoop_inv doors ws R p doors.length le_rfl with
    ⟨h1, h2, h3, h4⟩ | ⟨c, door, h1, h2, h3, h4, h5, h6, h7⟩
  · left
    refine ⟨Prod.ext h2 h1, fun c hc => h4 c (hout c hc) hc⟩
  · right
    refine ⟨c, Prod.ext h3 h2, h6, fun c' d d' e1 e2 hh => ?_⟩
    rw [h4] at e1
    simp only [Option.some.injEq] at e1
    subst e1
    exact h7 c' d' (hout c' hh) e2 hh

/-- The logic node with the means the code computes: followers that detect an exit get the first nearest one as target
and stop following; everything else is untouched. -/
lemma exitNode_rows {n : ℕ} (targets : List (List Vec)) (ws : List Wall) (R : ℝ)
    (agents after : Fin n → Agent)
    (h : exitDetectionUpdate targets ws R agents = some after) (i : Fin n) :
    ((agents i).isFollower = true ∧ (∃ c : ℕ,
        FirstNearest (targets.map meanVec) ws R (agents i).position c ∧
        after i = { agents i with target := c, isFollower := false })) ∨
    (((agents i).isFollower = false ∨
      ∀ c, ¬ Detectable (targets.map meanVec) ws R (agents i).position c) ∧
      after i = agents i) := by
  unfold exitDetectionUpdate at h
  split_ifs at h with ht
  simp only [Option.some.injEq] at h
  have hi : (List.ofFn fun i => (agents i).position)[(i : ℕ)]? = some (agents i).position := by
    rw [List.getElem?_ofFn]
    simp
  obtain ⟨r, hr, hres⟩ := exitDetection_get (targets.map meanVec)
    (List.ofFn fun i => (agents i).position) ws R i _ hi
  have hget : (exitDetection (targets.map meanVec) (List.ofFn fun i => (agents i).position) ws
      R).getD i (-1, false) = r := by
    rw [List.getD_eq_getElem?_getD, hr]; rfl
  have hafter := congrFun h i
  simp only [hget] at hafter
  rcases hres with ⟨rfl, hnone⟩ | ⟨c, rfl, hc⟩
  · right
    refine ⟨Or.inr hnone, ?_⟩
    rw [← hafter]; simp
  · by_cases hf : (agents i).isFollower = true
    · left
      refine ⟨hf, c, hc, ?_⟩
      rw [← hafter]; simp [hf]
    · right
      refine ⟨Or.inl (by simpa using hf), ?_⟩
      rw [← hafter]; simp [hf]

/-- The centres are the means the code computes. -/
lemma doors_eq {targets : List (List Vec)} {doors : List Vec}
    (hd : List.Forall₂ IsCentre targets doors) : doors = targets.map meanVec := by
  induction hd with
  | nil => rfl
  | @cons t d ts ds h _ ih =>
    rw [List.map_cons, ← ih]
    congr 1
    obtain ⟨h1, h2⟩ := h
    unfold meanVec
    rw [← h2, smul_smul, one_div_mul_cancel, one_smul]
    simpa using h1

end CrowdDynamics
