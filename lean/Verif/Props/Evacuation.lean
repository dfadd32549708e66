import Verif.Proofs.Evacuation
import Verif.Proofs.SortCases
import Mathlib.Algebra.Order.Floor.Ring
import Mathlib.Algebra.Order.Archimedean.Real.Basic
import Mathlib.Data.List.Sort

/-!
# Properties C34–C36: capacity, queue position and detection of exits
-/

namespace CrowdDynamics

open Spec

/-! ## C34: `narrow_exit_capacity` -/

/-- **C34** Doors narrower than an agent have no capacity; all others have a positive whole
multiple of the coefficient. -/
theorem C34_steps (dDoor dAgent coeff : ℝ) (dLayer : Option ℝ) (ha : 0 < dAgent)
    (hl : ∀ l ∈ dLayer, 0 < l) :
    (dDoor < dAgent → narrowExitCapacity dDoor dAgent dLayer coeff = 0) ∧
    (dAgent ≤ dDoor → ∃ k : ℕ, 1 ≤ k ∧ narrowExitCapacity dDoor dAgent dLayer coeff = coeff * k ∧
      match dLayer with
      | none => k * dAgent ≤ dDoor ∧ dDoor < (k + 1) * dAgent
      | some l => (k - 1) * l + dAgent ≤ dDoor ∧ dDoor < k * l + dAgent) := by
  unfold narrowExitCapacity
  refine ⟨fun h => if_pos h, fun h => ?_⟩
  rw [if_neg (not_lt.2 h)]
  unfold pyFloorDiv
  cases dLayer with
  | none =>
    simp only
    have h1 : (1 : ℤ) ≤ ⌊dDoor / dAgent⌋ := by
      rw [Int.le_floor, Int.cast_one, le_div_iff₀ ha]; linarith
    obtain ⟨k, hk⟩ := Int.eq_ofNat_of_zero_le (zero_le_one.trans h1)
    have hkk : ((⌊dDoor / dAgent⌋ : ℤ) : ℝ) = k := by rw [hk]; simp
    refine ⟨k, by omega, by rw [hkk], ?_, ?_⟩
    · rw [← hkk, ← le_div_iff₀ ha]; exact Int.floor_le _
    · rw [← hkk, ← div_lt_iff₀ ha]; exact Int.lt_floor_add_one _
  | some l =>
    have hl0 : 0 < l := hl l rfl
    simp only
    have h1 : (1 : ℤ) ≤ ⌊(dDoor - (dAgent - l)) / l⌋ := by
      rw [Int.le_floor, Int.cast_one, le_div_iff₀ hl0]; linarith
    obtain ⟨k, hk⟩ := Int.eq_ofNat_of_zero_le (zero_le_one.trans h1)
    have hkk : ((⌊(dDoor - (dAgent - l)) / l⌋ : ℤ) : ℝ) = k := by rw [hk]; simp
    have u1 := Int.floor_le ((dDoor - (dAgent - l)) / l)
    have u2 := Int.lt_floor_add_one ((dDoor - (dAgent - l)) / l)
    rw [hkk, le_div_iff₀ hl0] at u1
    rw [hkk, div_lt_iff₀ hl0] at u2
    exact ⟨k, by omega, by rw [hkk], by linarith, by linarith⟩

example := C34_steps 1.2 0.5 1 (some 0.3) (by norm_num) (by simp; norm_num)

/-- **C34** The capacity does not decrease if the door gets wider, not increase if agents get
bigger, and is never negative. -/
theorem C34_monotone (dDoor dDoor' dAgent dAgent' coeff : ℝ) (dLayer : Option ℝ)
    (ha : 0 < dAgent) (hc : 0 ≤ coeff) (hl : ∀ l ∈ dLayer, 0 < l) (hd : dDoor ≤ dDoor')
    (haa : dAgent ≤ dAgent') :
    0 ≤ narrowExitCapacity dDoor dAgent' dLayer coeff ∧
    narrowExitCapacity dDoor dAgent' dLayer coeff ≤ narrowExitCapacity dDoor' dAgent dLayer coeff := by
  have ha' : 0 < dAgent' := ha.trans_le haa
  have nonneg : ∀ d a : ℝ, 0 < a → 0 ≤ narrowExitCapacity d a dLayer coeff := by
    intro d a hpos
    rcases lt_or_ge d a with h | h
    · rw [(C34_steps d a coeff dLayer hpos hl).1 h]
    · obtain ⟨k, -, e, -⟩ := (C34_steps d a coeff dLayer hpos hl).2 h
      rw [e]; positivity
  refine ⟨nonneg _ _ ha', ?_⟩
  rcases lt_or_ge dDoor dAgent' with h | h
  · rw [(C34_steps dDoor dAgent' coeff dLayer ha' hl).1 h]
    exact nonneg _ _ ha
  · unfold narrowExitCapacity
    rw [if_neg (not_lt.2 h), if_neg (not_lt.2 (haa.trans (h.trans hd)))]
    cases dLayer with
    | none =>
      simp only [pyFloorDiv]
      refine mul_le_mul_of_nonneg_left (Int.cast_le.2 (Int.floor_mono ?_)) hc
      exact div_le_div₀ (by linarith) hd ha haa
    | some l =>
      simp only [pyFloorDiv]
      refine mul_le_mul_of_nonneg_left (Int.cast_le.2 (Int.floor_mono ?_)) hc
      have hl0 : 0 < l := hl l rfl
      exact div_le_div_of_nonneg_right (by linarith) hl0.le

example := C34_monotone 1.2 1.4 0.5 0.6 1 (some 0.3) (by norm_num) (by norm_num)
  (by simp; norm_num) (by norm_num) (by norm_num)

/-- **C34** With layers as wide as agents both estimates agree. -/
theorem C34_layer_eq_agent (dDoor dAgent coeff : ℝ) :
    narrowExitCapacity dDoor dAgent (some dAgent) coeff =
      narrowExitCapacity dDoor dAgent none coeff := by
  unfold narrowExitCapacity
  simp

/-- A door of 1.2 m, agents of 0.5 m: two agents wide, and three layers of 0.3 m. -/
example : narrowExitCapacity 1.2 0.5 none 3 = 6 ∧
    narrowExitCapacity 1.2 0.5 (some 0.3) 1 = 3 := by
  constructor
  · unfold narrowExitCapacity pyFloorDiv
    have : ⌊(1.2 : ℝ) / 0.5⌋ = 2 := by rw [Int.floor_eq_iff]; norm_num
    rw [if_neg (by norm_num)]
    simp only [this]
    norm_num
  · unfold narrowExitCapacity pyFloorDiv
    have : ⌊((1.2 : ℝ) - (0.5 - 0.3)) / 0.3⌋ = 3 := by rw [Int.floor_eq_iff]; norm_num
    rw [if_neg (by norm_num)]
    simp only [this]
    norm_num

/-! ## C35: `agent_closer_to_exit` -/

/-- **C35** The numbers are a permutation of `0 .. n-1`; the number of an agent is at least the
number of agents that are closer to the exit, and at most that plus the number of other
agents at the same distance. -/
theorem C35_rank (argsortF : List ℝ → List ℕ) (argsortI : List ℕ → List ℕ)
    (hF : IsArgsort argsortF) (hI : IsArgsort argsortI) (cDoor : Vec) (position : List Vec) :
    (agentCloserToExit argsortF argsortI cDoor position).Perm (List.range position.length) ∧
    ∀ i, i < position.length →
      ((Finset.range position.length).filter fun j =>
        Spec.dist cDoor (position.getD j 0) < Spec.dist cDoor (position.getD i 0)).card ≤
          (agentCloserToExit argsortF argsortI cDoor position).getD i 0 ∧
      (agentCloserToExit argsortF argsortI cDoor position).getD i 0 <
        ((Finset.range position.length).filter fun j =>
          Spec.dist cDoor (position.getD j 0) ≤ Spec.dist cDoor (position.getD i 0)).card := by
  unfold agentCloserToExit
  obtain ⟨h1, h2⟩ := rank_spec hF hI (position.map fun x => length (cDoor - x))
  rw [List.length_map] at h1 h2
  refine ⟨h1, fun i hi => ?_⟩
  have e : ∀ j, j < position.length → (position.map fun x => length (cDoor - x)).getD j 0 =
      Spec.dist cDoor (position.getD j 0) := by
    intro j hj
    rw [List.getD_eq_getElem?_getD, List.getD_eq_getElem?_getD, List.getElem?_map,
      List.getElem?_eq_getElem hj]
    rfl
  have h3 := h2 i hi
  have f1 : ((Finset.range position.length).filter fun j =>
      (position.map fun x => length (cDoor - x)).getD j 0 <
        (position.map fun x => length (cDoor - x)).getD i 0) =
      (Finset.range position.length).filter fun j =>
        Spec.dist cDoor (position.getD j 0) < Spec.dist cDoor (position.getD i 0) := by
    refine Finset.filter_congr fun j hj => ?_
    rw [e j (by simpa using hj), e i hi]
  have f2 : ((Finset.range position.length).filter fun j =>
      (position.map fun x => length (cDoor - x)).getD j 0 ≤
        (position.map fun x => length (cDoor - x)).getD i 0) =
      (Finset.range position.length).filter fun j =>
        Spec.dist cDoor (position.getD j 0) ≤ Spec.dist cDoor (position.getD i 0) := by
    refine Finset.filter_congr fun j hj => ?_
    rw [e j (by simpa using hj), e i hi]
  rw [f1, f2] at h3
  exact h3

example := C35_rank orderOf orderOf orderOf_sorts orderOf_sorts (0, 0) [(3, 0), (1, 0), (2, 0)]

/-- **C35** If all distances differ, the number of an agent is exactly the number of agents
that are closer to the exit. -/
theorem C35_count_closer (argsortF : List ℝ → List ℕ) (argsortI : List ℕ → List ℕ)
    (hF : IsArgsort argsortF) (hI : IsArgsort argsortI) (cDoor : Vec) (position : List Vec)
    (hdiff : ∀ i j, i < position.length → j < position.length →
      Spec.dist cDoor (position.getD i 0) = Spec.dist cDoor (position.getD j 0) → i = j)
    (i : ℕ) (hi : i < position.length) :
    (agentCloserToExit argsortF argsortI cDoor position).getD i 0 =
      ((Finset.range position.length).filter fun j =>
        Spec.dist cDoor (position.getD j 0) < Spec.dist cDoor (position.getD i 0)).card := by
  obtain ⟨h1, h2⟩ := (C35_rank argsortF argsortI hF hI cDoor position).2 i hi
  have : ((Finset.range position.length).filter fun j =>
      Spec.dist cDoor (position.getD j 0) ≤ Spec.dist cDoor (position.getD i 0)) ⊆
      insert i ((Finset.range position.length).filter fun j =>
        Spec.dist cDoor (position.getD j 0) < Spec.dist cDoor (position.getD i 0)) := by
    intro j hj
    rw [Finset.mem_filter, Finset.mem_range] at hj
    rw [Finset.mem_insert, Finset.mem_filter, Finset.mem_range]
    rcases hj.2.lt_or_eq with h | h
    · exact Or.inr ⟨hj.1, h⟩
    · exact Or.inl (hdiff j i hj.1 hi h)
  have := (Finset.card_le_card this).trans (Finset.card_insert_le _ _)
  omega

/-- Sorting functions as assumed exist, for floats and for integers. -/
example : (∃ f : List ℝ → List ℕ, IsArgsort f) ∧ ∃ f : List ℕ → List ℕ, IsArgsort f := by
  have key : ∀ (α : Type) [LinearOrder α] [Zero α], ∃ f : List α → List ℕ, IsArgsort f := by
    intro α _ _
    refine ⟨fun l => (List.range l.length).insertionSort fun i j => l.getD i 0 ≤ l.getD j 0, ?_⟩
    intro l
    refine ⟨List.perm_insertionSort _ _, ?_⟩
    rw [List.pairwise_map]
    have : Std.Total fun i j : ℕ => l.getD i 0 ≤ l.getD j 0 := ⟨fun i j => le_total _ _⟩
    have : IsTrans ℕ fun i j : ℕ => l.getD i 0 ≤ l.getD j 0 := ⟨fun i j k => le_trans⟩
    exact List.pairwise_insertionSort _ _
  exact ⟨key ℝ, key ℕ⟩

/-- Three agents at distances 3, 1 and 2. -/
example : ∀ i j, i < [((3 : ℝ), (0 : ℝ)), (1, 0), (2, 0)].length →
    j < [((3 : ℝ), (0 : ℝ)), (1, 0), (2, 0)].length →
    Spec.dist (0, 0) ([((3 : ℝ), (0 : ℝ)), (1, 0), (2, 0)].getD i 0) =
      Spec.dist (0, 0) ([((3 : ℝ), (0 : ℝ)), (1, 0), (2, 0)].getD j 0) → i = j := by
  have e : ∀ x : ℝ, 0 ≤ x → Spec.dist (0, 0) (x, 0) = x := by
    intro x hx
    unfold Spec.dist Spec.len
    simp [Real.sqrt_sq hx]
  intro i j hi hj h
  simp only [List.length_cons, List.length_nil] at hi hj
  have hi' : i = 0 ∨ i = 1 ∨ i = 2 := by omega
  have hj' : j = 0 ∨ j = 1 ∨ j = 2 := by omega
  rcases hi' with rfl | rfl | rfl <;> rcases hj' with rfl | rfl | rfl <;>
    simp [e] at h ⊢

/-! ## C36: `exit_detection` -/

/-- **C36** One result per agent. It is `(c, True)` exactly if `c` is the first of the nearest
exits among those strictly in range and not hidden by a wall, and `(-1, False)` exactly if
there are none. -/
theorem C36_nearest (doors position : List Vec) (ws : List Wall) (R : ℝ) :
    (exitDetection doors position ws R).length = position.length ∧
    ∀ (i : ℕ) (p : Vec), position[i]? = some p →
      (∀ c : ℕ, (exitDetection doors position ws R)[i]? = some ((c : ℤ), true) ↔
        FirstNearest doors ws R p c) ∧
      ((exitDetection doors position ws R)[i]? = some (-1, false) ↔
        ∀ c, ¬ Detectable doors ws R p c) ∧
      ((∃ c, Detectable doors ws R p c) → ∃ c, FirstNearest doors ws R p c) := by
  refine ⟨by simp [exitDetection], fun i p hp => ?_⟩
  obtain ⟨r, hr, hres⟩ := exitDetection_get doors position ws R i p hp
  rw [hr]
  have uniq : ∀ c c', FirstNearest doors ws R p c → FirstNearest doors ws R p c' → c = c' := by
    intro c c' h h'
    obtain ⟨d, e, -⟩ := h.1
    obtain ⟨d', e', -⟩ := h'.1
    obtain ⟨a1, a2⟩ := h.2 c' d d' e e' h'.1
    obtain ⟨b1, b2⟩ := h'.2 c d' d e' e h.1
    rcases lt_trichotomy c c' with hlt | heq | hlt
    · have := b2 hlt; linarith
    · exact heq
    · have := a2 hlt; linarith
  rcases hres with ⟨rfl, hnone⟩ | ⟨c, rfl, hc⟩
  · refine ⟨fun c => ⟨fun h => ?_, fun h => absurd h.1 (hnone c)⟩, ⟨fun _ => hnone, fun _ => rfl⟩,
      fun ⟨c, h⟩ => absurd h (hnone c)⟩
    simp at h
  · refine ⟨fun c' => ⟨fun h => ?_, fun h => ?_⟩, ⟨fun h => ?_, fun h => absurd hc.1 (h c)⟩,
      fun _ => ⟨c, hc⟩⟩
    · simp only [Option.some.injEq, Prod.mk.injEq, and_true] at h
      have : c = c' := by exact_mod_cast h
      rw [← this]; exact hc
    · rw [uniq c' c h hc]
    · simp at h

/-- **C36** The logic node: followers that detect an exit get the first nearest one as target
and stop following; everything else is untouched. The doors are the centres of the targets. -/
theorem C36_node {n : ℕ} (targets : List (List Vec)) (doors : List Vec)
    (hd : List.Forall₂ IsCentre targets doors) (ws : List Wall) (R : ℝ)
    (agents after : Fin n → Agent)
    (h : exitDetectionUpdate targets ws R agents = some after) (i : Fin n) :
    ((agents i).isFollower = true ∧ (∃ c : ℕ,
        FirstNearest doors ws R (agents i).position c ∧
        after i = { agents i with target := c, isFollower := false })) ∨
    (((agents i).isFollower = false ∨
      ∀ c, ¬ Detectable doors ws R (agents i).position c) ∧
      after i = agents i) := by
  rw [doors_eq hd]
  exact exitNode_rows targets ws R agents after h i

/-- The centres of two targets, one of them with three points. -/
example : List.Forall₂ IsCentre [[(0, 0), (2, 0)], [(0, 3), (3, 0), (0, 0)]] [(1, 0), (1, 1)] := by
  refine .cons ⟨by simp, ?_⟩ (.cons ⟨by simp, ?_⟩ .nil) <;> norm_num [Prod.ext_iff]

/-- Two exits at distances 2 and 1; a wall hides the nearer one, so the farther is chosen. -/
example : FirstNearest [(2, 0), (0, 1)] [⟨(-1, 1 / 2), (1, 1 / 2)⟩] 20 (0, 0) 0 := by
  have e : Spec.dist ((0 : ℝ), (0 : ℝ)) (2, 0) = 2 := by
    rw [Spec.dist, Spec.len, Real.sqrt_eq_iff_mul_self_eq (by positivity) (by norm_num)]
    norm_num
  refine ⟨⟨(2, 0), rfl, by rw [e]; norm_num, ?_⟩, ?_⟩
  · intro w hw
    simp only [List.mem_singleton] at hw
    subst hw
    rintro ⟨-, z, ⟨a, b, ha, hb, hab, rfl⟩, ⟨c, d, hc, hd, hcd, h⟩⟩
    have := congrArg Prod.snd h
    simp at this
    linarith
  · intro c' door door' h1 h2 hdet
    match c', h2, hdet with
    | 0, h2, _ =>
      simp only [List.getElem?_cons_zero, Option.some.injEq] at h1 h2
      rw [← h1, ← h2]
      exact ⟨le_refl _, fun h => absurd h (by omega)⟩
    | 1, h2, hdet =>
      exfalso
      obtain ⟨d, hd, -, hh⟩ := hdet
      simp only [List.getElem?_cons_succ, List.getElem?_cons_zero, Option.some.injEq] at hd
      subst hd
      refine hh ⟨(-1, 1 / 2), (1, 1 / 2)⟩ (by simp) ⟨by norm_num, (0, 1 / 2), ?_, ?_⟩
      · exact ⟨1 / 2, 1 / 2, by norm_num, by norm_num, by norm_num, by ext <;> norm_num⟩
      · exact ⟨1 / 2, 1 / 2, by norm_num, by norm_num, by norm_num, by ext <;> norm_num⟩
    | k + 2, h2, _ => simp at h2

/-- The node runs if there are targets. -/
example : ∃ after, exitDetectionUpdate (n := 1) [[(0, 0), (2, 0)]] [] 20
    (fun _ => { Agent.default with isFollower := true }) = some after := by
  unfold exitDetectionUpdate
  simp

end CrowdDynamics
