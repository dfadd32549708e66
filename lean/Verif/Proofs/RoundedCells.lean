import Verif.Proofs.RoundedAngles
import Verif.Proofs.BlockList

/-!
# Lemmas on cells in floating point
-/

namespace CrowdDynamics

open Spec

theorem blockTransformF_eq {c : ℝ} {p : List ℝ} (hc : Binary64 c) (hc0 : 0 < c)
    (hp : OnMap c p) : blockTransformF fl64 p c = (blockTransform p c).map (fun k : ℤ => (k : ℝ)) := by
  unfold blockTransformF blockTransform
  rw [List.map_map]
  refine List.map_congr_left fun a ha => ?_
  rw [pyFloorDivF_fl64 (hp a ha).1 hc hc0.ne' (hp a ha).2]
  rfl

theorem cast_list_injective : Function.Injective (List.map (fun k : ℤ => (k : ℝ))) :=
  List.map_injective_iff.2 Int.cast_injective

theorem floor_abs_le {x : ℝ} (h : |x| ≤ 2 ^ 49) : |⌊x⌋| ≤ 2 ^ 49 := by
  rw [abs_le] at h ⊢
  constructor
  · rw [Int.le_floor]; push_cast; linarith [h.1]
  · have : (⌊x⌋ : ℝ) ≤ 2 ^ 49 := (Int.floor_le x).trans h.2
    exact_mod_cast this

theorem key_sum_exact {k o : ℤ} (hk : |k| ≤ 2 ^ 49) (ho : |o| ≤ 2 ^ 49) :
    fl64 (fl64 (0 + (k : ℝ)) + o) = ((k + o : ℤ) : ℝ) := by
  rw [zero_add, fl64_int (by omega)]
  have h : |k + o| < 2 ^ 53 := by
    have := abs_add_le k o
    omega
  have := fl64_int h
  push_cast at this ⊢
  exact this

theorem nearestBlocksF_eq {index : List ℤ} {r : ℤ} (hi : ∀ k ∈ index, |k| ≤ 2 ^ 49)
    (hr : |r| ≤ 2 ^ 49) :
    nearestBlocksF fl64 (index.map (fun k : ℤ => (k : ℝ))) r =
      (nearestBlocks index r).map (List.map (fun k : ℤ => (k : ℝ))) := by
  unfold nearestBlocksF nearestBlocks
  rw [List.map_map, List.length_map]
  refine List.map_congr_left fun i hmem => ?_
  have hlen := (mem_offsetProduct.1 hmem).1
  have hoff := (mem_offsetProduct.1 hmem).2
  simp only [Function.comp]
  clear hmem
  induction index generalizing i with
  | nil => simp
  | cons k index ih =>
    cases i with
    | nil => simp
    | cons o i =>
      simp only [List.map_cons, List.zipWith_cons_cons]
      have ho : |o| ≤ 2 ^ 49 := by
        have := hoff o (by simp)
        have h2 := le_abs_self r
        omega
      rw [key_sum_exact (hi k (by simp)) ho]
      congr 1
      exact ih (fun k hk => hi k (by simp [hk])) i (by simpa using hlen)
        (fun o ho => hoff o (by simp [ho]))

theorem nearestBlocksF_mem {c : ℝ} {p q : List ℝ} {r : ℤ} (hc : Binary64 c) (hc0 : 0 < c)
    (hp : OnMap c p) (hq : OnMap c q) (hr : |r| ≤ 2 ^ 49) :
    blockTransformF fl64 q c ∈ nearestBlocksF fl64 (blockTransformF fl64 p c) r ↔
      CellsWithin c r q p := by
  rw [blockTransformF_eq hc hc0 hp, blockTransformF_eq hc hc0 hq, nearestBlocksF_eq _ hr,
    List.mem_map_of_injective cast_list_injective]
  · exact within_iff c r q p
  · intro k hk
    unfold blockTransform at hk
    rw [List.mem_map] at hk
    obtain ⟨a, ha, rfl⟩ := hk
    exact floor_abs_le (hp a ha).2

/-! ## Capacities -/

theorem narrowExitCapacityF_none {dDoor dAgent : ℝ} (h1 : Binary64 dDoor) (h2 : Binary64 dAgent)
    (h0 : 0 < dAgent) (hq : |dDoor / dAgent| ≤ 2 ^ 49) :
    narrowExitCapacityF fl64 dDoor dAgent none 1 = narrowExitCapacity dDoor dAgent none 1 := by
  unfold narrowExitCapacityF narrowExitCapacity
  split_ifs with h
  · rfl
  · simp only []
    rw [pyFloorDivF_fl64 h1 h2 h0.ne' hq]
    unfold pyFloorDiv
    rw [one_mul]
    exact fl64_int (lt_of_le_of_lt (floor_abs_le hq) (by norm_num))

end CrowdDynamics
