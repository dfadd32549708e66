import Verif.Proofs.BlockList
import Mathlib.Data.Rat.Floor

/-!
# Properties C12, C13: the block list
-/

namespace CrowdDynamics

open Classical Spec

variable {α V : Type} [Field α] [LinearOrder α] [FloorRing α]

/-- **C12** After any history of calls, `nearest(p, r)` returns exactly the values
inserted in cells whose index differs by at most `r` in every coordinate, each insertion
once. (Queries in the history have no influence: only `insertions ops` matters.) -/
theorem C12_nearest_exact (c : α) (s : BlockList α V) (hs : BlockList.init c = some s)
    (ops : List (BlockOp α V)) (p : List α) (r : ℤ) :
    ((s.run ops).nearest p r).1.Perm
      (((insertions ops).filter fun e => CellsWithin c r e.1 p).map Prod.snd) := by
  have := nearest_perm (holds_run (holds_init hs) ops) p r
  simpa using this

/-- Two values in a list with cells of size 1. -/
example (s : BlockList ℚ ℕ) (hs : BlockList.init (1 : ℚ) = some s) :=
  C12_nearest_exact 1 s hs [.set [3, 3] 1, .nearest [0, 0] 1, .set [-1/2, 0] 7] [1/2, 1] 1

/-- **C12** `bl[p]` returns the values of the cell of `p` in insertion order. -/
theorem C12_getitem_exact (c : α) (s : BlockList α V) (hs : BlockList.init c = some s)
    (ops : List (BlockOp α V)) (p : List α) :
    ((s.run ops).getItem p).1 =
      ((insertions ops).filter fun e => SameCell c e.1 p).map Prod.snd := by
  have := getItem_eq (holds_run (holds_init hs) ops) p
  simpa using this

example (s : BlockList ℚ ℕ) (hs : BlockList.init (1 : ℚ) = some s) :=
  C12_getitem_exact 1 s hs [.set [3, 3] 1, .nearest [0, 0] 1, .set [7/2, 3] 7, .set [4, 3] 8] [13/4, 3]

/-- **C12** Lookups never change the answer of later lookups. -/
theorem C12_lookup_pure (c : α) (s : BlockList α V) (hs : BlockList.init c = some s)
    (ops queries : List (BlockOp α V)) (hq : insertions queries = []) (p : List α) (r : ℤ) :
    (((s.run ops).run queries).nearest p r).1.Perm ((s.run ops).nearest p r).1 ∧
    (((s.run ops).run queries).getItem p).1 = ((s.run ops).getItem p).1 := by
  have h1 := holds_run (holds_init hs) ops
  have h2 := holds_run h1 queries
  rw [hq, List.append_nil] at h2
  exact ⟨(nearest_perm h2 p r).trans (nearest_perm h1 p r).symm,
    (getItem_eq h2 p).trans (getItem_eq h1 p).symm⟩

example (s : BlockList ℚ ℕ) (hs : BlockList.init (1 : ℚ) = some s) :=
  C12_lookup_pure 1 s hs [.set [3, 3] 1, .set [-1/2, 0] 7] [.nearest [0, 0] 1, .get [1, 2]] rfl [0, 1] 2

omit [FloorRing α] in
/-- **C12** A block list can be created exactly for positive cell sizes. -/
theorem C12_init (c : α) : (∃ s : BlockList α V, BlockList.init c = some s) ↔ 0 < c := by
  unfold BlockList.init
  constructor
  · rintro ⟨s, h⟩; by_contra hc; simp [hc] at h
  · intro h; exact ⟨_, if_pos h⟩

variable [IsStrictOrderedRing α]

/-- **C13** No stored point whose coordinates all differ by at most `r` cell sizes from
the query point is ever missed. -/
theorem C13_nearest_complete (c : α) (s : BlockList α V) (hs : BlockList.init c = some s)
    (ops : List (BlockOp α V)) (p q : List α) (v : V) (r : ℤ) (hin : (q, v) ∈ insertions ops)
    (hclose : List.Forall₂ (fun a b => |a - b| ≤ r * c) q p) :
    v ∈ ((s.run ops).nearest p r).1 := by
  rw [(C12_nearest_exact c s hs ops p r).mem_iff, List.mem_map]
  refine ⟨(q, v), ?_, rfl⟩
  rw [List.mem_filter]
  refine ⟨hin, ?_⟩
  simp only [decide_eq_true_eq]
  exact hclose.imp fun a b h => floor_close (init_pos hs) r h

example (s : BlockList ℚ ℕ) (hs : BlockList.init (1 : ℚ) = some s) :
    7 ∈ ((s.run [.set [3, 3] 1, .nearest [0, 0] 1, .set [-1/2, 0] 7]).nearest [1/2, 1] 1).1 :=
  C13_nearest_complete 1 s hs _ _ [-1/2, 0] 7 1 (by simp [insertions]) (by
    refine List.Forall₂.cons ?_ (List.Forall₂.cons ?_ List.Forall₂.nil) <;>
      norm_num [abs_of_neg, abs_of_nonneg])

/-- **C13** Every returned value was stored at a point that is closer than `r + 1` cell
sizes in each coordinate. -/
theorem C13_nearest_sound (c : α) (s : BlockList α V) (hs : BlockList.init c = some s)
    (ops : List (BlockOp α V)) (p : List α) (v : V) (r : ℤ)
    (hv : v ∈ ((s.run ops).nearest p r).1) :
    ∃ q, (q, v) ∈ insertions ops ∧ List.Forall₂ (fun a b => |a - b| < (r + 1) * c) q p := by
  rw [(C12_nearest_exact c s hs ops p r).mem_iff, List.mem_map] at hv
  obtain ⟨⟨q, v'⟩, h, rfl⟩ := hv
  rw [List.mem_filter] at h
  refine ⟨q, h.1, ?_⟩
  have h2 := h.2
  simp only [decide_eq_true_eq] at h2
  exact h2.imp fun a b h => close_of_floor (init_pos hs) r h

/-- A concrete index with cell size 1 holding points on both sides of the origin. -/
example : ∃ s : BlockList ℚ ℕ, BlockList.init (1 : ℚ) = some s :=
  (C12_init 1).2 (by norm_num)

example : (([-1/2, 0] : List ℚ), 7) ∈ insertions
      [BlockOp.set [3, 3] 1, .nearest [0, 0] 1, .set [-1/2, 0] 7] ∧
    List.Forall₂ (fun a b : ℚ => |a - b| ≤ ((1 : ℤ) : ℚ) * 1) [-1/2, 0] [1/2, 1] := by
  refine ⟨by simp [insertions], ?_⟩
  refine List.Forall₂.cons ?_ (List.Forall₂.cons ?_ List.Forall₂.nil) <;>
    norm_num [abs_of_neg, abs_of_nonneg]

example : insertions [BlockOp.nearest [(0 : ℚ), 0] 1, (.get [1, 2] : BlockOp ℚ ℕ)] = [] := rfl

end CrowdDynamics
