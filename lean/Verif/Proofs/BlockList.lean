import Verif.Model.BlockList
import Verif.Spec.BlockList
import Mathlib.Data.List.Forall2
import Mathlib.Data.List.Perm.Basic
import Mathlib.Data.List.Nodup
import Mathlib.Tactic.Linarith
import Mathlib.Tactic.FieldSimp
import Mathlib.Tactic.Push

/-! # Helper lemmas about `block_list.py` -/

namespace CrowdDynamics

variable {α V : Type}

/-- Observable content of the dictionary. -/
def Blocks.content (b : Blocks V) (key : List ℤ) : List V := (b.lookup key).getD []

lemma Blocks.access_fst (b : Blocks V) (key : List ℤ) : (b.access key).1 = b.content key := by
  unfold Blocks.access Blocks.content
  cases h : b.lookup key <;> rfl

lemma Blocks.content_access (b : Blocks V) (key k : List ℤ) :
    (b.access key).2.content k = b.content k := by
  unfold Blocks.access
  cases h : b.lookup key with
  | some l => rfl
  | none =>
    unfold Blocks.content
    simp only [List.lookup_append]
    cases h2 : b.lookup k with
    | some l => rfl
    | none =>
      simp only [Option.none_or]
      rw [List.lookup_cons]
      cases h3 : (k == key) <;> simp

lemma Blocks.lookup_map_append (b : Blocks V) (key k : List ℤ) (value : V) :
    (b.map fun e => if e.1 = key then (e.1, e.2 ++ [value]) else e).lookup k =
      if k = key then (b.lookup k).map (· ++ [value]) else b.lookup k := by
  induction b with
  | nil => simp
  | cons e t ih =>
    obtain ⟨a, l⟩ := e
    rw [List.map_cons, List.lookup_cons (as := t)]
    by_cases ha : a = key
    · simp only [ha, if_true]
      rw [List.lookup_cons, ih]
      by_cases hk : k = key
      · subst hk; simp
      · have : (k == key) = false := by simpa using hk
        simp [this, hk]
    · simp only [ha, if_false]
      rw [List.lookup_cons, ih]
      by_cases hk : k = key
      · have : (key == a) = false := by simpa using Ne.symm ha
        simp [this, hk]
      · cases h : (k == a) <;> simp [hk]

lemma Blocks.content_append (b : Blocks V) (key k : List ℤ) (value : V) :
    (b.append key value).content k =
      if k = key then b.content k ++ [value] else b.content k := by
  unfold Blocks.append
  have hc := Blocks.content_access b key k
  unfold Blocks.content at hc ⊢
  rw [Blocks.lookup_map_append]
  by_cases hk : k = key
  · subst hk
    simp only [if_true]
    have : ∃ l, (b.access k).2.lookup k = some l := by
      unfold Blocks.access
      cases h : b.lookup k with
      | some l => exact ⟨l, h⟩
      | none => exact ⟨[], by simp [List.lookup_append, h]⟩
    obtain ⟨l, hl⟩ := this
    rw [hl] at hc ⊢
    simp only [Option.map_some, Option.getD_some] at hc ⊢
    rw [hc]
  · simp only [hk, if_false]; exact hc

lemma Blocks.concat_spec (b : Blocks V) (keys : List (List ℤ)) :
    (b.concat keys).1 = keys.flatMap b.content ∧
      ∀ k, (b.concat keys).2.content k = b.content k := by
  induction keys generalizing b with
  | nil => exact ⟨rfl, fun _ => rfl⟩
  | cons key keys ih =>
    obtain ⟨h1, h2⟩ := ih (b.access key).2
    unfold Blocks.concat
    simp only [List.flatMap_cons]
    refine ⟨?_, ?_⟩
    · rw [h1, Blocks.access_fst]
      congr 1
      congr 1
      funext k
      exact Blocks.content_access b key k
    · intro k
      rw [h2, Blocks.content_access]

/-! ### Keys visited by `nearest` -/

lemma mem_offsetRange {r i : ℤ} : i ∈ offsetRange r ↔ |i| ≤ r := by
  unfold offsetRange
  rw [List.mem_map, abs_le]
  constructor
  · rintro ⟨a, ha, rfl⟩
    rw [List.mem_range] at ha
    omega
  · rintro ⟨h1, h2⟩
    refine ⟨(i + r).toNat, ?_, ?_⟩
    · rw [List.mem_range]; omega
    · omega

lemma nodup_offsetRange (r : ℤ) : (offsetRange r).Nodup := by
  unfold offsetRange
  apply List.Nodup.map _ List.nodup_range
  intro a b h
  simp only at h
  omega

lemma mem_offsetProduct {r : ℤ} {d : ℕ} {i : List ℤ} :
    i ∈ offsetProduct r d ↔ i.length = d ∧ ∀ x ∈ i, |x| ≤ r := by
  induction d generalizing i with
  | zero =>
    unfold offsetProduct
    rw [List.mem_singleton]
    constructor
    · rintro rfl; simp
    · rintro ⟨h, _⟩; exact List.length_eq_zero_iff.1 h
  | succ d ih =>
    unfold offsetProduct
    simp only [List.mem_flatMap, List.mem_map]
    constructor
    · rintro ⟨o, ho, t, ht, rfl⟩
      rw [ih] at ht
      rw [mem_offsetRange] at ho
      refine ⟨by simp [ht.1], ?_⟩
      intro x hx
      rcases List.mem_cons.1 hx with rfl | hx
      · exact ho
      · exact ht.2 x hx
    · rintro ⟨h1, h2⟩
      cases i with
      | nil => simp at h1
      | cons o t =>
        refine ⟨o, mem_offsetRange.2 (h2 o (by simp)), t, ih.2 ⟨by simpa using h1, ?_⟩, rfl⟩
        intro x hx; exact h2 x (by simp [hx])

lemma nodup_offsetProduct (r : ℤ) (d : ℕ) : (offsetProduct r d).Nodup := by
  induction d with
  | zero => simp [offsetProduct]
  | succ d ih =>
    unfold offsetProduct
    rw [List.nodup_flatMap]
    refine ⟨?_, ?_⟩
    · intro o _
      exact ih.map (fun a b h => by simpa using h)
    · apply (nodup_offsetRange r).imp
      intro a b hab
      rw [Function.onFun, List.disjoint_left]
      intro x hx hy
      simp only [List.mem_map] at hx hy
      obtain ⟨t, _, rfl⟩ := hx
      obtain ⟨t', _, h⟩ := hy
      simp only [List.cons.injEq] at h
      exact hab h.1.symm

lemma zipWith_add_inj (index i j : List ℤ) (hi : i.length = index.length)
    (hj : j.length = index.length)
    (h : List.zipWith (· + ·) index i = List.zipWith (· + ·) index j) : i = j := by
  induction index generalizing i j with
  | nil =>
    have h1 : i = [] := List.length_eq_zero_iff.1 (by simpa using hi)
    have h2 : j = [] := List.length_eq_zero_iff.1 (by simpa using hj)
    rw [h1, h2]
  | cons a t ih =>
    cases i with
    | nil => simp at hi
    | cons x xs =>
      cases j with
      | nil => simp at hj
      | cons y ys =>
        simp only [List.zipWith_cons_cons, List.cons.injEq] at h
        have : x = y := by omega
        rw [this, ih xs ys (by simpa using hi) (by simpa using hj) h.2]

lemma nodup_nearestBlocks (index : List ℤ) (r : ℤ) : (nearestBlocks index r).Nodup := by
  unfold nearestBlocks
  apply List.Nodup.map_on _ (nodup_offsetProduct r _)
  intro a ha b hb h
  exact zipWith_add_inj index a b (mem_offsetProduct.1 ha).1 (mem_offsetProduct.1 hb).1 h

lemma mem_nearestBlocks {index key : List ℤ} {r : ℤ} :
    key ∈ nearestBlocks index r ↔ List.Forall₂ (fun a b => |a - b| ≤ r) key index := by
  unfold nearestBlocks
  rw [List.mem_map]
  constructor
  · rintro ⟨i, hi, rfl⟩
    rw [mem_offsetProduct] at hi
    obtain ⟨h1, h2⟩ := hi
    induction index generalizing i with
    | nil => simp
    | cons a t ih =>
      cases i with
      | nil => simp at h1
      | cons x xs =>
        simp only [List.zipWith_cons_cons, List.forall₂_cons]
        refine ⟨?_, ih xs (by simpa using h1) (fun y hy => h2 y (by simp [hy]))⟩
        have := h2 x (by simp)
        rwa [add_sub_cancel_left]
  · intro h
    refine ⟨List.zipWith (· - ·) key index, ?_, ?_⟩
    · rw [mem_offsetProduct]
      refine ⟨by rw [List.length_zipWith, h.length_eq]; simp, ?_⟩
      intro x hx
      induction h with
      | nil => simp at hx
      | cons hab _ ih =>
        simp only [List.zipWith_cons_cons, List.mem_cons] at hx
        rcases hx with rfl | hx
        · exact hab
        · exact ih hx
    · induction h with
      | nil => rfl
      | cons hab _ ih => simp only [List.zipWith_cons_cons, ih, List.cons.injEq, and_true]; omega

/-! ### Filtering by key -/

lemma flatMap_filter_perm {β κ : Type} [DecidableEq κ] (f : β → κ) (log : List β) (keys : List κ)
    (hk : keys.Nodup) :
    (keys.flatMap fun k => log.filter fun b => f b = k).Perm
      (log.filter fun b => f b ∈ keys) := by
  induction log with
  | nil => simp
  | cons b t ih =>
    by_cases hb : f b ∈ keys
    · rw [List.filter_cons_of_pos (by simpa using hb)]
      obtain ⟨k1, k2, rfl⟩ := List.append_of_mem hb
      have hn1 : f b ∉ k1 := by
        intro h
        have := List.nodup_append.1 hk
        exact this.2.2 _ h _ (by simp) rfl
      have hn2 : f b ∉ k2 := by
        have := (List.nodup_append.1 hk).2.1
        exact (List.nodup_cons.1 this).1
      have aux : ∀ l : List κ, f b ∉ l →
          (l.flatMap fun k => (b :: t).filter fun b => f b = k) =
            l.flatMap fun k => t.filter fun b => f b = k := by
        intro l hl
        induction l with
        | nil => rfl
        | cons x xs ih2 =>
          rw [List.flatMap_cons, List.flatMap_cons, ih2 (fun h => hl (by simp [h]))]
          congr 1
          rw [List.filter_cons_of_neg]
          simp only [decide_eq_true_eq]
          intro h; exact hl (by simp [h])
      rw [List.flatMap_append, List.flatMap_cons] at ih ⊢
      rw [aux k1 hn1, aux k2 hn2, List.filter_cons_of_pos (by simp)]
      rw [List.cons_append]
      refine List.perm_middle.trans ?_
      exact List.Perm.cons _ ih
    · rw [List.filter_cons_of_neg (by simpa using hb)]
      have : (keys.flatMap fun k => (b :: t).filter fun b => f b = k) =
          keys.flatMap fun k => t.filter fun b => f b = k := by
        apply List.flatMap_congr
        intro k hk'
        rw [List.filter_cons_of_neg]
        simp only [decide_eq_true_eq]
        rintro rfl; exact hb hk'
      rw [this]
      exact ih

/-! ### Histories -/

variable [Field α] [LinearOrder α] [FloorRing α]

/-- The index holds exactly the logged insertions. -/
def Holds (s : BlockList α V) (c : α) (log : List (List α × V)) : Prop :=
  s.cellSize = c ∧ ∀ k, s.blocks.content k =
    (log.filter fun e => blockTransform e.1 c = k).map Prod.snd

lemma holds_set {s : BlockList α V} {c : α} {log : List (List α × V)} (h : Holds s c log)
    (key : List α) (value : V) : Holds (s.setItem key value) c (log ++ [(key, value)]) := by
  obtain ⟨h1, h2⟩ := h
  refine ⟨h1, fun k => ?_⟩
  unfold BlockList.setItem
  simp only
  rw [Blocks.content_append, h1, List.filter_append, List.map_append, ← h2 k]
  by_cases hk : k = blockTransform key c
  · simp [hk]
  · have : ¬ (blockTransform key c = k) := fun h => hk h.symm
    simp [hk, this]

lemma holds_get {s : BlockList α V} {c : α} {log : List (List α × V)} (h : Holds s c log)
    (item : List α) : Holds (s.getItem item).2 c log := by
  refine ⟨h.1, fun k => ?_⟩
  unfold BlockList.getItem
  simp only
  rw [Blocks.content_access, h.2]

lemma holds_nearest {s : BlockList α V} {c : α} {log : List (List α × V)} (h : Holds s c log)
    (item : List α) (r : ℤ) : Holds (s.nearest item r).2 c log := by
  refine ⟨h.1, fun k => ?_⟩
  unfold BlockList.nearest
  simp only
  rw [(Blocks.concat_spec _ _).2, h.2]

lemma holds_run {s : BlockList α V} {c : α} {log : List (List α × V)} (h : Holds s c log)
    (ops : List (BlockOp α V)) : Holds (s.run ops) c (log ++ insertions ops) := by
  induction ops generalizing s log with
  | nil => simpa [insertions, BlockList.run] using h
  | cons op ops ih =>
    cases op with
    | set key value =>
      have := ih (holds_set h key value)
      simpa [insertions, BlockList.run, BlockList.step] using this
    | get item => simpa [insertions, BlockList.run, BlockList.step] using ih (holds_get h item)
    | nearest item r =>
      simpa [insertions, BlockList.run, BlockList.step] using ih (holds_nearest h item r)

lemma holds_init {c : α} {s : BlockList α V} (h : BlockList.init c = some s) : Holds s c [] := by
  unfold BlockList.init at h
  split at h
  · cases h; exact ⟨rfl, fun k => by simp [Blocks.content]⟩
  · cases h

omit [FloorRing α] in
lemma init_pos {c : α} {s : BlockList α V} (h : BlockList.init c = some s) : 0 < c := by
  unfold BlockList.init at h
  split at h
  · assumption
  · cases h

lemma sameCell_iff (c : α) (p q : List α) :
    blockTransform p c = blockTransform q c ↔ Spec.SameCell c p q := by
  unfold blockTransform Spec.SameCell
  rw [← List.forall₂_eq_eq_eq, List.forall₂_map_left_iff, List.forall₂_map_right_iff]

lemma within_iff (c : α) (r : ℤ) (p q : List α) :
    blockTransform p c ∈ nearestBlocks (blockTransform q c) r ↔ Spec.CellsWithin c r p q := by
  rw [mem_nearestBlocks]
  unfold blockTransform Spec.CellsWithin
  rw [List.forall₂_map_left_iff, List.forall₂_map_right_iff]

open Classical in
lemma nearest_perm {s : BlockList α V} {c : α} {log : List (List α × V)} (h : Holds s c log)
    (p : List α) (r : ℤ) :
    (s.nearest p r).1.Perm ((log.filter fun e => Spec.CellsWithin c r e.1 p).map Prod.snd) := by
  unfold BlockList.nearest
  simp only
  rw [(Blocks.concat_spec _ _).1, h.1]
  have : (nearestBlocks (blockTransform p c) r).flatMap s.blocks.content =
      ((nearestBlocks (blockTransform p c) r).flatMap fun k =>
        log.filter fun e => blockTransform e.1 c = k).map Prod.snd := by
    rw [List.map_flatMap]
    apply List.flatMap_congr
    intro k _
    exact h.2 k
  rw [this]
  refine (List.Perm.map _ (flatMap_filter_perm (fun e : List α × V => blockTransform e.1 c) log _
    (nodup_nearestBlocks _ _))).trans ?_
  rw [List.filter_congr (q := fun e => decide (Spec.CellsWithin c r e.1 p))]
  intro e _
  rw [decide_eq_decide]
  exact within_iff c r e.1 p

open Classical in
lemma getItem_eq {s : BlockList α V} {c : α} {log : List (List α × V)} (h : Holds s c log)
    (p : List α) :
    (s.getItem p).1 = (log.filter fun e => Spec.SameCell c e.1 p).map Prod.snd := by
  unfold BlockList.getItem
  simp only
  rw [Blocks.access_fst, h.2, h.1]
  congr 1
  apply List.filter_congr
  intro e _
  rw [decide_eq_decide]
  exact sameCell_iff c e.1 p

/-! ### Distances -/

variable [IsStrictOrderedRing α]

lemma floor_close {c a b : α} (hc : 0 < c) (r : ℤ) (h : |a - b| ≤ r * c) :
    |⌊a / c⌋ - ⌊b / c⌋| ≤ r := by
  rw [abs_le] at h ⊢
  obtain ⟨h1, h2⟩ := h
  have e1 : a / c ≤ b / c + r := by
    rw [div_add' _ _ _ hc.ne', div_le_div_iff_of_pos_right hc]; linarith
  have e2 : b / c ≤ a / c + r := by
    rw [div_add' _ _ _ hc.ne', div_le_div_iff_of_pos_right hc]; linarith
  have f1 := Int.floor_le_floor e1
  have f2 := Int.floor_le_floor e2
  rw [Int.floor_add_intCast] at f1 f2
  constructor <;> linarith

lemma close_of_floor {c a b : α} (hc : 0 < c) (r : ℤ) (h : |⌊a / c⌋ - ⌊b / c⌋| ≤ r) :
    |a - b| < (r + 1) * c := by
  rw [abs_le] at h
  have g1 := Int.floor_le (a / c)
  have g2 := Int.lt_floor_add_one (a / c)
  have g3 := Int.floor_le (b / c)
  have g4 := Int.lt_floor_add_one (b / c)
  have h1 : ((⌊a / c⌋ : ℤ) : α) - ⌊b / c⌋ ≤ r := by exact_mod_cast h.2
  have h2 : -(r : α) ≤ ((⌊a / c⌋ : ℤ) : α) - ⌊b / c⌋ := by exact_mod_cast h.1
  have k1 : a / c - b / c < r + 1 := by linarith
  have k2 : -(r + 1 : α) < a / c - b / c := by linarith
  rw [← sub_div, div_lt_iff₀ hc] at k1
  rw [← sub_div, lt_div_iff₀ hc] at k2
  rw [abs_lt]
  constructor <;> linarith

end CrowdDynamics
