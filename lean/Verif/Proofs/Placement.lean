import Verif.Model.Placement
import Verif.Spec.Placement
import Verif.Proofs.BlockList
import Verif.Proofs.Distance
import Verif.Proofs.Vector2D

/-! # Helper lemmas about `Agents.add_non_overlapping_group` -/

namespace CrowdDynamics

open Classical Spec

/-- Row `i` of an array. -/
noncomputable def rowAt (array : List Agent) (i : ℕ) : Agent := array.getD i Agent.zero

lemma rowAt_set_self {array : List Agent} {i : ℕ} (h : i < array.length) (a : Agent) :
    rowAt (array.set i a) i = a := by
  unfold rowAt
  rw [List.getD_eq_getElem?_getD, List.getElem?_set_self h]; rfl

lemma rowAt_set_ne {array : List Agent} {i j : ℕ} (h : i ≠ j) (a : Agent) :
    rowAt (array.set i a) j = rowAt array j := by
  unfold rowAt
  rw [List.getD_eq_getElem?_getD, List.getD_eq_getElem?_getD, List.getElem?_set_ne h]

lemma rowAt_append_zero (array : List Agent) (n j : ℕ) :
    rowAt (array ++ List.replicate n Agent.zero) j = rowAt array j := by
  unfold rowAt
  rw [List.getD_eq_getElem?_getD, List.getD_eq_getElem?_getD]
  by_cases h : j < array.length
  · rw [List.getElem?_append_left h]
  · push Not at h
    rw [List.getElem?_append_right h, List.getElem?_eq_none h, List.getElem?_replicate]
    split <;> rfl

lemma rowAt_of_le {array : List Agent} {j : ℕ} (h : array.length ≤ j) :
    rowAt array j = Agent.zero := by
  unfold rowAt
  rw [List.getD_eq_getElem?_getD, List.getElem?_eq_none h]; rfl

/-- The insertions into the spatial index that belong to the stored rows. -/
noncomputable def placedLog (st : AgentsState) : List (List ℝ × ℕ) :=
  (List.range st.index).map fun i =>
    ([(rowAt st.array i).position.1, (rowAt st.array i).position.2], i)

/-- The bookkeeping of an `Agents` object is consistent. -/
structure Stored (c : ℝ) (st : AgentsState) : Prop where
  le : st.index ≤ st.array.length
  holds : Holds st.neighbours c (placedLog st)
  zero : ∀ k, st.index ≤ k → rowAt st.array k = Agent.zero

lemma mem_nearest_iff {c : ℝ} {st : AgentsState} (h : Stored c st) (p : Vec) (i : ℕ) :
    i ∈ (st.neighbours.nearest [p.1, p.2] 1).1 ↔
      i < st.index ∧ CellsWithin c 1
        [(rowAt st.array i).position.1, (rowAt st.array i).position.2] [p.1, p.2] := by
  rw [(nearest_perm h.holds [p.1, p.2] 1).mem_iff, List.mem_map]
  unfold placedLog
  constructor
  · rintro ⟨⟨q, j⟩, hm, rfl⟩
    rw [List.mem_filter, List.mem_map] at hm
    obtain ⟨⟨k, hk, hkq⟩, hc⟩ := hm
    cases hkq
    exact ⟨List.mem_range.1 hk, by simpa using hc⟩
  · rintro ⟨hi, hc⟩
    refine ⟨(_, i), List.mem_filter.2 ⟨List.mem_map.2 ⟨i, List.mem_range.2 hi, rfl⟩, ?_⟩, rfl⟩
    simpa using hc

lemma mem_nearest_of_close {c : ℝ} (hc : 0 < c) {st : AgentsState} (h : Stored c st) (p : Vec)
    (i : ℕ) (hi : i < st.index) (hd : Spec.dist (rowAt st.array i).position p ≤ c) :
    i ∈ (st.neighbours.nearest [p.1, p.2] 1).1 := by
  rw [mem_nearest_iff h]
  refine ⟨hi, ?_⟩
  have h1 := abs_fst_le_length ((rowAt st.array i).position - p)
  have h2 := abs_snd_le_length ((rowAt st.array i).position - p)
  have hd' : length ((rowAt st.array i).position - p) ≤ c := hd
  refine List.Forall₂.cons (floor_close hc 1 ?_) (List.Forall₂.cons (floor_close hc 1 ?_) .nil)
  · simpa using h1.trans hd'
  · simpa using h2.trans hd'

/-- Rule for the placement loop. -/
theorem placeLoop_rule {size : ℕ} {obstacles : Option (List Wall)}
    (P : List Vec → ℕ → ℕ → AgentsState → List Member → Prop)
    (hrej : ∀ p gen i o st ms m, P (p :: gen) i o st ms → i < size → o < 10 * size →
      ms[i]? = some m →
      ((m.setPosition p).touch st.kind).overlapping st.kind
          (rowsAt st.array (st.neighbours.nearest [p.1, p.2] 1).1) = true ∨
        (∃ obs, obstacles = some obs ∧
          ((m.setPosition p).touch st.kind).overlappingObstacles st.kind obs = true) →
      P gen i (o + 1) { st with neighbours := (st.neighbours.nearest [p.1, p.2] 1).2 }
        (ms.set i ((m.setPosition p).touch st.kind)))
    (hacc : ∀ p gen i o st ms m, P (p :: gen) i o st ms → i < size → o < 10 * size →
      ms[i]? = some m →
      ((m.setPosition p).touch st.kind).overlapping st.kind
          (rowsAt st.array (st.neighbours.nearest [p.1, p.2] 1).1) = false →
      (∀ obs, obstacles = some obs →
          ((m.setPosition p).touch st.kind).overlappingObstacles st.kind obs = false) →
      P gen (i + 1) o ⟨st.kind, st.array.set st.index ((m.setPosition p).touch st.kind).row,
          st.index + 1,
          (st.neighbours.nearest [p.1, p.2] 1).2.setItem [p.1, p.2] st.index⟩
        (ms.set i ((m.setPosition p).touch st.kind)))
    (gen : List Vec) (i o : ℕ) (st : AgentsState) (ms : List Member) (h0 : P gen i o st ms) :
    ∃ i', P (placeLoop size obstacles gen i o st ms).rest i'
        (placeLoop size obstacles gen i o st ms).overlaps
        (placeLoop size obstacles gen i o st ms).state
        (placeLoop size obstacles gen i o st ms).members ∧
      ((placeLoop size obstacles gen i o st ms).outcome = .ok ∧
          ¬(i' < size ∧ (placeLoop size obstacles gen i o st ms).overlaps < 10 * size) ∨
        (placeLoop size obstacles gen i o st ms).outcome = .generatorError ∧
          (placeLoop size obstacles gen i o st ms).rest = [] ∧
          i' < size ∧ (placeLoop size obstacles gen i o st ms).overlaps < 10 * size ∨
        (placeLoop size obstacles gen i o st ms).outcome = .indexError ∧
          (placeLoop size obstacles gen i o st ms).members.length ≤ i' ∧ i' < size) := by
  induction gen generalizing i o st ms with
  | nil =>
    unfold placeLoop
    by_cases hc : i < size ∧ o < 10 * size
    · rw [if_pos hc]
      cases hm : ms[i]? with
      | none => exact ⟨i, h0, Or.inr (Or.inr ⟨rfl, List.getElem?_eq_none_iff.1 hm, hc.1⟩)⟩
      | some m => exact ⟨i, h0, Or.inr (Or.inl ⟨rfl, rfl, hc.1, hc.2⟩)⟩
    · rw [if_neg hc]
      exact ⟨i, h0, Or.inl ⟨rfl, hc⟩⟩
  | cons p gen ih =>
    unfold placeLoop
    by_cases hc : i < size ∧ o < 10 * size
    · rw [if_pos hc]
      cases hm : ms[i]? with
      | none => exact ⟨i, h0, Or.inr (Or.inr ⟨rfl, List.getElem?_eq_none_iff.1 hm, hc.1⟩)⟩
      | some m =>
        simp only
        by_cases ho : ((m.setPosition p).touch st.kind).overlapping st.kind
            (rowsAt st.array (st.neighbours.nearest [p.1, p.2] 1).1) = true
        · rw [if_pos ho]
          exact ih _ _ _ _ (hrej p gen i o st ms m h0 hc.1 hc.2 hm (Or.inl ho))
        · rw [if_neg ho]
          cases obstacles with
          | none =>
            simp only [Bool.false_eq_true, if_false]
            exact ih _ _ _ _ (hacc p gen i o st ms m h0 hc.1 hc.2 hm (by simpa using ho)
              (by simp))
          | some obs =>
            simp only
            by_cases hb : ((m.setPosition p).touch st.kind).overlappingObstacles st.kind obs = true
            · rw [if_pos hb]
              exact ih _ _ _ _ (hrej p gen i o st ms m h0 hc.1 hc.2 hm (Or.inr ⟨obs, rfl, hb⟩))
            · rw [if_neg hb]
              exact ih _ _ _ _ (hacc p gen i o st ms m h0 hc.1 hc.2 hm (by simpa using ho)
                (by intro obs' h; cases h; simpa using hb))
    · rw [if_neg hc]
      exact ⟨i, h0, Or.inl ⟨rfl, hc⟩⟩

lemma stored_reject {c : ℝ} {st : AgentsState} (h : Stored c st) (p : Vec) :
    Stored c { st with neighbours := (st.neighbours.nearest [p.1, p.2] 1).2 } :=
  ⟨h.le, holds_nearest h.holds _ _, h.zero⟩

lemma stored_accept {c : ℝ} {st : AgentsState} (h : Stored c st) (p : Vec) (a : Agent)
    (ha : a.position = p) (hlt : st.index < st.array.length) :
    Stored c ⟨st.kind, st.array.set st.index a, st.index + 1,
      (st.neighbours.nearest [p.1, p.2] 1).2.setItem [p.1, p.2] st.index⟩ := by
  refine ⟨by simpa using hlt, ?_, ?_⟩
  · have := holds_set (holds_nearest h.holds [p.1, p.2] 1) [p.1, p.2] st.index
    have e : placedLog ⟨st.kind, st.array.set st.index a, st.index + 1,
      (st.neighbours.nearest [p.1, p.2] 1).2.setItem [p.1, p.2] st.index⟩ =
        placedLog st ++ [([p.1, p.2], st.index)] := by
      unfold placedLog
      simp only
      rw [List.range_succ, List.map_append]
      congr 1
      · apply List.map_congr_left
        intro i hi
        rw [rowAt_set_ne (List.mem_range.1 hi).ne']
      · simp [rowAt_set_self hlt, ha]
    rw [e]; exact this
  · intro k hk
    simp only at hk
    rw [rowAt_set_ne (by omega)]
    exact h.zero k (by omega)

lemma touch_agent (k : Kind) (m : Member) : (m.touch k).agent = m.agent := by
  cases k <;> rfl

@[simp] lemma row_position (k : Kind) (m : Member) (p : Vec) :
    ((m.setPosition p).touch k).row.position = p := by
  unfold Member.row
  simp only [touch_agent]
  rfl

/-- The data that placement does not change. -/
lemma row_radius (k : Kind) (m : Member) (p : Vec) :
    ((m.setPosition p).touch k).row.radius = m.agent.radius := by
  unfold Member.row
  simp only [touch_agent]
  rfl

lemma overlappingCircles_eq_false (x : Vec) (r : ℝ) (l : List Agent) :
    overlappingCircles x r l = false ↔
      ∀ b ∈ l, b.radius + r ≤ Spec.dist b.position x := by
  induction l with
  | nil => simp [overlappingCircles]
  | cons a t ih =>
    unfold overlappingCircles
    simp only [List.forall_mem_cons, ← ih]
    have e := distanceCircles_fst a.position a.radius x r
    by_cases h : (distanceCircles a.position a.radius x r).1 < 0
    · rw [if_pos h]
      simp only [Bool.true_eq_false, false_iff, not_and]
      intro h2; linarith
    · rw [if_neg h]
      constructor
      · intro h2; exact ⟨by linarith, h2⟩
      · exact fun h2 => h2.2

lemma three_forall {P : Fin 3 → Prop} : (∀ i, P i) ↔ P 0 ∧ P 1 ∧ P 2 := by
  constructor
  · intro h; exact ⟨h 0, h 1, h 2⟩
  · rintro ⟨h0, h1, h2⟩ i
    fin_cases i
    · exact h0
    · exact h1
    · exact h2

lemma disjointBodies_three (a b : Agent) :
    DisjointBodies .threeCircle a b ↔
      ∀ i j, a.radii i + b.radii j ≤ Spec.dist (a.circles i) (b.circles j) := by
  simp only [three_forall]
  simp [DisjointBodies, discs, Agent.radii, Agent.circles]

lemma overlappingThreeCircles_eq_false (m : Agent) (l : List Agent) :
    overlappingThreeCircles m.circles m.radii l = false ↔
      ∀ b ∈ l, DisjointBodies .threeCircle b m := by
  induction l with
  | nil => simp [overlappingThreeCircles]
  | cons a t ih =>
    unfold overlappingThreeCircles
    simp only [List.forall_mem_cons, ← ih]
    obtain ⟨i, j, n, h1, h2, -⟩ := distanceThreeCircles_spec a.circles a.radii m.circles m.radii
    split
    · rename_i h
      simp only [Bool.true_eq_false, false_iff, not_and]
      intro h3
      rw [disjointBodies_three] at h3
      have := h3 i j
      linarith
    · rename_i h
      constructor
      · intro h3
        refine ⟨?_, h3⟩
        rw [disjointBodies_three]
        intro i' j'
        have := h2 i' j'
        linarith
      · exact fun h3 => h3.2

lemma overlapping_eq_false (k : Kind) (m : Member) (l : List Agent) :
    m.overlapping k l = false ↔ ∀ b ∈ l, DisjointBodies k b m.row := by
  cases k with
  | circular =>
    unfold Member.overlapping
    simp only
    rw [overlappingCircles_eq_false]
    simp [DisjointBodies, discs, Member.row]
  | threeCircle =>
    unfold Member.overlapping
    simp only
    rw [overlappingThreeCircles_eq_false]

lemma dist_comm' (p q : Vec) : Spec.dist p q = Spec.dist q p := length_sub_comm p q

lemma dist_triangle' (p q r : Vec) : Spec.dist p r ≤ Spec.dist p q + Spec.dist q r := by
  have := length_add_le (p - q) (q - r)
  rw [sub_add_sub_cancel] at this
  exact this

/-- Bodies far apart are disjoint. -/
lemma disjoint_of_far {k : Kind} {a b : Agent} {ea eb : ℝ} (ha : BodyWithin k a ea)
    (hb : BodyWithin k b eb) (h : ea + eb ≤ Spec.dist a.position b.position) :
    DisjointBodies k a b := by
  intro d hd e he
  have h1 := ha d hd
  have h2 := hb e he
  have h3 := dist_triangle' a.position d.1 b.position
  have h4 := dist_triangle' d.1 e.1 b.position
  rw [dist_comm' e.1 b.position] at h4
  linarith

lemma disjoint_symm {k : Kind} {a b : Agent} (h : DisjointBodies k a b) :
    DisjointBodies k b a := by
  intro d hd e he
  rw [add_comm, dist_comm']
  exact h e he d hd

/-- Two stored bodies that together fit into a cell are disjoint. -/
def PairOK (k : Kind) (c : ℝ) (a b : Agent) : Prop :=
  ∀ ea eb, BodyWithin k a ea → BodyWithin k b eb → ea + eb ≤ c → DisjointBodies k a b

lemma pairOK_of_accept {c : ℝ} (hc : 0 < c) {st : AgentsState} (h : Stored c st) (m : Member)
    (hov : m.overlapping st.kind
      (rowsAt st.array (st.neighbours.nearest [m.row.position.1, m.row.position.2] 1).1) = false)
    (i : ℕ) (hi : i < st.index) : PairOK st.kind c (rowAt st.array i) m.row := by
  intro ea eb ha hb hab
  by_cases hd : Spec.dist (rowAt st.array i).position m.row.position ≤ c
  · have hm := mem_nearest_of_close hc h m.row.position i hi hd
    rw [overlapping_eq_false] at hov
    exact hov _ (List.mem_map.2 ⟨i, hm, rfl⟩)
  · exact disjoint_of_far ha hb (by linarith)

/-- Full invariant of an `Agents` object. -/
structure Safe (c : ℝ) (st : AgentsState) : Prop where
  stored : Stored c st
  pair : ∀ i j, i < j → j < st.index → PairOK st.kind c (rowAt st.array i) (rowAt st.array j)

lemma safe_init {k : Kind} {c : ℝ} {st : AgentsState} (h : AgentsState.init k c = some st) :
    Safe c st ∧ 0 < c ∧ st.kind = k ∧ st.index = 0 ∧ st.array = [] := by
  unfold AgentsState.init at h
  rw [Option.map_eq_some_iff] at h
  obtain ⟨bl, hbl, rfl⟩ := h
  refine ⟨⟨⟨le_rfl, ?_, fun k _ => rowAt_of_le (by simp)⟩, ?_⟩, init_pos hbl, rfl, rfl, rfl⟩
  · simpa [placedLog] using holds_init hbl
  · intro i j _ hj; simp at hj

/-- Everything the loop guarantees about the state relative to its start. -/
structure LoopInv (c : ℝ) (size : ℕ) (obstacles : Option (List Wall)) (gen0 : List Vec)
    (st0 : AgentsState) (ms0 : List Member)
    (gen : List Vec) (i o : ℕ) (st : AgentsState) (ms : List Member) : Prop where
  safe : Safe c st
  kind : st.kind = st0.kind
  len : st.array.length = st0.array.length
  idx : st.index = st0.index + i
  ile : i ≤ size
  ole : o ≤ 10 * size
  used : ∃ used : List Vec, gen0 = used ++ gen ∧ used.length = i + o
  old : ∀ k, k < st0.index → rowAt st.array k = rowAt st0.array k
  mlen : ms.length = ms0.length
  row : ∀ k, k < i → ∃ m ∈ ms, rowAt st.array (st0.index + k) = m.row ∧ ms[k]? = some m
  clear : ∀ k, k < i → ∀ obs, obstacles = some obs → ∀ m, ms[k]? = some m →
    m.overlappingObstacles st.kind obs = false
  data : ∀ (k : ℕ) (m : Member), ms[k]? = some m → ∃ m0 : Member, ms0[k]? = some m0 ∧
    m.agent = { m0.agent with position := m.agent.position }

lemma data_set {ms ms0 : List Member} {i : ℕ} {m : Member} {kind : Kind} (hm : ms[i]? = some m)
    (h : ∀ (k : ℕ) (m : Member), ms[k]? = some m → ∃ m0 : Member, ms0[k]? = some m0 ∧
      m.agent = { m0.agent with position := m.agent.position }) (p : Vec) :
    ∀ (k : ℕ) (m' : Member), (ms.set i ((m.setPosition p).touch kind))[k]? = some m' →
      ∃ m0 : Member, ms0[k]? = some m0 ∧ m'.agent = { m0.agent with position := m'.agent.position } := by
  intro k m' hk
  by_cases hik : i = k
  · subst hik
    obtain ⟨m0, h0, h1⟩ := h i m hm
    refine ⟨m0, h0, ?_⟩
    have hlt : i < ms.length := by
      by_contra hcon
      rw [List.getElem?_eq_none (by omega)] at hm
      cases hm
    rw [List.getElem?_set_self hlt] at hk
    cases hk
    rw [touch_agent]
    unfold Member.setPosition
    simp only
    rw [h1]
  · rw [List.getElem?_set_ne hik] at hk
    exact h k m' hk

theorem placeLoop_inv {c : ℝ} (hc : 0 < c) {size : ℕ} {obstacles : Option (List Wall)}
    (gen0 : List Vec) (st0 : AgentsState) (ms0 : List Member) (hs : Safe c st0)
    (hlen : st0.index + size ≤ st0.array.length) :
    ∃ i', LoopInv c size obstacles gen0 st0 ms0
        (placeLoop size obstacles gen0 0 0 st0 ms0).rest i'
        (placeLoop size obstacles gen0 0 0 st0 ms0).overlaps
        (placeLoop size obstacles gen0 0 0 st0 ms0).state
        (placeLoop size obstacles gen0 0 0 st0 ms0).members ∧
      ((placeLoop size obstacles gen0 0 0 st0 ms0).outcome = .ok ∧
          ¬(i' < size ∧ (placeLoop size obstacles gen0 0 0 st0 ms0).overlaps < 10 * size) ∨
        (placeLoop size obstacles gen0 0 0 st0 ms0).outcome = .generatorError ∧
          (placeLoop size obstacles gen0 0 0 st0 ms0).rest = [] ∧
          i' < size ∧ (placeLoop size obstacles gen0 0 0 st0 ms0).overlaps < 10 * size ∨
        (placeLoop size obstacles gen0 0 0 st0 ms0).outcome = .indexError ∧
          (placeLoop size obstacles gen0 0 0 st0 ms0).members.length ≤ i' ∧ i' < size) := by
  apply placeLoop_rule (LoopInv c size obstacles gen0 st0 ms0)
  · intro p gen i o st ms m h hi ho hm _
    obtain ⟨used, hu1, hu2⟩ := h.used
    refine ⟨⟨stored_reject h.safe.stored p, h.safe.pair⟩, h.kind, h.len, h.idx, h.ile, ho,
      ⟨used ++ [p], by rw [hu1]; simp, by simp [hu2]; ring⟩, h.old, by simp [h.mlen], ?_, ?_,
      data_set hm h.data p⟩
    · intro k hk
      obtain ⟨m', hm', hr, hg⟩ := h.row k hk
      have hne : i ≠ k := by omega
      have hg' : (ms.set i ((m.setPosition p).touch st.kind))[k]? = some m' := by
        rw [List.getElem?_set_ne hne]; exact hg
      exact ⟨m', List.mem_of_getElem? hg', hr, hg'⟩
    · intro k hk obs hobs m' hm'
      have hne : i ≠ k := by omega
      rw [List.getElem?_set_ne hne] at hm'
      exact h.clear k hk obs hobs m' hm'
  · intro p gen i o st ms m h hi ho hm hov hobs
    obtain ⟨used, hu1, hu2⟩ := h.used
    have hlt : st.index < st.array.length := by rw [h.idx, h.len]; omega
    have himem : i < ms.length := by
      by_contra hcon
      rw [List.getElem?_eq_none (by omega)] at hm
      cases hm
    have hset : (ms.set i ((m.setPosition p).touch st.kind))[i]? =
        some ((m.setPosition p).touch st.kind) := List.getElem?_set_self himem
    refine ⟨⟨stored_accept h.safe.stored p _ (row_position _ _ _) hlt, ?_⟩, h.kind,
      by simp [h.len], by simp only [h.idx]; ring, hi, ho.le,
      ⟨used ++ [p], by rw [hu1]; simp, by simp [hu2]; ring⟩, ?_, by simp [h.mlen], ?_, ?_,
      data_set hm h.data p⟩
    · intro a b hab hb
      simp only at hb ⊢
      rcases Nat.lt_succ_iff_lt_or_eq.1 hb with hb' | rfl
      · rw [rowAt_set_ne (by omega), rowAt_set_ne (by omega)]
        exact h.safe.pair a b hab hb'
      · rw [rowAt_set_ne (by omega), rowAt_set_self hlt]
        refine pairOK_of_accept hc h.safe.stored _ ?_ a hab
        rw [row_position]
        exact hov
    · intro k hk
      simp only
      rw [rowAt_set_ne (by rw [h.idx]; omega)]
      exact h.old k hk
    · intro k hk
      rcases Nat.lt_succ_iff_lt_or_eq.1 hk with hk' | rfl
      · obtain ⟨m', hm', hr, hg⟩ := h.row k hk'
        have hne : i ≠ k := by omega
        have hg' : (ms.set i ((m.setPosition p).touch st.kind))[k]? = some m' := by
          rw [List.getElem?_set_ne hne]; exact hg
        refine ⟨m', List.mem_of_getElem? hg', ?_, hg'⟩
        simp only
        rw [rowAt_set_ne (by rw [h.idx]; omega)]
        exact hr
      · refine ⟨_, List.mem_of_getElem? hset, ?_, hset⟩
        simp only
        rw [← h.idx, rowAt_set_self hlt]
    · intro k hk obs hob m' hm'
      rcases Nat.lt_succ_iff_lt_or_eq.1 hk with hk' | rfl
      · have hne : i ≠ k := by omega
        rw [List.getElem?_set_ne hne] at hm'
        exact h.clear k hk' obs hob m' hm'
      · rw [hset] at hm'
        cases hm'
        exact hobs obs hob
  · refine ⟨hs, rfl, rfl, rfl, Nat.zero_le _, Nat.zero_le _, ⟨[], rfl, rfl⟩, fun _ _ => rfl, rfl,
      ?_, ?_, fun k m hm => ⟨m, hm, rfl⟩⟩
    · intro k hk; omega
    · intro k hk; omega

lemma safe_grow {c : ℝ} {st : AgentsState} (h : Safe c st) (n : ℕ) :
    Safe c { st with array := st.array ++ List.replicate n Agent.zero } := by
  have e : ∀ k, rowAt (st.array ++ List.replicate n Agent.zero) k = rowAt st.array k :=
    rowAt_append_zero st.array n
  refine ⟨⟨?_, ?_, ?_⟩, ?_⟩
  · have := h.stored.le
    simp only [List.length_append]; omega
  · have : placedLog { st with array := st.array ++ List.replicate n Agent.zero } =
        placedLog st := by
      unfold placedLog; simp only [e]
    rw [this]; exact h.stored.holds
  · intro k hk; rw [e]; exact h.stored.zero k hk
  · intro i j hij hj
    simp only [e]
    exact h.pair i j hij hj

/-- Everything a call guarantees. -/
theorem addGroup_inv {c : ℝ} (hc : 0 < c) {st : AgentsState} (hs : Safe c st) (g : Group)
    (gen : List Vec) (obstacles : Option (List Wall)) (hk : st.kind = g.kind) :
    ∃ i', LoopInv c g.size obstacles gen
        { st with array := st.array ++ List.replicate g.size Agent.zero } g.members
        (addNonOverlappingGroup st g gen obstacles).rest i'
        (addNonOverlappingGroup st g gen obstacles).overlaps
        (addNonOverlappingGroup st g gen obstacles).state
        (addNonOverlappingGroup st g gen obstacles).members ∧
      ((addNonOverlappingGroup st g gen obstacles).outcome = .ok ∧
          ¬(i' < g.size ∧ (addNonOverlappingGroup st g gen obstacles).overlaps < 10 * g.size) ∨
        (addNonOverlappingGroup st g gen obstacles).outcome = .generatorError ∧
          (addNonOverlappingGroup st g gen obstacles).rest = [] ∧
          i' < g.size ∧ (addNonOverlappingGroup st g gen obstacles).overlaps < 10 * g.size ∨
        (addNonOverlappingGroup st g gen obstacles).outcome = .indexError ∧
          (addNonOverlappingGroup st g gen obstacles).members.length ≤ i' ∧ i' < g.size) := by
  unfold addNonOverlappingGroup
  rw [if_neg (not_not.2 hk)]
  simp only
  apply placeLoop_inv hc _ _ _ (safe_grow hs g.size)
  have := hs.stored.le
  simp only [List.length_append, List.length_replicate]
  omega

lemma addGroup_eq {st : AgentsState} {g : Group} (gen : List Vec)
    (obstacles : Option (List Wall)) (hk : st.kind = g.kind) :
    addNonOverlappingGroup st g gen obstacles = placeLoop g.size obstacles gen 0 0
      ⟨st.kind, st.array ++ List.replicate g.size Agent.zero, st.index, st.neighbours⟩
      g.members := by
  unfold addNonOverlappingGroup
  rw [if_neg (not_not.2 hk)]

lemma addGroup_mismatch {st : AgentsState} (g : Group) (gen : List Vec)
    (obstacles : Option (List Wall)) (hk : st.kind ≠ g.kind) :
    addNonOverlappingGroup st g gen obstacles = ⟨st, g.members, gen, 0, .typeMismatch⟩ := by
  unfold addNonOverlappingGroup
  rw [if_pos hk]

/-- A call keeps the invariant and everything that was placed before. -/
lemma addGroup_safe {c : ℝ} (hc : 0 < c) {st : AgentsState} (hs : Safe c st) (g : Group)
    (gen : List Vec) (obstacles : Option (List Wall)) :
    Safe c (addNonOverlappingGroup st g gen obstacles).state ∧
      (addNonOverlappingGroup st g gen obstacles).state.kind = st.kind ∧
      st.index ≤ (addNonOverlappingGroup st g gen obstacles).state.index ∧
      ∀ k, k < st.index →
        rowAt (addNonOverlappingGroup st g gen obstacles).state.array k = rowAt st.array k := by
  by_cases hk : st.kind = g.kind
  · obtain ⟨i, h, -⟩ := addGroup_inv hc hs g gen obstacles hk
    refine ⟨h.safe, h.kind, by rw [h.idx]; simp, fun k hlt => ?_⟩
    rw [h.old k hlt]
    exact rowAt_append_zero _ _ _
  · rw [addGroup_mismatch g gen obstacles hk]
    exact ⟨hs, rfl, le_rfl, fun _ _ => rfl⟩

lemma addGroups_safe {c : ℝ} (hc : 0 < c) {st : AgentsState} (hs : Safe c st)
    (calls : List (Group × List Vec × Option (List Wall))) :
    Safe c (addGroups st calls) ∧ (addGroups st calls).kind = st.kind ∧
      st.index ≤ (addGroups st calls).index ∧
      ∀ k, k < st.index → rowAt (addGroups st calls).array k = rowAt st.array k := by
  induction calls generalizing st with
  | nil => exact ⟨hs, rfl, le_rfl, fun _ _ => rfl⟩
  | cons call calls ih =>
    obtain ⟨g, gen, obs⟩ := call
    obtain ⟨h1, h2, h3, h4⟩ := addGroup_safe hc hs g gen obs
    obtain ⟨i1, i2, i3, i4⟩ := ih h1
    refine ⟨i1, i2.trans h2, h3.trans i3, fun k hk => ?_⟩
    have := i4 k (lt_of_lt_of_le hk h3)
    rw [show addGroups st ((g, gen, obs) :: calls) =
      addGroups (addNonOverlappingGroup st g gen obs).state calls from rfl, this, h4 k hk]

lemma addGroups_append (st : AgentsState)
    (calls calls' : List (Group × List Vec × Option (List Wall))) :
    addGroups st (calls ++ calls') = addGroups (addGroups st calls) calls' := by
  induction calls generalizing st with
  | nil => rfl
  | cons call calls ih =>
    obtain ⟨g, gen, obs⟩ := call
    exact ih _

lemma overlappingCircleLine_false {a : Agent} {obs : List Wall}
    (h : overlappingCircleLine a obs = false) (w : Wall) (hw : w ∈ obs) (hne : w.p0 ≠ w.p1) :
    ClearOfSegment .circular a w.p0 w.p1 := by
  induction obs with
  | nil => simp at hw
  | cons o t ih =>
    unfold overlappingCircleLine at h
    rcases List.mem_cons.1 hw with rfl | hw'
    · obtain ⟨d, n, h1, -, h3⟩ := distanceCircleLine_spec a.position a.radius w.p0 w.p1 hne
      rw [h1] at h
      simp only at h
      split at h
      · cases h
      · rename_i hd
        intro e he q hq
        simp only [discs, List.mem_singleton] at he
        subst he
        have := h3 q hq
        simp only
        linarith
    · apply ih _ hw'
      split at h
      · split at h
        · cases h
        · exact h
      · exact h

/-- One round of the loop that places the agent. -/
lemma placeLoop_accept {size : ℕ} {obstacles : Option (List Wall)} {p : Vec} {gen : List Vec}
    {i o : ℕ} {st : AgentsState} {ms : List Member} {m : Member} (hi : i < size)
    (ho : o < 10 * size) (hm : ms[i]? = some m)
    (hov : ((m.setPosition p).touch st.kind).overlapping st.kind
          (rowsAt st.array (st.neighbours.nearest [p.1, p.2] 1).1) = false)
    (hobs : obstacles = none) :
    placeLoop size obstacles (p :: gen) i o st ms = placeLoop size obstacles gen (i + 1) o
      ⟨st.kind, st.array.set st.index ((m.setPosition p).touch st.kind).row,
          st.index + 1,
          (st.neighbours.nearest [p.1, p.2] 1).2.setItem [p.1, p.2] st.index⟩
        (ms.set i ((m.setPosition p).touch st.kind)) := by
  subst hobs
  rw [placeLoop, if_pos ⟨hi, ho⟩]
  simp only [hm, hov, Bool.false_eq_true, if_false]

/-- One round of the loop that rejects a position because of another agent. -/
lemma placeLoop_reject {size : ℕ} {obstacles : Option (List Wall)} {p : Vec} {gen : List Vec}
    {i o : ℕ} {st : AgentsState} {ms : List Member} {m : Member} (hi : i < size)
    (ho : o < 10 * size) (hm : ms[i]? = some m)
    (hov : ((m.setPosition p).touch st.kind).overlapping st.kind
          (rowsAt st.array (st.neighbours.nearest [p.1, p.2] 1).1) = true) :
    placeLoop size obstacles (p :: gen) i o st ms = placeLoop size obstacles gen i (o + 1)
      { st with neighbours := (st.neighbours.nearest [p.1, p.2] 1).2 }
        (ms.set i ((m.setPosition p).touch st.kind)) := by
  rw [placeLoop, if_pos ⟨hi, ho⟩]
  simp only [hm, hov, if_true]

lemma placeLoop_done {size : ℕ} {obstacles : Option (List Wall)} {gen : List Vec}
    {i o : ℕ} {st : AgentsState} {ms : List Member} (h : ¬(i < size ∧ o < 10 * size)) :
    placeLoop size obstacles gen i o st ms = ⟨st, ms, gen, o, .ok⟩ := by
  rw [placeLoop, if_neg h]

lemma no_overlap_far {c : ℝ} {st : AgentsState} (h : Stored c st) (m : Member) (p : Vec)
    (hfar : ∀ i < st.index, ¬ CellsWithin c 1
        [(rowAt st.array i).position.1, (rowAt st.array i).position.2] [p.1, p.2]) :
    m.overlapping st.kind (rowsAt st.array (st.neighbours.nearest [p.1, p.2] 1).1) = false := by
  rw [overlapping_eq_false]
  intro b hb
  unfold rowsAt at hb
  rw [List.mem_map] at hb
  obtain ⟨i, hi, rfl⟩ := hb
  rw [mem_nearest_iff h] at hi
  exact absurd hi.2 (hfar i hi.1)

/-- Shoulders of fresh members stay attached while nothing is rejected. -/
theorem placeLoop_attached {size : ℕ} {obstacles : Option (List Wall)} (gen0 : List Vec)
    (st0 : AgentsState) (ms0 : List Member) (hk : st0.kind = .threeCircle)
    (hfresh : ∀ m ∈ ms0, m.ls = none ∧ m.rs = none)
    (hlen : st0.index + size ≤ st0.array.length)
    (hno : (placeLoop size obstacles gen0 0 0 st0 ms0).overlaps = 0) (k : ℕ)
    (hk1 : st0.index ≤ k) (hk2 : k < (placeLoop size obstacles gen0 0 0 st0 ms0).state.index) :
    ShouldersAttached (rowAt (placeLoop size obstacles gen0 0 0 st0 ms0).state.array k) := by
  obtain ⟨i', h, -⟩ := placeLoop_rule (size := size) (obstacles := obstacles)
    (fun _ i o st ms => st.kind = .threeCircle ∧ st.index = st0.index + i ∧
      st.array.length = st0.array.length ∧ (o = 0 →
      (∀ k m, i ≤ k → ms[k]? = some m → m.ls = none ∧ m.rs = none) ∧
      ∀ k, st0.index ≤ k → k < st.index → ShouldersAttached (rowAt st.array k)))
    (by
      rintro p gen i o st ms m ⟨h1, h2, h3, h4⟩ hi ho hm _
      exact ⟨h1, h2, h3, fun h => by omega⟩)
    (by
      rintro p gen i o st ms m ⟨h1, h2, h3, h4⟩ hi ho hm _ _
      refine ⟨h1, by simp only [h2]; ring, by simp [h3], fun ho => ?_⟩
      obtain ⟨h5, h6⟩ := h4 ho
      constructor
      · intro k m' hk hm'
        rw [List.getElem?_set_ne (by omega)] at hm'
        exact h5 k m' (by omega) hm'
      · intro k hk hlt
        simp only at hlt ⊢
        rcases Nat.lt_succ_iff_lt_or_eq.1 hlt with hlt' | rfl
        · rw [rowAt_set_ne (by omega)]
          exact h6 k hk hlt'
        · rw [rowAt_set_self (by omega), h1]
          obtain ⟨e1, e2⟩ := h5 i m le_rfl hm
          unfold Member.touch Member.setPosition Member.row ShouldersAttached
          simp only [e1, e2, Option.getD_none, Option.getD_some, shoulderOffset, rotate270,
            unitVector]
          constructor <;> ext <;> simp [sub_eq_add_neg])
    gen0 0 0 st0 ms0 ⟨hk, rfl, rfl, fun _ => ⟨fun k m _ hm =>
      hfresh m (List.mem_of_getElem? hm), fun k h1 h2 => by omega⟩⟩
  exact (h.2.2.2 hno).2 k hk1 hk2

/-- The positions of the stored agents are, in order, among the positions that were used. -/
theorem placeLoop_positions {size : ℕ} {obstacles : Option (List Wall)} (gen0 : List Vec)
    (st0 : AgentsState) (ms0 : List Member) (hlen : st0.index + size ≤ st0.array.length) :
    ∃ used, gen0 = used ++ (placeLoop size obstacles gen0 0 0 st0 ms0).rest ∧
      ((List.range ((placeLoop size obstacles gen0 0 0 st0 ms0).state.index - st0.index)).map fun k =>
        (rowAt (placeLoop size obstacles gen0 0 0 st0 ms0).state.array
          (st0.index + k)).position).Sublist used := by
  obtain ⟨i', ⟨h1, -, used, h2, h3⟩, -⟩ := placeLoop_rule (size := size) (obstacles := obstacles)
    (fun gen i _ st _ => st.index = st0.index + i ∧ st.array.length = st0.array.length ∧
      ∃ used, gen0 = used ++ gen ∧ ((List.range i).map fun k =>
        (rowAt st.array (st0.index + k)).position).Sublist used)
    (by
      rintro p gen i o st ms m ⟨h1, h2, used, h3, h4⟩ hi ho hm _
      exact ⟨h1, h2, used ++ [p], by rw [h3]; simp, h4.trans (List.sublist_append_left _ _)⟩)
    (by
      rintro p gen i o st ms m ⟨h1, h2, used, h3, h4⟩ hi ho hm _ _
      refine ⟨by simp only [h1]; ring, by simp [h2], used ++ [p], by rw [h3]; simp, ?_⟩
      rw [List.range_succ, List.map_append]
      refine List.Sublist.append ?_ ?_
      · rw [List.map_congr_left fun k hk => ?_]
        · exact h4
        have := List.mem_range.1 hk
        simp only
        rw [rowAt_set_ne (by omega)]
      · simp only [List.map_cons, List.map_nil, ← h1]
        rw [rowAt_set_self (by omega)]
        simp only [Member.row, touch_agent, Member.setPosition, List.Sublist.refl])
    gen0 0 0 st0 ms0 ⟨rfl, rfl, [], rfl, List.Sublist.refl _⟩
  refine ⟨used, h2, ?_⟩
  rw [h1, Nat.add_sub_cancel_left]
  exact h3

/-- The positions of the stored agents are, in order, among the generated positions. -/
theorem addGroup_positions {c : ℝ} {st : AgentsState} (hs : Safe c st) (g : Group) (gen : List Vec)
    (obstacles : Option (List Wall)) (hk : st.kind = g.kind) :
    ∃ used, gen = used ++ (addNonOverlappingGroup st g gen obstacles).rest ∧
      ((List.range ((addNonOverlappingGroup st g gen obstacles).state.index - st.index)).map fun k =>
        (rowAt (addNonOverlappingGroup st g gen obstacles).state.array
          (st.index + k)).position).Sublist used := by
  rw [addGroup_eq gen obstacles hk]
  refine placeLoop_positions gen _ g.members ?_
  have := hs.stored.le
  simp only [List.length_append, List.length_replicate]
  omega

lemma distanceThreeCircleLine_bound (x : Fin 3 → Vec) (r : Fin 3 → ℝ) (p0 p1 : Vec)
    (hne : p0 ≠ p1) :
    ∃ h n arm, distanceThreeCircleLine x r p0 p1 = some (h, n, arm) ∧
      ∀ i, ∀ q ∈ segment ℝ p0 p1, h + r i ≤ Spec.dist (x i) q := by
  choose h n hmod _ hall using fun i => distanceCircleLine_spec (x i) (r i) p0 p1 hne
  have e := minStepOpt_eq (fun i => distanceCircleLine (x i) (r i) p0 p1) (fun i => (h i, n i)) hmod
  obtain ⟨h1, h2, -, h4⟩ := minStep_fold (fun i : Fin 3 => (h i, n i)) (List.finRange 3)
    (List.ne_nil_of_mem (List.mem_finRange 0)) (0, 0) 0
  unfold distanceThreeCircleLine
  simp only
  rw [e]
  generalize (List.finRange 3).foldl (minStep fun i : Fin 3 => (h i, n i)) ⟨none, (0, 0), 0⟩ = s at *
  rw [h1]
  refine ⟨_, _, _, rfl, ?_⟩
  intro i q hqs
  have := h4 i (List.mem_finRange i)
  simp only at this ⊢
  linarith [hall i q hqs]

lemma overlappingThreeCircleLine_false {a : Agent} {obs : List Wall}
    (h : overlappingThreeCircleLine a obs = false) (w : Wall) (hw : w ∈ obs)
    (hne : w.p0 ≠ w.p1) : ClearOfSegment .threeCircle a w.p0 w.p1 := by
  induction obs with
  | nil => simp at hw
  | cons o t ih =>
    unfold overlappingThreeCircleLine at h
    rcases List.mem_cons.1 hw with rfl | hw'
    · obtain ⟨d, n, arm, h1, h3⟩ := distanceThreeCircleLine_bound a.circles a.radii w.p0 w.p1 hne
      rw [h1] at h
      simp only at h
      split at h
      · cases h
      · rename_i hd
        intro e he q hq
        have h30 := h3 0 q hq
        have h31 := h3 1 q hq
        have h32 := h3 2 q hq
        simp only [Agent.circles, Agent.radii, Matrix.cons_val] at h30 h31 h32
        simp only [discs, List.mem_cons, List.not_mem_nil, or_false] at he
        rcases he with rfl | rfl | rfl <;> simp only <;> linarith
    · apply ih _ hw'
      split at h
      · split at h
        · cases h
        · exact h
      · exact h

lemma clear_of_overlappingObstacles {k : Kind} {m : Member} {obs : List Wall}
    (h : m.overlappingObstacles k obs = false) (w : Wall) (hw : w ∈ obs) (hne : w.p0 ≠ w.p1) :
    ClearOfSegment k m.row w.p0 w.p1 := by
  cases k with
  | circular => exact overlappingCircleLine_false h w hw hne
  | threeCircle => exact overlappingThreeCircleLine_false h w hw hne

end CrowdDynamics
