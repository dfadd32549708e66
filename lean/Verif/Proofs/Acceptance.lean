import Verif.Proofs.Placement

/-! # Helper lemmas: free positions are accepted -/

namespace CrowdDynamics

open Classical Spec

lemma distanceCircleLine_nonneg {x : Vec} {r : ℝ} {p0 p1 : Vec} {h : ℝ} {n : Vec}
    (e : distanceCircleLine x r p0 p1 = some (h, n))
    (hc : ∀ q ∈ segment ℝ p0 p1, r ≤ Spec.dist x q) : 0 ≤ h := by
  by_cases hne : p0 = p1
  · subst hne
    have h0 : length (p0 - p0) = 0 := by simp [length]
    unfold distanceCircleLine at e
    simp only [h0, if_true] at e
    cases e
  · obtain ⟨h', n', e', ⟨q, hq, hd, -⟩, -⟩ := distanceCircleLine_spec x r p0 p1 hne
    rw [e'] at e
    cases e
    linarith [hc q hq]

lemma distanceCircleLine_neg {x : Vec} {r : ℝ} {p0 p1 : Vec} {h : ℝ} {n : Vec} (hne : p0 ≠ p1)
    (e : distanceCircleLine x r p0 p1 = some (h, n)) (hh : h < 0) :
    ∃ q ∈ segment ℝ p0 p1, Spec.dist x q < r := by
  obtain ⟨h', n', e', ⟨q, hq, hd, -⟩, -⟩ := distanceCircleLine_spec x r p0 p1 hne
  rw [e'] at e
  cases e
  exact ⟨q, hq, by linarith⟩

lemma overlappingCircleLine_clear {a : Agent} {obs : List Wall}
    (h : ∀ w ∈ obs, ClearOfSegment .circular a w.p0 w.p1) :
    overlappingCircleLine a obs = false := by
  induction obs with
  | nil => rfl
  | cons o t ih =>
    have ht := ih fun w hw => h w (List.mem_cons_of_mem _ hw)
    unfold overlappingCircleLine
    cases e : distanceCircleLine a.position a.radius o.p0 o.p1 with
    | none => exact ht
    | some hn =>
      obtain ⟨d, n⟩ := hn
      have hd := distanceCircleLine_nonneg e fun q hq =>
        h o List.mem_cons_self (a.position, a.radius) (by simp [discs]) q hq
      simp only
      rw [if_neg (not_lt.2 hd)]
      exact ht

lemma threeCircleLine_attained {x : Fin 3 → Vec} {r : Fin 3 → ℝ} {p0 p1 : Vec} {h : ℝ}
    {v : Vec × Vec} (e : distanceThreeCircleLine x r p0 p1 = some (h, v)) :
    p0 ≠ p1 ∧ ∃ i, ∃ q ∈ segment ℝ p0 p1, Spec.dist (x i) q = h + r i := by
  by_cases hne : p0 = p1
  · subst hne
    have h0 : ∀ i, distanceCircleLine (x i) (r i) p0 p0 = none := by
      intro i
      unfold distanceCircleLine
      simp [length]
    have : (List.finRange 3).foldl (minStepOpt fun i => distanceCircleLine (x i) (r i) p0 p0)
        ⟨none, (0, 0), 0⟩ = ⟨none, (0, 0), 0⟩ := by
      have hs : ∀ (l : List (Fin 3)), (l.foldl (minStepOpt fun i =>
          distanceCircleLine (x i) (r i) p0 p0) ⟨none, (0, 0), 0⟩).h = none := by
        intro l
        suffices ∀ s : MinState (Fin 3), s.h = none → (l.foldl (minStepOpt fun i =>
            distanceCircleLine (x i) (r i) p0 p0) s).h = none from this _ rfl
        induction l with
        | nil => intro s hs; exact hs
        | cons i l ih =>
          intro s hs
          apply ih
          simp only [minStepOpt, h0, hs]
      unfold distanceThreeCircleLine at e
      simp only [hs] at e
      cases e
    unfold distanceThreeCircleLine at e
    simp only [this] at e
    cases e
  · refine ⟨hne, ?_⟩
    choose h' n hmod hq hall using fun i => distanceCircleLine_spec (x i) (r i) p0 p1 hne
    have em := minStepOpt_eq (fun i => distanceCircleLine (x i) (r i) p0 p1)
      (fun i => (h' i, n i)) hmod
    obtain ⟨h1, h2, -, h4⟩ := minStep_fold (fun i : Fin 3 => (h' i, n i)) (List.finRange 3)
      (List.ne_nil_of_mem (List.mem_finRange 0)) (0, 0) 0
    unfold distanceThreeCircleLine at e
    simp only at e
    rw [em] at e
    generalize (List.finRange 3).foldl (minStep fun i : Fin 3 => (h' i, n i))
      ⟨none, (0, 0), 0⟩ = s at *
    rw [h1] at e
    simp only [Option.some.injEq, Prod.mk.injEq] at e
    obtain ⟨q, hqs, a1, -⟩ := hq s.i
    exact ⟨s.i, q, hqs, by rw [a1, ← e.1]⟩

lemma clear_three {a : Agent} {p0 p1 : Vec} :
    ClearOfSegment .threeCircle a p0 p1 ↔
      ∀ i, ∀ q ∈ segment ℝ p0 p1, a.radii i ≤ Spec.dist (a.circles i) q := by
  rw [three_forall]
  simp [ClearOfSegment, discs, Agent.radii, Agent.circles]

lemma overlappingThreeCircleLine_clear {a : Agent} {obs : List Wall}
    (h : ∀ w ∈ obs, ClearOfSegment .threeCircle a w.p0 w.p1) :
    overlappingThreeCircleLine a obs = false := by
  induction obs with
  | nil => rfl
  | cons o t ih =>
    have ht := ih fun w hw => h w (List.mem_cons_of_mem _ hw)
    unfold overlappingThreeCircleLine
    cases e : distanceThreeCircleLine a.circles a.radii o.p0 o.p1 with
    | none => exact ht
    | some hn =>
      obtain ⟨d, v⟩ := hn
      obtain ⟨-, i, q, hq, hd⟩ := threeCircleLine_attained e
      have := clear_three.1 (h o List.mem_cons_self) i q hq
      simp only
      rw [if_neg (by linarith)]
      exact ht

lemma overlappingObstacles_clear {k : Kind} {m : Member} {obs : List Wall}
    (h : ∀ w ∈ obs, ClearOfSegment k m.row w.p0 w.p1) : m.overlappingObstacles k obs = false := by
  cases k with
  | circular => exact overlappingCircleLine_clear h
  | threeCircle => exact overlappingThreeCircleLine_clear h

/-- The row that is stored if member `m` is placed at `p`. -/
noncomputable def newRow (k : Kind) (m : Member) (p : Vec) : Agent := ((m.setPosition p).touch k).row

lemma placeLoop_free {c : ℝ} {size : ℕ} {obstacles : Option (List Wall)} {k : Kind} {B : ℕ → Agent}
    (hw : ∀ t < size, ∀ obs, obstacles = some obs → ∀ w ∈ obs, ClearOfSegment k (B t) w.p0 w.p1)
    (hp : ∀ s t, s < t → t < size → DisjointBodies k (B s) (B t)) (j : ℕ) :
    ∀ (i : ℕ) (gen : List Vec) (st : AgentsState) (ms : List Member), i + j = size →
      (∀ t, i ≤ t → t < size → ∃ m p, ms[t]? = some m ∧ gen[t - i]? = some p ∧
        newRow k m p = B t) →
      st.kind = k → Stored c st → st.index + j ≤ st.array.length →
      (∀ t, i ≤ t → t < size → ∀ q < st.index, DisjointBodies k (rowAt st.array q) (B t)) →
      (placeLoop size obstacles gen i 0 st ms).outcome = .ok ∧
      (placeLoop size obstacles gen i 0 st ms).overlaps = 0 ∧
      (placeLoop size obstacles gen i 0 st ms).state.index = st.index + j ∧
      (placeLoop size obstacles gen i 0 st ms).rest = gen.drop j ∧
      (placeLoop size obstacles gen i 0 st ms).state.array.length = st.array.length ∧
      (∀ q < st.index, rowAt (placeLoop size obstacles gen i 0 st ms).state.array q =
        rowAt st.array q) ∧
      ∀ t, i ≤ t → t < size →
        rowAt (placeLoop size obstacles gen i 0 st ms).state.array (st.index + (t - i)) = B t := by
  induction j with
  | zero =>
    intro i gen st ms hi _ _ _ _ _
    rw [placeLoop_done (by omega)]
    exact ⟨rfl, rfl, rfl, rfl, rfl, fun _ _ => rfl, fun t h1 h2 => by omega⟩
  | succ j ih =>
    intro i gen st ms hi hm hk hst hlen hold
    obtain ⟨m, p, hmi, hg, hB⟩ := hm i le_rfl (by omega)
    rw [Nat.sub_self] at hg
    obtain ⟨gen', rfl⟩ : ∃ gen', gen = p :: gen' := by
      cases gen with
      | nil => simp at hg
      | cons a g => simp at hg; exact ⟨g, by rw [hg]⟩
    have hB' : ((m.setPosition p).touch st.kind).row = B i := by rw [hk]; exact hB
    have hov : ((m.setPosition p).touch st.kind).overlapping st.kind
        (rowsAt st.array (st.neighbours.nearest [p.1, p.2] 1).1) = false := by
      rw [overlapping_eq_false, hB', hk]
      intro b hb
      obtain ⟨q, hq, rfl⟩ := List.mem_map.1 hb
      exact hold i le_rfl (by omega) q ((mem_nearest_iff hst p q).1 hq).1
    have hob : ∀ obs, obstacles = some obs →
        ((m.setPosition p).touch st.kind).overlappingObstacles st.kind obs = false := by
      intro obs ho
      apply overlappingObstacles_clear
      rw [hB', hk]
      exact hw i (by omega) obs ho
    have hpos : (B i).position = p := by rw [← hB']; simp
    have hlt : st.index < st.array.length := by omega
    have step : placeLoop size obstacles (p :: gen') i 0 st ms = placeLoop size obstacles gen'
        (i + 1) 0 ⟨st.kind, st.array.set st.index (B i), st.index + 1,
          (st.neighbours.nearest [p.1, p.2] 1).2.setItem [p.1, p.2] st.index⟩
        (ms.set i ((m.setPosition p).touch st.kind)) := by
      rw [placeLoop, if_pos ⟨by omega, by omega⟩]
      simp only [hmi, hov, Bool.false_eq_true, if_false, hB']
      cases ho : obstacles with
      | none => simp
      | some obs => simp [hob obs ho]
    rw [step]
    obtain ⟨r1, r2, r3, r4, r5, r6, r7⟩ := ih (i + 1) gen'
      ⟨st.kind, st.array.set st.index (B i), st.index + 1,
          (st.neighbours.nearest [p.1, p.2] 1).2.setItem [p.1, p.2] st.index⟩
        (ms.set i ((m.setPosition p).touch st.kind)) (by omega)
      (fun t h1 h2 => by
        obtain ⟨m', p', e1, e2, e3⟩ := hm t (by omega) h2
        refine ⟨m', p', ?_, ?_, e3⟩
        · rw [List.getElem?_set_ne (by omega)]; exact e1
        · rw [show t - i = (t - (i + 1)) + 1 by omega, List.getElem?_cons_succ] at e2
          exact e2)
      hk (stored_accept hst p (B i) hpos hlt) (by simp only [List.length_set]; omega)
      (fun t h1 h2 q hq => by
        simp only at hq ⊢
        rcases Nat.lt_succ_iff_lt_or_eq.1 hq with hq' | rfl
        · rw [rowAt_set_ne (by omega)]
          exact hold t (by omega) h2 q hq'
        · rw [rowAt_set_self hlt]
          exact hp i t (by omega) h2)
    refine ⟨r1, r2, ?_, ?_, ?_, ?_, ?_⟩
    · rw [r3]; simp only; omega
    · rw [r4]; rfl
    · rw [r5]; simp
    · intro q hq
      rw [r6 q (by simp only; omega)]
      exact rowAt_set_ne (by omega) _
    · intro t h1 h2
      rcases Nat.eq_or_lt_of_le h1 with rfl | h1'
      · have := r6 st.index (by simp only; omega)
        rw [Nat.sub_self]
        exact this.trans (rowAt_set_self hlt _)
      · have := r7 t h1' h2
        simp only at this
        rwa [show st.index + 1 + (t - (i + 1)) = st.index + (t - i) by omega] at this

/-- An accepted position, with obstacles. -/
lemma placeLoop_accept_clear {size : ℕ} {obs : List Wall} {p : Vec} {gen : List Vec}
    {i o : ℕ} {st : AgentsState} {ms : List Member} {m : Member} (hi : i < size)
    (ho : o < 10 * size) (hm : ms[i]? = some m)
    (hov : ((m.setPosition p).touch st.kind).overlapping st.kind
          (rowsAt st.array (st.neighbours.nearest [p.1, p.2] 1).1) = false)
    (hobs : ((m.setPosition p).touch st.kind).overlappingObstacles st.kind obs = false) :
    placeLoop size (some obs) (p :: gen) i o st ms = placeLoop size (some obs) gen (i + 1) o
      ⟨st.kind, st.array.set st.index ((m.setPosition p).touch st.kind).row,
          st.index + 1,
          (st.neighbours.nearest [p.1, p.2] 1).2.setItem [p.1, p.2] st.index⟩
        (ms.set i ((m.setPosition p).touch st.kind)) := by
  rw [placeLoop, if_pos ⟨hi, ho⟩]
  simp only [hm, hov, hobs, Bool.false_eq_true, if_false]

end CrowdDynamics
