import Verif.Model.CollectiveMotion
import Verif.Spec.Following
import Verif.Spec.Poisson
import Verif.Props.Geom2D
import Verif.Proofs.Vector2D
import Verif.Proofs.Interactions

/-!
# Lemmas about neighbours, herding and leaders
-/

namespace CrowdDynamics

open Spec

variable {n : ℕ}

/-! ## The `k` nearest neighbours -/

lemma npArgmax_spec (l : List ℝ) (h : l ≠ []) :
    ∃ i, npArgmax l = some i ∧ ∃ v, l[i]? = some v ∧ ∀ x ∈ l, x ≤ v := by
  induction l with
  | nil => exact absurd rfl h
  | cons x xs ih =>
    by_cases hx : xs = []
    · subst hx
      exact ⟨0, rfl, x, rfl, by simp⟩
    · obtain ⟨i, hi, v, hv, hmax⟩ := ih hx
      have hd : xs.getD i 0 = v := by rw [List.getD_eq_getElem?_getD, hv]; rfl
      simp only [npArgmax, hi, hd]
      by_cases hlt : v > x
      · refine ⟨i + 1, if_pos hlt, v, by simpa using hv, ?_⟩
        intro y hy
        rcases List.mem_cons.1 hy with rfl | hy
        · exact hlt.le
        · exact hmax y hy
      · refine ⟨0, if_neg hlt, x, rfl, ?_⟩
        intro y hy
        rcases List.mem_cons.1 hy with rfl | hy
        · exact le_rfl
        · exact (hmax y hy).trans (not_lt.1 hlt)

lemma foldl_max_list_spec (t : List ℝ) (a : ℝ) :
    (t.foldl max a = a ∨ t.foldl max a ∈ t) ∧ a ≤ t.foldl max a ∧ ∀ x ∈ t, x ≤ t.foldl max a := by
  induction t generalizing a with
  | nil => simp
  | cons b t ih =>
    obtain ⟨h1, h2, h3⟩ := ih (max a b)
    simp only [List.foldl_cons]
    refine ⟨?_, (le_max_left a b).trans h2, ?_⟩
    · rcases h1 with h1 | h1
      · rcases max_choice a b with h | h
        · left; rw [h1, h]
        · right; rw [h1, h]; simp
      · right; exact List.mem_cons_of_mem _ h1
    · intro x hx
      rcases List.mem_cons.1 hx with rfl | hx
      · exact (le_max_right a x).trans h2
      · exact h3 x hx

lemma npMax_list_spec (l : List ℝ) (h : l ≠ []) : ∃ m, npMax l = some m ∧ m ∈ l ∧ ∀ x ∈ l, x ≤ m := by
  cases l with
  | nil => exact absurd rfl h
  | cons a t =>
    obtain ⟨h1, h2, h3⟩ := foldl_max_list_spec t a
    refine ⟨_, rfl, ?_, ?_⟩
    · rcases h1 with h1 | h1
      · rw [h1]; simp
      · exact List.mem_cons_of_mem _ h1
    · intro x hx
      rcases List.mem_cons.1 hx with rfl | hx
      · exact h2
      · exact h3 x hx

/-- Invariant of one row; `C j` says that the pair of `i` and `j` was offered before. -/
structure RowInv (pos : Fin n → Vec) (ws : List Wall) (sight : ℝ) (k : ℕ) (i : Fin n)
    (C : Fin n → Prop) (row : NeighborRow n) : Prop where
  size : row.slots.length = k
  attained : row.dmax ∈ row.slots.map Prod.snd
  bound : ∀ s ∈ row.slots, s.2 ≤ row.dmax
  filled : ∀ j d, (some j, d) ∈ row.slots → C j ∧ d = Spec.dist (pos i) (pos j) ∧ d < sight ∧
    isObstacleBetweenPoints (pos i) (pos j) ws = false
  empty : ∀ d, (none, d) ∈ row.slots → d = sight
  once : ∀ (a b : ℕ) (j : Fin n) (d d' : ℝ), row.slots[a]? = some (some j, d) →
    row.slots[b]? = some (some j, d') → a = b
  rest : ∀ j, C j → isObstacleBetweenPoints (pos i) (pos j) ws = false →
    (∀ d, (some j, d) ∉ row.slots) → row.dmax ≤ Spec.dist (pos i) (pos j)

lemma RowInv.dmax_le {pos : Fin n → Vec} {ws : List Wall} {sight : ℝ} {k : ℕ} {i : Fin n}
    {C : Fin n → Prop} {row : NeighborRow n} (h : RowInv pos ws sight k i C row) :
    row.dmax ≤ sight := by
  obtain ⟨⟨o, d⟩, hs, e⟩ := List.mem_map.1 h.attained
  simp only at e
  subst e
  cases o with
  | none => exact (h.empty _ hs).le
  | some j => exact (h.filled j _ hs).2.2.1.le

lemma RowInv.congr {pos : Fin n → Vec} {ws : List Wall} {sight : ℝ} {k : ℕ} {i : Fin n}
    {C C' : Fin n → Prop} {row : NeighborRow n} (h : RowInv pos ws sight k i C row)
    (hc : ∀ j, C' j ↔ C j) : RowInv pos ws sight k i C' row where
  size := h.size
  attained := h.attained
  bound := h.bound
  filled := fun j d hs => ⟨(hc j).2 (h.filled j d hs).1, (h.filled j d hs).2⟩
  empty := h.empty
  once := h.once
  rest := fun j hj => h.rest j ((hc j).1 hj)

/-- The invariant if the new pair is hidden. -/
lemma RowInv.hidden {pos : Fin n → Vec} {ws : List Wall} {sight : ℝ} {k : ℕ} {i : Fin n}
    {C : Fin n → Prop} {row : NeighborRow n} (h : RowInv pos ws sight k i C row) (j : Fin n)
    (hv : isObstacleBetweenPoints (pos i) (pos j) ws = true) :
    RowInv pos ws sight k i (fun m => C m ∨ m = j) row where
  size := h.size
  attained := h.attained
  bound := h.bound
  filled := fun m d hs => ⟨Or.inl (h.filled m d hs).1, (h.filled m d hs).2⟩
  empty := h.empty
  once := h.once
  rest := by
    rintro m (hm | rfl) hvis hn
    · exact h.rest m hm hvis hn
    · rw [hv] at hvis; exact absurd hvis (by simp)

/-- The invariant after a visible pair was offered. -/
lemma RowInv.offer {pos : Fin n → Vec} {ws : List Wall} {sight : ℝ} {k : ℕ} (hk : k ≠ 0)
    {i : Fin n} {C : Fin n → Prop} {rows : Fin n → NeighborRow n}
    (h : RowInv pos ws sight k i C (rows i)) (j : Fin n) (hj : ¬ C j)
    (hv : isObstacleBetweenPoints (pos i) (pos j) ws = false) :
    ∃ row, offerNeighbor i j (Spec.dist (pos i) (pos j)) rows = some (Function.update rows i row) ∧
      RowInv pos ws sight k i (fun m => C m ∨ m = j) row := by
  have hnot : ∀ d, (some j, d) ∉ (rows i).slots := fun d hs => hj (h.filled j d hs).1
  unfold offerNeighbor
  by_cases hlt : Spec.dist (pos i) (pos j) < (rows i).dmax
  · rw [if_pos hlt]
    generalize hD : Spec.dist (pos i) (pos j) = D at hlt ⊢
    have hne : (rows i).slots ≠ [] := by
      intro e
      apply hk
      rw [← h.size, e]; rfl
    obtain ⟨a, ha, v, hav, hmax⟩ := npArgmax_spec ((rows i).slots.map Prod.snd) (by simpa using hne)
    rw [List.getElem?_map] at hav
    obtain ⟨⟨o, v'⟩, hslot, e⟩ : ∃ s, (rows i).slots[a]? = some s ∧ s.2 = v := by
      cases hs : (rows i).slots[a]? with
      | none => rw [hs] at hav; simp at hav
      | some s => rw [hs] at hav; exact ⟨s, rfl, by simpa using hav⟩
    simp only at e
    subst e
    have hmem : (o, v') ∈ (rows i).slots := List.mem_of_getElem? hslot
    have halt : a < (rows i).slots.length := (List.getElem?_eq_some_iff.1 hslot).1
    have hv' : v' = (rows i).dmax := le_antisymm (h.bound _ hmem) (hmax _ h.attained)
    set slots' := (rows i).slots.set a (some j, D) with hslots'
    have hne' : slots'.map Prod.snd ≠ [] := by
      intro e
      have : slots'.length = 0 := by simpa using congrArg List.length e
      rw [hslots', List.length_set] at this
      omega
    obtain ⟨m, hm, hmm, hmb⟩ := npMax_list_spec (slots'.map Prod.snd) hne'
    have hset : setNeighbor j D (rows i) = some ⟨slots', m⟩ := by
      unfold setNeighbor
      rw [ha]
      simp only [Option.bind_eq_bind, Option.bind_some]
      rw [← hslots', hm]
      rfl
    refine ⟨⟨slots', m⟩, ?_, ?_⟩
    · rw [hset]; rfl
    · have hold : ∀ s ∈ slots', s = (some j, D) ∨ s ∈ (rows i).slots := by
        intro s hs
        rcases List.mem_or_eq_of_mem_set hs with h1 | h1
        · exact Or.inr h1
        · exact Or.inl h1
      have hmle : m ≤ (rows i).dmax := by
        obtain ⟨s, hs, e⟩ := List.mem_map.1 hmm
        subst e
        rcases hold s hs with rfl | hs'
        · exact hlt.le
        · exact h.bound s hs'
      refine ⟨?_, hmm, fun s hs => hmb _ (List.mem_map_of_mem hs), ?_, ?_, ?_, ?_⟩
      · simp only [hslots', List.length_set]; exact h.size
      · intro l d hs
        rcases hold _ hs with e | hs'
        · simp only [Prod.mk.injEq, Option.some.injEq] at e
          obtain ⟨rfl, rfl⟩ := e
          exact ⟨Or.inr rfl, hD.symm, hlt.trans_le h.dmax_le, hv⟩
        · obtain ⟨h1, h2⟩ := h.filled l d hs'
          exact ⟨Or.inl h1, h2⟩
      · intro d hs
        rcases hold _ hs with e | hs'
        · simp at e
        · exact h.empty d hs'
      · intro b c l d d' hb hc
        simp only [hslots', List.getElem?_set] at hb hc
        by_cases h1 : a = b <;> by_cases h2 : a = c
        · exact h1.symm.trans h2
        · rw [if_pos h1, if_pos (h1 ▸ halt)] at hb
          rw [if_neg h2] at hc
          simp only [Option.some.injEq, Prod.mk.injEq] at hb
          obtain ⟨rfl, -⟩ := hb
          exact absurd (List.mem_of_getElem? hc) (hnot _)
        · rw [if_pos h2, if_pos (h2 ▸ halt)] at hc
          rw [if_neg h1] at hb
          simp only [Option.some.injEq, Prod.mk.injEq] at hc
          obtain ⟨rfl, -⟩ := hc
          exact absurd (List.mem_of_getElem? hb) (hnot _)
        · rw [if_neg h1] at hb
          rw [if_neg h2] at hc
          exact h.once b c l d d' hb hc
      · rintro l (hl | rfl) hvis hn
        · by_cases hin : ∃ d, (some l, d) ∈ (rows i).slots
          · obtain ⟨d, hd⟩ := hin
            -- it must be the replaced slot
            obtain ⟨b, hb⟩ := List.getElem?_of_mem hd
            have hba : b = a := by
              by_contra hne2
              apply hn d
              apply List.mem_of_getElem? (i := b)
              rw [hslots', List.getElem?_set, if_neg (fun e => hne2 e.symm)]
              exact hb
            subst hba
            rw [hslot] at hb
            simp only [Option.some.injEq, Prod.mk.injEq] at hb
            obtain ⟨rfl, rfl⟩ := hb
            rw [← (h.filled l _ hd).2.1, hv']
            exact hmle
          · push Not at hin
            exact hmle.trans (h.rest l hl hvis hin)
        · exfalso
          apply hn D
          apply List.mem_of_getElem? (i := a)
          rw [hslots', List.getElem?_set, if_pos rfl, if_pos halt]
  · rw [if_neg hlt]
    refine ⟨rows i, by rw [Function.update_eq_self], ?_⟩
    refine ⟨h.size, h.attained, h.bound, fun m d hs => ⟨Or.inl (h.filled m d hs).1,
      (h.filled m d hs).2⟩, h.empty, h.once, ?_⟩
    rintro m (hm | rfl) hvis hn
    · exact h.rest m hm hvis hn
    · exact not_lt.1 hlt

/-- Agent `j` was paired with `i` in `l`. -/
def Paired (l : List (Fin n × Fin n)) (i j : Fin n) : Prop := (i, j) ∈ l ∨ (j, i) ∈ l

lemma neighborLoop_inv (pos : Fin n → Vec) (ws : List Wall) (sight : ℝ) (k : ℕ) (hk : k ≠ 0)
    (todo done : List (Fin n × Fin n)) (hd : ∀ p ∈ done ++ todo, p.1 ≠ p.2)
    (ho : ((done ++ todo).map fun p => s(p.1, p.2)).Nodup) (rows : Fin n → NeighborRow n)
    (hinv : ∀ i, RowInv pos ws sight k i (Paired done i) (rows i)) :
    ∃ rows', todo.foldlM (neighborStep pos ws) rows = some rows' ∧
      ∀ i, RowInv pos ws sight k i (Paired (done ++ todo) i) (rows' i) := by
  induction todo generalizing done rows with
  | nil => exact ⟨rows, rfl, by simpa using hinv⟩
  | cons p todo ih =>
    obtain ⟨i, j⟩ := p
    have hij : i ≠ j := hd (i, j) (by simp)
    have happ : done ++ (i, j) :: todo = (done ++ [(i, j)]) ++ todo := by simp
    have hnew : ¬ Paired done i j ∧ ¬ Paired done j i := by
      rw [List.map_append, List.nodup_append] at ho
      have hne := ho.2.2
      constructor
      · rintro (h | h)
        · exact hne s(i, j) (List.mem_map.2 ⟨_, h, rfl⟩) s(i, j) (by simp) rfl
        · exact hne s(i, j) (List.mem_map.2 ⟨_, h, Sym2.eq_swap⟩) s(i, j) (by simp) rfl
      · rintro (h | h)
        · exact hne s(i, j) (List.mem_map.2 ⟨_, h, Sym2.eq_swap⟩) s(i, j) (by simp) rfl
        · exact hne s(i, j) (List.mem_map.2 ⟨_, h, rfl⟩) s(i, j) (by simp) rfl
    have hpair : ∀ l m, Paired (done ++ [(i, j)]) l m ↔
        (Paired done l m ∨ (l = i ∧ m = j) ∨ (l = j ∧ m = i)) := by
      intro l m
      simp only [Paired, List.mem_append, List.mem_singleton, Prod.mk.injEq]
      tauto
    rw [happ] at hd ho ⊢
    suffices hstep : ∃ rows1, neighborStep pos ws rows (i, j) = some rows1 ∧
        ∀ l, RowInv pos ws sight k l (Paired (done ++ [(i, j)]) l) (rows1 l) by
      obtain ⟨rows1, h1, h2⟩ := hstep
      obtain ⟨rows', h3, h4⟩ := ih (done ++ [(i, j)]) hd ho rows1 h2
      refine ⟨rows', ?_, h4⟩
      rw [List.foldlM_cons, h1]
      exact h3
    unfold neighborStep
    have hsymm := C07_obstacle_between_symm (pos i) (pos j) ws
    by_cases hv : isObstacleBetweenPoints (pos i) (pos j) ws = true
    · rw [if_pos hv]
      refine ⟨rows, rfl, fun l => ?_⟩
      by_cases hl : l = i
      · subst hl
        refine ((hinv l).hidden j hv).congr fun m => ?_
        rw [hpair]
        constructor
        · rintro (h | ⟨-, rfl⟩ | ⟨rfl, -⟩)
          · exact Or.inl h
          · exact Or.inr rfl
          · exact absurd rfl hij
        · rintro (h | rfl)
          · exact Or.inl h
          · exact Or.inr (Or.inl ⟨rfl, rfl⟩)
      · by_cases hl' : l = j
        · subst hl'
          refine ((hinv l).hidden i (hsymm ▸ hv)).congr fun m => ?_
          rw [hpair]
          constructor
          · rintro (h | ⟨rfl, -⟩ | ⟨-, rfl⟩)
            · exact Or.inl h
            · exact absurd rfl hij
            · exact Or.inr rfl
          · rintro (h | rfl)
            · exact Or.inl h
            · exact Or.inr (Or.inr ⟨rfl, rfl⟩)
        · refine (hinv l).congr fun m => ?_
          rw [hpair]
          exact ⟨fun h => h.elim id (fun h => h.elim (fun h => absurd h.1 hl)
            (fun h => absurd h.1 hl')), Or.inl⟩
    · rw [if_neg hv]
      have hv0 : isObstacleBetweenPoints (pos i) (pos j) ws = false := by simpa using hv
      obtain ⟨r1, e1, inv1⟩ := (hinv i).offer hk j hnew.1 hv0
      have hdist : length (pos i - pos j) = Spec.dist (pos i) (pos j) := rfl
      have hdist' : length (pos i - pos j) = Spec.dist (pos j) (pos i) := by
        rw [length_sub_comm]; rfl
      have hrj : Function.update rows i r1 j = rows j := Function.update_of_ne (Ne.symm hij) _ _
      have inv2 : RowInv pos ws sight k j (Paired done j) (Function.update rows i r1 j) := by
        rw [hrj]; exact hinv j
      obtain ⟨r2, e2, inv3⟩ := inv2.offer hk i hnew.2 (hsymm ▸ hv0)
      refine ⟨Function.update (Function.update rows i r1) j r2, ?_, fun l => ?_⟩
      · simp only [Option.bind_eq_bind]
        rw [hdist, e1]
        simp only [Option.bind_some]
        rw [← hdist, hdist', e2]
      · by_cases hl' : l = j
        · subst hl'
          rw [Function.update_self]
          refine inv3.congr fun m => ?_
          rw [hpair]
          constructor
          · rintro (h | ⟨rfl, -⟩ | ⟨-, rfl⟩)
            · exact Or.inl h
            · exact absurd rfl hij
            · exact Or.inr rfl
          · rintro (h | rfl)
            · exact Or.inl h
            · exact Or.inr (Or.inr ⟨rfl, rfl⟩)
        · rw [Function.update_of_ne hl']
          by_cases hl : l = i
          · subst hl
            rw [Function.update_self]
            refine inv1.congr fun m => ?_
            rw [hpair]
            constructor
            · rintro (h | ⟨-, rfl⟩ | ⟨rfl, -⟩)
              · exact Or.inl h
              · exact Or.inr rfl
              · exact absurd rfl hij
            · rintro (h | rfl)
              · exact Or.inl h
              · exact Or.inr (Or.inl ⟨rfl, rfl⟩)
          · rw [Function.update_of_ne hl]
            refine (hinv l).congr fun m => ?_
            rw [hpair]
            exact ⟨fun h => h.elim id (fun h => h.elim (fun h => absurd h.1 hl)
              (fun h => absurd h.1 hl')), Or.inl⟩

lemma not_blocked_iff (p q : Vec) (ws : List Wall) :
    isObstacleBetweenPoints p q ws = false ↔ ∀ w ∈ ws, ¬ Hides p q w := by
  rw [← Bool.not_eq_true, C07_obstacle_between_iff]
  push Not
  rfl

/-- The result of `find_nearest_neighbors` for any list of pairs that contains every pair closer
than `sight`. -/
lemma findNearestNeighbors_spec (pos : Fin n → Vec) (ws : List Wall) (sight : ℝ) (k : ℕ)
    (hk : k ≠ 0) (pairs : List (Fin n × Fin n)) (hd : ∀ p ∈ pairs, p.1 ≠ p.2)
    (ho : (pairs.map fun p => s(p.1, p.2)).Nodup)
    (hc : ∀ i j, i ≠ j → Spec.dist (pos i) (pos j) < sight → (i, j) ∈ pairs ∨ (j, i) ∈ pairs) :
    ∃ T, findNearestNeighbors pos sight k pairs ws = some T ∧
      ∀ i, KNearest pos ws sight k i (T i) := by
  have hinit : ∀ i, RowInv pos ws sight k i (Paired [] i)
      ⟨List.replicate k (none, sight), sight⟩ := by
    intro i
    refine ⟨by simp, ?_, ?_, ?_, ?_, ?_, ?_⟩
    · simp only [List.map_replicate, List.mem_replicate]; exact ⟨hk, trivial⟩
    · intro s hs
      rw [(List.mem_replicate.1 hs).2]
    · intro j d hs
      have := (List.mem_replicate.1 hs).2
      simp at this
    · intro d hs
      have := (List.mem_replicate.1 hs).2
      simpa using this
    · intro a b j d d' ha
      have := (List.mem_replicate.1 (List.mem_of_getElem? ha)).2
      simp at this
    · rintro j (h | h) <;> simp at h
  obtain ⟨rows, e, inv⟩ := neighborLoop_inv pos ws sight k hk pairs [] (by simpa using hd)
    (by simpa using ho) _ hinit
  rw [List.nil_append] at inv
  refine ⟨fun i => (rows i).slots.map Prod.fst, ?_, fun i => ?_⟩
  · unfold findNearestNeighbors
    rw [e]; rfl
  · have h := inv i
    have hmem : ∀ o, o ∈ (rows i).slots.map Prod.fst ↔ ∃ d, (o, d) ∈ (rows i).slots := by
      intro o; simp
    refine ⟨by simpa using h.size, ?_, ?_, ?_⟩
    · intro a b j ha hb
      rw [List.getElem?_map] at ha hb
      cases hsa : (rows i).slots[a]? with
      | none => rw [hsa] at ha; simp at ha
      | some s =>
        cases hsb : (rows i).slots[b]? with
        | none => rw [hsb] at hb; simp at hb
        | some s' =>
          rw [hsa] at ha
          rw [hsb] at hb
          obtain ⟨o, d⟩ := s
          obtain ⟨o', d'⟩ := s'
          simp only [Option.map_some, Option.some.injEq] at ha hb
          subst ha hb
          exact h.once a b j d d' hsa hsb
    · intro j hj
      obtain ⟨d, hs⟩ := (hmem _).1 hj
      obtain ⟨h1, h2, h3, h4⟩ := h.filled j d hs
      refine ⟨?_, h2 ▸ h3, (not_blocked_iff _ _ _).1 h4⟩
      rintro rfl
      rcases h1 with h1 | h1 <;> exact hd _ h1 rfl
    · intro j hj hn
      have hle : (rows i).dmax ≤ Spec.dist (pos i) (pos j) := by
        apply h.rest j (hc i j hj.1 hj.2.1) ((not_blocked_iff _ _ _).2 hj.2.2)
        intro d hs
        exact hn ((hmem _).2 ⟨d, hs⟩)
      constructor
      · intro hnone
        obtain ⟨d, hs⟩ := (hmem _).1 hnone
        have h1 := h.bound _ hs
        rw [h.empty d hs] at h1
        exact absurd (h1.trans hle) (not_le.2 hj.2.1)
      · intro j' hj'
        obtain ⟨d, hs⟩ := (hmem _).1 hj'
        rw [← (h.filled j' d hs).2.1]
        exact (h.bound _ hs).trans hle

/-! ## Herding -/

lemma normalize_eq_dir (v : Vec) : normalize v = dir v := by
  by_cases h : v = 0
  · subst h; simp [dir]
  · rw [normalize_of_ne h]; rfl

lemma dot_normalize (u v : Vec) : dot (normalize u) (normalize v) = cosAngle u v := by
  rw [normalize_eq_dir, normalize_eq_dir]
  unfold dot cosAngle dir Spec.inner
  simp only [Prod.smul_fst, Prod.smul_snd, smul_eq_mul]
  rw [div_eq_mul_inv, mul_inv]
  ring

lemma cosAngle_neg_left (u v : Vec) : cosAngle (-u) v = -cosAngle u v := by
  unfold cosAngle
  have h1 : len (-u) = len u := length_neg u
  have h2 : Spec.inner (-u) v = -Spec.inner u v := by
    unfold Spec.inner; simp only [Prod.fst_neg, Prod.snd_neg]; ring
  rw [h1, h2, neg_div]

lemma herding_eq (x1 x2 v1 v2 : Vec) (phi : ℝ) :
    ((herdingRelationship x1 x2 v1 v2 phi).1 = true ↔ MayFollow x1 v1 x2 v2 phi) ∧
    ((herdingRelationship x1 x2 v1 v2 phi).2 = true ↔ MayFollow x2 v2 x1 v1 phi) := by
  have e1 : -dot (normalize (x2 - x1)) (normalize v2) = cosAngle (x1 - x2) v2 := by
    rw [dot_normalize, ← cosAngle_neg_left, neg_sub]
  unfold herdingRelationship MayFollow HeadsFor
  simp only [e1, length_eq_zero]
  rw [dot_normalize]
  by_cases h1 : v1 = 0
  · simp [h1]
  by_cases h2 : v2 = 0
  · simp [h2]
  rw [if_neg (by tauto)]
  by_cases h3 : Real.cos phi < cosAngle (x2 - x1) v1 ∧ cosAngle (x2 - x1) v1 < 1 <;>
    by_cases h4 : Real.cos phi < cosAngle (x1 - x2) v2 ∧ cosAngle (x1 - x2) v2 < 1
  · rw [if_pos h3, if_pos h4]; simp [h1, h2, h3.1, h3.2, h4.1, h4.2]
  · rw [if_pos h3, if_neg h4]; simp only [h3, h4]; simp [h1, h2]
  · rw [if_neg h3, if_pos h4]; simp only [h3, h4]; simp [h1, h2]
  · rw [if_neg h3, if_neg h4]; simp only [h3, h4]; simp [h1, h2]

lemma length_normalize_or (v : Vec) : len (normalize v) = 1 ∨ normalize v = 0 := by
  by_cases h : v = 0
  · right; rw [h, normalize_zero]
  · left; exact length_normalize h

/-! ## Following leaders -/

lemma readTarget_valid (oob : ℤ → ℤ) (t : Fin n → ℤ) (l : Fin n) :
    readTarget oob t (l.val : ℤ) = t l := by
  unfold readTarget
  have h0 : ¬ ((l.val : ℤ) < 0) := by omega
  simp only [h0, if_false]
  rw [dif_pos ⟨by omega, by have := l.2; omega⟩]
  congr 1

/-- A leader at place `k` of the list that decides what the follower `i` does. -/
def Decides (a : Fin n → Agent) (ws : List Wall) (sight phi : ℝ) (i j : Fin n) : Prop :=
  Spec.dist (a i).position (a j).position ≤ sight ∧
    (((∃ w ∈ ws, Hides (a i).position (a j).position w) ∧ (a i).indexLeader = (j.val : ℤ)) ∨
     ((∀ w ∈ ws, ¬ Hides (a i).position (a j).position w) ∧
       MayFollow (a i).position (a i).velocity (a j).position (a j).velocity phi))

/-- What the follower `i` does if `j` decides. -/
noncomputable def decision (oob : ℤ → ℤ) (a : Fin n → Agent) (weight : ℝ) (ws : List Wall)
    (i j : Fin n) (s : FollowState n) : FollowState n × ℕ × ℕ :=
  if isObstacleBetweenPoints (a i).position (a j).position ws then
    (s.copyTarget oob i (s.indexLeader i), 1, 0)
  else
    ({ target := Function.update s.target i noTarget
       indexLeader := Function.update s.indexLeader i (j.val : ℤ)
       hasStrategy := Function.update s.hasStrategy i true
       newDirection := Function.update s.newDirection i (normalize (weightedAverage
         (normalize ((a j).position - (a i).position)) (normalize (a j).velocity) weight)) }, 0, 1)

lemma leaderScan_spec (oob : ℤ → ℤ) (a : Fin n → Agent) (weight phi : ℝ) (ws : List Wall)
    (sight : ℝ) (i : Fin n) (leaders : List (Fin n)) (s : FollowState n)
    (hs : s.indexLeader i = (a i).indexLeader) (ks : List ℕ) (hks : ∀ k ∈ ks, k < leaders.length) :
    let r := leaderScan oob (fun i => (a i).position) (fun i => (a i).velocity) weight phi ws sight i
      leaders (leaders.map fun j => length ((a i).position - (a j).position)) s ks
    ((∀ k ∈ ks, ∀ j, leaders[k]? = some j → ¬ Decides a ws sight phi i j) ∧ r = (s, 0, 0)) ∨
    ∃ pre k post j, ks = pre ++ k :: post ∧ leaders[k]? = some j ∧ Decides a ws sight phi i j ∧
      (∀ k' ∈ pre, ∀ j', leaders[k']? = some j' → ¬ Decides a ws sight phi i j') ∧
      r = decision oob a weight ws i j s := by
  induction ks with
  | nil => exact Or.inl ⟨by simp, rfl⟩
  | cons k ks ih =>
    have ih := ih fun k' hk' => hks k' (List.mem_cons_of_mem _ hk')
    have hk : k < leaders.length := hks k (by simp)
    obtain ⟨j, hj⟩ : ∃ j, leaders[k]? = some j := ⟨_, List.getElem?_eq_getElem hk⟩
    have hdist : (leaders.map fun j => length ((a i).position - (a j).position)).getD k 0 =
        Spec.dist (a i).position (a j).position := by
      rw [List.getD_eq_getElem?_getD, List.getElem?_map, hj]; rfl
    -- skipping this leader
    have skip : ¬ Decides a ws sight phi i j → ∀ r,
        (((∀ k ∈ ks, ∀ j, leaders[k]? = some j → ¬ Decides a ws sight phi i j) ∧ r = (s, 0, 0)) ∨
        ∃ pre k post j, ks = pre ++ k :: post ∧ leaders[k]? = some j ∧ Decides a ws sight phi i j ∧
          (∀ k' ∈ pre, ∀ j', leaders[k']? = some j' → ¬ Decides a ws sight phi i j') ∧
          r = decision oob a weight ws i j s) →
        (((∀ k' ∈ k :: ks, ∀ j, leaders[k']? = some j → ¬ Decides a ws sight phi i j) ∧
          r = (s, 0, 0)) ∨
        ∃ pre k' post j, k :: ks = pre ++ k' :: post ∧ leaders[k']? = some j ∧
          Decides a ws sight phi i j ∧
          (∀ k' ∈ pre, ∀ j', leaders[k']? = some j' → ¬ Decides a ws sight phi i j') ∧
          r = decision oob a weight ws i j s) := by
      intro hn r hr
      have hhere : ∀ j', leaders[k]? = some j' → ¬ Decides a ws sight phi i j' := by
        intro j' hj'
        rw [hj] at hj'
        simp only [Option.some.injEq] at hj'
        exact hj' ▸ hn
      rcases hr with ⟨h1, h2⟩ | ⟨pre, k', post, j', h1, h2, h3, h4, h5⟩
      · left
        refine ⟨fun k' hk' => ?_, h2⟩
        rcases List.mem_cons.1 hk' with rfl | hk'
        · exact hhere
        · exact h1 k' hk'
      · right
        refine ⟨k :: pre, k', post, j', by rw [h1]; rfl, h2, h3, fun k'' hk'' => ?_, h5⟩
        rcases List.mem_cons.1 hk'' with rfl | hk''
        · exact hhere
        · exact h4 k'' hk''
    have take : ∀ r, Decides a ws sight phi i j → r = decision oob a weight ws i j s →
        (((∀ k' ∈ k :: ks, ∀ j, leaders[k']? = some j → ¬ Decides a ws sight phi i j) ∧
          r = (s, 0, 0)) ∨
        ∃ pre k' post j, k :: ks = pre ++ k' :: post ∧ leaders[k']? = some j ∧
          Decides a ws sight phi i j ∧
          (∀ k' ∈ pre, ∀ j', leaders[k']? = some j' → ¬ Decides a ws sight phi i j') ∧
          r = decision oob a weight ws i j s) :=
      fun r h1 h2 => Or.inr ⟨[], k, ks, j, rfl, hj, h1, by simp, h2⟩
    intro r
    have hr : r = leaderScan oob (fun i => (a i).position) (fun i => (a i).velocity) weight phi ws
      sight i leaders (leaders.map fun j => length ((a i).position - (a j).position)) s
      (k :: ks) := rfl
    unfold leaderScan at hr
    rw [hdist] at hr
    simp only [hj] at hr
    by_cases h1 : Spec.dist (a i).position (a j).position > sight
    · rw [if_pos h1] at hr
      rw [hr]
      exact skip (fun h => absurd h.1 (not_le.2 h1)) _ ih
    rw [if_neg h1] at hr
    by_cases h2 : isObstacleBetweenPoints (a i).position (a j).position ws = true
    · rw [if_pos h2] at hr
      have h2' := (C07_obstacle_between_iff _ _ _).1 h2
      by_cases h3 : s.indexLeader i ≠ noLeader ∧ s.indexLeader i = (j.val : ℤ)
      · rw [if_pos h3] at hr
        refine take r ⟨not_lt.1 h1, Or.inl ⟨h2', hs ▸ h3.2⟩⟩ ?_
        rw [hr, decision, if_pos h2]
      · rw [if_neg h3] at hr
        rw [hr]
        refine skip ?_ _ ih
        rintro ⟨-, ⟨-, h4⟩ | ⟨h4, -⟩⟩
        · apply h3
          rw [hs, h4]
          refine ⟨?_, rfl⟩
          unfold noLeader
          omega
        · obtain ⟨w, hw, hh⟩ := h2'
          exact h4 w hw hh
    · rw [if_neg h2] at hr
      have h2' := (not_blocked_iff _ _ _).1 (by simpa using h2)
      by_cases h3 : (herdingRelationship (a i).position (a j).position (a i).velocity
          (a j).velocity phi).1 = true
      · rw [if_pos h3] at hr
        refine take r ⟨not_lt.1 h1, Or.inr ⟨h2', (herding_eq _ _ _ _ _).1.1 h3⟩⟩ ?_
        rw [hr, decision, if_neg h2]
      · rw [if_neg h3] at hr
        rw [hr]
        refine skip ?_ _ ih
        rintro ⟨-, ⟨⟨w, hw, h4⟩, -⟩ | ⟨-, h4⟩⟩
        · exact h2' w hw h4
        · exact h3 ((herding_eq _ _ _ _ _).1.2 h4)

/-- The leaders of a crowd as listed by the code. -/
lemma mem_leaders (a : Fin n → Agent) (j : Fin n) :
    j ∈ (List.finRange n).filter (fun i => (a i).isLeader) ↔ (a j).isLeader = true := by
  simp

/-- One step of the loop over the followers, written as a change of row `i` only. -/
structure StepRule (a : Fin n → Agent) (ws : List Wall) (sight phi weight : ℝ) (i : Fin n)
    (s s' : FollowState n) : Prop where
  target_other : ∀ m, m ≠ i → s'.target m = s.target m
  index_other : ∀ m, m ≠ i → s'.indexLeader m = s.indexLeader m
  has_other : ∀ m, m ≠ i → s'.hasStrategy m = s.hasStrategy m
  dir_other : ∀ m, m ≠ i → s'.newDirection m = s.newDirection m
  row : (∃ j, NearestCounting a ws sight phi i j ∧
      (∀ w ∈ ws, ¬ Hides (a i).position (a j).position w) ∧
      s'.target i = -1 ∧ s'.indexLeader i = j.val ∧ s'.hasStrategy i = true ∧
      s'.newDirection i = dir (weight • dir ((a j).position - (a i).position) +
        (1 - weight) • dir (a j).velocity)) ∨
    (∃ l : Fin n, (a i).indexLeader = l.val ∧
      ((∃ j, NearestCounting a ws sight phi i j ∧
          ∃ w ∈ ws, Hides (a i).position (a j).position w) ∨
        ∀ j, ¬ Counts a ws sight phi i j) ∧
      s'.target i = s.target l ∧ s'.indexLeader i = (a i).indexLeader ∧ s'.hasStrategy i = true ∧
      s'.newDirection i = s.newDirection i) ∨
    ((∀ j, ¬ Counts a ws sight phi i j) ∧ (a i).indexLeader = -1 ∧ s' = s)

lemma copyTarget_other {oob : ℤ → ℤ} {s : FollowState n} {i m : Fin n} {l : ℤ} (h : m ≠ i) :
    (s.copyTarget oob i l).target m = s.target m ∧
    (s.copyTarget oob i l).indexLeader m = s.indexLeader m ∧
    (s.copyTarget oob i l).hasStrategy m = s.hasStrategy m ∧
    (s.copyTarget oob i l).newDirection m = s.newDirection m := by
  unfold FollowState.copyTarget
  refine ⟨Function.update_of_ne h _ _, rfl, Function.update_of_ne h _ _, rfl⟩

lemma copyTarget_self (oob : ℤ → ℤ) (s : FollowState n) (i l : Fin n) :
    (s.copyTarget oob i (l.val : ℤ)).target i = s.target l ∧
    (s.copyTarget oob i (l.val : ℤ)).indexLeader i = s.indexLeader i ∧
    (s.copyTarget oob i (l.val : ℤ)).hasStrategy i = true ∧
    (s.copyTarget oob i (l.val : ℤ)).newDirection i = s.newDirection i := by
  unfold FollowState.copyTarget
  simp only [Function.update_self, readTarget_valid, and_self]

lemma followStep_spec (oob : ℤ → ℤ) (argsort : List ℝ → List ℕ) (hsort : IsArgsort argsort)
    (a : Fin n → Agent) (weight phi : ℝ) (ws : List Wall) (sight : ℝ) (s : FollowState n) (i : Fin n)
    (hs : s.indexLeader i = (a i).indexLeader)
    (hvalid : (a i).indexLeader = -1 ∨ ∃ l : Fin n, (a i).indexLeader = l.val) :
    StepRule a ws sight phi weight i s (followStep oob argsort (fun i => (a i).position)
      (fun i => (a i).velocity) weight phi ws sight
      ((List.finRange n).filter fun i => (a i).isLeader) s i) := by
  unfold followStep
  simp only
  set leaders := (List.finRange n).filter fun i => (a i).isLeader with hleaders
  set D := leaders.map fun j => length ((a i).position - (a j).position) with hD
  obtain ⟨hperm, hsorted⟩ := hsort D
  have hlen : D.length = leaders.length := by simp [hD]
  rw [hlen] at hperm
  have hks : ∀ k ∈ argsort D, k < leaders.length := fun k hk => by
    simpa using hperm.subset hk
  have hscan := leaderScan_spec oob a weight phi ws sight i leaders s hs (argsort D) hks
  simp only [← hD] at hscan
  have hcounts : ∀ j, Counts a ws sight phi i j ↔ j ∈ leaders ∧ Decides a ws sight phi i j := by
    intro j
    rw [hleaders, mem_leaders]
    rfl
  have hplace : ∀ j ∈ leaders, ∃ k ∈ argsort D, leaders[k]? = some j := by
    intro j hj
    obtain ⟨k, hk⟩ := List.getElem?_of_mem hj
    refine ⟨k, ?_, hk⟩
    apply hperm.symm.subset
    simpa using (List.getElem?_eq_some_iff.1 hk).1
  have hval : ∀ k j, leaders[k]? = some j → D.getD k 0 =
      Spec.dist (a i).position (a j).position := by
    intro k j hj
    rw [hD, List.getD_eq_getElem?_getD, List.getElem?_map, hj]; rfl
  rcases hscan with ⟨h1, h2⟩ | ⟨pre, k, post, j, h1, h2, h3, h4, h5⟩
  · rw [h2]
    have hnone : ∀ j, ¬ Counts a ws sight phi i j := by
      intro j hj
      obtain ⟨hj1, hj2⟩ := (hcounts j).1 hj
      obtain ⟨k, hk, hkj⟩ := hplace j hj1
      exact h1 k hk j hkj hj2
    rw [if_pos ⟨rfl, rfl⟩]
    rcases hvalid with hv | ⟨l, hv⟩
    · rw [if_neg (by rw [hs, hv]; simp [noLeader])]
      exact ⟨fun _ _ => rfl, fun _ _ => rfl, fun _ _ => rfl, fun _ _ => rfl,
        Or.inr (Or.inr ⟨hnone, hv, rfl⟩)⟩
    · rw [if_pos (by rw [hs, hv]; unfold noLeader; omega), hs, hv]
      obtain ⟨c1, c2, c3, c4⟩ := copyTarget_self oob s i l
      refine ⟨fun _ h => (copyTarget_other h).1, fun _ h => (copyTarget_other h).2.1,
        fun _ h => (copyTarget_other h).2.2.1, fun _ h => (copyTarget_other h).2.2.2,
        Or.inr (Or.inl ⟨l, hv, Or.inr hnone, c1, ?_, c3, c4⟩)⟩
      rw [c2, hs]
  · rw [h5]
    have hjl : j ∈ leaders := List.mem_of_getElem? h2
    have hnear : NearestCounting a ws sight phi i j := by
      refine ⟨(hcounts j).2 ⟨hjl, h3⟩, fun j' hj' => ?_⟩
      obtain ⟨hj1, hj2⟩ := (hcounts j').1 hj'
      obtain ⟨k', hk', hkj'⟩ := hplace j' hj1
      rw [← hval k j h2, ← hval k' j' hkj']
      rw [h1] at hk'
      rcases List.mem_append.1 hk' with hpre | hpost
      · exact absurd hj2 (h4 k' hpre j' hkj')
      · rcases List.mem_cons.1 hpost with rfl | hpost
        · exact le_rfl
        · rw [h1, List.map_append, List.map_cons] at hsorted
          have := (List.pairwise_append.1 hsorted).2.1
          exact (List.pairwise_cons.1 this).1 _ (List.mem_map_of_mem hpost)
    unfold decision
    by_cases hb : isObstacleBetweenPoints (a i).position (a j).position ws = true
    · rw [if_pos hb, if_neg (by simp)]
      have hb' := (C07_obstacle_between_iff _ _ _).1 hb
      have hmem : (a i).indexLeader = (j.val : ℤ) := by
        rcases h3.2 with h | h
        · exact h.2
        · obtain ⟨w, hw, hh⟩ := hb'
          exact absurd hh (h.1 w hw)
      rw [hs, hmem]
      obtain ⟨c1, c2, c3, c4⟩ := copyTarget_self oob s i j
      refine ⟨fun _ h => (copyTarget_other h).1, fun _ h => (copyTarget_other h).2.1,
        fun _ h => (copyTarget_other h).2.2.1, fun _ h => (copyTarget_other h).2.2.2,
        Or.inr (Or.inl ⟨j, hmem, Or.inl ⟨j, hnear, hb'⟩, c1, ?_, c3, c4⟩)⟩
      rw [c2, hs]
    · rw [if_neg hb, if_neg (by simp)]
      refine ⟨fun _ h => Function.update_of_ne h _ _, fun _ h => Function.update_of_ne h _ _,
        fun _ h => Function.update_of_ne h _ _, fun _ h => Function.update_of_ne h _ _, Or.inl
        ⟨j, hnear, (not_blocked_iff _ _ _).1 (by simpa using hb), ?_, ?_, ?_, ?_⟩⟩ <;>
        simp only [Function.update_self]
      · rfl
      · rw [normalize_eq_dir, normalize_eq_dir, normalize_eq_dir]; rfl

/-- The loop leaves all rows alone that are not in the list. -/
lemma followLoop_other (oob : ℤ → ℤ) (argsort : List ℝ → List ℕ) (hsort : IsArgsort argsort)
    (a : Fin n → Agent) (weight phi : ℝ) (ws : List Wall) (sight : ℝ)
    (hvalid : ∀ i, (a i).indexLeader = -1 ∨ ∃ l : Fin n, (a i).indexLeader = l.val)
    (fs : List (Fin n)) (hnd : fs.Nodup) (s : FollowState n)
    (hs : ∀ i ∈ fs, s.indexLeader i = (a i).indexLeader) (m : Fin n) (hm : m ∉ fs) :
    let s' := fs.foldl (followStep oob argsort (fun i => (a i).position)
      (fun i => (a i).velocity) weight phi ws sight
      ((List.finRange n).filter fun i => (a i).isLeader)) s
    s'.target m = s.target m ∧ s'.indexLeader m = s.indexLeader m ∧
      s'.hasStrategy m = s.hasStrategy m ∧ s'.newDirection m = s.newDirection m := by
  induction fs generalizing s with
  | nil => exact ⟨rfl, rfl, rfl, rfl⟩
  | cons i fs ih =>
    simp only [List.foldl_cons]
    have hst := followStep_spec oob argsort hsort a weight phi ws sight s i (hs i (by simp)) (hvalid i)
    have hmi : m ≠ i := fun e => hm (by simp [e])
    have hni : i ∉ fs := (List.nodup_cons.1 hnd).1
    have := ih (List.nodup_cons.1 hnd).2 _ (fun i' hi' => by
      rw [hst.index_other i' (fun e => hni (e ▸ hi'))]
      exact hs i' (List.mem_cons_of_mem _ hi')) (fun h => hm (List.mem_cons_of_mem _ h))
    simp only at this
    rw [this.1, this.2.1, this.2.2.1, this.2.2.2]
    exact ⟨hst.target_other m hmi, hst.index_other m hmi, hst.has_other m hmi, hst.dir_other m hmi⟩

/-- What `leader_follower_interaction_brute` does with every agent. -/
lemma brute_spec (oob : ℤ → ℤ) (argsort : List ℝ → List ℕ) (hsort : IsArgsort argsort)
    (a : Fin n → Agent) (weight phi : ℝ) (ws : List Wall) (sight : ℝ) (old : Fin n → ℤ)
    (hvalid : ∀ i, (a i).indexLeader = -1 ∨ ∃ l : Fin n, (a i).indexLeader = l.val) :
    let S := leaderFollowerInteractionBrute oob argsort (fun i => (a i).isFollower)
      (fun i => (a i).isLeader) (fun i => (a i).position) (fun i => (a i).velocity) weight phi old
      (fun i => (a i).indexLeader) ws sight
    ∀ i, ((a i).isFollower = true → FollowRule a ws sight phi weight old S.target i
        (S.indexLeader i) (S.hasStrategy i) (S.newDirection i)) ∧
      ((a i).isFollower = false → S.target i = old i ∧ S.indexLeader i = (a i).indexLeader ∧
        S.hasStrategy i = false ∧ S.newDirection i = 0) := by
  intro S i
  set fs := (List.finRange n).filter fun i => (a i).isFollower with hfs
  have hnd : fs.Nodup := (List.nodup_finRange n).filter _
  have hsortd : fs.Pairwise (· < ·) := (List.pairwise_lt_finRange n).filter _
  set init : FollowState n := ⟨old, fun i => (a i).indexLeader, fun _ => false, fun _ => 0⟩
    with hinit
  set step := followStep oob argsort (fun i => (a i).position)
      (fun i => (a i).velocity) weight phi ws sight
      ((List.finRange n).filter fun i => (a i).isLeader) with hstep
  have hS : S = fs.foldl step init := rfl
  constructor
  · intro hf
    have hi : i ∈ fs := by simp [hfs, hf]
    obtain ⟨pre, post, hsplit⟩ := List.append_of_mem hi
    rw [hsplit] at hnd hsortd
    have hpre : ∀ m ∈ pre, m < i := fun m hm =>
      (List.pairwise_append.1 hsortd).2.2 m hm i (by simp)
    have hpost : ∀ m ∈ post, i < m :=
      (List.pairwise_cons.1 (List.pairwise_append.1 hsortd).2.1).1
    have hndpre : pre.Nodup := (List.nodup_append.1 hnd).1
    have hndpost : post.Nodup := (List.nodup_cons.1 (List.nodup_append.1 hnd).2.1).2
    set s1 := pre.foldl step init with hs1
    set s2 := step s1 i with hs2
    have hS2 : S = post.foldl step s2 := by
      rw [hS, hsplit, List.foldl_append, List.foldl_cons]
    have hpre1 : ∀ m, m ∉ pre → s1.target m = old m ∧ s1.indexLeader m = (a m).indexLeader ∧
        s1.hasStrategy m = false ∧ s1.newDirection m = 0 := fun m hm =>
      followLoop_other oob argsort hsort a weight phi ws sight hvalid pre hndpre init
        (fun _ _ => rfl) m hm
    have hin : i ∉ pre := fun h => lt_irrefl _ (hpre i h)
    have rule : StepRule a ws sight phi weight i s1 s2 :=
      followStep_spec oob argsort hsort a weight phi ws sight s1 i (hpre1 i hin).2.1 (hvalid i)
    have hpost1 : ∀ m, m ∉ post → S.target m = s2.target m ∧ S.indexLeader m = s2.indexLeader m ∧
        S.hasStrategy m = s2.hasStrategy m ∧ S.newDirection m = s2.newDirection m := by
      intro m hm
      rw [hS2]
      refine followLoop_other oob argsort hsort a weight phi ws sight hvalid post hndpost s2
        (fun m' hm' => ?_) m hm
      have hlt := hpost m' hm'
      rw [rule.index_other m' (ne_of_gt hlt)]
      exact (hpre1 m' fun h => lt_irrefl _ ((hpre m' h).trans hlt)).2.1
    have hinpost : i ∉ post := fun h => lt_irrefl _ (hpost i h)
    obtain ⟨f1, f2, f3, f4⟩ := hpost1 i hinpost
    rw [f2, f3, f4]
    unfold FollowRule
    rw [f1]
    rcases rule.row with ⟨j, h1, h2, h3, h4, h5, h6⟩ | ⟨l, h1, h2, h3, h4, h5, h6⟩ | ⟨h1, h2, h3⟩
    · exact Or.inl ⟨j, h1, h2, h3, h4, h5, h6⟩
    · refine Or.inr (Or.inl ⟨l, h1, h2, ?_, h4, h5, by rw [h6]; exact (hpre1 i hin).2.2.2⟩)
      rw [h3]
      unfold copied
      by_cases hl : l < i
      · rw [if_pos hl, (hpost1 l fun h => lt_irrefl _ ((hpost l h).trans hl)).1]
        exact (rule.target_other l (ne_of_lt hl)).symm
      · rw [if_neg hl]
        exact (hpre1 l fun h => hl (hpre l h)).1
    · refine Or.inr (Or.inr ⟨h1, h2, ?_, ?_, ?_, ?_⟩) <;> rw [h3]
      · exact (hpre1 i hin).1
      · rw [(hpre1 i hin).2.1, h2]
      · exact (hpre1 i hin).2.2.1
      · exact (hpre1 i hin).2.2.2
  · intro hf
    have hi : i ∉ fs := by simp [hfs, hf]
    exact followLoop_other oob argsort hsort a weight phi ws sight hvalid fs hnd init
      (fun _ _ => rfl) i hi

/-- The cosine of an angle is at most one (Cauchy-Schwarz). -/
lemma cosAngle_le_one (u v : ℝ × ℝ) : Spec.cosAngle u v ≤ 1 := by
  unfold Spec.cosAngle
  have h0 : 0 ≤ Spec.len u * Spec.len v := mul_nonneg (Real.sqrt_nonneg _) (Real.sqrt_nonneg _)
  refine div_le_one_of_le₀ ?_ h0
  rw [Spec.len, Spec.len, ← Real.sqrt_mul (by positivity), Spec.inner]
  refine Real.le_sqrt_of_sq_le ?_
  nlinarith [sq_nonneg (u.1 * v.2 - u.2 * v.1)]

end CrowdDynamics
