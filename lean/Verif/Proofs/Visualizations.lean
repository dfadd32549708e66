import Verif.Spec.Visualizations
import Verif.Proofs.NavigationNode
import Verif.Proofs.Utils
import Mathlib.Analysis.SpecialFunctions.Trigonometric.Basic
import Mathlib.Tactic.FieldSimp
import Mathlib.Tactic.Linarith
import Mathlib.Tactic.Ring

/-!
# Lemmas about drawings
-/

namespace CrowdDynamics

open Spec

/-! ## Ranges -/

lemma pyMin_spec {x : List ℝ} (h : x ≠ []) : ∃ m, pyMin x = .ok m ∧ IsLeast {v | v ∈ x} m := by
  cases x with
  | nil => exact absurd rfl h
  | cons a l =>
    refine ⟨_, rfl, ?_⟩
    clear h
    induction l generalizing a with
    | nil => exact ⟨by simp, fun v hv => by simp at hv; exact hv.ge⟩
    | cons b l ih =>
      rw [List.foldl_cons]
      obtain ⟨h1, h2⟩ := ih (min a b)
      constructor
      · rcases List.mem_cons.1 h1 with h | h
        · rw [Set.mem_ofPred_eq, h]
          rcases min_choice a b with h | h <;> rw [h] <;> simp
        · exact List.mem_cons_of_mem _ (List.mem_cons_of_mem _ h)
      · intro v hv
        rcases List.mem_cons.1 hv with rfl | hv
        · exact (h2 (List.mem_cons_self)).trans (min_le_left _ _)
        · rcases List.mem_cons.1 hv with rfl | hv
          · exact (h2 (List.mem_cons_self)).trans (min_le_right _ _)
          · exact h2 (List.mem_cons_of_mem _ hv)

lemma pyMax_spec {x : List ℝ} (h : x ≠ []) : ∃ m, pyMax x = .ok m ∧ IsGreatest {v | v ∈ x} m := by
  cases x with
  | nil => exact absurd rfl h
  | cons a l =>
    refine ⟨_, rfl, ?_⟩
    clear h
    induction l generalizing a with
    | nil => exact ⟨by simp, fun v hv => by simp at hv; exact hv.le⟩
    | cons b l ih =>
      rw [List.foldl_cons]
      obtain ⟨h1, h2⟩ := ih (max a b)
      constructor
      · rcases List.mem_cons.1 h1 with h | h
        · rw [Set.mem_ofPred_eq, h]
          rcases max_choice a b with h | h <;> rw [h] <;> simp
        · exact List.mem_cons_of_mem _ (List.mem_cons_of_mem _ h)
      · intro v hv
        rcases List.mem_cons.1 hv with rfl | hv
        · exact (le_max_left _ _).trans (h2 (List.mem_cons_self))
        · rcases List.mem_cons.1 hv with rfl | hv
          · exact (le_max_right _ _).trans (h2 (List.mem_cons_self))
          · exact h2 (List.mem_cons_of_mem _ hv)

/-- The ranges in closed form. -/
lemma setAspect_spec {W H aspect margin : ℝ} {x y : List ℝ} (hx : x ≠ []) (hy : y ≠ []) (hW : 0 < W)
    (hH : 0 < H) (ha : 0 < aspect) :
    ∃ a b c d w h, IsLeast {v | v ∈ x} a ∧ IsGreatest {v | v ∈ x} b ∧ IsLeast {v | v ∈ y} c ∧
      IsGreatest {v | v ∈ y} d ∧
      setAspect W H x y aspect margin = .ok
        ((0.5 * (b + a) - 0.5 * w, 0.5 * (b + a) + 0.5 * w),
          (0.5 * (d + c) - 0.5 * h, 0.5 * (d + c) + 0.5 * h)) ∧
      0 < h ∧ w = aspect * (W / H) * h ∧
      (b - a) * (1 + 2 * margin) ≤ w ∧ (d - c) * (1 + 2 * margin) ≤ h ∧
      ((0 < (b - a) * (1 + 2 * margin) ∧ 0 < (d - c) * (1 + 2 * margin)) →
        w = (b - a) * (1 + 2 * margin) ∨ h = (d - c) * (1 + 2 * margin)) := by
  obtain ⟨a, ea, ha'⟩ := pyMin_spec hx
  obtain ⟨b, eb, hb'⟩ := pyMax_spec hx
  obtain ⟨c, ec, hc'⟩ := pyMin_spec hy
  obtain ⟨d, ed, hd'⟩ := pyMax_spec hy
  have hr : 0 < aspect * (W / H) := mul_pos ha (div_pos hW hH)
  obtain ⟨w0, hw0⟩ : ∃ w0, (if (b - a) * (1 + 2 * margin) ≤ 0 then (1.0 : ℝ)
    else (b - a) * (1 + 2 * margin)) = w0 := ⟨_, rfl⟩
  obtain ⟨h0, hh0⟩ : ∃ h0, (if (d - c) * (1 + 2 * margin) ≤ 0 then (1.0 : ℝ)
    else (d - c) * (1 + 2 * margin)) = h0 := ⟨_, rfl⟩
  have w1 : 0 < w0 ∧ (b - a) * (1 + 2 * margin) ≤ w0 ∧
      (0 < (b - a) * (1 + 2 * margin) → w0 = (b - a) * (1 + 2 * margin)) := by
    rw [← hw0]
    split_ifs with hc
    · exact ⟨by norm_num, hc.trans (by norm_num), fun h => absurd h (not_lt.2 hc)⟩
    · exact ⟨not_le.1 hc, le_rfl, fun _ => rfl⟩
  have h1 : 0 < h0 ∧ (d - c) * (1 + 2 * margin) ≤ h0 ∧
      (0 < (d - c) * (1 + 2 * margin) → h0 = (d - c) * (1 + 2 * margin)) := by
    rw [← hh0]
    split_ifs with hc
    · exact ⟨by norm_num, hc.trans (by norm_num), fun h => absurd h (not_lt.2 hc)⟩
    · exact ⟨not_le.1 hc, le_rfl, fun _ => rfl⟩
  have e : setAspect W H x y aspect margin =
      (do
        let wh ← if w0 < aspect * (W / H) * h0 then Except.ok (aspect * (W / H) * h0, h0)
          else do
            let h ← pyDiv w0 (aspect * (W / H))
            .ok (w0, h)
        .ok ((0.5 * (b + a) - 0.5 * wh.1, 0.5 * (b + a) + 0.5 * wh.1),
          (0.5 * (d + c) - 0.5 * wh.2, 0.5 * (d + c) + 0.5 * wh.2))) := by
    unfold setAspect
    simp only [ea, eb, ec, ed, bind, Except.bind, hw0, hh0, pyDiv, hH.ne', if_false]
  by_cases hlt : w0 < aspect * (W / H) * h0
  · refine ⟨a, b, c, d, aspect * (W / H) * h0, h0, ha', hb', hc', hd', ?_, h1.1, rfl,
      w1.2.1.trans hlt.le, h1.2.1, fun h => .inr (h1.2.2 h.2)⟩
    rw [e, if_pos hlt]
    rfl
  · refine ⟨a, b, c, d, w0, w0 / (aspect * (W / H)), ha', hb', hc', hd', ?_, div_pos w1.1 hr, ?_,
      w1.2.1, h1.2.1.trans ?_, fun h => .inl (w1.2.2 h.1)⟩
    · rw [e, if_neg hlt]
      simp only [pyDiv, hr.ne', if_false]
      rfl
    · field_simp
    · rw [le_div_iff₀ hr]
      linarith [not_lt.1 hlt]

/-! ## Geometries -/

lemma visible_append (a b : List Glyph) (p : Vec) :
    p ∈ visible (a ++ b) ↔ p ∈ visible a ∨ p ∈ visible b := by
  unfold visible
  simp only [Set.mem_ofPred_eq, List.mem_append]
  constructor
  · rintro ⟨g, hg | hg, h⟩
    · exact .inl ⟨g, hg, h⟩
    · exact .inr ⟨g, hg, h⟩
  · rintro (⟨g, hg, h⟩ | ⟨g, hg, h⟩)
    · exact ⟨g, .inl hg, h⟩
    · exact ⟨g, .inr hg, h⟩

lemma visible_single (g : Glyph) (p : Vec) : p ∈ visible [g] ↔ p ∈ shows g := by
  unfold visible; simp

mutual

lemma addGeom_proper (fig : List Glyph) : ∀ g : Geom, Proper g → ∃ new,
    addGeom fig g = (.ok (), fig ++ new) ∧ (∀ p, PointOf g p → p ∈ visible new) ∧
    (Solid g → ∀ p ∈ visible new, PointOf g p)
  | .point q, _ => ⟨[.circle q], by rw [addGeom],
      fun p h => by cases h; rw [visible_single]; rfl,
      fun _ p h => by rw [visible_single] at h; cases h; exact .point _⟩
  | .lineString c, _ => ⟨[.line c], by rw [addGeom],
      fun p h => by cases h with | line h => rw [visible_single]; exact h,
      fun _ p h => by rw [visible_single] at h; exact .line h⟩
  | .polygon ext holes, _ => ⟨[.patch ext], by rw [addGeom],
      fun p h => by cases h with | polygon h _ => rw [visible_single]; exact h,
      fun hs p h => by
        rw [visible_single] at h
        cases hs
        exact .polygon h (by simp)⟩
  | .multi gs, h => by
    obtain ⟨new, h1, h2, h3⟩ := addGeoms_proper fig gs (by cases h; assumption)
    refine ⟨new, by rw [addGeom, h1], ?_, ?_⟩
    · intro p hp
      cases hp with
      | part hg hp => exact h2 _ hg p hp
    · intro hs p hp
      cases hs with
      | multi hs =>
        obtain ⟨g, hg, h⟩ := h3 hs p hp
        exact .part hg h
  | .other, h => by cases h

lemma addGeoms_proper (fig : List Glyph) : ∀ gs : List Geom, (∀ g ∈ gs, Proper g) → ∃ new,
    addGeoms fig gs = (.ok (), fig ++ new) ∧ (∀ g ∈ gs, ∀ p, PointOf g p → p ∈ visible new) ∧
    ((∀ g ∈ gs, Solid g) → ∀ p ∈ visible new, ∃ g ∈ gs, PointOf g p)
  | [], _ => ⟨[], by rw [addGeoms, List.append_nil], by simp, fun _ p h => by
      unfold visible at h; simp at h⟩
  | g :: gs, h => by
    obtain ⟨n1, a1, a2, a3⟩ := addGeom_proper fig g (h g List.mem_cons_self)
    obtain ⟨n2, b1, b2, b3⟩ := addGeoms_proper (fig ++ n1) gs
      fun g hg => h g (List.mem_cons_of_mem _ hg)
    refine ⟨n1 ++ n2, ?_, ?_, ?_⟩
    · rw [addGeoms, a1]
      simp only
      rw [b1, List.append_assoc]
    · intro g' hg' p hp
      rw [visible_append]
      rcases List.mem_cons.1 hg' with rfl | hg'
      · exact .inl (a2 p hp)
      · exact .inr (b2 g' hg' p hp)
    · intro hs p hp
      rw [visible_append] at hp
      rcases hp with hp | hp
      · exact ⟨g, List.mem_cons_self, a3 (hs g List.mem_cons_self) p hp⟩
      · obtain ⟨g', hg', h⟩ := b3 (fun g hg => hs g (List.mem_cons_of_mem _ hg)) p hp
        exact ⟨g', List.mem_cons_of_mem _ hg', h⟩

end

mutual

lemma addGeom_improper (fig : List Glyph) : ∀ g : Geom, ¬ Proper g → ∃ new,
    addGeom fig g = (.error .type, fig ++ new) ∧ (Solid g → False)
  | .point q, h => absurd (.point q) h
  | .lineString c, h => absurd (.line c) h
  | .polygon ext holes, h => absurd (.polygon ext holes) h
  | .multi gs, h => by
    obtain ⟨new, h1, h2⟩ := addGeoms_improper fig gs (by
      by_contra hc
      push Not at hc
      exact h (.multi hc))
    refine ⟨new, by rw [addGeom, h1], fun hs => ?_⟩
    cases hs with
    | multi hs => exact h2 hs
  | .other, _ => ⟨[], by rw [addGeom, List.append_nil], fun h => by cases h⟩

lemma addGeoms_improper (fig : List Glyph) : ∀ gs : List Geom, (∃ g ∈ gs, ¬ Proper g) → ∃ new,
    addGeoms fig gs = (.error .type, fig ++ new) ∧ ((∀ g ∈ gs, Solid g) → False)
  | [], h => by simp at h
  | g :: gs, h => by
    by_cases hg : Proper g
    · obtain ⟨n1, a1, -⟩ := addGeom_proper fig g hg
      obtain ⟨n2, b1, b2⟩ := addGeoms_improper (fig ++ n1) gs (by
        obtain ⟨g', hg', h⟩ := h
        rcases List.mem_cons.1 hg' with rfl | hg'
        · exact absurd hg h
        · exact ⟨g', hg', h⟩)
      refine ⟨n1 ++ n2, ?_, fun hs => b2 fun g hg => hs g (List.mem_cons_of_mem _ hg)⟩
      rw [addGeoms, a1]
      simp only
      rw [b1, List.append_assoc]
    · obtain ⟨n1, a1, a2⟩ := addGeom_improper fig g hg
      exact ⟨n1, by rw [addGeoms, a1], fun hs => a2 (hs g List.mem_cons_self)⟩

end

lemma addField_proper (fig : List Glyph) (f : Field) (hf : AllOf Proper f) (hd : f.domain ≠ none)
    (ho : f.obstacles ≠ none) : ∃ new, addField fig f = (.ok (), fig ++ new) ∧
    (∀ p, PointOfField f p → p ∈ visible new) ∧
    (AllOf Solid f → ∀ p ∈ visible new, PointOfField f p) := by
  obtain ⟨d, hd⟩ := Option.ne_none_iff_exists'.1 hd
  obtain ⟨o, ho⟩ := Option.ne_none_iff_exists'.1 ho
  obtain ⟨n1, a1, a2, a3⟩ := addGeom_proper fig _ (hf.1 d hd)
  obtain ⟨n2, b1, b2, b3⟩ := addGeoms_proper (fig ++ n1) _ hf.2.1
  obtain ⟨n3, c1, c2, c3⟩ := addGeoms_proper (fig ++ n1 ++ n2) _ hf.2.2.1
  obtain ⟨n4, d1, d2, d3⟩ := addGeom_proper (fig ++ n1 ++ n2 ++ n3) _ (hf.2.2.2 o ho)
  refine ⟨n1 ++ (n2 ++ (n3 ++ n4)), ?_, ?_, ?_⟩
  · unfold addField
    rw [ho, Field.optDomain, hd, Option.map_some]
    simp only [optGeom]
    rw [a1]; simp only
    rw [b1]; simp only
    rw [c1]; simp only
    rw [d1]
    simp only [List.append_assoc]
  · intro p hp
    simp only [visible_append]
    rcases hp with ⟨d', e, h⟩ | ⟨g, hg, h⟩ | ⟨g, hg, h⟩ | ⟨g, e, h⟩
    · rw [hd] at e; cases e; exact .inl (a2 p h)
    · exact .inr (.inl (b2 g hg p h))
    · exact .inr (.inr (.inl (c2 g hg p h)))
    · rw [ho] at e; cases e; exact .inr (.inr (.inr (d2 p h)))
  · intro hs p hp
    simp only [visible_append] at hp
    rcases hp with h | h | h | h
    · exact .inl ⟨d, hd, a3 (hs.1 d hd) p h⟩
    · exact .inr (.inl (b3 hs.2.1 p h))
    · exact .inr (.inr (.inl (c3 hs.2.2.1 p h)))
    · exact .inr (.inr (.inr ⟨o, ho, d3 (hs.2.2.2 o ho) p h⟩))

/-- Without a domain or without obstacles, a `TypeError` is raised. -/
lemma addField_none (fig : List Glyph) (f : Field) (hf : AllOf Proper f)
    (h : f.domain = none ∨ f.obstacles = none) : ∃ new, addField fig f = (.error .type, fig ++ new) := by
  unfold addField
  cases hd : f.domain with
  | none =>
    rw [Field.optDomain, hd, Option.map_none]
    refine ⟨[], ?_⟩
    simp only [optGeom, addGeom, List.append_nil]
  | some d =>
    have ho : f.obstacles = none := by
      rcases h with h | h
      · rw [hd] at h; cases h
      · exact h
    obtain ⟨n1, a1, -⟩ := addGeom_proper fig _ (hf.1 d hd)
    obtain ⟨n2, b1, -⟩ := addGeoms_proper (fig ++ n1) _ hf.2.1
    obtain ⟨n3, c1, -⟩ := addGeoms_proper (fig ++ n1 ++ n2) _ hf.2.2.1
    refine ⟨n1 ++ (n2 ++ n3), ?_⟩
    rw [ho, Field.optDomain, hd, Option.map_some]
    simp only [optGeom]
    rw [a1]; simp only
    rw [b1]; simp only
    rw [c1]; simp only
    rw [addGeom]
    simp only [List.append_assoc]

/-! ## Maps -/

lemma everyNth_length {α β : Type} {g : Grid α} {h : Grid β} (hr : g.rows = h.rows)
    (hc : g.cols = h.cols) (freq : ℕ) : (everyNth g freq).length = (everyNth h freq).length := by
  unfold everyNth
  rw [hr, hc]
  simp [List.length_flatMap]

lemma pixel_range (step : ℝ) (hs : 0 < step) (a j : ℕ) (hj : j < a + 1) :
    (j : ℝ) * (a * step / ((a + 1 : ℕ) : ℝ)) ≤ j * step ∧
    (j : ℝ) * step ≤ (j + 1) * (a * step / ((a + 1 : ℕ) : ℝ)) := by
  have h0 : (0 : ℝ) < a + 1 := by positivity
  have hj' : (j : ℝ) ≤ a := by exact_mod_cast Nat.lt_succ_iff.1 hj
  have hjn : (0 : ℝ) ≤ j := Nat.cast_nonneg _
  push_cast
  constructor
  · refine mul_le_mul_of_nonneg_left ?_ hjn
    rw [div_le_iff₀ h0]
    nlinarith
  · rw [mul_div_assoc', le_div_iff₀ h0]
    nlinarith

lemma mem_everyNth {α : Type} (g : Grid α) (freq : ℕ) (hf : 0 < freq) (v : α) :
    v ∈ everyNth g freq ↔
      ∃ i < g.rows, ∃ j < g.cols, freq ∣ i ∧ freq ∣ j ∧ g.val i j = v := by
  have key : ∀ k m : ℕ, k < (m + freq - 1) / freq ↔ k * freq < m := by
    intro k m
    rw [Nat.lt_div_iff_mul_lt hf]
    omega
  unfold everyNth
  simp only [List.mem_flatMap, List.mem_range, List.mem_map, key]
  constructor
  · rintro ⟨i, hi, j, hj, rfl⟩
    exact ⟨i * freq, hi, j * freq, hj, Dvd.intro_left i rfl, Dvd.intro_left j rfl, rfl⟩
  · rintro ⟨i, hi, j, hj, ⟨a, rfl⟩, ⟨b, rfl⟩, rfl⟩
    exact ⟨a, by rwa [mul_comm], b, by rwa [mul_comm], by rw [mul_comm a, mul_comm b]⟩

lemma zip_flatMap {ι α β : Type} (l : List ι) (f : ι → List α) (g : ι → List β)
    (h : ∀ i ∈ l, (f i).length = (g i).length) :
    (l.flatMap f).zip (l.flatMap g) = l.flatMap fun i => (f i).zip (g i) := by
  induction l with
  | nil => rfl
  | cons a l ih =>
    simp only [List.flatMap_cons]
    rw [List.zip_append (h a List.mem_cons_self), ih fun i hi => h i (List.mem_cons_of_mem _ hi)]

lemma everyNth_zip {α β : Type} (g : Grid α) (h : Grid β) (hr : g.rows = h.rows)
    (hc : g.cols = h.cols) (freq : ℕ) : (everyNth g freq).zip (everyNth h freq) =
      everyNth ⟨g.rows, g.cols, fun i j => (g.val i j, h.val i j)⟩ freq := by
  unfold everyNth
  rw [← hr, ← hc, zip_flatMap _ _ _ (by simp)]
  simp only [List.zip_map', List.flatMap_def]

/-! ## File names -/

lemma splitextExt_iff (name w : Text) (hw : '.' ∉ w) :
    splitextExt name = '.' :: w ↔ ∃ stem : Text, name = stem ++ '.' :: w ∧ ∃ c ∈ stem, c ≠ '.' := by
  unfold splitextExt
  simp only
  obtain ⟨tail, htail⟩ : ∃ t, (name.reverse.takeWhile fun c => decide (c ≠ '.')) = t := ⟨_, rfl⟩
  rw [htail]
  constructor
  · intro h
    split_ifs at h with hc
    exact ⟨name.take (name.length - tail.length - 1), by rw [← h, List.take_append_drop], hc.2⟩
  · rintro ⟨stem, rfl, hc⟩
    have ht : tail = w.reverse := by
      rw [← htail, List.reverse_append, List.reverse_cons, List.append_assoc,
        List.takeWhile_append_of_pos]
      · simp
      · intro c hc
        simp only [List.mem_reverse] at hc
        simp only [decide_eq_true_eq]
        rintro rfl
        exact hw hc
    subst ht
    have hl : (stem ++ '.' :: w).length - w.reverse.length - 1 = stem.length := by
      simp
      omega
    rw [hl, List.take_left, List.drop_left, if_pos ⟨by simp, hc⟩]

lemma splitext_iff (path w : Text) (hw : '.' ∉ w) (hw' : '/' ∉ w) :
    (splitext path).2 = '.' :: w ↔ HasExtension path ('.' :: w) := by
  unfold splitext HasExtension
  simp only
  rw [splitextExt_iff _ _ hw]
  constructor
  · rintro ⟨stem, h, hc⟩
    obtain ⟨name, hn⟩ : ∃ t, (path.reverse.takeWhile fun c => decide (c ≠ '/')) = t := ⟨_, rfl⟩
    have hp : path = (path.reverse.dropWhile fun c => decide (c ≠ '/')).reverse ++ stem ++ '.' :: w := by
      rw [List.append_assoc, ← h, ← List.reverse_append, List.takeWhile_append_dropWhile,
        List.reverse_reverse]
    refine ⟨_, stem, hp, ?_, ?_, hc⟩
    · cases hd : path.reverse.dropWhile fun c => decide (c ≠ '/') with
      | nil => left; rfl
      | cons a l =>
        right
        have : a = '/' := by
          have := List.head?_dropWhile_not (fun c : Char => decide (c ≠ '/')) path.reverse
          rw [hd] at this
          simpa using this
        exact ⟨l.reverse, by rw [List.reverse_cons, this]⟩
    · intro hs
      have : '/' ∈ path.reverse.takeWhile fun c => decide (c ≠ '/') := by
        rw [← List.mem_reverse, h]
        exact List.mem_append_left _ hs
      simpa using List.all_eq_true.1 List.all_takeWhile _ this
  · rintro ⟨dir, stem, rfl, hdir, hs, hc⟩
    refine ⟨stem, ?_, hc⟩
    have hns : ∀ c ∈ ('.' :: w).reverse ++ stem.reverse, decide (c ≠ '/') = true := by
      intro c hc
      simp only [decide_eq_true_eq]
      rintro rfl
      simp only [List.mem_append, List.mem_reverse, List.mem_cons] at hc
      rcases hc with (hc | hc) | hc
      · cases hc
      · exact hw' hc
      · exact hs hc
    rw [List.append_assoc, List.reverse_append, List.reverse_append, List.takeWhile_append_of_pos hns]
    have : (dir.reverse.takeWhile fun c => decide (c ≠ '/')) = [] := by
      rcases hdir with rfl | ⟨d, rfl⟩
      · rfl
      · simp
    rw [this, List.append_nil, List.reverse_append, List.reverse_reverse, List.reverse_reverse]

end CrowdDynamics
