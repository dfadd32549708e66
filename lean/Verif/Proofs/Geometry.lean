import Verif.Spec.Outline

/-!
# Lemmas for C58–C60
-/

namespace CrowdDynamics

open Spec

lemma segmentsOf_eq (c : List Vec) : segmentsOf c = consecutive c := by
  induction c with
  | nil => rfl
  | cons a t ih =>
    cases t with
    | nil => rfl
    | cons b t => simpa [segmentsOf, consecutive] using ih

lemma consecutive_length (c : List Vec) : (consecutive c).length = c.length - 1 := by
  rw [← segmentsOf_eq]; simp [segmentsOf]

lemma consecutive_getElem? (c : List Vec) (i : ℕ) (s : Vec × Vec) :
    (consecutive c)[i]? = some s ↔ c[i]? = some s.1 ∧ c[i + 1]? = some s.2 := by
  induction c generalizing i with
  | nil => simp [consecutive]
  | cons a t ih =>
    cases t with
    | nil => simp [consecutive]
    | cons b t =>
      cases i with
      | zero => simp [consecutive, Prod.ext_iff]
      | succ i => simpa [consecutive] using ih i

/-- Polygons count only with the shell. -/
lemma geomToLinesegment_shells {g : Geom} (h : Supported g) :
    geomToLinesegment g = .ok (outline (fillHoles g)) := by
  induction h with
  | point p => simp [geomToLinesegment, outline, fillHoles]
  | lineString c => simp [geomToLinesegment, outline, fillHoles, segmentsOf_eq]
  | polygon ext ints => simp [geomToLinesegment, outline, fillHoles, segmentsOf_eq]
  | multi parts _ ih =>
    simp only [geomToLinesegment, fillHoles, outline]
    induction parts with
    | nil => simp [geomsToLinesegment, fillHolesAll, outlines]
    | cons g gs ihg =>
      have h1 := ih g (by simp)
      have h2 := ihg (fun g hg => by rename_i h; exact h g (by simp [hg]))
        fun g hg => ih g (by simp [hg])
      simp only [geomsToLinesegment, h1, h2, fillHolesAll, outlines]
      rfl

lemma HoleFree.fill {g : Geom} (h : HoleFree g) : fillHoles g = g := by
  induction h with
  | point p => simp [fillHoles]
  | lineString c => simp [fillHoles]
  | polygon ext => simp [fillHoles]
  | multi parts _ ih =>
    rw [fillHoles]
    congr 1
    induction parts with
    | nil => simp [fillHolesAll]
    | cons g gs ihg =>
      rw [fillHolesAll, ih g (by simp),
        ihg (fun g hg => by rename_i h; exact h g (by simp [hg])) fun g hg => ih g (by simp [hg])]

lemma HoleFree.supported {g : Geom} (h : HoleFree g) : Supported g := by
  induction h with
  | point p => exact .point p
  | lineString c => exact .lineString c
  | polygon ext => exact .polygon ext _
  | multi parts _ ih => exact .multi parts ih

/-! ### `geom_to_array` -/

lemma coords_cut (r r' : List Vec) (f f' : GeomFlag) (s s' : List GeomRow)
    (h : r.map GeomRow.coord ++ .flag f :: s = r'.map GeomRow.coord ++ .flag f' :: s') :
    r = r' ∧ f = f' ∧ s = s' := by
  induction r generalizing r' with
  | nil =>
    cases r' with
    | nil => simpa using h
    | cons a t => simp at h
  | cons a t ih =>
    cases r' with
    | nil => simp at h
    | cons b t' =>
      simp only [List.map_cons, List.cons_append, List.cons.injEq, GeomRow.coord.injEq] at h
      obtain ⟨h1, h2, h3⟩ := ih t' h.2
      exact ⟨by rw [h.1, h1], h2, h3⟩

lemma coord_map_injective {r r' : List Vec} (h : r.map GeomRow.coord = r'.map GeomRow.coord) :
    r = r' :=
  List.map_injective_iff.2 (fun _ _ e => by simpa using e) h

/-- The rows of a polygon. -/
def polygonRows (ext : List Vec) : List (List Vec) → List GeomRow
  | [] => .flag .polygonShell :: ext.map .coord
  | r :: rs => .flag .polygonHole :: (r.map .coord ++ polygonRows ext rs)

lemma polygonRows_head (ext : List Vec) (rs : List (List Vec)) :
    ∃ f s, polygonRows ext rs = .flag f :: s := by
  cases rs <;> exact ⟨_, _, rfl⟩

lemma polygonRows_injective (ext ext' : List Vec) (rs rs' : List (List Vec))
    (h : polygonRows ext rs = polygonRows ext' rs') : ext = ext' ∧ rs = rs' := by
  induction rs generalizing rs' with
  | nil =>
    cases rs' with
    | nil =>
      simp only [polygonRows, List.cons.injEq, true_and] at h
      exact ⟨coord_map_injective h, rfl⟩
    | cons r' rs' => simp [polygonRows] at h
  | cons r rs ih =>
    cases rs' with
    | nil => simp [polygonRows] at h
    | cons r' rs' =>
      simp only [polygonRows, List.cons.injEq, true_and] at h
      obtain ⟨f, s, e⟩ := polygonRows_head ext rs
      obtain ⟨f', s', e'⟩ := polygonRows_head ext' rs'
      have h' := h
      rw [e, e'] at h'
      obtain ⟨h1, h2, h3⟩ := coords_cut _ _ _ _ _ _ h'
      have := ih rs' (by rw [e, e', h2, h3])
      exact ⟨this.1, by rw [h1, this.2]⟩

lemma geomToArray_polygon (ext : List Vec) (rs : List (List Vec)) :
    geomToArray (.polygon ext rs) = .ok (polygonRows ext rs) := by
  have key : ((rs.flatMap (fun r => [[.flag .polygonHole], r.map .coord]) ++
      [[.flag .polygonShell], ext.map .coord] : List (List GeomRow))).flatten =
      polygonRows ext rs := by
    induction rs with
    | nil => simp [polygonRows]
    | cons r rs ih =>
      simp only [List.flatMap_cons, List.cons_append, List.nil_append,
        List.flatten_cons, polygonRows, ih]
  have : ∀ l : List (List GeomRow), l ≠ [] → npConcatenate l = .ok l.flatten := by
    intro l hl
    cases l with
    | nil => exact absurd rfl hl
    | cons a t => rfl
  simp only [geomToArray, geomToArrayParts]
  show npConcatenate _ = _
  rw [this _ (by simp), key]

/-! ### `draw_geom` -/

lemma npIndex_iff (size : ℕ) (k : ℤ) (i : ℕ) : npIndex size k = some i ↔ Place size k i := by
  unfold npIndex Place
  split_ifs with h1 h2
  · simp only [Option.some.injEq]; omega
  · simp only [Option.some.injEq]; omega
  · simp only [false_iff]; omega

lemma npIndex_none (size : ℕ) (k : ℤ) : npIndex size k ≠ none ↔ ∃ i, Place size k i := by
  rw [Option.ne_none_iff_exists']
  simp [npIndex_iff]

/-- The cell `(i, j)` is one of the pixels. -/
def Hit (rows cols : ℕ) (px : List (ℤ × ℤ)) (i j : ℕ) : Prop := ∃ p ∈ px, PixelAt rows cols p i j

/-- All pixels are inside of the grid. -/
def Fits (rows cols : ℕ) (px : List (ℤ × ℤ)) : Prop := ∀ p ∈ px, ∃ i j, PixelAt rows cols p i j

open Classical in
/-- The grid with the pixels painted. -/
noncomputable def painted {α : Type} (g : Grid α) (px : List (ℤ × ℤ)) (v : α) : Grid α :=
  ⟨g.rows, g.cols, fun i j => if Hit g.rows g.cols px i j then v else g.val i j⟩

open Classical in
lemma paint_eq {α : Type} (g : Grid α) (px : List (ℤ × ℤ)) (v : α) :
    paint g px v = if Fits g.rows g.cols px then .ok (painted g px v) else .error .index := by
  have e : (∀ p ∈ px, npIndex g.rows p.2 ≠ none ∧ npIndex g.cols p.1 ≠ none) ↔
      Fits g.rows g.cols px := by
    unfold Fits PixelAt
    simp only [npIndex_none]
    constructor
    · rintro h p hp
      obtain ⟨⟨i, hi⟩, j, hj⟩ := h p hp
      exact ⟨i, j, hi, hj⟩
    · rintro h p hp
      obtain ⟨i, j, hi, hj⟩ := h p hp
      exact ⟨⟨i, hi⟩, j, hj⟩
  unfold paint
  by_cases h : Fits g.rows g.cols px
  · rw [if_pos (e.2 h), if_pos h]
    congr 2
    funext i j
    have : (∃ p ∈ px, npIndex g.rows p.2 = some i ∧ npIndex g.cols p.1 = some j) ↔
        Hit g.rows g.cols px i j := by simp only [Hit, PixelAt, npIndex_iff]
    by_cases h' : Hit g.rows g.cols px i j
    · rw [if_pos (this.2 h'), if_pos h']
    · rw [if_neg (fun h => h' (this.1 h)), if_neg h']
  · rw [if_neg (fun h' => h (e.1 h')), if_neg h]

open Classical in
/-- What painting the pixels `px` in one go would do. -/
noncomputable def paintSpec {α : Type} (g : Grid α) (px : List (ℤ × ℤ)) (v : α) :
    Except PyErr (Grid α) :=
  if Fits g.rows g.cols px then .ok (painted g px v) else .error .index

lemma fits_append {r c : ℕ} {a b : List (ℤ × ℤ)} : Fits r c (a ++ b) ↔ Fits r c a ∧ Fits r c b := by
  simp only [Fits, List.mem_append]
  exact ⟨fun h => ⟨fun p hp => h p (.inl hp), fun p hp => h p (.inr hp)⟩,
    fun h p hp => hp.elim (h.1 p) (h.2 p)⟩

lemma painted_append {α : Type} (g : Grid α) (a b : List (ℤ × ℤ)) (v : α) :
    painted (painted g a v) b v = painted g (a ++ b) v := by
  unfold painted
  simp only [Grid.mk.injEq, true_and]
  funext i j
  have e : Hit g.rows g.cols (a ++ b) i j ↔ Hit g.rows g.cols a i j ∨ Hit g.rows g.cols b i j := by
    simp only [Hit, List.mem_append]
    constructor
    · rintro ⟨p, hp | hp, h⟩
      · exact .inl ⟨p, hp, h⟩
      · exact .inr ⟨p, hp, h⟩
    · rintro (⟨p, hp, h⟩ | ⟨p, hp, h⟩)
      · exact ⟨p, .inl hp, h⟩
      · exact ⟨p, .inr hp, h⟩
  by_cases h1 : Hit g.rows g.cols b i j
  · rw [if_pos h1, if_pos (e.2 (.inr h1))]
  · by_cases h2 : Hit g.rows g.cols a i j
    · rw [if_neg h1, if_pos h2, if_pos (e.2 (.inl h2))]
    · rw [if_neg h1, if_neg h2, if_neg (fun h => (e.1 h).elim h2 h1)]

lemma paintSpec_append {α : Type} (g : Grid α) (a b : List (ℤ × ℤ)) (v : α) :
    (paintSpec g a v >>= fun g => paintSpec g b v) = paintSpec g (a ++ b) v := by
  unfold paintSpec
  rw [fits_append]
  by_cases ha : Fits g.rows g.cols a
  · rw [if_pos ha]
    show paintSpec (painted g a v) b v = _
    unfold paintSpec
    by_cases hb : Fits g.rows g.cols b
    · rw [if_pos (show Fits (painted g a v).rows (painted g a v).cols b from hb), if_pos ⟨ha, hb⟩,
        painted_append]
    · rw [if_neg (show ¬ Fits (painted g a v).rows (painted g a v).cols b from hb),
        if_neg (fun h => hb h.2)]
  · rw [if_neg ha, if_neg (fun h => ha h.1)]
    rfl

lemma paintSpec_nil {α : Type} (g : Grid α) (v : α) : paintSpec g [] v = .ok g := by
  unfold paintSpec
  rw [if_pos (by intro p hp; simp at hp)]
  congr 1
  unfold painted
  simp [Hit]

lemma drawGeom_eq {α : Type} (lib : DrawLib) (zero : α) (ix : Vec → ℤ × ℤ) (v : α) {g : Geom}
    (h : HoleFree g) (grid : Grid α) :
    drawGeom lib zero ix v g grid = paintSpec grid (pixels lib ix g) v := by
  induction h generalizing grid with
  | point p => simp [drawGeom, pixels, paintSpec_nil]
  | lineString c =>
    simp only [drawGeom, pixels, segmentsOf_eq]
    induction consecutive c generalizing grid with
    | nil => simp only [List.foldlM_nil, List.map_nil, List.flatten_nil, paintSpec_nil]; rfl
    | cons s t ih =>
      rw [List.foldlM_cons, paint_eq, List.map_cons, List.flatten_cons, ← paintSpec_append]
      exact congrArg _ (funext fun g => ih g)
  | polygon ext =>
    simp only [drawGeom, pixels, List.foldlM_nil]
    rw [paint_eq, ← paintSpec_append]
    refine congrArg _ (funext fun g => ?_)
    rw [paint_eq]
    exact bind_pure _
  | multi parts _ ih =>
    simp only [drawGeom, pixels]
    induction parts generalizing grid with
    | nil => simp [drawGeoms, pixelsAll, paintSpec_nil]
    | cons g gs ihg =>
      rw [drawGeoms, pixelsAll, ← paintSpec_append, ih g (by simp)]
      refine congrArg _ (funext fun g' => ?_)
      exact ihg (fun g hg => by rename_i h; exact h g (by simp [hg]))
        (fun g hg => ih g (by simp [hg])) g'

/-- The cells of `new` have the value of `old` or one of the two given values. -/
def Among {α : Type} (old new : Grid α) (v w : α) : Prop :=
  new.rows = old.rows ∧ new.cols = old.cols ∧
    ∀ i j, new.val i j = old.val i j ∨ new.val i j = v ∨ new.val i j = w

lemma paint_among {α : Type} {old g g' : Grid α} {px : List (ℤ × ℤ)} {v w x : α}
    (hx : x = v ∨ x = w) (hg : Among old g v w) (h : paint g px x = .ok g') :
    Among old g' v w := by
  rw [paint_eq] at h
  split_ifs at h
  cases h
  refine ⟨hg.1, hg.2.1, fun i j => ?_⟩
  simp only [painted]
  split_ifs
  · exact .inr hx
  · exact hg.2.2 i j

lemma foldlM_among {α β : Type} {old : Grid α} {v w x : α} (hx : x = v ∨ x = w)
    (px : β → List (ℤ × ℤ)) (l : List β) {g g' : Grid α} (hg : Among old g v w)
    (h : l.foldlM (fun g s => paint g (px s) x) g = .ok g') : Among old g' v w := by
  induction l generalizing g with
  | nil => cases h; exact hg
  | cons a t ih =>
    rw [List.foldlM_cons] at h
    cases e : paint g (px a) x with
    | error err => rw [e] at h; cases h
    | ok g1 => rw [e] at h; exact ih (paint_among hx hg e) h

lemma drawGeom_among {α : Type} (lib : DrawLib) (zero : α) (ix : Vec → ℤ × ℤ) (v : α) {g : Geom}
    (h : Supported g) (old grid grid' : Grid α) (hg : Among old grid v zero)
    (hd : drawGeom lib zero ix v g grid = .ok grid') : Among old grid' v zero := by
  induction h generalizing grid grid' with
  | point p => simp only [drawGeom] at hd; cases hd; exact hg
  | lineString c =>
    simp only [drawGeom] at hd
    exact foldlM_among (.inl rfl) (fun s : Vec × Vec => lib.line (ix s.1) (ix s.2)) _ hg hd
  | polygon ext ints =>
    simp only [drawGeom] at hd
    cases e1 : paint grid (lib.polygon (ext.map ix)) v with
    | error err => rw [e1] at hd; cases hd
    | ok g1 =>
      rw [e1] at hd
      cases e2 : paint g1 (lib.perimeter (ext.map ix)) v with
      | error err =>
        replace hd : (paint g1 (lib.perimeter (ext.map ix)) v >>= _) = _ := hd
        rw [e2] at hd; cases hd
      | ok g2 =>
        replace hd : (paint g1 (lib.perimeter (ext.map ix)) v >>= _) = _ := hd
        rw [e2] at hd
        exact foldlM_among (.inr rfl) (fun r : List Vec => lib.polygon (r.map ix)) _
          (paint_among (.inl rfl) (paint_among (.inl rfl) hg e1) e2) hd
  | multi parts _ ih =>
    simp only [drawGeom] at hd
    rename_i hs
    induction parts generalizing grid with
    | nil => simp only [drawGeoms] at hd; cases hd; exact hg
    | cons g gs ihg =>
      rw [drawGeoms] at hd
      cases e : drawGeom lib zero ix v g grid with
      | error err => rw [e] at hd; cases hd
      | ok g1 =>
        rw [e] at hd
        exact ihg (fun g hg => hs g (by simp [hg])) (fun g hg => ih g (by simp [hg])) g1 (ih g (by simp) _ _ hg e) hd

end CrowdDynamics
