import Verif.Proofs.Geometry
import Verif.Spec.Body
import Verif.Proofs.BodyType
import Verif.Proofs.IO
import Verif.Proofs.Guidance

/-!
# Helper lemmas about refused input
-/

namespace CrowdDynamics

open Spec

mutual

lemma segments_ok : ∀ (g : Geom) (s : List (Vec × Vec)), geomToLinesegment g = .ok s → Supported g
  | .point p, _, _ => .point p
  | .lineString c, _, _ => .lineString c
  | .polygon e r, _, _ => .polygon e r
  | .multi parts, s, h => .multi parts (segments_all_ok parts s (by
      rw [geomToLinesegment] at h; exact h))
  | .other, s, h => by rw [geomToLinesegment] at h; cases h

lemma segments_all_ok : ∀ (gs : List Geom) (s : List (Vec × Vec)), geomsToLinesegment gs = .ok s →
    ∀ g ∈ gs, Supported g
  | [], _, _ => by simp
  | g :: gs, s, h => by
    rw [geomsToLinesegment] at h
    obtain ⟨a, h1, h⟩ := bind_ok h
    obtain ⟨b, h2, -⟩ := bind_ok h
    intro g' hg
    rcases List.mem_cons.1 hg with hg | hg
    · rw [hg]; exact segments_ok g _ h1
    · exact segments_all_ok gs b h2 g' hg

end

mutual

lemma segments_error : ∀ (g : Geom) (e : PyErr), geomToLinesegment g = .error e → e = .type
  | .point p, e, h => by rw [geomToLinesegment] at h; cases h
  | .lineString c, e, h => by rw [geomToLinesegment] at h; cases h
  | .polygon _ _, e, h => by rw [geomToLinesegment] at h; cases h
  | .multi parts, e, h => by
    rw [geomToLinesegment] at h; exact segments_all_error parts e h
  | .other, e, h => by rw [geomToLinesegment] at h; cases h; rfl

lemma segments_all_error : ∀ (gs : List Geom) (e : PyErr), geomsToLinesegment gs = .error e →
    e = .type
  | [], e, h => by rw [geomsToLinesegment] at h; cases h
  | g :: gs, e, h => by
    rw [geomsToLinesegment] at h
    cases e1 : geomToLinesegment g with
    | error e' =>
      rw [e1] at h
      cases h
      exact segments_error g _ e1
    | ok a =>
      cases e2 : geomsToLinesegment gs with
      | error e' =>
        rw [e1, e2] at h
        cases h
        exact segments_all_error gs _ e2
      | ok b => rw [e1, e2] at h; cases h

end

lemma paint_error {α : Type} {g : Grid α} {px : List (ℤ × ℤ)} {v : α} {e : PyErr}
    (h : paint g px v = .error e) : e = .index := by
  unfold paint at h
  split_ifs at h
  cases h; rfl

lemma foldlM_paint_error {α β : Type} (px : β → List (ℤ × ℤ)) (v : α) (l : List β) :
    ∀ (g : Grid α) (e : PyErr), l.foldlM (fun g b => paint g (px b) v) g = .error e →
      e = .index := by
  induction l with
  | nil => intro g e h; cases h
  | cons b l ih =>
    intro g e h
    rw [List.foldlM_cons] at h
    cases e1 : paint g (px b) v with
    | error e' => rw [e1] at h; cases h; exact paint_error e1
    | ok g' => rw [e1] at h; exact ih g' e h

variable {α : Type} (lib : DrawLib) (zero : α) (ix : Vec → ℤ × ℤ) (v : α)

mutual

lemma draw_ok : ∀ (g : Geom) (grid new : Grid α), drawGeom lib zero ix v g grid = .ok new →
    Supported g
  | .point p, _, _, _ => .point p
  | .lineString c, _, _, _ => .lineString c
  | .polygon e r, _, _, _ => .polygon e r
  | .multi parts, grid, new, h => .multi parts (draw_all_ok parts grid new (by
      rw [drawGeom] at h; exact h))
  | .other, _, _, h => by rw [drawGeom] at h; cases h

lemma draw_all_ok : ∀ (gs : List Geom) (grid new : Grid α),
    drawGeoms lib zero ix v gs grid = .ok new → ∀ g ∈ gs, Supported g
  | [], _, _, _ => by simp
  | g :: gs, grid, new, h => by
    rw [drawGeoms] at h
    obtain ⟨a, h1, h⟩ := bind_ok h
    intro g' hg
    rcases List.mem_cons.1 hg with hg | hg
    · rw [hg]; exact draw_ok g _ _ h1
    · exact draw_all_ok gs a new h g' hg

end

mutual

lemma draw_error : ∀ (g : Geom) (grid : Grid α) (e : PyErr),
    drawGeom lib zero ix v g grid = .error e → e = .index ∨ (e = .type ∧ ¬ Supported g)
  | .point p, _, e, h => by rw [drawGeom] at h; cases h
  | .lineString c, grid, e, h => by
    rw [drawGeom] at h
    exact .inl (foldlM_paint_error (fun s : Vec × Vec => lib.line (ix s.1) (ix s.2)) v _ _ _ h)
  | .polygon ext ints, grid, e, h => by
    rw [drawGeom] at h
    left
    cases e1 : paint grid (lib.polygon (ext.map ix)) v with
    | error e' =>
      rw [e1] at h; cases h; exact paint_error e1
    | ok g1 =>
      rw [e1] at h
      replace h : (paint g1 (lib.perimeter (ext.map ix)) v >>= _) = _ := h
      cases e2 : paint g1 (lib.perimeter (ext.map ix)) v with
      | error e' => rw [e2] at h; cases h; exact paint_error e2
      | ok g2 =>
        rw [e2] at h
        exact foldlM_paint_error (fun r : List Vec => lib.polygon (r.map ix)) zero _ _ _ h
  | .multi parts, grid, e, h => by
    rw [drawGeom] at h
    rcases draw_all_error parts grid e h with h1 | ⟨h1, g, hg, h2⟩
    · exact .inl h1
    · refine .inr ⟨h1, fun hs => ?_⟩
      cases hs with
      | multi _ hs => exact h2 (hs g hg)
  | .other, _, e, h => by
    rw [drawGeom] at h
    cases h
    exact .inr ⟨rfl, fun hs => by cases hs⟩

lemma draw_all_error : ∀ (gs : List Geom) (grid : Grid α) (e : PyErr),
    drawGeoms lib zero ix v gs grid = .error e →
      e = .index ∨ (e = .type ∧ ∃ g ∈ gs, ¬ Supported g)
  | [], _, e, h => by rw [drawGeoms] at h; cases h
  | g :: gs, grid, e, h => by
    rw [drawGeoms] at h
    cases e1 : drawGeom lib zero ix v g grid with
    | error e' =>
      rw [e1] at h
      cases h
      rcases draw_error g grid _ e1 with h1 | ⟨h1, h2⟩
      · exact .inl h1
      · exact .inr ⟨h1, g, by simp, h2⟩
    | ok a =>
      rw [e1] at h
      rcases draw_all_error gs a _ h with h1 | ⟨h1, g', hg, h2⟩
      · exact .inl h1
      · exact .inr ⟨h1, g', by simp [hg], h2⟩

end

/-! ## Ranges of the attributes of bodies -/

lemma inRange_new : InRange BodyObj.new := fun a => ⟨le_rfl, fun _ => zero_le_one⟩

lemma inRange_store {b : BodyObj} {a : BodyAttr} {x : ℝ} (hb : InRange b) (ha : a.valid x) :
    InRange (b.store a x) := by
  intro a'
  rw [store_val]
  split_ifs with h
  · rw [h]; exact ha
  · exact hb a'

lemma inRange_assign {notify : BodyAttr → BodyObj → BodyOutcome} {a : BodyAttr}
    (hn : ∀ b, InRange b → InRange (notify a b).obj) {b : BodyObj} (hb : InRange b) (x : ℝ) :
    InRange (assign notify b a x).obj := by
  unfold assign
  split_ifs with h1 h2
  · exact hb
  · exact hn _ (inRange_store hb h1)
  · exact hb

lemma inRange_andThen {o : BodyOutcome} {f : BodyObj → BodyOutcome} (ho : InRange o.obj)
    (hf : ∀ b, InRange b → InRange (f b).obj) : InRange (o.andThen f).obj := by
  unfold BodyOutcome.andThen
  split_ifs
  · exact ho
  · exact hf _ ho

lemma inRange_plain {a : BodyAttr} {b : BodyObj} (hb : InRange b) (x : ℝ) :
    InRange (assign noObserver b a x).obj := inRange_assign (fun _ h => h) hb x

lemma inRange_inertia {b : BodyObj} (hb : InRange b) : InRange (observeInertiaRot b).obj := by
  unfold observeInertiaRot
  split_ifs
  · exact inRange_plain hb _
  · exact hb

lemma inRange_scale {q p : BodyAttr} {b : BodyObj} (hb : InRange b) :
    InRange (scaleIfRatio q p b).obj := by
  unfold scaleIfRatio
  split_ifs
  · exact inRange_plain hb _
  · exact hb

lemma inRange_radius {a : BodyAttr} {b : BodyObj} (hb : InRange b) :
    InRange (observeRadius a b).obj := by
  unfold observeRadius
  split_ifs
  · exact inRange_andThen (inRange_andThen (inRange_scale hb) fun _ h => inRange_scale h)
      fun _ h => inRange_scale h
  all_goals first | exact inRange_plain hb _ | exact hb

lemma inRange_dims {a : BodyAttr} {b : BodyObj} (hb : InRange b) :
    InRange (notifyDims a b).obj := by
  unfold notifyDims
  split
  · exact inRange_andThen (inRange_inertia hb) fun _ h => inRange_radius h
  · exact inRange_inertia hb
  all_goals first | exact inRange_radius hb | exact hb

lemma inRange_truncnorm (z : ℕ → ℝ → ℝ → ℝ) {t m s : BodyAttr} {b : BodyObj} (hb : InRange b) :
    InRange (observeTruncnorm z t m s b).obj := by
  unfold observeTruncnorm
  split_ifs
  · exact inRange_assign (fun _ h => inRange_dims h) (b := { b with drawn := b.drawn + 1 }) hb _
  · exact hb

lemma inRange_setAttr (z : ℕ → ℝ → ℝ → ℝ) {a : BodyAttr} {b : BodyObj} (hb : InRange b) (x : ℝ) :
    InRange (setAttr z b a x).obj := by
  refine inRange_assign (fun c hc => ?_) hb x
  unfold notifyAttr
  split
  all_goals first | exact inRange_truncnorm z hc | exact inRange_dims hc

lemma inRange_attr_notify (z : ℕ → ℝ → ℝ → ℝ) {a : BodyAttr} {b : BodyObj} (hb : InRange b) :
    InRange (notifyAttr z a b).obj := by
  unfold notifyAttr
  split
  all_goals first | exact inRange_truncnorm z hb | exact inRange_dims hb

lemma inRange_setAll (z : ℕ → ℝ → ℝ → ℝ) (items : List (BodyAttr × ℝ)) {b : BodyObj}
    (hb : InRange b) : InRange (setAll z b items).obj := by
  unfold setAll
  have : ∀ (l : List (BodyAttr × ℝ)) (o : BodyOutcome), InRange o.obj →
      InRange (l.foldl (fun o kv => o.andThen fun b => setAttr z b kv.1 kv.2) o).obj := by
    intro l
    induction l with
    | nil => intro o h; exact h
    | cons kv l ih =>
      intro o h
      exact ih _ (inRange_andThen h fun _ h => inRange_setAttr z h _)
  exact this items ⟨b, false⟩ hb

lemma inRange_observeBodyType (cfg : List (String × List (BodyAttr × ℝ))) (z : ℕ → ℝ → ℝ → ℝ)
    (old : String) {b : BodyObj} (hb : InRange b) : InRange (observeBodyType cfg z old b).obj := by
  unfold observeBodyType
  split_ifs
  · split
    · exact hb
    · exact inRange_setAll z _ hb
  · exact hb

lemma inRange_setKw (cfg : List (String × List (BodyAttr × ℝ))) (z : ℕ → ℝ → ℝ → ℝ)
    {b : BodyObj} (hb : InRange b) (kw : BodyKw) : InRange (setKw cfg z b kw).obj := by
  cases kw with
  | attr a x => exact inRange_setAttr z hb x
  | bodyType name =>
    unfold setKw setBodyType
    simp only
    split_ifs
    · exact hb
    · exact inRange_observeBodyType cfg z _ (b := { b with bodyType := name }) hb

lemma inRange_construct (cfg : List (String × List (BodyAttr × ℝ))) (z : ℕ → ℝ → ℝ → ℝ)
    (kws : List BodyKw) : InRange (construct cfg z kws).obj := by
  unfold construct
  have h1 : ∀ (l : List BodyKw) (o : BodyOutcome), InRange o.obj →
      InRange (l.foldl storeKw o).obj := by
    intro l
    induction l with
    | nil => intro o h; exact h
    | cons kw l ih =>
      intro o h
      refine ih _ ?_
      cases kw with
      | attr a x =>
        refine inRange_andThen h fun b hb => ?_
        split_ifs with hv
        · exact inRange_store hb hv
        · exact hb
      | bodyType name => exact inRange_andThen h fun b hb => hb
  have h2 : ∀ (l : List BodyKw) (o : BodyOutcome), InRange o.obj →
      InRange (l.foldl (fun o kw => o.andThen fun b => notifyKw cfg z b kw) o).obj := by
    intro l
    induction l with
    | nil => intro o h; exact h
    | cons kw l ih =>
      intro o h
      refine ih _ (inRange_andThen h fun b hb => ?_)
      cases kw with
      | attr a x =>
        unfold notifyKw
        simp only
        split_ifs
        · exact hb
        · exact inRange_attr_notify z hb
      | bodyType name =>
        unfold notifyKw
        simp only
        split_ifs
        · exact hb
        · exact inRange_observeBodyType cfg z _ hb
  exact h2 kws _ (h1 kws _ inRange_new)

lemma construct_refused (cfg : List (String × List (BodyAttr × ℝ))) (z : ℕ → ℝ → ℝ → ℝ)
    (kws : List BodyKw) (kw : BodyKw) (hk : kw ∈ kws) (hv : ¬ AllowedKw kw) :
    (construct cfg z kws).err = true := by
  have keep : ∀ (f : BodyOutcome → BodyKw → BodyOutcome),
      (∀ o k, o.err = true → (f o k).err = true) →
      ∀ (l : List BodyKw) (o : BodyOutcome), o.err = true → (l.foldl f o).err = true := by
    intro f hf l
    induction l with
    | nil => intro o h; exact h
    | cons k l ih => intro o h; exact ih _ (hf o k h)
  have hs : ∀ o k, o.err = true → (storeKw o k).err = true := by
    intro o k h
    cases k <;> simp [storeKw, BodyOutcome.andThen, h]
  unfold construct
  refine keep _ (fun o k h => by simp [BodyOutcome.andThen, h]) kws _ ?_
  obtain ⟨l, r, rfl⟩ := List.append_of_mem hk
  rw [List.foldl_append, List.foldl_cons]
  refine keep _ hs r _ ?_
  cases kw with
  | bodyType name => exact absurd trivial hv
  | attr a x =>
    have hv' : ¬ a.valid x := hv
    generalize l.foldl storeKw ⟨BodyObj.new, false⟩ = o
    unfold storeKw BodyOutcome.andThen
    simp only
    split_ifs with h1
    · exact h1
    · rfl

end CrowdDynamics
