import Verif.Proofs.VisualizationsCases
import Verif.Proofs.Visualizations
import Verif.Props.Guidance

/-!
# Properties of the drawings
-/

namespace CrowdDynamics

open Spec

/-! ## C124: the ranges of the axes -/

/-- **C124** in full: `set_aspect` finds ranges with the aspect ratio asked for that are centred on the
data and leave a margin that is the given fraction of the total plot range. -/
def C124_statement : Prop :=
  ∀ (W H : ℝ) (x y : List ℝ) (aspect margin : ℝ), x ≠ [] → y ≠ [] → 0 < W → 0 < H → 0 < aspect →
    0 ≤ margin → margin < 1 / 2 → ∃ rx ry, setAspect W H x y aspect margin = .ok (rx, ry) ∧
      0 < size ry ∧ size rx = aspect * (W / H) * size ry ∧ CentredOn x rx ∧ CentredOn y ry ∧
      RoomFor x (margin * size rx) rx ∧ RoomFor y (margin * size ry) ry

/-- **C124**, what holds: the margin is that fraction of the range of the data, and unless all data
are on a horizontal or vertical line, there are no smaller ranges like this. -/
theorem C124_ranges_partial (W H : ℝ) (x y : List ℝ) (aspect margin : ℝ) (hx : x ≠ []) (hy : y ≠ [])
    (hW : 0 < W) (hH : 0 < H) (ha : 0 < aspect) (hm : 0 ≤ margin) :
    ∃ rx ry, setAspect W H x y aspect margin = .ok (rx, ry) ∧
      0 < size ry ∧ size rx = aspect * (W / H) * size ry ∧ CentredOn x rx ∧ CentredOn y ry ∧
      RoomForFraction x margin rx ∧ RoomForFraction y margin ry ∧
      ((∃ v ∈ x, ∃ w ∈ x, v ≠ w) → (∃ v ∈ y, ∃ w ∈ y, v ≠ w) → ∀ rx' ry',
        size rx' = aspect * (W / H) * size ry' → RoomForFraction x margin rx' →
        RoomForFraction y margin ry' → size rx ≤ size rx' ∧ size ry ≤ size ry') := by
  obtain ⟨a, b, c, d, w, h, h1, h2, h3, h4, e, h5, h6, h7, h8, h9⟩ :=
    setAspect_spec (margin := margin) hx hy hW hH ha
  have hr : 0 < aspect * (W / H) := mul_pos ha (div_pos hW hH)
  have room : ∀ (l : List ℝ) (p q s : ℝ), IsLeast {v | v ∈ l} p → IsGreatest {v | v ∈ l} q →
      (q - p) * (1 + 2 * margin) ≤ s →
      RoomForFraction l margin (0.5 * (q + p) - 0.5 * s, 0.5 * (q + p) + 0.5 * s) := by
    intro l p q s hp hq hs v hv w hw u hu
    have l1 := hp.2 hw
    have l2 := hq.2 hv
    have l3 := hp.2 hu
    have l4 := hq.2 hu
    have l5 : margin * (v - w) ≤ margin * (q - p) := mul_le_mul_of_nonneg_left (by linarith) hm
    constructor <;> simp only <;> nlinarith
  have least : ∀ (l : List ℝ) (p q : ℝ) (r : ℝ × ℝ), IsLeast {v | v ∈ l} p →
      IsGreatest {v | v ∈ l} q → RoomForFraction l margin r →
      (q - p) * (1 + 2 * margin) ≤ size r := by
    intro l p q r hp hq hrm
    have := hrm q hq.1 p hp.1
    have e1 := (this p hp.1).1
    have e2 := (this q hq.1).2
    unfold size
    nlinarith
  have spread : ∀ (l : List ℝ) (p q : ℝ), IsLeast {v | v ∈ l} p → IsGreatest {v | v ∈ l} q →
      (∃ v ∈ l, ∃ w ∈ l, v ≠ w) → 0 < (q - p) * (1 + 2 * margin) := by
    rintro l p q hp hq ⟨v, hv, w, hw, hne⟩
    refine mul_pos ?_ (by linarith)
    have := hp.2 hv
    have := hp.2 hw
    have := hq.2 hv
    have := hq.2 hw
    rcases lt_or_gt_of_ne hne with h | h <;> linarith
  have sx : size (0.5 * (b + a) - 0.5 * w, 0.5 * (b + a) + 0.5 * w) = w := by unfold size; ring
  have sy : size (0.5 * (d + c) - 0.5 * h, 0.5 * (d + c) + 0.5 * h) = h := by unfold size; ring
  refine ⟨_, _, e, by rwa [sy], by rw [sx, sy, h6], ⟨a, b, h1, h2, by ring⟩, ⟨c, d, h3, h4, by ring⟩,
    room _ _ _ _ h1 h2 h7, room _ _ _ _ h3 h4 h8, fun nx ny rx' ry' hr' hrx hry => ?_⟩
  rw [sx, sy]
  have lx := least _ _ _ _ h1 h2 hrx
  have ly := least _ _ _ _ h3 h4 hry
  rcases h9 ⟨spread _ _ _ h1 h2 nx, spread _ _ _ h3 h4 ny⟩ with h | h
  · rw [← h] at lx
    refine ⟨lx, ?_⟩
    rw [hr', h6] at lx
    exact le_of_mul_le_mul_left lx hr
  · rw [← h] at ly
    refine ⟨?_, ly⟩
    rw [hr', h6]
    exact mul_le_mul_of_nonneg_left ly hr.le

/-- A figure that is wider than high, for a room of 10 × 20. -/
example : ([0, 10] : List ℝ) ≠ [] ∧ (0 : ℝ) < 600 ∧ (0 : ℝ) < 400 ∧ (0 : ℝ) ≤ 0.1 ∧
    ∃ v ∈ ([0, 10] : List ℝ), ∃ w ∈ ([0, 10] : List ℝ), v ≠ w := by
  refine ⟨by simp, by norm_num, by norm_num, by norm_num, 0, by simp, 10, by simp, by norm_num⟩

/-- **C124** fails: for the unit square and a margin of 0.1 the ranges are -0.1 … 1.1, so the margin
is less than a tenth of the total range. -/
theorem C124_fails : ¬ C124_statement := by
  intro h
  have := h 600 600 [0, 1] [0, 1] 1 0.1 (by simp) (by simp) (by norm_num) (by norm_num) (by norm_num)
    (by norm_num) (by norm_num)
  obtain ⟨rx, ry, e, -, -, -, -, hx, -⟩ := this
  have e' : setAspect 600 600 [0, 1] [0, 1] 1 0.1 = .ok ((-0.1, 1.1), (-0.1, 1.1)) := by
    unfold setAspect
    simp only [pyMin, pyMax, pyDiv, bind, Except.bind, List.foldl_cons, List.foldl_nil]
    norm_num
  rw [e'] at e
  cases e
  have := (hx 0 (by simp)).1
  norm_num [size] at this

/-- **C124** Without data, `ValueError` is raised. -/
theorem C124_empty (W H aspect margin : ℝ) (x y : List ℝ) (h : x = [] ∨ y = []) :
    setAspect W H x y aspect margin = .error .value := by
  unfold setAspect
  rcases h with rfl | rfl
  · rfl
  · by_cases hx : x = []
    · subst hx; rfl
    · obtain ⟨a, ea, -⟩ := pyMin_spec hx
      obtain ⟨b, eb, -⟩ := pyMax_spec hx
      simp only [ea, eb, bind, Except.bind]
      rfl

example : ([] : List ℝ) = [] ∨ ([1] : List ℝ) = [] := .inl rfl

/-! ## C125: geometries -/

/-- **C125** in full: `add_geom` draws exactly the points of a geometry. -/
def C125_statement : Prop :=
  ∀ (fig : List Glyph) (g : Geom), Proper g → ∃ new, addGeom fig g = (.ok (), fig ++ new) ∧
    ∀ p, p ∈ visible new ↔ PointOf g p

/-- **C125**, what holds: `add_geom` draws all points of a geometry, and nothing else if no polygon
has a hole. -/
theorem C125_drawn_partial (fig : List Glyph) (g : Geom) (hg : Proper g) :
    ∃ new, addGeom fig g = (.ok (), fig ++ new) ∧ (∀ p, PointOf g p → p ∈ visible new) ∧
      (Solid g → ∀ p, p ∈ visible new ↔ PointOf g p) := by
  obtain ⟨new, h1, h2, h3⟩ := addGeom_proper fig g hg
  exact ⟨new, h1, h2, fun hs p => ⟨h3 hs p, h2 p⟩⟩

/-- Walls of a room: a line and a pillar. -/
example : Proper (.multi [.lineString [(0, 0), (5, 0)], .polygon [(1, 1), (2, 1), (2, 2), (1, 1)] []]) ∧
    Solid (.multi [.lineString [(0, 0), (5, 0)], .polygon [(1, 1), (2, 1), (2, 2), (1, 1)] []]) := by
  constructor
  · refine .multi fun g hg => ?_
    rcases List.mem_pair.1 hg with rfl | rfl
    · exact .line _
    · exact .polygon _ _
  · refine .multi fun g hg => ?_
    rcases List.mem_pair.1 hg with rfl | rfl
    · exact .line _
    · exact .polygon _

/-- **C125** Anything that is no geometry raises `TypeError`, also as a part of a geometry; parts
drawn before are kept. -/
theorem C125_refused (fig : List Glyph) (g : Geom) (hg : ¬ Proper g) :
    ∃ new, addGeom fig g = (.error .type, fig ++ new) := by
  obtain ⟨new, h, -⟩ := addGeom_improper fig g hg
  exact ⟨new, h⟩

example : ¬ Proper (.multi [.point (0, 0), .other]) := by
  intro h
  cases h with
  | multi h => cases h .other (by simp)

/-- A square with a square hole. -/
def courtyard : Geom :=
  .polygon [(0, 0), (3, 0), (3, 3), (0, 3), (0, 0)] [[(1, 1), (2, 1), (2, 2), (1, 2), (1, 1)]]

/-- **C125** fails: the hole of a polygon is filled. -/
theorem C125_fails : ¬ C125_statement := by
  intro h
  obtain ⟨new, e, hp⟩ := h [] courtyard (.polygon _ _)
  have e' : addGeom [] courtyard = (.ok (), [] ++ [.patch [(0, 0), (3, 0), (3, 3), (0, 3), (0, 0)]]) := by
    unfold courtyard; rw [addGeom]
  rw [e'] at e
  have en : new = [.patch [(0, 0), (3, 0), (3, 3), (0, 3), (0, 0)]] := by
    simpa using (congrArg Prod.snd e).symm
  subst en
  have h1 : ((1.5 : ℝ), (1.5 : ℝ)) ∈ visible [.patch [(0, 0), (3, 0), (3, 3), (0, 3), (0, 0)]] := by
    rw [visible_single]
    right
    have : crossings ((1.5 : ℝ), (1.5 : ℝ)) [(0, 0), (3, 0), (3, 3), (0, 3), (0, 0)] = 1 := by
      norm_num [crossings, Meets]
    rw [this]
    exact odd_one
  have h2 := (hp _).1 h1
  cases h2 with
  | polygon _ hh =>
    have h3 := hh [(1, 1), (2, 1), (2, 2), (1, 2), (1, 1)] (by simp) (.inr (by
      have : crossings ((1.5 : ℝ), (1.5 : ℝ)) [(1, 1), (2, 1), (2, 2), (1, 2), (1, 1)] = 1 := by
        norm_num [crossings, Meets]
      rw [this]
      exact odd_one))
    simp only [onPath, Set.mem_union, segment, Set.mem_ofPred_eq, Set.mem_singleton_iff,
      Prod.ext_iff, Prod.fst_add, Prod.snd_add, Prod.smul_fst, Prod.smul_snd, smul_eq_mul] at h3
    rcases h3 with ⟨a, b, ha, hb, hab, h4, h5⟩ | ⟨a, b, ha, hb, hab, h4, h5⟩ |
      ⟨a, b, ha, hb, hab, h4, h5⟩ | ⟨a, b, ha, hb, hab, h4, h5⟩ | ⟨h4, h5⟩ <;> linarith

/-! ## C126: fields -/

/-- **C126** in full: every field can be drawn, and all its points are visible. Domain and obstacles
may be `None`. -/
def C126_statement : Prop :=
  ∀ (fig : List Glyph) (f : Field), AllOf Proper f → ∃ new, addField fig f = (.ok (), fig ++ new) ∧
    ∀ p, PointOfField f p → p ∈ visible new

/-- **C126**, what holds: fields with domain and obstacles can be drawn. If there are no holes, only
points of the field are visible. -/
theorem C126_add_field_partial (fig : List Glyph) (f : Field) (hf : AllOf Proper f)
    (hd : f.domain ≠ none) (ho : f.obstacles ≠ none) :
    ∃ new, addField fig f = (.ok (), fig ++ new) ∧ (∀ p, PointOfField f p → p ∈ visible new) ∧
      (AllOf Solid f → ∀ p ∈ visible new, PointOfField f p) :=
  addField_proper fig f hf hd ho

example : AllOf Proper drawnRoom ∧ AllOf Solid drawnRoom ∧ drawnRoom.domain ≠ none ∧
    drawnRoom.obstacles ≠ none := ⟨drawnRoom_proper, drawnRoom_solid, by simp [drawnRoom],
  by simp [drawnRoom]⟩

/-- **C126** Drawing a field without a domain or without obstacles raises `TypeError`. -/
theorem C126_add_field_refused (fig : List Glyph) (f : Field) (hf : AllOf Proper f)
    (h : f.domain = none ∨ f.obstacles = none) :
    ∃ new, addField fig f = (.error .type, fig ++ new) := addField_none fig f hf h

example : AllOf Proper openField ∧ (openField.domain = none ∨ openField.obstacles = none) :=
  ⟨openField_proper, .inr rfl⟩

/-- **C126** fails: a square without obstacles and with an exit. -/
theorem C126_fails : ¬ C126_statement := by
  intro h
  obtain ⟨new, e, -⟩ := h [] openField openField_proper
  obtain ⟨new', e'⟩ := addField_none [] openField openField_proper (.inr rfl)
  rw [e'] at e
  cases e

/-- **C126** `plot_field` raises for every field without a domain (whatever the convex hull is), and
for every field without obstacles. -/
theorem C126_plot_refused (lib : FieldLib) (fields : ℕ → Field) (id : ℕ) (asked : Set ℕ)
    (hid : id ∈ asked) (c : Caches) (hc : SoundCaches lib fields asked c)
    (h : (fields id).domain = none ∨ (fields id).obstacles = none)
    (hull : Except PyErr (ℝ × ℝ × ℝ × ℝ)) (W H step radius strength : ℝ) :
    ∃ e, (plotField lib fields id hull W H step radius strength c).1 = .error e := by
  have hn : ∃ e, (Field.navigationToTarget lib fields id .closest step radius strength c).1 =
      .error e := by
    rcases h with h | h
    · rw [(nav_sound hc hid _ step radius strength).1]
      unfold freshNav freshPath freshMesh
      rw [h]
      by_cases ht : (fields id).targets = []
      · rw [if_pos ht]; exact ⟨_, rfl⟩
      · rw [if_neg ht]
        cases selectTargets lib (fields id) .closest with
        | error e => exact ⟨e, rfl⟩
        | ok t => exact ⟨_, rfl⟩
    · exact C77_no_obstacles_error lib fields id asked hid c hc h _ step radius strength
  obtain ⟨e, he⟩ := hn
  obtain ⟨c', hn⟩ : ∃ c', Field.navigationToTarget lib fields id .closest step radius strength c =
    (.error e, c') := ⟨_, Prod.ext he rfl⟩
  unfold plotField
  simp only [hn]
  split
  · exact ⟨_, rfl⟩
  · split
    · exact ⟨_, rfl⟩
    · exact ⟨_, rfl⟩

example : SoundCaches simpleLib (fun _ => openField) {0} emptyCaches ∧
    (openField.domain = none ∨ openField.obstacles = none) := ⟨soundCaches_empty, .inr rfl⟩

/-- **C126** `plot_field` shows a field with domain and obstacles if there is a navigation map for it:
first the distance map, with 1 where no distance is known, then arrows, then the field; all points of
the field are visible, the ranges of the axes contain the domain, and a unit is as long on one axis as
on the other. -/
theorem C126_plot (lib : FieldLib) (fields : ℕ → Field) (id : ℕ) (asked : Set ℕ) (hid : id ∈ asked)
    (c : Caches) (hc : SoundCaches lib fields asked c) (hs : SolverTotal lib.fmm) (ext : List Vec)
    (ints : List (List Vec)) (hd : (fields id).domain = some (ext, ints))
    (ho : (fields id).obstacles ≠ none) (hf : AllOf Proper (fields id))
    (hull : Except PyErr (ℝ × ℝ × ℝ × ℝ)) (W H step radius strength : ℝ) (hW : 0 < W) (hH : 0 < H)
    (hn : ∃ r, (Field.navigationToTarget lib fields id .closest step radius strength c).1 = .ok r) :
    ∃ rx ry glyphs, (plotField lib fields id hull W H step radius strength c).1 =
        .ok ((rx, ry), glyphs) ∧
      (∀ p, PointOfField (fields id) p → p ∈ visible glyphs) ∧
      (∀ p ∈ ext, rx.1 ≤ p.1 ∧ p.1 ≤ rx.2 ∧ ry.1 ≤ p.2 ∧ p.2 ≤ ry.2) ∧
      size rx / W = size ry / H ∧
      ∀ m dist dir,
        (Field.navigationToTarget lib fields id .closest step radius strength c).1 =
          .ok (m, dist, dir) →
        ∃ g ends heads new, glyphs =
            addDistanceMap [] m g ++ .segment ends :: .triangle heads :: new ∧
          g.rows = dist.rows ∧ g.cols = dist.cols ∧
          (∀ i j d, dist.val i j = some d → g.val i j = d) ∧
          (∀ i j, dist.val i j = none → g.val i j = 1) ∧
          addDirectionMap [] m dir 2 = (.ok (), [.segment ends, .triangle heads]) := by
  obtain ⟨⟨m, dist, dir⟩, hr⟩ := hn
  have hr0 := hr
  obtain ⟨c', hn⟩ : ∃ c', Field.navigationToTarget lib fields id .closest step radius strength c =
    (.ok (m, dist, dir), c') := ⟨_, Prod.ext hr rfl⟩
  have ht : (fields id).targets ≠ [] := by
    intro ht
    rw [(C114_refused lib fields id asked hid c hc step radius strength).1 ht] at hr
    cases hr
  rw [C114_closest lib fields id asked hid c hc ext ints hd ht] at hr
  have hshape := staticPotential_shape hs hr
  simp only [Prod.mk.injEq] at hshape
  obtain ⟨hm, -, hdir⟩ := hshape
  have hlen : (everyNth m.x 2).length = (everyNth dir 2).length := by
    refine everyNth_length ?_ ?_ 2
    · rw [hdir, hm]; rfl
    · rw [hdir, hm]; rfl
  obtain ⟨⟨minx, miny, maxx, maxy⟩, hb⟩ : ∃ b, polygonBounds ext = b := ⟨_, rfl⟩
  obtain ⟨rx, ry, e, hp, hq, -, -, r1, r2, -⟩ := C124_ranges_partial W H [minx, maxx] [miny, maxy] 1 0.1
    (by simp) (by simp) hW hH one_pos (by norm_num)
  obtain ⟨ends, heads, ha, ha'⟩ : ∃ ends heads,
      addDirectionMap (addDistanceMap [] m (filled dist 1.0)) m dir 2 =
        (.ok (), addDistanceMap [] m (filled dist 1.0) ++ [.segment ends, .triangle heads]) ∧
      addDirectionMap [] m dir 2 = (.ok (), [.segment ends, .triangle heads]) := by
    unfold addDirectionMap
    simp only
    exact ⟨_, _, if_pos hlen, if_pos hlen⟩
  obtain ⟨new, hnew, hvis, -⟩ := addField_proper
    (addDistanceMap [] m (filled dist 1.0) ++ [.segment ends, .triangle heads]) (fields id) hf (by rw [hd]; simp) ho
  refine ⟨rx, ry, addDistanceMap [] m (filled dist 1.0) ++ [.segment ends, .triangle heads] ++ new,
    ?_, ?_, ?_, ?_, ?_⟩
  · unfold plotField
    simp only [hd, hb, e, hn, ha, hnew]
  · intro p h
    rw [visible_append]
    exact .inr (hvis p h)
  · intro p h
    have hle := polygonBounds_le ext p h
    rw [hb] at hle
    have a1 := (r1 minx (by simp) minx (by simp) minx (by simp)).1
    have a2 := (r1 minx (by simp) minx (by simp) maxx (by simp)).2
    have a3 := (r2 miny (by simp) miny (by simp) miny (by simp)).1
    have a4 := (r2 miny (by simp) miny (by simp) maxy (by simp)).2
    simp only [sub_self, mul_zero, add_zero, sub_zero] at a1 a2 a3 a4
    simp only at hle
    exact ⟨a1.trans hle.1, hle.2.2.1.trans a2, a3.trans hle.2.1, hle.2.2.2.trans a4⟩
  · rw [hq]
    field_simp
  · intro m' dist' dir' hr'
    rw [hr0] at hr'
    simp only [Except.ok.injEq, Prod.mk.injEq] at hr'
    obtain ⟨rfl, rfl, rfl⟩ := hr'
    refine ⟨filled dist 1.0, ends, heads, new, ?_, rfl, rfl, fun i j d hd => ?_, fun i j hd => ?_, ha'⟩
    · simp [List.append_assoc]
    · simp [filled, hd]
    · simp only [filled, hd, Option.getD_none]
      norm_num

/-- The hypotheses are met by the small room. -/
example : SoundCaches simpleLib (fun _ => drawnRoom) {0} emptyCaches ∧ SolverTotal simpleLib.fmm ∧
    AllOf Proper drawnRoom ∧
    ∃ r, (Field.navigationToTarget simpleLib (fun _ => drawnRoom) 0 .closest 1 2 3 emptyCaches).1 =
      .ok r := by
  refine ⟨soundCaches_empty, fun c _ _ => ⟨_, rfl, rfl, rfl⟩, drawnRoom_proper, ?_⟩
  refine C77_obstacles_partial simpleLib (fun _ => drawnRoom) 0 {0} (by simp) emptyCaches soundCaches_empty
    [(0, 0), (1, 0), (1, 1), (0, 1), (0, 0)] [] _
    (.multi [.lineString [(1, 0), (1, 1)]]) _ 1 2 3 (fun c _ _ => ⟨_, rfl, rfl, rfl⟩) one_pos rfl
    properBox_square (by simp [drawnRoom]) rfl ?_ rfl
    (simpleLib_drawable _ properBox_square _ _) (simpleLib_drawable _ properBox_square _ _)
  intro m hm
  have h2 := meshgrid_two properBox_square one_pos hm
  refine ⟨.multi _ fun g hg => ?_, fun p hp => ?_⟩
  · rw [List.mem_singleton.1 hg]; exact .lineString _
  · have : p = (0, 0) := by simpa [pixels, pixelsAll, consecutive, simpleLib] using hp
    subst this
    exact ⟨0, 0, ⟨by omega, by simp⟩, ⟨by omega, by simp⟩⟩

/-! ## C127: distance and direction maps -/

/-- **C127** in full, for distance maps: if the step divides width and height of the domain, every
value is shown where its grid point is. -/
def C127_statement : Prop :=
  ∀ (fig : List Glyph) (step minx miny : ℝ) (a b : ℕ) (g : Grid ℝ), 0 < step →
    g.rows = (meshgrid step minx miny (minx + a * step) (miny + b * step)).shape.1 →
    g.cols = (meshgrid step minx miny (minx + a * step) (miny + b * step)).shape.2 →
    ∃ x y dw dh, addDistanceMap fig (meshgrid step minx miny (minx + a * step) (miny + b * step)) g =
        fig ++ [.image g x y dw dh] ∧
      ∀ i < g.rows, ∀ j < g.cols,
        ((meshgrid step minx miny (minx + a * step) (miny + b * step)).x.val i j,
          (meshgrid step minx miny (minx + a * step) (miny + b * step)).y.val i j) ∈
          pixel g x y dw dh i j

/-- **C127**, what holds for distance maps: every value is shown where its grid point is if the lower
left corner of the domain is the origin. -/
theorem C127_distance_partial (fig : List Glyph) (step : ℝ) (a b : ℕ) (g : Grid ℝ) (hs : 0 < step)
    (hr : g.rows = (meshgrid step 0 0 (a * step) (b * step)).shape.1)
    (hc : g.cols = (meshgrid step 0 0 (a * step) (b * step)).shape.2) :
    ∃ x y dw dh, addDistanceMap fig (meshgrid step 0 0 (a * step) (b * step)) g =
        fig ++ [.image g x y dw dh] ∧
      ∀ i < g.rows, ∀ j < g.cols, ((meshgrid step 0 0 (a * step) (b * step)).x.val i j,
        (meshgrid step 0 0 (a * step) (b * step)).y.val i j) ∈ pixel g x y dw dh i j := by
  have hshape := meshgrid_whole step 0 0 a b hs
  obtain ⟨-, -, hv, -⟩ := C56_grid step 0 0 (a * step) (b * step) hs (by positivity) (by positivity)
  simp only [zero_add] at hshape hv
  rw [hshape] at hr hc hv
  refine ⟨0, 0, a * step, b * step, rfl, fun i hi j hj => ?_⟩
  rw [hr] at hi
  rw [hc] at hj
  obtain ⟨e1, e2⟩ := hv i j hi hj
  unfold pixel
  simp only [Set.mem_ofPred_eq, e1, e2, hr, hc, zero_add]
  obtain ⟨p1, p2⟩ := pixel_range step hs a j hj
  obtain ⟨p3, p4⟩ := pixel_range step hs b i hi
  exact ⟨p1, p2, p3, p4⟩

example : (0 : ℝ) < 0.5 ∧ (meshgrid 0.5 0 0 ((4 : ℕ) * 0.5) ((6 : ℕ) * 0.5)).shape = (7, 5) :=
  ⟨by norm_num, by simpa using meshgrid_whole 0.5 0 0 4 6 (by norm_num)⟩

/-- **C127** fails: for the domain 10 ≤ x ≤ 12 the image is 12 wide, as the code passes the upper
right corner instead of width and height. -/
theorem C127_fails : ¬ C127_statement := by
  intro h
  have hshape := meshgrid_whole 1 10 0 2 2 one_pos
  obtain ⟨x, y, dw, dh, e, hp⟩ := h [] 1 10 0 2 2 ⟨3, 3, fun _ _ => 0⟩ one_pos
    (by rw [hshape]) (by rw [hshape])
  unfold addDistanceMap at e
  simp only [meshgrid, List.nil_append, List.cons.injEq, Glyph.image.injEq, and_true, true_and] at e
  obtain ⟨rfl, rfl, rfl, rfl⟩ := e
  have := (hp 0 (by norm_num) 1 (by norm_num)).1
  obtain ⟨-, -, hv, -⟩ := C56_grid 1 10 0 (10 + (2 : ℕ) * 1) (0 + (2 : ℕ) * 1) one_pos (by norm_num)
    (by norm_num)
  rw [hshape] at hv
  rw [(hv 0 1 (by norm_num) (by norm_num)).1] at this
  norm_num at this

/-- **C127** for direction maps: there is one arrow for every `freq`-th row and column of the grid for
which a direction is defined. It starts at the grid point and has 0.9 times the distance of two such
points per unit of length. Its head is at its tip and points along the arrow. -/
theorem C127_arrows (fig : List Glyph) (m : MeshGrid) (dir : Grid (Option Vec)) (freq : ℕ)
    (hf : 0 < freq) (hx : m.x.rows = dir.rows ∧ m.x.cols = dir.cols)
    (hy : m.y.rows = dir.rows ∧ m.y.cols = dir.cols) :
    ∃ ends heads, addDirectionMap fig m dir freq = (.ok (), fig ++ [.segment ends, .triangle heads]) ∧
      (∀ e, e ∈ ends ↔ ∃ i < dir.rows, ∃ j < dir.cols, ∃ u, freq ∣ i ∧ freq ∣ j ∧
        dir.val i j = some u ∧
        e = ((m.x.val i j, m.y.val i j),
          (m.x.val i j + 0.9 * (freq * m.step) * u.1, m.y.val i j + 0.9 * (freq * m.step) * u.2))) ∧
      (∀ p angle, (p, angle) ∈ heads → ∃ i < dir.rows, ∃ j < dir.cols, ∃ u,
        dir.val i j = some u ∧ ((m.x.val i j, m.y.val i j), p) ∈ ends ∧
        Spec.len u • turned angle = u) ∧
      ∀ e ∈ ends, ∃ angle, (e.2, angle) ∈ heads := by
  have hz : ((everyNth m.x freq).zip (everyNth m.y freq)).zip (everyNth dir freq) =
      everyNth ⟨dir.rows, dir.cols, fun i j => ((m.x.val i j, m.y.val i j), dir.val i j)⟩ freq := by
    rw [everyNth_zip _ _ (hx.1.trans hy.1.symm) (hx.2.trans hy.2.symm), everyNth_zip (⟨m.x.rows, m.x.cols, fun i j => (m.x.val i j, m.y.val i j)⟩ : Grid (ℝ × ℝ)) dir
        hx.1 hx.2]
    simp only [hx.1, hx.2]
  obtain ⟨arrows, harr⟩ : ∃ l, (((everyNth m.x freq).zip (everyNth m.y freq)).zip
      (everyNth dir freq)).filterMap (fun a => a.2.map fun u => (a.1, u)) = l := ⟨_, rfl⟩
  have hmem : ∀ q u, (q, u) ∈ arrows ↔ ∃ i < dir.rows, ∃ j < dir.cols, freq ∣ i ∧ freq ∣ j ∧
      dir.val i j = some u ∧ q = (m.x.val i j, m.y.val i j) := by
    intro q u
    rw [← harr, hz]
    simp only [List.mem_filterMap, mem_everyNth _ _ hf, Option.map_eq_some_iff, Prod.mk.injEq]
    constructor
    · rintro ⟨⟨q', d⟩, ⟨i, hi, j, hj, h1, h2, h3⟩, v, h4, rfl, rfl⟩
      simp only [Prod.mk.injEq] at h3
      exact ⟨i, hi, j, hj, h1, h2, h3.2.trans h4, h3.1.symm⟩
    · rintro ⟨i, hi, j, hj, h1, h2, h3, h4⟩
      exact ⟨(q, dir.val i j), ⟨i, hi, j, hj, h1, h2, by rw [h4]⟩, u, h3, rfl, rfl⟩
  refine ⟨arrows.map fun a => (a.1, a.1 + (0.9 * freq * m.step) • a.2),
    arrows.map fun a => (a.1 + (0.9 * freq * m.step) • a.2, arctan2 a.2.2 a.2.1 - Real.pi / 2),
    ?_, ?_, ?_, ?_⟩
  · unfold addDirectionMap
    simp only
    rw [if_pos (everyNth_length hx.1 hx.2 freq), harr]
  · intro e
    simp only [List.mem_map]
    constructor
    · rintro ⟨⟨q, u⟩, h, rfl⟩
      obtain ⟨i, hi, j, hj, h1, h2, h3, rfl⟩ := (hmem _ _).1 h
      refine ⟨i, hi, j, hj, u, h1, h2, h3, ?_⟩
      simp only [Prod.ext_iff, Prod.fst_add, Prod.snd_add, Prod.smul_fst, Prod.smul_snd,
        smul_eq_mul, true_and]
      constructor <;> ring
    · rintro ⟨i, hi, j, hj, u, h1, h2, h3, rfl⟩
      refine ⟨(_, u), (hmem _ _).2 ⟨i, hi, j, hj, h1, h2, h3, rfl⟩, ?_⟩
      simp only [Prod.ext_iff, Prod.fst_add, Prod.snd_add, Prod.smul_fst, Prod.smul_snd,
        smul_eq_mul, true_and]
      constructor <;> ring
  · intro p angle h
    simp only [List.mem_map, Prod.mk.injEq] at h
    obtain ⟨⟨q, u⟩, h, rfl, rfl⟩ := h
    obtain ⟨i, hi, j, hj, h1, h2, h3, rfl⟩ := (hmem _ _).1 h
    refine ⟨i, hi, j, hj, u, h3, List.mem_map.2 ⟨_, h, rfl⟩, ?_⟩
    have hl : Spec.len u = ‖(⟨u.1, u.2⟩ : ℂ)‖ := by
      rw [Complex.norm_def, Complex.normSq_mk]
      unfold Spec.len
      congr 1
      ring
    unfold turned arctan2
    rw [Real.sin_sub_pi_div_two, Real.cos_sub_pi_div_two, neg_neg, hl]
    ext
    · simpa using Complex.norm_mul_cos_arg ⟨u.1, u.2⟩
    · simpa using Complex.norm_mul_sin_arg ⟨u.1, u.2⟩
  · intro e h
    simp only [List.mem_map] at h
    obtain ⟨⟨q, u⟩, h, rfl⟩ := h
    exact ⟨_, List.mem_map.2 ⟨_, h, rfl⟩⟩

/-- Every second of 5 × 7 grid points with the direction to the right. -/
example : ∃ (m : MeshGrid) (dir : Grid (Option Vec)), m.shape = (7, 5) ∧
    (m.x.rows = dir.rows ∧ m.x.cols = dir.cols) ∧ (m.y.rows = dir.rows ∧ m.y.cols = dir.cols) ∧
    dir.val 2 4 = some (1, 0) :=
  ⟨meshgrid 0.5 0 0 ((4 : ℕ) * 0.5) ((6 : ℕ) * 0.5),
    ⟨_, _, fun _ _ => some (1, 0)⟩, by simpa using meshgrid_whole 0.5 0 0 4 6 (by norm_num),
    ⟨rfl, rfl⟩, ⟨rfl, rfl⟩, rfl⟩

/-! ## C128: files -/

/-- **C128** `figure` writes to the given file if it has the extension `.html`, and otherwise to the file
with `.html` appended. It shows and saves the figure if asked to, but not if the `with` block raises;
the exception is passed on. -/
theorem C128_figure (filename : Text) (show_ save : Bool) (block : Except PyErr Unit) :
    (HasExtension filename ".html".toList →
      (figureManager filename show_ save block).2.1 = filename) ∧
    (¬ HasExtension filename ".html".toList →
      (figureManager filename show_ save block).2.1 = filename ++ ".html".toList) ∧
    (figureManager filename show_ save block).1 = block ∧
    ((figureManager filename show_ save block).2.2.1 = true ↔ block = .ok () ∧ show_ = true) ∧
    ((figureManager filename show_ save block).2.2.2 = true ↔ block = .ok () ∧ save = true) := by
  have hx : (splitext filename).2 = ".html".toList ↔ HasExtension filename ".html".toList :=
    splitext_iff filename ['h', 't', 'm', 'l'] (by decide) (by decide)
  have hf : (figureManager filename show_ save block).2.1 =
      if (splitext filename).2 ≠ ".html".toList then filename ++ ".html".toList else filename := by
    unfold figureManager
    cases block <;> rfl
  refine ⟨fun h => ?_, fun h => ?_, ?_, ?_, ?_⟩
  · rw [hf, if_neg (not_not.2 (hx.2 h))]
  · rw [hf, if_pos fun hc => h (hx.1 hc)]
  all_goals unfold figureManager; cases block <;> simp

/-- `out/figure.html` has the extension, `out.html/figure` and `.html` have not. -/
example : HasExtension "out/figure.html".toList ".html".toList ∧
    ¬ HasExtension "out.html/figure".toList ".html".toList ∧
    ¬ HasExtension ".html".toList ".html".toList := by
  have h := fun p => splitext_iff p ['h', 't', 'm', 'l'] (by decide) (by decide)
  refine ⟨⟨"out/".toList, "figure".toList, rfl, .inr ⟨"out".toList, rfl⟩, by decide, 'f', by decide,
    by decide⟩, fun hc => ?_, fun hc => ?_⟩
  · obtain ⟨dir, stem, e, -⟩ := hc
    have := congrArg List.getLast? e
    simp at this
  · obtain ⟨dir, stem, e, -, -, c, hc, -⟩ := hc
    have := congrArg List.length e
    simp only [List.length_append] at this
    have h0 : stem.length = 0 := by omega
    rw [List.length_eq_zero_iff.1 h0] at hc
    cases hc

/-- **C128** `render_tree` writes a picture to a file with the extension `.png`, a description of the
tree to a file with the extension `.dot`, and raises for all other names. -/
theorem C128_render (filepath : Text) :
    (HasExtension filepath ".png".toList → renderTree filepath = .ok (.picture, filepath)) ∧
    (HasExtension filepath ".dot".toList → renderTree filepath = .ok (.dotfile, filepath)) ∧
    (¬ HasExtension filepath ".png".toList → ¬ HasExtension filepath ".dot".toList →
      renderTree filepath = .error .other) := by
  have hp : (splitext filepath).2 = ".png".toList ↔ HasExtension filepath ".png".toList :=
    splitext_iff filepath ['p', 'n', 'g'] (by decide) (by decide)
  have hd : (splitext filepath).2 = ".dot".toList ↔ HasExtension filepath ".dot".toList :=
    splitext_iff filepath ['d', 'o', 't'] (by decide) (by decide)
  unfold renderTree
  simp only
  refine ⟨fun h => if_pos (hp.2 h), fun h => ?_, fun h1 h2 => ?_⟩
  · have h' := hd.2 h
    rw [h', if_neg (by decide), if_pos rfl]
  · rw [if_neg fun h => h1 (hp.1 h), if_neg fun h => h2 (hd.1 h)]

example : HasExtension "tree.png".toList ".png".toList ∧ HasExtension "a/b.dot".toList ".dot".toList :=
  ⟨⟨[], "tree".toList, rfl, .inl rfl, by decide, 't', by decide, by decide⟩,
    ⟨"a/".toList, "b".toList, rfl, .inr ⟨"a".toList, rfl⟩, by decide, 'b', by decide, by decide⟩⟩

end CrowdDynamics
