import Verif.Proofs.FieldCases
import Verif.Proofs.Field
import Verif.Props.Sampling
import Verif.Props.Navigation

/-!
# Properties C55, C75, C77: the field
-/

namespace CrowdDynamics

open Spec

/-! ## C55: caches -/

/-- The full claim of C55: for every history of queries and modifications, the answers are those
of fresh computations. -/
def C55_statement : Prop :=
  ∀ (lib : FieldLib) (fields : ℕ → Field) (es : List FieldEvent),
    answers lib fields emptyCaches es = freshAnswers lib fields es

/-- **C55** (partial) If no field is modified after it was queried for the first time, then all
answers are those of fresh computations. What is missing: modifications of fields that were
queried before, for which the claim is false. -/
theorem C55_unmodified_partial (lib : FieldLib) (fields : ℕ → Field) (es : List FieldEvent)
    (h : ModifiedOnlyBefore ∅ es) :
    answers lib fields emptyCaches es = freshAnswers lib fields es :=
  answers_sound es fields ∅ emptyCaches soundCaches_empty h

/-- Several queries of two fields, one of which is created (or changed) after the first queries. -/
example (f : Field) : ModifiedOnlyBefore ∅
    [.query 0 (.nav (.int 0) 1 2 3), .query 0 (.mesh 1), .modify 1 f, .query 1 (.mesh 1),
      .query 0 (.nav .closest 1 2 3)] := by
  simp [ModifiedOnlyBefore]

/-- **C55** (partial) Already cached values of other fields are not disturbed: a query changes
no answer to later queries, so every query can be repeated at any time. -/
theorem C55_repeat_partial (lib : FieldLib) (fields : ℕ → Field) (id : ℕ) (q : Query)
    (qs : List (ℕ × Query)) :
    (answers lib fields emptyCaches
      (qs.map (fun p => .query p.1 p.2) ++ [.query id q])).getLast? =
      some (freshAnswer lib (fields id) q) := by
  have hm : ∀ (qs : List (ℕ × Query)) (s : Set ℕ),
      ModifiedOnlyBefore s (qs.map (fun p => .query p.1 p.2) ++ [.query id q]) := by
    intro qs
    induction qs with
    | nil => intro s; trivial
    | cons p qs ih => intro s; exact ih _
  rw [C55_unmodified_partial lib fields _ (hm qs ∅)]
  have : freshAnswers lib fields (qs.map (fun p => .query p.1 p.2) ++ [.query id q]) =
      qs.map (fun p => freshAnswer lib (fields p.1) p.2) ++ [freshAnswer lib (fields id) q] := by
    induction qs with
    | nil => rfl
    | cons p qs ih =>
      simp only [List.map_cons, List.cons_append, freshAnswers, ih]
  rw [this]
  simp

/-- A field whose domain is a square. -/
def squareField (a : ℝ) : Field :=
  ⟨some ([(0, 0), (a, 0), (a, a), (0, a), (0, 0)], []), none, [], []⟩

/-- **C55** is false of the code: after the domain was changed, the grid of the old domain is
returned. -/
theorem C55_modified_fails : ¬ C55_statement := by
  intro h
  obtain ⟨lib⟩ : Nonempty FieldLib := ⟨⟨⟨⟨fun _ _ => [], fun _ => [], fun _ => []⟩,
    fun _ _ _ => none, fun g _ _ => g, fun _ _ _ => (0, 0), fun _ _ _ => false⟩, fun _ => .other⟩⟩
  have h1 := h lib (fun _ => squareField 1)
    [.query 0 (.mesh 1), .modify 0 (squareField 2), .query 0 (.mesh 1)]
  simp only [answers, answer, Field.meshgrid, freshAnswers, freshAnswer] at h1
  have e0 : callCached Caches.mesh (fun c m => { c with mesh := m }) (0, (1 : ℝ))
      (fun c => (meshgridBody (squareField 1) 1, c)) emptyCaches =
      (.ok (meshgrid 1 0 0 1 1), ⟨[((0, 1), meshgrid 1 0 0 1 1)], [], [], []⟩) := by
    simp [callCached, emptyCaches, meshgridBody, squareField, polygonBounds, lruSize]
  rw [e0] at h1
  have e1 : callCached Caches.mesh (fun c m => { c with mesh := m }) (0, (1 : ℝ))
      (fun c => (meshgridBody (Function.update (fun _ => squareField 1) 0 (squareField 2) 0) 1, c))
      ⟨[((0, 1), meshgrid 1 0 0 1 1)], [], [], []⟩ =
      (.ok (meshgrid 1 0 0 1 1), ⟨[((0, 1), meshgrid 1 0 0 1 1)], [], [], []⟩) := by
    simp [callCached]
  simp only [e1] at h1
  have e2 : freshMesh (squareField 2) 1 = .ok (meshgrid 1 0 0 2 2) := by
    simp [freshMesh, squareField, polygonBounds, bind, Except.bind]
  rw [Function.update_self, e2] at h1
  simp only [List.cons.injEq, Answer.mesh.injEq, Except.ok.injEq, and_true] at h1
  have h2 := congrArg (fun m => m.bounds.2.2.1) h1.2
  norm_num [meshgrid] at h2

/-! ## C77: a field without obstacles -/

/-- The full claim of C77: with a proper domain, a target on the grid, obstacles on the grid if
there are any, and if the solver finds distances, the navigation map is returned. -/
def C77_statement : Prop :=
  ∀ (lib : FieldLib) (f : Field) (ext : List Vec) (ints : List (List Vec)) (index : TargetIndex)
    (target : Geom) (step radius strength : ℝ), SolverTotal lib.fmm → 0 < step →
    f.domain = some (ext, ints) → ProperBox ext → f.targets ≠ [] →
    selectTargets lib f index = .ok target → Drawable lib ext step target →
    (∀ o, f.obstacles = some o → Drawable lib ext step o ∧
      Drawable lib ext step (lib.buffered o radius (.polygon ext ints))) →
    ∃ r, (Field.navigationToTarget lib (fun _ => f) 0 index step radius strength emptyCaches).1 =
      .ok r

/-- **C77** (partial) The navigation map is returned if the field has obstacles, whatever is in
the caches. What is missing: fields without obstacles, for which the claim is false. -/
theorem C77_obstacles_partial (lib : FieldLib) (fields : ℕ → Field) (id : ℕ) (asked : Set ℕ)
    (hid : id ∈ asked) (c : Caches) (hc : SoundCaches lib fields asked c) (ext : List Vec)
    (ints : List (List Vec)) (index : TargetIndex) (target o : Geom) (step radius strength : ℝ)
    (hf : SolverTotal lib.fmm) (hs : 0 < step) (hd : (fields id).domain = some (ext, ints))
    (hb : ProperBox ext) (ht : (fields id).targets ≠ [])
    (hsel : selectTargets lib (fields id) index = .ok target) (hdt : Drawable lib ext step target)
    (ho : (fields id).obstacles = some o) (hdo : Drawable lib ext step o)
    (hdb : Drawable lib ext step (lib.buffered o radius (.polygon ext ints))) :
    ∃ r, (Field.navigationToTarget lib fields id index step radius strength c).1 = .ok r := by
  rw [(nav_sound hc hid index step radius strength).1]
  obtain ⟨m, hm⟩ : ∃ m, m = meshgrid step (polygonBounds ext).1 (polygonBounds ext).2.1
    (polygonBounds ext).2.2.1 (polygonBounds ext).2.2.2 := ⟨_, rfl⟩
  have em : freshMesh (fields id) step = .ok m := by
    rw [freshMesh, hd, hm]; rfl
  have edom : (fields id).domainGeom = .polygon ext ints := by rw [Field.domainGeom, hd]
  obtain ⟨h2, h2'⟩ := meshgrid_two hb hs hm
  have draw : ∀ {α : Type} (zero value : α) (g : Geom), Drawable lib ext step g → ∀ v,
      ∃ new, drawGeom lib.draw zero m.index value g ⟨m.shape.1, m.shape.2, v⟩ = .ok new ∧
        new.rows = m.shape.1 ∧ new.cols = m.shape.2 := by
    intro α zero value g hg v
    obtain ⟨hh, hfit⟩ := hg m hm
    rw [drawGeom_eq lib.draw zero m.index value hh]
    exact ⟨_, if_pos hfit, rfl, rfl⟩
  have dmap : ∀ (t : Geom) (ob : Option Geom), Drawable lib ext step t →
      (∀ o', ob = some o' → Drawable lib ext step o') →
      ∃ d, distanceMap lib.draw lib.fmm m t ob = .ok d ∧ d.rows = m.shape.1 ∧
        d.cols = m.shape.2 := by
    intro t ob h1 h3
    unfold distanceMap
    obtain ⟨contour, ec, er, el⟩ := draw (0 : ℝ) 1 t h1 (fun _ _ => -1)
    cases ob with
    | none =>
      obtain ⟨d, ed, e1, e2⟩ := hf contour ⟨m.shape.1, m.shape.2, fun _ _ => false⟩ m.step
      refine ⟨d, ?_, e1.trans er, e2.trans el⟩
      simp only [ec, bind, Except.bind, ed]
    | some o' =>
      obtain ⟨mask, ek, -, -⟩ := draw false true o' (h3 o' rfl) (fun _ _ => false)
      obtain ⟨d, ed, e1, e2⟩ := hf contour mask m.step
      refine ⟨d, ?_, e1.trans er, e2.trans el⟩
      simp only [ec, ek, bind, Except.bind, ed]
  have dirm : ∀ d : Grid (Option ℝ), d.rows = m.shape.1 → d.cols = m.shape.2 →
      ∃ x, directionMap d = .ok x := by
    intro d h1 h3
    unfold directionMap
    rw [if_neg (by omega)]
    exact ⟨_, rfl⟩
  obtain ⟨d1, ed1, r1, l1⟩ := dmap target (some (lib.buffered o radius (.polygon ext ints))) hdt
    (fun o' h => by cases h; exact hdb)
  obtain ⟨x1, ex1⟩ := dirm d1 r1 l1
  obtain ⟨k, ek, -, -⟩ := draw false true o hdo (fun _ _ => false)
  obtain ⟨d2, ed2, r2, l2⟩ := dmap o none hdo (by simp)
  obtain ⟨x2, ex2⟩ := dirm d2 r2 l2
  have ep : ∃ t, freshPath lib (fields id) step index radius = .ok t := by
    unfold freshPath shortestPath
    simp only [hsel, em, edom, ho, bind, Except.bind, ed1, ex1, ek]
    exact ⟨_, rfl⟩
  have eo : ∃ t, freshObs lib (fields id) step = .ok t := by
    unfold freshObs directionMapObstacles
    simp only [em, ho, bind, Except.bind, ed2, ex2]
    exact ⟨_, rfl⟩
  obtain ⟨t, et⟩ := ep
  obtain ⟨ot, eot⟩ := eo
  unfold freshNav
  rw [if_neg ht]
  simp only [et, eot, em, bind, Except.bind]
  exact ⟨_, rfl⟩

/-- The hypotheses can be met: a square with a wall and an exit. -/
example : ∃ f : Field, f.domain = some ([(0, 0), (1, 0), (1, 1), (0, 1), (0, 0)], []) ∧
    f.obstacles = some (.lineString [(0, 0), (0, 1)]) ∧
    ∃ r, (Field.navigationToTarget simpleLib (fun _ => f) 0 (.int 0) 1 2 3 emptyCaches).1 =
      .ok r := by
  refine ⟨⟨some ([(0, 0), (1, 0), (1, 1), (0, 1), (0, 0)], []), some (.lineString [(0, 0), (0, 1)]),
    [.lineString [(1, 0), (1, 1)]], []⟩, rfl, rfl, ?_⟩
  refine C77_obstacles_partial simpleLib _ 0 {0} (by simp) emptyCaches soundCaches_empty _ _ _
    (.lineString [(1, 0), (1, 1)]) _ 1 2 3 (fun c _ _ => ⟨_, rfl, rfl, rfl⟩) one_pos rfl
    properBox_square (by simp) ?_ (simpleLib_drawable _ properBox_square _ _) rfl
    (simpleLib_drawable _ properBox_square _ _) (simpleLib_drawable _ properBox_square _ _)
  simp [selectTargets, pyListGet, npIndex]

/-- **C77** fails for every field without obstacles: an exception is raised whatever the domain,
targets and parameters are. -/
theorem C77_no_obstacles_error (lib : FieldLib) (fields : ℕ → Field) (id : ℕ) (asked : Set ℕ)
    (hid : id ∈ asked) (c : Caches) (hc : SoundCaches lib fields asked c)
    (ho : (fields id).obstacles = none) (index : TargetIndex) (step radius strength : ℝ) :
    ∃ e, (Field.navigationToTarget lib fields id index step radius strength c).1 = .error e := by
  rw [(nav_sound hc hid index step radius strength).1]
  have hp : ∃ e, freshPath lib (fields id) step index radius = .error e := by
    unfold freshPath
    rw [ho]
    cases h1 : selectTargets lib (fields id) index with
    | error e => exact ⟨e, rfl⟩
    | ok t =>
      cases h2 : freshMesh (fields id) step with
      | error e => exact ⟨e, rfl⟩
      | ok m => exact ⟨.attribute, rfl⟩
  obtain ⟨e, he⟩ := hp
  unfold freshNav
  by_cases ht : (fields id).targets = []
  · rw [if_pos ht]; exact ⟨_, rfl⟩
  · rw [if_neg ht, he]; exact ⟨e, rfl⟩

/-- A field with a target and without obstacles. -/
def openField : Field :=
  ⟨some ([(0, 0), (1, 0), (1, 1), (0, 1), (0, 0)], []), none, [.lineString [(1, 0), (1, 1)]], []⟩

/-- The hypotheses can be met. -/
example : SoundCaches simpleLib (fun _ => openField) {0} emptyCaches ∧
    openField.obstacles = none := ⟨soundCaches_empty, rfl⟩

/-- **C77** is false of the code: a square without obstacles and with an exit. -/
theorem C77_fails : ¬ C77_statement := by
  intro h
  obtain ⟨r, hr⟩ := h simpleLib openField _ [] (.int 0) (.lineString [(1, 0), (1, 1)]) 1 2 3
    (fun c _ _ => ⟨_, rfl, rfl, rfl⟩) one_pos rfl properBox_square (by simp [openField])
    (by simp [selectTargets, pyListGet, npIndex, openField])
    (simpleLib_drawable _ properBox_square _ _) (by simp [openField])
  obtain ⟨e, he⟩ := C77_no_obstacles_error simpleLib (fun _ => openField) 0 {0} (by simp)
    emptyCaches soundCaches_empty rfl (.int 0) 1 2 3
  rw [hr] at he
  cases he

/-! ## C75: spawning away from obstacles -/

/-- The full claim of C75. -/
def C75_statement : Prop :=
  ∀ (region : Geom → Set Vec) (lib : HullLib) (f : Field) (k : ℕ) (spawn o : Geom)
    (radius x r1 r2 : ℝ), f.spawns[k]? = some spawn → f.obstacles = some o →
    HullContract region lib spawn o radius → x < 1 → r1 < 1 → 0 ≤ r2 → r2 < 1 →
    ∃ p, f.sampleSpawn lib k radius x r1 r2 = .ok (some p) ∧
      p ∈ freeRegion region spawn o radius

/-- **C75** (partial) A point is always generated, and it lies in the convex hull of the free
region, hence in the convex hull of the spawn. What is missing: it need not lie in the free
region itself. -/
theorem C75_hull_partial (region : Geom → Set Vec) (lib : HullLib) (f : Field) (k : ℕ)
    (spawn o : Geom) (radius x r1 r2 : ℝ) (hk : f.spawns[k]? = some spawn)
    (ho : f.obstacles = some o) (hl : HullContract region lib spawn o radius) (hx : x < 1)
    (h1 : r1 < 1) (h2 : 0 ≤ r2) (h2' : r2 < 1) :
    ∃ p, f.sampleSpawn lib k radius x r1 r2 = .ok (some p) ∧
      p ∈ convexHull ℝ (freeRegion region spawn o radius) ∧ p ∈ convexHull ℝ (region spawn) := by
  obtain ⟨p, hp, hm⟩ := C38_polygon lib.delaunay (lib.difference spawn o radius) hl.corners hl.area
    x r1 r2 hx h1 h2 h2'
  rw [hl.hull] at hm
  refine ⟨p, ?_, hm, convexHull_mono (fun q hq => hq.1) hm⟩
  unfold Field.sampleSpawn fieldSamples
  rw [pyListGet_nat hk, ho]
  simp only [bind, Except.bind, hp]

/-- **C75** (partial) If the free region is convex, then the points keep the distance. -/
theorem C75_convex_partial (region : Geom → Set Vec) (lib : HullLib) (f : Field) (k : ℕ)
    (spawn o : Geom) (radius x r1 r2 : ℝ) (hk : f.spawns[k]? = some spawn)
    (ho : f.obstacles = some o) (hl : HullContract region lib spawn o radius)
    (hconv : Convex ℝ (freeRegion region spawn o radius)) (hx : x < 1)
    (h1 : r1 < 1) (h2 : 0 ≤ r2) (h2' : r2 < 1) :
    ∃ p, f.sampleSpawn lib k radius x r1 r2 = .ok (some p) ∧ p ∈ region spawn ∧
      ∀ q ∈ region o, radius ≤ Spec.dist p q := by
  obtain ⟨p, hp, hm, -⟩ := C75_hull_partial region lib f k spawn o radius x r1 r2 hk ho hl hx h1 h2
    h2'
  rw [hconv.convexHull_eq] at hm
  exact ⟨p, hp, hm.1, hm.2⟩

/-- **C75** (partial) Without obstacles the points lie in the convex hull of the spawn, hence in a
convex spawn. -/
theorem C75_no_obstacles_partial (region : Geom → Set Vec) (lib : HullLib) (f : Field) (k : ℕ)
    (spawn : Geom) (radius x r1 r2 : ℝ) (hk : f.spawns[k]? = some spawn)
    (ho : f.obstacles = none)
    (hull : convexHull ℝ {v | v ∈ lib.plain spawn} = convexHull ℝ (region spawn))
    (corners : ∀ t ∈ lib.delaunay (lib.plain spawn),
      t.1 ∈ lib.plain spawn ∧ t.2.1 ∈ lib.plain spawn ∧ t.2.2 ∈ lib.plain spawn)
    (area : 0 < ((lib.delaunay (lib.plain spawn)).map fun t => triArea t.1 t.2.1 t.2.2).sum)
    (hx : x < 1) (h1 : r1 < 1) (h2 : 0 ≤ r2) (h2' : r2 < 1) :
    ∃ p, f.sampleSpawn lib k radius x r1 r2 = .ok (some p) ∧ p ∈ convexHull ℝ (region spawn) := by
  obtain ⟨p, hp, hm⟩ := C38_polygon lib.delaunay (lib.plain spawn) corners area x r1 r2 hx h1 h2 h2'
  rw [hull] at hm
  refine ⟨p, ?_, hm⟩
  unfold Field.sampleSpawn fieldSamples
  rw [pyListGet_nat hk, ho]
  simp only [bind, Except.bind, hp]

/-- The field with the triangle and the wall. -/
def triField : Field := ⟨none, some triWall, [], [triSpawn]⟩

/-- The hypotheses of the partial theorems can be met. -/
example : triField.spawns[0]? = some triSpawn ∧ triField.obstacles = some triWall ∧
    HullContract triRegion triLib triSpawn triWall 1 := ⟨rfl, rfl, triContract⟩

/-- The hypotheses of `C75_convex_partial` can be met. -/
example : HullContract farRegion triLib triSpawn triWall 1 ∧
    Convex ℝ (freeRegion farRegion triSpawn triWall 1) := by
  rw [farFree]
  refine ⟨⟨?_, triContract.corners, triContract.area⟩, convex_convexHull ℝ _⟩
  rw [farFree, (convex_convexHull ℝ _).convexHull_eq]
  rfl

/-- The hypotheses of `C75_no_obstacles_partial` can be met. -/
example : convexHull ℝ {v | v ∈ triLib.plain triSpawn} = convexHull ℝ (triRegion triSpawn) ∧
    ({ triField with obstacles := none } : Field).spawns[0]? = some triSpawn := by
  refine ⟨?_, rfl⟩
  show _ = convexHull ℝ (convexHull ℝ {v | v ∈ triCorners})
  rw [(convex_convexHull ℝ _).convexHull_eq]
  rfl

/-- **C75** is false of the code: with a wall in the middle of the spawn, a point on the wall can
be generated. -/
theorem C75_fails : ¬ C75_statement := by
  intro h
  obtain ⟨p, hp, hm⟩ := h triRegion triLib triField 0 triSpawn triWall 1 0 (1 / 4) (4 / 5) rfl rfl
    triContract (by norm_num) (by norm_num) (by norm_num) (by norm_num)
  have hs : √(1 / 4 : ℝ) = 1 / 2 := by
    rw [Real.sqrt_eq_iff_mul_self_eq (by norm_num) (by norm_num)]; norm_num
  have e : triField.sampleSpawn triLib ((0 : ℕ) : ℤ) 1 0 (1 / 4) (4 / 5) = .ok (some (5, 4)) := by
    unfold Field.sampleSpawn fieldSamples
    rw [pyListGet_nat (a := triSpawn) rfl]
    obtain ⟨i, hi, ei⟩ := weights_choice (w := triangleAreaCumsum [((0, 0), (10, 0), (10, 10))])
      (cumsum_ne_nil (by simp))
      (by rw [cumsum_last _ (by simp)]; norm_num [meshArea, triArea]) (x := 0) (by norm_num)
    rw [cumsum_length] at hi
    have hi0 : i = 0 := by simpa using hi
    subst hi0
    simp only [triField, bind, Except.bind, polygonSample, triLib, triangleChoice, ei]
    simp only [List.getElem?_cons_zero, randomSampleTriangle, hs]
    norm_num
  rw [e] at hp
  cases hp
  have := hm.2 (5, 4) (left_mem_segment ℝ _ _)
  norm_num [Spec.dist, Spec.len] at this

end CrowdDynamics
