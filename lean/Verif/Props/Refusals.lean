import Verif.Proofs.Refusals

/-!
# Properties C115 and C117: wrong input is refused, and with which exception
-/

namespace CrowdDynamics

open Spec

/-! ## C115: geometries and arrays -/

/-- **C115** A geometry is turned into line segments exactly if it consists of points, line
strings, polygons and collections of these; otherwise a `TypeError` is raised. The same holds for
obstacles. -/
theorem C115_segments (g : Geom) :
    ((∃ s, geomToLinesegment g = .ok s) ↔ Supported g) ∧
    (¬ Supported g → geomToLinesegment g = .error .type ∧
      geomToLinearObstacles (some g) = .error .type) := by
  refine ⟨⟨fun ⟨s, h⟩ => segments_ok g s h, fun h => ⟨_, geomToLinesegment_shells h⟩⟩, fun h => ?_⟩
  have e : geomToLinesegment g = .error .type := by
    cases e : geomToLinesegment g with
    | ok s => exact absurd (segments_ok g s e) h
    | error e' => rw [segments_error g e' e]
  refine ⟨e, ?_⟩
  simp only [geomToLinearObstacles, e]
  rfl

/-- A collection with something unknown in it. -/
example : ¬ Supported (.multi [.point (1, 1), .other]) := by
  intro h
  cases h with
  | multi _ h => cases h .other (by simp)

/-- **C115** Drawing raises only `IndexError` (something lies outside of the grid) or `TypeError`
(something is not a supported geometry); unsupported geometries are never drawn without an
exception. -/
theorem C115_draw {α : Type} (lib : DrawLib) (zero v : α) (ix : Vec → ℤ × ℤ) (g : Geom)
    (grid : Grid α) :
    (∀ new, drawGeom lib zero ix v g grid = .ok new → Supported g) ∧
    (∀ e, drawGeom lib zero ix v g grid = .error e →
      e = .index ∨ (e = .type ∧ ¬ Supported g)) ∧
    drawGeom lib zero ix v .other grid = .error .type :=
  ⟨draw_ok lib zero ix v g grid, draw_error lib zero ix v g grid, by rw [drawGeom]⟩

/-- **C115** `geom_to_array` returns exactly for single geometries; it raises `ValueError` for
collections and `TypeError` for anything else. -/
theorem C115_array (g : Geom) :
    ((∃ a, geomToArray g = .ok a) ↔ Single g) ∧
    (∀ e, geomToArray g = .error e →
      (e = .value ∧ ∃ parts, g = .multi parts) ∨ (e = .type ∧ ¬ Supported g)) := by
  cases g with
  | point p => exact ⟨⟨fun _ => trivial, fun _ => ⟨_, rfl⟩⟩, fun e h => by cases h⟩
  | lineString c => exact ⟨⟨fun _ => trivial, fun _ => ⟨_, rfl⟩⟩, fun e h => by cases h⟩
  | polygon ext ints =>
    have : ∃ a, geomToArray (.polygon ext ints) = .ok a := by
      unfold geomToArray geomToArrayParts
      cases ints <;> exact ⟨_, rfl⟩
    obtain ⟨a, ha⟩ := this
    exact ⟨⟨fun _ => trivial, fun _ => ⟨a, ha⟩⟩, fun e h => by rw [ha] at h; cases h⟩
  | multi parts =>
    refine ⟨⟨fun ⟨a, h⟩ => (by cases h), fun h => h.elim⟩, fun e h => ?_⟩
    cases h
    exact .inl ⟨rfl, parts, rfl⟩
  | other =>
    refine ⟨⟨fun ⟨a, h⟩ => (by cases h), fun h => h.elim⟩, fun e h => ?_⟩
    cases h
    exact .inr ⟨rfl, fun h => by cases h⟩

/-- **C115** Arrays of different sizes that are sent to the storage are refused with a `ValueError`
when they are to be written. -/
theorem C115_storage {α : Type} (other : Text → ℕ → Except PyErr Text) (writable : Text → Bool)
    (template : Text) (co : NpyCo) (w : NpyWorld α) (ref r s : ℕ) (path : Text)
    (hp : formatIndex other co.index template = .ok path)
    (hr : r ∈ co.buffer ++ [ref]) (hs : s ∈ co.buffer ++ [ref])
    (hne : (w.heap r).length ≠ (w.heap s).length) :
    npySend other writable template co w ref true = .error .value := by
  unfold npySend
  simp only [if_true]
  rw [hp]
  have : vstackArrays ((co.buffer ++ [ref]).map w.heap) = .error .value := by
    cases e : (co.buffer ++ [ref]).map w.heap with
    | nil => rfl
    | cons a rest =>
      refine if_neg fun h => ?_
      have hm : ∀ x ∈ co.buffer ++ [ref], (w.heap x).length = a.length := by
        intro x hx
        have : w.heap x ∈ a :: rest := by rw [← e]; exact List.mem_map_of_mem hx
        rcases List.mem_cons.1 this with h1 | h1
        · rw [h1]
        · exact h _ h1
      exact hne ((hm r hr).trans (hm s hs).symm)
  simp only [bind, Except.bind, this]

/-- Two arrays of 2 and 3 agents. -/
example : ∃ w : NpyWorld ℕ, (w.heap 0).length ≠ (w.heap 1).length :=
  ⟨⟨fun k => if k = 0 then [1, 2] else [1, 2, 3], fun _ => none⟩, by simp⟩

/-- **C115** Concatenating raises `ValueError` if there is no file, or if there are rows of
different sizes, and otherwise joins the rows of the files in the order of their numbers. -/
theorem C115_concatenate {α : Type} (disk : Text → Option (List (List α)))
    (walk : List (Text × List Text)) (basename : Text) (parts : List (List (List α)))
    (hl : loadNpy disk walk basename = .ok parts) :
    ((parts = [] ∨ ∃ a ∈ parts.flatten, ∃ b ∈ parts.flatten, a.length ≠ b.length) →
      loadNpyConcatenated disk walk basename = .error .value) ∧
    ((parts ≠ [] ∧ ∀ a ∈ parts.flatten, ∀ b ∈ parts.flatten, a.length = b.length) →
      loadNpyConcatenated disk walk basename = .ok parts.flatten) := by
  unfold loadNpyConcatenated
  rw [hl]
  refine ⟨fun h => ?_, fun ⟨h1, h2⟩ => ?_⟩
  · show vstackMatrices parts = _
    cases parts with
    | nil => rfl
    | cons m rest =>
      rcases h with h | ⟨a, ha, b, hb, hne⟩
      · cases h
      · exact if_neg fun h => hne (h a ha b hb)
  · show vstackMatrices parts = _
    cases parts with
    | nil => exact absurd rfl h1
    | cons m rest => exact if_pos h2

/-- A directory without files. -/
example : loadNpy (fun _ => (none : Option (List (List ℕ)))) [("data".toList, [])] "x".toList =
    .ok [] := by
  simp [loadNpy, findNpyFiles, findInFiles, bind, Except.bind, pure, Except.pure]

/-- **C115** A dictionary that is not empty cannot be saved as a geometry: `AttributeError`, and
nothing is written. -/
theorem C115_dictionary {G J : Type} (lib : GeoLib G J) (before after : List (Text × GeomEntry G))
    (name : Text) (d : List (Text × G)) (hd : d ≠ []) (file : Option (List (JsonChunk J)))
    (hb : ∀ e ∈ before, ∀ d', e.2 ≠ .dict d') :
    saveGeometryJson lib (before ++ (name, .dict d) :: after) file =
      (.error .attribute, some (file.getD [])) := by
  have key : mapGeometries lib (before ++ (name, .dict d) :: after) = .error .attribute := by
    induction before with
    | nil =>
      cases d with
      | nil => exact absurd rfl hd
      | cons x xs => rfl
    | cons e rest ih =>
      obtain ⟨n, g⟩ := e
      rw [List.cons_append, mapGeometries]
      have : ∃ m, geometryMapping lib g = .ok m := by
        cases g with
        | dict d' => exact absurd rfl (hb (n, .dict d') (by simp) d')
        | none => exact ⟨_, rfl⟩
        | single g => unfold geometryMapping; simp only; split_ifs <;> exact ⟨_, rfl⟩
        | multi parts => exact ⟨_, rfl⟩
        | list gs => exact ⟨_, rfl⟩
      obtain ⟨m, hm⟩ := this
      rw [hm, ih fun e he => hb e (by simp [he])]
      rfl
  unfold saveGeometryJson
  rw [key]

example := C115_dictionary (⟨id, .ok, fun n => n == 0⟩ : GeoLib ℕ ℕ) [("domain".toList, .single 3)] [("spawns".toList, .list [])]
  "targets".toList [("exit".toList, 4)] (by simp) none (by simp)

/-! ## C117: attributes of bodies -/

/-- **C117** However an agent is created and whatever is assigned later (successfully or not), no
attribute of its body is ever negative, and no ratio is larger than 1. -/
theorem C117_ranges (cfg : List (String × List (BodyAttr × ℝ))) (z : ℕ → ℝ → ℝ → ℝ)
    (kws sets : List BodyKw) :
    InRange (sets.foldl (fun b kw => (setKw cfg z b kw).obj) (construct cfg z kws).obj) := by
  have : ∀ (l : List BodyKw) (b : BodyObj), InRange b →
      InRange (l.foldl (fun b kw => (setKw cfg z b kw).obj) b) := by
    intro l
    induction l with
    | nil => intro b h; exact h
    | cons kw l ih => intro b h; exact ih _ (inRange_setKw cfg z h kw)
  exact this sets _ (inRange_construct cfg z kws)

/-- **C117** Values that are not allowed are refused: the constructor raises, and an assignment
raises and changes nothing. -/
theorem C117_refused (cfg : List (String × List (BodyAttr × ℝ))) (z : ℕ → ℝ → ℝ → ℝ) :
    (∀ kws, (∃ kw ∈ kws, ¬ AllowedKw kw) → (construct cfg z kws).err = true) ∧
    ∀ b a v, ¬ AllowedValue a v →
      (setKw cfg z b (.attr a v)).err = true ∧ (setKw cfg z b (.attr a v)).obj = b := by
  refine ⟨fun kws ⟨kw, hk, hv⟩ => construct_refused cfg z kws kw hk hv, fun b a v hv => ?_⟩
  have hv' : ¬ a.valid v := hv
  have : setKw cfg z b (.attr a v) = ⟨b, true⟩ := by
    unfold setKw setAttr assign
    exact if_neg hv'
  rw [this]
  exact ⟨rfl, rfl⟩

/-- A negative mass and a ratio above 1. -/
example : ¬ AllowedValue .mass (-1) ∧ ¬ AllowedKw (.attr .ratioRt 1.5) := by
  constructor
  · rintro ⟨h, -⟩; norm_num at h
  · rintro ⟨-, h⟩; have := h (.inl rfl); norm_num at this

/-- **C117** The body type can be set once: assigning another one later raises, although the new
name is stored; so does a name that is not in the configuration. The old name again is accepted. -/
theorem C117_body_type (cfg : List (String × List (BodyAttr × ℝ))) (z : ℕ → ℝ → ℝ → ℝ)
    (b : BodyObj) (name : String) :
    (b.bodyType ≠ "" → b.bodyType ≠ name →
      (setKw cfg z b (.bodyType name)).err = true ∧
      (setKw cfg z b (.bodyType name)).obj = { b with bodyType := name }) ∧
    (b.bodyType = "" → name ≠ "" → (∀ e ∈ cfg, e.1 ≠ name) →
      (setKw cfg z b (.bodyType name)).err = true) ∧
    (b.bodyType = name → setKw cfg z b (.bodyType name) = ⟨b, false⟩) := by
  unfold setKw setBodyType observeBodyType
  refine ⟨fun h1 h2 => ?_, fun h1 h2 h3 => ?_, fun h => if_pos h⟩
  · simp only
    rw [if_neg h2, if_neg h1]
    exact ⟨rfl, rfl⟩
  · simp only
    rw [if_neg (by rw [h1]; exact h2.symm), if_pos h1]
    have : cfg.lookup name = none := by
      rw [List.lookup_eq_none_iff]
      intro e he
      simpa using (h3 e he).symm
    rw [this]

/-- An adult becomes a child; and a type that is not shipped. -/
example : ({ BodyObj.new with bodyType := "adult" } : BodyObj).bodyType ≠ "child" ∧
    ∀ e ∈ bodyTypesCfg, e.1 ≠ "elderly" := by
  refine ⟨by simp, ?_⟩
  simp [bodyTypesCfg]

end CrowdDynamics
