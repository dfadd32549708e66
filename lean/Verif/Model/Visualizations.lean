import Verif.Model.Field
import Verif.Model.Utils
import Mathlib.Analysis.SpecialFunctions.Complex.Arg

/-!
# Model of `crowddynamics/visualizations.py`

The figures of bokeh are the lists of their glyphs; colours, line styles and legends are left out.
-/

namespace CrowdDynamics

noncomputable section

open Classical

/-! ## `set_aspect` -/

/-- `min(x)`; raises `ValueError` for an empty sequence.
Source: crowddynamics/visualizations.py:31-32. -/
def pyMin : List ℝ → Except PyErr ℝ
  | [] => .error .value
  | x :: xs => .ok (xs.foldl min x)

/-- `max(x)`; raises `ValueError` for an empty sequence.
Source: crowddynamics/visualizations.py:31-32. -/
def pyMax : List ℝ → Except PyErr ℝ
  | [] => .error .value
  | x :: xs => .ok (xs.foldl max x)

/-- `a / b`; raises `ZeroDivisionError`.
Source: crowddynamics/visualizations.py:40, 45. -/
def pyDiv (a b : ℝ) : Except PyErr ℝ := if b = 0 then .error .other else .ok (a / b)

/-- `set_aspect`: the new ranges of the axes. `x` and `y` are sequences (a generator would be used up
by `min`). Source: crowddynamics/visualizations.py:17-51 (`set_aspect`). -/
def setAspect (plotWidth plotHeight : ℝ) (x y : List ℝ) (aspect margin : ℝ) :
    Except PyErr ((ℝ × ℝ) × (ℝ × ℝ)) := do
  let xmin ← pyMin x
  let xmax ← pyMax x
  let ymin ← pyMin y
  let ymax ← pyMax y
  let width := (xmax - xmin) * (1 + 2 * margin)
  let width := if width ≤ 0 then 1.0 else width
  let height := (ymax - ymin) * (1 + 2 * margin)
  let height := if height ≤ 0 then 1.0 else height
  let q ← pyDiv plotWidth plotHeight
  let r := aspect * q
  let (width, height) ←
    if width < r * height then .ok (r * height, height)
    else do
      let h ← pyDiv width r
      .ok (width, h)
  let xcenter := 0.5 * (xmax + xmin)
  let ycenter := 0.5 * (ymax + ymin)
  .ok ((xcenter - 0.5 * width, xcenter + 0.5 * width),
    (ycenter - 0.5 * height, ycenter + 0.5 * height))

/-! ## Glyphs -/

/-- What can be in a figure.
Source: the calls at crowddynamics/visualizations.py:95, 97, 99, 142, 166-169. -/
inductive Glyph where
  /-- `fig.circle` -/
  | circle (at_ : Vec)
  /-- `fig.line` -/
  | line (coords : List Vec)
  /-- `fig.patch` -/
  | patch (ring : List Vec)
  /-- `fig.image`: values, lower left corner, width and height -/
  | image (values : Grid ℝ) (x y dw dh : ℝ)
  /-- `fig.segment`: from where to where -/
  | segment (ends : List (Vec × Vec))
  /-- `fig.triangle`: where, and how far it is turned from pointing upwards -/
  | triangle (heads : List (Vec × ℝ))

mutual

/-- `add_geom`; the second component is the figure afterwards.
Source: crowddynamics/visualizations.py:87-105 (`add_geom`). Points and lines without coordinates
are not modelled. -/
def addGeom (fig : List Glyph) : Geom → Except PyErr Unit × List Glyph
  | .point p => (.ok (), fig ++ [.circle p])
  | .lineString coords => (.ok (), fig ++ [.line coords])
  | .polygon exterior _ => (.ok (), fig ++ [.patch exterior])
  | .multi parts => addGeoms fig parts
  | .other => (.error .type, fig)

/-- The loops `for item in …: add_geom(fig, item)`.
Source: crowddynamics/visualizations.py:101-102, 120-124, 202-215. -/
def addGeoms (fig : List Glyph) : List Geom → Except PyErr Unit × List Glyph
  | [] => (.ok (), fig)
  | g :: gs =>
    match addGeom fig g with
    | (.error e, fig) => (.error e, fig)
    | (.ok (), fig) => addGeoms fig gs

end

/-- The argument `geom` of `add_geom` if it may be `None`.
Source: crowddynamics/visualizations.py:118, 126, 198, 217. -/
def optGeom : Option Geom → Geom
  | some g => g
  | none => .other

/-- `field.domain` as an argument. Source: crowddynamics/visualizations.py:118, 198. -/
def Field.optDomain (f : Field) : Option Geom := f.domain.map fun d => .polygon d.1 d.2

/-- Source: crowddynamics/visualizations.py:108-126 (`add_field`). -/
def addField (fig : List Glyph) (f : Field) : Except PyErr Unit × List Glyph :=
  match addGeom fig (optGeom f.optDomain) with
  | (.error e, fig) => (.error e, fig)
  | (.ok (), fig) =>
    match addGeoms fig f.spawns with
    | (.error e, fig) => (.error e, fig)
    | (.ok (), fig) =>
      match addGeoms fig f.targets with
      | (.error e, fig) => (.error e, fig)
      | (.ok (), fig) => addGeom fig (optGeom f.obstacles)

/-- Source: crowddynamics/visualizations.py:129-142 (`add_distance_map`). -/
def addDistanceMap (fig : List Glyph) (mgrid : MeshGrid) (distanceMap : Grid ℝ) : List Glyph :=
  let (minx, miny, maxx, maxy) := mgrid.bounds
  fig ++ [.image distanceMap minx miny maxx maxy]

/-- `A[::freq, ::freq].flatten()`: every `freq`-th row and column, row by row.
Source: crowddynamics/visualizations.py:160-164, 168-169. -/
def everyNth {α : Type} (g : Grid α) (freq : ℕ) : List α :=
  (List.range ((g.rows + freq - 1) / freq)).flatMap fun i =>
    (List.range ((g.cols + freq - 1) / freq)).map fun j => g.val (i * freq) (j * freq)

/-- `np.arctan2(v, u)`. Source: crowddynamics/visualizations.py:168. -/
def arctan2 (v u : ℝ) : ℝ := Complex.arg ⟨u, v⟩

/-- `add_direction_map` for `freq > 0`; arrays of different shapes raise `ValueError`. NaN entries
(`none`) give no visible glyph.
Source: crowddynamics/visualizations.py:145-169 (`add_direction_map`). -/
def addDirectionMap (fig : List Glyph) (mgrid : MeshGrid) (directionMap : Grid (Option Vec))
    (freq : ℕ) : Except PyErr Unit × List Glyph :=
  let x0 := everyNth mgrid.x freq
  let y0 := everyNth mgrid.y freq
  let d := everyNth directionMap freq
  if x0.length = d.length then
    let arrows := ((x0.zip y0).zip d).filterMap fun a => a.2.map fun u => (a.1, u)
    let tip := fun (a : Vec × Vec) => a.1 + (0.9 * freq * mgrid.step) • a.2
    (.ok (), fig ++ [.segment (arrows.map fun a => (a.1, tip a)),
      .triangle (arrows.map fun a => (tip a, arctan2 a.2.2 a.2.1 - Real.pi / 2))])
  else (.error .value, fig)

/-- `distance_map.filled(1.0)`. Source: crowddynamics/visualizations.py:194. -/
def filled (g : Grid (Option ℝ)) (value : ℝ) : Grid ℝ :=
  ⟨g.rows, g.cols, fun i j => (g.val i j).getD value⟩

/-- What `plot_field` does: the ranges of the axes and the glyphs of the figure that is shown. `hull` is
the outcome of `field.convex_hull().bounds`. Truth values of polygons: the validator of `domain`
accepts no empty ones. Domain, spawns, targets and obstacles are drawn in the same order as by
`add_field`. Source: crowddynamics/visualizations.py:172-226 (`plot_field`). -/
def plotField (lib : FieldLib) (fields : ℕ → Field) (self : ℕ) (hull : Except PyErr (ℝ × ℝ × ℝ × ℝ))
    (plotWidth plotHeight step radius strength : ℝ) (c : Caches) :
    Except PyErr (((ℝ × ℝ) × (ℝ × ℝ)) × List Glyph) × Caches :=
  let f := fields self
  let bounds : Except PyErr (ℝ × ℝ × ℝ × ℝ) := match f.domain with
    | some d => .ok (polygonBounds d.1)
    | none => hull
  match bounds with
  | .error e => (.error e, c)
  | .ok (minx, miny, maxx, maxy) =>
    match setAspect plotWidth plotHeight [minx, maxx] [miny, maxy] 1 0.1 with
    | .error e => (.error e, c)
    | .ok ranges =>
      match Field.navigationToTarget lib fields self .closest step radius strength c with
      | (.error e, c) => (.error e, c)
      | (.ok (mgrid, distanceMap, directionMap), c) =>
        let fig := addDistanceMap [] mgrid (filled distanceMap 1.0)
        match addDirectionMap fig mgrid directionMap 2 with
        | (.error e, _) => (.error e, c)
        | (.ok (), fig) =>
          match addField fig f with
          | (.error e, _) => (.error e, c)
          | (.ok (), fig) => (.ok (ranges, fig), c)

/-! ## Files -/

/-- `os.path.splitext(path)`: the name after the last slash is split.
Source: crowddynamics/visualizations.py:70, 240. -/
def splitext (path : Text) : Text × Text :=
  let name := (path.reverse.takeWhile fun c => decide (c ≠ '/')).reverse
  let ext := splitextExt name
  (path.take (path.length - ext.length), ext)

/-- What `figure` does outside of the `with` block: the name of the output file and whether it is
shown and saved. `block` is the outcome of the `with` block; an exception in it ends the generator.
Source: crowddynamics/visualizations.py:54-84 (`figure`). -/
def figureManager (filename : Text) (show_ save : Bool) (block : Except PyErr Unit) :
    Except PyErr Unit × Text × Bool × Bool :=
  let (_, ext) := splitext filename
  let filename := if ext ≠ ".html".toList then filename ++ ".html".toList else filename
  match block with
  | .error e => (.error e, filename, false, false)
  | .ok () => (.ok (), filename, show_, save)

/-- The formats of `render_tree`. Source: crowddynamics/visualizations.py:241-246. -/
inductive TreeFormat where
  /-- `to_picture` -/
  | picture
  /-- `to_dotfile` -/
  | dotfile
  deriving DecidableEq

/-- What is written where by `render_tree`.
Source: crowddynamics/visualizations.py:230-246 (`render_tree`). -/
def renderTree (filepath : Text) : Except PyErr (TreeFormat × Text) :=
  let (_, ext) := splitext filepath
  if ext = ".png".toList then .ok (.picture, filepath)
  else if ext = ".dot".toList then .ok (.dotfile, filepath)
  else .error .other

end

end CrowdDynamics
