import Mathlib.Data.List.Basic
import Mathlib.Data.List.Sort
import Mathlib.Data.Int.Order.Basic
import Verif.Model.Errors

/-!
# Model of `crowddynamics/io.py` and of `concat_npy` in `crowddynamics/cli.py`

Text is a list of characters. What the files contain is modelled, not how bytes are written.
-/

namespace CrowdDynamics

/-- A Python string.
Source: crowddynamics/io.py:34 (strings). -/
abbrev Text := List Char

/-! ## String functions of Python that the code calls -/

/-- The character of a digit.
Source: crowddynamics/io.py:43 (`format`). -/
def digitChar (d : ℕ) : Char := Char.ofNat (48 + d)

/-- `str(i)` for a number `i ≥ 0`, as produced by the field `{index}`.
Source: crowddynamics/io.py:34, 43. -/
def decimal (i : ℕ) : Text :=
  if i < 10 then [digitChar i] else decimal (i / 10) ++ [digitChar (i % 10)]
termination_by i
decreasing_by omega

/-- `s.lstrip(chars)`. Source: crowddynamics/io.py:61. -/
def lstrip (chars s : Text) : Text := s.dropWhile fun c => decide (c ∈ chars)

/-- `s.rstrip(chars)`. Source: crowddynamics/io.py:61. -/
def rstrip (chars s : Text) : Text := (lstrip chars s.reverse).reverse

/-- Is this an ASCII white space character? (`int` ignores them at both ends.)
Source: crowddynamics/io.py:61. -/
def isSpace (c : Char) : Bool :=
  c.toNat == 32 || (decide (9 ≤ c.toNat) && decide (c.toNat ≤ 13)) ||
    (decide (28 ≤ c.toNat) && decide (c.toNat ≤ 31))

/-- Value of an ASCII digit.
Source: crowddynamics/io.py:61 (`int`). -/
def digitValue (c : Char) : Option ℕ :=
  if 48 ≤ c.toNat ∧ c.toNat ≤ 57 then some (c.toNat - 48) else none

/-- The digits of an integer literal; since Python 3.6 single underscores are allowed between
digits. `after` says that the previous character was a digit. Source: crowddynamics/io.py:61. -/
def intBody : ℕ → Bool → Text → Option ℕ
  | acc, after, [] => if after then some acc else none
  | acc, after, c :: rest =>
    if c = '_' then (if after then intBody acc false rest else none)
    else match digitValue c with
      | some d => intBody (acc * 10 + d) true rest
      | none => none

/-- `int(s)`. Simplification: digits and white space outside ASCII are taken as invalid.
Source: crowddynamics/io.py:61. -/
def pyInt (s : Text) : Except PyErr ℤ :=
  let s' := ((s.dropWhile isSpace).reverse.dropWhile isSpace).reverse
  match s' with
  | '-' :: rest => match intBody 0 false rest with
    | some v => .ok (-(v : ℤ))
    | none => .error .value
  | '+' :: rest => match intBody 0 false rest with
    | some v => .ok (v : ℤ)
    | none => .error .value
  | rest => match intBody 0 false rest with
    | some v => .ok (v : ℤ)
    | none => .error .value

/-- `os.path.join(a, b)` (POSIX). Source: crowddynamics/io.py:34, 62, 120;
crowddynamics/cli.py:57. -/
def pathJoin (a b : Text) : Text :=
  if b.head? = some '/' then b
  else if a = [] ∨ a.getLast? = some '/' then a ++ b
  else a ++ '/' :: b

/-- `template.format(index=i)`. Fields with another name or with a format specification are left to
the parameter `other`, which gets the rest of the template. Source: crowddynamics/io.py:43. -/
def formatIndex (other : Text → ℕ → Except PyErr Text) (i : ℕ) : Text → Except PyErr Text
  | [] => .ok []
  | '{' :: '{' :: rest => (formatIndex other i rest).map ('{' :: ·)
  | '}' :: '}' :: rest => (formatIndex other i rest).map ('}' :: ·)
  | '{' :: 'i' :: 'n' :: 'd' :: 'e' :: 'x' :: '}' :: rest =>
    (formatIndex other i rest).map (decimal i ++ ·)
  | '{' :: rest => other ('{' :: rest) i
  | '}' :: _ => .error .value
  | c :: rest => (formatIndex other i rest).map (c :: ·)

/-! ## `save_npy` -/

/-- What the coroutine and the simulation share: arrays in memory (by reference) and files. An
array is the list of its elements; a file holds the rows of a two-dimensional array.
Source: crowddynamics/io.py:34-45. -/
structure NpyWorld (α : Type) where
  /-- contents of the arrays -/
  heap : ℕ → List α
  /-- contents of the `.npy` files -/
  disk : Text → Option (List (List α))

/-- Local variables of the coroutine. Source: crowddynamics/io.py:34-36. -/
structure NpyCo where
  /-- `buffer`: references to the arrays that were sent -/
  buffer : List ℕ
  /-- `index` -/
  index : ℕ

/-- What can happen to the world: the simulation changes an array in place, or it sends an array
followed by the flag `dump` (crowddynamics/simulation/logic.py:328-329). -/
inductive NpyEvent (α : Type) where
  /-- `array[...] = rows` -/
  | update (ref : ℕ) (rows : List α)
  /-- `storage.send(array); storage.send(dump)` -/
  | send (ref : ℕ) (dump : Bool)

/-- `np.vstack` of one-dimensional arrays of one type: they become the rows of the result; raises
for an empty list and for different lengths. Source: crowddynamics/io.py:43. -/
def vstackArrays {α : Type} : List (List α) → Except PyErr (List (List α))
  | [] => .error .value
  | a :: rest => if ∀ b ∈ rest, b.length = a.length then .ok (a :: rest) else .error .value

/-- The template of the file names. Source: crowddynamics/io.py:34. -/
def npyTemplate (directory basename : Text) : Text :=
  pathJoin directory (basename ++ "_{index}.npy".toList)

/-- One round of the loop. `writable` tells whether `np.save` can write the file.
Source: crowddynamics/io.py:37-45. -/
def npySend {α : Type} (other : Text → ℕ → Except PyErr Text) (writable : Text → Bool)
    (template : Text) (co : NpyCo) (w : NpyWorld α) (ref : ℕ) (dump : Bool) :
    Except PyErr (NpyCo × NpyWorld α) :=
  let buffer := co.buffer ++ [ref]
  if dump then do
    let path ← formatIndex other co.index template
    let rows ← vstackArrays (buffer.map w.heap)
    if writable path then
      .ok (⟨[], co.index + 1⟩, { w with disk := Function.update w.disk path (some rows) })
    else .error .os
  else .ok (⟨buffer, co.index⟩, w)

/-- A history of events. An exception ends the coroutine; what was written before remains.
Source: crowddynamics/io.py:19-45. -/
def npyRun {α : Type} (other : Text → ℕ → Except PyErr Text) (writable : Text → Bool)
    (template : Text) : List (NpyEvent α) → NpyCo → NpyWorld α →
      Except PyErr Unit × NpyCo × NpyWorld α
  | [], co, w => (.ok (), co, w)
  | .update ref rows :: rest, co, w =>
    npyRun other writable template rest co { w with heap := Function.update w.heap ref rows }
  | .send ref dump :: rest, co, w =>
    match npySend other writable template co w ref dump with
    | .ok (co', w') => npyRun other writable template rest co' w'
    | .error e => (.error e, co, w)

/-- A new coroutine, after `send(None)`. Source: crowddynamics/io.py:35-36. -/
def npyStart : NpyCo := ⟨[], 0⟩

/-! ## Loading `.npy` files -/

/-- The files of one directory in `find_npy_files`. Source: crowddynamics/io.py:59-62. -/
def findInFiles (basename root : Text) : List Text → Except PyErr (List (ℤ × Text))
  | [] => .ok []
  | file :: rest =>
    if basename.isPrefixOf file && (".npy".toList).isSuffixOf file then do
      let index ← pyInt (rstrip ".npy".toList (lstrip (basename ++ ['_']) file))
      let more ← findInFiles basename root rest
      .ok ((index, pathJoin root file) :: more)
    else findInFiles basename root rest

/-- `list(find_npy_files(directory, basename))`; `walk` is what `os.walk(directory)` yields (the
subdirectories are not used). Source: crowddynamics/io.py:48-62. -/
def findNpyFiles (basename : Text) : List (Text × List Text) → Except PyErr (List (ℤ × Text))
  | [] => .ok []
  | (root, files) :: rest => do
    let here ← findInFiles basename root files
    let more ← findNpyFiles basename rest
    .ok (here ++ more)

/-- `np.load(filepath)`. Source: crowddynamics/io.py:82. -/
def npLoad {β : Type} (disk : Text → Option β) (path : Text) : Except PyErr β :=
  match disk path with
  | some rows => .ok rows
  | none => .error .os

/-- `list(load_npy(directory, basename))`: `sorted` with the index as key is stable.
Source: crowddynamics/io.py:65-82. -/
def loadNpy {β : Type} (disk : Text → Option β) (walk : List (Text × List Text))
    (basename : Text) : Except PyErr (List β) := do
  let values ← findNpyFiles basename walk
  (values.mergeSort fun a b => decide (a.1 ≤ b.1)).mapM fun v => npLoad disk v.2

/-- `np.vstack` of two-dimensional arrays: their rows one after the other; raises for an empty list
and for different widths. Source: crowddynamics/io.py:98. -/
def vstackMatrices {α : Type} : List (List (List α)) → Except PyErr (List (List α))
  | [] => .error .value
  | m :: rest =>
    if ∀ a ∈ (m :: rest).flatten, ∀ b ∈ (m :: rest).flatten, a.length = b.length then
      .ok (m :: rest).flatten
    else .error .value

/-- Source: crowddynamics/io.py:85-98. -/
def loadNpyConcatenated {α : Type} (disk : Text → Option (List (List α)))
    (walk : List (Text × List Text)) (basename : Text) : Except PyErr (List (List α)) := do
  let parts ← loadNpy disk walk basename
  vstackMatrices parts

/-- The command `concat_npy`: loads everything and writes `basename.npy` in the same directory.
Source: crowddynamics/cli.py:49-57. -/
def concatNpy {α : Type} (path : Text) (basename : Text) (walk : List (Text × List Text))
    (disk : Text → Option (List (List α))) :
    Except PyErr (Text → Option (List (List α))) := do
  let arr ← loadNpyConcatenated disk walk basename
  .ok (Function.update disk (pathJoin path (basename ++ ".npy".toList)) (some arr))

/-! ## `save_csv` -/

/-- `io.StringIO`: text and position.
Source: crowddynamics/io.py:119-127. -/
structure StringIO where
  /-- `getvalue()` -/
  content : Text
  /-- `tell()` -/
  pos : ℕ

/-- `buffer.write(s)` (by the csv writer): overwrites from the position on; a position after the end
is filled up with zeros. Source: crowddynamics/io.py:131-132, 139. -/
def StringIO.write (b : StringIO) (s : Text) : StringIO :=
  ⟨b.content.take b.pos ++ List.replicate (b.pos - b.content.length) (Char.ofNat 0) ++ s ++
    b.content.drop (b.pos + s.length), b.pos + s.length⟩

/-- `buffer.truncate(size)`; the position stays. Source: crowddynamics/io.py:126. -/
def StringIO.truncate (b : StringIO) (size : ℕ) : StringIO := ⟨b.content.take size, b.pos⟩

/-- `buffer.seek(pos)`. Source: crowddynamics/io.py:127. -/
def StringIO.seek (b : StringIO) (pos : ℕ) : StringIO := ⟨b.content, pos⟩

/-- A dictionary: keys and values, in order of insertion.
Source: crowddynamics/io.py:130-139. -/
abbrev Dict (V : Type) := List (Text × V)

/-- What can be sent to the coroutine.
Source: crowddynamics/io.py:130-142. -/
inductive CsvSend (V : Type) where
  /-- a dictionary -/
  | dict (d : Dict V)
  /-- a truth value -/
  | flag (b : Bool)

/-- `bool(x)`. Source: crowddynamics/io.py:134, 141. -/
def CsvSend.truthy {V : Type} : CsvSend V → Bool
  | .dict d => !d.isEmpty
  | .flag b => b

/-- The points where the coroutine waits. Source: crowddynamics/io.py:130, 133, 138, 140. -/
inductive CsvCo where
  /-- waits for the first dictionary -/
  | first (buffer : StringIO)
  /-- waits for a flag -/
  | wantFlag (buffer : StringIO)
  /-- waits for a dictionary -/
  | wantData (buffer : StringIO)
  /-- ended by an exception -/
  | dead

/-- How csv rows are written: the keys, and the values.
Source: crowddynamics/io.py:131-139. -/
structure CsvFormat (V : Type) where
  /-- `writer.writerow(data.keys())` -/
  keys : List Text → Text
  /-- `writer.writerow(data.values())` -/
  values : List V → Text

/-- `dumper`: `none` is a file that does not exist (mode `'a'` creates it); `opened` tells whether
`open` and the writing succeed. Simplification: a failing write leaves nothing in the file.
Source: crowddynamics/io.py:122-127. -/
def csvDumper (opened : Bool) (buffer : StringIO) (file : Option Text) :
    Except PyErr (StringIO × Option Text) :=
  if opened then
    .ok ((buffer.truncate 0).seek 0, some (file.getD [] ++ buffer.content))
  else .error .os

/-- One `send`. Source: crowddynamics/io.py:121-142. -/
def csvSend {V : Type} (fmt : CsvFormat V) (opened : Bool) (x : CsvSend V) :
    CsvCo → Option Text → Except PyErr Unit × CsvCo × Option Text
  | .first buffer, file => match x with
    | .dict d => (.ok (), .wantFlag ((buffer.write (fmt.keys (d.map Prod.fst))).write
        (fmt.values (d.map Prod.snd))), file)
    | .flag _ => (.error .attribute, .dead, file)
  | .wantFlag buffer, file =>
    if x.truthy then
      match csvDumper opened buffer file with
      | .ok (buffer', file') => (.ok (), .wantData buffer', file')
      | .error e => (.error e, .dead, file)
    else (.ok (), .wantData buffer, file)
  | .wantData buffer, file => match x with
    | .dict d => (.ok (), .wantFlag (buffer.write (fmt.values (d.map Prod.snd))), file)
    | .flag _ => (.error .attribute, .dead, file)
  | .dead, file => (.error .stopIteration, .dead, file)

/-- A history of sends, each with the luck of its file access; exceptions are caught by the caller
and the coroutine is used further. Source: crowddynamics/io.py:103-142. -/
def csvRun {V : Type} (fmt : CsvFormat V) : List (CsvSend V × Bool) → CsvCo → Option Text →
    CsvCo × Option Text
  | [], co, file => (co, file)
  | (x, opened) :: rest, co, file =>
    csvRun fmt rest (csvSend fmt opened x co file).2.1 (csvSend fmt opened x co file).2.2

/-- A new coroutine, after `send(None)`. Source: crowddynamics/io.py:121-130. -/
def csvStart : CsvCo := .first ⟨[], 0⟩

/-! ## Geometry in json files -/

/-- A value of the dictionary of geometries.
Source: crowddynamics/io.py:147-155. -/
inductive GeomEntry (G : Type) where
  /-- `None` -/
  | none
  /-- a geometry that cannot be iterated (`Point`, `LineString`, `Polygon`) -/
  | single (g : G)
  /-- a multi-part geometry with its parts -/
  | multi (parts : List G)
  /-- a list of geometries -/
  | list (gs : List G)
  /-- a dictionary of geometries -/
  | dict (gs : List (Text × G))

/-- A value in the json file.
Source: crowddynamics/io.py:158-166. -/
inductive JsonEntry (J : Type) where
  /-- `null` -/
  | null
  /-- an object describing one geometry -/
  | obj (j : J)
  /-- a list of such objects -/
  | array (js : List J)

/-- The functions of shapely that are used.
Source: crowddynamics/io.py:148-166. -/
structure GeoLib (G J : Type) where
  /-- `mapping` -/
  mapping : G → J
  /-- `shape` -/
  shape : J → Except PyErr G
  /-- `is_empty` -/
  isEmpty : G → Bool

/-- `geometry_mapping`: `some` value that can be written as json, `none` for a geometry returned as
it is. A dictionary is iterable, so its keys (strings) are given to `mapping`.
Source: crowddynamics/io.py:147-155. -/
def geometryMapping {G J : Type} (lib : GeoLib G J) :
    GeomEntry G → Except PyErr (Option (JsonEntry J))
  | .none => .ok (some .null)
  | .single g => if lib.isEmpty g then .ok Option.none else .ok (some (.obj (lib.mapping g)))
  | .multi parts => .ok (some (.array (parts.map lib.mapping)))
  | .list gs => .ok (some (.array (gs.map lib.mapping)))
  | .dict [] => .ok (some (.array []))
  | .dict (_ :: _) => .error .attribute

/-- `geometry_shape`: an object is iterable too, so the keys of the description of one geometry
(`'type'`, `'coordinates'`) are given to `shape`, which raises. The result is `None` or a list.
Source: crowddynamics/io.py:158-166. -/
def geometryShape {G J : Type} (lib : GeoLib G J) :
    JsonEntry J → Except PyErr (GeomEntry G)
  | .null => .ok .none
  | .obj _ => .error .attribute
  | .array js => (js.mapM lib.shape).map .list

/-- A piece of a json file.
Source: crowddynamics/io.py:177-180. -/
inductive JsonChunk (J : Type) where
  /-- one complete document -/
  | document (entries : List (Text × JsonEntry J))
  /-- a document that was cut off -/
  | cutOff

/-- The dictionary comprehension in `save_geometry_json`. Source: crowddynamics/io.py:178-179. -/
def mapGeometries {G J : Type} (lib : GeoLib G J) :
    List (Text × GeomEntry G) → Except PyErr (List (Text × Option (JsonEntry J)))
  | [] => .ok []
  | (name, geom) :: rest => do
    let m ← geometryMapping lib geom
    let more ← mapGeometries lib rest
    .ok ((name, m) :: more)

/-- All values can be written as json.
Source: crowddynamics/io.py:180. -/
def serializable {J : Type} : List (Text × Option (JsonEntry J)) →
    Option (List (Text × JsonEntry J))
  | [] => some []
  | (_, .none) :: _ => .none
  | (name, some j) :: rest => (serializable rest).map ((name, j) :: ·)

/-- `save_geometry_json`: the file is opened for appending first, so it exists afterwards in any
case. Source: crowddynamics/io.py:169-180. -/
def saveGeometryJson {G J : Type} (lib : GeoLib G J) (geometries : List (Text × GeomEntry G))
    (file : Option (List (JsonChunk J))) : Except PyErr Unit × Option (List (JsonChunk J)) :=
  let chunks := file.getD []
  match mapGeometries lib geometries with
  | .error e => (.error e, some chunks)
  | .ok obj => match serializable obj with
    | .none => (.error .type, some (chunks ++ [.cutOff]))
    | some entries => (.ok (), some (chunks ++ [.document entries]))

/-- The dictionary comprehension in `load_geometry_json`. Source: crowddynamics/io.py:192. -/
def shapeEntries {G J : Type} (lib : GeoLib G J) :
    List (Text × JsonEntry J) → Except PyErr (List (Text × GeomEntry G))
  | [] => .ok []
  | (name, j) :: rest => do
    let g ← geometryShape lib j
    let more ← shapeEntries lib rest
    .ok ((name, g) :: more)

/-- `load_geometry_json`: the file must consist of one document.
Source: crowddynamics/io.py:183-192. -/
def loadGeometryJson {G J : Type} (lib : GeoLib G J) :
    Option (List (JsonChunk J)) → Except PyErr (List (Text × GeomEntry G))
  | .none => .error .os
  | some [.document entries] => shapeEntries lib entries
  | some _ => .error .value

end CrowdDynamics
