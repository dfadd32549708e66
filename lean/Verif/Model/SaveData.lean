import Verif.Model.IO

/-!
# Model of `SaveSimulationData` (`crowddynamics/simulation/logic.py`)

Rows of the agent array have type `α`, values of `data` and `metadata` type `V`, shapely geometries
type `G` and their descriptions in json type `J`.
-/

namespace CrowdDynamics

/-- The libraries: formatting of other fields than `{index}`, which files and directories can be
written, the csv writer and shapely. Source: crowddynamics/simulation/logic.py:294-316. -/
structure SaveLib (V G J : Type) where
  /-- other replacement fields in a file name -/
  other : Text → ℕ → Except PyErr Text
  /-- the file can be opened for writing -/
  writable : Text → Bool
  /-- `os.makedirs(path, exist_ok=True)` succeeds -/
  makedirs : Text → Bool
  /-- csv rows -/
  fmt : CsvFormat V
  /-- shapely -/
  geo : GeoLib G J

/-- Arrays in memory and files. Source: crowddynamics/simulation/logic.py:294-338. -/
structure SaveWorld (α J : Type) where
  /-- arrays and `.npy` files -/
  npy : NpyWorld α
  /-- `.csv` files -/
  csv : Text → Option Text
  /-- `.json` files -/
  json : Text → Option (List (JsonChunk J))

/-- The node. Source: crowddynamics/simulation/logic.py:310-316. -/
structure SaveNode where
  /-- `full_path` -/
  directory : Text
  /-- `save_agent_npy` -/
  agents : NpyCo
  /-- `save_data_csv` -/
  data : CsvCo

/-- `name_with_timestamp`; `timestamp` is `str(self.timestamp)`.
Source: crowddynamics/simulation/base.py:115-118. -/
def nameWithTimestamp (name timestamp : Text) : Text :=
  name ++ '_' :: timestamp.map fun c => if c = ' ' then '_' else c

/-- `full_path`, with the default for `save_directory`; `base` is `os.path.abspath(base_directory)`.
Source: crowddynamics/simulation/logic.py:318-325. -/
def saveFullPath (base : Text) (saveDirectory : Option Text) (name timestamp : Text) : Text :=
  pathJoin base (saveDirectory.getD (nameWithTimestamp name timestamp))

/-- The path of a csv file. Source: crowddynamics/io.py:118. -/
def csvPath (directory basename : Text) : Text := pathJoin directory (basename ++ ".csv".toList)

/-- `coroutine.send(d); coroutine.send(dump)` for a coroutine of `save_csv`: the second `send` is not
reached if the first one raises.
Source: crowddynamics/simulation/logic.py:300-301, 337-338. -/
def csvRecord {V : Type} (fmt : CsvFormat V) (opened : Bool) (d : Dict V) (dump : Bool) (co : CsvCo)
    (file : Option Text) : Except PyErr Unit × CsvCo × Option Text :=
  match csvSend fmt opened (.dict d) co file with
  | (.error e, co', file') => (.error e, co', file')
  | (.ok (), co', file') => csvSend fmt opened (.flag dump) co' file'

/-- The dictionary of geometries of a field.
Source: crowddynamics/simulation/logic.py:304-305. -/
def fieldGeometries {G : Type} (domain obstacles : GeomEntry G) (targets spawns : List G) :
    List (Text × GeomEntry G) :=
  [("domain".toList, domain), ("obstacles".toList, obstacles), ("targets".toList, .list targets),
    ("spawns".toList, .list spawns)]

/-- `SaveSimulationData.__init__`. The new coroutine for the metadata gets the metadata and is told to
dump; the geometries are saved; the coroutines for data and agents are started.
Source: crowddynamics/simulation/logic.py:294-316. -/
def saveInit {α V G J : Type} (lib : SaveLib V G J) (fullPath : Text) (metadata : Dict V)
    (geometries : List (Text × GeomEntry G)) (w : SaveWorld α J) :
    Except PyErr SaveNode × SaveWorld α J :=
  if lib.makedirs fullPath then
    let path := csvPath fullPath "metadata".toList
    match csvRecord lib.fmt (lib.writable path) metadata true csvStart (w.csv path) with
    | (.error e, _, file) => (.error e, { w with csv := Function.update w.csv path file })
    | (.ok (), _, file) =>
      let w := { w with csv := Function.update w.csv path file }
      let path := pathJoin fullPath "geometry.json".toList
      if lib.writable path then
        match saveGeometryJson lib.geo geometries (w.json path) with
        | (.error e, file) => (.error e, { w with json := Function.update w.json path file })
        | (.ok (), file) =>
          (.ok ⟨fullPath, npyStart, csvStart⟩, { w with json := Function.update w.json path file })
      else (.error .os, w)
  else (.error .os, w)

/-- `SaveSimulationData.update` for the array with the reference `ref`, when the condition gives
`save`. Source: crowddynamics/simulation/logic.py:330-338. -/
def saveUpdate {α V G J : Type} (lib : SaveLib V G J) (ref : ℕ) (data : Dict V) (save : Bool)
    (node : SaveNode) (w : SaveWorld α J) : Except PyErr Unit × SaveNode × SaveWorld α J :=
  match npySend lib.other lib.writable (npyTemplate node.directory "agents".toList) node.agents w.npy
      ref save with
  | .error e => (.error e, node, w)
  | .ok (co, npy) =>
    let w := { w with npy := npy }
    let path := csvPath node.directory "data".toList
    match csvRecord lib.fmt (lib.writable path) data save node.data (w.csv path) with
    | (r, co', file) =>
      (r, { node with agents := co, data := co' },
        { w with csv := Function.update w.csv path file })

/-- A run of the simulation, as far as this node is concerned: in each update the rows of the agents
are changed in place (the array has the reference 0) and then the node is updated. An exception ends
the run.
Source: crowddynamics/simulation/logic.py:330-338 and crowddynamics/simulation/base.py:123-126. -/
def saveRun {α V G J : Type} (lib : SaveLib V G J) :
    List (List α × Dict V × Bool) → SaveNode → SaveWorld α J →
      Except PyErr Unit × SaveNode × SaveWorld α J
  | [], node, w => (.ok (), node, w)
  | (rows, data, save) :: rest, node, w =>
    let w := { w with npy := { w.npy with heap := Function.update w.npy.heap 0 rows } }
    match saveUpdate lib 0 data save node w with
    | (.error e, node', w') => (.error e, node', w')
    | (.ok (), node', w') => saveRun lib rest node' w'

end CrowdDynamics
