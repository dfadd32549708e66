import Verif.Model.Utils

/-!
# Model of `crowddynamics/logging.py`, the options of `crowddynamics/cli.py` and the entry points

`loggingtools.setup_logging(cfg, dir)` is taken to configure the module `logging` with the dictionary in
the file, as its documentation says. The module `logging`, the type `Choice` of click 6.7 and the
evaluation of options are modelled as far as they are used.
-/

namespace CrowdDynamics

/-! ## `logging.py` -/

/-- Where messages can go: the three handlers.
Source: crowddynamics/conf/logging.yaml:20-43 and crowddynamics/logging.py:54. -/
inductive LogDest where
  /-- `console` -/
  | console
  /-- `debug_file_handler`, writes `debug.log` -/
  | debugFile
  /-- `info_file_handler`, writes `info.log` -/
  | infoFile
  deriving DecidableEq

/-- A logger. Source: crowddynamics/conf/logging.yaml:46-55 and crowddynamics/logging.py:54. -/
structure LoggerCfg where
  /-- `level`, 0 for `NOTSET` -/
  level : ℕ
  /-- the handlers with their levels -/
  handlers : List (LogDest × ℕ)
  /-- `propagate` -/
  propagate : Bool

/-- All loggers, by the parts of their dotted names; the root logger has the empty name.
Source: crowddynamics/logging.py:47, 53-57 (the module `logging`). -/
abbrev LogConfig : Type := List Text → LoggerCfg

/-- A logger that was not configured. Source: crowddynamics/logging.py:47 (`getLogger`). -/
def LoggerCfg.fresh : LoggerCfg := ⟨0, [], true⟩

/-- `getEffectiveLevel` of the module `logging`: the level of the logger, if it has one, otherwise that
of its parent. Source: crowddynamics/logging.py:48-50 (calls of `info`). The name is reversed, so that the
parent is the tail. -/
def effectiveLevel (cfg : LogConfig) : List Text → ℕ
  | [] => (cfg []).level
  | part :: parents =>
    let l := (cfg (part :: parents).reverse).level
    if l ≠ 0 then l else effectiveLevel cfg parents

/-- The handlers of one logger that take a message of this level.
Source: crowddynamics/logging.py:48-50 (`callHandlers`). -/
def takenBy (l : LoggerCfg) (level : ℕ) : List LogDest :=
  (l.handlers.filter fun h => decide (h.2 ≤ level)).map Prod.fst

/-- `callHandlers` of the module `logging`: the handlers of the logger and, while `propagate` is set, of
its parents. Source: crowddynamics/logging.py:48-50 (calls of `info`). The name is reversed. -/
def callHandlers (cfg : LogConfig) (level : ℕ) : List Text → List LogDest
  | [] => takenBy (cfg []) level
  | part :: parents =>
    let l := cfg (part :: parents).reverse
    takenBy l level ++ if l.propagate then callHandlers cfg level parents else []

/-- Where a message goes that is logged with this level by the logger with this name.
Source: crowddynamics/logging.py:47-50 (`getLogger(name).log(level, ...)`). -/
def logTo (cfg : LogConfig) (name : List Text) (level : ℕ) : List LogDest :=
  if effectiveLevel cfg name.reverse ≤ level then callHandlers cfg level name.reverse else []

/-- The numeric levels. Source: crowddynamics/logging.py:9-13 (constants of the module `logging`). -/
def logLevels : List (Text × ℕ) :=
  [("CRITICAL".toList, 50), ("FATAL".toList, 50), ("ERROR".toList, 40), ("WARNING".toList, 30),
    ("WARN".toList, 30), ("INFO".toList, 20), ("DEBUG".toList, 10), ("NOTSET".toList, 0)]

/-- The name of the package. Source: crowddynamics/conf/logging.yaml:47. -/
def packageName : Text := "crowddynamics".toList

/-- The shipped configuration. Source: crowddynamics/conf/logging.yaml:20-55.
Source: crowddynamics/logging.py:53 (`LOG_CFG`). -/
def logYaml : LogConfig := fun name =>
  if name = [] then ⟨20, [(.console, 20)], true⟩
  else if name = [packageName] then ⟨20, [(.debugFile, 10), (.infoFile, 20)], false⟩
  else .fresh

/-- A value of the option: a number or a text. Source: crowddynamics/logging.py:9-13. -/
inductive ChoiceValue where
  /-- an `int` -/
  | int (n : ℕ)
  /-- a `str` -/
  | str (t : Text)
  deriving DecidableEq

/-- `LOGLEVELS`: the eight numbers, then the eight names. Source: crowddynamics/logging.py:9-13. -/
def loglevels : List ChoiceValue :=
  logLevels.map (fun l => .int l.2) ++ logLevels.map fun l => .str l.1

/-- `setup_logging(loglevel)`: the argument is not used. The formats of numpy and pandas are not modelled;
`user_info` logs three messages of level `INFO` with the logger `crowddynamics.logging`. The result are the
configuration and the destinations of these messages.
Source: crowddynamics/logging.py:46-57 (`user_info`, `setup_logging`). -/
def setupLogging (_loglevel : ChoiceValue) (logCfg : LogConfig := logYaml) :
    LogConfig × List (List LogDest) :=
  (logCfg, List.replicate 3 (logTo logCfg [packageName, "logging".toList] 20))

/-! ## The options of `run` -/

/-- `sep.join(choices)`: a number among them is a `TypeError`.
Source: crowddynamics/cli.py:61 (`click.Choice`, methods `get_metavar` and `convert`). -/
def joinChoices (sep : Text) : List ChoiceValue → Except PyErr Text
  | [] => .ok []
  | .int _ :: _ => .error .type
  | [.str t] => .ok t
  | .str t :: rest => do
    let r ← joinChoices sep rest
    .ok (t ++ sep ++ r)

/-- `Choice.convert`: a value that is not among the choices is a usage error (`other`), whose text lists
the choices. Source: crowddynamics/cli.py:61 (`click.Choice`). -/
def choiceConvert (choices : List ChoiceValue) (value : ChoiceValue) : Except PyErr ChoiceValue :=
  if value ∈ choices then .ok value
  else
    match joinChoices ", ".toList choices with
    | .error e => .error e
    | .ok _ => .error .other

/-- The value of `--loglevel`: the text on the command line or the default `logging.INFO`, both converted
by the type of the option. Source: crowddynamics/cli.py:61-63. -/
def loglevelOption (given : Option Text) : Except PyErr ChoiceValue :=
  choiceConvert loglevels (given.elim (.int 20) .str)

/-- `run --help`: the text shows the choices of the option, `[A|B|...]`.
Source: crowddynamics/cli.py:60-63 (`Choice.get_metavar`). -/
def runHelp : Except PyErr Text :=
  match joinChoices "|".toList loglevels with
  | .error e => .error e
  | .ok t => .ok ("--loglevel [".toList ++ t ++ "]".toList)

/-- `run --loglevel given`: the logging configuration afterwards.
Source: crowddynamics/cli.py:60-70 (`run`). -/
def runLogging (given : Option Text) : Except PyErr LogConfig :=
  match loglevelOption given with
  | .error e => .error e
  | .ok l => .ok (setupLogging l).1

/-! ## Entry points -/

/-- How the program is started. Source: setup.py:23-27 and crowddynamics/cli.py:90-92. -/
inductive EntryPoint where
  /-- the installed script `crowddynamics`, which imports the module and calls `main` -/
  | script
  /-- `python -m crowddynamics.cli` -/
  | asModule
  deriving DecidableEq

/-- `crowddynamics run name`: only if the module itself is the program are the simulations of the directory
(`classes`) made commands before `main` runs. The result is the class that runs.
Source: crowddynamics/cli.py:34-38 (`main`), 73-92 and setup.py:23-27. -/
def programRun {C T O : Type} (entry : EntryPoint) (ownTraits : C → List (Text × T))
    (toOption : Text → T → Except PyErr O) (classes : List (Text × C)) (name : Text) : Except PyErr C :=
  match entry with
  | .script => invokeCommand (⟨none, []⟩ : CliState C O) name
  | .asModule =>
    match simulationCommands ownTraits toOption classes ⟨none, []⟩ with
    | (.error e, _) => .error e
    | (.ok (), s) => invokeCommand s name

end CrowdDynamics
