import Mathlib.Data.Int.Notation
import Verif.Model.Errors
import Verif.Model.IO

/-!
# Model of `crowddynamics/utils.py`, `crowddynamics/cli.py` and of `AgentGroup`

Paths, classes and modules are abstract. `OrderedDict`s are lists of pairs in insertion order.
-/

namespace CrowdDynamics

noncomputable section

open Classical

/-! ## `remember_cwd` -/

/-- What the operating system knows: the current directory and the directories that can be entered.
Source: the calls at crowddynamics/utils.py:21, 23, 26. -/
structure OsState (P : Type) where
  /-- the current directory -/
  cwd : P
  /-- the directories that exist -/
  isDir : P → Prop

/-- `os.getcwd()`: raises if the current directory was removed.
Source: crowddynamics/utils.py:21. -/
def osGetcwd {P : Type} (w : OsState P) : Except PyErr P :=
  if w.isDir w.cwd then .ok w.cwd else .error .os

/-- `os.chdir(p)`, with `p` resolved. Source: crowddynamics/utils.py:23, 26. -/
def osChdir {P : Type} (p : P) (w : OsState P) : Except PyErr Unit × OsState P :=
  if w.isDir p then (.ok (), { w with cwd := p }) else (.error .os, w)

/-- A block of code: it may change the directories and raise. Source: the blocks below
`with remember_cwd(...)` as at crowddynamics/config.py:53-61. -/
abbrev OsAction (P α : Type) := OsState P → Except PyErr α × OsState P

/-- `with remember_cwd(directory): body`. `resolve` turns the argument, which can be relative, into a
path. If `chdir` raises, the body does not run, but `finally` does; an exception of the second
`chdir` replaces that of the body. Source: crowddynamics/utils.py:11-26. -/
def rememberCwd {P D α : Type} (resolve : P → D → P) (directory : D) (body : OsAction P α) :
    OsAction P α := fun w =>
  match osGetcwd w with
  | .error e => (.error e, w)
  | .ok curdir =>
    let r : Except PyErr α × OsState P := match osChdir (resolve w.cwd directory) w with
      | (.error e, w) => (.error e, w)
      | (.ok (), w) => body w
    match osChdir curdir r.2 with
    | (.error e, w) => (.error e, w)
    | (.ok (), w) => (r.1, w)

/-- Nested `with` statements, the first directory outermost.
Source: crowddynamics/utils.py:11-26. -/
def rememberAll {P D α : Type} (resolve : P → D → P) (directories : List D)
    (body : OsAction P α) : OsAction P α :=
  directories.foldr (fun d b => rememberCwd resolve d b) body

/-! ## `parse_signature` -/

/-- The default of a parameter. `inspect._empty` is a class that marks a missing default.
Source: crowddynamics/utils.py:58-68. -/
inductive ParamDefault (V : Type) where
  /-- the class `inspect._empty`: there is no default -/
  | empty
  /-- an instance of that class, given as a default by hand -/
  | emptyInstance
  /-- any other default -/
  | value (v : V)

/-- `inspect.Parameter`. Source: crowddynamics/utils.py:63-68. -/
structure Param (V A : Type) where
  /-- name -/
  name : Text
  /-- default -/
  default : ParamDefault V
  /-- annotation, `none` is `inspect._empty` -/
  annotation : Option A

/-- `ArgSpec`; a missing default is `None`. An instance of the marker never gets this far, so it is
not represented. Source: crowddynamics/utils.py:55. -/
structure ArgSpec (V A : Type) where
  /-- name -/
  name : Text
  /-- default, `none` is `None` -/
  default : Option V
  /-- annotation, `none` is `None` -/
  annotation : Option A

/-- `mkspec`: the test asks whether the default is an *instance* of the marker.
Source: crowddynamics/utils.py:58-68. -/
def mkspec {V A : Type} (p : Param V A) : Except PyErr (ArgSpec V A) :=
  match p.default with
  | .emptyInstance => .error .invalidType
  | .empty => .ok ⟨p.name, none, p.annotation⟩
  | .value v => .ok ⟨p.name, some v, p.annotation⟩

/-- `parse_signature` on the parameters of the function, run to its end.
Source: crowddynamics/utils.py:71-108. -/
def parseSignature {V A : Type} : List (Param V A) → Except PyErr (List (ArgSpec V A))
  | [] => .ok []
  | p :: rest =>
    if p.name ≠ ['s', 'e', 'l', 'f'] then do
      let s ← mkspec p
      let ss ← parseSignature rest
      .ok (s :: ss)
    else parseSignature rest

/-! ## Imports -/

/-- An entry of a module. Source: crowddynamics/utils.py:132-152. -/
inductive PyObj (C : Type) where
  /-- a class -/
  | cls (c : C)
  /-- anything else -/
  | other

/-- `filter_cls`: `issubclass` raises for objects that are not classes.
Source: crowddynamics/utils.py:132-137. -/
def filterCls {C : Type} (sub : C → C → Bool) (cls : C) : PyObj C → Bool
  | .cls c => sub c cls && decide (c ≠ cls)
  | .other => false

/-- The part of `import_subclasses` after the import; `entries` is `vars(mod)`.
Source: crowddynamics/utils.py:140-152. -/
def subclassesOf {C : Type} (sub : C → C → Bool) (cls : C) (entries : List (Text × PyObj C)) :
    List (Text × C) :=
  (entries.filter fun e => filterCls sub cls e.2).filterMap fun e => match e.2 with
    | .cls c => some (e.1, c)
    | .other => none

/-- `d[key] = value` for an `OrderedDict`: a present key keeps its place.
Source: crowddynamics/cli.py:30 (`update`). -/
def odSet {V : Type} (key : Text) (value : V) : List (Text × V) → List (Text × V)
  | [] => [(key, value)]
  | (k, v) :: rest => if k = key then (k, value) :: rest else (k, v) :: odSet key value rest

/-- `d.update(items)`. Source: crowddynamics/cli.py:30. -/
def odUpdate {V : Type} (d items : List (Text × V)) : List (Text × V) :=
  items.foldl (fun d e => odSet e.1 e.2 d) d

/-- The extension of a file name without directories, as `os.path.splitext` finds it: from the last
dot on, unless only dots precede it. Source: crowddynamics/cli.py:28. -/
def splitextExt (name : Text) : Text :=
  let tail := name.reverse.takeWhile fun c => decide (c ≠ '.')
  let stem := name.take (name.length - tail.length - 1)
  if '.' ∈ name ∧ ∃ c ∈ stem, c ≠ '.' then name.drop (name.length - tail.length - 1) else []

/-- The loop of `import_simulations`. `load name` imports the file `name` *of the current
directory* (the listed name is not joined with the directory it was listed in).
Source: crowddynamics/cli.py:27-31. -/
def importLoop {C : Type} (sub : C → C → Bool) (base : C)
    (load : Text → Except PyErr (List (Text × PyObj C))) :
    List Text → List (Text × C) → Except PyErr (List (Text × C))
  | [], d => .ok d
  | path :: rest, d =>
    if splitextExt path = ['.', 'p', 'y'] then do
      let entries ← load path
      importLoop sub base load rest (odUpdate d (subclassesOf sub base entries))
    else importLoop sub base load rest d

/-- `import_simulations(dir_path)`. `files dir` are the files of a directory: names and, for modules,
their entries; `listdir` returns the names in this order. Source: crowddynamics/cli.py:24-31. -/
def importSimulations {C P : Type} (sub : C → C → Bool) (base : C)
    (files : P → List (Text × List (Text × PyObj C))) (cwd dirPath : P) :
    Except PyErr (List (Text × C)) :=
  importLoop sub base
    (fun name => match (files cwd).find? fun f => f.1 = name with
      | some f => .ok f.2
      | none => .error .os)
    ((files dirPath).map Prod.fst) []

/-! ## `simulation_commands` -/

/-- The state of the command line program: the variable `simulation_cls`, which the callbacks read
when they are called, and the commands of the group `run` with their options.
Source: crowddynamics/cli.py:60-87. -/
structure CliState (C O : Type) where
  /-- the variable `simulation_cls` -/
  cell : Option C
  /-- name and options of each command -/
  commands : List (Text × List O)

/-- The loop that appends the options of one command. Source: crowddynamics/cli.py:86-87. -/
def appendOptions {T O : Type} (toOption : Text → T → Except PyErr O) :
    List (Text × T) → List O → Except PyErr Unit × List O
  | [], options => (.ok (), options)
  | (name, trait) :: rest, options => match toOption name trait with
    | .error e => (.error e, options)
    | .ok o => appendOptions toOption rest (options ++ [o])

/-- The loop of `simulation_commands` over the classes that were found.
Source: crowddynamics/cli.py:73-87. -/
def simulationCommands {C T O : Type} (ownTraits : C → List (Text × T))
    (toOption : Text → T → Except PyErr O) :
    List (Text × C) → CliState C O → Except PyErr Unit × CliState C O
  | [], s => (.ok (), s)
  | (name, cls) :: rest, s =>
    let r := appendOptions toOption (ownTraits cls) []
    let s : CliState C O := ⟨some cls, odSet name r.2 s.commands⟩
    match r.1 with
    | .error e => (.error e, s)
    | .ok () => simulationCommands ownTraits toOption rest s

/-- Calling a command: click passes a value for every option, but the callback takes no arguments;
otherwise the class in the variable is run. The result is the class that runs. An unknown command is
an error of click. Source: crowddynamics/cli.py:79-80. -/
def invokeCommand {C O : Type} (s : CliState C O) (name : Text) : Except PyErr C :=
  match s.commands.find? fun c => c.1 = name with
  | none => .error .other
  | some c => if c.2 = [] then match s.cell with
      | some cls => .ok cls
      | none => .error .other
    else .error .type

/-- `run --num num name1 name2 ...`: `num` is stored but not read by anything. The result are the
classes that run, in order. Source: crowddynamics/cli.py:60-70. -/
def invokeChain {C O : Type} (s : CliState C O) (_num : ℤ) : List Text → Except PyErr (List C)
  | [] => .ok []
  | name :: rest => do
    let c ← invokeCommand s name
    let cs ← invokeChain s _num rest
    .ok (c :: cs)

/-! ## `AgentGroup` -/

/-- The attributes of a group. A generator is the sequence of its items (`none`: it is exhausted); a
callable returns a value that can depend on how often it was called.
Source: crowddynamics/simulation/agents.py:584-587. -/
inductive AttrSource (A : Type) where
  /-- a collection -/
  | collection (items : List A)
  /-- a generator -/
  | generator (items : ℕ → Option A)
  /-- a callable -/
  | callable (call : ℕ → A)

/-- An `AgentGroup`. The agent type is a function that makes an agent from attributes or raises;
`calls` counts the items taken from the generator, or the calls of the callable.
Source: crowddynamics/simulation/agents.py:565-590. -/
structure AgentGroup (A M : Type) where
  /-- `agent_type` -/
  agentType : Option (A → Except PyErr M)
  /-- `size` -/
  size : ℤ
  /-- `attributes` -/
  attributes : Option (AttrSource A)
  /-- `members` -/
  members : List M
  /-- how much of the source was used -/
  calls : ℕ

/-- `[agent_type(**a) for a in attributes]`. Source: crowddynamics/simulation/agents.py:596. -/
def makeAll {A M : Type} (make : A → Except PyErr M) : List A → Except PyErr (List M)
  | [] => .ok []
  | a :: rest => do
    let m ← make a
    let ms ← makeAll make rest
    .ok (m :: ms)

/-- `next(generator)` after `k` items were taken. Source: crowddynamics/simulation/agents.py:598. -/
def nextItem {A : Type} (items : ℕ → Option A) (k : ℕ) : Except PyErr A :=
  match items k with
  | some a => .ok a
  | none => .error .stopIteration

/-- `[agent_type(**draw()) for _ in range(n)]`, where `draw` is `next(generator)` or the callable.
Source: crowddynamics/simulation/agents.py:598, 600. -/
def makeDrawn {A M : Type} (make : A → Except PyErr M) (draw : ℕ → Except PyErr A) :
    ℕ → ℕ → Except PyErr (List M) × ℕ
  | 0, calls => (.ok [], calls)
  | n + 1, calls => match draw calls with
    | .error e => (.error e, calls)
    | .ok a => match make a with
      | .error e => (.error e, calls + 1)
      | .ok m => match makeDrawn make draw n (calls + 1) with
        | (.error e, calls) => (.error e, calls)
        | (.ok ms, calls) => (.ok (m :: ms), calls)

/-- `_observe_members`. Source: crowddynamics/simulation/agents.py:592-602. -/
def observeMembers {A M : Type} (g : AgentGroup A M) : Except PyErr Unit × AgentGroup A M :=
  if 0 < g.size then
    match g.attributes, g.agentType with
    | some src, some make =>
      let r : Except PyErr (List M) × ℕ := match src with
        | .collection items => (makeAll make items, g.calls)
        | .generator items => makeDrawn make (nextItem items) g.size.toNat g.calls
        | .callable call => makeDrawn make (fun k => .ok (call k)) g.size.toNat g.calls
      match r with
      | (.error e, calls) => (.error e, { g with calls := calls })
      | (.ok ms, calls) => (.ok (), { g with members := ms, calls := calls })
    | _, _ => (.ok (), g)
  else (.ok (), g)

/-- The observer called `k` times. Source: crowddynamics/simulation/agents.py:592-602. -/
def observeTimes {A M : Type} : ℕ → AgentGroup A M → Except PyErr Unit × AgentGroup A M
  | 0, g => (.ok (), g)
  | k + 1, g => match observeMembers g with
    | (.error e, g) => (.error e, g)
    | (.ok (), g) => observeTimes k g

/-- `AgentGroup(agent_type=…, size=…, attributes=…)`. traitlets sets the three traits first and then
notifies the observer once for each trait that differs from its default: the size if it is not zero,
the agent type if it is not `AgentType`, the attributes if they are not `None`. Here an agent type
and attributes are given. Source: crowddynamics/simulation/agents.py:565-602. -/
def newGroup {A M : Type} (agentType : A → Except PyErr M) (size : ℤ) (attributes : AttrSource A) :
    Except PyErr Unit × AgentGroup A M :=
  observeTimes (if size = 0 then 2 else 3) ⟨some agentType, size, some attributes, [], 0⟩

/-- `group.size = size` later: the observer is called if the value changes.
Source: crowddynamics/simulation/agents.py:580-583, 592. -/
def setGroupSize {A M : Type} (size : ℤ) (g : AgentGroup A M) : Except PyErr Unit × AgentGroup A M :=
  if size = g.size then (.ok (), g) else observeMembers { g with size := size }

end

end CrowdDynamics
