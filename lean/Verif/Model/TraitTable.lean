import Verif.Model.Traits
import Verif.Model.IO

/-!
# Model of the tables of traits in the documentation

`Rst` and `table_of_traits` of `crowddynamics/traits.py`, with the parts of the standard library that they
use (`csv.writer`, `textwrap.indent`), and `interpolate_docstring` of `crowddynamics/utils.py`.
-/

namespace CrowdDynamics

/-! ## Library functions -/

/-- The characters at which `str.splitlines` ends a line (documentation of `str.splitlines`).
Source: crowddynamics/traits.py:274, 276 (`textwrap.indent`). -/
def lineBreaks : List Char :=
  ['\n', '\r', '\x0b', '\x0c', '\x1c', '\x1d', '\x1e', '\u0085', '\u2028', '\u2029']

/-- The characters that `str.strip` removes. Source: crowddynamics/traits.py:274, 276
(`textwrap.indent`). -/
def spaces : List Char :=
  lineBreaks ++ ['\t', '\x1f', ' ', '\u00a0', '\u1680', '\u2000', '\u2001', '\u2002', '\u2003',
    '\u2004', '\u2005', '\u2006', '\u2007', '\u2008', '\u2009', '\u200a', '\u202f', '\u205f', '\u3000']

/-- `text.splitlines(True)`. Source: crowddynamics/traits.py:274, 276 (`textwrap.indent`). -/
def splitLines : Text → List Text
  | [] => []
  | '\r' :: '\n' :: rest => ['\r', '\n'] :: splitLines rest
  | c :: rest =>
    if c ∈ lineBreaks then [c] :: splitLines rest
    else match splitLines rest with
      | [] => [[c]]
      | l :: ls => (c :: l) :: ls

/-- `textwrap.indent(text, prefix)`: lines of white space are left alone.
Source: crowddynamics/traits.py:274, 276. -/
def indentText (text pre : Text) : Text :=
  ((splitLines text).map fun l => if l.all fun c => decide (c ∈ spaces) then l else pre ++ l).flatten

/-- A field as `csv.writer` writes it: in quotes if it contains the delimiter, the quote or a character
of the line terminator; quotes are doubled. `lone` says that it is the only field of its row; an
empty one is then quoted. Source: crowddynamics/traits.py:262, 263, 269. -/
def csvField (lone : Bool) (t : Text) : Text :=
  if (t.any fun c => decide (c ∈ [',', '"', '\r', '\n'])) || (lone && t.isEmpty) then
    '"' :: (t.flatMap fun c => if c = '"' then ['"', '"'] else [c]) ++ ['"']
  else t

/-- `writer.writerow(row)`: the text written. Source: crowddynamics/traits.py:263, 269. -/
def csvRow (row : List Text) : Text :=
  [','].intercalate (row.map (csvField (row.length == 1))) ++ ['\r', '\n']

/-! ## `Rst` -/

/-- Default values as `Rst.literal` sees them. Source: crowddynamics/traits.py:234-237. -/
inductive DocDefault where
  /-- a string -/
  | str (s : Text)
  /-- a tuple, given by the strings of its elements -/
  | tuple (elements : List Text)
  /-- another object, given by its string -/
  | object (s : Text)

/-- `Rst.math(s)`. Source: crowddynamics/traits.py:226-231. -/
def rstMath : Option Text → Text
  | none => []
  | some s => if s = [] then [] else ":math:`".toList ++ s ++ ['`']

/-- `Rst.literal(s)`. The operator `%` takes a tuple as the list of its arguments, so it raises a
`TypeError` unless the tuple has exactly one element. Source: crowddynamics/traits.py:232-237. -/
def rstLiteral : DocDefault → Except PyErr Text
  | .str s => .ok (if s = [] then [] else "``".toList ++ s ++ "``".toList)
  | .object s => .ok ("``".toList ++ s ++ "``".toList)
  | .tuple [s] => .ok ("``".toList ++ s ++ "``".toList)
  | .tuple _ => .error .type

/-! ## `table_of_traits` -/

/-- What the table shows of a trait: `trait.metadata.get('symbol', '')`, `trait.default_value` and
`trait.metadata.get('help', '')`. Source: crowddynamics/traits.py:265-268. -/
structure TraitInfo where
  /-- symbol -/
  symbol : Option Text
  /-- default value -/
  default : DocDefault
  /-- help -/
  help : Text

/-- The row of a trait. Source: crowddynamics/traits.py:265-268. -/
def traitRow (name : Text) (i : TraitInfo) : Except PyErr (List Text) := do
  let n ← rstLiteral (.str name)
  let d ← rstLiteral i.default
  .ok [n, rstMath i.symbol, d, i.help]

/-- The loop over the traits: what it adds to the buffer. Source: crowddynamics/traits.py:264-269. -/
def traitRows (info : String × Trait → TraitInfo) : List (String × Trait) → Except PyErr Text
  | [] => .ok []
  | t :: rest => do
    let row ← traitRow t.1.toList (info t)
    let more ← traitRows info rest
    .ok (csvRow row ++ more)

/-- `table_of_traits(cls)`; `mro` is `inspect.getmro(cls)` and `info` what the traits know about
themselves (the model of a trait has only what the other functions read).
Source: crowddynamics/traits.py:240-277. -/
def tableOfTraits (info : String × Trait → TraitInfo) (mro : List TraitClass) : Except PyErr Text := do
  let indent := [' ', ' ', ' ']
  let header := ["name".toList, "symbol".toList, "default value".toList, "help".toList]
  let rows ← traitRows info (classTraits mro none none)
  let table := csvRow header ++ rows
  .ok (['\n'].intercalate [[], ".. csv-table:: Traits".toList, indentText ":header-rows: 1".toList indent,
    [], indentText table indent])

/-! ## `interpolate_docstring` -/

/-- `text % mapping` for the directives `%%` and `%(key)s`, with keys without parentheses; what python
does from any other directive on is a parameter. A percent sign at the end is a `ValueError`, a key that
is missing a `KeyError`. Source: crowddynamics/utils.py:49. -/
def percentFormat (mapping : Text → Option Text) (other : Text → Except PyErr Text) :
    Text → Except PyErr Text
  | [] => .ok []
  | '%' :: rest => match rest with
    | [] => .error .value
    | '%' :: rest' => (percentFormat mapping other rest').map ('%' :: ·)
    | '(' :: rest' =>
      if ('(' ∈ rest'.takeWhile (· ≠ ')')) then other ('%' :: rest) else
      match h : rest'.dropWhile (· ≠ ')') with
      | ')' :: 's' :: rest'' => match mapping (rest'.takeWhile (· ≠ ')')) with
        | none => .error .key
        | some v => (percentFormat mapping other rest'').map (v ++ ·)
      | _ => other ('%' :: rest)
    | _ => other ('%' :: rest)
  | c :: rest => (percentFormat mapping other rest).map (c :: ·)
termination_by t => t.length
decreasing_by
  · simp
  · have := (List.dropWhile_sublist (l := rest') fun c => decide (c ≠ ')')).length_le
    rw [h] at this
    simp at this ⊢
    omega
  · simp

/-- Values of substitutions: strings, or functions of the class.
Source: crowddynamics/utils.py:33-36, 47. -/
inductive Substitution (C : Type) where
  /-- a string -/
  | str (s : Text)
  /-- a callable -/
  | callable (f : C → Except PyErr Text)

/-- `_(value)`. Source: crowddynamics/utils.py:47. -/
def Substitution.value {C : Type} (cls : C) : Substitution C → Except PyErr Text
  | .str s => .ok s
  | .callable f => f cls

/-- The dictionary comprehension. Source: crowddynamics/utils.py:49. -/
def substitutionValues {C : Type} (cls : C) :
    List (Text × Substitution C) → Except PyErr (List (Text × Text))
  | [] => .ok []
  | (name, v) :: rest => do
    let v ← v.value cls
    let more ← substitutionValues cls rest
    .ok ((name, v) :: more)

/-- `interpolate_docstring(**substitutions)(cls)`: the new docstring of the class, from the old one.
Without a docstring, `None % …` raises a `TypeError`. Source: crowddynamics/utils.py:29-52. -/
def interpolateDocstring {C : Type} (substitutions : List (Text × Substitution C))
    (other : Text → Except PyErr Text) (cls : C) (doc : Option Text) : Except PyErr Text := do
  let values ← substitutionValues cls substitutions
  match doc with
  | none => .error .type
  | some d => percentFormat (fun k => values.lookup k) other d

/-! ## The shipped agent classes -/

/-- What the traits of the agent classes know about themselves: name, symbol, default value and help. A
`Float` without a default has 0.0, a `Unicode` the empty string and an `Instance` the value
`Undefined` of the library; the defaults of an `Array` are arrays. Source:
crowddynamics/simulation/agents.py:32-292, 393-399. -/
def shippedTraitInfo : List (String × TraitInfo) := [
  ("active", ⟨none, .object "True".toList, "Denotes if agent is currently active".toList⟩),
  ("target_reached", ⟨none, .object "False".toList, "Denotes if agent has reached its target".toList⟩),
  ("target", ⟨none, .object "-1".toList, "Positive integer for target index, -1 for agent that do not have a target.".toList⟩),
  ("is_leader", ⟨none, .object "False".toList, "Boolean indicating if agent is leader".toList⟩),
  ("is_follower", ⟨none, .object "False".toList, "Boolean indicating if agent is herding (following average direction of other agent).".toList⟩),
  ("index_leader", ⟨none, .object "-1".toList, "Index of the agent that is the leader of this agent.".toList⟩),
  ("familiar_exit", ⟨none, .object "-1".toList, "Target that is familiar to a follower agent.".toList⟩),
  ("radius", ⟨some "r".toList, .object "0.0".toList, "Radius".toList⟩),
  ("r_t", ⟨some "r_t".toList, .object "0.0".toList, "Torso radius".toList⟩),
  ("r_s", ⟨some "r_s".toList, .object "0.0".toList, "Shoulder radius".toList⟩),
  ("r_ts", ⟨some "r_{ts}".toList, .object "0.0".toList, "Distance from torso to shoulder".toList⟩),
  ("mass", ⟨some "m".toList, .object "0.0".toList, "Mass".toList⟩),
  ("inertia_rot", ⟨some "I_{rot}".toList, .object "0.0".toList, "Rotational moment".toList⟩),
  ("target_velocity", ⟨some "v_0".toList, .object "0.0".toList, "Target velocity".toList⟩),
  ("target_angular_velocity", ⟨some "\\omega_0".toList, .object "0.0".toList, "Target angular velocity".toList⟩),
  ("body_type", ⟨none, .str [], "Selected body type".toList⟩),
  ("body_types", ⟨none, .object "traitlets.Undefined".toList, "Mapping of body type names to values".toList⟩),
  ("ratio_rt", ⟨none, .object "0".toList, "Ratio between total radius and torso radius".toList⟩),
  ("ratio_rs", ⟨none, .object "0".toList, "Ratio between total radius and shoulder radius".toList⟩),
  ("ratio_ts", ⟨none, .object "0".toList, "Ratio between total radius and distance from torso to shoulder".toList⟩),
  ("radius_mean", ⟨none, .object "0".toList, []⟩),
  ("radius_scale", ⟨none, .object "0".toList, []⟩),
  ("target_velocity_mean", ⟨none, .object "0".toList, []⟩),
  ("target_velocity_scale", ⟨none, .object "0".toList, []⟩),
  ("mass_mean", ⟨none, .object "0".toList, []⟩),
  ("mass_scale", ⟨none, .object "0".toList, []⟩),
  ("position", ⟨some "\\mathbf{x}".toList, .object "[0. 0.]".toList, "Position".toList⟩),
  ("velocity", ⟨some "\\mathbf{v}".toList, .object "[0. 0.]".toList, "Velocity".toList⟩),
  ("target_direction", ⟨some "\\mathbf{\\hat{e}}_0".toList, .object "[0. 0.]".toList, "Target direction".toList⟩),
  ("force", ⟨some "\\mathbf{f}".toList, .object "[0. 0.]".toList, "Force".toList⟩),
  ("force_prev", ⟨some "\\mathbf{f}_{prev}".toList, .object "[0. 0.]".toList, "Previous force".toList⟩),
  ("tau_adj", ⟨some "\\tau_{adj}".toList, .object "0.5".toList, "Characteristic time for agent adjusting its movement".toList⟩),
  ("k_soc", ⟨some "k_{soc}".toList, .object "1.5".toList, "Social force scaling constant".toList⟩),
  ("tau_0", ⟨some "\\tau_{0}".toList, .object "3.0".toList, "Interaction time horizon".toList⟩),
  ("mu", ⟨some "\\mu".toList, .object "120000.0".toList, "Compression counteraction constant".toList⟩),
  ("kappa", ⟨some "\\kappa".toList, .object "40000.0".toList, "Sliding friction constant".toList⟩),
  ("damping", ⟨some "c_{d}".toList, .object "500".toList, "Damping coefficient for contact force".toList⟩),
  ("std_rand_force", ⟨some "\\xi / m".toList, .object "0.1".toList, "Standard deviation for fluctuation force".toList⟩),
  ("orientation", ⟨some "\\varphi".toList, .object "0.0".toList, "Orientation".toList⟩),
  ("angular_velocity", ⟨some "\\omega".toList, .object "0.0".toList, "Angular velocity".toList⟩),
  ("target_orientation", ⟨some "\\varphi_0".toList, .object "0.0".toList, "Target orientation".toList⟩),
  ("torque", ⟨some "M".toList, .object "0.0".toList, "Torque".toList⟩),
  ("torque_prev", ⟨some "M_{prev}".toList, .object "0.0".toList, "Previous torque".toList⟩),
  ("tau_rot", ⟨some "\\tau_{adjrot}".toList, .object "0.2".toList, "Characteristic time for agent adjusting its rotational movement".toList⟩),
  ("std_rand_torque", ⟨some "\\eta / I{rot}".toList, .object "0.1".toList, "Standard deviation for fluctuation torque".toList⟩),
  ("position_ls", ⟨none, .object "[0. 0.]".toList, []⟩),
  ("position_rs", ⟨none, .object "[0. 0.]".toList, []⟩)]

/-- The same as a function. Source: crowddynamics/simulation/agents.py:32-292, 393-399. -/
def shippedInfo (t : String × Trait) : TraitInfo :=
  (shippedTraitInfo.lookup t.1).getD ⟨none, .str [], []⟩

/-- `inspect.getmro(Capsule)`. Source: crowddynamics/simulation/agents.py:421-444. -/
def capsuleMro : List TraitClass :=
  [⟨"Capsule", true, []⟩, agentTypeCls, statesCls, bodyTypeCls, bodyCls, translationalCls, rotationalCls,
    hasTraitsCls, objectCls]

end CrowdDynamics
