import Verif.Model.Vector2D
import Verif.Model.Errors

/-!
# Model of `crowddynamics/traits.py`, `crowddynamics/config.py` and the decorator of
`crowddynamics/exceptions.py`

A trait is its kind with the parts that the code reads. Values of python are a small inductive type.
-/

namespace CrowdDynamics

noncomputable section

open Classical

/-! ## Traits -/

/-- The values that occur as values of traits and of command line options.
Source: crowddynamics/traits.py:119-155 (defaults, ranges and choices). -/
inductive PyVal where
  /-- an `int` -/
  | int (i : ℤ)
  /-- a `float` -/
  | float (x : ℝ)
  /-- a `complex` -/
  | complex (re im : ℝ)
  /-- a `bool` -/
  | bool (b : Bool)
  /-- a `str` -/
  | str (s : String)
  /-- a class, by its name -/
  | cls (name : String)

/-- The scalar dtypes. Source: crowddynamics/traits.py:99-106. -/
inductive ScalarDtype where
  /-- `np.int64` -/
  | int64
  /-- `np.float64` -/
  | float64
  /-- `np.complex128` -/
  | complex128
  /-- `np.bool_` -/
  | bool
deriving DecidableEq

/-- An attribute that the functions of this module look at: an instance of a trait type, or something
else. Elements of tuples are given by their kinds only, since only these are read.
Source: crowddynamics/traits.py:60-155. -/
inductive Trait where
  /-- `Int(min, max)` -/
  | int (min max : Option ℤ)
  /-- `Float(min, max)` -/
  | float (min max : Option ℝ)
  /-- `Complex()` -/
  | complex
  /-- `Bool()` -/
  | bool
  /-- `Unicode()` -/
  | unicode
  /-- `Enum(values)` -/
  | enum (values : List PyVal)
  /-- `Tuple(traits)` -/
  | tuple (elements : List Trait)
  /-- `Array(dtype, default_value)`, where the default has the given shape -/
  | array (dtype : ScalarDtype) (shape : List ℕ)
  /-- another trait type -/
  | other
  /-- not a trait -/
  | notTrait

/-- The python types `trait_to_type` returns. Source: crowddynamics/traits.py:60-75. -/
inductive PyType where
  /-- `int` -/
  | int
  /-- `float` -/
  | float
  /-- `complex` -/
  | complex
  /-- `bool` -/
  | bool
deriving DecidableEq

/-- `trait_to_type`. For `Unicode`, `raise str` raises a `TypeError`, since `str` is not an exception.
Source: crowddynamics/traits.py:60-75. -/
def traitToType : Trait → Except PyErr PyType
  | .int _ _ => .ok .int
  | .float _ _ => .ok .float
  | .complex => .ok .complex
  | .bool => .ok .bool
  | .unicode => .error .type
  | .enum _ => .error .invalidValue
  | .tuple _ => .error .invalidValue
  | .array _ _ => .error .invalidValue
  | .other => .error .invalidValue
  | .notTrait => .error .invalidType

/-- An item of a structured dtype: name, dtype and shape (`()` for scalars).
Source: crowddynamics/traits.py:92-95. -/
structure DtypeField where
  /-- name -/
  name : String
  /-- dtype -/
  dtype : ScalarDtype
  /-- shape -/
  shape : List ℕ

/-- `trait_to_dtype`. Source: crowddynamics/traits.py:79-116. -/
def traitToDtype (name : String) : Trait → Except PyErr DtypeField
  | .int _ _ => .ok ⟨name, .int64, []⟩
  | .float _ _ => .ok ⟨name, .float64, []⟩
  | .complex => .ok ⟨name, .complex128, []⟩
  | .bool => .ok ⟨name, .bool, []⟩
  | .unicode => .error .notImplemented
  | .enum _ => .error .notImplemented
  | .array dtype shape => .ok ⟨name, dtype, shape⟩
  | .tuple _ => .error .invalidValue
  | .other => .error .invalidValue
  | .notTrait => .error .invalidType

/-- The types of command line options. Source: crowddynamics/traits.py:119-155. -/
inductive OptionType where
  /-- `click.IntRange(min, max)` -/
  | intRange (min max : Option ℤ)
  /-- `float` -/
  | float
  /-- `complex` -/
  | complex
  /-- a flag -/
  | flag
  /-- `str` -/
  | str
  /-- `click.Choice(values)` -/
  | choice (values : List String)
  /-- a tuple of types -/
  | tuple (types : List PyType)

/-- The types of the elements of a tuple, in order. Source: crowddynamics/traits.py:150-151. -/
def traitsToTypes : List Trait → Except PyErr (List PyType)
  | [] => .ok []
  | t :: rest => do
    let p ← traitToType t
    let ps ← traitsToTypes rest
    .ok (p :: ps)

/-- `trait_to_option`: the type of the option. `toStr` is `str` on the values of an `Enum`.
Source: crowddynamics/traits.py:119-155. -/
def traitToOption (toStr : PyVal → String) : Trait → Except PyErr OptionType
  | .int min max => .ok (.intRange min max)
  | .float _ _ => .ok .float
  | .complex => .ok .complex
  | .bool => .ok .flag
  | .unicode => .ok .str
  | .enum values => .ok (.choice (values.map toStr))
  | .tuple elements => match traitsToTypes elements with
    | .ok types => .ok (.tuple types)
    | .error e => .error e
  | .array _ _ => .error .invalidValue
  | .other => .error .invalidValue
  | .notTrait => .error .invalidType

/-- A class as its own dictionary `vars(cls)`. Source: crowddynamics/traits.py:158-171. -/
structure TraitClass where
  /-- name of the class -/
  name : String
  /-- `issubclass(cls, HasTraits)` -/
  hasTraits : Bool
  /-- `vars(cls).items()` -/
  attrs : List (String × Trait)

/-- `isinstance(trait, TraitType)`. Source: crowddynamics/traits.py:170. -/
def Trait.isTrait : Trait → Bool
  | .notTrait => false
  | _ => true

/-- `class_own_traits(cls, exclude_attrs)`. Source: crowddynamics/traits.py:158-171. -/
def classOwnTraits (c : TraitClass) (excludeAttrs : Option (String → Bool)) : List (String × Trait) :=
  if c.hasTraits then
    c.attrs.filter fun e => (match excludeAttrs with
      | some f => !(f e.1)
      | none => true) && e.2.isTrait
  else []

/-- `class_traits(cls, exclude_attrs, exclude_cls)`; `mro` is `inspect.getmro(cls)`.
Source: crowddynamics/traits.py:174-197. -/
def classTraits (mro : List TraitClass) (excludeAttrs : Option (String → Bool))
    (excludeCls : Option (TraitClass → Bool)) : List (String × Trait) :=
  (mro.filter fun c => match excludeCls with
    | some f => !(f c)
    | none => true).flatMap fun c => classOwnTraits c excludeAttrs

/-- The list comprehension `[trait_to_dtype(name, trait) for …]`.
Source: crowddynamics/traits.py:213-219. -/
def traitsToDtypes : List (String × Trait) → Except PyErr (List DtypeField)
  | [] => .ok []
  | (name, t) :: rest => do
    let f ← traitToDtype name t
    let fs ← traitsToDtypes rest
    .ok (f :: fs)

/-- `np.dtype(fields)`: names must be different. Source: crowddynamics/traits.py:213. -/
def npDtype (fields : List DtypeField) : Except PyErr (List DtypeField) :=
  if (fields.map DtypeField.name).Nodup then .ok fields else .error .value

/-- `class_to_struct_dtype`. Source: crowddynamics/traits.py:200-219. -/
def classToStructDtype (mro : List TraitClass) (excludeAttrs : Option (String → Bool))
    (excludeCls : Option (TraitClass → Bool)) : Except PyErr (List DtypeField) := do
  let fields ← traitsToDtypes (classTraits mro excludeAttrs excludeCls)
  npDtype fields

/-! ## The shipped agent classes -/

/-- A `Float` without the bounds, which play no role for the dtype.
Source: crowddynamics/simulation/agents.py:64-95. -/
def floatTrait : Trait := .float none none

/-- `Array(default_value=(0, 0), dtype=np.float64)`.
Source: crowddynamics/simulation/agents.py:196-221. -/
def pairTrait : Trait := .array .float64 [2]

/-- The class `States`. Source: crowddynamics/simulation/agents.py:32-60. -/
def statesCls : TraitClass := ⟨"States", true,
  [("active", .bool), ("target_reached", .bool), ("target", .int (some (-1)) none),
    ("is_leader", .bool), ("is_follower", .bool), ("index_leader", .int none none),
    ("familiar_exit", .int (some (-1)) none)]⟩

/-- The class `Body`. Source: crowddynamics/simulation/agents.py:63-95. -/
def bodyCls : TraitClass := ⟨"Body", true,
  [("radius", floatTrait), ("r_t", floatTrait), ("r_s", floatTrait),
    ("r_ts", floatTrait), ("mass", floatTrait), ("inertia_rot", floatTrait),
    ("target_velocity", floatTrait), ("target_angular_velocity", floatTrait)]⟩

/-- The class `BodyType`, with its methods left out except for one.
Source: crowddynamics/simulation/agents.py:98-191. -/
def bodyTypeCls : TraitClass := ⟨"BodyType", true,
  [("body_type", .unicode), ("body_types", .other), ("ratio_rt", floatTrait),
    ("ratio_rs", floatTrait), ("ratio_ts", floatTrait), ("radius_mean", floatTrait),
    ("radius_scale", floatTrait), ("target_velocity_mean", floatTrait),
    ("target_velocity_scale", floatTrait), ("mass_mean", floatTrait),
    ("mass_scale", floatTrait), ("_truncnorm", .notTrait)]⟩

/-- The class `TranslationalMotion`. Source: crowddynamics/simulation/agents.py:194-257. -/
def translationalCls : TraitClass := ⟨"TranslationalMotion", true,
  [("position", pairTrait), ("velocity", pairTrait),
    ("target_direction", pairTrait), ("force", pairTrait),
    ("force_prev", pairTrait), ("tau_adj", floatTrait), ("k_soc", floatTrait),
    ("tau_0", floatTrait), ("mu", floatTrait), ("kappa", floatTrait),
    ("damping", floatTrait), ("std_rand_force", floatTrait)]⟩

/-- The class `RotationalMotion`. Source: crowddynamics/simulation/agents.py:260-292. -/
def rotationalCls : TraitClass := ⟨"RotationalMotion", true,
  [("orientation", floatTrait), ("angular_velocity", floatTrait),
    ("target_orientation", floatTrait), ("torque", floatTrait),
    ("torque_prev", floatTrait), ("tau_rot", floatTrait),
    ("std_rand_torque", floatTrait)]⟩

/-- The class `AgentType`: methods only. Source: crowddynamics/simulation/agents.py:295-344. -/
def agentTypeCls : TraitClass := ⟨"AgentType", true,
  [("dtype", .notTrait), ("from_array", .notTrait)]⟩

/-- The class `HasTraits` and the rest of the hierarchy, without traits.
Source: crowddynamics/simulation/agents.py:347-348 (base classes). -/
def hasTraitsCls : TraitClass := ⟨"HasTraits", true, [("traits", .notTrait)]⟩

/-- `object`. Source: crowddynamics/simulation/agents.py:347-348 (base classes). -/
def objectCls : TraitClass := ⟨"object", false, []⟩

/-- `inspect.getmro(Circular)`. Source: crowddynamics/simulation/agents.py:347-369. -/
def circularMro : List TraitClass :=
  [⟨"Circular", true, [("overlapping", .notTrait)]⟩, agentTypeCls, statesCls, bodyTypeCls,
    bodyCls, translationalCls, hasTraitsCls, objectCls]

/-- `inspect.getmro(ThreeCircle)`. Source: crowddynamics/simulation/agents.py:372-418. -/
def threeCircleMro : List TraitClass :=
  [⟨"ThreeCircle", true, [("position_ls", pairTrait), ("position_rs", pairTrait),
      ("overlapping", .notTrait)]⟩, agentTypeCls, statesCls, bodyTypeCls, bodyCls,
    translationalCls, rotationalCls, hasTraitsCls, objectCls]

/-- `AgentType.dtype`: the class `BodyType` itself is left out.
Source: crowddynamics/simulation/agents.py:299-307. -/
def agentDtype (mro : List TraitClass) : Except PyErr (List DtypeField) :=
  classToStructDtype mro none (some fun c => decide (c.name = "BodyType"))

/-! ## Validators -/

/-- An array: its shape and its flat content. Source: crowddynamics/traits.py:17-57. -/
structure NdArray where
  /-- `shape` -/
  shape : List ℕ
  /-- content -/
  data : List ℝ

/-- A validator: returns the value or raises a `TraitError`.
Source: crowddynamics/traits.py:27, 48. -/
abbrev ArrayValidator := NdArray → Except PyErr NdArray

/-- `shape_validator(*dimensions)`. Source: crowddynamics/traits.py:17-35. -/
def shapeValidator (dimensions : List ℕ) : ArrayValidator := fun value =>
  if value.shape = dimensions then .ok value else .error .validation

/-- `np.isclose(a, b)` with the default tolerances. Source: crowddynamics/traits.py:50. -/
def npIsclose (a b : ℝ) : Prop := |a - b| ≤ 1 / 10 ^ 8 + 1 / 10 ^ 5 * |b|

/-- `length_validator(*lengths)`: `length` reads the first two entries of the value; with fewer
entries it would read outside of the array, which is an error value here.
Source: crowddynamics/traits.py:38-57. -/
def lengthValidator (lengths : List ℝ) : ArrayValidator := fun value =>
  match value.data with
  | x :: y :: _ =>
    if ∃ b ∈ lengths, npIsclose (length (x, y)) b then .ok value else .error .validation
  | _ => .error .index

/-- `Array.valid(*validators)`: each validator gets the result of the one before.
Source: crowddynamics/simulation/agents.py:200-221. -/
def validateAll : List ArrayValidator → ArrayValidator
  | [], value => .ok value
  | v :: rest, value => do
    let value ← v value
    validateAll rest value

/-- The validators of `target_direction`. Source: crowddynamics/simulation/agents.py:206-211. -/
def targetDirectionValidators : List ArrayValidator :=
  [shapeValidator [2], lengthValidator [0, 1]]

/-- `self.trait = value` for a sequence of values, where errors are caught: a rejected value leaves
the trait as it is. Source: crowddynamics/simulation/agents.py:194-221. -/
def assignAll (validators : List ArrayValidator) : NdArray → List NdArray → NdArray
  | current, [] => current
  | current, v :: rest => match validateAll validators v with
    | .ok value => assignAll validators value rest
    | .error _ => assignAll validators current rest

/-! ## Configuration -/

/-- The result of `config.validate`. Source: crowddynamics/config.py:26. -/
inductive ValidateResult where
  /-- `True` -/
  | allTrue
  /-- `False` -/
  | allFalse
  /-- a dictionary with the results of the entries -/
  | results

/-- A section with the outcomes of the checks of its entries: `True` if all succeed, `False` if all
fail, and a dictionary otherwise (library `configobj`). Source: crowddynamics/config.py:26. -/
def validateSection (checks : List Bool) : ValidateResult :=
  if checks.all id then .allTrue else if checks.all not then .allFalse else .results

/-- `check == True`, as the library `configobj` tests it for the sections.
Source: crowddynamics/config.py:26. -/
def ValidateResult.isTrue : ValidateResult → Bool
  | .allTrue => true
  | _ => false

/-- `config.validate(Validator())` for a file of sections (library `configobj`).
Source: crowddynamics/config.py:26. -/
def validateConfig (sections : List (List Bool)) : ValidateResult :=
  let rs := sections.map validateSection
  if rs.all fun r => r.isTrue then .allTrue
  else if rs.all fun r => !r.isTrue then .allFalse else .results

/-- The truth value of the result: a dictionary that is not empty is true.
Source: crowddynamics/config.py:26. -/
def ValidateResult.truthy : ValidateResult → Bool
  | .allTrue => true
  | .allFalse => false
  | .results => true

/-- `load_config(infile, configspec)`; a configuration is given by the outcomes of the checks of its
entries. Source: crowddynamics/config.py:23-28. -/
def loadConfig (sections : List (List Bool)) (configspec : Bool) : Except PyErr (List (List Bool)) :=
  if configspec && !(validateConfig sections).truthy then .error .validation else .ok sections

/-! ## Deprecated functions -/

/-- A function object: the names of its attributes and what it does.
Source: crowddynamics/exceptions.py:48-66. -/
structure PyFunction (A R : Type) where
  /-- `dir(func)` -/
  attributes : List String
  /-- calling it -/
  call : A → Except PyErr R

/-- Calling `deprecated(func)`: the result and the number of warnings. The arguments of
`warn_explicit` are computed first; they need the attribute `func_code`.
Source: crowddynamics/exceptions.py:48-66. -/
def deprecatedCall {A R : Type} (func : PyFunction A R) (args : A) : Except PyErr R × ℕ :=
  if "func_code" ∈ func.attributes then (func.call args, 1) else (.error .attribute, 0)

/-- The attributes of functions in python 3. Source: crowddynamics/exceptions.py:62-63 reads
`func_code`, which is called `__code__` there; setup.py:47 (python 3 only). -/
def python3FunctionAttributes : List String :=
  ["__annotations__", "__call__", "__class__", "__closure__", "__code__", "__defaults__", "__delattr__",
    "__dict__", "__dir__", "__doc__", "__eq__", "__format__", "__ge__", "__get__", "__getattribute__",
    "__globals__", "__gt__", "__hash__", "__init__", "__init_subclass__", "__kwdefaults__", "__le__",
    "__lt__", "__module__", "__name__", "__ne__", "__new__", "__qualname__", "__reduce__",
    "__reduce_ex__", "__repr__", "__setattr__", "__sizeof__", "__str__",
    "__subclasshook__"]

end

end CrowdDynamics
