import Verif.Model.Traits

/-!
# Specification vocabulary for traits, options and validators
-/

namespace CrowdDynamics.Spec

noncomputable section

open Classical

/-- The value lies between the bounds that are given. -/
def Between {α : Type} [LE α] (min max : Option α) (x : α) : Prop :=
  (∀ a, min = some a → a ≤ x) ∧ ∀ b, max = some b → x ≤ b

/-- The values a trait accepts (library `traitlets`; arrays and tuples are left out). -/
def Accepts : Trait → PyVal → Prop
  | .int min max, .int i => Between min max i
  | .float min max, .float x => Between min max x
  | .complex, .complex _ _ => True
  | .bool, .bool _ => True
  | .unicode, .str _ => True
  | .enum values, v => v ∈ values
  | _, _ => False

/-- The values a command line option can produce (library `click`; tuples are left out). -/
def Produces : OptionType → PyVal → Prop
  | .intRange min max, .int i => Between min max i
  | .float, .float _ => True
  | .complex, .complex _ _ => True
  | .flag, .bool _ => True
  | .str, .str _ => True
  | .choice values, .str s => s ∈ values
  | _, _ => False

/-- The trait is visible in the class with the given method resolution order: a class that is not
excluded defines it under a name that is not excluded. -/
def Visible (mro : List TraitClass) (excludedName : String → Prop) (excludedCls : TraitClass → Prop)
    (name : String) (t : Trait) : Prop :=
  ∃ c ∈ mro, c.hasTraits = true ∧ ¬ excludedCls c ∧ (name, t) ∈ c.attrs ∧ t ≠ .notTrait ∧
    ¬ excludedName name

/-- The field that stands for a trait in a structured dtype. -/
inductive FieldOf : String → Trait → DtypeField → Prop
  /-- integers -/
  | int (name : String) (min max : Option ℤ) : FieldOf name (.int min max) ⟨name, .int64, []⟩
  /-- reals -/
  | float (name : String) (min max : Option ℝ) : FieldOf name (.float min max) ⟨name, .float64, []⟩
  /-- complex numbers -/
  | complex (name : String) : FieldOf name .complex ⟨name, .complex128, []⟩
  /-- truth values -/
  | bool (name : String) : FieldOf name .bool ⟨name, .bool, []⟩
  /-- arrays -/
  | array (name : String) (dtype : ScalarDtype) (shape : List ℕ) :
    FieldOf name (.array dtype shape) ⟨name, dtype, shape⟩

/-- The fields of a circular agent. -/
def circularFields : List DtypeField :=
  ["active", "target_reached"].map (⟨·, .bool, []⟩) ++ [⟨"target", .int64, []⟩] ++
  ["is_leader", "is_follower"].map (⟨·, .bool, []⟩) ++
  ["index_leader", "familiar_exit"].map (⟨·, .int64, []⟩) ++
  ["radius", "r_t", "r_s", "r_ts", "mass", "inertia_rot", "target_velocity",
    "target_angular_velocity"].map (⟨·, .float64, []⟩) ++
  ["position", "velocity", "target_direction", "force", "force_prev"].map (⟨·, .float64, [2]⟩) ++
  ["tau_adj", "k_soc", "tau_0", "mu", "kappa", "damping", "std_rand_force"].map (⟨·, .float64, []⟩)

/-- The fields of a three-circle agent. -/
def threeCircleFields : List DtypeField :=
  ["position_ls", "position_rs"].map (⟨·, .float64, [2]⟩) ++ circularFields ++
  ["orientation", "angular_velocity", "target_orientation", "torque", "torque_prev", "tau_rot",
    "std_rand_torque"].map (⟨·, .float64, []⟩)

/-- The array is a vector of the plane that is zero or of length one, up to the tolerances. -/
def NearlyZeroOrUnit (a : NdArray) : Prop :=
  a.shape = [2] ∧ ∃ x y rest, a.data = x :: y :: rest ∧
    (√(x ^ 2 + y ^ 2) ≤ 1e-8 ∨ |√(x ^ 2 + y ^ 2) - 1| ≤ 1e-8 + 1e-5)

end

end CrowdDynamics.Spec
