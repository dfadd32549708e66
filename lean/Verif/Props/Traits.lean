import Verif.Proofs.Traits

/-!
# C89, C90, C91, C92, C93: traits, validators, options, configuration and deprecated functions
-/

namespace CrowdDynamics

open Spec

open Classical

/-! ## Structured dtypes -/

/-- **C89**, full statement: for every class all of whose traits have a dtype, the structured dtype
exists and has one field for each visible trait. -/
def C89_statement : Prop :=
  ∀ (mro : List TraitClass) (ea : Option (String → Bool)) (ec : Option (TraitClass → Bool)),
    (∀ c ∈ mro, (c.attrs.map Prod.fst).Nodup) →
    (∀ c ∈ mro, ∀ e ∈ c.attrs, e.2 ≠ .notTrait → ∃ f, FieldOf e.1 e.2 f) →
    ∃ fs, classToStructDtype mro ea ec = .ok fs ∧ ∀ name,
      name ∈ fs.map DtypeField.name ↔ ∃ t, Visible mro (fun n => ∃ f, ea = some f ∧ f n = true)
        (fun c => ∃ f, ec = some f ∧ f c = true) name t

/-- **C89** (partial) If there is a dtype at all, its fields are exactly the visible traits, each once,
with the dtype and shape of the trait. Missing: that there is one, which fails if a class overrides
a trait. -/
theorem C89_fields_partial (mro : List TraitClass) (ea : Option (String → Bool))
    (ec : Option (TraitClass → Bool)) (fs : List DtypeField)
    (h : classToStructDtype mro ea ec = .ok fs) :
    (fs.map DtypeField.name).Nodup ∧
    (∀ f ∈ fs, ∃ t, Visible mro (fun n => ∃ g, ea = some g ∧ g n = true)
      (fun c => ∃ g, ec = some g ∧ g c = true) f.name t ∧ FieldOf f.name t f) ∧
    ∀ name t, Visible mro (fun n => ∃ g, ea = some g ∧ g n = true)
      (fun c => ∃ g, ec = some g ∧ g c = true) name t → ∃ f ∈ fs, FieldOf name t f := by
  obtain ⟨h1, h2⟩ := (structDtype_iff mro ea ec fs).1 h
  refine ⟨h2, fun f hf => ?_, fun name t hv => ?_⟩
  · obtain ⟨i, hi, rfl⟩ := List.mem_iff_getElem.1 hf
    have hl : i < (classTraits mro ea ec).length := by rw [h1.length_eq]; exact hi
    have h3 := List.Forall₂.get h1 hl hi
    simp only [List.get_eq_getElem] at h3
    have h4 : (classTraits mro ea ec)[i] ∈ classTraits mro ea ec := List.getElem_mem hl
    refine ⟨(classTraits mro ea ec)[i].2, ?_, ?_⟩
    · rw [fieldOf_name h3]
      exact (mem_classTraits mro ea ec _ _).1 h4
    · rw [fieldOf_name h3]
      exact h3
  · obtain ⟨i, hi, he⟩ := List.mem_iff_getElem.1 ((mem_classTraits mro ea ec name t).2 hv)
    have hl : i < fs.length := by rw [← h1.length_eq]; exact hi
    have h3 := List.Forall₂.get h1 hi hl
    simp only [List.get_eq_getElem, he] at h3
    exact ⟨fs[i], List.getElem_mem hl, h3⟩

/-- One class with an integer trait, an excluded real trait and a method. -/
example : ∃ fs, classToStructDtype [⟨"A", true, [("n", .int none none), ("_x", .float none none),
    ("run", .notTrait)]⟩] (some fun n => decide (n = "_x")) none = .ok fs ∧
    fs.map DtypeField.name = ["n"] := ⟨[⟨"n", .int64, []⟩], rfl, rfl⟩

/-- **C89** (partial, order) The fields come in the order of the class hierarchy: wherever the
hierarchy is split, both parts have dtypes and the fields of the first part come first. Missing:
traits that are overridden. -/
theorem C89_order_partial (mro₁ mro₂ : List TraitClass) (ea : Option (String → Bool))
    (ec : Option (TraitClass → Bool)) (fs : List DtypeField)
    (h : classToStructDtype (mro₁ ++ mro₂) ea ec = .ok fs) :
    ∃ fs₁ fs₂, classToStructDtype mro₁ ea ec = .ok fs₁ ∧ classToStructDtype mro₂ ea ec = .ok fs₂ ∧
      fs = fs₁ ++ fs₂ := by
  obtain ⟨h1, h2⟩ := (structDtype_iff _ ea ec fs).1 h
  have he : classTraits (mro₁ ++ mro₂) ea ec = classTraits mro₁ ea ec ++ classTraits mro₂ ea ec := by
    unfold classTraits
    rw [List.filter_append, List.flatMap_append]
  rw [he, List.forall₂_iff_get] at h1
  obtain ⟨hl, hget⟩ := h1
  have hl' : fs.length = (classTraits mro₁ ea ec).length + (classTraits mro₂ ea ec).length := by
    rw [← hl, List.length_append]
  have hfs : fs = fs.take (classTraits mro₁ ea ec).length ++
      fs.drop (classTraits mro₁ ea ec).length := (List.take_append_drop _ _).symm
  rw [hfs, List.map_append, List.nodup_append] at h2
  refine ⟨fs.take (classTraits mro₁ ea ec).length, fs.drop (classTraits mro₁ ea ec).length,
    (structDtype_iff _ _ _ _).2 ⟨List.forall₂_iff_get.2 ⟨?_, fun i hi hi' => ?_⟩, h2.1⟩,
    (structDtype_iff _ _ _ _).2 ⟨List.forall₂_iff_get.2 ⟨?_, fun i hi hi' => ?_⟩, h2.2.1⟩, hfs⟩
  · rw [List.length_take]
    omega
  · have := hget i (by rw [List.length_append]; omega) (by omega)
    simpa [List.getElem_append_left hi] using this
  · rw [List.length_drop]
    omega
  · have := hget ((classTraits mro₁ ea ec).length + i) (by rw [List.length_append]; omega) (by omega)
    simpa using this

example : ∃ fs₁ fs₂, classToStructDtype [⟨"B", true, [("b", .bool)]⟩] none none = .ok fs₁ ∧
    classToStructDtype [⟨"A", true, [("a", .complex)]⟩] none none = .ok fs₂ ∧
    [⟨"b", .bool, []⟩, ⟨"a", .complex128, []⟩] = fs₁ ++ fs₂ :=
  C89_order_partial [⟨"B", true, [("b", .bool)]⟩] [⟨"A", true, [("a", .complex)]⟩] none none _ rfl

/-- **C89** (agents) The shipped agent types have the fields that the numba functions use: all states,
the attributes of the body, those of the motion, and for three-circle agents the shoulders and the
rotation; the helper attributes of `BodyType` are left out although those of its base class are
kept. -/
theorem C89_agents : agentDtype circularMro = .ok circularFields ∧
    agentDtype threeCircleMro = .ok threeCircleFields := by
  have h1 : classTraits circularMro none (some fun c => decide (c.name = "BodyType")) =
      statesCls.attrs ++ bodyCls.attrs ++ translationalCls.attrs := by
    simp [classTraits, circularMro, agentTypeCls, statesCls, bodyTypeCls, bodyCls, translationalCls,
      hasTraitsCls, objectCls, classOwnTraits, Trait.isTrait, pairTrait, floatTrait]
  have h2 : classTraits threeCircleMro none (some fun c => decide (c.name = "BodyType")) =
      [("position_ls", pairTrait), ("position_rs", pairTrait)] ++
      (statesCls.attrs ++ bodyCls.attrs ++ translationalCls.attrs) ++ rotationalCls.attrs := by
    simp [classTraits, threeCircleMro, agentTypeCls, statesCls, bodyTypeCls, bodyCls,
      translationalCls, rotationalCls, hasTraitsCls, objectCls, classOwnTraits, Trait.isTrait,
      pairTrait, floatTrait]
  unfold agentDtype
  constructor
  · rw [structDtype_iff, h1]
    refine ⟨(traitsToDtypes_iff _ _).1 rfl, ?_⟩
    decide
  · rw [structDtype_iff, h2]
    refine ⟨(traitsToDtypes_iff _ _).1 rfl, ?_⟩
    decide

/-- A circular agent has 27 fields and no orientation, a three-circle agent has 36. -/
example : circularFields.length = 27 ∧ threeCircleFields.length = 36 ∧
    "orientation" ∉ circularFields.map DtypeField.name := by
  decide

/-- **C89** (exclusion) The exclusion of `BodyType` is needed: with its attributes, of which the first
is a text, both agent types have no dtype. -/
theorem C89_excluded : classToStructDtype circularMro none none = .error .notImplemented ∧
    classToStructDtype threeCircleMro none none = .error .notImplemented := by
  have h1 : classTraits circularMro none none =
      statesCls.attrs ++ ("body_type", .unicode) :: (bodyTypeCls.attrs.tail.dropLast ++ bodyCls.attrs ++
        translationalCls.attrs) := by
    simp [classTraits, circularMro, agentTypeCls, statesCls, bodyTypeCls, bodyCls, translationalCls,
      hasTraitsCls, objectCls, classOwnTraits, Trait.isTrait, pairTrait, floatTrait]
  have h2 : classTraits threeCircleMro none none =
      [("position_ls", pairTrait), ("position_rs", pairTrait)] ++ statesCls.attrs ++
        ("body_type", .unicode) :: (bodyTypeCls.attrs.tail.dropLast ++ bodyCls.attrs ++
        translationalCls.attrs ++ rotationalCls.attrs) := by
    simp [classTraits, threeCircleMro, agentTypeCls, statesCls, bodyTypeCls, bodyCls,
      translationalCls, rotationalCls, hasTraitsCls, objectCls, classOwnTraits, Trait.isTrait,
      pairTrait, floatTrait]
  unfold classToStructDtype
  rw [h1, h2]
  exact ⟨rfl, rfl⟩

/-- With the exclusion there is one. -/
example : (agentDtype circularMro).isOk = true := by
  rw [C89_agents.1]
  rfl

/-- **C89** (indices) Targets and familiar exits of agents are the integers from -1 on; the index of the
leader is any integer. -/
theorem C89_indices (mro : List TraitClass) (hm : mro = circularMro ∨ mro = threeCircleMro) (t : Trait)
    (v : PyVal) :
    (("target", t) ∈ classTraits mro none none → (Accepts t v ↔ ∃ i : ℤ, v = .int i ∧ -1 ≤ i)) ∧
    (("familiar_exit", t) ∈ classTraits mro none none → (Accepts t v ↔ ∃ i : ℤ, v = .int i ∧ -1 ≤ i)) ∧
    (("index_leader", t) ∈ classTraits mro none none → (Accepts t v ↔ ∃ i : ℤ, v = .int i)) := by
  rcases hm with rfl | rfl <;>
  · simp only [classTraits, circularMro, threeCircleMro, agentTypeCls, statesCls, bodyTypeCls, bodyCls,
      translationalCls, rotationalCls, hasTraitsCls, objectCls, classOwnTraits, Trait.isTrait, pairTrait,
      floatTrait]
    simp
    refine ⟨?_, ?_⟩ <;> · rintro rfl; cases v <;> simp [Accepts, Between]

/-- Both agent types have the three traits. -/
example : ∀ name ∈ ["target", "familiar_exit", "index_leader"],
    (∃ t, (name, t) ∈ classTraits circularMro none none) ∧
      ∃ t, (name, t) ∈ classTraits threeCircleMro none none := by
  simp [classTraits, circularMro, threeCircleMro, agentTypeCls, statesCls, bodyTypeCls, bodyCls,
    translationalCls, rotationalCls, hasTraitsCls, objectCls, classOwnTraits, Trait.isTrait, pairTrait,
    floatTrait]

/-- **C89** (fails) If a class redefines a trait of a base class (here: another default), it is visible
twice and making the dtype raises a `ValueError`. -/
theorem C89_fails : ¬ C89_statement ∧
    classToStructDtype [⟨"B", true, [("x", .float none none)]⟩, ⟨"A", true, [("x", .float none none)]⟩]
      none none = .error .value := by
  have h : classToStructDtype [⟨"B", true, [("x", .float none none)]⟩,
      ⟨"A", true, [("x", .float none none)]⟩] none none = .error .value := rfl
  refine ⟨fun H => ?_, h⟩
  obtain ⟨fs, h1, -⟩ := H [⟨"B", true, [("x", .float none none)]⟩,
    ⟨"A", true, [("x", .float none none)]⟩] none none (by simp)
    (by
      intro c hc e he _
      simp only [List.mem_cons, List.not_mem_nil, or_false] at hc
      rcases hc with rfl | rfl <;>
      · simp only [List.mem_cons, List.not_mem_nil, or_false] at he
        subst he
        exact ⟨_, .float _ _ _⟩)
  rw [h] at h1
  simp at h1

/-! ## Validators -/

/-- **C90** The validators of `target_direction` accept exactly the vectors of the plane whose length
is zero or one up to the tolerances, and do not change them. -/
theorem C90_accepts (a b : NdArray) :
    validateAll targetDirectionValidators a = .ok b ↔ NearlyZeroOrUnit a ∧ b = a :=
  validateAll_target a b

/-- The direction `(3/5, 4/5)` is accepted, the vector `(1, 1)` is not. -/
example : validateAll targetDirectionValidators ⟨[2], [3 / 5, 4 / 5]⟩ = .ok ⟨[2], [3 / 5, 4 / 5]⟩ ∧
    ∀ b, validateAll targetDirectionValidators ⟨[2], [1, 1]⟩ ≠ .ok b := by
  constructor
  · refine (C90_accepts _ _).2 ⟨⟨rfl, _, _, _, rfl, Or.inr ?_⟩, rfl⟩
    rw [show ((3 / 5 : ℝ) ^ 2 + (4 / 5) ^ 2) = 1 by norm_num, Real.sqrt_one]
    norm_num
  · intro b hb
    obtain ⟨⟨-, x, y, r, he, h⟩, -⟩ := (C90_accepts _ _).1 hb
    simp only [List.cons.injEq] at he
    obtain ⟨rfl, rfl, rfl⟩ := he
    have h1 : (1.4 : ℝ) ≤ √(1 ^ 2 + 1 ^ 2) := Real.le_sqrt_of_sq_le (by norm_num)
    rcases h with h | h
    · norm_num at h h1
      linarith
    · have := (abs_le.1 h).2
      norm_num at this h1
      linarith

/-- **C90** (invariant) Whatever is assigned, accepted or rejected, the target direction of an agent
is always a vector of the plane whose length is zero or one up to the tolerances. -/
theorem C90_invariant (initial : NdArray) (h : NearlyZeroOrUnit initial) (values : List NdArray) :
    NearlyZeroOrUnit (assignAll targetDirectionValidators initial values) := by
  induction values generalizing initial with
  | nil => exact h
  | cons v values ih =>
    rw [assignAll]
    cases hv : validateAll targetDirectionValidators v with
    | error e => exact ih initial h
    | ok value =>
      obtain ⟨h1, rfl⟩ := (C90_accepts _ _).1 hv
      exact ih _ h1

/-- The default `(0, 0)`, a rejected and an accepted value. -/
example : NearlyZeroOrUnit (assignAll targetDirectionValidators ⟨[2], [0, 0]⟩
    [⟨[3], [1, 0, 0]⟩, ⟨[2], [0, 1]⟩]) :=
  C90_invariant _ ⟨rfl, 0, 0, [], rfl, Or.inl (by norm_num)⟩ _

/-- **C90** (general) A shape validator accepts exactly the values of that shape; a length validator
accepts exactly the vectors whose length is close to one of the given lengths. -/
theorem C90_validators (dimensions : List ℕ) (lengths : List ℝ) (a b : NdArray) :
    (shapeValidator dimensions a = .ok b ↔ a.shape = dimensions ∧ b = a) ∧
    ∀ x y rest, a.data = x :: y :: rest → (lengthValidator lengths a = .ok b ↔ b = a ∧
      ∃ l ∈ lengths, |√(x ^ 2 + y ^ 2) - l| ≤ 1e-8 + 1e-5 * |l|) := by
  constructor
  · unfold shapeValidator
    by_cases h : a.shape = dimensions
    · rw [if_pos h, Except.ok.injEq]
      exact ⟨fun e => ⟨h, e.symm⟩, fun e => e.2.symm⟩
    · rw [if_neg h]
      simp [h]
  · intro x y rest hd
    unfold lengthValidator
    rw [hd]
    simp only
    have he : (∃ l ∈ lengths, npIsclose (length (x, y)) l) ↔
        ∃ l ∈ lengths, |√(x ^ 2 + y ^ 2) - l| ≤ 1e-8 + 1e-5 * |l| := by
      have hl : length (x, y) = √(x ^ 2 + y ^ 2) := by
        rw [length_eq]; rfl
      unfold npIsclose
      rw [hl]
      norm_num
    simp only [he]
    by_cases h : ∃ l ∈ lengths, |√(x ^ 2 + y ^ 2) - l| ≤ 1e-8 + 1e-5 * |l|
    · rw [if_pos h, Except.ok.injEq]
      exact ⟨fun e => ⟨e.symm, h⟩, fun e => e.1.symm⟩
    · rw [if_neg h]
      simp only [reduceCtorEq, false_iff, not_and]
      exact fun _ => h

/-- The vector `(3, 4)` has length 5. -/
example : lengthValidator [5] ⟨[2], [3, 4]⟩ = .ok ⟨[2], [3, 4]⟩ := by
  refine ((C90_validators [] [5] _ _).2 3 4 [] rfl).2 ⟨rfl, 5, by simp, ?_⟩
  rw [show ((3 : ℝ) ^ 2 + 4 ^ 2) = 5 ^ 2 by norm_num, Real.sqrt_sq (by norm_num)]
  norm_num

/-! ## Options -/

/-- **C91**, full statement: the command line option of a trait only lets values through that the
trait accepts, and all of them. -/
def C91_statement : Prop :=
  ∀ (toStr : PyVal → String), (∀ s, toStr (.str s) = s) → ∀ (t : Trait) (o : OptionType),
    traitToOption toStr t = .ok o → ∀ v, Produces o v ↔ Accepts t v

/-- **C91** (partial) The option agrees with the trait if the trait is an integer (with or without
bounds), complex, a truth value, a string, a real number without bounds, or an enumeration of
strings. Missing: real numbers with bounds and enumerations of other values, where the statement is
false, and tuples, whose values are not modelled. -/
theorem C91_agrees_partial (toStr : PyVal → String) (hs : ∀ s, toStr (.str s) = s) (t : Trait)
    (ht : (∃ a b, t = .int a b) ∨ t = .complex ∨ t = .bool ∨ t = .unicode ∨ t = .float none none ∨
      ∃ l : List String, t = .enum (l.map PyVal.str)) :
    ∃ o, traitToOption toStr t = .ok o ∧ ∀ v, Produces o v ↔ Accepts t v := by
  rcases ht with ⟨a, b, rfl⟩ | rfl | rfl | rfl | rfl | ⟨l, rfl⟩
  · exact ⟨_, rfl, fun v => by cases v <;> simp [Produces, Accepts]⟩
  · exact ⟨_, rfl, fun v => by cases v <;> simp [Produces, Accepts]⟩
  · exact ⟨_, rfl, fun v => by cases v <;> simp [Produces, Accepts]⟩
  · exact ⟨_, rfl, fun v => by cases v <;> simp [Produces, Accepts]⟩
  · exact ⟨_, rfl, fun v => by cases v <;> simp [Produces, Accepts, Between]⟩
  · refine ⟨_, rfl, fun v => ?_⟩
    cases v with
    | str s =>
      simp only [Produces, Accepts, List.mem_map]
      constructor
      · rintro ⟨v, ⟨s', h1, rfl⟩, h2⟩
        exact ⟨s', h1, by rw [← h2, hs]⟩
      · rintro ⟨s', h1, h2⟩
        exact ⟨.str s', ⟨s', h1, rfl⟩, by rw [hs]; exact PyVal.str.inj h2⟩
    | int => simp [Produces, Accepts]
    | float => simp [Produces, Accepts]
    | complex => simp [Produces, Accepts]
    | bool => simp [Produces, Accepts]
    | cls => simp [Produces, Accepts]

/-- The size of a simulation, `Int(min=1)`: `--size 0` is rejected, `--size 7` accepted. -/
example : ∃ o, traitToOption (fun _ => "") (.int (some 1) none) = .ok o ∧ ¬ Produces o (.int 0) ∧
    Produces o (.int 7) := by
  refine ⟨.intRange (some 1) none, rfl, ?_, ?_⟩ <;> simp [Produces, Between]

/-- **C91** (fails, bounds) The option of a bounded real trait lets every number through; a width of
minus one passes the command line. -/
theorem C91_float_fails (toStr : PyVal → String) (a : ℝ) (max : Option ℝ) :
    ∃ o, traitToOption toStr (.float (some a) max) = .ok o ∧
      Produces o (.float (a - 1)) ∧ ¬ Accepts (.float (some a) max) (.float (a - 1)) := by
  refine ⟨.float, rfl, trivial, fun h => ?_⟩
  have := h.1 a rfl
  linarith

/-- The width of the hallway, `Float(min=0)`. -/
example : ∃ o, traitToOption (fun _ => "") (.float (some 0) none) = .ok o ∧
    Produces o (.float (0 - 1)) ∧ ¬ Accepts (.float (some 0) none) (.float (0 - 1)) :=
  C91_float_fails _ 0 none

/-- **C91** (fails, classes) The option of an enumeration of classes, such as `agent_type`, only
produces strings; the trait accepts none of them. -/
theorem C91_enum_fails (toStr : PyVal → String) (names : List String) :
    ∃ o, traitToOption toStr (.enum (names.map PyVal.cls)) = .ok o ∧
      ∀ v, Produces o v → ¬ Accepts (.enum (names.map PyVal.cls)) v := by
  refine ⟨_, rfl, fun v hv ha => ?_⟩
  cases v <;> simp [Produces, Accepts] at hv ha

/-- `--agent_type` cannot be used. -/
example : ∃ o, traitToOption (fun _ => "<class>") (.enum (["Circular", "ThreeCircle"].map PyVal.cls)) =
    .ok o ∧ Produces o (.str "<class>") ∧
    ¬ Accepts (.enum (["Circular", "ThreeCircle"].map PyVal.cls)) (.str "<class>") :=
  ⟨_, rfl, by simp [Produces], by simp [Accepts]⟩

/-- **C91** (fails) The full statement is false: a bounded real number. -/
theorem C91_fails : ¬ C91_statement := by
  intro H
  obtain ⟨toStr, hs⟩ : ∃ f : PyVal → String, ∀ s, f (.str s) = s :=
    ⟨fun v => match v with
      | .str s => s
      | _ => "", fun _ => rfl⟩
  obtain ⟨o, h1, h2, h3⟩ := C91_float_fails toStr 0 none
  exact h3 ((H toStr hs _ o h1 _).1 h2)

/-- **C91** (tuples) The option of a tuple exists if and only if all elements are integers, reals,
complex numbers or truth values; a string among them raises a `TypeError`, if only such elements
precede it. -/
theorem C91_tuple (toStr : PyVal → String) (elements : List Trait) :
    (∃ o, traitToOption toStr (.tuple elements) = .ok o) ↔
      ∀ t ∈ elements, (∃ a b, t = .int a b) ∨ (∃ a b, t = .float a b) ∨ t = .complex ∨ t = .bool := by
  have key : (∃ ts, traitsToTypes elements = .ok ts) ↔
      ∀ t ∈ elements, (∃ a b, t = .int a b) ∨ (∃ a b, t = .float a b) ∨ t = .complex ∨
        t = .bool := by
    induction elements with
    | nil => simp [traitsToTypes]
    | cons t rest ih =>
      have ht : (∃ p, traitToType t = .ok p) ↔
          ((∃ a b, t = .int a b) ∨ (∃ a b, t = .float a b) ∨ t = .complex ∨ t = .bool) := by
        cases t <;> simp [traitToType]
      rw [List.forall_mem_cons, ← ih, ← ht, traitsToTypes]
      constructor
      · rintro ⟨ts, h⟩
        cases h1 : traitToType t with
        | error e => rw [h1] at h; simp [bind, Except.bind] at h
        | ok p =>
          cases h2 : traitsToTypes rest with
          | error e => rw [h1, h2] at h; simp [bind, Except.bind] at h
          | ok ps => exact ⟨⟨p, rfl⟩, ps, rfl⟩
      · rintro ⟨⟨p, h1⟩, ps, h2⟩
        exact ⟨p :: ps, by rw [h1, h2]; rfl⟩
  rw [← key]
  simp only [traitToOption]
  cases traitsToTypes elements with
  | error e => simp
  | ok ts => simp

example : (∃ o, traitToOption (fun _ => "") (.tuple [.int none none, .bool]) = .ok o) ∧
    traitToOption (fun _ => "") (.tuple [.int none none, .unicode]) = .error .type :=
  ⟨(C91_tuple _ _).2 (by simp), rfl⟩

/-! ## Configuration -/

/-- **C92**, full statement: a configuration with an invalid entry is rejected. -/
def C92_statement : Prop :=
  ∀ sections : List (List Bool), (∃ s ∈ sections, false ∈ s) →
    loadConfig sections true = .error .validation

/-- **C92** (partial) Valid configurations are accepted unchanged, and configurations (with at least one
section) whose sections all have an invalid entry are rejected. Missing: configurations with valid
and invalid sections, where the statement is false. -/
theorem C92_partial (sections : List (List Bool)) :
    ((∀ s ∈ sections, false ∉ s) → loadConfig sections true = .ok sections) ∧
    (sections ≠ [] → (∀ s ∈ sections, false ∈ s) → loadConfig sections true = .error .validation) ∧
    loadConfig sections false = .ok sections := by
  have hall : ∀ s : List Bool, validateSection s = .allTrue ↔ false ∉ s := by
    intro s
    unfold validateSection
    by_cases h : s.all id = true
    · rw [if_pos h]
      simp only [true_iff]
      intro hf
      have := List.all_eq_true.1 h _ hf
      simp at this
    · rw [if_neg h]
      have hf : false ∈ s := by
        by_contra hf
        refine h (List.all_eq_true.2 fun b hb => ?_)
        cases b with
        | false => exact absurd hb hf
        | true => rfl
      simp only [hf, not_true, iff_false]
      split_ifs <;> simp
  have hmap : ∀ s : List Bool, (validateSection s).isTrue = decide (false ∉ s) := by
    intro s
    by_cases h : false ∉ s
    · rw [(hall s).2 h]
      simp [h, ValidateResult.isTrue]
    · have := fun e => h ((hall s).1 e)
      cases hv : validateSection s with
      | allTrue => exact absurd hv this
      | allFalse => simpa [ValidateResult.isTrue] using h
      | results => simpa [ValidateResult.isTrue] using h
  refine ⟨fun h => ?_, fun hne h => ?_, by simp [loadConfig]⟩
  · unfold loadConfig validateConfig
    simp only [List.all_map, Function.comp_def, hmap]
    rw [if_pos (show (sections.all fun s => decide (false ∉ s)) = true by simpa using h)]
    simp [ValidateResult.truthy]
  · unfold loadConfig validateConfig
    simp only [List.all_map, Function.comp_def, hmap]
    have h1 : ¬ (sections.all fun s => decide (false ∉ s)) = true := by
      obtain ⟨s, hs⟩ := List.exists_mem_of_ne_nil _ hne
      intro hc
      have := List.all_eq_true.1 hc s hs
      simp [h s hs] at this
    rw [if_neg h1, if_pos (show (sections.all fun s => !decide (false ∉ s)) = true by simpa using h)]
    simp [ValidateResult.truthy]

/-- Two sections, valid; one section with a valid and an invalid entry. -/
example : loadConfig [[true, true], [true]] true = .ok [[true, true], [true]] ∧
    loadConfig [[true, false]] true = .error .validation :=
  ⟨(C92_partial _).1 (by simp), (C92_partial _).2.1 (by simp) (by simp)⟩

/-- **C92** (fails) A configuration with at least one valid section is accepted whatever the other
sections contain, since a partial failure is reported as a dictionary, which counts as true. -/
theorem C92_fails : (∀ sections : List (List Bool), (∃ s ∈ sections, false ∉ s) →
    loadConfig sections true = .ok sections) ∧ ¬ C92_statement := by
  have H : ∀ sections : List (List Bool), (∃ s ∈ sections, false ∉ s) →
      loadConfig sections true = .ok sections := by
    rintro sections ⟨s, hs, hf⟩
    have hv : validateSection s = .allTrue := by
      unfold validateSection
      rw [if_pos]
      refine List.all_eq_true.2 fun b hb => ?_
      cases b with
      | false => exact absurd hb hf
      | true => rfl
    have h2 : ¬ ((sections.map validateSection).all fun r => !r.isTrue) = true := by
      intro hc
      have := List.all_eq_true.1 hc _ (List.mem_map.2 ⟨s, hs, rfl⟩)
      rw [hv] at this
      simp [ValidateResult.isTrue] at this
    have ht : (validateConfig sections).truthy = true := by
      unfold validateConfig
      simp only
      split_ifs with h1
      · rfl
      · rfl
    unfold loadConfig
    rw [ht]
    simp
  refine ⟨H, fun hst => ?_⟩
  have h1 := hst [[true], [false]] ⟨[false], by simp, by simp⟩
  rw [H [[true], [false]] ⟨[true], by simp, by simp⟩] at h1
  simp at h1

/-- One good section and one whose entries are all invalid. -/
example : loadConfig [[true], [false, false]] true = .ok [[true], [false, false]] :=
  C92_fails.1 _ ⟨[true], by simp, by simp⟩

/-! ## Deprecated functions -/

/-- **C93**, full statement: calling a deprecated function gives one warning and the result of the
function. -/
def C93_statement : Prop :=
  ∀ (A R : Type) (func : PyFunction A R), func.attributes = python3FunctionAttributes →
    ∀ args, deprecatedCall func args = (func.call args, 1)

/-- **C93** (partial) This holds for objects with an attribute `func_code` (as functions of python 2
have). Missing: functions of python 3. -/
theorem C93_partial {A R : Type} (func : PyFunction A R) (h : "func_code" ∈ func.attributes)
    (args : A) : deprecatedCall func args = (func.call args, 1) := by
  unfold deprecatedCall
  rw [if_pos h]

example : deprecatedCall ⟨["func_code"], fun n : ℕ => (.ok (n + 1) : Except PyErr ℕ)⟩ 4 = (.ok 5, 1) :=
  C93_partial _ (by simp) 4

/-- **C93** (fails) In python 3, calling a deprecated function raises an `AttributeError`, without a
warning and without calling the function. -/
theorem C93_fails : (∀ (A R : Type) (func : PyFunction A R),
    func.attributes = python3FunctionAttributes →
      ∀ args, deprecatedCall func args = (.error .attribute, 0)) ∧ ¬ C93_statement := by
  have H : ∀ (A R : Type) (func : PyFunction A R), func.attributes = python3FunctionAttributes →
      ∀ args, deprecatedCall func args = (.error .attribute, 0) := by
    intro A R func h args
    unfold deprecatedCall
    rw [h, if_neg (by decide)]
  refine ⟨H, fun hst => ?_⟩
  have h1 := hst Unit Unit ⟨python3FunctionAttributes, fun _ => .ok ()⟩ rfl ()
  rw [H Unit Unit ⟨python3FunctionAttributes, fun _ => .ok ()⟩ rfl ()] at h1
  simp at h1

example : deprecatedCall ⟨python3FunctionAttributes, fun n : ℕ => (.ok (n + 1) : Except PyErr ℕ)⟩ 4 =
    (.error .attribute, 0) := C93_fails.1 ℕ ℕ _ rfl 4

end CrowdDynamics
