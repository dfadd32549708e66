import Mathlib.Tactic.Linarith
import Mathlib.Tactic.NormNum
import Mathlib.Tactic.Ring
import Mathlib.Data.List.Basic
import Verif.Spec.Traits
import Verif.Proofs.Vector2D

/-!
# Lemmas about traits, options and validators
-/

namespace CrowdDynamics

open Spec

open Classical

lemma traitToDtype_iff (name : String) (t : Trait) (f : DtypeField) :
    traitToDtype name t = .ok f ↔ FieldOf name t f := by
  constructor
  · intro h
    cases t <;> simp only [traitToDtype, Except.ok.injEq, reduceCtorEq] at h <;> subst h <;>
      constructor
  · rintro (_ | _ | _ | _ | _) <;> rfl

lemma fieldOf_name {name : String} {t : Trait} {f : DtypeField} (h : FieldOf name t f) :
    f.name = name := by
  cases h <;> rfl

lemma mem_classOwnTraits (c : TraitClass) (ea : Option (String → Bool)) (name : String) (t : Trait) :
    (name, t) ∈ classOwnTraits c ea ↔ c.hasTraits = true ∧ (name, t) ∈ c.attrs ∧ t ≠ .notTrait ∧
      ¬ ∃ f, ea = some f ∧ f name = true := by
  unfold classOwnTraits
  by_cases hc : c.hasTraits = true
  · rw [if_pos hc, List.mem_filter]
    have ht : t.isTrait = true ↔ t ≠ .notTrait := by cases t <;> simp [Trait.isTrait]
    cases ea with
    | none => simp [hc, ht]
    | some f => simp [hc, ht]; tauto
  · rw [if_neg hc]
    simp [hc]

lemma mem_classTraits (mro : List TraitClass) (ea : Option (String → Bool))
    (ec : Option (TraitClass → Bool)) (name : String) (t : Trait) :
    (name, t) ∈ classTraits mro ea ec ↔ Visible mro (fun n => ∃ f, ea = some f ∧ f n = true)
      (fun c => ∃ f, ec = some f ∧ f c = true) name t := by
  unfold classTraits Visible
  rw [List.mem_flatMap]
  constructor
  · rintro ⟨c, hc, hm⟩
    obtain ⟨h1, h2, h3, h4⟩ := (mem_classOwnTraits _ _ _ _).1 hm
    obtain ⟨h5, h6⟩ := List.mem_filter.1 hc
    refine ⟨c, h5, h1, ?_, h2, h3, h4⟩
    rintro ⟨f, rfl, hf⟩
    simp [hf] at h6
  · rintro ⟨c, h5, h1, h6, h2, h3, h4⟩
    refine ⟨c, List.mem_filter.2 ⟨h5, ?_⟩, (mem_classOwnTraits _ _ _ _).2 ⟨h1, h2, h3, h4⟩⟩
    cases ec with
    | none => rfl
    | some f =>
      by_cases hf : f c = true
      · exact absurd ⟨f, rfl, hf⟩ h6
      · simp [hf]

lemma traitsToDtypes_iff (l : List (String × Trait)) (fs : List DtypeField) :
    traitsToDtypes l = .ok fs ↔ List.Forall₂ (fun e f => FieldOf e.1 e.2 f) l fs := by
  induction l generalizing fs with
  | nil =>
    rw [traitsToDtypes, List.forall₂_nil_left_iff, Except.ok.injEq]
    exact eq_comm
  | cons e l ih =>
    obtain ⟨n, t⟩ := e
    rw [traitsToDtypes, List.forall₂_cons_left_iff]
    cases hf : traitToDtype n t with
    | error er =>
      constructor
      · intro h
        simp [bind, Except.bind] at h
      · rintro ⟨f, fs', h1, -, -⟩
        rw [(traitToDtype_iff n t f).2 h1] at hf
        simp at hf
    | ok f =>
      cases hfs : traitsToDtypes l with
      | error er =>
        constructor
        · intro h
          simp [bind, Except.bind] at h
        · rintro ⟨f', fs', -, h2, -⟩
          rw [(ih fs').2 h2] at hfs
          simp at hfs
      | ok fs' =>
        simp only [bind, Except.bind, Except.ok.injEq]
        constructor
        · rintro rfl
          exact ⟨f, fs', (traitToDtype_iff n t f).1 hf, (ih fs').1 hfs, rfl⟩
        · rintro ⟨f', fs'', h1, h2, rfl⟩
          have e1 := (traitToDtype_iff n t f').2 h1
          have e2 := (ih fs'').2 h2
          rw [hf] at e1
          rw [hfs] at e2
          rw [Except.ok.inj e1, Except.ok.inj e2]

lemma traitsToDtypes_names {l : List (String × Trait)} {fs : List DtypeField}
    (h : List.Forall₂ (fun e f => FieldOf e.1 e.2 f) l fs) :
    fs.map DtypeField.name = l.map Prod.fst := by
  induction h with
  | nil => rfl
  | cons h1 _ ih => rw [List.map_cons, List.map_cons, ih, fieldOf_name h1]

lemma structDtype_iff (mro : List TraitClass) (ea : Option (String → Bool))
    (ec : Option (TraitClass → Bool)) (fs : List DtypeField) :
    classToStructDtype mro ea ec = .ok fs ↔
      List.Forall₂ (fun e f => FieldOf e.1 e.2 f) (classTraits mro ea ec) fs ∧
        (fs.map DtypeField.name).Nodup := by
  unfold classToStructDtype
  cases hf : traitsToDtypes (classTraits mro ea ec) with
  | error e =>
    constructor
    · intro h
      simp [bind, Except.bind] at h
    · rintro ⟨h, -⟩
      rw [(traitsToDtypes_iff _ _).2 h] at hf
      simp at hf
  | ok fs' =>
    simp only [bind, Except.bind, npDtype]
    constructor
    · intro h
      split_ifs at h with hn
      obtain rfl := Except.ok.inj h
      exact ⟨(traitsToDtypes_iff _ _).1 hf, hn⟩
    · rintro ⟨h1, h2⟩
      rw [(traitsToDtypes_iff _ _).2 h1] at hf
      obtain rfl := Except.ok.inj hf
      rw [if_pos h2]

lemma validateAll_target (a b : NdArray) :
    validateAll targetDirectionValidators a = .ok b ↔ NearlyZeroOrUnit a ∧ b = a := by
  have hl : ∀ x y : ℝ, length (x, y) = √(x ^ 2 + y ^ 2) := fun x y => by
    rw [length_eq]; rfl
  have hclose : ∀ x y : ℝ, (∃ c ∈ ([0, 1] : List ℝ), npIsclose (length (x, y)) c) ↔
      (√(x ^ 2 + y ^ 2) ≤ 1e-8 ∨ |√(x ^ 2 + y ^ 2) - 1| ≤ 1e-8 + 1e-5) := by
    intro x y
    rw [hl]
    have h0 : npIsclose (√(x ^ 2 + y ^ 2)) 0 ↔ √(x ^ 2 + y ^ 2) ≤ 1e-8 := by
      unfold npIsclose
      rw [sub_zero, abs_zero, mul_zero, add_zero, abs_of_nonneg (Real.sqrt_nonneg _)]
      norm_num
    have h1 : npIsclose (√(x ^ 2 + y ^ 2)) 1 ↔ |√(x ^ 2 + y ^ 2) - 1| ≤ 1e-8 + 1e-5 := by
      unfold npIsclose
      rw [abs_one]
      norm_num
    simp only [List.mem_cons, List.not_mem_nil, or_false, exists_eq_or_imp, exists_eq_left, h0, h1]
  unfold targetDirectionValidators NearlyZeroOrUnit
  simp only [validateAll, bind, Except.bind, shapeValidator]
  by_cases hs : a.shape = [2]
  · simp only [if_pos hs, lengthValidator]
    match hd : a.data with
    | [] => simp
    | [x] => simp
    | x :: y :: rest =>
      simp only [hclose]
      by_cases hc : √(x ^ 2 + y ^ 2) ≤ 1e-8 ∨ |√(x ^ 2 + y ^ 2) - 1| ≤ 1e-8 + 1e-5
      · rw [if_pos hc]
        simp only [Except.ok.injEq]
        constructor
        · rintro rfl
          exact ⟨⟨hs, x, y, rest, rfl, hc⟩, rfl⟩
        · rintro ⟨-, rfl⟩
          rfl
      · rw [if_neg hc]
        simp only [reduceCtorEq, false_iff]
        rintro ⟨⟨-, x', y', rest', he, h⟩, -⟩
        simp only [List.cons.injEq] at he
        obtain ⟨rfl, rfl, rfl⟩ := he
        exact hc h
  · simp [hs]

end CrowdDynamics
