import Verif.Proofs.TraitTable

/-!
# Cases and helper lemmas for `Verif.Props.TraitTable`
-/

namespace CrowdDynamics

open Spec

theorem classTraits_all (mro : List TraitClass) : classTraits mro none none = inheritedTraits mro := by
  unfold classTraits inheritedTraits
  simp only [List.filter_true]
  induction mro with
  | nil => rfl
  | cons c mro ih =>
    rw [List.flatMap_cons, ih, List.filter_cons]
    cases h : c.hasTraits
    · simp [classOwnTraits, h]
    · simp [classOwnTraits, h]

/-- Everything on one line, as a computation. -/
def plainInfo (name : String) (i : TraitInfo) : Bool :=
  (name.toList.all fun c => c ∉ lineBreaks) &&
  (match i.symbol with | none => true | some s => s.all fun c => c ∉ lineBreaks) &&
  (match i.default with
    | .str s => s.all fun c => c ∉ lineBreaks
    | .object s => s.all fun c => c ∉ lineBreaks
    | .tuple _ => false) && i.help.all fun c => c ∉ lineBreaks

theorem plainInfo_iff (info : String × Trait → TraitInfo) (t : String × Trait)
    (h : plainInfo t.1 (info t) = true) : PlainTrait info t := by
  have all : ∀ s : Text, (s.all fun c => decide (c ∉ lineBreaks)) = true → OneLine s := by
    intro s hs c hc
    rw [List.all_eq_true] at hs
    exact of_decide_eq_true (hs c hc)
  unfold plainInfo at h
  simp only [Bool.and_eq_true] at h
  obtain ⟨⟨⟨h1, h2⟩, h3⟩, h4⟩ := h
  refine ⟨all _ h1, fun s hs => ?_, ?_, all _ h4⟩
  · rw [hs] at h2
    exact all _ h2
  · cases hd : (info t).default with
    | str s => rw [hd] at h3; exact all _ h3
    | object s => rw [hd] at h3; exact all _ h3
    | tuple s => rw [hd] at h3; cases h3

/-- The traits of the shipped classes are of this kind. -/
theorem shipped_plain (mro : List TraitClass) (hm : mro ∈ [circularMro, threeCircleMro, capsuleMro]) :
    ∀ t ∈ inheritedTraits mro, PlainTrait shippedInfo t := by
  have key : ∀ n ∈ (inheritedTraits mro).map Prod.fst, n ∈ shippedTraitInfo.map Prod.fst := by
    simp only [List.mem_cons, List.not_mem_nil, or_false] at hm
    rcases hm with rfl | rfl | rfl <;> decide +kernel
  have plain : ∀ n ∈ shippedTraitInfo.map Prod.fst, plainInfo n
      ((shippedTraitInfo.lookup n).getD ⟨none, .str [], []⟩) = true := by decide +kernel
  intro t ht
  exact plainInfo_iff _ _ (plain t.1 (key t.1 (List.mem_map_of_mem ht)))

end CrowdDynamics
