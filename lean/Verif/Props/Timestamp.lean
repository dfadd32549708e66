import Verif.Proofs.Timestamp
import Verif.Props.SaveData

/-!
# C186: names of stored simulations
-/

namespace CrowdDynamics

open Spec

/-- **C186** The default directories of simulations with the same name, sorted as strings, are in the
order in which the simulations were made. -/
theorem C186_order (base : Text) (name : Option Text) (className : Text) (s t : UtcTime)
    (hs : Exists s) (ht : Exists t) :
    TextBefore (defaultDirectory base name className s) (defaultDirectory base name className t) ↔
      instant s < instant t := by
  unfold defaultDirectory saveFullPath TextBefore
  simp only [Option.getD_none, nameWithTimestamp_utc]
  obtain ⟨n, hn⟩ : ∃ n, objectName name className = n := ⟨_, rfl⟩
  rw [hn, ← before_iff (c := '_') hs ht]
  have hh : ((n ++ '_' :: strSep '_' s).head? = some '/') ↔
      ((n ++ '_' :: strSep '_' t).head? = some '/') := by
    cases n <;> simp
  have key : List.Lex charBefore (n ++ '_' :: strSep '_' s) (n ++ '_' :: strSep '_' t) ↔
      List.Lex charBefore (strSep '_' s) (strSep '_' t) := by
    rw [lex_append_left, List.lex_cons_iff]
  unfold pathJoin
  by_cases h1 : (n ++ '_' :: strSep '_' s).head? = some '/'
  · rw [if_pos h1, if_pos (hh.1 h1)]
    exact key
  rw [if_neg h1, if_neg (fun h => h1 (hh.2 h))]
  by_cases h2 : base = [] ∨ base.getLast? = some '/'
  · rw [if_pos h2, if_pos h2]
    exact (lex_append_left base).trans key
  · rw [if_neg h2, if_neg h2]
    exact (lex_append_left base).trans (List.lex_cons_iff.trans key)

/-- **C186** Different moments are different strings, so that simulations made at different moments or
with different names are stored in different directories. -/
theorem C186_unique (base : Text) (name name' : Option Text) (className className' : Text)
    (s t : UtcTime) (hs : Exists s) (ht : Exists t)
    (hn : '/' ∉ name.getD className) (hn' : '/' ∉ name'.getD className')
    (h : defaultDirectory base name className s = defaultDirectory base name' className' t) :
    name.getD className = name'.getD className' ∧ s = t := by
  obtain ⟨h1, h2⟩ := C121_directory base _ _ _ _ hn hn' (strUtc_isTimestamp s) (strUtc_isTimestamp t) h
  refine ⟨h1, ?_⟩
  by_contra hne
  rw [strUtc_eq, strUtc_eq] at h2
  rcases tuple_total hne with h' | h'
  · have := (lex_strSep (c := ' ') hs ht).2 h'
    rw [h2] at this
    exact lex_irrefl _ this
  · have := (lex_strSep (c := ' ') ht hs).2 h'
    rw [h2] at this
    exact lex_irrefl _ this

/-- **C186** The metadata contain the name and the timestamp from which the name of the directory is
made, and what was given to the constructor. -/
theorem C186_metadata (given : Dict Text) (name : Option Text) (className : Text) (time : UtcTime) :
    (simulationMetadata given name className time).lookup "name".toList =
      some (name.getD className) ∧
    (simulationMetadata given name className time).lookup "timestamp".toList = some (strUtc time) ∧
    (∀ k, k ≠ "name".toList → k ≠ "timestamp".toList →
      (simulationMetadata given name className time).lookup k = given.lookup k) ∧
    ∀ base, '/' ∉ name.getD className → ∃ head, defaultDirectory base name className time =
      head ++ name.getD className ++ '_' :: (strUtc time).map fun c => if c = ' ' then '_' else c := by
  unfold simulationMetadata
  refine ⟨?_, ?_, fun k h1 h2 => ?_, fun base hn => ?_⟩
  · rw [lookup_dictSet, if_neg (by decide), lookup_dictSet, if_pos rfl]
    rfl
  · rw [lookup_dictSet, if_pos rfl]
  · rw [lookup_dictSet, if_neg h2, lookup_dictSet, if_neg h1]
  · unfold defaultDirectory saveFullPath nameWithTimestamp objectName pathJoin
    simp only [Option.getD_none]
    obtain ⟨n, hnn⟩ : ∃ n, name.getD className = n := ⟨_, rfl⟩
    rw [hnn] at hn ⊢
    have h1 : ¬ (n ++ '_' :: (strUtc time).map fun c => if c = ' ' then '_' else c).head? =
        some '/' := by
      cases n with
      | nil => simp
      | cons c n =>
        simp only [List.cons_append, List.head?_cons, Option.some.injEq]
        exact fun hc => hn (hc ▸ List.mem_cons_self)
    rw [if_neg h1]
    split_ifs
    · exact ⟨base, by simp⟩
    · exact ⟨base ++ ['/'], by simp⟩

/-- Two moments of which one has no microseconds; the names of their directories. -/
example : Exists ⟨2017, 2, 28, 23, 59, 59, 0⟩ ∧ Exists ⟨2017, 2, 28, 23, 59, 59, 1⟩ ∧
    Exists ⟨2016, 2, 29, 0, 0, 0, 999999⟩ ∧ ¬ Exists ⟨2017, 2, 29, 0, 0, 0, 0⟩ ∧
    instant ⟨2017, 2, 28, 23, 59, 59, 0⟩ < instant ⟨2017, 2, 28, 23, 59, 59, 1⟩ ∧
    defaultDirectory "/data".toList none "Hallway".toList ⟨2017, 2, 28, 23, 59, 59, 0⟩ =
      "/data/Hallway_2017-02-28_23:59:59+00:00".toList ∧
    defaultDirectory "/data".toList none "Hallway".toList ⟨2017, 2, 28, 23, 59, 59, 1⟩ =
      "/data/Hallway_2017-02-28_23:59:59.000001+00:00".toList ∧
    '/' ∉ (none : Option Text).getD "Hallway".toList := by
  refine ⟨⟨by decide, by decide, by decide, by decide, by decide, by decide, by decide⟩,
    ⟨by decide, by decide, by decide, by decide, by decide, by decide, by decide⟩,
    ⟨by decide, by decide, by decide, by decide, by decide, by decide, by decide⟩,
    fun h => absurd h.day (by decide), ?_, by decide, by decide, by decide⟩
  unfold instant
  dsimp only
  omega

/-- The length of years, and the days of a leap year. -/
example : yearLength 2017 = 365 ∧ yearLength 2016 = 366 ∧ yearLength 1900 = 365 ∧
    yearLength 2000 = 366 ∧ dayNumber 1 1 1 = 1 ∧ dayNumber 1 12 31 = 365 ∧ dayNumber 2 1 1 = 366 := by
  decide

/-- Metadata given to the constructor are kept. -/
example : simulationMetadata [("crowd".toList, "dense".toList)] none "Hallway".toList
    ⟨2017, 2, 28, 23, 59, 59, 0⟩ =
      [("crowd".toList, "dense".toList), ("name".toList, "Hallway".toList),
        ("timestamp".toList, "2017-02-28 23:59:59+00:00".toList)] := by
  decide

end CrowdDynamics
