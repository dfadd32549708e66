import Verif.Spec.CommandLine

/-!
# Helper lemmas: the log and the command line
-/

namespace CrowdDynamics

open Spec

theorem yaml_root : logYaml [] = ⟨20, [(.console, 20)], true⟩ := rfl

theorem yaml_package : logYaml [packageName] = ⟨20, [(.debugFile, 10), (.infoFile, 20)], false⟩ := rfl

theorem yaml_fresh {name : List Text} (h1 : name ≠ []) (h2 : name ≠ [packageName]) :
    logYaml name = .fresh := by
  unfold logYaml
  rw [if_neg h1, if_neg h2]

theorem package_level (rest : List Text) :
    effectiveLevel logYaml (rest ++ [packageName]) = 20 := by
  induction rest with
  | nil => rfl
  | cons p rest ih =>
    rw [List.cons_append, effectiveLevel, yaml_fresh (by simp)
      (by rw [← List.cons_append, List.reverse_append]; simp)]
    simpa [LoggerCfg.fresh] using ih

theorem package_handlers (rest : List Text) (v : ℕ) :
    callHandlers logYaml v (rest ++ [packageName]) =
      takenBy ⟨20, [(.debugFile, 10), (.infoFile, 20)], false⟩ v := by
  induction rest with
  | nil =>
    simp only [List.nil_append, callHandlers, List.reverse_cons, List.reverse_nil, yaml_package]
    simp
  | cons p rest ih =>
    rw [List.cons_append, callHandlers, yaml_fresh (by simp)
      (by rw [← List.cons_append, List.reverse_append]; simp)]
    simpa [LoggerCfg.fresh, takenBy] using ih

theorem foreign_level (name : List Text) (h : name.getLast? ≠ some packageName) :
    effectiveLevel logYaml name = 20 := by
  induction name with
  | nil => rfl
  | cons p rest ih =>
    rw [effectiveLevel, yaml_fresh (by simp) ?_]
    · have : rest.getLast? ≠ some packageName := by
        cases rest with
        | nil => simp
        | cons q r => simpa using h
      simpa [LoggerCfg.fresh] using ih this
    · intro e
      have : p :: rest = [packageName] := by
        rw [← List.reverse_reverse (p :: rest), e]; rfl
      rw [this] at h
      exact h rfl

theorem foreign_handlers (name : List Text) (h : name.getLast? ≠ some packageName) (v : ℕ) :
    callHandlers logYaml v name = takenBy ⟨20, [(.console, 20)], true⟩ v := by
  induction name with
  | nil => rfl
  | cons p rest ih =>
    rw [callHandlers, yaml_fresh (by simp) ?_]
    · have : rest.getLast? ≠ some packageName := by
        cases rest with
        | nil => simp
        | cons q r => simpa using h
      simpa [LoggerCfg.fresh, takenBy] using ih this
    · intro e
      have : p :: rest = [packageName] := by
        rw [← List.reverse_reverse (p :: rest), e]; rfl
      rw [this] at h
      exact h rfl

theorem logTo_package (rest : List Text) (v : ℕ) :
    logTo logYaml (packageName :: rest) v = if 20 ≤ v then [.debugFile, .infoFile] else [] := by
  unfold logTo
  rw [List.reverse_cons, package_level, package_handlers]
  by_cases h : 20 ≤ v
  · rw [if_pos h, if_pos h]
    have : 10 ≤ v := by omega
    simp [takenBy, h, this]
  · rw [if_neg h, if_neg h]

theorem logTo_foreign (name : List Text) (h : name.head? ≠ some packageName) (v : ℕ) :
    logTo logYaml name v = if 20 ≤ v then [.console] else [] := by
  have h' : name.reverse.getLast? ≠ some packageName := by rwa [List.getLast?_reverse]
  unfold logTo
  rw [foreign_level _ h', foreign_handlers _ h']
  by_cases h : 20 ≤ v
  · rw [if_pos h, if_pos h]
    simp [takenBy, h]
  · rw [if_neg h, if_neg h]

theorem accepted_names (text : Text) (h : text ∈ logLevels.map Prod.fst) :
    runLogging (some text) = .ok logYaml := by
  have : loglevelOption (some text) = .ok (.str text) := by
    unfold loglevelOption choiceConvert
    rw [if_pos]
    · rfl
    · obtain ⟨l, h1, h2⟩ := List.mem_map.1 h
      subst h2
      exact List.mem_append_right _ (List.mem_map.2 ⟨l, h1, rfl⟩)
  unfold runLogging
  rw [this]
  rfl

theorem yaml_writes (level : ℕ) : WritesFrom logYaml level ↔ level = 20 := by
  constructor
  · intro h
    have e : ∀ v, 20 ≤ v ↔ level ≤ v := by
      intro v
      rw [← h ["crowddynamics".toList] ⟨[], rfl⟩ v, show logTo logYaml ["crowddynamics".toList] v = _ from logTo_package [] v]
      by_cases hv : 20 ≤ v <;> simp [hv]
    have h1 := (e 20).1 le_rfl
    have h2 := (e level).2 le_rfl
    omega
  · rintro rfl name ⟨rest, rfl⟩ v
    rw [show logTo logYaml ("crowddynamics".toList :: rest) v = _ from logTo_package rest v]
    by_cases hv : 20 ≤ v <;> simp [hv]

end CrowdDynamics
