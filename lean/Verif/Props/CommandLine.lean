import Verif.Proofs.CommandLine
import Verif.Props.Utils

/-!
# The log and the command line: C142-C145
-/

namespace CrowdDynamics

open Spec

/-! ## C142: where messages go -/

/-- C142, full statement: messages of the package are written to `debug.log` from level `DEBUG` (10) on
and to `info.log` from level `INFO` (20) on, as the levels of the two handlers say. -/
def C142_statement : Prop :=
  ∀ name, OfPackage name → ∀ v,
    (.debugFile ∈ logTo logYaml name v ↔ 10 ≤ v) ∧ (.infoFile ∈ logTo logYaml name v ↔ 20 ≤ v)

/-- **C142** What holds: with the shipped configuration a message of any logger of the package is written
to both files, and not to the console, if its level is at least `INFO`, and nowhere otherwise; so
`debug.log` and `info.log` always get the same messages. Messages of other loggers go to the console from
level `INFO` on. -/
theorem C142_destinations_partial (name : List Text) (v : ℕ) :
    (OfPackage name → logTo logYaml name v = if 20 ≤ v then [.debugFile, .infoFile] else []) ∧
      (¬ OfPackage name → logTo logYaml name v = if 20 ≤ v then [.console] else []) := by
  constructor
  · rintro ⟨rest, rfl⟩
    exact logTo_package rest v
  · intro h
    refine logTo_foreign name (fun e => h ?_) v
    cases name with
    | nil => cases e
    | cons p rest => exact ⟨rest, by cases e; rfl⟩

/-- Both cases occur. -/
example : OfPackage ["crowddynamics".toList, "simulation".toList] ∧ ¬ OfPackage ["numba".toList] := by
  refine ⟨⟨_, rfl⟩, ?_⟩
  rintro ⟨rest, h⟩
  simp at h

/-- **C142** fails: a debug message of the package is not written to `debug.log`, because the logger of
the package has the level `INFO`. -/
theorem C142_fails : ¬ C142_statement := by
  intro h
  have := ((h ["crowddynamics".toList] ⟨[], rfl⟩ 10).1).2 le_rfl
  rw [(C142_destinations_partial _ 10).1 ⟨[], rfl⟩] at this
  simp at this

/-- **C142** The three messages of `user_info` go to both files, whatever the level. -/
theorem C142_user_info_partial (level : ChoiceValue) :
    (setupLogging level).2 = List.replicate 3 [.debugFile, .infoFile] := by
  have := logTo_package ["logging".toList] 20
  unfold setupLogging
  simp only [this]
  rfl

/-! ## C143: the level that was asked for -/

/-- C143, full statement: if `run --loglevel L` accepts the level, messages of the package are written
exactly from that level on. -/
def C143_statement : Prop :=
  ∀ text level, (text, level) ∈ meantLevel → ∀ cfg, runLogging (some text) = .ok cfg → WritesFrom cfg level

/-- **C143** What holds: whatever level is given, messages are written from level `INFO` on; this is
the level that was asked for only if that is `INFO`. -/
theorem C143_level_partial (given : Option Text) (cfg : LogConfig) (h : runLogging given = .ok cfg)
    (level : ℕ) : WritesFrom cfg level ↔ level = 20 := by
  unfold runLogging at h
  split at h
  · cases h
  · cases h
    exact yaml_writes level

/-- The hypothesis can be met, with and without the option. -/
example : runLogging none = .ok logYaml ∧ runLogging (some "DEBUG".toList) = .ok logYaml :=
  ⟨rfl, accepted_names _ (by simp [logLevels])⟩

/-- **C143** fails: with `--loglevel DEBUG` debug messages are not written. -/
theorem C143_fails : ¬ C143_statement := by
  intro h
  have e := accepted_names "DEBUG".toList (by simp [logLevels])
  have := (C143_level_partial _ _ e 10).1 (h "DEBUG".toList 10 (by simp [meantLevel]) _ e)
  omega

/-! ## C144: the choices of the option -/

/-- C144, full statement: the option accepts every name and every number of a level, refuses other texts
with a usage error (`other`), and the help of the command can be shown. -/
def C144_statement : Prop :=
  (∀ text level, (text, level) ∈ meantLevel → ∃ v, loglevelOption (some text) = .ok v) ∧
    (∀ text, (∀ level, (text, level) ∉ meantLevel) → loglevelOption (some text) = .error .other) ∧
    ∃ t, runHelp = .ok t

/-- **C144** What holds: the eight names are accepted, and so is leaving the option out; numbers are only
accepted as defaults in the source, and then exactly those that are meant by the names. Every other text,
a number or not, ends with a `TypeError` instead of a usage error, and so does `run --help`. -/
theorem C144_choices_partial :
    loglevelOption none = .ok (.int 20) ∧
      (∀ level, choiceConvert loglevels (.int level) = .ok (.int level) ↔
        ∃ text, (text, level) ∈ meantLevel) ∧
      (∀ text, text ∈ ["CRITICAL".toList, "FATAL".toList, "ERROR".toList, "WARNING".toList, "WARN".toList,
        "INFO".toList, "DEBUG".toList, "NOTSET".toList] → loglevelOption (some text) = .ok (.str text)) ∧
      (∀ text, text ∉ ["CRITICAL".toList, "FATAL".toList, "ERROR".toList, "WARNING".toList, "WARN".toList,
        "INFO".toList, "DEBUG".toList, "NOTSET".toList] → loglevelOption (some text) = .error .type) ∧
      runHelp = .error .type := by
  have key : ∀ text : Text, ChoiceValue.str text ∈ loglevels ↔
      text ∈ ["CRITICAL".toList, "FATAL".toList, "ERROR".toList, "WARNING".toList, "WARN".toList,
        "INFO".toList, "DEBUG".toList, "NOTSET".toList] := by
    intro text
    simp only [loglevels, logLevels, List.map_cons, List.map_nil, List.cons_append, List.nil_append,
      List.mem_cons, reduceCtorEq, false_or, ChoiceValue.str.injEq, List.not_mem_nil, or_false]
  refine ⟨rfl, fun level => ?_, fun text h => ?_, fun text h => ?_, rfl⟩
  · have e : ChoiceValue.int level ∈ loglevels ↔ ∃ text, (text, level) ∈ meantLevel := by
      simp only [loglevels, logLevels, meantLevel, List.map_cons, List.map_nil, List.cons_append,
        List.nil_append, List.mem_cons, reduceCtorEq, ChoiceValue.int.injEq, List.not_mem_nil, or_false,
        Prod.mk.injEq, exists_or, exists_eq_left]
      omega
    rw [← e]
    unfold choiceConvert
    split_ifs with h
    · simp [h]
    · simp only [h, iff_false]
      split <;> simp
  · unfold loglevelOption choiceConvert
    rw [if_pos]
    · rfl
    · exact (key text).2 h
  · unfold loglevelOption choiceConvert
    rw [if_neg]
    · rfl
    · exact fun hm => h ((key text).1 hm)

/-- Neither list of texts is empty. -/
example : "20".toList ∉ ["CRITICAL".toList, "FATAL".toList, "ERROR".toList, "WARNING".toList, "WARN".toList,
    "INFO".toList, "DEBUG".toList, "NOTSET".toList] := by decide

/-- **C144** fails, also for each of its three parts alone. -/
theorem C144_fails : ¬ C144_statement ∧
    (∃ text level, (text, level) ∈ meantLevel ∧ ∀ v, loglevelOption (some text) ≠ .ok v) ∧
    (∃ text, (∀ level, (text, level) ∉ meantLevel) ∧ loglevelOption (some text) ≠ .error .other) ∧
    ∀ t, runHelp ≠ .ok t := by
  obtain ⟨-, -, -, h3, h4⟩ := C144_choices_partial
  have hh : ∀ t, runHelp ≠ .ok t := by rw [h4]; intro t ht; cases ht
  refine ⟨fun h => ?_, ⟨"10".toList, 10, by simp [meantLevel], ?_⟩, ⟨"verbose".toList, ?_, ?_⟩, hh⟩
  · obtain ⟨t, ht⟩ := h.2.2
    exact hh t ht
  · rw [h3 _ (by decide)]
    intro v hv
    cases hv
  · intro level hl
    simp [meantLevel] at hl
  · rw [h3 _ (by decide)]
    intro hv
    cases hv

/-! ## C145: the installed program -/

/-- C145, full statement: a simulation that the module run as a program can run can also be run by the
installed script. -/
def C145_statement : Prop :=
  ∀ (C T O : Type) (ownTraits : C → List (Text × T)) (toOption : Text → T → Except PyErr O)
    (classes : List (Text × C)) (name : Text) (c : C),
    programRun .asModule ownTraits toOption classes name = .ok c →
      programRun .script ownTraits toOption classes name = .ok c

/-- **C145** What happens: the installed script knows no simulation; every name is a usage error. -/
theorem C145_script_partial {C T O : Type} (ownTraits : C → List (Text × T))
    (toOption : Text → T → Except PyErr O) (classes : List (Text × C)) (name : Text) :
    programRun .script ownTraits toOption classes name = .error .other := rfl

/-- **C145** The module run as a program runs a simulation that is alone in the directory and has no
attributes of its own. -/
theorem C145_module_partial {C T O : Type} (ownTraits : C → List (Text × T))
    (toOption : Text → T → Except PyErr O) (name : Text) (c : C) (h : ownTraits c = []) :
    programRun .asModule ownTraits toOption [(name, c)] name = .ok c := by
  simp [programRun, simulationCommands, h, appendOptions, odSet, invokeCommand]

/-- The hypothesis can be met. -/
example : (fun _ : ℕ => ([] : List (Text × Unit))) 3 = [] := rfl

/-- **C145** fails: such a simulation cannot be run by the script. -/
theorem C145_fails : ¬ C145_statement := by
  intro h
  have := h ℕ Unit Unit (fun _ => []) (fun _ _ => .ok ()) [("Room".toList, 3)] "Room".toList 3
    (C145_module_partial _ _ _ _ rfl)
  rw [C145_script_partial] at this
  cases this

end CrowdDynamics
