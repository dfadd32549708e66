import Verif.Proofs.Keywords

/-!
# Property C154: keywords of an archive are read back from the version file
-/

namespace CrowdDynamics

open Spec

/-- **C154** The search in a line finds the leftmost place where an equals sign, white space and a
quoted value stand, and takes the longest value there; it finds nothing only if there is no such
place. -/
theorem C154_search (line : Text) :
    (∀ v, searchValue line = some v ↔ Found line v) ∧
      (searchValue line = none ↔ ∀ pre v, ¬ MatchesAfter line pre v) :=
  ⟨fun _ => searchValue_eq, searchValue_none⟩

/-- **C154** A version file that has a line for each keyword, and no other line that begins with the
name of a keyword, is read as the values that stand there, whatever they are (without line feed), also
if they contain quotes and equals signs. -/
theorem C154_read (before after : List Text) (refnames full date : Text)
    (hb : ∀ l ∈ before, '\n' ∉ l ∧ DefinesNone (l ++ ['\n']))
    (ha : ∀ l ∈ after, '\n' ∉ l ∧ DefinesNone (l ++ ['\n']))
    (h1 : '\n' ∉ refnames) (h2 : '\n' ∉ full) (h3 : '\n' ∉ date) :
    gitGetKeywords (some ((before.map (· ++ ['\n'])).flatten ++
      (keywordLine "git_refnames".toList refnames ++ keywordLine "git_full".toList full ++
        keywordLine "git_date".toList date) ++ (after.map (· ++ ['\n'])).flatten)) =
      ⟨some refnames, some full, some date⟩ := by
  unfold gitGetKeywords
  simp only [List.append_assoc]
  rw [readLines_lines _ _ fun l hl => (hb l hl).1,
    readLines_keywordLine _ _ _ (by decide) h1, readLines_keywordLine _ _ _ (by decide) h2,
    readLines_keywordLine _ _ _ (by decide) h3]
  have := readLines_lines after [] fun l hl => (ha l hl).1
  rw [List.append_nil] at this
  rw [this]
  simp only [readLines, List.append_nil]
  rw [List.foldl_append, fold_none (before.map (· ++ ['\n'])) _ (fun l hl => ?_)]
  · simp only [List.foldl_cons]
    rw [fold_none (after.map (· ++ ['\n'])) _ (fun l hl => ?_)]
    · rw [keywordOfLine_value (name := "git_refnames".toList) (by simp [keywordLine, isSpace])
          (keywordLine_found _ _ (by decide) h1),
        keywordOfLine_value (name := "git_full".toList) (by simp [keywordLine, isSpace])
          (keywordLine_found _ _ (by decide) h2),
        keywordOfLine_value (name := "git_date".toList) (by simp [keywordLine, isSpace])
          (keywordLine_found _ _ (by decide) h3),
        keywordOfLine_other (by simp [keywordLine, isSpace]),
        keywordOfLine_other (by simp [keywordLine, isSpace]),
        keywordOfLine_other (by simp [keywordLine, isSpace])]
    · obtain ⟨m, hm, rfl⟩ := List.mem_map.1 hl
      exact (ha m hm).2
  · obtain ⟨m, hm, rfl⟩ := List.mem_map.1 hl
    exact (hb m hm).2

/-- Other lines of the file, and names with a quote. -/
example : (∀ l ∈ ["import re".toList, "    return keywords".toList,
      "            if line.strip().startswith(\"git_full =\"):".toList],
    '\n' ∉ l ∧ DefinesNone (l ++ ['\n'])) ∧ '\n' ∉ " (tag: a\"b, origin/x=y)".toList := by
  refine ⟨?_, by decide⟩
  unfold DefinesNone
  decide

/-- **C154** Read from the file of the repository, the keywords are those that `get_keywords`
returns there. -/
theorem C154_shipped (before after : List Text)
    (hb : ∀ l ∈ before, '\n' ∉ l ∧ DefinesNone (l ++ ['\n']))
    (ha : ∀ l ∈ after, '\n' ∉ l ∧ DefinesNone (l ++ ['\n'])) :
    gitGetKeywords (some ((before.map (· ++ ['\n'])).flatten ++ getKeywordsSource ++
      (after.map (· ++ ['\n'])).flatten)) = getKeywords := by
  have hs : getKeywordsSource = (sourceHead.map (· ++ ['\n'])).flatten ++
      (keywordLine "git_refnames".toList "$Format:%d$".toList ++
        keywordLine "git_full".toList "$Format:%H$".toList ++
        keywordLine "git_date".toList "$Format:%ci$".toList) ++
      (sourceTail.map (· ++ ['\n'])).flatten := by
    decide +kernel
  have h := C154_read (before ++ sourceHead) (sourceTail ++ after)
    "$Format:%d$".toList "$Format:%H$".toList "$Format:%ci$".toList ?_ ?_ (by decide) (by decide)
    (by decide)
  · rw [getKeywords, ← h, hs]
    simp only [List.map_append, List.flatten_append, List.append_assoc]
  · intro l hl
    rcases List.mem_append.1 hl with hl | hl
    · exact hb l hl
    · exact sourceHead_none l hl
  · intro l hl
    rcases List.mem_append.1 hl with hl | hl
    · exact sourceTail_none l hl
    · exact ha l hl

example : ∀ l ∈ ["import sys".toList, "".toList], '\n' ∉ l ∧ DefinesNone (l ++ ['\n']) := by
  unfold DefinesNone
  decide

/-- **C154** A file that cannot be opened gives no keywords, and no version. -/
theorem C154_missing (tagPrefix : Text) :
    gitGetKeywords none = ⟨none, none, none⟩ ∧
      gitVersionsFromKeywords (gitGetKeywords none) tagPrefix = .error .notThisMethod :=
  ⟨rfl, rfl⟩

end CrowdDynamics
