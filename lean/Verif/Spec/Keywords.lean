import Verif.Model.Keywords

/-!
# Specification of the keywords in a version file
-/

namespace CrowdDynamics.Spec

/-- The text after `pre` matches the pattern with the value `v`: an equals sign, white space, and `v`
between quotes, on one line. -/
def MatchesAfter (line pre v : Text) : Prop :=
  ∃ space post, line = pre ++ '=' :: space ++ '"' :: v ++ '"' :: post ∧
    (∀ c ∈ space, isSpace c = true) ∧ '\n' ∉ v

/-- The pattern is found in the line with the value `v`: at the first place where it matches at all,
and with the longest value there. -/
def Found (line v : Text) : Prop :=
  ∃ pre, MatchesAfter line pre v ∧
    (∀ pre' v', MatchesAfter line pre' v' → pre.length ≤ pre'.length) ∧
    ∀ v', MatchesAfter line pre v' → v'.length ≤ v.length

/-- The line for a keyword, as `get_keywords` has it. -/
def keywordLine (name value : Text) : Text :=
  "    ".toList ++ name ++ " = \"".toList ++ value ++ "\"\n".toList

/-- A line that does not define a keyword. -/
def DefinesNone (line : Text) : Prop :=
  ∀ name ∈ ["git_refnames".toList, "git_full".toList, "git_date".toList],
    ¬ (name ++ " =".toList) <+: line.dropWhile isSpace

end CrowdDynamics.Spec
