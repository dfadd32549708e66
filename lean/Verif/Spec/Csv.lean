import Mathlib.Init

/-!
# Comma separated values

The grammar of RFC 4180: which rows of cells a text stands for.
-/

namespace CrowdDynamics.Spec

/-- `q` is the text `t` with every quote doubled. -/
inductive Doubled : List Char → List Char → Prop
  | nil : Doubled [] []
  | quote {q t} : Doubled q t → Doubled ('"' :: '"' :: q) ('"' :: t)
  | char {q t c} : c ≠ '"' → Doubled q t → Doubled (c :: q) (c :: t)

/-- The text `q` stands for a cell with content `t`: bare, without commas, quotes and ends of lines, or
between quotes. -/
inductive CsvCell : List Char → List Char → Prop
  | bare {t} : (∀ c ∈ t, c ≠ ',' ∧ c ≠ '"' ∧ c ≠ '\r' ∧ c ≠ '\n') → CsvCell t t
  | quoted {q t} : Doubled q t → CsvCell ('"' :: q ++ ['"']) t

/-- The text `q` stands for a record: one or more cells, separated by commas. -/
inductive CsvRecord : List Char → List (List Char) → Prop
  | one {q t} : CsvCell q t → CsvRecord q [t]
  | more {q t q' ts} : CsvCell q t → CsvRecord q' ts → CsvRecord (q ++ ',' :: q') (t :: ts)

/-- The text `q` stands for a list of records, each of which ends with CR LF. -/
inductive CsvFile : List Char → List (List (List Char)) → Prop
  | nil : CsvFile [] []
  | cons {q ts q' r} : CsvRecord q ts → CsvFile q' r → CsvFile (q ++ '\r' :: '\n' :: q') (ts :: r)

end CrowdDynamics.Spec
