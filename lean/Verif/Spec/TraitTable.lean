import Verif.Spec.Csv
import Verif.Model.TraitTable

/-!
# Tables of traits

A `csv-table` of ReStructuredText, and templates with keys.
-/

namespace CrowdDynamics.Spec

open CrowdDynamics

/-- Every line of `b` begins with three spaces, and `s` is what remains without them. -/
inductive Indented : Text → Text → Prop
  | nil : Indented [] []
  | line {l b s} : '\n' ∉ l → Indented b s → Indented (' ' :: ' ' :: ' ' :: l ++ '\n' :: b) (l ++ '\n' :: s)

/-- The text is the directive `csv-table` with title `Traits` and one row of headings; its indented
content stands for the given rows. -/
def ReadsAs (text : Text) (rows : List (List Text)) : Prop :=
  ∃ body content, text = "\n.. csv-table:: Traits\n   :header-rows: 1\n\n".toList ++ body ∧
    Indented body content ∧ CsvFile content rows

/-- `cell` shows the text `t` literally; an empty text is shown as an empty cell. -/
def ShowsLiteral (t cell : Text) : Prop :=
  (t = [] ∧ cell = []) ∨ (t ≠ [] ∧ cell = ['`', '`'] ++ t ++ ['`', '`'])

/-- `cell` shows the symbol as a formula, or nothing without a symbol. -/
def ShowsSymbol (s : Option Text) (cell : Text) : Prop :=
  ((s = none ∨ s = some []) ∧ cell = []) ∨
    ∃ t, s = some t ∧ t ≠ [] ∧ cell = [':', 'm', 'a', 't', 'h', ':', '`'] ++ t ++ ['`']

/-- `cell` shows the default value. -/
def ShowsDefault : DocDefault → Text → Prop
  | .str s, cell => ShowsLiteral s cell
  | .object s, cell => cell = ['`', '`'] ++ s ++ ['`', '`']
  | .tuple es, cell => cell = ['`', '`', '('] ++ [',', ' '].intercalate es ++ [')', '`', '`']

/-- The row shows the trait. -/
def ShowsTrait (info : String × Trait → TraitInfo) (t : String × Trait) : List Text → Prop
  | [name, symbol, default, help] => ShowsLiteral t.1.toList name ∧ ShowsSymbol (info t).symbol symbol ∧
      ShowsDefault (info t).default default ∧ help = (info t).help
  | _ => False

/-- The rows of a table: the headings, then a row for every trait, in order. -/
def ShowsTraits (info : String × Trait → TraitInfo) (traits : List (String × Trait))
    (rows : List (List Text)) : Prop :=
  ∃ rest, rows = ["name".toList, "symbol".toList, "default value".toList, "help".toList] :: rest ∧
    List.Forall₂ (ShowsTrait info) traits rest

/-- The text stays on its line. -/
def OneLine (t : Text) : Prop := ∀ c ∈ t, c ∉ lineBreaks

/-- A default value that is not a tuple and is shown on one line. -/
def PlainDefault : DocDefault → Prop
  | .str s => OneLine s
  | .object s => OneLine s
  | .tuple _ => False

/-- Everything that is shown of the trait stays on one line, and the default is not a tuple. -/
def PlainTrait (info : String × Trait → TraitInfo) (t : String × Trait) : Prop :=
  OneLine t.1.toList ∧ (∀ s, (info t).symbol = some s → OneLine s) ∧ PlainDefault (info t).default ∧
    OneLine (info t).help

/-- A piece of a template. -/
inductive Piece where
  /-- text without percent signs -/
  | text (t : Text)
  /-- a percent sign, written twice -/
  | percent
  /-- the value of a key -/
  | key (k : Text)

/-- How a piece is written in the template. -/
def Piece.source : Piece → Text
  | .text t => t
  | .percent => ['%', '%']
  | .key k => ['%', '('] ++ k ++ [')', 's']

/-- A piece as it should be: no percent signs in texts, no parentheses in keys. -/
def Piece.Proper : Piece → Prop
  | .text t => '%' ∉ t
  | .percent => True
  | .key k => '(' ∉ k ∧ ')' ∉ k

/-- What a piece becomes; `none` if its key has no value. -/
def Piece.becomes (value : Text → Option Text) : Piece → Option Text
  | .text t => some t
  | .percent => some ['%']
  | .key k => value k

/-- The traits of a class hierarchy, in order. -/
def inheritedTraits (mro : List TraitClass) : List (String × Trait) :=
  (mro.filter TraitClass.hasTraits).flatMap fun c => c.attrs.filter fun e => e.2.isTrait

end CrowdDynamics.Spec
