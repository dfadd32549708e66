import Verif.Spec.TraitTable
import Mathlib.Tactic.Linarith

/-!
# Lemmas about comma separated values
-/

namespace CrowdDynamics

open Spec

lemma doubled_unique {q t : Text} (h : Doubled q t) {q' t' : Text} (h' : Doubled q' t') {x x' : Char}
    {r r' : Text} (hx : x ≠ '"') (hx' : x' ≠ '"')
    (e : q ++ '"' :: x :: r = q' ++ '"' :: x' :: r') :
    q = q' ∧ t = t' ∧ x :: r = x' :: r' := by
  induction h generalizing q' t' with
  | nil =>
    cases h' with
    | nil => simpa using e
    | quote h' =>
      simp only [List.nil_append, List.cons_append, List.cons.injEq] at e
      exact absurd e.2.1 hx
    | char hc h' =>
      simp only [List.nil_append, List.cons_append, List.cons.injEq] at e
      exact absurd e.1.symm hc
  | quote h ih =>
    cases h' with
    | nil =>
      simp only [List.nil_append, List.cons_append, List.cons.injEq] at e
      exact absurd e.2.1.symm hx'
    | quote h' =>
      simp only [List.cons_append, List.cons.injEq, true_and] at e
      obtain ⟨a, b, c⟩ := ih h' e
      exact ⟨by rw [a], by rw [b], c⟩
    | char hc h' =>
      simp only [List.cons_append, List.cons.injEq] at e
      exact absurd e.1.symm hc
  | char hc h ih =>
    cases h' with
    | nil =>
      simp only [List.nil_append, List.cons_append, List.cons.injEq] at e
      exact absurd e.1 hc
    | quote h' =>
      simp only [List.cons_append, List.cons.injEq] at e
      exact absurd e.1 hc
    | char hc' h' =>
      simp only [List.cons_append, List.cons.injEq] at e
      obtain ⟨a, b, c⟩ := ih h' e.2
      exact ⟨by rw [a, e.1], by rw [b, e.1], c⟩

/-- The first character that ends a bare cell. -/
lemma bare_unique {q q' : Text} {P : Char → Prop} (h : ∀ c ∈ q, P c) (h' : ∀ c ∈ q', P c) {x x' : Char}
    {r r' : Text} (hx : ¬ P x) (hx' : ¬ P x') (e : q ++ x :: r = q' ++ x' :: r') :
    q = q' ∧ x :: r = x' :: r' := by
  induction q generalizing q' with
  | nil =>
    cases q' with
    | nil => exact ⟨rfl, e⟩
    | cons c q' =>
      simp only [List.nil_append, List.cons_append, List.cons.injEq] at e
      exact absurd (e.1 ▸ h' c (by simp)) hx
  | cons c q ih =>
    cases q' with
    | nil =>
      simp only [List.nil_append, List.cons_append, List.cons.injEq] at e
      exact absurd (e.1 ▸ h c (by simp)) hx'
    | cons c' q' =>
      simp only [List.cons_append, List.cons.injEq] at e
      obtain ⟨a, b⟩ := ih (fun c hc => h c (by simp [hc])) (fun c hc => h' c (by simp [hc])) e.2
      exact ⟨by rw [a, e.1], b⟩

/-- A character after a cell. -/
def CellEnd (c : Char) : Prop := c = ',' ∨ c = '\r'

lemma cell_unique {q t q' t' : Text} (h : CsvCell q t) (h' : CsvCell q' t') {x x' : Char} {r r' : Text}
    (hx : CellEnd x) (hx' : CellEnd x') (e : q ++ x :: r = q' ++ x' :: r') :
    q = q' ∧ t = t' ∧ x :: r = x' :: r' := by
  have hq : ∀ {y}, CellEnd y → y ≠ '"' := by rintro y (rfl | rfl) <;> decide
  cases h with
  | bare h =>
    cases h' with
    | bare h' =>
      have key : ∀ {y}, CellEnd y → ¬ (y ≠ ',' ∧ y ≠ '"' ∧ y ≠ '\r' ∧ y ≠ '\n') := by
        rintro y (rfl | rfl) <;> decide
      obtain ⟨a, b⟩ := bare_unique h h' (key hx) (key hx') e
      exact ⟨a, a, b⟩
    | quoted d' =>
      exfalso
      cases q with
      | nil =>
        simp only [List.nil_append, List.cons_append, List.cons.injEq] at e
        exact hq hx e.1
      | cons c t =>
        simp only [List.cons_append, List.cons.injEq] at e
        exact (h c (by simp)).2.1 e.1
  | quoted d =>
    cases h' with
    | bare h' =>
      exfalso
      cases q' with
      | nil =>
        simp only [List.nil_append, List.cons_append, List.cons.injEq] at e
        exact hq hx' e.1.symm
      | cons c t =>
        simp only [List.cons_append, List.cons.injEq] at e
        exact (h' c (by simp)).2.1 e.1.symm
    | quoted d' =>
      simp only [List.cons_append, List.append_assoc, List.cons.injEq, true_and, List.nil_append] at e
      obtain ⟨a, b, c⟩ := doubled_unique d d' (hq hx) (hq hx') e
      exact ⟨by rw [a], b, c⟩

lemma record_unique {q : Text} {ts : List Text} (h : CsvRecord q ts) {q' : Text} {ts' : List Text}
    (h' : CsvRecord q' ts') {r r' : Text} (e : q ++ '\r' :: r = q' ++ '\r' :: r') :
    ts = ts' ∧ r = r' := by
  induction h generalizing q' ts' with
  | one hc =>
    cases h' with
    | one hc' =>
      obtain ⟨a, b, c⟩ := cell_unique hc hc' (.inr rfl) (.inr rfl) e
      exact ⟨by rw [b], by simpa using c⟩
    | more hc' hr' =>
      rw [List.append_assoc, List.cons_append] at e
      obtain ⟨-, -, c⟩ := cell_unique hc hc' (.inr rfl) (.inl rfl) e
      simp at c
  | more hc hr ih =>
    cases h' with
    | one hc' =>
      rw [List.append_assoc, List.cons_append] at e
      obtain ⟨-, -, c⟩ := cell_unique hc hc' (.inl rfl) (.inr rfl) e
      simp at c
    | more hc' hr' =>
      rw [List.append_assoc, List.cons_append, List.append_assoc, List.cons_append] at e
      obtain ⟨-, b, c⟩ := cell_unique hc hc' (.inl rfl) (.inl rfl) e
      obtain ⟨d, f⟩ := ih hr' (by simpa using c)
      exact ⟨by rw [b, d], f⟩

/-- A text stands for at most one list of records. -/
lemma file_unique {q : Text} {r : List (List Text)} (h : CsvFile q r) {r' : List (List Text)}
    (h' : CsvFile q r') : r = r' := by
  induction h generalizing r' with
  | nil =>
    generalize hz : ([] : Text) = z at h'
    cases h' with
    | nil => rfl
    | cons _ _ => simp at hz
  | cons hr hf ih =>
    generalize hz : _ ++ '\r' :: '\n' :: _ = z at h'
    cases h' with
    | nil => simp at hz
    | cons hr' hf' =>
      obtain ⟨a, b⟩ := record_unique hr hr' hz
      simp only [List.cons.injEq, true_and] at b
      subst b
      rw [a, ih hf']

lemma indented_unique {b s : Text} (h : Indented b s) {s' : Text} (h' : Indented b s') : s = s' := by
  induction h generalizing s' with
  | nil =>
    generalize hz : ([] : Text) = z at h'
    cases h' with
    | nil => rfl
    | line _ _ => simp at hz
  | line hl hi ih =>
    generalize hz : ' ' :: ' ' :: ' ' :: _ ++ '\n' :: _ = z at h'
    cases h' with
    | nil => simp at hz
    | line hl' hi' =>
      simp only [List.cons_append, List.cons.injEq, true_and] at hz
      obtain ⟨a, b⟩ := bare_unique (P := (· ≠ '\n')) (fun c hc h => hl (h ▸ hc))
        (fun c hc h => hl' (h ▸ hc)) (by simp) (by simp) hz
      simp only [List.cons.injEq, true_and] at b
      subst b
      rw [a, ih hi']

/-- A text is a table of at most one list of rows. -/
lemma readsAs_unique {text : Text} {rows rows' : List (List Text)} (h : ReadsAs text rows)
    (h' : ReadsAs text rows') : rows = rows' := by
  obtain ⟨b, c, e, hi, hf⟩ := h
  obtain ⟨b', c', e', hi', hf'⟩ := h'
  have : b = b' := List.append_cancel_left (e.symm.trans e')
  subst this
  rw [indented_unique hi hi'] at hf
  exact file_unique hf hf'

/-! ## What `csv.writer` writes -/

lemma doubled_flatMap (t : Text) :
    Doubled (t.flatMap fun c => if c = '"' then ['"', '"'] else [c]) t := by
  induction t with
  | nil => exact .nil
  | cons c t ih =>
    rw [List.flatMap_cons]
    by_cases hc : c = '"'
    · subst hc
      exact .quote ih
    · rw [if_neg hc]
      exact .char hc ih

lemma csvField_cell (lone : Bool) (t : Text) : CsvCell (csvField lone t) t := by
  unfold csvField
  split_ifs with h
  · exact .quoted (doubled_flatMap t)
  · refine .bare fun c hc => ?_
    simp only [Bool.or_eq_true, not_or] at h
    have h1 := h.1
    simp only [List.any_eq_true, decide_eq_true_eq, not_exists, not_and] at h1
    have := h1 c hc
    simp only [List.mem_cons, List.not_mem_nil, or_false, not_or] at this
    exact this

lemma cells_record (lone : Bool) (t : Text) (ts : List Text) :
    CsvRecord ([','].intercalate ((t :: ts).map (csvField lone))) (t :: ts) := by
  induction ts generalizing t with
  | nil =>
    rw [List.map_singleton, show [','].intercalate [csvField lone t] = csvField lone t by simp [List.intercalate]]
    exact .one (csvField_cell _ _)
  | cons u ts ih =>
    have : [','].intercalate ((t :: u :: ts).map (csvField lone)) =
        csvField lone t ++ ',' :: [','].intercalate ((u :: ts).map (csvField lone)) := by
      simp [List.intercalate]
    rw [this]
    exact .more (csvField_cell _ _) (ih u)

/-- Rows that are not empty can be read back. -/
lemma rows_file (rows : List (List Text)) (h : ∀ r ∈ rows, r ≠ []) :
    CsvFile (rows.map csvRow).flatten rows := by
  induction rows with
  | nil => exact .nil
  | cons r rows ih =>
    obtain ⟨t, ts, rfl⟩ : ∃ t ts, r = t :: ts := List.exists_cons_of_ne_nil (h r (by simp))
    rw [List.map_cons, List.flatten_cons, csvRow, List.append_assoc]
    exact .cons (cells_record _ _ _) (ih fun r hr => h r (by simp [hr]))

end CrowdDynamics
