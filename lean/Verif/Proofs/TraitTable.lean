import Verif.Proofs.Csv

/-!
# Lemmas about tables of traits
-/

namespace CrowdDynamics

open Spec

lemma splitLines_line (l rest : Text) (h : OneLine l) :
    splitLines (l ++ '\r' :: '\n' :: rest) = (l ++ ['\r', '\n']) :: splitLines rest := by
  induction l with
  | nil => rw [List.nil_append, splitLines]; rfl
  | cons c l ih =>
    have hc : c ∉ lineBreaks := h c (by simp)
    have hl : OneLine l := fun d hd => h d (by simp [hd])
    rw [List.cons_append, splitLines, if_neg hc, ih hl]
    · rfl
    · intro r hr
      subst hr
      exact absurd (by decide) hc

/-- Lines with a comma are indented. -/
lemma indent_lines (ls : List Text) (h : ∀ l ∈ ls, OneLine l ∧ ',' ∈ l) :
    indentText (ls.map (· ++ ['\r', '\n'])).flatten [' ', ' ', ' '] =
      (ls.map fun l => ' ' :: ' ' :: ' ' :: l ++ ['\r', '\n']).flatten := by
  unfold indentText
  congr 1
  induction ls with
  | nil => rfl
  | cons l ls ih =>
    have hl := h l (by simp)
    rw [List.map_cons, List.flatten_cons, List.append_assoc,
      show l ++ (['\r', '\n'] ++ (ls.map (· ++ ['\r', '\n'])).flatten) =
        l ++ '\r' :: '\n' :: (ls.map (· ++ ['\r', '\n'])).flatten from rfl, splitLines_line _ _ hl.1,
      List.map_cons, ih fun l hl => h l (by simp [hl]), List.map_cons]
    congr 1
    rw [if_neg]
    · rfl
    · simp only [List.all_eq_true, decide_eq_true_eq, not_forall]
      exact ⟨',', by simp [hl.2], by decide⟩

lemma indented_lines (ls : List Text) (h : ∀ l ∈ ls, OneLine l) :
    Indented (ls.map fun l => ' ' :: ' ' :: ' ' :: l ++ ['\r', '\n']).flatten
      (ls.map (· ++ ['\r', '\n'])).flatten := by
  induction ls with
  | nil => exact .nil
  | cons l ls ih =>
    have := Indented.line (l := l ++ ['\r']) (b := (ls.map fun l => ' ' :: ' ' :: ' ' :: l ++ ['\r', '\n']).flatten)
      (s := (ls.map (· ++ ['\r', '\n'])).flatten) ?_ (ih fun l hl => h l (by simp [hl]))
    · simpa using this
    · intro hn
      rw [List.mem_append] at hn
      rcases hn with hn | hn
      · exact h l (by simp) _ hn (by decide)
      · simp at hn

lemma oneLine_append {a b : Text} (ha : OneLine a) (hb : OneLine b) : OneLine (a ++ b) := by
  intro c hc
  rw [List.mem_append] at hc
  exact hc.elim (ha c) (hb c)

lemma oneLine_field (lone : Bool) {t : Text} (h : OneLine t) : OneLine (csvField lone t) := by
  unfold csvField
  split_ifs
  · intro c hc
    simp only [List.cons_append, List.mem_cons, List.mem_append, List.mem_flatMap, List.not_mem_nil,
      or_false] at hc
    rcases hc with rfl | ⟨d, hd, hc⟩ | rfl
    · decide
    · split_ifs at hc with h1
      · simp only [List.mem_cons, List.not_mem_nil, or_false, or_self] at hc
        subst hc
        decide
      · rw [List.mem_singleton] at hc
        subst hc
        exact h _ hd
    · decide
  · exact h

lemma oneLine_cells (lone : Bool) (ts : List Text) (h : ∀ t ∈ ts, OneLine t) :
    OneLine ([','].intercalate (ts.map (csvField lone))) := by
  intro c hc
  rw [List.intercalate, List.mem_flatten] at hc
  obtain ⟨l, hl, hc⟩ := hc
  have : l = [','] ∨ l ∈ ts.map (csvField lone) := by
    clear hc h
    induction ts with
    | nil => simp at hl
    | cons t ts ih =>
      cases ts with
      | nil => simp only [List.map_cons, List.map_nil, List.intersperse] at hl ⊢; exact .inr hl
      | cons u ts =>
        rw [List.map_cons, List.map_cons, List.intersperse_cons₂, List.mem_cons, List.mem_cons] at hl
        rcases hl with rfl | rfl | hl
        · simp
        · simp
        · rcases ih (by rw [List.map_cons]; exact hl) with h1 | h1
          · exact .inl h1
          · exact .inr (by rw [List.map_cons]; exact List.mem_cons_of_mem _ h1)
  rcases this with rfl | hl
  · rw [List.mem_singleton] at hc
    subst hc
    decide
  · obtain ⟨t, ht, rfl⟩ := List.mem_map.mp hl
    exact oneLine_field lone (h t ht) c hc

/-- What is written for rows of at least two cells on one line is a table of these rows. -/
lemma table_reads (rows : List (List Text)) (h : ∀ r ∈ rows, 2 ≤ r.length ∧ ∀ t ∈ r, OneLine t) :
    ReadsAs (['\n'].intercalate [[], ".. csv-table:: Traits".toList,
      indentText ":header-rows: 1".toList [' ', ' ', ' '], [],
      indentText (rows.map csvRow).flatten [' ', ' ', ' ']]) rows := by
  have hl : rows.map csvRow = (rows.map fun row =>
      [','].intercalate (row.map (csvField (row.length == 1)))).map (· ++ ['\r', '\n']) := by
    rw [List.map_map]
    rfl
  have hone : ∀ l ∈ (rows.map fun row => [','].intercalate (row.map (csvField (row.length == 1)))),
      OneLine l ∧ ',' ∈ l := by
    intro l hl
    obtain ⟨row, hrow, rfl⟩ := List.mem_map.mp hl
    obtain ⟨h1, h2⟩ := h row hrow
    refine ⟨oneLine_cells _ _ h2, ?_⟩
    match row, h1 with
    | t :: u :: rest, _ => simp [List.intercalate]
  refine ⟨indentText (rows.map csvRow).flatten [' ', ' ', ' '], (rows.map csvRow).flatten, ?_, ?_, rows_file rows fun r hr h0 => ?_⟩
  · rw [show indentText ":header-rows: 1".toList [' ', ' ', ' '] = "   :header-rows: 1".toList by decide]
    have : "\n.. csv-table:: Traits\n   :header-rows: 1\n\n".toList =
      '\n' :: ".. csv-table:: Traits".toList ++ '\n' :: "   :header-rows: 1".toList ++ ['\n', '\n'] := by
      decide
    rw [this]
    simp only [List.intercalate, List.intersperse, List.flatten_cons, List.flatten_nil, List.append_nil,
      List.nil_append, List.cons_append, List.append_assoc]
  · rw [hl, indent_lines _ hone]
    exact indented_lines _ fun l hl => (hone l hl).1
  · have := (h r hr).1
    rw [h0] at this
    simp at this

/-! ## Rows of traits -/

lemma literal_shows (s : Text) : ∃ cell, rstLiteral (.str s) = .ok cell ∧ ShowsLiteral s cell ∧
    (OneLine s → OneLine cell) := by
  refine ⟨_, rfl, ?_, ?_⟩
  · by_cases h : s = []
    · exact .inl ⟨h, by rw [if_pos h]⟩
    · exact .inr ⟨h, by rw [if_neg h]; rfl⟩
  · intro h
    split_ifs
    · intro c hc; simp at hc
    · exact oneLine_append (oneLine_append (by unfold OneLine; decide) h) (by unfold OneLine; decide)

lemma default_shows (d : DocDefault) (h : PlainDefault d) : ∃ cell, rstLiteral d = .ok cell ∧
    ShowsDefault d cell ∧ OneLine cell := by
  cases d with
  | str s =>
    obtain ⟨cell, h1, h2, h3⟩ := literal_shows s
    exact ⟨cell, h1, h2, h3 h⟩
  | object s =>
    exact ⟨_, rfl, rfl, oneLine_append (oneLine_append (by unfold OneLine; decide) h) (by unfold OneLine; decide)⟩
  | tuple es => cases h

lemma math_shows (s : Option Text) (h : ∀ t, s = some t → OneLine t) :
    ShowsSymbol s (rstMath s) ∧ OneLine (rstMath s) := by
  cases s with
  | none => exact ⟨.inl ⟨.inl rfl, rfl⟩, by intro c hc; simp [rstMath] at hc⟩
  | some t =>
    by_cases ht : t = []
    · subst ht
      exact ⟨.inl ⟨.inr rfl, rfl⟩, by intro c hc; simp [rstMath] at hc⟩
    · refine ⟨.inr ⟨t, rfl, ht, ?_⟩, ?_⟩
      · simp only [rstMath, if_neg ht]; rfl
      · simp only [rstMath, if_neg ht]
        exact oneLine_append (oneLine_append (by unfold OneLine; decide) (h t rfl)) (by unfold OneLine; decide)

lemma traitRows_shows (info : String × Trait → TraitInfo) (traits : List (String × Trait))
    (h : ∀ t ∈ traits, PlainTrait info t) :
    ∃ rows, traitRows info traits = .ok (rows.map csvRow).flatten ∧
      List.Forall₂ (ShowsTrait info) traits rows ∧ ∀ r ∈ rows, 2 ≤ r.length ∧ ∀ t ∈ r, OneLine t := by
  induction traits with
  | nil => exact ⟨[], rfl, .nil, by simp⟩
  | cons t traits ih =>
    obtain ⟨rows, e, hs, hr⟩ := ih fun t ht => h t (by simp [ht])
    obtain ⟨p1, p2, p3, p4⟩ := h t (by simp)
    obtain ⟨name, n1, n2, n3⟩ := literal_shows t.1.toList
    obtain ⟨d, d1, d2, d3⟩ := default_shows _ p3
    obtain ⟨m1, m2⟩ := math_shows _ p2
    refine ⟨[name, rstMath (info t).symbol, d, (info t).help] :: rows, ?_, .cons ⟨n2, m1, d2, rfl⟩ hs, ?_⟩
    · simp only [traitRows, traitRow, n1, d1, e]
      rfl
    · intro r hr'
      rw [List.mem_cons] at hr'
      rcases hr' with rfl | hr'
      · refine ⟨by simp, ?_⟩
        intro u hu
        simp only [List.mem_cons, List.not_mem_nil, or_false] at hu
        rcases hu with rfl | rfl | rfl | rfl
        · exact n3 p1
        · exact m2
        · exact d3
        · exact p4
      · exact hr r hr'

lemma showsTrait_unique {info : String × Trait → TraitInfo} {t : String × Trait} {r r' : List Text}
    (h : ShowsTrait info t r) (h' : ShowsTrait info t r') : r = r' := by
  have lit : ∀ {s a b}, ShowsLiteral s a → ShowsLiteral s b → a = b := by
    rintro s a b (⟨h, rfl⟩ | ⟨h, rfl⟩) (⟨h', rfl⟩ | ⟨h', rfl⟩)
    · rfl
    · exact absurd h h'
    · exact absurd h' h
    · rfl
  have sym : ∀ {s a b}, ShowsSymbol s a → ShowsSymbol s b → a = b := by
    rintro s a b (⟨h, rfl⟩ | ⟨t, rfl, h, rfl⟩) (⟨h', rfl⟩ | ⟨t', h0, h', rfl⟩)
    · rfl
    · subst h0; simp_all
    · simp_all
    · cases h0; rfl
  have dft : ∀ {d a b}, ShowsDefault d a → ShowsDefault d b → a = b := by
    rintro (s | s | s) a b h h'
    · exact lit h h'
    · exact Eq.trans h (Eq.symm h')
    · exact Eq.trans h (Eq.symm h')
  match r, r', h, h' with
  | [_, _, _, _], [_, _, _, _], ⟨a, b, c, d⟩, ⟨a', b', c', d'⟩ =>
    rw [lit a a', sym b b', dft c c', d, d']

lemma showsTraits_unique {info : String × Trait → TraitInfo} {ts : List (String × Trait)}
    {rows rows' : List (List Text)} (h : List.Forall₂ (ShowsTrait info) ts rows)
    (h' : List.Forall₂ (ShowsTrait info) ts rows') : rows = rows' := by
  induction h generalizing rows' with
  | nil => cases h'; rfl
  | cons a _ ih =>
    cases h' with
    | cons a' b' => rw [showsTrait_unique a a', ih b']

/-! ## Templates -/

lemma takeWhile_key (k rest : Text) (h : ')' ∉ k) :
    (k ++ ')' :: rest).takeWhile (· ≠ ')') = k ∧ (k ++ ')' :: rest).dropWhile (· ≠ ')') = ')' :: rest := by
  induction k with
  | nil => simp
  | cons c k ih =>
    have hc : c ≠ ')' := fun e => h (by simp [e])
    obtain ⟨a, b⟩ := ih fun hk => h (by simp [hk])
    rw [List.cons_append, List.takeWhile_cons_of_pos (by simpa using hc),
      List.dropWhile_cons_of_pos (by simpa using hc), a, b]
    exact ⟨rfl, rfl⟩

lemma format_text (mapping : Text → Option Text) (other : Text → Except PyErr Text) (t rest : Text)
    (h : '%' ∉ t) :
    percentFormat mapping other (t ++ rest) = (percentFormat mapping other rest).map (t ++ ·) := by
  induction t with
  | nil => rw [List.nil_append]; cases percentFormat mapping other rest <;> rfl
  | cons c t ih =>
    have hc : c ≠ '%' := fun e => h (by simp [e])
    rw [List.cons_append, percentFormat, ih fun ht => h (by simp [ht])]
    · cases percentFormat mapping other rest <;> rfl
    · exact fun e => hc e

lemma format_percent (mapping : Text → Option Text) (other : Text → Except PyErr Text) (rest : Text) :
    percentFormat mapping other ('%' :: '%' :: rest) = (percentFormat mapping other rest).map ('%' :: ·) := by
  rw [percentFormat]

lemma format_key (mapping : Text → Option Text) (other : Text → Except PyErr Text) (k rest : Text)
    (h1 : '(' ∉ k) (h2 : ')' ∉ k) :
    percentFormat mapping other (['%', '('] ++ k ++ [')', 's'] ++ rest) = match mapping k with
      | none => .error .key
      | some v => (percentFormat mapping other rest).map (v ++ ·) := by
  have e : ['%', '('] ++ k ++ [')', 's'] ++ rest = '%' :: '(' :: (k ++ ')' :: 's' :: rest) := by simp
  obtain ⟨a, b⟩ := takeWhile_key k ('s' :: rest) h2
  rw [e, percentFormat, if_neg (by rw [a]; exact h1)]
  split
  · rename_i rest'' hd
    rw [b] at hd
    simp only [List.cons.injEq, true_and] at hd
    subst hd
    rw [a]
    cases mapping k <;> rfl
  · rename_i hn
    exact absurd b (hn _)

lemma except_map_map {α β γ : Type} (x : Except PyErr α) (f : α → β) (g : β → γ) :
    (x.map f).map g = x.map (g ∘ f) := by cases x <;> rfl

lemma substitution_values {C : Type} (cls : C) (subs : List (Text × Substitution C)) (value : Text → Text)
    (h : ∀ e ∈ subs, e.2.value cls = .ok (value e.1)) :
    ∃ values, substitutionValues cls subs = .ok values ∧
      ∀ k, values.lookup k = if k ∈ subs.map Prod.fst then some (value k) else none := by
  induction subs with
  | nil => exact ⟨[], rfl, fun k => rfl⟩
  | cons e subs ih =>
    obtain ⟨values, h1, h2⟩ := ih fun e he => h e (by simp [he])
    refine ⟨(e.1, value e.1) :: values, ?_, fun k => ?_⟩
    · obtain ⟨name, v⟩ := e
      simp only [substitutionValues, h1, h (name, v) (by simp)]
      rfl
    · rw [List.lookup_cons, List.map_cons]
      by_cases hk : k = e.1
      · subst hk; simp
      · have : (k == e.1) = false := by simpa using hk
        have hm : k ∈ e.1 :: subs.map Prod.fst ↔ k ∈ subs.map Prod.fst := by
          rw [List.mem_cons]
          exact or_iff_right hk
        rw [this, if_congr hm rfl rfl]
        exact h2 k

lemma format_pieces (mapping : Text → Option Text) (other : Text → Except PyErr Text) (ps : List Piece)
    (hp : ∀ p ∈ ps, p.Proper) :
    (∀ ts, ps.mapM (Piece.becomes mapping) = some ts →
      percentFormat mapping other (ps.flatMap Piece.source) = .ok ts.flatten) ∧
    (ps.mapM (Piece.becomes mapping) = none →
      percentFormat mapping other (ps.flatMap Piece.source) = .error .key) := by
  induction ps with
  | nil =>
    refine ⟨fun ts h => ?_, fun h => ?_⟩
    · simp only [List.mapM_nil] at h
      cases h
      simp [percentFormat]
    · simp at h
  | cons p ps ih =>
    obtain ⟨i1, i2⟩ := ih fun p hp' => hp p (by simp [hp'])
    have hpp := hp p (by simp)
    have key : percentFormat mapping other ((p :: ps).flatMap Piece.source) = match p.becomes mapping with
        | none => .error .key
        | some v => (percentFormat mapping other (ps.flatMap Piece.source)).map (v ++ ·) := by
      rw [List.flatMap_cons]
      cases p with
      | text t => exact format_text _ _ _ _ hpp
      | percent => exact format_percent _ _ _
      | key k =>
        rw [show (Piece.key k).source = ['%', '('] ++ k ++ [')', 's'] from rfl,
          format_key _ _ _ _ hpp.1 hpp.2]
        rfl
    rw [key]
    cases hb : p.becomes mapping with
    | none =>
      refine ⟨fun ts h => ?_, fun _ => rfl⟩
      simp [List.mapM_cons, hb] at h
    | some v =>
      cases hm : ps.mapM (Piece.becomes mapping) with
      | none =>
        refine ⟨fun ts h => ?_, fun _ => ?_⟩
        · simp [List.mapM_cons, hb, hm] at h
        · simp only [i2 hm]; rfl
      | some us =>
        refine ⟨fun ts h => ?_, fun h => ?_⟩
        · simp only [List.mapM_cons, hb, hm] at h
          cases h
          simp only [i1 us hm]
          rfl
        · simp [List.mapM_cons, hb, hm] at h

end CrowdDynamics
