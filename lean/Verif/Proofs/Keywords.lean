import Verif.Spec.Keywords
import Mathlib.Data.List.Infix
import Mathlib.Data.List.TakeWhile
import Mathlib.Tactic.Common

/-!
# Lemmas about the keywords in a version file
-/

namespace CrowdDynamics

open Spec

/-! ## Lines -/

theorem readLines_line (body rest : Text) (h : '\n' ∉ body) :
    readLines (body ++ '\n' :: rest) = (body ++ ['\n']) :: readLines rest := by
  induction body with
  | nil => simp [readLines]
  | cons c body ih =>
    simp only [List.mem_cons, not_or] at h
    rw [List.cons_append, readLines, if_neg (fun e => h.1 e.symm), ih h.2]
    rfl

theorem readLines_lines (ls : List Text) (rest : Text) (h : ∀ l ∈ ls, '\n' ∉ l) :
    readLines ((ls.map (· ++ ['\n'])).flatten ++ rest) =
      ls.map (· ++ ['\n']) ++ readLines rest := by
  induction ls with
  | nil => simp
  | cons l ls ih =>
    simp only [List.map_cons, List.flatten_cons, List.append_assoc, List.cons_append,
      List.nil_append]
    rw [readLines_line _ _ (h l (by simp)), ih fun m hm => h m (by simp [hm])]

/-! ## The regular expression -/

theorem upToLastQuote_none {t : Text} : upToLastQuote t = none ↔
    ∀ v post, t = v ++ '"' :: post → '\n' ∈ v := by
  induction t with
  | nil => simp [upToLastQuote]
  | cons c t ih =>
    rw [upToLastQuote]
    by_cases hq : c = '"'
    · subst hq
      rw [if_pos rfl]
      constructor
      · intro h
        split at h <;> cases h
      · intro h
        have := h [] t rfl
        simp at this
    · rw [if_neg hq]
      by_cases hn : c = '\n'
      · subst hn
        rw [if_pos rfl]
        refine ⟨fun _ v post h => ?_, fun _ => rfl⟩
        cases v with
        | nil => simp at h
        | cons d v =>
          simp only [List.cons_append, List.cons.injEq] at h
          simp [← h.1]
      · rw [if_neg hn, Option.map_eq_none_iff, ih]
        constructor
        · intro h v post e
          cases v with
          | nil => simp at e; exact absurd e.1 hq
          | cons d v =>
            simp only [List.cons_append, List.cons.injEq] at e
            simp [h v post e.2]
        · intro h v post e
          have := h (c :: v) post (by rw [e]; rfl)
          rcases List.mem_cons.1 this with h | h
          · exact absurd h.symm hn
          · exact h

theorem upToLastQuote_some {t v : Text} (h : upToLastQuote t = some v) :
    (∃ post, t = v ++ '"' :: post) ∧ '\n' ∉ v ∧
      ∀ v' post', t = v' ++ '"' :: post' → '\n' ∉ v' → v'.length ≤ v.length := by
  induction t generalizing v with
  | nil => simp [upToLastQuote] at h
  | cons c t ih =>
    rw [upToLastQuote] at h
    have step : ∀ w, upToLastQuote t = some w → c ≠ '\n' → v = c :: w →
        (∃ post, c :: t = v ++ '"' :: post) ∧ '\n' ∉ v ∧
        ∀ v' post', c :: t = v' ++ '"' :: post' → '\n' ∉ v' → v'.length ≤ v.length := by
      rintro w hw hn rfl
      obtain ⟨⟨post, h1⟩, h2, h3⟩ := ih hw
      refine ⟨⟨post, by rw [h1]; rfl⟩, by simp [h2, Ne.symm hn], fun v' post' e hv => ?_⟩
      cases v' with
      | nil => simp
      | cons d v' =>
        simp only [List.cons_append, List.cons.injEq] at e
        simp only [List.mem_cons, not_or] at hv
        simpa using h3 v' post' e.2 hv.2
    by_cases hq : c = '"'
    · rw [if_pos hq] at h
      obtain hw | ⟨w, hw⟩ : upToLastQuote t = none ∨ ∃ w, upToLastQuote t = some w := by
        cases upToLastQuote t <;> simp
      · rw [hw] at h
        simp only [Option.some.injEq] at h
        subst h
        refine ⟨⟨t, by rw [hq]; rfl⟩, by simp, fun v' post' e hv => ?_⟩
        cases v' with
        | nil => simp
        | cons d v' =>
          simp only [List.cons_append, List.cons.injEq] at e
          simp only [List.mem_cons, not_or] at hv
          exact absurd (upToLastQuote_none.1 hw v' post' e.2) hv.2
      · rw [hw] at h
        simp only [Option.some.injEq] at h
        exact step w hw (by rw [hq]; decide) h.symm
    · rw [if_neg hq] at h
      by_cases hn : c = '\n'
      · rw [if_pos hn] at h
        cases h
      · rw [if_neg hn, Option.map_eq_some_iff] at h
        obtain ⟨w, hw, e⟩ := h
        exact step w hw hn e.symm

theorem dropWhile_space {space rest : Text} (h : ∀ c ∈ space, isSpace c = true) :
    (space ++ '"' :: rest).dropWhile isSpace = '"' :: rest := by
  rw [List.dropWhile_append_of_pos h]
  rw [List.dropWhile_cons_of_neg (by decide)]

theorem matchValue_matches {t v : Text} (h : MatchesAfter t [] v) :
    ∃ r post, matchValue t = upToLastQuote r ∧ r = v ++ '"' :: post ∧ '\n' ∉ v := by
  obtain ⟨space, post, rfl, hs, hv⟩ := h
  refine ⟨v ++ '"' :: post, post, ?_, rfl, hv⟩
  simp only [List.nil_append, List.cons_append, List.append_assoc, matchValue]
  rw [dropWhile_space hs]
  rfl

theorem matchValue_shape {t r : Text} (h : matchValue t = some r) :
    ∃ space rest, t = '=' :: space ++ '"' :: rest ∧ (∀ c ∈ space, isSpace c = true) ∧
      upToLastQuote rest = some r := by
  unfold matchValue at h
  split at h
  · rename_i rest
    split at h
    · rename_i rest' e
      refine ⟨rest.takeWhile isSpace, rest', ?_, fun c hc => List.mem_takeWhile_imp hc, h⟩
      rw [List.cons_append, ← e, List.takeWhile_append_dropWhile]
    · cases h
  · cases h

theorem matchValue_none {t : Text} : matchValue t = none ↔ ∀ v, ¬ MatchesAfter t [] v := by
  constructor
  · intro h v hv
    obtain ⟨r, post, h1, h2, h3⟩ := matchValue_matches hv
    rw [h1] at h
    exact h3 (upToLastQuote_none.1 h v post h2)
  · intro h
    by_contra hn
    obtain ⟨r, hr⟩ := Option.ne_none_iff_exists'.1 hn
    obtain ⟨space, rest, h1, h2, h3⟩ := matchValue_shape hr
    obtain ⟨⟨post, h4⟩, h5, -⟩ := upToLastQuote_some h3
    exact h r ⟨space, post, by rw [h1, h4]; simp, h2, h5⟩

theorem matchValue_some {t v : Text} (h : matchValue t = some v) :
    MatchesAfter t [] v ∧ ∀ v', MatchesAfter t [] v' → v'.length ≤ v.length := by
  obtain ⟨space, rest, h1, h2, h3⟩ := matchValue_shape h
  obtain ⟨⟨post, h4⟩, h5, -⟩ := upToLastQuote_some h3
  refine ⟨⟨space, post, by rw [h1, h4]; simp, h2, h5⟩, fun v' hv' => ?_⟩
  obtain ⟨r, post', e1, e2, e3⟩ := matchValue_matches hv'
  rw [e1] at h
  exact (upToLastQuote_some h).2.2 v' post' e2 e3

theorem matchesAfter_cons {c : Char} {t pre v : Text} :
    MatchesAfter (c :: t) (c :: pre) v ↔ MatchesAfter t pre v := by
  unfold MatchesAfter
  simp

theorem matchesAfter_head {c d : Char} {t pre v : Text} (h : MatchesAfter (c :: t) (d :: pre) v) :
    d = c := by
  obtain ⟨space, post, e, -⟩ := h
  simp only [List.cons_append, List.cons.injEq] at e
  exact e.1.symm

theorem searchValue_none {t : Text} :
    searchValue t = none ↔ ∀ pre v, ¬ MatchesAfter t pre v := by
  induction t with
  | nil =>
    simp only [searchValue, true_iff]
    rintro pre v ⟨space, post, e, -⟩
    simp at e
  | cons c t ih =>
    rw [searchValue]
    constructor
    · intro h pre v hv
      split at h
      · cases h
      · rename_i hm
        cases pre with
        | nil => exact matchValue_none.1 hm v hv
        | cons d pre =>
          obtain rfl := matchesAfter_head hv
          exact ih.1 h pre v (matchesAfter_cons.1 hv)
    · intro h
      rw [matchValue_none.2 fun v => h [] v]
      exact ih.2 fun pre v hv => h (c :: pre) v (matchesAfter_cons.2 hv)

theorem searchValue_found {t v : Text} (h : searchValue t = some v) : Found t v := by
  induction t with
  | nil => cases h
  | cons c t ih =>
    rw [searchValue] at h
    split at h
    · rename_i w hm
      cases h
      obtain ⟨h1, h2⟩ := matchValue_some hm
      exact ⟨[], h1, fun _ _ _ => Nat.zero_le _, h2⟩
    · rename_i hm
      obtain ⟨pre, h1, h2, h3⟩ := ih h
      refine ⟨c :: pre, matchesAfter_cons.2 h1, fun pre' v' hv => ?_,
        fun v' hv => h3 v' (matchesAfter_cons.1 hv)⟩
      cases pre' with
      | nil => exact absurd hv (matchValue_none.1 hm v')
      | cons d pre' =>
        obtain rfl := matchesAfter_head hv
        simpa using h2 pre' v' (matchesAfter_cons.1 hv)

theorem matchesAfter_prefix {t pre v : Text} (h : MatchesAfter t pre v) : pre <+: t := by
  obtain ⟨space, post, rfl, -⟩ := h
  exact ⟨'=' :: space ++ '"' :: v ++ '"' :: post, by simp⟩

theorem matchesAfter_value {t pre v w : Text} (hv : MatchesAfter t pre v) (hw : MatchesAfter t pre w)
    (hl : v.length = w.length) : v = w := by
  obtain ⟨s, p, e1, hs, -⟩ := hv
  obtain ⟨s', p', e2, hs', -⟩ := hw
  rw [e1] at e2
  simp only [List.append_assoc, List.cons_append, List.append_cancel_left_eq, List.cons.injEq,
    true_and] at e2
  have := congrArg (List.dropWhile isSpace) e2
  rw [dropWhile_space hs, dropWhile_space hs'] at this
  simp only [List.cons.injEq, true_and] at this
  exact (List.append_inj this hl).1

theorem found_unique {t v w : Text} (hv : Found t v) (hw : Found t w) : v = w := by
  obtain ⟨pre, h1, h2, h3⟩ := hv
  obtain ⟨pre', h1', h2', h3'⟩ := hw
  have hl : pre.length = pre'.length := le_antisymm (h2 _ _ h1') (h2' _ _ h1)
  have hp : pre = pre' :=
    (List.prefix_of_prefix_length_le (matchesAfter_prefix h1) (matchesAfter_prefix h1')
      hl.le).eq_of_length hl
  subst hp
  exact matchesAfter_value h1 h1' (le_antisymm (h3' _ h1) (h3 _ h1'))

theorem searchValue_eq {t v : Text} : searchValue t = some v ↔ Found t v := by
  refine ⟨searchValue_found, fun h => ?_⟩
  cases e : searchValue t with
  | none =>
    obtain ⟨pre, h1, -⟩ := h
    exact absurd h1 (searchValue_none.1 e pre v)
  | some w => rw [found_unique (searchValue_found e) h]

/-! ## White space -/

theorem rstrip_prefix {p s : Text} (c : Char) (hc : isSpace c = false) (h : p ++ [c] <+: s) :
    p ++ [c] <+: (s.reverse.dropWhile isSpace).reverse := by
  obtain ⟨r, rfl⟩ := h
  induction r using List.reverseRecOn with
  | nil => simp [hc]
  | append_singleton r d ih =>
    rw [← List.append_assoc, List.reverse_append, List.reverse_singleton, List.singleton_append]
    by_cases hd : isSpace d = true
    · rw [List.dropWhile_cons_of_pos hd]
      exact ih
    · rw [List.dropWhile_cons_of_neg hd]
      simp

theorem rstrip_prefix_self (s : Text) : (s.reverse.dropWhile isSpace).reverse <+: s := by
  have := List.dropWhile_suffix (l := s.reverse) isSpace
  rw [← List.reverse_prefix] at this
  simpa using this

theorem startswith_strip (p line : Text) (c : Char) (hc : isSpace c = false) :
    ((p ++ [c]).isPrefixOf (pyStrip line) = true) ↔ p ++ [c] <+: line.dropWhile isSpace := by
  rw [List.isPrefixOf_iff_prefix]
  unfold pyStrip
  exact ⟨fun h => h.trans (rstrip_prefix_self _), rstrip_prefix c hc⟩

theorem name_split (name : Text) : name ++ " =".toList = (name ++ [' ']) ++ ['='] := by
  simp

theorem keywordOfLine_other {name line : Text} {old : Option Text}
    (h : ¬ (name ++ " =".toList) <+: line.dropWhile isSpace) : keywordOfLine name line old = old := by
  unfold keywordOfLine
  rw [name_split] at h ⊢
  rw [if_neg ((startswith_strip _ line '=' (by decide)).not.2 h)]

theorem keywordOfLine_value {name line v : Text} {old : Option Text}
    (h : (name ++ " =".toList) <+: line.dropWhile isSpace) (hf : Found line v) :
    keywordOfLine name line old = some v := by
  unfold keywordOfLine
  rw [name_split] at h ⊢
  rw [if_pos ((startswith_strip _ line '=' (by decide)).2 h), searchValue_eq.2 hf]

/-- The line of a keyword has its value. -/
theorem keywordLine_found (name value : Text) (hn : '=' ∉ name) (hv : '\n' ∉ value) :
    Found (keywordLine name value) value := by
  refine ⟨"    ".toList ++ name ++ [' '], ⟨[' '], ['\n'], ?_, by decide, hv⟩, ?_, ?_⟩
  · simp [keywordLine]
  · rintro pre' v' ⟨s, p, e, -⟩
    by_contra hl
    push Not at hl
    have hpre : pre' ++ ['='] <+: "    ".toList ++ name ++ [' '] := by
      refine List.prefix_of_prefix_length_le (l₃ := keywordLine name value)
        ⟨s ++ '"' :: v' ++ '"' :: p, by rw [e]; simp⟩ ⟨"= \"".toList ++ value ++ "\"\n".toList, ?_⟩ ?_
      · simp [keywordLine]
      · simp only [List.length_append, List.length_singleton] at hl ⊢
        omega
    have : '=' ∈ "    ".toList ++ name ++ [' '] := hpre.subset (by simp)
    simp [hn] at this
  · rintro v' ⟨s, p, e, hs, hv'⟩
    simp only [keywordLine, List.append_assoc] at e
    by_contra hl
    push Not at hl
    have e2 : [' '] ++ '"' :: (value ++ ['"', '\n']) = s ++ '"' :: (v' ++ '"' :: p) := by
      simpa using e
    have := congrArg (List.dropWhile isSpace) e2
    rw [dropWhile_space (by decide), dropWhile_space hs] at this
    simp only [List.cons.injEq, true_and] at this
    have hlen := congrArg List.length this
    simp only [List.length_append, List.length_cons, List.length_nil] at hlen
    have hp : p = [] := by
      rw [← List.length_eq_zero_iff]
      omega
    subst hp
    have hlast := congrArg List.getLast? this
    simp at hlast

theorem fold_none (ls : List Text) (k : Keywords) (h : ∀ l ∈ ls, DefinesNone l) :
    ls.foldl (fun k line =>
      (⟨keywordOfLine "git_refnames".toList line k.refnames,
        keywordOfLine "git_full".toList line k.full,
        keywordOfLine "git_date".toList line k.date⟩ : Keywords)) k = k := by
  induction ls with
  | nil => rfl
  | cons l ls ih =>
    rw [List.foldl_cons]
    have hl := h l (by simp)
    rw [keywordOfLine_other (hl _ (by simp)), keywordOfLine_other (hl _ (by simp)),
      keywordOfLine_other (hl _ (by simp))]
    exact ih fun m hm => h m (by simp [hm])

theorem readLines_keywordLine (name value rest : Text) (hn : '\n' ∉ name) (hv : '\n' ∉ value) :
    readLines (keywordLine name value ++ rest) = keywordLine name value :: readLines rest := by
  have h := readLines_line ("    ".toList ++ name ++ " = \"".toList ++ value ++ ['"']) rest
    (by simp [hn, hv])
  simpa [keywordLine, List.append_assoc] using h

/-- The lines of `get_keywords` before the keywords. -/
def sourceHead : List Text :=
  ["def get_keywords():".toList,
    "    \"\"\"Get the keywords needed to look up the version information.\"\"\"".toList,
    "    # these strings will be replaced by git during git-archive.".toList,
    "    # setup.py/versioneer.py will grep for the variable names, so they must".toList,
    "    # each be defined on a line of their own. _version.py will just call".toList,
    "    # get_keywords().".toList]

/-- The lines of `get_keywords` after the keywords. -/
def sourceTail : List Text :=
  ["    keywords = {\"refnames\": git_refnames, \"full\": git_full, \"date\": git_date}".toList,
    "    return keywords".toList]

theorem sourceHead_none : ∀ l ∈ sourceHead, '\n' ∉ l ∧ DefinesNone (l ++ ['\n']) := by
  unfold DefinesNone
  decide +kernel

theorem sourceTail_none : ∀ l ∈ sourceTail, '\n' ∉ l ∧ DefinesNone (l ++ ['\n']) := by
  unfold DefinesNone
  decide +kernel

end CrowdDynamics
