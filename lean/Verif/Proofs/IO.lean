import Mathlib.Tactic.FinCases
import Mathlib.Tactic.Ring
import Mathlib.Tactic.IntervalCases
import Mathlib.Tactic.Linarith
import Mathlib.Data.Fintype.Basic
import Verif.Spec.IO

/-!
# Lemmas about storing and loading data
-/

namespace CrowdDynamics

open Spec

/-! ## Decimal numbers -/

lemma digitChar_eq (d : ℕ) (h : d < 10) : digitChar d = Nat.digitChar d := by
  interval_cases d <;> rfl

lemma decimal_eq (i : ℕ) : decimal i = (toString i).toList := by
  have h : (toString i).toList = Nat.toDigits 10 i := by
    show i.repr.toList = _
    exact Nat.toList_repr
  rw [h]
  clear h
  induction i using Nat.strong_induction_on with
  | _ i ih =>
    rw [decimal]
    split_ifs with h
    · rw [Nat.toDigits_of_lt_base h, digitChar_eq i h]
    · rw [ih (i / 10) (by omega), digitChar_eq _ (Nat.mod_lt _ (by norm_num)),
        ← Nat.toDigits_of_base_le (by norm_num) (by omega)]

lemma digitValue_digitChar (d : ℕ) (h : d < 10) : digitValue (digitChar d) = some d := by
  interval_cases d <;> rfl

lemma digitChar_ne_underscore (d : ℕ) (h : d < 10) : digitChar d ≠ '_' := by
  interval_cases d <;> decide

/-- A digit. -/
def IsDigit (c : Char) : Prop := ∃ d < 10, c = digitChar d

lemma decimal_digits (i : ℕ) : ∀ c ∈ decimal i, IsDigit c := by
  induction i using Nat.strong_induction_on with
  | _ i ih =>
    rw [decimal]
    split_ifs with h
    · intro c hc
      exact ⟨i, h, List.mem_singleton.1 hc⟩
    · intro c hc
      rcases List.mem_append.1 hc with hc | hc
      · exact ih _ (by omega) c hc
      · exact ⟨i % 10, Nat.mod_lt _ (by norm_num), List.mem_singleton.1 hc⟩

lemma decimal_ne_nil (i : ℕ) : decimal i ≠ [] := by
  rw [decimal]
  split_ifs <;> simp

lemma intBody_decimal (i acc : ℕ) (after : Bool) (rest : Text) :
    intBody acc after (decimal i ++ rest) =
      intBody (acc * 10 ^ (decimal i).length + i) true rest := by
  induction i using Nat.strong_induction_on generalizing acc after rest with
  | _ i ih =>
    rw [decimal]
    split_ifs with h
    · simp only [List.cons_append, List.nil_append, intBody, digitChar_ne_underscore i h, if_false,
        digitValue_digitChar i h, List.length_singleton, pow_one]
    · have hm : i % 10 < 10 := Nat.mod_lt _ (by norm_num)
      rw [List.append_assoc, ih (i / 10) (by omega)]
      simp only [List.cons_append, List.nil_append, intBody, digitChar_ne_underscore _ hm, if_false,
        digitValue_digitChar _ hm, List.length_append, List.length_singleton, pow_succ]
      congr 1
      have := Nat.div_add_mod i 10
      have h2 : acc * (10 ^ (decimal (i / 10)).length * 10) =
        acc * 10 ^ (decimal (i / 10)).length * 10 := by ring
      rw [h2]
      omega

lemma intBody_decimal_zero (i : ℕ) : intBody 0 false (decimal i) = some i := by
  have := intBody_decimal i 0 false []
  rw [List.append_nil] at this
  rw [this]
  simp [intBody]

lemma decimal_injective {i j : ℕ} (h : decimal i = decimal j) : i = j := by
  have h1 := intBody_decimal_zero i
  rw [h, intBody_decimal_zero j] at h1
  exact (Option.some.inj h1).symm

lemma digit_not_space {c : Char} (h : IsDigit c) : isSpace c = false := by
  obtain ⟨d, hd, rfl⟩ := h
  interval_cases d <;> rfl

lemma digit_ne {c : Char} (h : IsDigit c) (x : Char) (hx : digitValue x = none) : c ≠ x := by
  obtain ⟨d, hd, rfl⟩ := h
  rintro rfl
  rw [digitValue_digitChar d hd] at hx
  simp at hx

lemma dropWhile_nil {β : Type} (p : β → Bool) (l : List β) :
    l.dropWhile p = [] ↔ ∀ x ∈ l, p x = true := by
  induction l with
  | nil => simp
  | cons a l ih =>
    by_cases h : p a = true
    · simp [h, ih]
    · simp [h]

lemma dropWhile_head {β : Type} (p : β → Bool) (l : List β) (h : ∀ x ∈ l.head?, p x = false) :
    l.dropWhile p = l := by
  cases l with
  | nil => rfl
  | cons a l =>
    have := h a (by simp)
    simp [this]

lemma pyInt_decimal (i : ℕ) : pyInt (decimal i) = .ok (i : ℤ) := by
  have e : (((decimal i).dropWhile isSpace).reverse.dropWhile isSpace).reverse = decimal i := by
    rw [dropWhile_head isSpace (decimal i) fun x hx =>
        digit_not_space (decimal_digits i x (List.mem_of_mem_head? hx)),
      dropWhile_head isSpace _ fun x hx => digit_not_space (decimal_digits i x
        (List.mem_reverse.1 (List.mem_of_mem_head? hx))), List.reverse_reverse]
  unfold pyInt
  simp only [e]
  split
  · rename_i rest h
    exact absurd rfl (digit_ne (decimal_digits i '-' (by rw [h]; simp)) '-' rfl)
  · rename_i rest h
    exact absurd rfl (digit_ne (decimal_digits i '+' (by rw [h]; simp)) '+' rfl)
  · rw [intBody_decimal_zero]

lemma isSpace_of_mem {c : Char} (h : c ∈ asciiSpaces) : isSpace c = true := by
  fin_cases h <;> rfl

lemma mem_of_isSpace {c : Char} (h : isSpace c = true) : c ∈ asciiSpaces := by
  have key : ∀ n ∈ [32, 9, 10, 11, 12, 13, 28, 29, 30, 31], Char.ofNat n ∈ asciiSpaces := by
    decide
  have hn : c.toNat ∈ [32, 9, 10, 11, 12, 13, 28, 29, 30, 31] := by
    simp only [isSpace, Bool.or_eq_true, beq_iff_eq, Bool.and_eq_true, decide_eq_true_eq] at h
    simp only [List.mem_cons, List.not_mem_nil, or_false]
    omega
  have := key _ hn
  rwa [Char.ofNat_toNat] at this

/-- White space at both ends does not matter. -/
lemma pyInt_spaces (before s after : Text) (hb : ∀ c ∈ before, c ∈ asciiSpaces)
    (ha : ∀ c ∈ after, c ∈ asciiSpaces) (hs : ∀ c ∈ s, isSpace c = false) :
    pyInt (before ++ s ++ after) = pyInt s := by
  have drop : ∀ (a b : Text), (∀ c ∈ a, c ∈ asciiSpaces) →
      (a ++ b).dropWhile isSpace = b.dropWhile isSpace := by
    intro a b h
    induction a with
    | nil => rfl
    | cons x a ih =>
      rw [List.cons_append, List.dropWhile_cons_of_pos (isSpace_of_mem (h x (by simp)))]
      exact ih fun c hc => h c (by simp [hc])
  have keep : s.dropWhile isSpace = s :=
    dropWhile_head isSpace s fun x hx => hs x (List.mem_of_mem_head? hx)
  have keep' : s.reverse.dropWhile isSpace = s.reverse :=
    dropWhile_head isSpace _ fun x hx => hs x (List.mem_reverse.1 (List.mem_of_mem_head? hx))
  have e : ((before ++ s ++ after).dropWhile isSpace).reverse.dropWhile isSpace =
      (s.dropWhile isSpace).reverse.dropWhile isSpace := by
    rw [List.append_assoc, drop _ _ hb, keep, keep']
    cases s with
    | nil =>
      have : after.dropWhile isSpace = [] := by
        have := drop after [] ha
        rwa [List.append_nil] at this
      simp [this]
    | cons x s =>
      rw [List.cons_append, List.dropWhile_cons_of_neg (by simp [hs x (by simp)]),
        ← List.cons_append, List.reverse_append, drop _ _ fun c hc => ha c (List.mem_reverse.1 hc),
        keep']
  unfold pyInt
  rw [e]

/-- A text without white space whose digits are refused. -/
lemma pyInt_refused (s : Text) (hs : ∀ c ∈ s, isSpace c = false)
    (h1 : ∀ rest, s ≠ '-' :: rest) (h2 : ∀ rest, s ≠ '+' :: rest)
    (h : intBody 0 false s = none) : pyInt s = .error .value := by
  have e : ((s.dropWhile isSpace).reverse.dropWhile isSpace).reverse = s := by
    rw [dropWhile_head isSpace s fun x hx => hs x (List.mem_of_mem_head? hx),
      dropWhile_head isSpace _ fun x hx => hs x (List.mem_reverse.1 (List.mem_of_mem_head? hx)),
      List.reverse_reverse]
  unfold pyInt
  simp only [e]
  match s, h1, h2, h with
  | [], _, _, h => rfl
  | c :: rest, h1, h2, h =>
    have a1 : c ≠ '-' := fun hc => h1 rest (by rw [hc])
    have a2 : c ≠ '+' := fun hc => h2 rest (by rw [hc])
    simp [h]

lemma decimal_head (i : ℕ) : ∃ c rest, decimal i = c :: rest ∧ IsDigit c := by
  cases h : decimal i with
  | nil =>
    have := intBody_decimal_zero i
    rw [h] at this
    simp [intBody] at this
  | cons c rest => exact ⟨c, rest, rfl, decimal_digits i c (by rw [h]; simp)⟩

lemma intBody_strange (c : Char) (hv : digitValue c = none) (acc : ℕ) :
    intBody acc true [c] = none ∧ ∀ rest, intBody acc false (c :: rest) = none := by
  constructor
  · simp [intBody, hv]
  · intro rest
    simp [intBody, hv]

lemma pyInt_strange (i : ℕ) (c : Char) (hc : isSpace c = false)
    (hd : ¬ ('0'.toNat ≤ c.toNat ∧ c.toNat ≤ '9'.toNat)) :
    pyInt (decimal i ++ [c]) = .error .value ∧
      (c ≠ '-' → c ≠ '+' → pyInt (c :: decimal i) = .error .value) := by
  have hv : digitValue c = none := if_neg hd
  have hdig : ∀ x ∈ decimal i, isSpace x = false := fun x h =>
    digit_not_space (decimal_digits i x h)
  constructor
  · obtain ⟨d, rest, he, hdd⟩ := decimal_head i
    refine pyInt_refused _ ?_ ?_ ?_ ?_
    · intro x hx
      rcases List.mem_append.1 hx with h | h
      · exact hdig x h
      · rw [List.mem_singleton.1 h, hc]
    · intro rest' h
      rw [he, List.cons_append] at h
      exact digit_ne hdd '-' rfl (List.cons.inj h).1
    · intro rest' h
      rw [he, List.cons_append] at h
      exact digit_ne hdd '+' rfl (List.cons.inj h).1
    · rw [intBody_decimal]
      exact (intBody_strange c hv _).1
  · intro h1 h2
    refine pyInt_refused _ ?_ ?_ ?_ ((intBody_strange c hv 0).2 _)
    · intro x hx
      rcases List.mem_cons.1 hx with h | h
      · rw [h, hc]
      · exact hdig x h
    · exact fun rest h => h1 (List.cons.inj h).1
    · exact fun rest h => h2 (List.cons.inj h).1

lemma pyInt_nil : pyInt [] = .error .value := rfl

lemma pyInt_error (s : Text) (e : PyErr) (h : pyInt s = .error e) : e = .value := by
  unfold pyInt at h
  simp only at h
  split at h <;> split at h <;> simp at h <;> exact h.symm

/-! ## Names of files -/

lemma npyName_eq (basename : Text) (i : ℕ) :
    npyName basename i = basename ++ '_' :: (decimal i ++ ".npy".toList) := by
  unfold npyName
  rw [decimal_eq]

lemma npyName_injective (basename : Text) {i j : ℕ} (h : npyName basename i = npyName basename j) :
    i = j := by
  rw [npyName_eq, npyName_eq] at h
  have h1 := List.append_cancel_left h
  simp only [List.cons.injEq, true_and] at h1
  exact decimal_injective (List.append_cancel_right h1)

lemma lstrip_own (basename s : Text) :
    lstrip (basename ++ ['_']) (basename ++ '_' :: s) = lstrip (basename ++ ['_']) s := by
  unfold lstrip
  have e : basename ++ '_' :: s = (basename ++ ['_']) ++ s := by simp
  rw [e]
  exact List.dropWhile_append_of_pos fun a ha => by simpa using ha

lemma rstrip_npy (i : ℕ) : rstrip ".npy".toList (decimal i ++ ".npy".toList) = decimal i := by
  unfold rstrip lstrip
  rw [List.reverse_append, List.dropWhile_append_of_pos (by decide), dropWhile_head,
    List.reverse_reverse]
  intro x hx
  have hd := decimal_digits i x (List.mem_reverse.1 (List.mem_of_mem_head? hx))
  rw [decide_eq_false_iff_not]
  intro hm
  have hm' : x = '.' ∨ x = 'n' ∨ x = 'p' ∨ x = 'y' := by simpa using hm
  rcases hm' with rfl | rfl | rfl | rfl
  · exact digit_ne hd '.' rfl rfl
  · exact digit_ne hd 'n' rfl rfl
  · exact digit_ne hd 'p' rfl rfl
  · exact digit_ne hd 'y' rfl rfl

/-- The index is read correctly if the first digit does not occur in the basename. -/
lemma index_read (basename : Text) (i : ℕ) (h : ∀ c ∈ (decimal i).head?, c ∉ basename) :
    pyInt (rstrip ".npy".toList (lstrip (basename ++ ['_']) (npyName basename i))) = .ok (i : ℤ) := by
  rw [npyName_eq, lstrip_own]
  have : lstrip (basename ++ ['_']) (decimal i ++ ".npy".toList) = decimal i ++ ".npy".toList := by
    unfold lstrip
    refine dropWhile_head _ _ fun x hx => ?_
    obtain ⟨c, cs, hc⟩ := List.exists_cons_of_ne_nil (decimal_ne_nil i)
    rw [hc] at hx h
    simp only [List.cons_append, List.head?_cons, Option.mem_some_iff] at hx h
    subst hx
    rw [decide_eq_false_iff_not]
    intro hm
    rcases List.mem_append.1 hm with hm | hm
    · exact h c rfl hm
    · have hd := decimal_digits i c (by rw [hc]; simp)
      exact digit_ne hd '_' rfl (List.mem_singleton.1 hm)
  rw [this, rstrip_npy, pyInt_decimal]

lemma dropWhile_suffix' {β : Type} (p : β → Bool) (l : List β) : ∃ a, l = a ++ l.dropWhile p :=
  ⟨l.takeWhile p, (List.takeWhile_append_dropWhile).symm⟩

lemma rstrip_all (chars s : Text) (h : ∀ c ∈ s, c ∈ chars) : rstrip chars s = [] := by
  unfold rstrip lstrip
  have : List.dropWhile (fun c => decide (c ∈ chars)) s.reverse = [] := by
    rw [dropWhile_nil]
    intro c hc
    simpa using h c (List.mem_reverse.1 hc)
  rw [this]
  rfl

/-- What remains of text that ends with `.npy` and otherwise consists of stripped characters. -/
lemma strip_nothing (chars s : Text) (h : ∀ c ∈ s, c ∈ chars) :
    rstrip ".npy".toList (lstrip chars (s ++ ".npy".toList)) = [] := by
  apply rstrip_all
  unfold lstrip
  rw [List.dropWhile_append_of_pos (fun a ha => by simpa using h a ha)]
  intro c hc
  exact (List.dropWhile_sublist _).subset hc

/-- The file whose index is a digit that occurs in the basename cannot be read. -/
lemma index_lost (basename : Text) (d : ℕ) (hd : d < 10) (h : digitChar d ∈ basename) :
    pyInt (rstrip ".npy".toList (lstrip (basename ++ ['_']) (npyName basename d))) =
      .error .value := by
  rw [npyName_eq, lstrip_own, strip_nothing _ (decimal d), pyInt_nil]
  rw [decimal, if_pos hd]
  intro c hc
  rw [List.mem_singleton.1 hc]
  exact List.mem_append_left _ h

lemma index_lost_concat (basename : Text) :
    pyInt (rstrip ".npy".toList (lstrip (basename ++ ['_']) (basename ++ ".npy".toList))) =
      .error .value := by
  rw [strip_nothing _ basename fun c hc => List.mem_append_left _ hc, pyInt_nil]

/-! ## Finding files -/

/-- The test of `find_npy_files`. -/
lemma matches_iff (basename file : Text) :
    (basename.isPrefixOf file && (".npy".toList).isSuffixOf file) = true ↔
      basename <+: file ∧ ".npy".toList <:+ file := by
  rw [Bool.and_eq_true, List.isPrefixOf_iff_prefix, List.isSuffixOf_iff_suffix]

/-- What `find_npy_files` yields for a file. -/
def foundFile (basename : Text) (p : Text × Text) : Except PyErr (ℤ × Text) :=
  (pyInt (rstrip ".npy".toList (lstrip (basename ++ ['_']) p.2))).map fun i => (i, pathJoin p.1 p.2)

lemma findInFiles_eq (basename root : Text) (files : List Text) :
    findInFiles basename root files = (((files.map fun f => (root, f)).filter fun p =>
      basename.isPrefixOf p.2 && (".npy".toList).isSuffixOf p.2).mapM (foundFile basename)) := by
  induction files with
  | nil => rfl
  | cons f fs ih =>
    rw [findInFiles, List.map_cons, List.filter_cons]
    simp only
    by_cases h : (basename.isPrefixOf f && (".npy".toList).isSuffixOf f) = true
    · rw [if_pos h, if_pos h, List.mapM_cons, ih, foundFile]
      cases pyInt (rstrip ".npy".toList (lstrip (basename ++ ['_']) f)) with
      | error e => rfl
      | ok v => rfl
    · rw [if_neg h, if_neg h, ih]

lemma mapM_append_except {β γ : Type} (f : β → Except PyErr γ) (a b : List β) :
    (a ++ b).mapM f = (do
      let x ← a.mapM f
      let y ← b.mapM f
      .ok (x ++ y)) := List.mapM_append

lemma findNpyFiles_eq (basename : Text) (walk : List (Text × List Text)) :
    findNpyFiles basename walk = (((allFiles walk).filter fun p =>
      basename.isPrefixOf p.2 && (".npy".toList).isSuffixOf p.2).mapM (foundFile basename)) := by
  induction walk with
  | nil => rfl
  | cons d rest ih =>
    obtain ⟨root, files⟩ := d
    rw [findNpyFiles, findInFiles_eq, ih]
    unfold allFiles
    rw [List.flatMap_cons, List.filter_append, mapM_append_except]

lemma mapM_ok {β γ : Type} (f : β → Except PyErr γ) (g : β → γ) (l : List β)
    (h : ∀ x ∈ l, f x = .ok (g x)) : l.mapM f = .ok (l.map g) := by
  induction l with
  | nil => rfl
  | cons a l ih =>
    rw [List.mapM_cons, h a List.mem_cons_self, ih fun x hx => h x (List.mem_cons_of_mem _ hx)]
    rfl

lemma mapM_error {β γ : Type} (f : β → Except PyErr γ) (l : List β) (e : PyErr)
    (h : ∃ x ∈ l, f x = .error e) (he : ∀ x ∈ l, ∀ e', f x = .error e' → e' = e) :
    l.mapM f = .error e := by
  induction l with
  | nil => simp at h
  | cons a l ih =>
    rw [List.mapM_cons]
    cases ha : f a with
    | error e' => rw [he a List.mem_cons_self e' ha]; rfl
    | ok v =>
      obtain ⟨x, hx, hxe⟩ := h
      rcases List.mem_cons.1 hx with rfl | hx
      · rw [ha] at hxe; simp at hxe
      · rw [ih ⟨x, hx, hxe⟩ fun y hy => he y (List.mem_cons_of_mem _ hy)]
        rfl

lemma foundFile_error (basename : Text) (p : Text × Text) (e : PyErr)
    (h : foundFile basename p = .error e) : e = .value := by
  unfold foundFile at h
  cases hp : pyInt (rstrip ".npy".toList (lstrip (basename ++ ['_']) p.2)) with
  | error e' =>
    rw [hp] at h
    have : e' = e := by simpa [Except.map] using h
    rw [← this]
    exact pyInt_error _ _ hp
  | ok v => rw [hp] at h; simp [Except.map] at h

/-- One file whose index cannot be read makes the whole search fail. -/
lemma find_fails (basename : Text) (walk : List (Text × List Text)) (p : Text × Text)
    (hp : p ∈ allFiles walk) (h1 : basename <+: p.2) (h2 : ".npy".toList <:+ p.2)
    (h : foundFile basename p = .error .value) : findNpyFiles basename walk = .error .value := by
  rw [findNpyFiles_eq]
  refine mapM_error _ _ _ ⟨p, List.mem_filter.2 ⟨hp, (matches_iff _ _).2 ⟨h1, h2⟩⟩, h⟩ ?_
  exact fun x _ e he => foundFile_error _ _ _ he

lemma filter_matches (basename : Text) (l : List (Text × Text)) :
    open Classical in
    (l.filter fun p => basename.isPrefixOf p.2 && (".npy".toList).isSuffixOf p.2) =
      l.filter fun p => decide (basename <+: p.2 ∧ ".npy".toList <:+ p.2) := by
  classical
  refine List.filter_congr fun p _ => ?_
  rw [Bool.eq_iff_iff, matches_iff, decide_eq_true_iff]

lemma pathJoin_own {dir basename : Text} (ho : Ordinary dir basename) (s : Text)
    (hs : '/' ∉ s) : pathJoin dir (basename ++ s) = dir ++ '/' :: (basename ++ s) := by
  unfold pathJoin
  rw [if_neg, if_neg]
  · rintro (h | h)
    · exact ho.named h
    · exact ho.noTrail h
  · intro h
    have := List.mem_of_mem_head? h
    rcases List.mem_append.1 this with h | h
    · exact ho.noSlash h
    · exact hs h

lemma slash_notin_tail (i : ℕ) : '/' ∉ '_' :: ((toString i).toList ++ ".npy".toList) := by
  rw [← decimal_eq]
  intro h
  rcases List.mem_cons.1 h with h | h
  · exact absurd h (by decide)
  · rcases List.mem_append.1 h with h | h
    · exact digit_ne (decimal_digits i _ h) '/' rfl rfl
    · revert h; decide

lemma pathJoin_npyName {dir basename : Text} (ho : Ordinary dir basename) (i : ℕ) :
    pathJoin dir (npyName basename i) = npyPath dir basename i :=
  pathJoin_own ho _ (slash_notin_tail i)

/-- All indices can be read: the search finds the own files and sorting brings them in order. -/
lemma find_sorted {walk : List (Text × List Text)} {dir basename : Text} {k : ℕ}
    (ho : Ordinary dir basename) (hw : OnlyOwnFiles walk dir basename k)
    (hr : ∀ i < k, pyInt (rstrip ".npy".toList (lstrip (basename ++ ['_']) (npyName basename i))) =
      .ok (i : ℤ)) :
    ∃ values, findNpyFiles basename walk = .ok values ∧
      (values.mergeSort fun a b => decide (a.1 ≤ b.1)) =
        (List.range k).map fun i : ℕ => ((i : ℤ), npyPath dir basename i) := by
  classical
  rw [findNpyFiles_eq, filter_matches]
  unfold OnlyOwnFiles at hw
  have hmem : ∀ p ∈ (allFiles walk).filter fun p =>
      decide (basename <+: p.2 ∧ ".npy".toList <:+ p.2), ∃ i < k,
        p = (dir, npyName basename i) := by
    intro p hp
    obtain ⟨i, hi, rfl⟩ := List.mem_map.1 (hw.mem_iff.1 hp)
    exact ⟨i, List.mem_range.1 hi, rfl⟩
  let g : Text × Text → ℤ × Text := fun p =>
    (((foundFile basename p).toOption.map Prod.fst).getD 0, pathJoin p.1 p.2)
  have hg : ∀ i < k, foundFile basename (dir, npyName basename i) =
      .ok ((i : ℤ), npyPath dir basename i) := by
    intro i hi
    unfold foundFile
    simp only
    rw [hr i hi, pathJoin_npyName ho]
    rfl
  have hg' : ∀ i < k, g (dir, npyName basename i) = ((i : ℤ), npyPath dir basename i) := by
    intro i hi
    simp only [g, hg i hi, pathJoin_npyName ho]
    rfl
  refine ⟨_, mapM_ok _ g _ fun p hp => ?_, ?_⟩
  · obtain ⟨i, hi, rfl⟩ := hmem p hp
    rw [hg i hi, hg' i hi]
  · have hperm := (List.mergeSort_perm (((allFiles walk).filter fun p =>
      decide (basename <+: p.2 ∧ ".npy".toList <:+ p.2)).map g)
      fun a b => decide (a.1 ≤ b.1)).trans (hw.map g)
    rw [List.map_map] at hperm
    have hm : (List.range k).map (g ∘ fun i => (dir, npyName basename i)) =
        (List.range k).map fun i : ℕ => ((i : ℤ), npyPath dir basename i) :=
      List.map_congr_left fun i hi => hg' i (List.mem_range.1 hi)
    rw [hm] at hperm
    refine List.Perm.eq_of_pairwise (le := fun a b => decide (a.1 ≤ b.1) = true) ?_ ?_ ?_ hperm
    · intro a b ha hb h1 h2
      have ha' := hperm.mem_iff.1 ha
      obtain ⟨i, _, rfl⟩ := List.mem_map.1 ha'
      obtain ⟨j, _, rfl⟩ := List.mem_map.1 hb
      simp only [decide_eq_true_eq] at h1 h2
      have : i = j := by omega
      rw [this]
    · refine List.pairwise_mergeSort ?_ ?_ _
      · intro a b c h1 h2
        simp only [decide_eq_true_eq] at h1 h2 ⊢
        omega
      · intro a b
        simp only [Bool.or_eq_true, decide_eq_true_eq]
        omega
    · rw [List.pairwise_map]
      refine List.Pairwise.imp ?_ (List.pairwise_lt_range (n := k))
      intro a b h
      simp only [decide_eq_true_eq]
      omega

/-! ## Histories -/

lemma uptoLastDump_cut {β : Type} (l : List (β × Bool)) (x : β) (rest : List (β × Bool)) :
    uptoLastDump (l ++ (x, true) :: rest) = l.map Prod.fst ++ x :: uptoLastDump rest := by
  unfold uptoLastDump
  rw [List.reverse_append, List.reverse_cons, List.append_assoc, List.dropWhile_append]
  split_ifs with h
  · rw [List.isEmpty_iff] at h
    rw [h]
    simp
  · simp

lemma uptoLastDump_none {β : Type} (l : List (β × Bool)) (h : ∀ x ∈ l, x.2 = false) :
    uptoLastDump l = [] := by
  unfold uptoLastDump
  have : List.dropWhile (fun x => !x.2) l.reverse = [] := by
    rw [dropWhile_nil]
    intro x hx
    rw [h x (List.mem_reverse.1 hx)]
    rfl
  rw [this]
  rfl

/-- Without changes in between the contents at the dump are the contents at the sending. -/
lemma framesAtDump_undisturbed {α : Type} (events : List (NpyEvent α)) (heap : ℕ → List α)
    (waiting : List ℕ) (h : Undisturbed waiting events) :
    framesAtDump heap waiting events =
      uptoLastDump (waiting.map (fun r => (heap r, false)) ++ sentFrames heap events) := by
  induction events generalizing heap waiting with
  | nil =>
    rw [framesAtDump, sentFrames, List.append_nil, uptoLastDump_none]
    intro x hx
    obtain ⟨r, _, rfl⟩ := List.mem_map.1 hx
    rfl
  | cons e rest ih =>
    cases e with
    | update ref rows =>
      rw [framesAtDump, sentFrames, ih _ _ h.2]
      congr 2
      refine List.map_congr_left fun r hr => ?_
      rw [Function.update_of_ne]
      rintro rfl
      exact h.1 hr
    | send ref dump =>
      cases dump with
      | true =>
        rw [framesAtDump, sentFrames, uptoLastDump_cut, ih _ _ h]
        simp [List.map_map, Function.comp_def]
      | false =>
        rw [framesAtDump, sentFrames, ih _ _ h]
        simp

lemma npySend_ok {α : Type} {other : Text → ℕ → Except PyErr Text} {writable : Text → Bool}
    {template : Text} {path : ℕ → Text} (hpath : ∀ i, formatIndex other i template = .ok (path i))
    {co co' : NpyCo} {w w' : NpyWorld α} {ref : ℕ}
    (h : npySend other writable template co w ref true = .ok (co', w')) :
    co' = ⟨[], co.index + 1⟩ ∧ w'.heap = w.heap ∧
      w'.disk = Function.update w.disk (path co.index)
        (some ((co.buffer ++ [ref]).map w.heap)) := by
  unfold npySend at h
  simp only [if_true, hpath, bind, Except.bind] at h
  cases hv : vstackArrays ((co.buffer ++ [ref]).map w.heap) with
  | error e => rw [hv] at h; simp at h
  | ok rows =>
    have hrows : rows = (co.buffer ++ [ref]).map w.heap := by
      cases hb : (co.buffer ++ [ref]).map w.heap with
      | nil => simp at hb
      | cons a l =>
        rw [hb] at hv
        simp only [vstackArrays] at hv
        split_ifs at hv
        exact (Except.ok.inj hv).symm
    rw [hv] at h
    simp only at h
    split_ifs at h
    simp only [Except.ok.injEq, Prod.mk.injEq] at h
    obtain ⟨rfl, rfl⟩ := h
    exact ⟨rfl, rfl, by rw [hrows]⟩

/-- What a history writes. -/
lemma npyRun_files {α : Type} {other : Text → ℕ → Except PyErr Text} {writable : Text → Bool}
    {template : Text} {path : ℕ → Text} (hpath : ∀ i, formatIndex other i template = .ok (path i))
    (hinj : ∀ i j, path i = path j → i = j) (events : List (NpyEvent α)) (co co' : NpyCo)
    (w w' : NpyWorld α)
    (h : npyRun other writable template events co w = (.ok (), co', w')) :
    ∃ parts : List (List (List α)), co'.index = co.index + parts.length ∧
      parts.length = dumps events ∧
      (∀ i (hi : i < parts.length), w'.disk (path (co.index + i)) = some parts[i]) ∧
      (∀ p, (∀ i < parts.length, p ≠ path (co.index + i)) → w'.disk p = w.disk p) ∧
      parts.flatten = framesAtDump w.heap co.buffer events := by
  induction events generalizing co w with
  | nil =>
    simp only [npyRun, Prod.mk.injEq, true_and] at h
    obtain ⟨rfl, rfl⟩ := h
    exact ⟨[], rfl, rfl, fun i hi => by simp at hi, fun p _ => rfl, rfl⟩
  | cons e rest ih =>
    cases e with
    | update ref rows => exact ih _ _ h
    | send ref dump =>
      cases dump with
      | false => exact ih ⟨co.buffer ++ [ref], co.index⟩ w h
      | true =>
        rw [npyRun] at h
        cases hs : npySend other writable template co w ref true with
        | error e => rw [hs] at h; simp at h
        | ok q =>
          obtain ⟨co1, w1⟩ := q
          rw [hs] at h
          simp only at h
          obtain ⟨rfl, hheap, hdisk⟩ := npySend_ok hpath hs
          obtain ⟨parts, h1, h0, h2, h3, h4⟩ := ih _ _ h
          have hne : ∀ i, path co.index ≠ path (co.index + 1 + i) := by
            intro i hi
            have := hinj _ _ hi
            omega
          refine ⟨((co.buffer ++ [ref]).map w.heap) :: parts, ?_, by rw [dumps, ← h0]; rfl, ?_, ?_,
            ?_⟩
          · rw [h1]; simp only [List.length_cons]; omega
          · intro i hi
            cases i with
            | zero =>
              rw [Nat.add_zero, h3 _ fun i _ => hne i, hdisk, Function.update_self]
              rfl
            | succ i =>
              have := h2 i (by simpa using hi)
              rw [show co.index + (i + 1) = co.index + 1 + i by omega, this]
              rfl
          · intro p hp
            rw [h3 p fun i hi => ?_, hdisk, Function.update_of_ne]
            · have := hp 0 (by simp)
              simpa using this
            · have := hp (i + 1) (by simpa using hi)
              rwa [show co.index + (i + 1) = co.index + 1 + i by omega] at this
          · rw [List.flatten_cons, h4, framesAtDump, hheap]

/-- A history that ends with an exception did what the events before the failing dump do. -/
lemma npyRun_error {α : Type} {other : Text → ℕ → Except PyErr Text} {writable : Text → Bool}
    {template : Text} (events : List (NpyEvent α)) (co co' : NpyCo) (w w' : NpyWorld α)
    (e : PyErr) (h : npyRun other writable template events co w = (.error e, co', w')) :
    ∃ before ref after, events = before ++ .send ref true :: after ∧
      npyRun other writable template before co w = (.ok (), co', w') := by
  induction events generalizing co w with
  | nil => simp [npyRun] at h
  | cons x rest ih =>
    cases x with
    | update ref rows =>
      obtain ⟨b, r, a, rfl, hb⟩ := ih _ _ h
      exact ⟨.update ref rows :: b, r, a, rfl, hb⟩
    | send ref dump =>
      cases dump with
      | false =>
        obtain ⟨b, r, a, rfl, hb⟩ := ih ⟨co.buffer ++ [ref], co.index⟩ w h
        exact ⟨.send ref false :: b, r, a, rfl, hb⟩
      | true =>
        rw [npyRun] at h
        cases hs : npySend other writable template co w ref true with
        | error e =>
          rw [hs] at h
          simp only [Prod.mk.injEq] at h
          obtain ⟨_, rfl, rfl⟩ := h
          exact ⟨[], ref, rest, rfl, rfl⟩
        | ok q =>
          obtain ⟨co1, w1⟩ := q
          rw [hs] at h
          simp only at h
          obtain ⟨b, r, a, rfl, hb⟩ := ih _ _ h
          refine ⟨.send ref true :: b, r, a, rfl, ?_⟩
          rw [npyRun, hs]
          exact hb

/-! ## Templates -/

lemma formatIndex_plain (other : Text → ℕ → Except PyErr Text) (i : ℕ) (s rest : Text)
    (hs : NoBraces s) :
    formatIndex other i (s ++ rest) = (formatIndex other i rest).map (s ++ ·) := by
  induction s with
  | nil =>
    rw [List.nil_append]
    cases formatIndex other i rest <;> rfl
  | cons c s ih =>
    have hs' : NoBraces s := ⟨fun h => hs.1 (List.mem_cons_of_mem _ h),
      fun h => hs.2 (List.mem_cons_of_mem _ h)⟩
    have h1 : c ≠ '{' := fun h => hs.1 (h ▸ List.mem_cons_self)
    have h2 : c ≠ '}' := fun h => hs.2 (h ▸ List.mem_cons_self)
    rw [List.cons_append, formatIndex.eq_7]
    · rw [ih hs']
      cases formatIndex other i rest <;> rfl
    · exact fun _ h => absurd h h1
    · exact fun _ h => absurd h h2
    · exact fun _ h => absurd h h1
    · exact fun h => absurd h h1
    · exact fun h => absurd h h2

lemma template_path (other : Text → ℕ → Except PyErr Text) {dir basename : Text}
    (ho : Ordinary dir basename) (hd : NoBraces dir) (hb : NoBraces basename) (i : ℕ) :
    formatIndex other i (npyTemplate dir basename) = .ok (npyPath dir basename i) := by
  unfold npyTemplate
  rw [pathJoin_own ho _ (by decide)]
  have e : dir ++ '/' :: (basename ++ "_{index}.npy".toList) =
      (dir ++ '/' :: (basename ++ ['_'])) ++ "{index}.npy".toList := by
    simp
  have hn : NoBraces (dir ++ '/' :: (basename ++ ['_'])) := by
    constructor
    · simp [hd.1, hb.1]
    · simp [hd.2, hb.2]
  rw [e, formatIndex_plain _ _ _ _ hn]
  have : formatIndex other i "{index}.npy".toList = .ok (decimal i ++ ".npy".toList) := rfl
  rw [this]
  unfold npyPath npyName
  rw [← decimal_eq]
  simp [Except.map]

lemma npyPath_injective (dir basename : Text) (i j : ℕ)
    (h : npyPath dir basename i = npyPath dir basename j) : i = j := by
  unfold npyPath at h
  have h1 := List.append_cancel_left h
  simp only [List.cons.injEq, true_and] at h1
  exact npyName_injective _ h1

/-! ## csv files -/

lemma write_end (c s : Text) : (StringIO.mk c c.length).write s = ⟨c ++ s, (c ++ s).length⟩ := by
  unfold StringIO.write
  simp [List.drop_eq_nil_of_le]

lemma uptoLastDump_cons_true {β : Type} (x : β) (rest : List (β × Bool)) :
    uptoLastDump ((x, true) :: rest) = x :: uptoLastDump rest := uptoLastDump_cut [] x rest

lemma uptoLastDump_cons_false {β : Type} (x : β) (rest : List (β × Bool)) :
    uptoLastDump ((x, false) :: rest) =
      if (uptoLastDump rest).isEmpty then [] else x :: uptoLastDump rest := by
  unfold uptoLastDump
  rw [List.reverse_cons, List.dropWhile_append]
  by_cases h : (List.dropWhile (fun x => !x.2) rest.reverse) = []
  · rw [h]
    simp
  · have h1 : (List.dropWhile (fun x => !x.2) rest.reverse).isEmpty = false := by
      rw [List.isEmpty_eq_false_iff]
      exact h
    rw [if_neg (by rw [h1]; simp), if_neg (by
      rw [List.isEmpty_iff, List.map_eq_nil_iff, List.reverse_eq_nil_iff]; exact h)]
    simp

/-- The file after a history, when the buffer already holds some text. -/
lemma csvRun_data {V : Type} (fmt : CsvFormat V) (h : List (Dict V × Bool)) (c : Text)
    (file : Option Text) :
    ∃ c', csvRun fmt (csvEvents h) (.wantData ⟨c, c.length⟩) file =
      (.wantData ⟨c', c'.length⟩, if (uptoLastDump h).isEmpty then file else
        some (file.getD [] ++ c ++
          (uptoLastDump h).flatMap fun d => fmt.values (d.map Prod.snd))) := by
  induction h generalizing c file with
  | nil => exact ⟨c, rfl⟩
  | cons x rest ih =>
    obtain ⟨d, b⟩ := x
    have e : csvRun fmt (csvEvents ((d, b) :: rest)) (.wantData ⟨c, c.length⟩) file =
        csvRun fmt (csvEvents rest)
          (csvSend fmt true (.flag b) (.wantFlag ((StringIO.mk c c.length).write
            (fmt.values (d.map Prod.snd)))) file).2.1
          (csvSend fmt true (.flag b) (.wantFlag ((StringIO.mk c c.length).write
            (fmt.values (d.map Prod.snd)))) file).2.2 := rfl
    rw [e, write_end]
    cases b with
    | false =>
      obtain ⟨c', hc⟩ := ih (c ++ fmt.values (d.map Prod.snd)) file
      refine ⟨c', ?_⟩
      have e2 : csvSend fmt true (.flag false) (.wantFlag ⟨c ++ fmt.values (d.map Prod.snd),
        (c ++ fmt.values (d.map Prod.snd)).length⟩) file = (.ok (), .wantData
        ⟨c ++ fmt.values (d.map Prod.snd), (c ++ fmt.values (d.map Prod.snd)).length⟩, file) := rfl
      rw [e2, hc, uptoLastDump_cons_false]
      cases hu : uptoLastDump rest with
      | nil => simp
      | cons a l => simp
    | true =>
      obtain ⟨c', hc⟩ := ih [] (some (file.getD [] ++ (c ++ fmt.values (d.map Prod.snd))))
      refine ⟨c', ?_⟩
      have e2 : csvSend fmt true (.flag true) (.wantFlag ⟨c ++ fmt.values (d.map Prod.snd),
        (c ++ fmt.values (d.map Prod.snd)).length⟩) file = (.ok (), .wantData
        ⟨[], 0⟩, some (file.getD [] ++ (c ++ fmt.values (d.map Prod.snd)))) := rfl
      rw [e2]
      refine hc.trans ?_
      rw [uptoLastDump_cons_true]
      cases hu : uptoLastDump rest with
      | nil => simp
      | cons a l => simp

lemma csvRun_append {V : Type} (fmt : CsvFormat V) (a b : List (CsvSend V × Bool)) (co : CsvCo)
    (file : Option Text) :
    csvRun fmt (a ++ b) co file = csvRun fmt b (csvRun fmt a co file).1 (csvRun fmt a co file).2 := by
  induction a generalizing co file with
  | nil => rfl
  | cons x a ih => exact ih _ _

/-- The file after a history of a new coroutine. -/
lemma csvRun_start {V : Type} (fmt : CsvFormat V) (h : List (Dict V × Bool)) (file : Option Text) :
    (∃ c, (csvRun fmt (csvEvents h) csvStart file).1 = .wantData ⟨c, c.length⟩ ∨
      (csvRun fmt (csvEvents h) csvStart file).1 = csvStart) ∧
    (csvRun fmt (csvEvents h) csvStart file).2 = if (uptoLastDump h).isEmpty then file else
        some (file.getD [] ++ csvText fmt (uptoLastDump h)) := by
  cases h with
  | nil => exact ⟨⟨[], Or.inr rfl⟩, rfl⟩
  | cons x rest =>
    obtain ⟨d, b⟩ := x
    have e0 : ((StringIO.mk [] 0).write (fmt.keys (d.map Prod.fst))).write
        (fmt.values (d.map Prod.snd)) = ⟨fmt.keys (d.map Prod.fst) ++ fmt.values (d.map Prod.snd),
        (fmt.keys (d.map Prod.fst) ++ fmt.values (d.map Prod.snd)).length⟩ := by
      have := write_end [] (fmt.keys (d.map Prod.fst))
      simp only [List.length_nil] at this
      rw [this, write_end]
      simp
    have e : csvRun fmt (csvEvents ((d, b) :: rest)) csvStart file =
        csvRun fmt (csvEvents rest)
          (csvSend fmt true (.flag b) (.wantFlag (((StringIO.mk [] 0).write
            (fmt.keys (d.map Prod.fst))).write (fmt.values (d.map Prod.snd)))) file).2.1
          (csvSend fmt true (.flag b) (.wantFlag (((StringIO.mk [] 0).write
            (fmt.keys (d.map Prod.fst))).write (fmt.values (d.map Prod.snd)))) file).2.2 := rfl
    rw [e, e0]
    obtain ⟨t, ht⟩ : ∃ t, t = fmt.keys (d.map Prod.fst) ++ fmt.values (d.map Prod.snd) := ⟨_, rfl⟩
    rw [← ht]
    cases b with
    | false =>
      obtain ⟨c', hc⟩ := csvRun_data fmt rest t file
      have e2 : csvSend fmt true (.flag false) (.wantFlag ⟨t, t.length⟩) file =
        (.ok (), .wantData ⟨t, t.length⟩, file) := rfl
      rw [e2, hc, uptoLastDump_cons_false]
      refine ⟨⟨c', Or.inl rfl⟩, ?_⟩
      cases hu : uptoLastDump rest with
      | nil => simp
      | cons a l => simp [csvText, ht]
    | true =>
      obtain ⟨c', hc⟩ := csvRun_data fmt rest [] (some (file.getD [] ++ t))
      have e2 : csvSend fmt true (.flag true) (.wantFlag ⟨t, t.length⟩) file =
        (.ok (), .wantData ⟨[], 0⟩, some (file.getD [] ++ t)) := rfl
      rw [e2]
      rw [show (CsvCo.wantData ⟨[], 0⟩) = .wantData ⟨[], ([] : Text).length⟩ from rfl, hc]
      refine ⟨⟨c', Or.inl rfl⟩, ?_⟩
      rw [uptoLastDump_cons_true]
      cases hu : uptoLastDump rest with
      | nil => simp [csvText, ht]
      | cons a l => simp [csvText, ht]

lemma csvRun_dead {V : Type} (fmt : CsvFormat V) (events : List (CsvSend V × Bool))
    (file : Option Text) : csvRun fmt events .dead file = (.dead, file) := by
  induction events with
  | nil => rfl
  | cons x rest ih => exact ih

/-! ## json files -/

lemma mapM_shape {G J : Type} (lib : GeoLib G J) (hl : ∀ g, lib.shape (lib.mapping g) = .ok g)
    (gs : List G) : (gs.map lib.mapping).mapM lib.shape = .ok gs := by
  induction gs with
  | nil => rfl
  | cons g gs ih =>
    rw [List.map_cons, List.mapM_cons, hl, ih]
    rfl

lemma json_roundtrip {G J : Type} (lib : GeoLib G J) (hl : ∀ g, lib.shape (lib.mapping g) = .ok g)
    (geometries : List (Text × GeomEntry G)) (h : ∀ e ∈ geometries, IsNoneOrList e.2) :
    ∃ obj entries, mapGeometries lib geometries = .ok obj ∧ serializable obj = some entries ∧
      shapeEntries lib entries = .ok geometries := by
  induction geometries with
  | nil => exact ⟨[], [], rfl, rfl, rfl⟩
  | cons e rest ih =>
    obtain ⟨name, e⟩ := e
    obtain ⟨obj, entries, h1, h2, h3⟩ := ih fun x hx => h x (List.mem_cons_of_mem _ hx)
    have he := h (name, e) List.mem_cons_self
    cases e with
    | none =>
      refine ⟨(name, some .null) :: obj, (name, .null) :: entries, ?_, ?_, ?_⟩
      · simp [mapGeometries, geometryMapping, h1, bind, Except.bind]
      · simp [serializable, h2]
      · simp [shapeEntries, geometryShape, h3, bind, Except.bind]
    | list gs =>
      refine ⟨(name, some (.array (gs.map lib.mapping))) :: obj,
        (name, .array (gs.map lib.mapping)) :: entries, ?_, ?_, ?_⟩
      · simp [mapGeometries, geometryMapping, h1, bind, Except.bind]
      · simp [serializable, h2]
      · simp [shapeEntries, geometryShape, h3, bind, Except.bind, mapM_shape lib hl, Except.map]
    | single g => exact absurd he id
    | multi gs => exact absurd he id
    | dict gs => exact absurd he id

lemma shapeEntries_obj {G J : Type} (lib : GeoLib G J) (entries : List (Text × JsonEntry J))
    (h : ∃ e ∈ entries, ∃ j, e.2 = .obj j) : ∃ e, shapeEntries lib entries = .error e := by
  induction entries with
  | nil => simp at h
  | cons x rest ih =>
    obtain ⟨name, x⟩ := x
    rw [shapeEntries]
    obtain ⟨e, he, j, hj⟩ := h
    rcases List.mem_cons.1 he with rfl | he
    · simp only at hj
      subst hj
      exact ⟨.attribute, rfl⟩
    · obtain ⟨e', h'⟩ := ih ⟨e, he, j, hj⟩
      rw [h']
      cases geometryShape lib x with
      | error e => exact ⟨e, rfl⟩
      | ok v => exact ⟨e', rfl⟩

lemma serializable_mem {J : Type} (obj : List (Text × Option (JsonEntry J)))
    (entries : List (Text × JsonEntry J)) (h : serializable obj = some entries) (name : Text)
    (j : JsonEntry J) (hm : (name, some j) ∈ obj) : (name, j) ∈ entries := by
  induction obj generalizing entries with
  | nil => simp at hm
  | cons x rest ih =>
    obtain ⟨n, x⟩ := x
    cases x with
    | none => simp [serializable] at h
    | some x =>
      cases hr : serializable rest with
      | none => simp [serializable, hr] at h
      | some es =>
        simp only [serializable, hr, Option.map_some, Option.some.injEq] at h
        subst h
        rcases List.mem_cons.1 hm with hm | hm
        · simp only [Prod.mk.injEq, Option.some.injEq] at hm
          obtain ⟨rfl, rfl⟩ := hm
          exact List.mem_cons_self
        · exact List.mem_cons_of_mem _ (ih es hr hm)

lemma mapGeometries_mem {G J : Type} (lib : GeoLib G J) (geometries : List (Text × GeomEntry G))
    (obj : List (Text × Option (JsonEntry J))) (h : mapGeometries lib geometries = .ok obj)
    (name : Text) (e : GeomEntry G) (hm : (name, e) ∈ geometries) :
    ∃ m, geometryMapping lib e = .ok m ∧ (name, m) ∈ obj := by
  induction geometries generalizing obj with
  | nil => simp at hm
  | cons x rest ih =>
    obtain ⟨n, x⟩ := x
    rw [mapGeometries] at h
    cases hx : geometryMapping lib x with
    | error e => rw [hx] at h; simp [bind, Except.bind] at h
    | ok v =>
      cases hr : mapGeometries lib rest with
      | error e => rw [hx, hr] at h; simp [bind, Except.bind] at h
      | ok more =>
        rw [hx, hr] at h
        simp only [bind, Except.bind, Except.ok.injEq] at h
        subst h
        rcases List.mem_cons.1 hm with hm | hm
        · simp only [Prod.mk.injEq] at hm
          obtain ⟨rfl, rfl⟩ := hm
          exact ⟨v, hx, List.mem_cons_self⟩
        · obtain ⟨m, h1, h2⟩ := ih more hr hm
          exact ⟨m, h1, List.mem_cons_of_mem _ h2⟩

end CrowdDynamics
