import Verif.Proofs.IO
import Verif.Spec.Version
import Mathlib.Data.List.TakeWhile

/-!
# Lemmas about versions
-/

namespace CrowdDynamics

open Spec

/-! ## Text -/

lemma span_take {β : Type} (p : β → Bool) (a r : List β) (h : ∀ x ∈ a, p x = true)
    (hr : ∀ x ∈ r.head?, p x = false) : (a ++ r).takeWhile p = a := by
  rw [List.takeWhile_append_of_pos h]
  cases r with
  | nil => simp
  | cons x r => simp [hr x (by simp)]

lemma span_drop {β : Type} (p : β → Bool) (a r : List β) (h : ∀ x ∈ a, p x = true)
    (hr : ∀ x ∈ r.head?, p x = false) : (a ++ r).dropWhile p = r := by
  rw [List.dropWhile_append_of_pos h, dropWhile_head p r hr]

lemma pyStrip_trim (s w : Text) (h : ∀ x ∈ s.head?, isSpace x = false)
    (h' : ∀ x ∈ s.getLast?, isSpace x = false) (hs : s ≠ []) (hw : ∀ x ∈ w, isSpace x = true) :
    pyStrip (s ++ w) = s := by
  unfold pyStrip
  rw [dropWhile_head isSpace (s ++ w), List.reverse_append, span_drop, List.reverse_reverse]
  · intro x hx; exact hw x (List.mem_reverse.1 hx)
  · intro x hx
    rw [List.head?_reverse] at hx
    exact h' x hx
  · intro x hx
    cases s with
    | nil => exact absurd rfl hs
    | cons a s => exact h x (by simpa using hx)

lemma pyStrip_self (s : Text) (h : ∀ x ∈ s.head?, isSpace x = false)
    (h' : ∀ x ∈ s.getLast?, isSpace x = false) : pyStrip s = s := by
  by_cases hs : s = []
  · subst hs; rfl
  · have := pyStrip_trim s [] h h' hs (by simp)
    rwa [List.append_nil] at this

lemma black_not_space {c : Char} (h : 32 < c.toNat) : isSpace c = false := by
  unfold isSpace
  simp
  omega

lemma hex_black {c : Char} (h : c ∈ hexDigits) : 32 < c.toNat ∧ isHexChar c = true ∧ c ≠ '-' ∧ c ≠ 'y' ∧
    c ≠ '\n' ∧ c ≠ '.' := by
  have key : ∀ c ∈ hexDigits, 32 < c.toNat ∧ isHexChar c = true ∧ c ≠ '-' ∧ c ≠ 'y' ∧ c ≠ '\n' ∧
      c ≠ '.' := by decide
  exact key c h

lemma numeral_eq (k : ℕ) : numeral k = decimal k := (decimal_eq k).symm

lemma digit_facts {c : Char} (h : IsDigit c) : isDigitChar c = true ∧ c ≠ '-' ∧ 32 < c.toNat ∧
    48 ≤ c.toNat ∧ c.toNat ≤ 57 := by
  obtain ⟨d, hd, rfl⟩ := h
  interval_cases d <;> decide

lemma formatInt_nat (k : ℕ) : formatInt k = numeral k := by
  unfold formatInt
  rw [numeral_eq]
  simp

/-! ## The answers of git -/

/-- The core of the description. -/
lemma describeMatch_tag (t : Text) (k : ℕ) (hex : Text) (ht : t ≠ []) (hb : Black t)
    (hx : hex ≠ []) (hh : ∀ x ∈ hex, x ∈ hexDigits) :
    describeMatch (t ++ "-".toList ++ numeral k ++ "-g".toList ++ hex) = some (t, numeral k, hex) := by
  have hrev : (t ++ "-".toList ++ numeral k ++ "-g".toList ++ hex).reverse =
      hex.reverse ++ ('g' :: '-' :: ((numeral k).reverse ++ '-' :: t.reverse)) := by
    simp [List.reverse_append]
  have hhr : ∀ x ∈ hex.reverse, isHexChar x = true := fun x h => (hex_black (hh x (List.mem_reverse.1 h))).2.1
  have hnr : ∀ x ∈ (numeral k).reverse, isDigitChar x = true := fun x h => by
    rw [numeral_eq] at h
    exact (digit_facts (decimal_digits k x (List.mem_reverse.1 h))).1
  unfold describeMatch
  rw [hrev]
  obtain ⟨y, ys, hy⟩ : ∃ y ys, hex.reverse = y :: ys := by
    cases h : hex.reverse with
    | nil => exact absurd (List.reverse_eq_nil_iff.1 h) hx
    | cons y ys => exact ⟨y, ys, rfl⟩
  have hyn : y ≠ '\n' := by
    have : y ∈ hex := List.mem_reverse.1 (by rw [hy]; simp)
    exact (hex_black (hh y this)).2.2.2.2.1
  have hm : skipBreak (hex.reverse ++ ('g' :: '-' :: ((numeral k).reverse ++ '-' :: t.reverse))) =
      hex.reverse ++ ('g' :: '-' :: ((numeral k).reverse ++ '-' :: t.reverse)) := by
    rw [hy, List.cons_append]
    unfold skipBreak
    split
    · rename_i r h
      rw [List.cons.injEq] at h
      exact absurd h.1 hyn
    · rfl
  simp only [hm]
  rw [span_take isHexChar _ _ hhr (by intro x hx; cases hx; decide),
    span_drop isHexChar _ _ hhr (by intro x hx; cases hx; decide)]
  obtain ⟨z, zs, hz⟩ : ∃ z zs, (numeral k).reverse = z :: zs := by
    cases h : (numeral k).reverse with
    | nil => exact absurd (List.reverse_eq_nil_iff.1 h) (by rw [numeral_eq]; exact decimal_ne_nil k)
    | cons y ys => exact ⟨y, ys, rfl⟩
  rw [hy]
  simp only
  rw [span_take isDigitChar _ _ hnr (by intro x hx; cases hx; decide),
    span_drop isDigitChar _ _ hnr (by intro x hx; cases hx; decide), hz]
  simp only
  rw [if_pos ⟨by simpa using ht, fun h => by
    have := hb '\n' (List.mem_reverse.1 h)
    revert this; decide⟩, ← hz, ← hy]
  simp

lemma installed_run {popen : Text → List Text → Text → Ran} {names : List Text} {root : Text}
    {git : List Text → Ran} (h : Installed popen names root git) (args : List Text) (out : Text)
    (hd : git args = .done out 0) : runCommand popen args root names = (some (pyStrip out), some 0) := by
  obtain ⟨before, name, after, rfl, hb, hn⟩ := h
  induction before with
  | nil => simp [runCommand, hn, hd]
  | cons x xs ih =>
    rw [List.cons_append, runCommand, hb x List.mem_cons_self]
    exact ih fun y hy => hb y (List.mem_cons_of_mem _ hy)

/-- The description without the mark for changes. -/
def Spec.Checkout.core (c : Checkout) : Text :=
  match c.tag with
  | some (t, k) => t ++ "-".toList ++ numeral k ++ "-g".toList ++ c.short
  | none => c.short

lemma describe_core (c : Checkout) : c.describe = c.core ++ if c.dirty then "-dirty".toList else [] := rfl

lemma core_facts (c : Checkout) (hw : c.WellFormed) :
    c.core ≠ [] ∧ (∀ x ∈ c.core.head?, 32 < x.toNat) ∧ (∀ x ∈ c.core.getLast?, x ∈ hexDigits) := by
  obtain ⟨h1, h2⟩ := hw.short
  have hl : ∀ a : Text, (a ++ c.short).getLast? = c.short.getLast? := fun a => by
    rw [List.getLast?_append]
    cases h : c.short.getLast? with
    | none => exact absurd (List.getLast?_eq_none_iff.1 h) h1
    | some x => rfl
  have hlast : ∀ x ∈ c.short.getLast?, x ∈ hexDigits := fun x hx => h2 x (List.mem_of_getLast? hx)
  unfold Checkout.core
  cases htag : c.tag with
  | none =>
    exact ⟨h1, fun x hx => (hex_black (h2 x (List.mem_of_mem_head? hx))).1, hlast⟩
  | some tk =>
    obtain ⟨t, k⟩ := tk
    obtain ⟨a1, a2⟩ := hw.tag t k htag
    refine ⟨by simp, fun x hx => ?_, fun x hx => ?_⟩
    · cases t with
      | nil => exact absurd rfl a1
      | cons y ys =>
        simp at hx
        subst hx
        exact a2 y List.mem_cons_self
    · simp only at hx
      rw [hl] at hx
      exact hlast x hx

lemma describe_strip (c : Checkout) (hw : c.WellFormed) :
    pyStrip (c.describe ++ "\n".toList) = c.describe ∧ pyStrip c.describe = c.describe := by
  obtain ⟨h1, h2, h3⟩ := core_facts c hw
  have hne : c.describe ≠ [] := by rw [describe_core]; simp [h1]
  have hh : ∀ x ∈ c.describe.head?, isSpace x = false := by
    intro x hx
    rw [describe_core] at hx
    apply black_not_space
    apply h2
    revert hx
    cases hc : c.core with
    | nil => exact absurd hc h1
    | cons a l => simp
  have hl : ∀ x ∈ c.describe.getLast?, isSpace x = false := by
    intro x hx
    rw [describe_core] at hx
    cases hd : c.dirty with
    | false =>
      rw [hd] at hx
      simp only [Bool.false_eq_true, if_false, List.append_nil] at hx
      exact black_not_space (hex_black (h3 x hx)).1
    | true =>
      rw [hd] at hx
      simp at hx
      subst hx
      decide
  exact ⟨pyStrip_trim _ _ hh hl hne (by decide), pyStrip_self _ hh hl⟩

lemma describe_dirty (c : Checkout) (hw : c.WellFormed) :
    "-dirty".toList.isSuffixOf c.describe = c.dirty ∧
    (if c.dirty then c.describe.take (c.describe.length - 6) else c.describe) = c.core := by
  obtain ⟨h1, h2, h3⟩ := core_facts c hw
  rw [describe_core]
  cases hd : c.dirty with
  | true =>
    simp only [if_true]
    refine ⟨?_, ?_⟩
    · rw [List.isSuffixOf_iff_suffix]
      exact List.suffix_append _ _
    · have : (c.core ++ "-dirty".toList).length - 6 = c.core.length := by
        rw [List.length_append, show "-dirty".toList.length = 6 from rfl]
        omega
      rw [this, List.take_left']
      rfl
  | false =>
    simp only [Bool.false_eq_true, if_false, List.append_nil, and_true]
    rw [Bool.eq_false_iff]
    intro h
    rw [List.isSuffixOf_iff_suffix] at h
    obtain ⟨a, ha⟩ := h
    have : c.core.getLast? = some 'y' := by rw [← ha]; simp
    exact (hex_black (h3 'y' this)).2.2.2.1 rfl

lemma isoDate_date (a b z : Text) (ha : a ≠ [] ∧ Black a) (hb : b ≠ [] ∧ Black b)
    (hz : z ≠ [] ∧ Black z) :
    isoDate (pyStrip (pyStrip (a ++ " ".toList ++ b ++ " ".toList ++ z ++ "\n".toList))) =
      a ++ "T".toList ++ b ++ z := by
  have hh : ∀ x ∈ (a ++ " ".toList ++ b ++ " ".toList ++ z).head?, isSpace x = false := by
    intro x hx
    obtain ⟨h1, h2⟩ := ha
    cases a with
    | nil => exact absurd rfl h1
    | cons y ys =>
      simp at hx
      subst hx
      exact black_not_space (h2 y List.mem_cons_self)
  have hl : ∀ x ∈ (a ++ " ".toList ++ b ++ " ".toList ++ z).getLast?, isSpace x = false := by
    intro x hx
    rw [List.getLast?_append] at hx
    cases h : z.getLast? with
    | none => exact absurd (List.getLast?_eq_none_iff.1 h) hz.1
    | some y =>
      rw [h] at hx
      cases hx
      exact black_not_space (hz.2 _ (List.mem_of_getLast? h))
  have hne : a ++ " ".toList ++ b ++ " ".toList ++ z ≠ [] := by simp
  have first : ∀ (a r : Text), Black a → ∀ w : Text,
      replaceFirst ' ' w (a ++ ' ' :: r) = a ++ (w ++ r) := by
    intro a r h w
    induction a with
    | nil => simp [replaceFirst]
    | cons y ys ih =>
      have hy : y ≠ ' ' := by
        have := h y List.mem_cons_self
        rintro rfl
        revert this; decide
      rw [List.cons_append, replaceFirst, if_neg hy, ih fun x hx => h x (List.mem_cons_of_mem _ hx)]
      rfl
  rw [pyStrip_trim _ _ hh hl hne (by decide), pyStrip_self _ hh hl]
  unfold isoDate
  rw [pyStrip_self _ hh hl, show a ++ " ".toList ++ b ++ " ".toList ++ z =
    a ++ ' ' :: (b ++ ' ' :: z) by simp, first a _ ha.2, show a ++ (['T'] ++ (b ++ ' ' :: z)) =
    (a ++ 'T' :: b) ++ ' ' :: z by simp, first]
  · simp
  · intro x hx
    rcases List.mem_append.1 hx with h | h
    · exact ha.2 x h
    · rcases List.mem_cons.1 h with rfl | h
      · decide
      · exact hb.2 x h

lemma hex_strip (s : Text) (h : s ≠ [] ∧ ∀ x ∈ s, x ∈ hexDigits) :
    pyStrip (pyStrip (s ++ "\n".toList)) = s := by
  have h1 : ∀ x ∈ s.head?, isSpace x = false := fun x hx =>
    black_not_space (hex_black (h.2 x (List.mem_of_mem_head? hx))).1
  have h2 : ∀ x ∈ s.getLast?, isSpace x = false := fun x hx =>
    black_not_space (hex_black (h.2 x (List.mem_of_getLast? hx))).1
  rw [pyStrip_trim s _ h1 h2 h.1 (by decide), pyStrip_self s h1 h2]

lemma numeral_strip (k : ℕ) : pyStrip (numeral k ++ "\n".toList) = numeral k := by
  rw [numeral_eq]
  refine pyStrip_trim _ _ (fun x hx => digit_not_space (decimal_digits k x (List.mem_of_mem_head? hx)))
    (fun x hx => digit_not_space (decimal_digits k x (List.mem_of_getLast? hx))) (decimal_ne_nil k)
    (by decide)

/-- The pieces for a working copy. -/
lemma pieces_checkout {popen : Text → List Text → Text → Ran} {names : List Text} {root : Text}
    {git : List Text → Ran} (h : Installed popen names root git) (c : Checkout) (hw : c.WellFormed)
    (hg : Reports git c) :
    gitPiecesFromVcs (fun args => runCommand popen args root names) [] = .ok
      ⟨c.hash, match c.tag with | some _ => c.short | none => c.hash.take 7, none, c.dirty,
        some (c.tag.map Prod.fst), some ((c.tag.map Prod.snd).getD c.commits : ℕ),
        some (c.date.1 ++ "T".toList ++ c.date.2.1 ++ c.date.2.2)⟩ := by
  obtain ⟨d, hd⟩ := hg.gitDir
  obtain ⟨s1, s2⟩ := describe_strip c hw
  obtain ⟨d1, d2⟩ := describe_dirty c hw
  have r1 := installed_run h argsGitDir _ hd
  have r2 := installed_run h (argsDescribe []) _ hg.describe
  have r3 := installed_run h argsHead _ hg.head
  have r4 := installed_run h argsCount _ hg.count
  have r5 := installed_run h argsShow _ hg.show_
  have hdate := isoDate_date _ _ _ (hw.date _ (Or.inl rfl)) (hw.date _ (Or.inr (Or.inl rfl)))
    (hw.date _ (Or.inr (Or.inr rfl)))
  unfold gitPiecesFromVcs piecesDate
  simp only [r1, r2, r3, r4, r5, ne_eq, not_true_eq_false, if_false, s1, s2, d1, d2,
    hex_strip _ hw.hash, hdate]
  cases htag : c.tag with
  | none =>
    have hcore : c.core = c.short := by unfold Checkout.core; rw [htag]
    rw [hcore, if_neg fun hmem => (hex_black (hw.short.2 '-' hmem)).2.2.1 rfl, numeral_strip,
      numeral_eq, pyInt_decimal]
    rfl
  | some tk =>
    obtain ⟨t, k⟩ := tk
    obtain ⟨a1, a2⟩ := hw.tag t k htag
    have hcore : c.core = t ++ "-".toList ++ numeral k ++ "-g".toList ++ c.short := by
      unfold Checkout.core; rw [htag]
    rw [hcore, if_pos (by simp), describeMatch_tag t k c.short a1 a2 hw.short.1 hw.short.2]
    simp only [List.isPrefixOf, not_true_eq_false, if_false, numeral_eq, pyInt_decimal,
      List.length_nil, List.drop_zero]
    rfl

lemma dirname_child (r n : Text) (hr : r ≠ []) (hl : ∀ x ∈ r.getLast?, x ≠ '/') (hn : '/' ∉ n) :
    pathDirname (r ++ "/".toList ++ n) = r := by
  obtain ⟨a, b, rfl⟩ : ∃ a b, r = a ++ [b] := ⟨_, _, (List.dropLast_append_getLast hr).symm⟩
  have hb : b ≠ '/' := hl b (by simp)
  unfold pathDirname
  have h1 : (a ++ [b] ++ "/".toList ++ n).reverse.dropWhile (fun c => decide (c ≠ '/')) =
      '/' :: b :: a.reverse := by
    rw [List.reverse_append, span_drop]
    · simp
    · intro x hx
      have : x ≠ '/' := fun h => hn (h ▸ List.mem_reverse.1 hx)
      simpa using this
    · intro x hx
      simp at hx
      subst hx
      simp
  simp only [h1]
  rw [if_neg]
  · unfold rstrip lstrip
    simp [hb]
  · simp [hb]

lemma goUp_file (root : Text) (hr : root ≠ []) (hl : ∀ x ∈ root.getLast?, x ≠ '/') :
    goUp (getConfig.versionfileSource.splitOn '/').length
      (root ++ "/crowddynamics/_version.py".toList) = root := by
  have h2 : (getConfig.versionfileSource.splitOn '/').length = 2 := by decide
  rw [h2, goUp, goUp, goUp, show root ++ "/crowddynamics/_version.py".toList =
    (root ++ "/crowddynamics".toList) ++ "/".toList ++ "_version.py".toList by simp,
    dirname_child _ _ (by simp) (by simp) (by decide),
    show root ++ "/crowddynamics".toList = root ++ "/".toList ++ "crowddynamics".toList by simp,
    dirname_child _ _ hr hl (by decide)]

lemma keywords_unexpanded (p : Text) : gitVersionsFromKeywords getKeywords p = .error .notThisMethod := by
  have : "$Format".toList.isPrefixOf (pyStrip "$Format:%d$".toList) = true := by decide
  unfold gitVersionsFromKeywords getKeywords
  simp only [this, if_true]

lemma style_shipped (p : Pieces) : renderStyle p getConfig.style = renderPep440 p := by
  unfold renderStyle
  rw [show getConfig.style = "pep440".toList from rfl]
  have h : (if "pep440".toList = [] ∨ "pep440".toList = "default".toList then "pep440".toList
      else "pep440".toList) = "pep440".toList := ite_self _
  simp only [h, if_true]

/-- The version of a working copy. -/
lemma checkout_versions_at {popen : Text → List Text → Text → Ran} {win32 : Bool} {root file : Text}
    {git : List Text → Ran} (h : Installed popen (gitNames win32) root git) (c : Checkout)
    (hw : c.WellFormed) (hg : Reports git c)
    (hf : goUp (getConfig.versionfileSource.splitOn '/').length file = root) :
    getVersions getConfig getKeywords (some file) win32 popen = .ok c.info := by
  unfold getVersions
  rw [keywords_unexpanded]
  simp only [hf]
  rw [show getConfig.tagPrefix = [] from rfl, pieces_checkout h c hw hg]
  simp only [renderVersion]
  rw [style_shipped]
  unfold Checkout.info Checkout.version
  unfold renderPep440 truthyTag getKey
  cases htag : c.tag with
  | none =>
    simp only [Option.map_none, Option.getD_none, bind, Except.bind, formatInt_nat]
  | some tk =>
    obtain ⟨t, k⟩ := tk
    obtain ⟨a1, a2⟩ := hw.tag t k htag
    cases t with
    | nil => exact absurd rfl a1
    | cons y ys =>
      simp only [Option.map_some, Option.getD_some]
      by_cases hc : k = 0 ∧ c.dirty = false
      · rw [if_pos hc]
        simp only [bind, Except.bind]
        rw [if_neg (by rintro (h | h); · exact h (by simp [hc.1])
                       · rw [hc.2] at h; cases h)]
      · rw [if_neg hc]
        simp only [bind, Except.bind]
        rw [if_pos (by
          by_cases hk : k = 0
          · right
            cases hd : c.dirty with
            | true => rfl
            | false => exact absurd ⟨hk, hd⟩ hc
          · left; exact_mod_cast hk)]
        unfold plusOrDot
        simp only
        by_cases hp : '+' ∈ y :: ys
        · simp only [if_pos hp, formatInt_nat]
          simp
        · simp only [if_neg hp, formatInt_nat]
          simp

lemma checkout_versions {popen : Text → List Text → Text → Ran} {win32 : Bool} {root : Text}
    {git : List Text → Ran} (h : Installed popen (gitNames win32) root git) (c : Checkout)
    (hw : c.WellFormed) (hg : Reports git c) (hr : root ≠ []) (hl : ∀ x ∈ root.getLast?, x ≠ '/') :
    getVersions getConfig getKeywords (some (root ++ "/crowddynamics/_version.py".toList)) win32 popen =
      .ok c.info :=
  checkout_versions_at h c hw hg (goUp_file root hr hl)

lemma goUp_root : goUp (getConfig.versionfileSource.splitOn '/').length
    "/crowddynamics/_version.py".toList = "/".toList := by decide

/-! ## Versions of different states -/

lemma split_unique {β : Type} (p : β → Bool) {a a' r r' : List β} (ha : ∀ x ∈ a, p x = true)
    (ha' : ∀ x ∈ a', p x = true) (hr : ∀ x ∈ r.head?, p x = false) (hr' : ∀ x ∈ r'.head?, p x = false)
    (h : a ++ r = a' ++ r') : a = a' ∧ r = r' := by
  have h1 := span_take p a r ha hr
  have h2 := span_drop p a r ha hr
  rw [h, span_take p a' r' ha' hr'] at h1
  rw [h, span_drop p a' r' ha' hr'] at h2
  exact ⟨h1.symm, h2.symm⟩

lemma numeral_injective {k k' : ℕ} (h : numeral k = numeral k') : k = k' := by
  rw [numeral_eq, numeral_eq] at h
  exact decimal_injective h

lemma numeral_mem {k : ℕ} {x : Char} (h : x ∈ numeral k) : 48 ≤ x.toNat ∧ x.toNat ≤ 57 := by
  rw [numeral_eq] at h
  exact ⟨(digit_facts (decimal_digits k x h)).2.2.2.1, (digit_facts (decimal_digits k x h)).2.2.2.2⟩

lemma numeral_ne_nil (k : ℕ) : numeral k ≠ [] := by rw [numeral_eq]; exact decimal_ne_nil k

/-- The end of a version. -/
def Spec.tailText (k : ℕ) (s : Text) (d : Bool) : Text :=
  numeral k ++ ".g".toList ++ s ++ if d then ".dirty".toList else []

lemma tail_injective {k k' : ℕ} {s s' : Text} {d d' : Bool} (hs : '.' ∉ s) (hs' : '.' ∉ s')
    (h : tailText k s d = tailText k' s' d') : k = k' ∧ s = s' ∧ d = d' := by
  unfold tailText at h
  have no : ∀ k : ℕ, ∀ x ∈ numeral k, decide (x ≠ '.') = true := by
    intro k x hx
    have := numeral_mem hx
    have : x ≠ '.' := by
      rintro rfl
      revert this
      decide
    simpa using this
  simp only [List.append_assoc] at h
  obtain ⟨h1, h2⟩ := split_unique (fun x => decide (x ≠ '.')) (no k) (no k')
    (by intro x hx; simp at hx; subst hx; simp) (by intro x hx; simp at hx; subst hx; simp) h
  have h3 := List.append_cancel_left h2
  have hd : ∀ d : Bool, ∀ x ∈ (if d then ".dirty".toList else []).head?, decide (x ≠ '.') = false := by
    intro d x hx
    cases d
    · simp at hx
    · simp at hx; subst hx; simp
  obtain ⟨h4, h5⟩ := split_unique (fun x => decide (x ≠ '.'))
    (by intro x hx; have : x ≠ '.' := fun h => hs (h ▸ hx)
        simpa using this)
    (by intro x hx; have : x ≠ '.' := fun h => hs' (h ▸ hx)
        simpa using this) (hd d) (hd d') h3
  refine ⟨numeral_injective h1, h4, ?_⟩
  cases d <;> cases d' <;> simp at h5 <;> rfl

lemma hex_no_dot {s : Text} (h : ∀ x ∈ s, x ∈ hexDigits) : '.' ∉ s := fun hm =>
  (hex_black (h '.' hm)).2.2.2.2.2 rfl

lemma version_tagged {c : Checkout} {t : Text} {k : ℕ} (h : c.tag = some (t, k)) (hp : '+' ∉ t) :
    c.version = if k = 0 ∧ c.dirty = false then t else t ++ '+' :: tailText k c.short c.dirty := by
  unfold Checkout.version tailText
  rw [h]
  simp only [if_neg hp]
  by_cases hc : k = 0 ∧ c.dirty = false
  · rw [if_pos hc, if_pos hc]
  · rw [if_neg hc, if_neg hc]
    simp

lemma version_untagged {c : Checkout} (h : c.tag = none) :
    c.version = "0".toList ++ '+' :: ("untagged.".toList ++ tailText c.commits (c.hash.take 7) c.dirty) := by
  unfold Checkout.version tailText
  rw [h]
  simp

lemma tagged_untagged {c c' : Checkout} {t : Text} {k : ℕ} (h : c.tag = some (t, k)) (hp : '+' ∉ t)
    (h' : c'.tag = none) : c.version ≠ c'.version := by
  intro he
  rw [version_tagged h hp, version_untagged h'] at he
  by_cases hc : k = 0 ∧ c.dirty = false
  · rw [if_pos hc] at he
    apply hp
    rw [he]
    simp
  · rw [if_neg hc] at he
    obtain ⟨-, h2⟩ := split_unique (fun x => decide (x ≠ '+'))
      (by intro x hx; have : x ≠ '+' := fun h => hp (h ▸ hx)
          simpa using this) (by decide)
      (by intro x hx; simp at hx; subst hx; simp) (by intro x hx; simp at hx; subst hx; simp) he
    rw [List.cons.injEq] at h2
    have h3 := h2.2
    unfold tailText at h3
    cases hn : numeral k with
    | nil => exact numeral_ne_nil k hn
    | cons y ys =>
      have hy := numeral_mem (k := k) (x := y) (by rw [hn]; simp)
      rw [hn] at h3
      simp at h3
      rw [h3.1] at hy
      revert hy
      decide

lemma version_injective {c c' : Checkout} (hw : c.WellFormed) (hw' : c'.WellFormed)
    (hp : ∀ t k, c.tag = some (t, k) → '+' ∉ t) (hp' : ∀ t k, c'.tag = some (t, k) → '+' ∉ t)
    (h : c.version = c'.version) :
    c.tag = c'.tag ∧ c.dirty = c'.dirty ∧
    (∀ t k, c.tag = some (t, k) → k ≠ 0 ∨ c.dirty = true → c.short = c'.short) ∧
    (c.tag = none → c.commits = c'.commits ∧ c.hash.take 7 = c'.hash.take 7) := by
  cases htag : c.tag with
  | none =>
    cases htag' : c'.tag with
    | none =>
      rw [version_untagged htag, version_untagged htag'] at h
      have h2 := List.append_cancel_left h
      rw [List.cons.injEq] at h2
      have h3 := List.append_cancel_left h2.2
      obtain ⟨a, b, e⟩ := tail_injective
        (hex_no_dot fun x hx => hw.hash.2 x (List.mem_of_mem_take hx))
        (hex_no_dot fun x hx => hw'.hash.2 x (List.mem_of_mem_take hx)) h3
      exact ⟨rfl, e, fun t k hh => (by cases hh), fun _ => ⟨a, b⟩⟩
    | some tk => exact absurd h.symm (tagged_untagged htag' (hp' _ _ htag') htag)
  | some tk =>
    obtain ⟨t, k⟩ := tk
    cases htag' : c'.tag with
    | none => exact absurd h (tagged_untagged htag (hp _ _ htag) htag')
    | some tk' =>
      obtain ⟨t', k'⟩ := tk'
      have q := hp _ _ htag
      have q' := hp' _ _ htag'
      rw [version_tagged htag q, version_tagged htag' q'] at h
      by_cases hc : k = 0 ∧ c.dirty = false
      · by_cases hc' : k' = 0 ∧ c'.dirty = false
        · rw [if_pos hc, if_pos hc'] at h
          refine ⟨by rw [h, hc.1, hc'.1], by rw [hc.2, hc'.2], ?_, fun hh => by cases hh⟩
          intro t1 k1 hh hor
          cases hh
          rcases hor with h1 | h1
          · exact absurd hc.1 h1
          · rw [hc.2] at h1; cases h1
        · rw [if_pos hc, if_neg hc'] at h
          exact absurd (by rw [h]; simp) q
      · by_cases hc' : k' = 0 ∧ c'.dirty = false
        · rw [if_neg hc, if_pos hc'] at h
          exact absurd (by rw [← h]; simp) q'
        · rw [if_neg hc, if_neg hc'] at h
          obtain ⟨h1, h2⟩ := split_unique (fun x => decide (x ≠ '+'))
            (by intro x hx; have : x ≠ '+' := fun h => q (h ▸ hx)
                simpa using this)
            (by intro x hx; have : x ≠ '+' := fun h => q' (h ▸ hx)
                simpa using this)
            (by intro x hx; simp at hx; subst hx; simp) (by intro x hx; simp at hx; subst hx; simp) h
          rw [List.cons.injEq] at h2
          obtain ⟨a, b, e⟩ := tail_injective (hex_no_dot hw.short.2) (hex_no_dot hw'.short.2) h2.2
          exact ⟨by rw [h1, a], e, fun _ _ _ _ => b, fun hh => by cases hh⟩

/-! ## Canonical versions -/

lemma local_append {l l' : Text} (h : IsLocal l) (h' : IsLocal l') :
    IsLocal (l ++ ".".toList ++ l') := by
  induction h with
  | one hk => exact .more hk h'
  | more hk _ ih =>
    rw [show ∀ k r : Text, k ++ ".".toList ++ r ++ ".".toList ++ l' = k ++ ".".toList ++
      (r ++ ".".toList ++ l') from fun k r => by simp]
    exact .more hk ih

lemma alnum_numeral (k : ℕ) : Alnum (numeral k) :=
  ⟨numeral_ne_nil k, fun _ hx => Or.inl (numeral_mem hx)⟩

lemma alnum_hex {s : Text} (h : ∀ x ∈ s, x ∈ hexDigits) : Alnum ('g' :: s) := by
  refine ⟨by simp, fun x hx => ?_⟩
  rcases List.mem_cons.1 hx with rfl | hx
  · right; decide
  · have key : ∀ x ∈ hexDigits, (48 ≤ x.toNat ∧ x.toNat ≤ 57) ∨ (97 ≤ x.toNat ∧ x.toNat ≤ 122) := by
      decide
    exact key x (h x hx)

lemma local_tail (k : ℕ) {s : Text} (h : ∀ x ∈ s, x ∈ hexDigits) (d : Bool) : IsLocal (tailText k s d) := by
  have h1 : IsLocal (numeral k ++ ".".toList ++ 'g' :: s) :=
    .more (alnum_numeral k) (.one (alnum_hex h))
  unfold tailText
  cases d with
  | false => simpa using h1
  | true =>
    have h2 := local_append h1 (.one (k := "dirty".toList) ⟨by simp, by decide⟩)
    simpa using h2

lemma number_char {s : Text} (h : IsNumber s) {x : Char} (hx : x ∈ s) : x ≠ '+' := by
  have := (h.2.1 x hx).1
  rintro rfl
  revert this
  decide

lemma release_char {s : Text} (h : IsRelease s) {x : Char} (hx : x ∈ s) : x ≠ '+' := by
  induction h with
  | one hk => exact number_char hk hx
  | more hk _ ih =>
    rcases List.mem_append.1 hx with hx | hx
    · rcases List.mem_append.1 hx with hx | hx
      · exact number_char hk hx
      · simp at hx; subst hx; decide
    · exact ih hx

lemma opt_char {sep s : Text} (h : OptNumber sep s) (hs : '+' ∉ sep) {x : Char} (hx : x ∈ s) : x ≠ '+' := by
  rcases h with rfl | ⟨k, hk, rfl⟩
  · cases hx
  · rcases List.mem_append.1 hx with hx | hx
    · rintro rfl; exact hs hx
    · exact number_char hk hx

lemma public_no_plus {s : Text} (h : IsPublic s) : '+' ∉ s := by
  obtain ⟨e, r, pre, post, dev, rfl, he, hr, hpre, hpost, hdev⟩ := h
  intro hx
  simp only [List.mem_append] at hx
  rcases hx with (((hx | hx) | hx) | hx) | hx
  · rcases he with rfl | ⟨k, hk, rfl⟩
    · cases hx
    · rcases List.mem_append.1 hx with hx | hx
      · exact number_char hk hx rfl
      · simp at hx
  · exact release_char hr hx rfl
  · rcases hpre with h | h | h
    · exact opt_char h (by decide) hx rfl
    · exact opt_char h (by decide) hx rfl
    · exact opt_char h (by decide) hx rfl
  · exact opt_char hpost (by decide) hx rfl
  · exact opt_char hdev (by decide) hx rfl

lemma public_zero : IsPublic "0".toList :=
  ⟨[], "0".toList, [], [], [], rfl, Or.inl rfl, .one ⟨by decide, by decide, by decide⟩, Or.inl (Or.inl rfl),
    Or.inl rfl, Or.inl rfl⟩

lemma version_canonical {c : Checkout} (hw : c.WellFormed)
    (ht : ∀ t k, c.tag = some (t, k) → IsVersion t) : IsVersion c.version := by
  cases htag : c.tag with
  | none =>
    rw [version_untagged htag]
    refine Or.inr ⟨"0".toList, "untagged.".toList ++ tailText c.commits (c.hash.take 7) c.dirty,
      public_zero, ?_, by simp⟩
    have := IsLocal.more (k := "untagged".toList) ⟨by decide, by decide⟩
      (local_tail c.commits (fun x hx => hw.hash.2 x (List.mem_of_mem_take hx)) c.dirty
        (s := c.hash.take 7))
    simpa using this
  | some tk =>
    obtain ⟨t, k⟩ := tk
    have hl := local_tail k hw.short.2 c.dirty
    rcases ht t k htag with hp | ⟨p, l, hp, hll, rfl⟩
    · rw [version_tagged htag (public_no_plus hp)]
      by_cases hc : k = 0 ∧ c.dirty = false
      · rw [if_pos hc]; exact Or.inl hp
      · rw [if_neg hc]
        exact Or.inr ⟨t, _, hp, hl, by simp⟩
    · unfold Checkout.version
      rw [htag]
      simp only
      by_cases hc : k = 0 ∧ c.dirty = false
      · rw [if_pos hc]; exact Or.inr ⟨p, l, hp, hll, rfl⟩
      · rw [if_neg hc, if_pos (by simp)]
        refine Or.inr ⟨p, _, hp, local_append hll hl, ?_⟩
        unfold tailText
        simp

/-! ## Keywords -/

lemma pyStrip_both (w s w' : Text) (h : ∀ x ∈ s.head?, isSpace x = false)
    (h' : ∀ x ∈ s.getLast?, isSpace x = false) (hs : s ≠ []) (hw : ∀ x ∈ w, isSpace x = true)
    (hw' : ∀ x ∈ w', isSpace x = true) : pyStrip (w ++ s ++ w') = s := by
  have e := pyStrip_trim s w' h h' hs hw'
  unfold pyStrip at e ⊢
  rw [List.append_assoc, List.dropWhile_append_of_pos hw]
  exact e

lemma ref_ends (r : Ref) (h : r.Plain) : r.text ≠ [] ∧ (∀ x ∈ r.text.head?, isSpace x = false) ∧
    (∀ x ∈ r.text.getLast?, isSpace x = false) := by
  cases r with
  | tag name =>
    obtain ⟨-, h1, h2⟩ := h
    refine ⟨by simp [Ref.text], fun x hx => ?_, fun x hx => ?_⟩
    · simp [Ref.text] at hx
      subst hx
      decide
    · unfold Ref.text at hx
      rw [List.getLast?_append] at hx
      cases hl : name.getLast? with
      | none => exact absurd (List.getLast?_eq_none_iff.1 hl) h1
      | some y =>
        rw [hl] at hx
        cases hx
        exact black_not_space (h2 _ (List.mem_of_getLast? hl))
  | other name =>
    obtain ⟨-, h1, h2, h3, -⟩ := h
    exact ⟨h1, fun x hx => black_not_space (h2 x hx), fun x hx => black_not_space (h3 x hx)⟩

lemma decorate_intercalate (r : Ref) (rest : List Ref) :
    decorate (r :: rest) = [','].intercalate (r.text :: rest.map fun r => ' ' :: r.text) := by
  induction rest generalizing r with
  | nil => simp [decorate]
  | cons r' rest ih =>
    rw [decorate, ih]
    · simp
    · simp

lemma decorate_ends (r : Ref) (rest : List Ref) (h : ∀ x ∈ r :: rest, x.Plain) :
    decorate (r :: rest) ≠ [] ∧ ∀ x ∈ decorate (r :: rest), x ≠ '(' ∧ x ≠ ')' := by
  induction rest generalizing r with
  | nil =>
    have h1 := h r List.mem_cons_self
    exact ⟨(ref_ends r h1).1, fun x hx => (h1.1 x hx).2⟩
  | cons r' rest ih =>
    have h1 := h r List.mem_cons_self
    have h2 := ih r' fun x hx => h x (List.mem_cons_of_mem _ hx)
    refine ⟨by rw [decorate]; · simp
               · simp, fun x hx => ?_⟩
    have he : decorate (r :: r' :: rest) = r.text ++ ", ".toList ++ decorate (r' :: rest) := by
      rw [decorate]
      simp
    rw [he] at hx
    rcases List.mem_append.1 hx with hx | hx
    · rcases List.mem_append.1 hx with hx | hx
      · exact (h1.1 x hx).2
      · have key : ∀ x ∈ ", ".toList, x ≠ '(' ∧ x ≠ ')' := by decide
        exact key x hx
    · exact h2.2 x hx

lemma parens_strip (s : Text) (hs : s ≠ []) (h : ∀ x ∈ s, x ≠ '(' ∧ x ≠ ')') :
    stripParens ("(".toList ++ s ++ ")".toList) = s := by
  obtain ⟨a, b, rfl⟩ : ∃ a b, s = a :: b := by
    cases s with
    | nil => exact absurd rfl hs
    | cons a b => exact ⟨a, b, rfl⟩
  have ha := h a List.mem_cons_self
  obtain ⟨e, l, hl⟩ : ∃ e l, (a :: b).reverse = e :: l := by
    cases hr : (a :: b).reverse with
    | nil => exact absurd (List.reverse_eq_nil_iff.1 hr) hs
    | cons e l => exact ⟨e, l, rfl⟩
  have he := h e (List.mem_reverse.1 (by rw [hl]; simp))
  unfold stripParens rstrip lstrip
  have h1 : ("(".toList ++ a :: b ++ ")".toList).dropWhile (fun c => decide (c ∈ ['(', ')'])) =
      a :: b ++ ")".toList := by simp [ha.1, ha.2]
  rw [h1, List.reverse_append, hl]
  have h2 : (")".toList.reverse ++ e :: l).dropWhile (fun c => decide (c ∈ ['(', ')'])) = e :: l := by
    simp [he.1, he.2]
  rw [h2, ← hl, List.reverse_reverse]

lemma keywordRefs_expanded (refs : List Ref) (hne : refs ≠ []) (h : ∀ x ∈ refs, x.Plain) :
    keywordRefs (expanded refs) = refs.map Ref.text ∧
      "$Format".toList.isPrefixOf (pyStrip (expanded refs)) = false := by
  cases refs with
  | nil => exact absurd rfl hne
  | cons r rest =>
    obtain ⟨h1, h2⟩ := decorate_ends r rest h
    have hs : pyStrip (expanded (r :: rest)) = "(".toList ++ decorate (r :: rest) ++ ")".toList := by
      unfold expanded
      rw [if_neg (by simp), show " (".toList ++ decorate (r :: rest) ++ ")".toList =
        " ".toList ++ ("(".toList ++ decorate (r :: rest) ++ ")".toList) ++ [] by simp,
        pyStrip_both]
      · intro x hx; simp at hx; subst hx; decide
      · intro x hx
        rw [List.getLast?_append] at hx
        simp at hx
        subst hx
        decide
      · simp
      · decide
      · simp
    refine ⟨?_, ?_⟩
    · unfold keywordRefs
      rw [hs, parens_strip _ h1 h2, decorate_intercalate, List.splitOn_intercalate]
      · rw [List.map_cons, List.map_map, List.map_cons]
        congr 1
        · obtain ⟨-, a, b⟩ := ref_ends r (h r List.mem_cons_self)
          exact pyStrip_self _ a b
        · apply List.map_congr_left
          intro x hx
          obtain ⟨a, b, e⟩ := ref_ends x (h x (List.mem_cons_of_mem _ hx))
          have := pyStrip_both " ".toList x.text [] b e a (by decide) (by simp)
          simpa using this
      · intro l hl hm
        rcases List.mem_cons.1 hl with rfl | hl
        · exact ((h r List.mem_cons_self).1 ',' hm).1 rfl
        · obtain ⟨x, hx, rfl⟩ := List.mem_map.1 hl
          rcases List.mem_cons.1 hm with hm | hm
          · revert hm; decide
          · exact ((h x (List.mem_cons_of_mem _ hx)).1 ',' hm).1 rfl
      · simp
    · rw [hs]
      simp [List.isPrefixOf]

lemma keywordRefs_nil : keywordRefs (expanded []) = [[]] ∧
    "$Format".toList.isPrefixOf (pyStrip (expanded [])) = false := by
  unfold expanded
  rw [if_pos rfl]
  decide

lemma tags_expanded (refs : List Ref) (h : ∀ x ∈ refs, x.Plain) :
    ((refs.map Ref.text).filter fun r => "tag: ".toList.isPrefixOf r).map (fun r => r.drop 5) =
      tagNames refs := by
  induction refs with
  | nil => rfl
  | cons r rest ih =>
    have ih := ih fun x hx => h x (List.mem_cons_of_mem _ hx)
    have hr := h r List.mem_cons_self
    unfold tagNames at ih ⊢
    rw [List.map_cons, List.filter_cons]
    cases r with
    | tag name =>
      rw [if_pos (by simp [Ref.text, List.isPrefixOf]), List.map_cons, ih, List.filterMap_cons]
      simp [Ref.text]
    | other name =>
      rw [if_neg, ih, List.filterMap_cons]
      intro hp
      rw [List.isPrefixOf_iff_prefix] at hp
      exact hr.2.2.2.2 hp

lemma textLe_before : ∀ s t : Text, textLe s t = true ↔ Before s t
  | [], [] => by simp [textLe, Before]
  | [], b :: t => by simp [textLe, Before]
  | a :: s, [] => by
      simp only [textLe, Before, Bool.false_eq_true, false_iff]
      rintro (h | h)
      · cases h
      · cases h
  | a :: s, b :: t => by
      unfold textLe
      by_cases hab : a = b
      · subst hab
        rw [if_pos rfl, textLe_before s t]
        constructor
        · rintro (h | h)
          · exact Or.inl (by rw [h])
          · exact Or.inr (.cons h)
        · rintro (h | h)
          · exact Or.inl (by simpa using h)
          · cases h with
            | cons h => exact Or.inr h
            | rel h => exact absurd h (lt_irrefl _)
      · rw [if_neg hab, decide_eq_true_eq]
        constructor
        · exact fun h => Or.inr (.rel h)
        · rintro (h | h)
          · rw [List.cons.injEq] at h; exact absurd h.1 hab
          · cases h with
            | cons h => exact absurd rfl hab
            | rel h => exact h

lemma textLe_total : ∀ s t : Text, textLe s t = false → textLe t s = true
  | [], t, h => by simp [textLe] at h
  | a :: s, [], _ => rfl
  | a :: s, b :: t, h => by
      unfold textLe at h ⊢
      by_cases hab : a = b
      · subst hab
        rw [if_pos rfl] at h ⊢
        exact textLe_total s t h
      · rw [if_neg hab] at h
        rw [if_neg (Ne.symm hab)]
        simp at h
        have : a.toNat ≠ b.toNat := fun h' => hab (Char.toNat_inj.1 h')
        simp
        omega

lemma textLe_trans : ∀ s t u : Text, textLe s t = true → textLe t u = true → textLe s u = true
  | [], _, _, _, _ => by simp [textLe]
  | a :: s, [], u, h, _ => by simp [textLe] at h
  | a :: s, b :: t, [], _, h => by simp [textLe] at h
  | a :: s, b :: t, c :: u, h, h' => by
      unfold textLe at h h' ⊢
      by_cases hab : a = b
      · subst hab
        rw [if_pos rfl] at h
        by_cases hbc : a = c
        · subst hbc
          rw [if_pos rfl] at h' ⊢
          exact textLe_trans s t u h h'
        · rw [if_neg hbc] at h' ⊢
          exact h'
      · rw [if_neg hab] at h
        simp at h
        by_cases hbc : b = c
        · subst hbc
          rw [if_neg hab]
          simpa using h
        · rw [if_neg hbc] at h'
          simp at h'
          rw [if_neg (by rintro rfl; omega)]
          simp
          omega

lemma textLe_refl (s : Text) : textLe s s = true := (textLe_before s s).2 (Or.inl rfl)

lemma sortedSet_head (l : List Text) (hl : l ≠ []) :
    ∃ x rest, sortedSet l = x :: rest ∧ x ∈ l ∧ ∀ y ∈ l, textLe x y = true := by
  induction l with
  | nil => exact absurd rfl hl
  | cons a l ih =>
    unfold sortedSet at ih ⊢
    rw [List.foldr_cons]
    by_cases hn : l = []
    · subst hn
      exact ⟨a, [], rfl, List.mem_cons_self, by
        intro y hy
        rw [List.mem_singleton] at hy
        rw [hy]
        exact textLe_refl a⟩
    · obtain ⟨x, rest, he, hx, hm⟩ := ih hn
      rw [he]
      unfold insertText
      by_cases hax : a = x
      · subst hax
        exact ⟨a, rest, by rw [if_pos rfl], List.mem_cons_self, by
          intro y hy
          rcases List.mem_cons.1 hy with rfl | hy
          · exact textLe_refl y
          · exact hm y hy⟩
      · rw [if_neg hax]
        cases hc : textLe a x with
        | true =>
          exact ⟨a, x :: rest, by rw [if_pos rfl], List.mem_cons_self, by
            intro y hy
            rcases List.mem_cons.1 hy with rfl | hy
            · exact textLe_refl y
            · exact textLe_trans _ _ _ hc (hm y hy)⟩
        | false =>
          refine ⟨x, insertText a rest, by rw [if_neg (by simp)], List.mem_cons_of_mem _ hx, ?_⟩
          intro y hy
          rcases List.mem_cons.1 hy with rfl | hy
          · exact textLe_total _ _ hc
          · exact hm y hy

lemma sortedSet_nil : sortedSet [] = [] := rfl

lemma find_first (l : List Text) : (l.find? fun ref => ([] : Text).isPrefixOf ref) = l.head? := by
  cases l with
  | nil => rfl
  | cons a l => rw [List.find?_cons_of_pos (by simp [List.isPrefixOf])]; rfl

/-! ## No exceptions -/

lemma describe_number {s t n x : Text} (h : describeMatch s = some (t, n, x)) :
    n ≠ [] ∧ ∀ c ∈ n, isDigitChar c = true := by
  unfold describeMatch at h
  simp only at h
  split at h
  · rename_i a b r h1 h2
    split at h
    · rename_i a' b' tag h3 h4
      split_ifs at h
      simp only [Option.some.injEq, Prod.mk.injEq] at h
      rw [← h.2.1]
      refine ⟨by rw [h3]; simp, fun c hc => ?_⟩
      exact List.mem_takeWhile_imp (List.mem_reverse.1 hc)
    · cases h
  · cases h

lemma intBody_digits (s : Text) (h : ∀ c ∈ s, isDigitChar c = true) (acc : ℕ) :
    ∃ v, intBody acc true s = some v := by
  induction s generalizing acc with
  | nil => exact ⟨acc, rfl⟩
  | cons c s ih =>
    have hc := h c List.mem_cons_self
    unfold isDigitChar at hc
    simp at hc
    have h1 : c ≠ '_' := by
      rintro rfl
      revert hc
      decide
    have h2 : digitValue c = some (c.toNat - 48) := if_pos hc
    unfold intBody
    rw [if_neg h1, h2]
    exact ih (fun x hx => h x (List.mem_cons_of_mem _ hx)) _

lemma pyInt_digits (s : Text) (hs : s ≠ []) (h : ∀ c ∈ s, isDigitChar c = true) :
    ∃ v, pyInt s = .ok v := by
  have hsp : ∀ c ∈ s, isSpace c = false := fun c hc => by
    have := h c hc
    unfold isDigitChar at this
    simp at this
    apply black_not_space
    omega
  have e : ((s.dropWhile isSpace).reverse.dropWhile isSpace).reverse = s :=
    pyStrip_self s (fun x hx => hsp x (List.mem_of_mem_head? hx))
      (fun x hx => hsp x (List.mem_of_getLast? hx))
  obtain ⟨c, r, rfl⟩ : ∃ c r, s = c :: r := by
    cases s with
    | nil => exact absurd rfl hs
    | cons c r => exact ⟨c, r, rfl⟩
  have hc := h c List.mem_cons_self
  unfold isDigitChar at hc
  simp at hc
  have h1 : c ≠ '_' := by rintro rfl; revert hc; decide
  have hm : c ≠ '-' := by rintro rfl; revert hc; decide
  have hp : c ≠ '+' := by rintro rfl; revert hc; decide
  have h2 : digitValue c = some (c.toNat - 48) := if_pos hc
  obtain ⟨v, hv⟩ : ∃ v, intBody 0 false (c :: r) = some v := by
    unfold intBody
    rw [if_neg h1, h2]
    exact intBody_digits r (fun x hx => h x (List.mem_cons_of_mem _ hx)) _
  refine ⟨v, ?_⟩
  unfold pyInt
  simp only [e]
  split
  · rename_i heq; rw [List.cons.injEq] at heq; exact absurd heq.1 hm
  · rename_i heq; rw [List.cons.injEq] at heq; exact absurd heq.1 hp
  · rw [hv]

/-- Pieces that can be rendered. -/
def Spec.Renderable (p : Pieces) : Prop :=
  p.error ≠ none ∨ ((∃ t, p.closestTag = some t) ∧ ∃ d, p.distance = some d)

lemma render_ok (p : Pieces) (h : Renderable p) : ∃ v, renderVersion p getConfig.style = .ok v := by
  unfold renderVersion
  cases he : p.error with
  | some e => exact ⟨_, rfl⟩
  | none =>
    rcases h with h | ⟨⟨t, ht⟩, d, hd⟩
    · exact absurd he h
    · rw [style_shipped]
      simp only
      obtain ⟨v, hv⟩ : ∃ v, renderPep440 p = .ok v := by
        unfold renderPep440 truthyTag plusOrDot
        rw [ht, hd]
        unfold getKey
        simp only [bind, Except.bind]
        match t with
        | none => exact ⟨_, rfl⟩
        | some [] => exact ⟨_, rfl⟩
        | some (y :: ys) =>
          simp only
          by_cases hc : d ≠ 0 ∨ p.dirty = true
          · rw [if_pos hc]
            by_cases hp : '+' ∈ y :: ys
            · rw [if_pos hp]; exact ⟨_, rfl⟩
            · rw [if_neg hp]; exact ⟨_, rfl⟩
          · rw [if_neg hc]; exact ⟨_, rfl⟩
      rw [hv]
      exact ⟨_, rfl⟩

lemma pieces_ok (run : List Text → Option Text × Option ℤ) (p date count : Text)
    (hcount : (run argsCount).1 = some count) (hn : count ≠ [] ∧ ∀ c ∈ count, isDigitChar c = true)
    (hdate : (run argsShow).1 = some date) :
    gitPiecesFromVcs run p = .error .notThisMethod ∨
      ∃ q, gitPiecesFromVcs run p = .ok q ∧ Renderable q := by
  unfold gitPiecesFromVcs piecesDate
  by_cases h0 : (run argsGitDir).2 ≠ some 0
  · rw [if_pos h0]; exact Or.inl rfl
  · rw [if_neg h0]
    cases h1 : (run (argsDescribe p)).1 with
    | none => exact Or.inl rfl
    | some out =>
      cases h2 : (run argsHead).1 with
      | none => exact Or.inl rfl
      | some full =>
        right
        simp only [hcount, hdate]
        generalize (if "-dirty".toList.isSuffixOf (pyStrip out) = true then
          List.take ((pyStrip out).length - 6) (pyStrip out) else pyStrip out) = gd
        by_cases h3 : '-' ∈ gd
        · rw [if_pos h3]
          cases h4 : describeMatch gd with
          | none => exact ⟨_, rfl, Or.inl (by simp)⟩
          | some m =>
            obtain ⟨a, b, e⟩ := m
            simp only
            by_cases h5 : ¬ p.isPrefixOf a = true
            · rw [if_pos h5]; exact ⟨_, rfl, Or.inl (by simp)⟩
            · rw [if_neg h5]
              obtain ⟨k1, k2⟩ := describe_number h4
              obtain ⟨v, hv⟩ := pyInt_digits b k1 k2
              rw [hv]
              exact ⟨_, rfl, Or.inr ⟨⟨_, rfl⟩, _, rfl⟩⟩
        · rw [if_neg h3]
          obtain ⟨v, hv⟩ := pyInt_digits count hn.1 hn.2
          rw [hv]
          exact ⟨_, rfl, Or.inr ⟨⟨_, rfl⟩, _, rfl⟩⟩

lemma parentdir_ok (pfx : Text) (k : ℕ) (root : Text) :
    parentdirLoop pfx k root = .error .notThisMethod ∨ ∃ v, parentdirLoop pfx k root = .ok v := by
  induction k generalizing root with
  | zero => exact Or.inl rfl
  | succ k ih =>
    unfold parentdirLoop
    by_cases h : pfx.isPrefixOf (pathBasename root) = true
    · rw [if_pos h]; exact Or.inr ⟨_, rfl⟩
    · rw [if_neg h]; exact ih _

lemma fallback_ok (root : Text) :
    ∃ v, (if getConfig.parentdirPrefix = [] then
      Except.ok (⟨"0+unknown".toList, none, none, some "unable to compute version".toList, none⟩ : VersionInfo)
        else match versionsFromParentdir getConfig.parentdirPrefix root with
          | .ok v => .ok v
          | .error (.py e) => .error e
          | .error .notThisMethod =>
            .ok ⟨"0+unknown".toList, none, none, some "unable to compute version".toList, none⟩) =
      (.ok v : Except PyErr VersionInfo) := by
  rw [if_neg (by decide)]
  unfold versionsFromParentdir
  rcases parentdir_ok getConfig.parentdirPrefix 3 root with h | ⟨v, h⟩
  · rw [h]; exact ⟨_, rfl⟩
  · rw [h]; exact ⟨_, rfl⟩

end CrowdDynamics
