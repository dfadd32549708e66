import Verif.Proofs.Version

/-!
# C134 – C138: the version of the package
-/

namespace CrowdDynamics

open Spec

/-! ## Sample -/

/-- A working copy with changes, five commits after the tag 0.3.0. -/
def sampleCheckout : Checkout :=
  ⟨some ("0.3.0".toList, 5), 120, "0123456789abcdef".toList, "0123456".toList, true,
    ("2017-05-01".toList, "12:00:00".toList, "+0300".toList)⟩

/-- A working copy without tags and changes. -/
def untaggedCheckout : Checkout :=
  ⟨none, 120, "0123456789abcdef".toList, "0123456".toList, false,
    ("2017-05-01".toList, "12:00:00".toList, "+0300".toList)⟩

/-- A git that answers about the working copy `c`. -/
def gitAbout (c : Checkout) (args : List Text) : Ran :=
  if args = ["describe".toList, "--tags".toList, "--dirty".toList, "--always".toList,
    "--long".toList, "--match".toList, "*".toList] then .done (c.describe ++ "\n".toList) 0
  else if args = ["rev-parse".toList, "HEAD".toList] then .done (c.hash ++ "\n".toList) 0
  else if args = ["rev-list".toList, "HEAD".toList, "--count".toList] then
    .done (numeral c.commits ++ "\n".toList) 0
  else if args = ["show".toList, "-s".toList, "--format=%ci".toList, "HEAD".toList] then
    .done (c.date.1 ++ " ".toList ++ c.date.2.1 ++ " ".toList ++ c.date.2.2 ++ "\n".toList) 0
  else .done ".git\n".toList 0

/-- The only program is `git`. -/
def onlyGit (git : List Text → Ran) (name : Text) (args : List Text) (_ : Text) : Ran :=
  if name = "git".toList then git args else .notFound

lemma gitAbout_reports (c : Checkout) : Reports (gitAbout c) c :=
  ⟨⟨".git\n".toList, by unfold gitAbout; rw [if_neg (by decide), if_neg (by decide), if_neg (by decide),
      if_neg (by decide)]⟩,
   by unfold gitAbout; rw [if_pos rfl],
   by unfold gitAbout; rw [if_neg (by decide), if_pos rfl],
   by unfold gitAbout; rw [if_neg (by decide), if_neg (by decide), if_pos rfl],
   by unfold gitAbout; rw [if_neg (by decide), if_neg (by decide), if_neg (by decide), if_pos rfl]⟩

lemma onlyGit_installed (git : List Text → Ran) (root : Text) :
    Installed (onlyGit git) (gitNames false) root git :=
  ⟨[], "git".toList, [], rfl, by simp, fun args => by unfold onlyGit; rw [if_pos rfl]⟩

lemma sample_wellFormed : sampleCheckout.WellFormed :=
  ⟨by rintro t k ⟨⟩; exact ⟨by decide, by unfold Black; decide⟩, by decide, by decide,
   by rintro s (rfl | rfl | rfl) <;> exact ⟨by decide, by unfold Black; decide⟩⟩

lemma untagged_wellFormed : untaggedCheckout.WellFormed :=
  ⟨by rintro t k ⟨⟩, by decide, by decide,
   by rintro s (rfl | rfl | rfl) <;> exact ⟨by decide, by unfold Black; decide⟩⟩

/-! ## C134 -/

/-- **C134** In a working copy of a git repository, whatever its tags, commits and changes are,
`get_versions` returns the documented version `TAG[+DISTANCE.gHEX[.dirty]]` (without tags
`0+untagged.DISTANCE.gHEX[.dirty]`), the full hash of the last commit, whether there are changes, no
error and the date of the last commit in the form of ISO 8601. -/
theorem C134_checkout (c : Checkout) (hw : c.WellFormed) (git : List Text → Ran) (hg : Reports git c)
    (popen : Text → List Text → Text → Ran) (win32 : Bool) (root : Text)
    (h : Installed popen (gitNames win32) root git) (hr : root ≠ [])
    (hl : ∀ x, root.getLast? = some x → x ≠ '/') :
    getVersions getConfig getKeywords (some (root ++ "/crowddynamics/_version.py".toList)) win32 popen =
      .ok ⟨c.version, some c.hash, some c.dirty, none,
        some (c.date.1 ++ "T".toList ++ c.date.2.1 ++ c.date.2.2)⟩ :=
  checkout_versions h c hw hg hr hl

/-- **C134** The same for a working copy in the root directory of the file system: git is asked
about `/`. -/
theorem C134_checkout_root (c : Checkout) (hw : c.WellFormed) (git : List Text → Ran)
    (hg : Reports git c) (popen : Text → List Text → Text → Ran) (win32 : Bool)
    (h : Installed popen (gitNames win32) "/".toList git) :
    getVersions getConfig getKeywords (some "/crowddynamics/_version.py".toList) win32 popen =
      .ok ⟨c.version, some c.hash, some c.dirty, none,
        some (c.date.1 ++ "T".toList ++ c.date.2.1 ++ c.date.2.2)⟩ :=
  checkout_versions_at h c hw hg goUp_root

/-- A git that knows the sample working copy meets the hypotheses in the root directory. -/
example : Installed (onlyGit (gitAbout sampleCheckout)) (gitNames false) "/".toList
    (gitAbout sampleCheckout) ∧ Reports (gitAbout sampleCheckout) sampleCheckout :=
  ⟨onlyGit_installed _ _, gitAbout_reports _⟩

/-- The version of a working copy with changes, five commits after the tag 0.3.0, and of one without
tags. -/
example :
    getVersions getConfig getKeywords (some "/home/x/repo/crowddynamics/_version.py".toList) false
      (onlyGit (gitAbout sampleCheckout)) =
      .ok ⟨"0.3.0+5.g0123456.dirty".toList, some "0123456789abcdef".toList, some true, none,
        some "2017-05-01T12:00:00+0300".toList⟩ ∧
    getVersions getConfig getKeywords (some "/home/x/repo/crowddynamics/_version.py".toList) false
      (onlyGit (gitAbout untaggedCheckout)) =
      .ok ⟨"0+untagged.120.g0123456".toList, some "0123456789abcdef".toList, some false, none,
        some "2017-05-01T12:00:00+0300".toList⟩ :=
  ⟨C134_checkout sampleCheckout sample_wellFormed _ (gitAbout_reports _) _ false "/home/x/repo".toList
      (onlyGit_installed _ _) (by decide) (by decide),
    C134_checkout untaggedCheckout untagged_wellFormed _ (gitAbout_reports _) _ false
      "/home/x/repo".toList (onlyGit_installed _ _) (by decide) (by decide)⟩

/-! ## C135 -/

/-- The version that the package reports in a working copy. -/
def Reported (c : Checkout) (v : Text) : Prop :=
  ∃ (git : List Text → Ran) (popen : Text → List Text → Text → Ran) (win32 : Bool) (root : Text)
    (info : VersionInfo), Reports git c ∧ Installed popen (gitNames win32) root git ∧ root ≠ [] ∧
    (∀ x, root.getLast? = some x → x ≠ '/') ∧
    getVersions getConfig getKeywords (some (root ++ "/crowddynamics/_version.py".toList)) win32 popen =
      .ok info ∧ info.version = v

lemma reported_version {c : Checkout} (hw : c.WellFormed) {v : Text} (h : Reported c v) : v = c.version := by
  obtain ⟨git, popen, win32, root, info, hg, hi, hr, hl, he, rfl⟩ := h
  rw [checkout_versions hi c hw hg hr hl] at he
  cases he
  rfl

lemma reported_sample (c : Checkout) (hw : c.WellFormed) : Reported c c.version :=
  ⟨gitAbout c, onlyGit (gitAbout c), false, "/r".toList, c.info, gitAbout_reports c,
    onlyGit_installed _ _, by decide, by decide,
    checkout_versions (onlyGit_installed _ _) c hw (gitAbout_reports c) (by decide) (by decide), rfl⟩

/-- **C135** (full statement) The version identifies the state: working copies that report the same
version have the same closest tag, the same number of commits since, the same abbreviated hash unless
they are exactly at the tag, and changes in both or none. -/
def C135_statement : Prop :=
  ∀ c c' : Checkout, c.WellFormed → c'.WellFormed → ∀ v, Reported c v → Reported c' v →
    c.tag = c'.tag ∧ c.dirty = c'.dirty ∧
    (∀ t k, c.tag = some (t, k) → k ≠ 0 ∨ c.dirty = true → c.short = c'.short) ∧
    (c.tag = none → c.commits = c'.commits ∧ c.hash.take 7 = c'.hash.take 7)

/-- Two commits after the tag `1`. -/
def afterTag : Checkout :=
  ⟨some ("1".toList, 2), 120, "ab".toList, "ab".toList, false, ("d".toList, "t".toList, "z".toList)⟩

/-- Exactly at the tag `1+2.gab`. -/
def atTag : Checkout :=
  ⟨some ("1+2.gab".toList, 0), 7, "cd".toList, "cd".toList, false, ("d".toList, "t".toList, "z".toList)⟩

/-- **C135** fails for tags with `+`: a commit tagged `1+2.gab` and the commit `ab`, two commits after
the tag `1`, report the same version. -/
theorem C135_fails : ¬ C135_statement := by
  intro h
  have w1 : afterTag.WellFormed :=
    ⟨by rintro t k ⟨⟩; exact ⟨by decide, by unfold Black; decide⟩, by decide, by decide,
     by rintro s (rfl | rfl | rfl) <;> exact ⟨by decide, by unfold Black; decide⟩⟩
  have w2 : atTag.WellFormed :=
    ⟨by rintro t k ⟨⟩; exact ⟨by decide, by unfold Black; decide⟩, by decide, by decide,
     by rintro s (rfl | rfl | rfl) <;> exact ⟨by decide, by unfold Black; decide⟩⟩
  have e : afterTag.version = atTag.version := by decide
  have := (h afterTag atTag w1 w2 _ (reported_sample _ w1) (e ▸ reported_sample _ w2)).1
  revert this
  decide

/-- **C135** (partial: tags without `+`) The version identifies the state: working copies that report
the same version have the same closest tag, the same number of commits since, the same abbreviated hash
unless they are exactly at the tag, and changes in both or none. -/
theorem C135_identifies_partial (c c' : Checkout) (hw : c.WellFormed) (hw' : c'.WellFormed)
    (hp : ∀ t k, c.tag = some (t, k) → '+' ∉ t) (hp' : ∀ t k, c'.tag = some (t, k) → '+' ∉ t) (v : Text)
    (h : Reported c v) (h' : Reported c' v) :
    c.tag = c'.tag ∧ c.dirty = c'.dirty ∧
    (∀ t k, c.tag = some (t, k) → k ≠ 0 ∨ c.dirty = true → c.short = c'.short) ∧
    (c.tag = none → c.commits = c'.commits ∧ c.hash.take 7 = c'.hash.take 7) :=
  version_injective hw hw' hp hp' ((reported_version hw h).symm.trans (reported_version hw' h'))

/-- The sample working copy meets the hypotheses with another one at another commit of the branch. -/
example : ∃ c' : Checkout, c'.WellFormed ∧ c' ≠ sampleCheckout ∧
    (∀ t k, sampleCheckout.tag = some (t, k) → '+' ∉ t) ∧ (∀ t k, c'.tag = some (t, k) → '+' ∉ t) ∧
    Reported sampleCheckout "0.3.0+5.g0123456.dirty".toList ∧
    Reported c' "0.3.0+5.g0123456.dirty".toList :=
  let c' : Checkout := { sampleCheckout with commits := 121 }
  have w : c'.WellFormed := ⟨sample_wellFormed.tag, sample_wellFormed.hash, sample_wellFormed.short,
    sample_wellFormed.date⟩
  ⟨c', w, fun h => by
      have := congrArg Checkout.commits h
      revert this; decide,
    by rintro t k ⟨⟩; decide, by rintro t k ⟨⟩; decide, reported_sample _ sample_wellFormed,
    reported_sample c' w⟩

/-! ## C136 -/

/-- **C136** (full statement) The version is a canonical version in the sense of PEP 440 if the tags of
the repository are such versions: whatever programs are installed and wherever the source tree is. -/
def C136_statement : Prop :=
  ∀ (popen : Text → List Text → Text → Ran) (win32 : Bool) (root : Text) (info : VersionInfo),
    ((∃ c git, c.WellFormed ∧ (∀ t k, c.tag = some (t, k) → IsVersion t) ∧ Reports git c ∧
        Installed popen (gitNames win32) root git) ∨
      (∀ name args dir, popen name args dir = .notFound)) →
    root ≠ [] → (∀ x, root.getLast? = some x → x ≠ '/') →
    getVersions getConfig getKeywords (some (root ++ "/crowddynamics/_version.py".toList)) win32 popen =
      .ok info → IsVersion info.version

lemma nothing_found {popen : Text → List Text → Text → Ran}
    (h : ∀ name args dir, popen name args dir = .notFound) (args : List Text) (root : Text) :
    ∀ names, runCommand popen args root names = (none, none)
  | [] => rfl
  | c :: names => by rw [runCommand, h]; exact nothing_found h args root names

lemma versions_nogit {popen : Text → List Text → Text → Ran} (win32 : Bool)
    (h : ∀ name args dir, popen name args dir = .notFound) (root : Text) (hr : root ≠ [])
    (hl : ∀ x, root.getLast? = some x → x ≠ '/') :
    getVersions getConfig getKeywords (some (root ++ "/crowddynamics/_version.py".toList)) win32 popen =
      match parentdirLoop "crowddynamics-".toList 3 root with
      | .ok v => .ok v
      | .error (.py e) => .error e
      | .error .notThisMethod =>
        .ok ⟨"0+unknown".toList, none, none, some "unable to compute version".toList, none⟩ := by
  unfold getVersions
  rw [keywords_unexpanded]
  simp only [goUp_file root hr hl, nothing_found h]
  unfold gitPiecesFromVcs
  rw [if_pos (by simp)]
  simp only
  rw [if_neg (by decide)]
  rfl

lemma letter_not_version : ¬ IsVersion "master".toList := by
  have pub : ∀ s : Text, IsPublic s → ∀ x, s.head? = some x → 48 ≤ x.toNat ∧ x.toNat ≤ 57 := by
    rintro s ⟨e, r, pre, post, dev, rfl, he, hr, -, -, -⟩ x hx
    have num : ∀ k rest : Text, IsNumber k → (k ++ rest).head? = some x → 48 ≤ x.toNat ∧ x.toNat ≤ 57 := by
      intro k rest hk h
      cases k with
      | nil => exact absurd rfl hk.1
      | cons y ys =>
        rw [List.cons_append, List.head?_cons, Option.some.injEq] at h
        subst h
        exact hk.2.1 y List.mem_cons_self
    rcases he with rfl | ⟨k, hk, rfl⟩
    · cases hr with
      | one hk => exact num _ (pre ++ post ++ dev) hk (by simpa using hx)
      | @more k r hk _ => exact num _ (".".toList ++ r ++ pre ++ post ++ dev) hk (by simpa using hx)
    · exact num _ ("!".toList ++ r ++ pre ++ post ++ dev) hk (by simpa using hx)
  rintro (h | ⟨p, l, hp, -, h⟩)
  · have := pub _ h 'm' rfl
    revert this; decide
  · have := pub p hp 'm' (by
      cases p with
      | nil =>
        have := congrArg List.head? h
        revert this; simp
      | cons y ys =>
        have := congrArg List.head? h
        simp at this
        rw [this]; rfl)
    revert this; decide

/-- **C136** fails: without git, in a directory `crowddynamics-master` as in the archive of the branch
`master`, the version is `master`. -/
theorem C136_fails : ¬ C136_statement := by
  intro h
  have e := versions_nogit (popen := fun _ _ _ => .notFound) false (fun _ _ _ => rfl)
    "/tmp/crowddynamics-master".toList (by decide) (by decide)
  have hp : parentdirLoop "crowddynamics-".toList 3 "/tmp/crowddynamics-master".toList =
      .ok ⟨"master".toList, none, some false, none, none⟩ := by
    unfold parentdirLoop
    rw [if_pos (by decide)]
    rfl
  rw [hp] at e
  exact letter_not_version (h _ _ _ _ (Or.inr fun _ _ _ => rfl) (by decide) (by decide) e)

/-- **C136** (partial: working copies with git) The version is a canonical version in the sense of
PEP 440 if the closest tag is one. -/
theorem C136_checkout_partial (c : Checkout) (hw : c.WellFormed)
    (ht : ∀ t k, c.tag = some (t, k) → IsVersion t) (v : Text) (h : Reported c v) : IsVersion v := by
  rw [reported_version hw h]
  exact version_canonical hw ht

lemma release_sample : IsPublic "0.3.0".toList := by
  have n : ∀ d : Char, 48 ≤ d.toNat → d.toNat ≤ 57 → IsNumber [d] := fun d h1 h2 =>
    ⟨by simp, by simpa using ⟨h1, h2⟩, by simp⟩
  refine ⟨[], "0.3.0".toList, [], [], [], rfl, Or.inl rfl, ?_, Or.inl (Or.inl rfl), Or.inl rfl, Or.inl rfl⟩
  exact IsRelease.more (k := ['0']) (r := ['3', '.', '0']) (n '0' (by decide) (by decide))
    (IsRelease.more (k := ['3']) (r := ['0']) (n '3' (by decide) (by decide))
      (.one (n '0' (by decide) (by decide))))

/-- The sample working copy meets the hypotheses. -/
example : sampleCheckout.WellFormed ∧ (∀ t k, sampleCheckout.tag = some (t, k) → IsVersion t) ∧
    Reported sampleCheckout "0.3.0+5.g0123456.dirty".toList :=
  ⟨sample_wellFormed, by rintro t k ⟨⟩; exact Or.inl release_sample, reported_sample _ sample_wellFormed⟩

/-- **C136** (partial: trees without git) In a directory `crowddynamics-V` the version is `V`; if neither
the directory nor the two directories above are named like this, the version is the canonical `0+unknown`
and there is an error message. -/
theorem C136_directory_partial (popen : Text → List Text → Text → Ran) (win32 : Bool)
    (h : ∀ name args dir, popen name args dir = .notFound) :
    (∀ (parent v : Text), '/' ∉ v → v ≠ [] →
      getVersions getConfig getKeywords (some (parent ++ "/crowddynamics-".toList ++ v ++
        "/crowddynamics/_version.py".toList)) win32 popen = .ok ⟨v, none, some false, none, none⟩) ∧
    (∀ a b c : Text, '/' ∉ a → '/' ∉ b → '/' ∉ c → a ≠ [] → b ≠ [] → c ≠ [] →
      (∀ s, s = a ∨ s = b ∨ s = c → ¬ "crowddynamics-".toList <+: s) →
      ∃ e, getVersions getConfig getKeywords (some ("/".toList ++ a ++ "/".toList ++ b ++ "/".toList ++ c ++
        "/crowddynamics/_version.py".toList)) win32 popen =
          .ok ⟨"0+unknown".toList, none, none, some e, none⟩) := by
  have base : ∀ p n : Text, '/' ∉ n → pathBasename (p ++ "/".toList ++ n) = n := by
    intro p n hn
    unfold pathBasename
    rw [List.reverse_append, span_take, List.reverse_reverse]
    · intro x hx
      have : x ≠ '/' := fun h => hn (h ▸ List.mem_reverse.1 hx)
      simpa using this
    · intro x hx
      simp at hx
      subst hx
      simp
  have last : ∀ p n : Text, '/' ∉ n → n ≠ [] → ∀ x, (p ++ n).getLast? = some x → x ≠ '/' := by
    intro p n hn hne x hx
    rw [List.getLast?_append] at hx
    cases hl : n.getLast? with
    | none => exact absurd (List.getLast?_eq_none_iff.1 hl) hne
    | some y =>
      rw [hl] at hx
      cases hx
      rintro rfl
      exact hn (List.mem_of_getLast? hl)
  constructor
  · intro parent v hv hne
    have hb := base parent ("crowddynamics-".toList ++ v) (by
      intro hm
      rcases List.mem_append.1 hm with hm | hm
      · revert hm; decide
      · exact hv hm)
    rw [versions_nogit win32 h _ (by simp) (last _ v hv hne)]
    have hp : parentdirLoop "crowddynamics-".toList 3 (parent ++ "/crowddynamics-".toList ++ v) =
        .ok ⟨v, none, some false, none, none⟩ := by
      unfold parentdirLoop
      rw [show parent ++ "/crowddynamics-".toList ++ v = parent ++ "/".toList ++
        ("crowddynamics-".toList ++ v) by simp, hb, if_pos (by
          rw [List.isPrefixOf_iff_prefix]
          exact List.prefix_append _ _)]
      simp
    rw [hp]
  · intro a b c ha hb hc ha' hb' hc' hno
    refine ⟨"unable to compute version".toList, ?_⟩
    rw [versions_nogit win32 h _ (by simp) (last _ c hc hc')]
    have no : ∀ s, s = a ∨ s = b ∨ s = c → ¬ "crowddynamics-".toList.isPrefixOf s = true := by
      intro s hs hp
      rw [List.isPrefixOf_iff_prefix] at hp
      exact hno s hs hp
    have hp : parentdirLoop "crowddynamics-".toList 3 ("/".toList ++ a ++ "/".toList ++ b ++
        "/".toList ++ c) = .error .notThisMethod := by
      unfold parentdirLoop
      rw [base _ c hc, if_neg (no c (by simp)), dirname_child _ _ (by simp) (last _ b hb hb') hc]
      unfold parentdirLoop
      rw [base _ b hb, if_neg (no b (by simp)), dirname_child _ _ (by simp) (last _ a ha ha') hb]
      unfold parentdirLoop
      rw [show "/".toList ++ a = [] ++ "/".toList ++ a by simp, base _ a ha, if_neg (no a (by simp))]
      rfl
    rw [hp]

/-- Names of directories that meet the hypotheses. -/
example : '/' ∉ "1.2.0".toList ∧ "1.2.0".toList ≠ [] ∧ '/' ∉ "home".toList ∧
    ∀ s, s = "home".toList ∨ s = "x".toList ∨ s = "repo".toList → ¬ "crowddynamics-".toList <+: s := by
  refine ⟨by decide, by decide, by decide, ?_⟩
  rintro s (rfl | rfl | rfl) <;> decide

/-! ## C137 -/

/-- **C137** (full statement) In an archive made by git the version is one of the tags of the commit, or
`0+unknown` with an error message if it has no tags. -/
def C137_statement : Prop :=
  ∀ (refs : List Ref) (full date : Text) (file : Option Text) (win32 : Bool)
    (popen : Text → List Text → Text → Ran), (∀ r ∈ refs, r.Plain) →
    ∃ info, getVersions getConfig ⟨some (expanded refs), some full, some date⟩ file win32 popen =
      .ok info ∧ ((info.version ∈ tagNames refs ∧ info.error = none) ∨
        (tagNames refs = [] ∧ info.version = "0+unknown".toList ∧ info.error ≠ none))

/-- **C137** fails: the commit has no tags, but the name of its branch contains a digit. Then the
version is the text `HEAD -> release2`. -/
theorem C137_fails : ¬ C137_statement := by
  intro h
  obtain ⟨info, he, hi⟩ := h [.other "HEAD -> release2".toList] [] [] none false (fun _ _ _ => .notFound) (by
    intro r hr
    rw [List.mem_singleton] at hr
    subst hr
    exact ⟨by decide, by decide, by decide, by decide, by decide⟩)
  have key : getVersions getConfig
      ⟨some (expanded [.other "HEAD -> release2".toList]), some [], some []⟩ none false
      (fun _ _ _ => .notFound) = .ok ⟨"HEAD -> release2".toList, some [], some false, none, some []⟩ := by
    have hk : gitVersionsFromKeywords
        ⟨some (expanded [.other "HEAD -> release2".toList]), some [], some []⟩ [] =
        .ok ⟨"HEAD -> release2".toList, some [], some false, none, some []⟩ := by
      obtain ⟨h1, h2⟩ := keywordRefs_expanded [.other "HEAD -> release2".toList] (by simp) (by
        intro r hr
        rw [List.mem_singleton] at hr
        subst hr
        exact ⟨by decide, by decide, by decide, by decide, by decide⟩)
      unfold gitVersionsFromKeywords
      simp only [h1, h2, Bool.false_eq_true, if_false]
      have h3 : sortedSet (likelyTags ([Ref.other "HEAD -> release2".toList].map Ref.text)) =
          ["HEAD -> release2".toList] := by decide
      rw [h3]
      rfl
    unfold getVersions
    rw [show getConfig.tagPrefix = [] from rfl, hk]
  rw [key] at he
  cases he
  rcases hi with ⟨h1, -⟩ | ⟨-, h1, -⟩
  · exact absurd h1 (by decide)
  · exact absurd h1 (by decide)

/-- **C137** (partial: commits with tags) In an archive made by git the version is the first of the tags
of the commit in the order of strings, whatever other names the commit has; the revision is the hash, the
date is in the form of ISO 8601, and neither the position of the files nor the programs on the machine
play a role. -/
theorem C137_tags_partial (refs : List Ref) (hash : Text) (a b z : Text) (file : Option Text) (win32 : Bool)
    (popen : Text → List Text → Text → Ran) (hr : ∀ r ∈ refs, r.Plain) (ht : tagNames refs ≠ [])
    (hh : hash ≠ [] ∧ ∀ x ∈ hash, x ∈ hexDigits) (hd : ∀ s, s = a ∨ s = b ∨ s = z → s ≠ [] ∧ Black s) :
    ∃ v ∈ tagNames refs, (∀ t ∈ tagNames refs, Before v t) ∧
      getVersions getConfig ⟨some (expanded refs), some hash,
        some (a ++ " ".toList ++ b ++ " ".toList ++ z)⟩ file win32 popen =
        .ok ⟨v, some hash, some false, none, some (a ++ "T".toList ++ b ++ z)⟩ := by
  have hne : refs ≠ [] := by rintro rfl; exact ht rfl
  obtain ⟨h1, h2⟩ := keywordRefs_expanded refs hne hr
  have h3 : likelyTags (refs.map Ref.text) = tagNames refs := by
    unfold likelyTags
    simp only [tags_expanded refs hr, if_neg ht]
  obtain ⟨v, rest, h4, h5, h6⟩ := sortedSet_head (tagNames refs) ht
  refine ⟨v, h5, fun t hm => (textLe_before v t).1 (h6 t hm), ?_⟩
  have hash' : pyStrip hash = hash := pyStrip_self _
    (fun x hx => black_not_space (hex_black (hh.2 x (List.mem_of_mem_head? hx))).1)
    (fun x hx => black_not_space (hex_black (hh.2 x (List.mem_of_getLast? hx))).1)
  have date' : isoDate (a ++ " ".toList ++ b ++ " ".toList ++ z) = a ++ "T".toList ++ b ++ z := by
    have := isoDate_date a b z (hd a (by simp)) (hd b (by simp)) (hd z (by simp))
    have hh' : ∀ x ∈ (a ++ " ".toList ++ b ++ " ".toList ++ z).head?, isSpace x = false := by
      intro x hx
      obtain ⟨h1, h2⟩ := hd a (by simp)
      cases a with
      | nil => exact absurd rfl h1
      | cons y ys =>
        simp at hx
        subst hx
        exact black_not_space (h2 y List.mem_cons_self)
    have hl' : ∀ x ∈ (a ++ " ".toList ++ b ++ " ".toList ++ z).getLast?, isSpace x = false := by
      intro x hx
      obtain ⟨h1, h2⟩ := hd z (by simp)
      rw [List.getLast?_append] at hx
      cases h : z.getLast? with
      | none => exact absurd (List.getLast?_eq_none_iff.1 h) h1
      | some y =>
        rw [h] at hx
        cases hx
        exact black_not_space (h2 _ (List.mem_of_getLast? h))
    rwa [pyStrip_trim _ _ hh' hl' (by simp) (by decide), pyStrip_self _ hh' hl'] at this
  unfold getVersions
  rw [show getConfig.tagPrefix = [] from rfl]
  have hk : gitVersionsFromKeywords ⟨some (expanded refs), some hash,
      some (a ++ " ".toList ++ b ++ " ".toList ++ z)⟩ [] =
      .ok ⟨v, some hash, some false, none, some (a ++ "T".toList ++ b ++ z)⟩ := by
    unfold gitVersionsFromKeywords
    simp only [h1, h2, h3, Bool.false_eq_true, if_false, find_first, h4, List.head?_cons, hash',
      Option.map_some, date', List.length_nil, List.drop_zero]
  rw [hk]

/-- **C137** (partial: commits without tags whose branches have no digits in their names) The version is
`0+unknown`, with an error message. -/
theorem C137_untagged_partial (refs : List Ref) (full date : Text) (file : Option Text) (win32 : Bool)
    (popen : Text → List Text → Text → Ran) (hr : ∀ r ∈ refs, r.Plain) (ht : tagNames refs = [])
    (hd : ∀ r ∈ refs, ∀ c ∈ r.text, ¬ (48 ≤ c.toNat ∧ c.toNat ≤ 57)) :
    ∃ info, getVersions getConfig ⟨some (expanded refs), some full, some date⟩ file win32 popen =
      .ok info ∧ info.version = "0+unknown".toList ∧ info.error ≠ none := by
  have key : sortedSet (likelyTags (keywordRefs (expanded refs))) = [] ∧
      "$Format".toList.isPrefixOf (pyStrip (expanded refs)) = false := by
    by_cases hne : refs = []
    · subst hne
      rw [keywordRefs_nil.1]
      exact ⟨by decide, keywordRefs_nil.2⟩
    · obtain ⟨h1, h2⟩ := keywordRefs_expanded refs hne hr
      refine ⟨?_, h2⟩
      have h3 : likelyTags (refs.map Ref.text) = [] := by
        unfold likelyTags
        simp only [tags_expanded refs hr, if_pos ht]
        rw [List.filter_eq_nil_iff]
        intro x hx
        obtain ⟨r, hm, rfl⟩ := List.mem_map.1 hx
        intro hany
        obtain ⟨c, hc, hdig⟩ := List.any_eq_true.1 hany
        unfold isDigitChar at hdig
        simp at hdig
        exact hd r hm c hc hdig
      rw [h1, h3]
      rfl
  refine ⟨⟨"0+unknown".toList, some (pyStrip full), some false, some "no suitable tags".toList, none⟩,
    ?_, rfl, by simp⟩
  unfold getVersions
  rw [show getConfig.tagPrefix = [] from rfl]
  have hk : gitVersionsFromKeywords ⟨some (expanded refs), some full, some date⟩ [] =
      .ok ⟨"0+unknown".toList, some (pyStrip full), some false, some "no suitable tags".toList, none⟩ := by
    unfold gitVersionsFromKeywords
    simp only [key.1, key.2, Bool.false_eq_true, if_false, List.find?_nil]
  rw [hk]

/-- Names of a commit on the branch `master` with two tags, and of one without tags. -/
example : (∀ r ∈ [Ref.other "HEAD -> master".toList, .tag "2.0rc1".toList, .tag "2.0".toList], r.Plain) ∧
    tagNames [Ref.other "HEAD -> master".toList, .tag "2.0rc1".toList, .tag "2.0".toList] =
      ["2.0rc1".toList, "2.0".toList] ∧
    expanded [Ref.other "HEAD -> master".toList, .tag "2.0rc1".toList, .tag "2.0".toList] =
      " (HEAD -> master, tag: 2.0rc1, tag: 2.0)".toList ∧
    Before "2.0".toList "2.0rc1".toList ∧
    tagNames [Ref.other "HEAD -> master".toList] = [] ∧
    (∀ r ∈ [Ref.other "HEAD -> master".toList], ∀ c ∈ r.text, ¬ (48 ≤ c.toNat ∧ c.toNat ≤ 57)) := by
  refine ⟨?_, rfl, by unfold expanded; rw [if_neg (by simp)]; rfl, (textLe_before _ _).1 (by decide), rfl,
    by decide⟩
  intro r hr
  rcases List.mem_cons.1 hr with rfl | hr
  · exact ⟨by decide, by decide, by decide, by decide, by decide⟩
  · rcases List.mem_cons.1 hr with rfl | hr
    · exact ⟨by decide, by decide, by unfold Black; decide⟩
    · rw [List.mem_singleton] at hr
      subst hr
      exact ⟨by decide, by decide, by unfold Black; decide⟩

/-! ## C138 -/

/-- **C138** (full statement) `get_versions` returns a default if it is unable to compute the version: it
never raises an exception, whatever the programs on the machine do. -/
def C138_statement : Prop :=
  ∀ (file : Option Text) (win32 : Bool) (popen : Text → List Text → Text → Ran),
    ∃ info, getVersions getConfig getKeywords file win32 popen = .ok info

/-- A git that answers about the working copy `c`, except that `git show` fails. -/
def gitWithoutShow (c : Checkout) (args : List Text) : Ran :=
  if args = ["show".toList, "-s".toList, "--format=%ci".toList, "HEAD".toList] then .done [] 128
  else gitAbout c args

/-- A git that answers about the working copy `c`, except that `git rev-list` fails. -/
def gitWithoutCount (c : Checkout) (args : List Text) : Ran :=
  if args = ["rev-list".toList, "HEAD".toList, "--count".toList] then .done [] 128
  else gitAbout c args

lemma raises_show :
    getVersions getConfig getKeywords (some "/home/x/repo/crowddynamics/_version.py".toList) false
      (onlyGit (gitWithoutShow sampleCheckout)) = .error .attribute := by
  have hroot : goUp (getConfig.versionfileSource.splitOn '/').length
      "/home/x/repo/crowddynamics/_version.py".toList = "/home/x/repo".toList :=
    goUp_file "/home/x/repo".toList (by decide) (by decide)
  unfold getVersions
  rw [keywords_unexpanded]
  simp only [hroot]
  have hp : gitPiecesFromVcs (fun args => runCommand (onlyGit (gitWithoutShow sampleCheckout)) args
      "/home/x/repo".toList (gitNames false)) getConfig.tagPrefix = .error (.py .attribute) := by
    rfl
  rw [hp]

lemma raises_count :
    getVersions getConfig getKeywords (some "/home/x/repo/crowddynamics/_version.py".toList) false
      (onlyGit (gitWithoutCount untaggedCheckout)) = .error .type := by
  have hroot : goUp (getConfig.versionfileSource.splitOn '/').length
      "/home/x/repo/crowddynamics/_version.py".toList = "/home/x/repo".toList :=
    goUp_file "/home/x/repo".toList (by decide) (by decide)
  unfold getVersions
  rw [keywords_unexpanded]
  simp only [hroot]
  have hp : gitPiecesFromVcs (fun args => runCommand (onlyGit (gitWithoutCount untaggedCheckout)) args
      "/home/x/repo".toList (gitNames false)) getConfig.tagPrefix = .error (.py .type) := by
    rfl
  rw [hp]

/-- **C138** fails: if `git show` fails, the package cannot be imported because of an `AttributeError`; if
there are no tags and `git rev-list` fails, because of a `TypeError`. -/
theorem C138_fails : ¬ C138_statement ∧
    (∃ popen, getVersions getConfig getKeywords (some "/home/x/repo/crowddynamics/_version.py".toList) false
      popen = .error .attribute) ∧
    ∃ popen, getVersions getConfig getKeywords (some "/home/x/repo/crowddynamics/_version.py".toList) false
      popen = .error .type := by
  refine ⟨fun h => ?_, ⟨_, raises_show⟩, ⟨_, raises_count⟩⟩
  obtain ⟨info, hi⟩ := h (some "/home/x/repo/crowddynamics/_version.py".toList) false
    (onlyGit (gitWithoutShow sampleCheckout))
  rw [raises_show] at hi
  cases hi

/-- **C138** (partial: if git is not found, or the commits are counted and the date is printed) No
exception, whatever else the programs do and print. -/
theorem C138_no_exception_partial (file : Option Text) (win32 : Bool)
    (popen : Text → List Text → Text → Ran)
    (h : (∀ name args dir, popen name args dir = .notFound) ∨
      ∀ dir, ∃ (git : List Text → Ran) (n : ℕ) (date : Text), Installed popen (gitNames win32) dir git ∧
        git ["rev-list".toList, "HEAD".toList, "--count".toList] = .done (numeral n ++ "\n".toList) 0 ∧
        git ["show".toList, "-s".toList, "--format=%ci".toList, "HEAD".toList] = .done date 0) :
    ∃ info, getVersions getConfig getKeywords file win32 popen = .ok info := by
  unfold getVersions
  rw [keywords_unexpanded]
  cases file with
  | none => exact ⟨_, rfl⟩
  | some file =>
    simp only
    generalize goUp (getConfig.versionfileSource.splitOn '/').length file = root
    have key : gitPiecesFromVcs (fun args => runCommand popen args root (gitNames win32))
        getConfig.tagPrefix = .error .notThisMethod ∨
        ∃ q, gitPiecesFromVcs (fun args => runCommand popen args root (gitNames win32))
          getConfig.tagPrefix = .ok q ∧ Renderable q := by
      rcases h with h | h
      · left
        unfold gitPiecesFromVcs
        simp only [nothing_found h]
        rw [if_pos (by simp)]
      · obtain ⟨git, n, date, hi, h1, h2⟩ := h root
        refine pieces_ok _ _ (pyStrip date) (numeral n) ?_ ⟨numeral_ne_nil n, fun c hc => ?_⟩ ?_
        · have := installed_run hi argsCount _ h1
          simp only [this, numeral_strip]
        · have := numeral_mem hc
          unfold isDigitChar
          simpa using this
        · have := installed_run hi argsShow _ h2
          simp only [this]
    rcases key with hk | ⟨q, hk, hq⟩
    · rw [hk]
      exact fallback_ok root
    · rw [hk]
      exact render_ok q hq

/-- A machine without git, and one where git answers. -/
example : (∀ name args dir, (fun _ _ _ => Ran.notFound : Text → List Text → Text → Ran) name args dir =
      .notFound) ∧
    ∀ dir, ∃ (git : List Text → Ran) (n : ℕ) (date : Text),
      Installed (onlyGit (gitAbout sampleCheckout)) (gitNames false) dir git ∧
      git ["rev-list".toList, "HEAD".toList, "--count".toList] = .done (numeral n ++ "\n".toList) 0 ∧
      git ["show".toList, "-s".toList, "--format=%ci".toList, "HEAD".toList] = .done date 0 :=
  ⟨fun _ _ _ => rfl, fun dir => ⟨gitAbout sampleCheckout, 120, _, onlyGit_installed _ dir,
    (gitAbout_reports sampleCheckout).count, (gitAbout_reports sampleCheckout).show_⟩⟩

/-- **C138** (partial: the report of an error) Pieces with an error are rendered as the version
`unknown` with the hash and the message, in every style. -/
theorem C138_error_report_partial (pieces : Pieces) (style e : Text) (h : pieces.error = some e) :
    ∃ info, renderVersion pieces style = .ok info ∧ info.version = "unknown".toList ∧
      info.fullRevisionid = some pieces.long ∧ info.error = some e ∧ info.dirty = none ∧
      info.date = none := by
  unfold renderVersion
  rw [h]
  exact ⟨_, rfl, rfl, rfl, rfl, rfl, rfl⟩

/-- **C138** (partial: running a command) The first program that is found decides: its return
code is reported, and its output only if the code is zero. -/
theorem C138_return_code_partial (popen : Text → List Text → Text → Ran) (args : List Text)
    (cwd : Text) (missing rest : List Text) (c out : Text) (code : ℤ)
    (hm : ∀ x ∈ missing, popen x args cwd = .notFound) (hc : popen c args cwd = .done out code) :
    (runCommand popen args cwd (missing ++ c :: rest)).2 = some code ∧
    ((runCommand popen args cwd (missing ++ c :: rest)).1 = none ↔ code ≠ 0) := by
  induction missing with
  | nil =>
    rw [List.nil_append, runCommand, hc]
    by_cases h0 : code = 0 <;> simp [h0]
  | cons x xs ih =>
    rw [List.cons_append, runCommand, hm x List.mem_cons_self]
    exact ih fun y hy => hm y (List.mem_cons_of_mem _ hy)

/-- Pieces with an error; a git that fails with code 128 after a name that does not exist. -/
example : (∃ p : Pieces, p.error = some "unable".toList ∧ p.long = "ab".toList) ∧
    onlyGit (fun _ => .done [] 128) "git.cmd".toList [] [] = .notFound ∧
    onlyGit (fun _ => .done [] 128) "git".toList [] [] = .done [] 128 := by
  refine ⟨⟨⟨"ab".toList, [], some "unable".toList, false, none, none, none⟩, rfl, rfl⟩, ?_, ?_⟩
  · unfold onlyGit; rw [if_neg (by decide)]
  · unfold onlyGit; rw [if_pos rfl]

/-! ## C139 -/

/-- The version reported in the working copy `c` if `style` is configured. -/
def ReportedAs (style : Text) (c : Checkout) (v : Text) : Prop :=
  ∃ (git : List Text → Ran) (popen : Text → List Text → Text → Ran) (win32 : Bool) (root : Text)
    (info : VersionInfo), Reports git c ∧ Installed popen (gitNames win32) root git ∧ root ≠ [] ∧
    (∀ x, root.getLast? = some x → x ≠ '/') ∧
    getVersions { getConfig with style := style } getKeywords
      (some (root ++ "/crowddynamics/_version.py".toList)) win32 popen = .ok info ∧ info.version = v

lemma versions_style (style : Text) {popen : Text → List Text → Text → Ran} {win32 : Bool} {root : Text}
    {git : List Text → Ran} (h : Installed popen (gitNames win32) root git) (c : Checkout)
    (hw : c.WellFormed) (hg : Reports git c) (hr : root ≠ []) (hl : ∀ x ∈ root.getLast?, x ≠ '/') :
    getVersions { getConfig with style := style } getKeywords
      (some (root ++ "/crowddynamics/_version.py".toList)) win32 popen =
      renderVersion ⟨c.hash, match c.tag with | some _ => c.short | none => c.hash.take 7, none, c.dirty,
        some (c.tag.map Prod.fst), some ((c.tag.map Prod.snd).getD c.commits : ℕ),
        some (c.date.1 ++ "T".toList ++ c.date.2.1 ++ c.date.2.2)⟩ style := by
  unfold getVersions
  rw [keywords_unexpanded]
  simp only [goUp_file root hr hl]
  rw [show getConfig.tagPrefix = [] from rfl, pieces_checkout h c hw hg]
  rfl

lemma long_text (c : Checkout) (hw : c.WellFormed) (hs : c.tag = none → c.short = c.hash.take 7) (d : Option Text) :
    renderStyle ⟨c.hash, match c.tag with | some _ => c.short | none => c.hash.take 7, none, c.dirty,
        some (c.tag.map Prod.fst), some ((c.tag.map Prod.snd).getD c.commits : ℕ), d⟩
      "git-describe-long".toList = .ok c.describe ∧
    renderStyle ⟨c.hash, match c.tag with | some _ => c.short | none => c.hash.take 7, none, c.dirty,
        some (c.tag.map Prod.fst), some ((c.tag.map Prod.snd).getD c.commits : ℕ), d⟩
      "git-describe".toList = .ok c.describeShort := by
  have e1 : ∀ p, renderStyle p "git-describe-long".toList = renderGitDescribeLong p := fun p => rfl
  have e2 : ∀ p, renderStyle p "git-describe".toList = renderGitDescribe p := fun p => rfl
  rw [e1, e2]
  unfold renderGitDescribeLong renderGitDescribe truthyTag getKey Checkout.describe Checkout.describeShort
  cases htag : c.tag with
  | none =>
    simp only [Option.map_none, bind, Except.bind, hs htag, and_self]
  | some tk =>
    obtain ⟨t, k⟩ := tk
    obtain ⟨a1, -⟩ := hw.tag t k htag
    cases t with
    | nil => exact absurd rfl a1
    | cons y ys =>
      simp only [Option.map_some, Option.getD_some, bind, Except.bind, formatInt_nat]
      refine ⟨by simp, ?_⟩
      cases k with
      | zero => simp
      | succ k =>
        rw [if_pos (by exact_mod_cast Nat.succ_ne_zero k)]
        simp

/-- **C139** (full statement) The style `git-describe-long` reports what
`git describe --tags --dirty --always --long` prints, the style `git-describe` what it prints without
`--long`. -/
def C139_statement : Prop :=
  ∀ c : Checkout, c.WellFormed →
    (∀ v, ReportedAs "git-describe-long".toList c v → v = c.describe) ∧
    (∀ v, ReportedAs "git-describe".toList c v → v = c.describeShort)

/-- A working copy without tags of a large repository, for which git needs eight digits. -/
def largeCheckout : Checkout := { untaggedCheckout with short := "01234567".toList }

lemma large_wellFormed : largeCheckout.WellFormed :=
  ⟨by rintro t k ⟨⟩, untagged_wellFormed.hash, by decide, untagged_wellFormed.date⟩

/-- **C139** fails without tags if git abbreviates hashes to more than seven digits: the code takes the
first seven digits. -/
theorem C139_fails : ¬ C139_statement := by
  intro h
  have e := versions_style "git-describe-long".toList (onlyGit_installed (gitAbout largeCheckout) "/r".toList)
    largeCheckout large_wellFormed (gitAbout_reports _) (by decide) (by decide)
  have := (h largeCheckout large_wellFormed).1 "0123456".toList
    ⟨gitAbout largeCheckout, onlyGit (gitAbout largeCheckout), false, "/r".toList,
      ⟨"0123456".toList, some "0123456789abcdef".toList, some false, none,
        some "2017-05-01T12:00:00+0300".toList⟩, gitAbout_reports _, onlyGit_installed _ _, by decide, by decide,
      e.trans rfl, rfl⟩
  revert this
  decide

/-- **C139** (partial: with a tag, or if git abbreviates the hash to its first seven digits) The style
`git-describe-long` reports what `git describe --tags --dirty --always --long` prints, the style
`git-describe` what it prints without `--long`. -/
theorem C139_describe_partial (c : Checkout) (hw : c.WellFormed)
    (hs : c.tag = none → c.short = c.hash.take 7) :
    (∀ v, ReportedAs "git-describe-long".toList c v ↔ v = c.describe) ∧
    (∀ v, ReportedAs "git-describe".toList c v ↔ v = c.describeShort) := by
  refine ⟨fun v => ⟨?_, ?_⟩, fun v => ⟨?_, ?_⟩⟩
  · rintro ⟨git, popen, win32, root, info, hg, hi, hr, hl, he, rfl⟩
    rw [versions_style _ hi c hw hg hr hl] at he
    unfold renderVersion at he
    simp only [(long_text c hw hs _).1] at he
    cases he
    rfl
  · rintro rfl
    have e := versions_style "git-describe-long".toList (onlyGit_installed (gitAbout c) "/r".toList)
      c hw (gitAbout_reports _) (by decide) (by decide)
    unfold renderVersion at e
    simp only [(long_text c hw hs _).1] at e
    exact ⟨gitAbout c, onlyGit (gitAbout c), false, "/r".toList, _, gitAbout_reports _,
      onlyGit_installed _ _, by decide, by decide, e, rfl⟩
  · rintro ⟨git, popen, win32, root, info, hg, hi, hr, hl, he, rfl⟩
    rw [versions_style _ hi c hw hg hr hl] at he
    unfold renderVersion at he
    simp only [(long_text c hw hs _).2] at he
    cases he
    rfl
  · rintro rfl
    have e := versions_style "git-describe".toList (onlyGit_installed (gitAbout c) "/r".toList)
      c hw (gitAbout_reports _) (by decide) (by decide)
    unfold renderVersion at e
    simp only [(long_text c hw hs _).2] at e
    exact ⟨gitAbout c, onlyGit (gitAbout c), false, "/r".toList, _, gitAbout_reports _,
      onlyGit_installed _ _, by decide, by decide, e, rfl⟩

/-- The sample working copy meets the hypotheses, and a version is reported. -/
example : sampleCheckout.WellFormed ∧ (sampleCheckout.tag = none → sampleCheckout.short = sampleCheckout.hash.take 7) ∧
    (untaggedCheckout.tag = none → untaggedCheckout.short = untaggedCheckout.hash.take 7) ∧
    ReportedAs "git-describe".toList sampleCheckout "0.3.0-5-g0123456-dirty".toList := by
  have e := versions_style "git-describe".toList (onlyGit_installed (gitAbout sampleCheckout) "/r".toList)
    sampleCheckout sample_wellFormed (gitAbout_reports _) (by decide) (by decide)
  exact ⟨sample_wellFormed, by decide, by decide, gitAbout sampleCheckout, onlyGit (gitAbout sampleCheckout), false,
    "/r".toList, ⟨"0.3.0-5-g0123456-dirty".toList, some "0123456789abcdef".toList, some true, none,
      some "2017-05-01T12:00:00+0300".toList⟩, gitAbout_reports _, onlyGit_installed _ _, by decide, by decide,
    e.trans (by
      unfold renderVersion
      simp only [(long_text sampleCheckout sample_wellFormed (by decide) _).2]
      rfl), rfl⟩

end CrowdDynamics
