import Verif.Props.Version
import Verif.Spec.VersionStyles

/-!
# C150: the other styles of versions
-/

namespace CrowdDynamics

open Spec

/-- **C150** (full statement) The styles `pep440-pre`, `pep440-old` and `pep440-post` report the
documented versions. -/
def C150_statement : Prop :=
  ∀ c : Checkout, c.WellFormed →
    (∀ v, ReportedAs "pep440-pre".toList c v → v = c.pre) ∧
    (∀ v, ReportedAs "pep440-old".toList c v → v = c.old) ∧
    (∀ v, ReportedAs "pep440-post".toList c v → v = c.post)

/-- What git is asked about a working copy. -/
def piecesOf (c : Checkout) : Pieces :=
  ⟨c.hash, match c.tag with | some _ => c.short | none => c.hash.take 7, none, c.dirty,
    some (c.tag.map Prod.fst), some ((c.tag.map Prod.snd).getD c.commits : ℕ),
    some (c.date.1 ++ "T".toList ++ c.date.2.1 ++ c.date.2.2)⟩

lemma versions_pieces (style : Text) {popen : Text → List Text → Text → Ran} {win32 : Bool} {root : Text}
    {git : List Text → Ran} (h : Installed popen (gitNames win32) root git) (c : Checkout)
    (hw : c.WellFormed) (hg : Reports git c) (hr : root ≠ []) (hl : ∀ x ∈ root.getLast?, x ≠ '/') :
    getVersions { getConfig with style := style } getKeywords
      (some (root ++ "/crowddynamics/_version.py".toList)) win32 popen =
      match renderStyle (piecesOf c) style with
      | .ok t => .ok ⟨t, some c.hash, some c.dirty, none, (piecesOf c).date⟩
      | .error e => .error e := by
  rw [versions_style style h c hw hg hr hl]
  change renderVersion (piecesOf c) style = _
  unfold renderVersion
  rw [show (piecesOf c).error = none from rfl]
  simp only
  cases renderStyle (piecesOf c) style <;> rfl

/-- The reported version is the rendered one. -/
lemma reportedAs_iff (style : Text) (c : Checkout) (hw : c.WellFormed) (w v : Text)
    (h : renderStyle (piecesOf c) style = .ok w) : ReportedAs style c v ↔ v = w := by
  constructor
  · rintro ⟨git, popen, win32, root, info, hg, hi, hr, hl, he, rfl⟩
    rw [versions_pieces _ hi c hw hg hr hl, h] at he
    cases he
    rfl
  · rintro rfl
    have e := versions_pieces style (onlyGit_installed (gitAbout c) "/r".toList) c hw (gitAbout_reports _)
      (by decide) (by decide)
    rw [h] at e
    exact ⟨gitAbout c, onlyGit (gitAbout c), false, "/r".toList, _, gitAbout_reports _,
      onlyGit_installed _ _, by decide, by decide, e, rfl⟩

/-- **C150** (partial: for `pep440-post` only working copies with a tag without `+`) The styles report
exactly the documented versions. -/
theorem C150_styles_partial (c : Checkout) (hw : c.WellFormed) (v : Text) :
    (ReportedAs "pep440-pre".toList c v ↔ v = c.pre) ∧
    (ReportedAs "pep440-old".toList c v ↔ v = c.old) ∧
    (∀ t k, c.tag = some (t, k) → '+' ∉ t → (ReportedAs "pep440-post".toList c v ↔ v = c.post)) := by
  refine ⟨reportedAs_iff _ c hw _ v ?_, reportedAs_iff _ c hw _ v ?_, fun t k ht hp =>
    reportedAs_iff _ c hw _ v ?_⟩
  · have e : ∀ p, renderStyle p "pep440-pre".toList = renderPep440Pre p := fun p => rfl
    rw [e]
    unfold piecesOf renderPep440Pre truthyTag getKey Checkout.pre
    cases htag : c.tag with
    | none => simp only [Option.map_none, bind, Except.bind, Option.getD_none, formatInt_nat]
    | some tk =>
      obtain ⟨t, k⟩ := tk
      obtain ⟨a1, -⟩ := hw.tag t k htag
      cases t with
      | nil => exact absurd rfl a1
      | cons y ys =>
        cases k with
        | zero => simp [bind, Except.bind]
        | succ k =>
          simp only [Option.map_some, Option.getD_some, bind, Except.bind, formatInt_nat]
          rw [if_pos (by exact_mod_cast Nat.succ_ne_zero k)]
  · have e : ∀ p, renderStyle p "pep440-old".toList = renderPep440Old p := fun p => rfl
    rw [e]
    unfold piecesOf renderPep440Old truthyTag getKey Checkout.old
    cases htag : c.tag with
    | none => simp only [Option.map_none, bind, Except.bind, Option.getD_none, formatInt_nat]
    | some tk =>
      obtain ⟨t, k⟩ := tk
      obtain ⟨a1, -⟩ := hw.tag t k htag
      cases t with
      | nil => exact absurd rfl a1
      | cons y ys =>
        simp only [Option.map_some, Option.getD_some, bind, Except.bind, formatInt_nat]
        by_cases h : k = 0 ∧ c.dirty = false
        · rw [if_pos h, if_neg (by simp [h.1, h.2])]
        · rw [if_neg h, if_pos (by
            by_cases hk : k = 0
            · exact .inr (by simpa [hk] using h)
            · exact .inl (by exact_mod_cast hk))]
  · have e : ∀ p, renderStyle p "pep440-post".toList = renderPep440Post p := fun p => rfl
    rw [e]
    unfold piecesOf renderPep440Post truthyTag getKey Checkout.post plusOrDot
    rw [ht]
    obtain ⟨a1, -⟩ := hw.tag t k ht
    cases t with
    | nil => exact absurd rfl a1
    | cons y ys =>
      simp only [Option.map_some, Option.getD_some, bind, Except.bind, formatInt_nat]
      by_cases h : k = 0 ∧ c.dirty = false
      · rw [if_pos h, if_neg (by simp [h.1, h.2])]
      · rw [if_neg h, if_pos (by
            by_cases hk : k = 0
            · exact .inr (by simpa [hk] using h)
            · exact .inl (by exact_mod_cast hk)), if_neg hp]
        simp

/-- The sample working copy meets the hypotheses; it is reported as `0.3.0.post.dev5`,
`0.3.0.post5.dev0` and `0.3.0.post5.dev0+g0123456`. -/
example : ReportedAs "pep440-pre".toList sampleCheckout "0.3.0.post.dev5".toList ∧
    ReportedAs "pep440-old".toList sampleCheckout "0.3.0.post5.dev0".toList ∧
    ReportedAs "pep440-post".toList sampleCheckout "0.3.0.post5.dev0+g0123456".toList := by
  refine ⟨((C150_styles_partial _ sample_wellFormed _).1).2 (by decide),
    ((C150_styles_partial _ sample_wellFormed _).2.1).2 (by decide),
    ((C150_styles_partial _ sample_wellFormed _).2.2 _ _ rfl (by decide)).2 (by decide)⟩

/-- **C150** (what is reported otherwise) With a tag that contains `+`, `pep440-post` has a dot instead of
the second `+`; without tags it adds the first seven digits of the hash. -/
theorem C150_post_partial (c : Checkout) (hw : c.WellFormed) (v : Text) :
    (∀ t k, c.tag = some (t, k) → '+' ∈ t → (ReportedAs "pep440-post".toList c v ↔
      v = if k = 0 ∧ c.dirty = false then t
        else t ++ ".post".toList ++ numeral k ++ (if c.dirty then ".dev0".toList else []) ++
          ".g".toList ++ c.short)) ∧
    (c.tag = none → (ReportedAs "pep440-post".toList c v ↔
      v = c.post ++ "+g".toList ++ c.hash.take 7)) := by
  have e : ∀ p, renderStyle p "pep440-post".toList = renderPep440Post p := fun p => rfl
  constructor
  · intro t k ht hp
    refine reportedAs_iff _ c hw _ v ?_
    rw [e]
    unfold piecesOf renderPep440Post truthyTag getKey plusOrDot
    rw [ht]
    obtain ⟨a1, -⟩ := hw.tag t k ht
    cases t with
    | nil => exact absurd rfl a1
    | cons y ys =>
      simp only [Option.map_some, Option.getD_some, bind, Except.bind, formatInt_nat]
      by_cases h : k = 0 ∧ c.dirty = false
      · rw [if_pos h, if_neg (by simp [h.1, h.2])]
      · rw [if_neg h, if_pos (by
            by_cases hk : k = 0
            · exact .inr (by simpa [hk] using h)
            · exact .inl (by exact_mod_cast hk)), if_pos hp]
        simp
  · intro ht
    refine reportedAs_iff _ c hw _ v ?_
    rw [e]
    unfold piecesOf renderPep440Post truthyTag getKey Checkout.post
    rw [ht]
    simp only [Option.map_none, bind, Except.bind, Option.getD_none, formatInt_nat]

/-- Exactly at the tag `1+2.gab`, and without tags. -/
example : ReportedAs "pep440-post".toList { atTag with dirty := true } "1+2.gab.post0.dev0.gcd".toList ∧
    ReportedAs "pep440-post".toList untaggedCheckout "0.post120+g0123456".toList := by
  have w2 : ({ atTag with dirty := true } : Checkout).WellFormed :=
    ⟨by rintro t k ⟨⟩; exact ⟨by decide, by unfold Black; decide⟩, by decide, by decide,
     by rintro s (rfl | rfl | rfl) <;> exact ⟨by decide, by unfold Black; decide⟩⟩
  exact ⟨((C150_post_partial _ w2 _).1 _ _ rfl (by decide)).2 (by decide),
    ((C150_post_partial _ untagged_wellFormed _).2 rfl).2 (by decide)⟩

/-- **C150** fails without tags: `pep440-post` then also reports the hash, `0.postDISTANCE[.dev0]+gHEX`. -/
theorem C150_fails : ¬ C150_statement := by
  intro h
  have := (h untaggedCheckout untagged_wellFormed).2.2 "0.post120+g0123456".toList
    (((C150_post_partial _ untagged_wellFormed _).2 rfl).2 (by decide))
  revert this
  decide

/-- **C150** (what is reported otherwise) The empty style and `default` mean `pep440`; with any other
style than the six, `get_versions` raises `ValueError`. -/
theorem C150_choice_partial (c : Checkout) (hw : c.WellFormed) :
    (∀ v, ReportedAs [] c v ↔ v = c.version) ∧ (∀ v, ReportedAs "default".toList c v ↔ v = c.version) ∧
    ∀ style ∉ [[], "default".toList, "pep440".toList, "pep440-pre".toList, "pep440-post".toList,
        "pep440-old".toList, "git-describe".toList, "git-describe-long".toList],
      ∀ git popen win32 root, Reports git c → Installed popen (gitNames win32) root git → root ≠ [] →
        (∀ x, root.getLast? = some x → x ≠ '/') →
        getVersions { getConfig with style := style } getKeywords
          (some (root ++ "/crowddynamics/_version.py".toList)) win32 popen = .error .value := by
  have key : renderPep440 (piecesOf c) = .ok c.version := by
    have h1 := checkout_versions (onlyGit_installed (gitAbout c) "/r".toList) c hw (gitAbout_reports _)
      (by decide) (by decide)
    have h2 := versions_pieces "pep440".toList (onlyGit_installed (gitAbout c) "/r".toList) c hw
      (gitAbout_reports _) (by decide) (by decide)
    rw [show renderStyle (piecesOf c) "pep440".toList = renderPep440 (piecesOf c) from rfl] at h2
    have h3 := h1.symm.trans h2
    revert h3
    cases renderPep440 (piecesOf c) with
    | error err => intro h3; cases h3
    | ok t =>
      intro h3
      have := congrArg (fun x : Except PyErr VersionInfo => x.map VersionInfo.version) h3
      simp only [Except.map, Except.ok.injEq] at this
      rw [← this]
      rfl
  refine ⟨fun v => reportedAs_iff _ c hw _ v key, fun v => reportedAs_iff _ c hw _ v key, ?_⟩
  intro style hs git popen win32 root hg hi hr hl
  rw [versions_pieces _ hi c hw hg hr hl]
  simp only [List.mem_cons, List.not_mem_nil, or_false, not_or] at hs
  obtain ⟨s1, s2, s3, s4, s5, s6, s7, s8⟩ := hs
  unfold renderStyle
  simp only [s1, s2, s3, s4, s5, s6, s7, s8, or_self, if_false]

/-- A style that does not exist. -/
example : "pep508".toList ∉ [[], "default".toList, "pep440".toList, "pep440-pre".toList,
    "pep440-post".toList, "pep440-old".toList, "git-describe".toList, "git-describe-long".toList] := by
  decide

end CrowdDynamics
