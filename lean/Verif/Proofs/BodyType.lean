import Verif.Model.BodyType
import Mathlib.Tactic.Linarith
import Mathlib.Tactic.NormNum
import Mathlib.Tactic.FieldSimp

/-! # Helper lemmas about `BodyType` -/

namespace CrowdDynamics

open Real BodyAttr

/-- The three ratios with the dimension each of them determines. -/
def ratioPairs : List (BodyAttr × BodyAttr) :=
  [(.ratioRt, .rT), (.ratioRs, .rS), (.ratioTs, .rTs)]

/-- The dimension is the ratio times the radius. -/
def DimInv (q p : BodyAttr) (b : BodyObj) : Prop :=
  0 < b.val .radius → 0 < b.val q → b.val p = b.val q * b.val .radius

/-- Radius, ratio and dimension are the same in both objects. -/
def SameTriple (q p : BodyAttr) (b b' : BodyObj) : Prop :=
  b'.val .radius = b.val .radius ∧ b'.val q = b.val q ∧ b'.val p = b.val p

/-- Either nothing relevant changed or the dimension fits. -/
def Keeps (q p : BodyAttr) (b b' : BodyObj) : Prop := SameTriple q p b b' ∨ DimInv q p b'

lemma SameTriple.refl (q p : BodyAttr) (b : BodyObj) : SameTriple q p b b := ⟨rfl, rfl, rfl⟩

lemma SameTriple.trans {q p : BodyAttr} {a b c : BodyObj} (h1 : SameTriple q p a b)
    (h2 : SameTriple q p b c) : SameTriple q p a c :=
  ⟨h2.1.trans h1.1, h2.2.1.trans h1.2.1, h2.2.2.trans h1.2.2⟩

lemma DimInv.of_same {q p : BodyAttr} {b b' : BodyObj} (h : SameTriple q p b b')
    (hi : DimInv q p b) : DimInv q p b' := by
  unfold DimInv
  rw [h.1, h.2.1, h.2.2]
  exact hi

lemma Keeps.trans {q p : BodyAttr} {a b c : BodyObj} (h1 : Keeps q p a b) (h2 : Keeps q p b c) :
    Keeps q p a c := by
  rcases h2 with h2 | h2
  · rcases h1 with h1 | h1
    · exact Or.inl (h1.trans h2)
    · exact Or.inr (h1.of_same h2)
  · exact Or.inr h2

lemma Keeps.inv {q p : BodyAttr} {b b' : BodyObj} (h : Keeps q p b b') (hi : DimInv q p b) :
    DimInv q p b' := by
  rcases h with h | h
  · exact hi.of_same h
  · exact h

lemma keeps_andThen {q p : BodyAttr} {b : BodyObj} {o : BodyOutcome} {f : BodyObj → BodyOutcome}
    (h1 : Keeps q p b o.obj) (h2 : ∀ c, Keeps q p c (f c).obj) :
    Keeps q p b (o.andThen f).obj := by
  unfold BodyOutcome.andThen
  split_ifs
  · exact h1
  · exact h1.trans (h2 _)

lemma store_val (b : BodyObj) (a : BodyAttr) (v : ℝ) (a' : BodyAttr) :
    (b.store a v).val a' = if a' = a then v else b.val a' := by
  unfold BodyObj.store
  simp only [Function.update_apply]

/-- An attribute without observers that is neither radius, nor ratio, nor dimension. -/
lemma same_assign_noObserver {q p a : BodyAttr} (b : BodyObj) (v : ℝ) (h1 : a ≠ .radius)
    (h2 : a ≠ q) (h3 : a ≠ p) : SameTriple q p b (assign noObserver b a v).obj := by
  unfold assign noObserver
  split_ifs
  · exact .refl q p b
  · refine ⟨?_, ?_, ?_⟩ <;> simp only [store_val]
    · rw [if_neg h1.symm]
    · rw [if_neg h2.symm]
    · rw [if_neg h3.symm]
  · exact .refl q p b

lemma same_observeInertia {q p : BodyAttr} (h : (q, p) ∈ ratioPairs) (b : BodyObj) :
    SameTriple q p b (observeInertiaRot b).obj := by
  simp only [ratioPairs, List.mem_cons, Prod.mk.injEq, List.not_mem_nil, or_false] at h
  unfold observeInertiaRot
  simp only
  split_ifs
  · rcases h with ⟨rfl, rfl⟩ | ⟨rfl, rfl⟩ | ⟨rfl, rfl⟩ <;>
      exact same_assign_noObserver b _ (by decide) (by decide) (by decide)
  · exact .refl q p b

/-- The dimension after `scaleIfRatio`. -/
lemma inv_assign_scale {q p : BodyAttr} (hqp : (q, p) ∈ ratioPairs) (b : BodyObj) :
    DimInv q p (assign noObserver b p (b.val q * b.val .radius)).obj := by
  have hp : p ≠ .radius ∧ p ≠ q ∧ (∀ v : ℝ, p.valid v ↔ 0 ≤ v) := by
    simp only [ratioPairs, List.mem_cons, Prod.mk.injEq, List.not_mem_nil, or_false] at hqp
    rcases hqp with ⟨rfl, rfl⟩ | ⟨rfl, rfl⟩ | ⟨rfl, rfl⟩ <;> simp [BodyAttr.valid]
  obtain ⟨h1, h2, h3⟩ := hp
  unfold assign
  split_ifs with hv he
  · intro _ _; exact he
  · intro _ _
    simp only [noObserver, store_val, if_true]
    rw [if_neg h2.symm, if_neg h1.symm]
  · intro hr hq
    exact absurd ((h3 _).2 (mul_pos hq hr).le) hv

lemma inv_scaleIfRatio {q p : BodyAttr} (hqp : (q, p) ∈ ratioPairs) (b : BodyObj) :
    DimInv q p (scaleIfRatio q p b).obj := by
  unfold scaleIfRatio
  split_ifs with h
  · exact inv_assign_scale hqp b
  · intro _ hq; exact absurd hq h

/-- `scaleIfRatio` of another pair. -/
lemma same_scaleIfRatio {q p q' p' : BodyAttr} (b : BodyObj) (h1 : p' ≠ .radius) (h2 : p' ≠ q)
    (h3 : p' ≠ p) : SameTriple q p b (scaleIfRatio q' p' b).obj := by
  unfold scaleIfRatio
  split_ifs
  · exact same_assign_noObserver b _ h1 h2 h3
  · exact .refl q p b

/-- `scaleIfRatio` fails only for a negative product. -/
lemma scaleIfRatio_err {q p : BodyAttr} (hqp : (q, p) ∈ ratioPairs) (b : BodyObj)
    (h : 0 ≤ b.val .radius) : (scaleIfRatio q p b).err = false := by
  have h3 : ∀ v : ℝ, p.valid v ↔ 0 ≤ v := by
    simp only [ratioPairs, List.mem_cons, Prod.mk.injEq, List.not_mem_nil, or_false] at hqp
    rcases hqp with ⟨rfl, rfl⟩ | ⟨rfl, rfl⟩ | ⟨rfl, rfl⟩ <;> simp [BodyAttr.valid]
  unfold scaleIfRatio assign
  split_ifs with h1 h2
  · rfl
  · rfl
  · exact absurd ((h3 _).2 (mul_nonneg (le_of_lt h1) h)) h2
  · rfl

lemma scaleIfRatio_radius {q p : BodyAttr} (hqp : (q, p) ∈ ratioPairs) (b : BodyObj) :
    (scaleIfRatio q p b).obj.val .radius = b.val .radius := by
  have hp : p ≠ .radius := by
    simp only [ratioPairs, List.mem_cons, Prod.mk.injEq, List.not_mem_nil, or_false] at hqp
    rcases hqp with ⟨rfl, rfl⟩ | ⟨rfl, rfl⟩ | ⟨rfl, rfl⟩ <;> decide
  unfold scaleIfRatio assign noObserver
  split_ifs
  · rfl
  · rw [store_val, if_neg hp.symm]
  · rfl
  · rfl

lemma mem1 : (BodyAttr.ratioRt, BodyAttr.rT) ∈ ratioPairs := by simp [ratioPairs]
lemma mem2 : (BodyAttr.ratioRs, BodyAttr.rS) ∈ ratioPairs := by simp [ratioPairs]
lemma mem3 : (BodyAttr.ratioTs, BodyAttr.rTs) ∈ ratioPairs := by simp [ratioPairs]

/-- After the observers of the radius all dimensions fit. -/
lemma inv_observeRadius {q p : BodyAttr} (hqp : (q, p) ∈ ratioPairs) (b : BodyObj) :
    DimInv q p (observeRadius .radius b).obj := by
  unfold observeRadius
  rw [if_pos rfl]
  by_cases hr : 0 ≤ b.val .radius
  · have e1 := scaleIfRatio_err mem1 b hr
    have r1 := scaleIfRatio_radius mem1 b
    have e2 := scaleIfRatio_err mem2 (scaleIfRatio .ratioRt .rT b).obj (by rw [r1]; exact hr)
    have a1 : (scaleIfRatio .ratioRt .rT b).andThen (scaleIfRatio .ratioRs .rS) =
        scaleIfRatio .ratioRs .rS (scaleIfRatio .ratioRt .rT b).obj := by
      unfold BodyOutcome.andThen; rw [e1]; simp
    have a2 : ((scaleIfRatio .ratioRt .rT b).andThen (scaleIfRatio .ratioRs .rS)).andThen
        (scaleIfRatio .ratioTs .rTs) = scaleIfRatio .ratioTs .rTs
          (scaleIfRatio .ratioRs .rS (scaleIfRatio .ratioRt .rT b).obj).obj := by
      rw [a1]; unfold BodyOutcome.andThen; rw [e2]; simp
    rw [a2]
    have h := hqp
    simp only [ratioPairs, List.mem_cons, Prod.mk.injEq, List.not_mem_nil, or_false] at h
    rcases h with ⟨rfl, rfl⟩ | ⟨rfl, rfl⟩ | ⟨rfl, rfl⟩
    · exact ((inv_scaleIfRatio mem1 b).of_same (same_scaleIfRatio _ (by decide) (by decide)
        (by decide))).of_same (same_scaleIfRatio _ (by decide) (by decide) (by decide))
    · exact (inv_scaleIfRatio mem2 _).of_same
        (same_scaleIfRatio _ (by decide) (by decide) (by decide))
    · exact inv_scaleIfRatio mem3 _
  · -- an invalid radius: nothing to show
    have key : ∀ c : BodyObj, ∀ q' p', (q', p') ∈ ratioPairs → c.val .radius = b.val .radius →
        (scaleIfRatio q' p' c).obj.val .radius = b.val .radius := by
      intro c q' p' h hc
      rw [scaleIfRatio_radius h, hc]
    intro h
    exfalso
    apply hr
    have : (((scaleIfRatio .ratioRt .rT b).andThen (scaleIfRatio .ratioRs .rS)).andThen
        (scaleIfRatio .ratioTs .rTs)).obj.val .radius = b.val .radius := by
      unfold BodyOutcome.andThen
      split_ifs
      · exact key _ _ _ mem1 rfl
      · exact key _ _ _ mem2 (key _ _ _ mem1 rfl)
      · exact key _ _ _ mem3 (key _ _ _ mem2 (key _ _ _ mem1 rfl))
    rw [this] at h
    exact h.le

/-- The observers in `notifyDims`: they establish the relation when radius or ratio changed,
and otherwise leave the triple alone. -/
lemma notifyDims_spec {q p : BodyAttr} (hqp : (q, p) ∈ ratioPairs) (a : BodyAttr) (b : BodyObj) :
    (a = .radius ∨ a = q → DimInv q p (notifyDims a b).obj) ∧
    (a ≠ .radius → a ≠ q → SameTriple q p b (notifyDims a b).obj) := by
  have hrad : DimInv q p (notifyDims .radius b).obj ∨ (observeInertiaRot b).err = true := by
    unfold notifyDims BodyOutcome.andThen
    simp only
    by_cases h : (observeInertiaRot b).err = true
    · exact Or.inr h
    · rw [if_neg h]
      exact Or.inl (inv_observeRadius hqp _)
  have herr : (observeInertiaRot b).err = false := by
    unfold observeInertiaRot assign noObserver
    simp only
    split_ifs with h1 h2
    · rfl
    · rfl
    · exfalso
      apply h2
      refine ⟨?_, by simp⟩
      have := h1.2.1
      positivity
    · rfl
  constructor
  · rintro (rfl | rfl)
    · rcases hrad with h | h
      · exact h
      · rw [herr] at h; exact absurd h (by simp)
    · have h := hqp
      simp only [ratioPairs, List.mem_cons, Prod.mk.injEq, List.not_mem_nil, or_false] at h
      have hnr : ∀ c : BodyObj, ¬ 0 < c.val .radius → DimInv a p c := fun c hc h => absurd h hc
      rcases h with ⟨rfl, rfl⟩ | ⟨rfl, rfl⟩ | ⟨rfl, rfl⟩
      all_goals
        unfold notifyDims observeRadius
        simp only [reduceCtorEq, if_false, if_true]
        split_ifs with hr
        · exact inv_assign_scale (by simp [ratioPairs]) b
        · exact hnr _ hr
  · intro h1 h2
    cases a
    case radius => exact absurd rfl h1
    case mass => exact same_observeInertia hqp b
    case ratioRt | ratioRs | ratioTs =>
      have h := hqp
      simp only [ratioPairs, List.mem_cons, Prod.mk.injEq, List.not_mem_nil, or_false] at h
      unfold notifyDims observeRadius
      simp only [reduceCtorEq, if_false, if_true]
      split_ifs
      · rcases h with ⟨rfl, rfl⟩ | ⟨rfl, rfl⟩ | ⟨rfl, rfl⟩ <;> first
          | exact absurd rfl h2
          | exact same_assign_noObserver b _ (by decide) (by decide) (by decide)
      · exact .refl q p b
    all_goals exact .refl q p b

lemma same_store {q p a : BodyAttr} (b : BodyObj) (v : ℝ) (h1 : a ≠ .radius) (h2 : a ≠ q)
    (h3 : a ≠ p) : SameTriple q p b (b.store a v) := by
  refine ⟨?_, ?_, ?_⟩ <;> rw [store_val]
  · rw [if_neg h1.symm]
  · rw [if_neg h2.symm]
  · rw [if_neg h3.symm]

/-- Assignments other than to the dimension itself. -/
lemma keeps_assign {q p a : BodyAttr} (notify : BodyAttr → BodyObj → BodyOutcome)
    (hnot : ∀ b, (a = .radius ∨ a = q → DimInv q p (notify a b).obj) ∧
      (a ≠ .radius → a ≠ q → Keeps q p b (notify a b).obj))
    (ha : a ≠ p) (b : BodyObj) (v : ℝ) : Keeps q p b (assign notify b a v).obj := by
  unfold assign
  split_ifs
  · exact Or.inl (.refl q p b)
  · by_cases h : a = .radius ∨ a = q
    · exact Or.inr ((hnot _).1 h)
    · push Not at h
      exact (Keeps.trans (Or.inl (same_store b v h.1 h.2 ha)) ((hnot _).2 h.1 h.2))
  · exact Or.inl (.refl q p b)

lemma keeps_assign_dims {q p a : BodyAttr} (hqp : (q, p) ∈ ratioPairs) (ha : a ≠ p)
    (b : BodyObj) (v : ℝ) : Keeps q p b (assign notifyDims b a v).obj :=
  keeps_assign notifyDims (fun c => ⟨(notifyDims_spec hqp a c).1,
    fun h1 h2 => Or.inl ((notifyDims_spec hqp a c).2 h1 h2)⟩) ha b v

lemma keeps_truncnorm {q p target mean scale : BodyAttr} (hqp : (q, p) ∈ ratioPairs)
    (ht : target ≠ p) (z : ℕ → ℝ → ℝ → ℝ) (b : BodyObj) :
    Keeps q p b (observeTruncnorm z target mean scale b).obj := by
  unfold observeTruncnorm
  split_ifs
  · exact keeps_assign_dims (b := { b with drawn := b.drawn + 1 }) hqp ht _
  · exact Or.inl (.refl q p b)

lemma notifyAttr_spec {q p : BodyAttr} (hqp : (q, p) ∈ ratioPairs) (z : ℕ → ℝ → ℝ → ℝ) (a : BodyAttr)
    (b : BodyObj) :
    (a = .radius ∨ a = q → DimInv q p (notifyAttr z a b).obj) ∧
    (a ≠ .radius → a ≠ q → Keeps q p b (notifyAttr z a b).obj) := by
  have hp : p = .rT ∨ p = .rS ∨ p = .rTs := by
    have h := hqp
    simp only [ratioPairs, List.mem_cons, Prod.mk.injEq, List.not_mem_nil, or_false] at h
    rcases h with ⟨_, rfl⟩ | ⟨_, rfl⟩ | ⟨_, rfl⟩ <;> simp
  have hq : q = .ratioRt ∨ q = .ratioRs ∨ q = .ratioTs := by
    have h := hqp
    simp only [ratioPairs, List.mem_cons, Prod.mk.injEq, List.not_mem_nil, or_false] at h
    rcases h with ⟨rfl, _⟩ | ⟨rfl, _⟩ | ⟨rfl, _⟩ <;> simp
  have hne : ∀ t : BodyAttr, t = .radius ∨ t = .mass ∨ t = .targetVelocity → t ≠ p := by
    rintro t ht rfl
    rcases ht with rfl | rfl | rfl <;> simp at hp
  constructor
  · intro h
    have hd := (notifyDims_spec hqp a b).1 h
    rcases h with rfl | rfl
    · exact hd
    · rcases hq with rfl | rfl | rfl <;> exact hd
  · intro h1 h2
    cases a
    case radiusMean | radiusScale => exact keeps_truncnorm hqp (hne _ (by simp)) z b
    case massMean | massScale => exact keeps_truncnorm hqp (hne _ (by simp)) z b
    case targetVelocityMean | targetVelocityScale =>
      exact keeps_truncnorm hqp (hne _ (by simp)) z b
    all_goals exact Or.inl ((notifyDims_spec hqp _ b).2 h1 h2)

lemma keeps_setAttr {q p a : BodyAttr} (hqp : (q, p) ∈ ratioPairs) (ha : a ≠ p) (z : ℕ → ℝ → ℝ → ℝ)
    (b : BodyObj) (v : ℝ) : Keeps q p b (setAttr z b a v).obj :=
  keeps_assign (notifyAttr z) (fun c => notifyAttr_spec hqp z a c) ha b v

lemma keeps_setAll {q p : BodyAttr} (hqp : (q, p) ∈ ratioPairs) (z : ℕ → ℝ → ℝ → ℝ)
    (items : List (BodyAttr × ℝ)) (hi : ∀ kv ∈ items, kv.1 ≠ p) (b : BodyObj) :
    Keeps q p b (setAll z b items).obj := by
  unfold setAll
  have key : ∀ (items : List (BodyAttr × ℝ)) (o : BodyOutcome), (∀ kv ∈ items, kv.1 ≠ p) →
      Keeps q p o.obj (items.foldl (fun o kv => o.andThen fun b => setAttr z b kv.1 kv.2) o).obj := by
    intro items
    induction items with
    | nil => intro o _; exact Or.inl (.refl q p _)
    | cons kv items ih =>
      intro o h
      rw [List.foldl_cons]
      exact (keeps_andThen (Or.inl (.refl q p _)) fun c =>
        keeps_setAttr hqp (h kv (by simp)) z c kv.2).trans (ih _ fun x hx => h x (by simp [hx]))
  exact key items ⟨b, false⟩ hi

/-- The configuration assigns no dimensions directly. -/
def CfgClean (cfg : List (String × List (BodyAttr × ℝ))) : Prop :=
  ∀ e ∈ cfg, ∀ kv ∈ e.2, kv.1 ≠ .rT ∧ kv.1 ≠ .rS ∧ kv.1 ≠ .rTs

lemma lookup_mem {cfg : List (String × List (BodyAttr × ℝ))} {name : String}
    {items : List (BodyAttr × ℝ)} (h : cfg.lookup name = some items) : (name, items) ∈ cfg := by
  induction cfg with
  | nil => simp at h
  | cons e cfg ih =>
    obtain ⟨n', i'⟩ := e
    by_cases hn : name = n'
    · subst hn
      simp only [List.lookup_cons, beq_self_eq_true, Option.some.injEq] at h
      subst h
      simp
    · have : (name == n') = false := by simpa using hn
      rw [List.lookup_cons, this] at h
      exact List.mem_cons_of_mem _ (ih h)

lemma pair_part {q p : BodyAttr} (hqp : (q, p) ∈ ratioPairs) : p = .rT ∨ p = .rS ∨ p = .rTs := by
  simp only [ratioPairs, List.mem_cons, Prod.mk.injEq, List.not_mem_nil, or_false] at hqp
  rcases hqp with ⟨_, rfl⟩ | ⟨_, rfl⟩ | ⟨_, rfl⟩ <;> simp

lemma keeps_observeBodyType {q p : BodyAttr} (hqp : (q, p) ∈ ratioPairs)
    {cfg : List (String × List (BodyAttr × ℝ))} (hc : CfgClean cfg) (z : ℕ → ℝ → ℝ → ℝ) (old : String)
    (b : BodyObj) : Keeps q p b (observeBodyType cfg z old b).obj := by
  unfold observeBodyType
  split_ifs
  · cases h : cfg.lookup b.bodyType with
    | none => exact Or.inl (.refl q p b)
    | some items =>
      refine keeps_setAll hqp z items (fun kv hkv => ?_) b
      obtain ⟨h1, h2, h3⟩ := hc _ (lookup_mem h) kv hkv
      rcases pair_part hqp with rfl | rfl | rfl
      · exact h1
      · exact h2
      · exact h3
  · exact Or.inl (.refl q p b)

/-- An assignment that does not set a dimension directly. -/
def KwClean : BodyKw → Prop
  | .attr a _ => a ≠ .rT ∧ a ≠ .rS ∧ a ≠ .rTs
  | .bodyType _ => True

lemma keeps_setKw {q p : BodyAttr} (hqp : (q, p) ∈ ratioPairs)
    {cfg : List (String × List (BodyAttr × ℝ))} (hc : CfgClean cfg) (z : ℕ → ℝ → ℝ → ℝ) (b : BodyObj)
    (kw : BodyKw) (hk : KwClean kw) : Keeps q p b (setKw cfg z b kw).obj := by
  cases kw with
  | attr a v =>
    refine keeps_setAttr hqp ?_ z b v
    rcases pair_part hqp with rfl | rfl | rfl
    · exact hk.1
    · exact hk.2.1
    · exact hk.2.2
  | bodyType name =>
    unfold setKw setBodyType
    simp only
    split_ifs
    · exact Or.inl (.refl q p b)
    · exact keeps_observeBodyType hqp hc z _ { b with bodyType := name }

/-! ## The constructor -/

lemma storeKw_ne_zero (kws : List BodyKw) (a : BodyAttr) (o : BodyOutcome)
    (h : (kws.foldl storeKw o).obj.val a ≠ o.obj.val a) :
    ∃ v, v = (kws.foldl storeKw o).obj.val a ∧ BodyKw.attr a v ∈ kws := by
  induction kws generalizing o with
  | nil => exact absurd rfl h
  | cons kw kws ih =>
    rw [List.foldl_cons] at h ⊢
    by_cases h2 : (kws.foldl storeKw (storeKw o kw)).obj.val a = (storeKw o kw).obj.val a
    · -- stored by this argument
      rw [h2] at h ⊢
      cases kw with
      | attr a' v =>
        by_cases ha : a = a'
        · subst ha
          refine ⟨v, ?_, by simp⟩
          unfold storeKw BodyOutcome.andThen at h ⊢
          simp only at h ⊢
          split_ifs at h ⊢
          · exact absurd rfl h
          · rw [store_val, if_pos rfl]
          · exact absurd rfl h
        · exfalso
          apply h
          unfold storeKw BodyOutcome.andThen
          simp only
          split_ifs
          · rfl
          · rw [store_val, if_neg ha]
          · rfl
      | bodyType name =>
        exfalso
        apply h
        unfold storeKw BodyOutcome.andThen
        simp only
        split_ifs <;> rfl
    · obtain ⟨v, hv, hm⟩ := ih _ h2
      exact ⟨v, hv, List.mem_cons_of_mem _ hm⟩

/-- The relation holds or one of the delayed notifications will establish it. -/
def Pending (q p : BodyAttr) (kws : List BodyKw) (b : BodyObj) : Prop :=
  DimInv q p b ∨ ∃ v : ℝ, v ≠ 0 ∧ (BodyKw.attr .radius v ∈ kws ∨ BodyKw.attr q v ∈ kws)

lemma notify_all {q p : BodyAttr} (hqp : (q, p) ∈ ratioPairs)
    {cfg : List (String × List (BodyAttr × ℝ))} (hc : CfgClean cfg) (z : ℕ → ℝ → ℝ → ℝ)
    (kws : List BodyKw) : ∀ o : BodyOutcome, Pending q p kws o.obj →
      (kws.foldl (fun o kw => o.andThen fun b => notifyKw cfg z b kw) o).err = false →
      DimInv q p (kws.foldl (fun o kw => o.andThen fun b => notifyKw cfg z b kw) o).obj := by
  induction kws with
  | nil =>
    intro o h _
    rcases h with h | ⟨v, -, h⟩
    · exact h
    · simp at h
  | cons kw kws ih =>
    intro o h he
    rw [List.foldl_cons] at he ⊢
    refine ih _ ?_ he
    -- no exception so far
    have hstuck : ∀ (l : List BodyKw) (o' : BodyOutcome), o'.err = true →
        (l.foldl (fun o kw => o.andThen fun b => notifyKw cfg z b kw) o').err = true := by
      intro l
      induction l with
      | nil => intro o' h'; exact h'
      | cons x l ihl =>
        intro o' h'
        rw [List.foldl_cons]
        apply ihl
        unfold BodyOutcome.andThen
        rw [if_pos h']
        exact h'
    have hok : o.err = false := by
      by_contra hcon
      have : (o.andThen fun b => notifyKw cfg z b kw).err = true := by
        unfold BodyOutcome.andThen
        rw [if_pos (by simpa using hcon)]
        simpa using hcon
      rw [hstuck kws _ this] at he
      exact absurd he (by simp)
    have e : (o.andThen fun b => notifyKw cfg z b kw) = notifyKw cfg z o.obj kw := by
      unfold BodyOutcome.andThen
      rw [hok]
      simp
    rw [e]
    -- what this notification does
    have hstep : DimInv q p (notifyKw cfg z o.obj kw).obj ∨
        (Keeps q p o.obj (notifyKw cfg z o.obj kw).obj ∧
          ∀ v : ℝ, v ≠ 0 → kw ≠ BodyKw.attr .radius v ∧ kw ≠ BodyKw.attr q v) := by
      cases kw with
      | attr a v =>
        unfold notifyKw
        simp only
        by_cases hv : v = 0
        · rw [if_pos hv]
          right
          refine ⟨Or.inl (.refl q p _), fun w hw => ?_⟩
          constructor <;> rintro ⟨⟩ <;> exact hw hv
        · rw [if_neg hv]
          by_cases ha : a = .radius ∨ a = q
          · exact Or.inl ((notifyAttr_spec hqp z a o.obj).1 ha)
          · push Not at ha
            right
            refine ⟨(notifyAttr_spec hqp z a o.obj).2 ha.1 ha.2, fun w hw => ?_⟩
            constructor
            · rintro ⟨⟩; exact ha.1 rfl
            · rintro ⟨⟩; exact ha.2 rfl
      | bodyType name =>
        right
        refine ⟨?_, fun w _ => ⟨by simp, by simp⟩⟩
        unfold notifyKw
        simp only
        split_ifs
        · exact Or.inl (.refl q p _)
        · exact keeps_observeBodyType hqp hc z _ o.obj
    rcases hstep with hs | ⟨hs, hkw⟩
    · exact Or.inl hs
    · rcases h with h | ⟨v, hv, hm⟩
      · exact Or.inl (hs.inv h)
      · right
        refine ⟨v, hv, ?_⟩
        rcases hm with hm | hm
        · rcases List.mem_cons.1 hm with h' | h'
          · exact absurd h'.symm (hkw v hv).1
          · exact Or.inl h'
        · rcases List.mem_cons.1 hm with h' | h'
          · exact absurd h'.symm (hkw v hv).2
          · exact Or.inr h'

lemma construct_inv {q p : BodyAttr} (hqp : (q, p) ∈ ratioPairs)
    {cfg : List (String × List (BodyAttr × ℝ))} (hc : CfgClean cfg) (z : ℕ → ℝ → ℝ → ℝ)
    (kws : List BodyKw) (he : (construct cfg z kws).err = false) :
    DimInv q p (construct cfg z kws).obj := by
  unfold construct at he ⊢
  simp only at he ⊢
  refine notify_all hqp hc z kws _ ?_ he
  by_cases hr : (kws.foldl storeKw ⟨BodyObj.new, false⟩).obj.val .radius = 0
  · left
    intro h
    rw [hr] at h
    exact absurd h (lt_irrefl _)
  · right
    obtain ⟨v, hv, hm⟩ := storeKw_ne_zero kws .radius ⟨BodyObj.new, false⟩ hr
    exact ⟨v, by rw [hv]; exact hr, Or.inl hm⟩

/-! ## Values after assignments -/

lemma assign_noObserver {b : BodyObj} {a : BodyAttr} {v : ℝ} (hv : a.valid v) :
    (assign noObserver b a v).err = false ∧
      ∀ a', (assign noObserver b a v).obj.val a' = if a' = a then v else b.val a' := by
  unfold assign noObserver
  rw [if_pos hv]
  split_ifs with h
  · refine ⟨rfl, fun a' => ?_⟩
    simp only
    split_ifs with ha
    · rw [ha, h]
    · rfl
  · exact ⟨rfl, fun a' => store_val b a v a'⟩

lemma valid_of_nonneg {a : BodyAttr} {v : ℝ} (h : 0 ≤ v)
    (ha : a ≠ .ratioRt ∧ a ≠ .ratioRs ∧ a ≠ .ratioTs) : a.valid v :=
  ⟨h, by rintro (h | h | h); exacts [absurd h ha.1, absurd h ha.2.1, absurd h ha.2.2]⟩

/-- The documented rotational inertia. -/
noncomputable def inertiaFormula (mass radius : ℝ) : ℝ :=
  4 * π * (mass / 80) * (radius / 0.27) ^ 2

lemma observeInertia_val (b : BodyObj) :
    (observeInertiaRot b).err = false ∧
      (∀ a', a' ≠ .inertiaRot → (observeInertiaRot b).obj.val a' = b.val a') ∧
      (observeInertiaRot b).obj.val .inertiaRot =
        open Classical in if b.val .inertiaRot = 0 ∧ b.val .mass > 0 ∧ b.val .radius > 0 then
          inertiaFormula (b.val .mass) (b.val .radius) else b.val .inertiaRot := by
  unfold observeInertiaRot
  simp only
  by_cases h : b.val .inertiaRot = 0 ∧ b.val .mass > 0 ∧ b.val .radius > 0
  · rw [if_pos h, if_pos h]
    have hv : BodyAttr.inertiaRot.valid
        (4 * π * (b.val .mass / 80) * (b.val .radius / 0.27) ^ 2) := by
      refine valid_of_nonneg ?_ (by decide)
      have := h.2.1
      positivity
    obtain ⟨h1, h2⟩ := assign_noObserver (b := b) hv
    refine ⟨h1, fun a' ha => ?_, ?_⟩
    · rw [h2, if_neg ha]
    · rw [h2, if_pos rfl]; rfl
  · rw [if_neg h, if_neg h]
    exact ⟨rfl, fun _ _ => rfl, rfl⟩

lemma scaleIfRatio_val {q p : BodyAttr} (hqp : (q, p) ∈ ratioPairs) (b : BodyObj)
    (hr : 0 ≤ b.val .radius) (a' : BodyAttr) :
    (scaleIfRatio q p b).obj.val a' =
      open Classical in if a' = p ∧ b.val q > 0 then b.val q * b.val .radius else b.val a' := by
  unfold scaleIfRatio
  by_cases h : b.val q > 0
  · rw [if_pos h]
    have hv : p.valid (b.val q * b.val .radius) := by
      refine valid_of_nonneg (mul_nonneg h.le hr) ?_
      rcases pair_part hqp with rfl | rfl | rfl <;> decide
    rw [(assign_noObserver hv).2]
    by_cases ha : a' = p
    · rw [if_pos ha, if_pos ⟨ha, h⟩]
    · rw [if_neg ha, if_neg fun hh => ha hh.1]
  · rw [if_neg h, if_neg fun hh => h hh.2]

lemma andThen_false {o : BodyOutcome} (h : o.err = false) (f : BodyObj → BodyOutcome) :
    o.andThen f = f o.obj := by
  unfold BodyOutcome.andThen
  rw [h]
  simp

lemma observeRadius_radius (b : BodyObj) (hr : 0 ≤ b.val .radius) :
    observeRadius .radius b = scaleIfRatio .ratioTs .rTs
      (scaleIfRatio .ratioRs .rS (scaleIfRatio .ratioRt .rT b).obj).obj := by
  unfold observeRadius
  rw [if_pos rfl, andThen_false (scaleIfRatio_err mem1 b hr), andThen_false]
  exact scaleIfRatio_err mem2 _ (by rw [scaleIfRatio_radius mem1]; exact hr)

/-- The observer of the radius touches only the dimensions. -/
lemma observeRadius_val (b : BodyObj) (hr : 0 ≤ b.val .radius) :
    (observeRadius .radius b).err = false ∧
      ∀ a', a' ≠ .rT → a' ≠ .rS → a' ≠ .rTs →
        (observeRadius .radius b).obj.val a' = b.val a' := by
  rw [observeRadius_radius b hr]
  have r1 : 0 ≤ (scaleIfRatio .ratioRt .rT b).obj.val .radius := by
    rw [scaleIfRatio_radius mem1]; exact hr
  have r2 : 0 ≤ (scaleIfRatio .ratioRs .rS (scaleIfRatio .ratioRt .rT b).obj).obj.val .radius := by
    rw [scaleIfRatio_radius mem2]; exact r1
  refine ⟨scaleIfRatio_err mem3 _ r2, fun a' h1 h2 h3 => ?_⟩
  rw [scaleIfRatio_val mem3 _ r2, if_neg fun h => h3 h.1, scaleIfRatio_val mem2 _ r1,
    if_neg fun h => h2 h.1, scaleIfRatio_val mem1 _ hr, if_neg fun h => h1 h.1]

/-- Fields without observers. -/
lemma setAttr_plain {z : ℕ → ℝ → ℝ → ℝ} {b : BodyObj} {a : BodyAttr} {v : ℝ} (hv : 0 ≤ v)
    (ha : a = .rT ∨ a = .rS ∨ a = .rTs ∨ a = .inertiaRot ∨ a = .targetVelocity ∨
      a = .targetAngularVelocity) :
    (setAttr z b a v).err = false ∧
      ∀ a', (setAttr z b a v).obj.val a' = if a' = a then v else b.val a' := by
  have e : setAttr z b a v = assign noObserver b a v := by
    rcases ha with rfl | rfl | rfl | rfl | rfl | rfl <;> rfl
  rw [e]
  exact assign_noObserver (valid_of_nonneg hv (by
    rcases ha with rfl | rfl | rfl | rfl | rfl | rfl <;> decide))

lemma setAttr_radius {z : ℕ → ℝ → ℝ → ℝ} {b : BodyObj} {v : ℝ} (hv : 0 ≤ v) :
    (setAttr z b .radius v).err = false ∧ (setAttr z b .radius v).obj.val .radius = v ∧
      ∀ a', a' ≠ .radius → a' ≠ .rT → a' ≠ .rS → a' ≠ .rTs → a' ≠ .inertiaRot →
        (setAttr z b .radius v).obj.val a' = b.val a' := by
  unfold setAttr assign
  rw [if_pos (valid_of_nonneg hv (by decide))]
  split_ifs with h
  · exact ⟨rfl, h, fun _ _ _ _ _ _ => rfl⟩
  · unfold notifyAttr notifyDims
    simp only
    obtain ⟨h1, h2, -⟩ := observeInertia_val (b.store .radius v)
    have hr : 0 ≤ (observeInertiaRot (b.store .radius v)).obj.val .radius := by
      rw [h2 _ (by decide), store_val, if_pos rfl]; exact hv
    obtain ⟨h3, h4⟩ := observeRadius_val _ hr
    rw [andThen_false h1]
    refine ⟨h3, ?_, fun a' a1 a2 a3 a4 a5 => ?_⟩
    · rw [h4 _ (by decide) (by decide) (by decide), h2 _ (by decide), store_val, if_pos rfl]
    · rw [h4 _ a2 a3 a4, h2 _ a5, store_val, if_neg a1]

lemma setAttr_mass {z : ℕ → ℝ → ℝ → ℝ} {b : BodyObj} {v : ℝ} (hv : 0 ≤ v) :
    (setAttr z b .mass v).err = false ∧ (setAttr z b .mass v).obj.val .mass = v ∧
      ∀ a', a' ≠ .mass → a' ≠ .inertiaRot → (setAttr z b .mass v).obj.val a' = b.val a' := by
  unfold setAttr assign
  rw [if_pos (valid_of_nonneg hv (by decide))]
  split_ifs with h
  · exact ⟨rfl, h, fun _ _ _ => rfl⟩
  · unfold notifyAttr notifyDims
    simp only
    obtain ⟨h1, h2, -⟩ := observeInertia_val (b.store .mass v)
    refine ⟨h1, ?_, fun a' a1 a2 => ?_⟩
    · rw [h2 _ (by decide), store_val, if_pos rfl]
    · rw [h2 _ a2, store_val, if_neg a1]

/-- Assigning all fields in the order of the dtype gives all fields the assigned values. -/
lemma fromArray_val (z : ℕ → ℝ → ℝ → ℝ) (b : BodyObj) (row : BodyAttr → ℝ) (h : ∀ a, 0 ≤ row a) :
    (fromArrayBody z b row).err = false ∧
      ∀ a ∈ bodyFields, (fromArrayBody z b row).obj.val a = row a := by
  unfold fromArrayBody setAll bodyFields
  simp only [List.map_cons, List.map_nil, List.foldl_cons, List.foldl_nil]
  obtain ⟨e1, v1, u1⟩ := setAttr_radius (z := z) (b := b) (h .radius)
  rw [andThen_false (o := ⟨b, false⟩) rfl, andThen_false e1]
  generalize (setAttr z b .radius (row .radius)).obj = b1 at *
  obtain ⟨e2, u2⟩ := setAttr_plain (z := z) (b := b1) (a := .rT) (h .rT) (by simp)
  rw [andThen_false e2]
  generalize (setAttr z b1 .rT (row .rT)).obj = b2 at *
  obtain ⟨e3, u3⟩ := setAttr_plain (z := z) (b := b2) (a := .rS) (h .rS) (by simp)
  rw [andThen_false e3]
  generalize (setAttr z b2 .rS (row .rS)).obj = b3 at *
  obtain ⟨e4, u4⟩ := setAttr_plain (z := z) (b := b3) (a := .rTs) (h .rTs) (by simp)
  rw [andThen_false e4]
  generalize (setAttr z b3 .rTs (row .rTs)).obj = b4 at *
  obtain ⟨e5, v5, u5⟩ := setAttr_mass (z := z) (b := b4) (h .mass)
  rw [andThen_false e5]
  generalize (setAttr z b4 .mass (row .mass)).obj = b5 at *
  obtain ⟨e6, u6⟩ := setAttr_plain (z := z) (b := b5) (a := .inertiaRot) (h .inertiaRot) (by simp)
  rw [andThen_false e6]
  generalize (setAttr z b5 .inertiaRot (row .inertiaRot)).obj = b6 at *
  obtain ⟨e7, u7⟩ := setAttr_plain (z := z) (b := b6) (a := .targetVelocity) (h .targetVelocity)
    (by simp)
  rw [andThen_false e7]
  generalize (setAttr z b6 .targetVelocity (row .targetVelocity)).obj = b7 at *
  obtain ⟨e8, u8⟩ := setAttr_plain (z := z) (b := b7) (a := .targetAngularVelocity)
    (h .targetAngularVelocity) (by simp)
  refine ⟨e8, ?_⟩
  intro a ha
  simp only [List.mem_cons, List.not_mem_nil, or_false] at ha
  rcases ha with rfl | rfl | rfl | rfl | rfl | rfl | rfl | rfl <;>
    simp [u8, u7, u6, u5, u4, u3, u2, v5, v1]

/-! ## Shipped body types -/

/-- The entry of a body type in the configuration. -/
def cfgItems (a b c rm rs vm vs mm ms : ℝ) : List (BodyAttr × ℝ) :=
  [(.ratioRt, a), (.ratioRs, b), (.ratioTs, c), (.radiusMean, rm), (.radiusScale, rs),
    (.targetVelocityMean, vm), (.targetVelocityScale, vs), (.massMean, mm), (.massScale, ms)]

lemma setAttr_fresh {z : ℕ → ℝ → ℝ → ℝ} {b : BodyObj} {a : BodyAttr} {v : ℝ} (hv : a.valid v)
    (h0 : b.val a ≠ v) : setAttr z b a v = notifyAttr z a (b.store a v) := by
  unfold setAttr assign
  rw [if_pos hv, if_neg h0]

lemma assign_fresh {notify : BodyAttr → BodyObj → BodyOutcome} {b : BodyObj} {a : BodyAttr} {v : ℝ}
    (hv : a.valid v) (h0 : b.val a ≠ v) : assign notify b a v = notify a (b.store a v) := by
  unfold assign
  rw [if_pos hv, if_neg h0]

/-- Ratios set before the radius. -/
lemma setAttr_ratio {z : ℕ → ℝ → ℝ → ℝ} {b : BodyObj} {q p : BodyAttr} (hqp : (q, p) ∈ ratioPairs) {v : ℝ}
    (hv : 0 < v ∧ v ≤ 1) (h0 : b.val q = 0) (hr : b.val .radius = 0) :
    setAttr z b q v = ⟨b.store q v, false⟩ := by
  have hne : b.val q ≠ v := by rw [h0]; exact hv.1.ne
  rw [setAttr_fresh ⟨hv.1.le, fun _ => hv.2⟩ hne]
  have hq : ∀ q' : BodyAttr, q' ≠ .radius → ¬ (b.store q' v).val .radius > 0 := by
    intro q' h; rw [store_val, if_neg h.symm, hr]; simp
  simp only [ratioPairs, List.mem_cons, Prod.mk.injEq, List.not_mem_nil, or_false] at hqp
  rcases hqp with ⟨rfl, rfl⟩ | ⟨rfl, rfl⟩ | ⟨rfl, rfl⟩
  all_goals
    unfold notifyAttr notifyDims observeRadius
    simp only [reduceCtorEq, if_false]
    rw [if_neg (hq _ (by decide))]

/-- Mean set before the scale. -/
lemma setAttr_mean {z : ℕ → ℝ → ℝ → ℝ} {b : BodyObj} {t m s : BodyAttr}
    (h : (t, m, s) ∈ [(BodyAttr.radius, BodyAttr.radiusMean, BodyAttr.radiusScale),
      (.mass, .massMean, .massScale), (.targetVelocity, .targetVelocityMean,
        .targetVelocityScale)]) {v : ℝ} (hv : 0 < v) (h0 : b.val m = 0) (hs : b.val s = 0) :
    setAttr z b m v = ⟨b.store m v, false⟩ := by
  have hne : b.val m ≠ v := by rw [h0]; exact hv.ne
  have hs' : ∀ s' : BodyAttr, s' ≠ m → b.val s' = 0 → ¬ (b.store m v).val s' > 0 := by
    intro s' h hs; rw [store_val, if_neg h, hs]; simp
  simp only [List.mem_cons, Prod.mk.injEq, List.not_mem_nil, or_false] at h
  rcases h with ⟨rfl, rfl, rfl⟩ | ⟨rfl, rfl, rfl⟩ | ⟨rfl, rfl, rfl⟩
  all_goals
    rw [setAttr_fresh (valid_of_nonneg hv.le (by decide)) hne]
    unfold notifyAttr observeTruncnorm
    simp only
    rw [if_neg fun hh => hs' _ (by decide) hs hh.2.2]

lemma assignDims_radius {b : BodyObj} {v : ℝ} (hv : 0 < v) (h0 : b.val .radius = 0)
    (hm : b.val .mass = 0) :
    (assign notifyDims b .radius v).err = false ∧
      (assign notifyDims b .radius v).obj.val .radius = v ∧
      (∀ a', a' ≠ .radius → a' ≠ .rT → a' ≠ .rS → a' ≠ .rTs →
        (assign notifyDims b .radius v).obj.val a' = b.val a') ∧
      (∀ q p, (q, p) ∈ ratioPairs → DimInv q p (assign notifyDims b .radius v).obj) := by
  have hne : b.val .radius ≠ v := by rw [h0]; exact hv.ne
  rw [assign_fresh (valid_of_nonneg hv.le (by decide)) hne]
  refine ⟨?_, ?_, ?_, fun q p hqp => (notifyDims_spec hqp .radius _).1 (Or.inl rfl)⟩
  all_goals
    unfold notifyDims
    simp only
    obtain ⟨h1, h2, h5⟩ := observeInertia_val (b.store .radius v)
    have hr : 0 ≤ (observeInertiaRot (b.store .radius v)).obj.val .radius := by
      rw [h2 _ (by decide), store_val, if_pos rfl]; exact hv.le
    obtain ⟨h3, h4⟩ := observeRadius_val _ hr
    rw [andThen_false h1]
  · exact h3
  · rw [h4 _ (by decide) (by decide) (by decide), h2 _ (by decide), store_val, if_pos rfl]
  · intro a' a1 a2 a3 a4
    rw [h4 _ a2 a3 a4]
    by_cases ha : a' = .inertiaRot
    · subst ha
      rw [h5, if_neg, store_val, if_neg (by decide)]
      intro hh
      have := hh.2.1
      rw [store_val, if_neg (by decide), hm] at this
      exact lt_irrefl _ this
    · rw [h2 _ ha, store_val, if_neg a1]

lemma assignDims_mass {b : BodyObj} {v : ℝ} (hv : 0 < v) (h0 : b.val .mass = 0)
    (hi : b.val .inertiaRot = 0) (hr : 0 < b.val .radius) :
    (assign notifyDims b .mass v).err = false ∧
      (assign notifyDims b .mass v).obj.val .mass = v ∧
      (assign notifyDims b .mass v).obj.val .inertiaRot = inertiaFormula v (b.val .radius) ∧
      (∀ a', a' ≠ .mass → a' ≠ .inertiaRot →
        (assign notifyDims b .mass v).obj.val a' = b.val a') := by
  have hne : b.val .mass ≠ v := by rw [h0]; exact hv.ne
  rw [assign_fresh (valid_of_nonneg hv.le (by decide)) hne]
  unfold notifyDims
  simp only
  obtain ⟨h1, h2, h5⟩ := observeInertia_val (b.store .mass v)
  refine ⟨h1, ?_, ?_, fun a' a1 a2 => ?_⟩
  · rw [h2 _ (by decide), store_val, if_pos rfl]
  · rw [h5, if_pos]
    · simp [store_val]
    · simp [store_val, hi, hv, hr]
  · rw [h2 _ a2, store_val, if_neg a1]

lemma assignDims_velocity {b : BodyObj} {v : ℝ} (hv : 0 ≤ v) :
    (assign notifyDims b .targetVelocity v).err = false ∧
      ∀ a', (assign notifyDims b .targetVelocity v).obj.val a' =
        if a' = .targetVelocity then v else b.val a' :=
  assign_noObserver (valid_of_nonneg hv (by decide))

lemma truncnorm_pos {m s : ℝ} {z : ℝ → ℝ → ℝ} (hs : 0 < s) (hsm : s < m)
    (hz : -3 ≤ z (-3) 3 ∧ z (-3) 3 ≤ 3) :
    truncnorm (-3) 3 m 1 (some s) z = m + s / 3 * z (-3) 3 ∧ 0 < m + s / 3 * z (-3) 3 ∧
      m - s ≤ m + s / 3 * z (-3) 3 ∧ m + s / 3 * z (-3) 3 ≤ m + s := by
  have e : truncnorm (-3) 3 m 1 (some s) z = m + s / 3 * z (-3) 3 := by
    unfold truncnorm
    simp only [hs.ne', if_false, abs_neg]
    norm_num
  refine ⟨e, ?_, ?_, ?_⟩ <;> nlinarith [hz.1, hz.2]

/-- The observer that draws. -/
lemma setAttr_scale {z : ℕ → ℝ → ℝ → ℝ} {b : BodyObj} {t m s : BodyAttr}
    (h : (t, m, s) ∈ [(BodyAttr.radius, BodyAttr.radiusMean, BodyAttr.radiusScale),
      (.mass, .massMean, .massScale), (.targetVelocity, .targetVelocityMean,
        .targetVelocityScale)]) {v : ℝ} (hv : 0 < v) (h0 : b.val s = 0) (ht : b.val t = 0)
    (hm : v < b.val m) (hz : -3 ≤ z b.drawn (-3) 3 ∧ z b.drawn (-3) 3 ≤ 3) :
    setAttr z b s v = assign notifyDims { b.store s v with drawn := b.drawn + 1 } t
      (b.val m + v / 3 * z b.drawn (-3) 3) := by
  have hne : b.val s ≠ v := by rw [h0]; exact hv.ne
  have e := (truncnorm_pos hv hm hz).1
  simp only [List.mem_cons, Prod.mk.injEq, List.not_mem_nil, or_false] at h
  rcases h with ⟨rfl, rfl, rfl⟩ | ⟨rfl, rfl, rfl⟩ | ⟨rfl, rfl, rfl⟩
  all_goals
    rw [setAttr_fresh (valid_of_nonneg hv.le (by decide)) hne]
    unfold notifyAttr observeTruncnorm
    simp only
    rw [if_pos]
    · simp only [store_val, reduceCtorEq, if_true, if_false]
      have hd : ∀ a : BodyAttr, (b.store a v).drawn = b.drawn := fun _ => rfl
      rw [hd, e]
    · simp only [store_val, reduceCtorEq, if_true, if_false]
      exact ⟨ht, hv.trans hm, hv⟩

lemma andThen_mk (b : BodyObj) (f : BodyObj → BodyOutcome) :
    (BodyOutcome.mk b false).andThen f = f b := by
  simp [BodyOutcome.andThen]

/-- The values after setting all items of a body type on a new object. -/
lemma setAll_cfg (z : ℕ → ℝ → ℝ → ℝ) (name : String) {a b c rm rs vm vs mm ms : ℝ}
    (ha : 0 < a ∧ a ≤ 1) (hb : 0 < b ∧ b ≤ 1) (hc : 0 < c ∧ c ≤ 1) (hr : 0 < rs ∧ rs < rm)
    (hv : 0 < vs ∧ vs < vm) (hm : 0 < ms ∧ ms < mm)
    (hz : ∀ k, -3 ≤ z k (-3) 3 ∧ z k (-3) 3 ≤ 3) :
    ∃ o : BodyOutcome,
      setAll z { BodyObj.new with bodyType := name } (cfgItems a b c rm rs vm vs mm ms) = o ∧
      o.err = false ∧
      (rm - rs ≤ o.obj.val .radius ∧ o.obj.val .radius ≤ rm + rs) ∧
      (mm - ms ≤ o.obj.val .mass ∧ o.obj.val .mass ≤ mm + ms) ∧
      (vm - vs ≤ o.obj.val .targetVelocity ∧ o.obj.val .targetVelocity ≤ vm + vs) ∧
      o.obj.val .rT = a * o.obj.val .radius ∧ o.obj.val .rS = b * o.obj.val .radius ∧
      o.obj.val .rTs = c * o.obj.val .radius ∧
      o.obj.val .inertiaRot = inertiaFormula (o.obj.val .mass) (o.obj.val .radius) := by
  refine ⟨_, rfl, ?_⟩
  unfold setAll cfgItems
  simp only [List.foldl_cons, List.foldl_nil]
  have v0 : ∀ x, ({ BodyObj.new with bodyType := name } : BodyObj).val x = 0 := fun _ => rfl
  generalize ({ BodyObj.new with bodyType := name } : BodyObj) = b0 at *
  rw [andThen_mk]
  rw [setAttr_ratio mem1 ha (v0 _) (v0 _), andThen_mk]
  rw [setAttr_ratio mem2 hb (by simp [store_val, v0]) (by simp [store_val, v0]), andThen_mk]
  rw [setAttr_ratio mem3 hc (by simp [store_val, v0]) (by simp [store_val, v0]), andThen_mk]
  rw [setAttr_mean (t := .radius) (m := .radiusMean) (s := .radiusScale) (by simp)
    (hr.1.trans hr.2) (by simp [store_val, v0]) (by simp [store_val, v0]), andThen_mk]
  have v4 : ∀ x, ((((b0.store .ratioRt a).store .ratioRs b).store .ratioTs c).store
      .radiusMean rm).val x = if x = .radiusMean then rm else if x = .ratioTs then c else
        if x = .ratioRs then b else if x = .ratioRt then a else 0 := by
    intro x; simp only [store_val, v0]
  generalize (((b0.store .ratioRt a).store .ratioRs b).store .ratioTs c).store .radiusMean rm = b4
    at *
  -- radius
  rw [setAttr_scale (t := .radius) (m := .radiusMean) (s := .radiusScale) (by simp) hr.1
    (by simp [v4]) (by simp [v4]) (by simp [v4, hr.2]) (hz _)]
  obtain ⟨-, p1, lo1, hi1⟩ := truncnorm_pos hr.1 hr.2 (hz b4.drawn)
  have hrm : b4.val .radiusMean = rm := by simp [v4]
  rw [hrm]
  obtain ⟨e5, r5, u5, d5⟩ := assignDims_radius
    (b := { b4.store .radiusScale rs with drawn := b4.drawn + 1 }) p1
    (by simp [store_val, v4]) (by simp [store_val, v4])
  rw [andThen_false e5]
  have u5' : ∀ a', a' ≠ .radius → a' ≠ .rT → a' ≠ .rS → a' ≠ .rTs →
      (assign notifyDims { b4.store .radiusScale rs with drawn := b4.drawn + 1 } .radius
        (rm + rs / 3 * z b4.drawn (-3) 3)).obj.val a' =
          if a' = .radiusScale then rs else b4.val a' := by
    intro a' h1 h2 h3 h4
    rw [u5 a' h1 h2 h3 h4]
    exact store_val b4 .radiusScale rs a'
  generalize (assign notifyDims { b4.store .radiusScale rs with drawn := b4.drawn + 1 } .radius
        (rm + rs / 3 * z b4.drawn (-3) 3)).obj = b5 at *
  generalize rm + rs / 3 * z b4.drawn (-3) 3 = R at *
  have q1 : b5.val .ratioRt = a := by rw [u5' _ (by decide) (by decide) (by decide) (by decide)]; simp [v4]
  have q2 : b5.val .ratioRs = b := by rw [u5' _ (by decide) (by decide) (by decide) (by decide)]; simp [v4]
  have q3 : b5.val .ratioTs = c := by rw [u5' _ (by decide) (by decide) (by decide) (by decide)]; simp [v4]
  have w1 : b5.val .rT = a * R := by
    have := d5 _ _ mem1 (by rw [r5]; exact p1) (by rw [q1]; exact ha.1)
    rwa [q1, r5] at this
  have w2 : b5.val .rS = b * R := by
    have := d5 _ _ mem2 (by rw [r5]; exact p1) (by rw [q2]; exact hb.1)
    rwa [q2, r5] at this
  have w3 : b5.val .rTs = c * R := by
    have := d5 _ _ mem3 (by rw [r5]; exact p1) (by rw [q3]; exact hc.1)
    rwa [q3, r5] at this
  have z5 : ∀ x : BodyAttr, x = .targetVelocityMean ∨ x = .targetVelocityScale ∨
      x = .massMean ∨ x = .massScale ∨ x = .mass ∨ x = .targetVelocity ∨ x = .inertiaRot →
      b5.val x = 0 := by
    intro x hx
    rcases hx with rfl | rfl | rfl | rfl | rfl | rfl | rfl <;>
      rw [u5' _ (by decide) (by decide) (by decide) (by decide)] <;> simp [v4]
  -- target velocity
  rw [setAttr_mean (t := .targetVelocity) (m := .targetVelocityMean) (s := .targetVelocityScale)
    (by simp) (hv.1.trans hv.2) (z5 _ (by simp)) (z5 _ (by simp)), andThen_mk]
  rw [setAttr_scale (t := .targetVelocity) (m := .targetVelocityMean) (s := .targetVelocityScale)
    (by simp) hv.1 (by rw [store_val]; simp [z5]) (by rw [store_val]; simp [z5])
    (by rw [store_val]; simp [hv.2]) (hz _)]
  have hdr : (b5.store .targetVelocityMean vm).drawn = b5.drawn := rfl
  have hvm : (b5.store .targetVelocityMean vm).val .targetVelocityMean = vm := by simp [store_val]
  rw [hdr, hvm]
  obtain ⟨-, p2, lo2, hi2⟩ := truncnorm_pos hv.1 hv.2 (hz b5.drawn)
  obtain ⟨e7, u7⟩ := assignDims_velocity
    (b := { (b5.store .targetVelocityMean vm).store .targetVelocityScale vs with
      drawn := b5.drawn + 1 }) p2.le
  rw [andThen_false e7]
  have u7' : ∀ a', (assign notifyDims { (b5.store .targetVelocityMean vm).store
      .targetVelocityScale vs with drawn := b5.drawn + 1 } .targetVelocity
        (vm + vs / 3 * z b5.drawn (-3) 3)).obj.val a' = if a' = .targetVelocity then
          vm + vs / 3 * z b5.drawn (-3) 3 else if a' = .targetVelocityScale then vs else
          if a' = .targetVelocityMean then vm else b5.val a' := by
    intro a'
    rw [u7]
    have : ({ (b5.store .targetVelocityMean vm).store .targetVelocityScale vs with
      drawn := b5.drawn + 1 } : BodyObj).val a' =
        ((b5.store .targetVelocityMean vm).store .targetVelocityScale vs).val a' := rfl
    rw [this, store_val, store_val]
  generalize (assign notifyDims { (b5.store .targetVelocityMean vm).store
      .targetVelocityScale vs with drawn := b5.drawn + 1 } .targetVelocity
        (vm + vs / 3 * z b5.drawn (-3) 3)).obj = b7 at *
  generalize vm + vs / 3 * z b5.drawn (-3) 3 = V at *
  -- mass
  rw [setAttr_mean (t := .mass) (m := .massMean) (s := .massScale)
    (by simp) (hm.1.trans hm.2) (by rw [u7']; simp [z5]) (by rw [u7']; simp [z5]), andThen_mk]
  rw [setAttr_scale (t := .mass) (m := .massMean) (s := .massScale)
    (by simp) hm.1 (by rw [store_val]; simp [z5, u7']) (by rw [store_val]; simp [z5, u7'])
    (by rw [store_val]; simp [hm.2]) (hz _)]
  have hdr : (b7.store .massMean mm).drawn = b7.drawn := rfl
  have hmm : (b7.store .massMean mm).val .massMean = mm := by simp [store_val]
  rw [hdr, hmm]
  obtain ⟨-, p3, lo3, hi3⟩ := truncnorm_pos hm.1 hm.2 (hz b7.drawn)
  have k : ∀ x, ({ (b7.store .massMean mm).store .massScale ms with
      drawn := b7.drawn + 1 } : BodyObj).val x =
        ((b7.store .massMean mm).store .massScale ms).val x := fun _ => rfl
  obtain ⟨e9, m9, i9, u9⟩ := assignDims_mass
    (b := { (b7.store .massMean mm).store .massScale ms with drawn := b7.drawn + 1 }) p3
    (by rw [k]; simp [store_val, u7', z5]) (by rw [k]; simp [store_val, u7', z5])
    (by rw [k]; simp [store_val, u7', r5, p1])
  have hR : ({ (b7.store .massMean mm).store .massScale ms with
      drawn := b7.drawn + 1 } : BodyObj).val .radius = R := by rw [k]; simp [store_val, u7', r5]
  refine ⟨e9, ?_, ?_, ?_, ?_, ?_, ?_, ?_⟩
  · rw [u9 _ (by decide) (by decide), hR]; exact ⟨lo1, hi1⟩
  · rw [m9]; exact ⟨lo3, hi3⟩
  · rw [u9 _ (by decide) (by decide), k]
    simp only [store_val, reduceCtorEq, if_false, u7', if_true]
    exact ⟨lo2, hi2⟩
  · rw [u9 _ (by decide) (by decide), u9 _ (by decide) (by decide), hR, k]
    simp only [store_val, reduceCtorEq, if_false, u7', w1]
  · rw [u9 _ (by decide) (by decide), u9 _ (by decide) (by decide), hR, k]
    simp only [store_val, reduceCtorEq, if_false, u7', w2]
  · rw [u9 _ (by decide) (by decide), u9 _ (by decide) (by decide), hR, k]
    simp only [store_val, reduceCtorEq, if_false, u7', w3]
  · rw [i9, m9, u9 _ (by decide) (by decide)]

/-! ## A nonzero inertia is never updated -/

def KeepsInertia (b b' : BodyObj) : Prop :=
  b.val .inertiaRot ≠ 0 → b'.val .inertiaRot = b.val .inertiaRot

lemma KeepsInertia.refl (b : BodyObj) : KeepsInertia b b := fun _ => rfl

lemma KeepsInertia.trans {a b c : BodyObj} (h1 : KeepsInertia a b) (h2 : KeepsInertia b c) :
    KeepsInertia a c := by
  intro h
  have e1 := h1 h
  rw [h2 (by rw [e1]; exact h), e1]

lemma keepsInertia_andThen {b : BodyObj} {o : BodyOutcome} {f : BodyObj → BodyOutcome}
    (h : KeepsInertia b o.obj) (hf : ∀ c, KeepsInertia c (f c).obj) :
    KeepsInertia b (o.andThen f).obj := by
  unfold BodyOutcome.andThen
  split_ifs
  · exact h
  · exact h.trans (hf _)

lemma keepsInertia_assign {a : BodyAttr} (notify : BodyAttr → BodyObj → BodyOutcome)
    (hn : ∀ c, KeepsInertia c (notify a c).obj) (ha : a ≠ .inertiaRot) (b : BodyObj) (v : ℝ) :
    KeepsInertia b (assign notify b a v).obj := by
  unfold assign
  split_ifs
  · exact .refl b
  · refine KeepsInertia.trans (b := b.store a v) (fun _ => ?_) (hn _)
    rw [store_val, if_neg (Ne.symm ha)]
  · exact .refl b

lemma keepsInertia_observe (b : BodyObj) : KeepsInertia b (observeInertiaRot b).obj := by
  intro h
  rw [(observeInertia_val b).2.2, if_neg (fun hh => h hh.1)]

lemma keepsInertia_noObserver {a : BodyAttr} (ha : a ≠ .inertiaRot) (b : BodyObj) (v : ℝ) :
    KeepsInertia b (assign noObserver b a v).obj :=
  keepsInertia_assign _ (fun c => .refl c) ha b v

lemma keepsInertia_scale (q : BodyAttr) {p : BodyAttr} (hp : p ≠ .inertiaRot) (b : BodyObj) :
    KeepsInertia b (scaleIfRatio q p b).obj := by
  unfold scaleIfRatio
  split_ifs
  · exact keepsInertia_noObserver hp b _
  · exact .refl b

lemma keepsInertia_observeRadius (a : BodyAttr) (b : BodyObj) :
    KeepsInertia b (observeRadius a b).obj := by
  unfold observeRadius
  split_ifs
  · exact keepsInertia_andThen (keepsInertia_andThen (keepsInertia_scale _ (by decide) b)
      (keepsInertia_scale _ (by decide))) (keepsInertia_scale _ (by decide))
  all_goals first
    | exact .refl b
    | exact keepsInertia_noObserver (by decide) b _

lemma keepsInertia_notifyDims (a : BodyAttr) (b : BodyObj) :
    KeepsInertia b (notifyDims a b).obj := by
  unfold notifyDims
  split
  · exact keepsInertia_andThen (keepsInertia_observe b) (keepsInertia_observeRadius _)
  · exact keepsInertia_observe b
  all_goals first
    | exact keepsInertia_observeRadius _ b
    | exact .refl b

lemma keepsInertia_truncnorm (z : ℕ → ℝ → ℝ → ℝ) {t m s : BodyAttr} (ht : t ≠ .inertiaRot) (b : BodyObj) :
    KeepsInertia b (observeTruncnorm z t m s b).obj := by
  unfold observeTruncnorm
  split_ifs
  · have := keepsInertia_assign notifyDims (keepsInertia_notifyDims t) ht
      { b with drawn := b.drawn + 1 } (truncnorm (-3) 3 (b.val m) 1 (some (b.val s)) (z b.drawn))
    exact this
  · exact .refl b

lemma keepsInertia_setAttr (z : ℕ → ℝ → ℝ → ℝ) {a : BodyAttr} (ha : a ≠ .inertiaRot) (b : BodyObj) (v : ℝ) :
    KeepsInertia b (setAttr z b a v).obj := by
  refine keepsInertia_assign _ (fun c => ?_) ha b v
  unfold notifyAttr
  split
  all_goals first
    | exact keepsInertia_truncnorm z (by decide) c
    | exact keepsInertia_notifyDims _ c

lemma keepsInertia_setKw {cfg : List (String × List (BodyAttr × ℝ))}
    (hcfg : ∀ e ∈ cfg, ∀ kv ∈ e.2, kv.1 ≠ .inertiaRot) (z : ℕ → ℝ → ℝ → ℝ) (b : BodyObj) (kw : BodyKw)
    (hk : ∀ v, kw ≠ .attr .inertiaRot v) : KeepsInertia b (setKw cfg z b kw).obj := by
  cases kw with
  | attr a v => exact keepsInertia_setAttr z (fun h => hk v (by rw [h])) b v
  | bodyType name =>
    unfold setKw setBodyType
    simp only
    split_ifs
    · exact .refl b
    · unfold observeBodyType
      split_ifs
      · split
        · exact fun _ => rfl
        · rename_i items hl
          have hmem := hcfg _ (lookup_mem hl)
          simp only at hmem
          unfold setAll
          have key : ∀ (items : List (BodyAttr × ℝ)) (o : BodyOutcome),
              (∀ kv ∈ items, kv.1 ≠ .inertiaRot) → KeepsInertia b o.obj →
              KeepsInertia b
                (items.foldl (fun o kv => o.andThen fun b => setAttr z b kv.1 kv.2) o).obj := by
            intro items
            induction items with
            | nil => intro o _ h; exact h
            | cons kv items ih =>
              intro o h1 h2
              exact ih _ (fun k hk => h1 k (by simp [hk])) (keepsInertia_andThen h2 fun c =>
                keepsInertia_setAttr z (h1 kv (by simp)) c _)
          exact key items _ hmem (fun _ => rfl)
      · exact fun _ => rfl

/-! ## All values stay nonnegative -/

def NonnegBody (b : BodyObj) : Prop := ∀ a, 0 ≤ b.val a

lemma nonneg_store {b : BodyObj} {a : BodyAttr} {v : ℝ} (h : NonnegBody b) (hv : a.valid v) :
    NonnegBody (b.store a v) := by
  intro a'
  rw [store_val]
  split_ifs
  · exact hv.1
  · exact h a'

lemma nonneg_andThen {o : BodyOutcome} {f : BodyObj → BodyOutcome} (h : NonnegBody o.obj)
    (hf : ∀ c, NonnegBody c → NonnegBody (f c).obj) : NonnegBody (o.andThen f).obj := by
  unfold BodyOutcome.andThen
  split_ifs
  · exact h
  · exact hf _ h

lemma nonneg_assign {a : BodyAttr} (notify : BodyAttr → BodyObj → BodyOutcome)
    (hn : ∀ c, NonnegBody c → NonnegBody (notify a c).obj) (b : BodyObj) (v : ℝ)
    (h : NonnegBody b) : NonnegBody (assign notify b a v).obj := by
  unfold assign
  split_ifs with hv
  · exact h
  · exact hn _ (nonneg_store h hv)
  · exact h

lemma nonneg_noObserver {a : BodyAttr} (b : BodyObj) (v : ℝ) (h : NonnegBody b) :
    NonnegBody (assign noObserver b a v).obj := nonneg_assign _ (fun _ h => h) b v h

lemma nonneg_observeInertia (b : BodyObj) (h : NonnegBody b) :
    NonnegBody (observeInertiaRot b).obj := by
  unfold observeInertiaRot
  simp only
  split_ifs
  · exact nonneg_noObserver b _ h
  · exact h

lemma nonneg_scale (q p : BodyAttr) (b : BodyObj) (h : NonnegBody b) :
    NonnegBody (scaleIfRatio q p b).obj := by
  unfold scaleIfRatio
  split_ifs
  · exact nonneg_noObserver b _ h
  · exact h

lemma nonneg_observeRadius (a : BodyAttr) (b : BodyObj) (h : NonnegBody b) :
    NonnegBody (observeRadius a b).obj := by
  unfold observeRadius
  split_ifs
  · exact nonneg_andThen (nonneg_andThen (nonneg_scale _ _ b h) (nonneg_scale _ _))
      (nonneg_scale _ _)
  all_goals first
    | exact h
    | exact nonneg_noObserver b _ h

lemma nonneg_notifyDims (a : BodyAttr) (b : BodyObj) (h : NonnegBody b) :
    NonnegBody (notifyDims a b).obj := by
  unfold notifyDims
  split
  · exact nonneg_andThen (nonneg_observeInertia b h) (nonneg_observeRadius _)
  · exact nonneg_observeInertia b h
  all_goals first
    | exact nonneg_observeRadius _ b h
    | exact h

lemma nonneg_notifyAttr (z : ℕ → ℝ → ℝ → ℝ) (a : BodyAttr) (b : BodyObj) (h : NonnegBody b) :
    NonnegBody (notifyAttr z a b).obj := by
  have key : ∀ t m s, NonnegBody (observeTruncnorm z t m s b).obj := by
    intro t m s
    unfold observeTruncnorm
    split_ifs
    · exact nonneg_assign _ (nonneg_notifyDims t) _ _ h
    · exact h
  unfold notifyAttr
  split
  all_goals first
    | exact key _ _ _
    | exact nonneg_notifyDims _ b h

lemma nonneg_observeBodyType (cfg : List (String × List (BodyAttr × ℝ))) (z : ℕ → ℝ → ℝ → ℝ) (old : String)
    (b : BodyObj) (h : NonnegBody b) : NonnegBody (observeBodyType cfg z old b).obj := by
  unfold observeBodyType
  split_ifs
  · split
    · exact h
    · rename_i items hl
      unfold setAll
      have key : ∀ (items : List (BodyAttr × ℝ)) (o : BodyOutcome), NonnegBody o.obj →
          NonnegBody
            (items.foldl (fun o kv => o.andThen fun b => setAttr z b kv.1 kv.2) o).obj := by
        intro items
        induction items with
        | nil => intro o h; exact h
        | cons kv items ih =>
          intro o h1
          exact ih _ (nonneg_andThen h1 fun c hc =>
            nonneg_assign _ (nonneg_notifyAttr z kv.1) c _ hc)
      exact key items _ h
  · exact h

lemma nonneg_setKw (cfg : List (String × List (BodyAttr × ℝ))) (z : ℕ → ℝ → ℝ → ℝ) (b : BodyObj)
    (kw : BodyKw) (h : NonnegBody b) : NonnegBody (setKw cfg z b kw).obj := by
  cases kw with
  | attr a v => exact nonneg_assign _ (nonneg_notifyAttr z a) b v h
  | bodyType name =>
    unfold setKw setBodyType
    simp only
    split_ifs
    · exact h
    · exact nonneg_observeBodyType _ _ _ _ h

lemma nonneg_construct (cfg : List (String × List (BodyAttr × ℝ))) (z : ℕ → ℝ → ℝ → ℝ)
    (kws : List BodyKw) : NonnegBody (construct cfg z kws).obj := by
  have k1 : ∀ (l : List BodyKw) (o : BodyOutcome), NonnegBody o.obj →
      NonnegBody (l.foldl storeKw o).obj := by
    intro l
    induction l with
    | nil => intro o h; exact h
    | cons kw l ih =>
      intro o h
      refine ih _ ?_
      unfold storeKw
      cases kw with
      | attr a v =>
        refine nonneg_andThen h fun c hc => ?_
        split_ifs with hv
        · exact nonneg_store hc hv
        · exact hc
      | bodyType name => exact nonneg_andThen h fun c hc => hc
  have k2 : ∀ (l : List BodyKw) (o : BodyOutcome), NonnegBody o.obj →
      NonnegBody (l.foldl (fun o kw => o.andThen fun b => notifyKw cfg z b kw) o).obj := by
    intro l
    induction l with
    | nil => intro o h; exact h
    | cons kw l ih =>
      intro o h
      refine ih _ (nonneg_andThen h fun c hc => ?_)
      unfold notifyKw
      cases kw with
      | attr a v =>
        simp only
        split_ifs
        · exact hc
        · exact nonneg_notifyAttr z a c hc
      | bodyType name =>
        simp only
        split_ifs
        · exact hc
        · exact nonneg_observeBodyType _ _ _ _ hc
  exact k2 kws _ (k1 kws _ fun _ => le_refl _)

end CrowdDynamics
