import Verif.Proofs.BodyType
import Verif.Spec.Body
import Verif.Props.Placement
import Verif.Props.Interactions

/-!
# Properties C16, C53, C54, C64: body types
-/

namespace CrowdDynamics

open Classical Spec

/-! ## C16: the shipped body types -/

lemma construct_bodyType (z : ℕ → ℝ → ℝ → ℝ) (name : String) (hn : name ≠ "")
    (items : List (BodyAttr × ℝ)) (hl : bodyTypesCfg.lookup name = some items) :
    construct bodyTypesCfg z [.bodyType name] =
      setAll z { BodyObj.new with bodyType := name } items := by
  unfold construct
  simp only [List.foldl_cons, List.foldl_nil]
  unfold storeKw notifyKw
  simp only [andThen_mk, hn, if_false]
  unfold observeBodyType
  simp [hl]

lemma lookup_shipped (name : String) (h : name ∈ shippedNames) :
    name ≠ "" ∧ ∃ a b c rm rs vm vs mm ms : ℝ,
      bodyTypesCfg.lookup name = some (cfgItems a b c rm rs vm vs mm ms) ∧
      (0 < a ∧ a ≤ 1) ∧ (0 < b ∧ b ≤ 1) ∧ (0 < c ∧ c ≤ 1) ∧ (0 < rs ∧ rs < rm) ∧
      (0 < vs ∧ vs < vm) ∧ (0 < ms ∧ ms < mm) ∧ b + c = 1 ∧ 0.195 ≤ rm - rs ∧
      rm + rs ≤ 0.29 ∧ 0.5 ≤ vm - vs ∧ vm + vs ≤ 1.55 ∧ 51.3 ≤ mm - ms ∧ mm + ms ≤ 88 := by
  simp only [shippedNames, List.mem_cons, List.not_mem_nil, or_false] at h
  rcases h with rfl | rfl | rfl | rfl | rfl
  · exact ⟨by decide, 0.5882, 0.3725, 0.6275, 0.255, 0.035, 1.25, 0.3, 73.5, 8.0, rfl,
      by norm_num⟩
  · exact ⟨by decide, 0.5926, 0.3704, 0.6296, 0.27, 0.02, 1.35, 0.2, 80.0, 8.0, rfl,
      by norm_num⟩
  · exact ⟨by decide, 0.5833, 0.375, 0.625, 0.24, 0.02, 1.15, 0.2, 67.0, 6.7, rfl,
      by norm_num⟩
  · exact ⟨by decide, 0.5714, 0.3333, 0.6667, 0.21, 0.015, 0.9, 0.3, 57.0, 5.7, rfl,
      by norm_num⟩
  · exact ⟨by decide, 0.6, 0.36, 0.64, 0.25, 0.02, 0.8, 0.3, 70.0, 7.0, rfl,
      by norm_num⟩

/-- **C16** Creating an agent of a shipped body type succeeds; radius, mass and target
velocity are drawn from positive ranges, the dimensions follow the radius, torso and
shoulders fit into the radius, and the inertia is that of the drawn mass and radius. -/
theorem C16_shipped_values (z : ℕ → ℝ → ℝ → ℝ) (hz : InTruncRange z) (name : String)
    (hname : name ∈ shippedNames) :
    ∃ b : BodyObj, construct bodyTypesCfg z [.bodyType name] = ⟨b, false⟩ ∧
      0.195 ≤ b.val .radius ∧ b.val .radius ≤ 0.29 ∧
      51.3 ≤ b.val .mass ∧ b.val .mass ≤ 88 ∧
      0.5 ≤ b.val .targetVelocity ∧ b.val .targetVelocity ≤ 1.55 ∧
      0 < b.val .rT ∧ b.val .rT ≤ b.val .radius ∧ 0 < b.val .rS ∧ 0 < b.val .rTs ∧
      b.val .rTs + b.val .rS = b.val .radius ∧
      b.val .inertiaRot = bodyInertia (b.val .mass) (b.val .radius) := by
  obtain ⟨hn, a, b, c, rm, rs, vm, vs, mm, ms, hl, ha, hb, hc, hr, hv, hm, hsum, h1, h2, h3, h4,
    h5, h6⟩ := lookup_shipped name hname
  obtain ⟨o, e, he, ⟨r1, r2⟩, ⟨m1, m2⟩, ⟨v1, v2⟩, d1, d2, d3, i1⟩ :=
    setAll_cfg z name ha hb hc hr hv hm fun k => hz k (-3) 3 (by norm_num)
  rw [construct_bodyType z name hn _ hl, e]
  have hR : 0 < o.obj.val .radius := by linarith
  obtain ⟨ob, err⟩ := o
  simp only at *
  subst he
  refine ⟨ob, rfl, by linarith, by linarith, by linarith, by linarith, by linarith, by linarith,
    ?_, ?_, ?_, ?_, ?_, i1⟩
  · rw [d1]; exact mul_pos ha.1 hR
  · rw [d1]; nlinarith [ha.2]
  · rw [d2]; exact mul_pos hb.1 hR
  · rw [d3]; exact mul_pos hc.1 hR
  · rw [d2, d3, ← add_mul, add_comm c b, hsum, one_mul]

/-- First the lower bound, then the middle of the range. -/
example : InTruncRange (fun k a b => if k = 0 then a else (a + b) / 2) ∧
    "child" ∈ shippedNames := by
  refine ⟨fun k a b h => ?_, by decide⟩
  dsimp only
  split_ifs
  · exact ⟨le_rfl, h⟩
  · constructor <;> linarith

/-- **C16** All discs of a stored agent with a shipped body lie within 0.29 of its centre. -/
theorem C16_body_within (z : ℕ → ℝ → ℝ → ℝ) (hz : InTruncRange z) (name : String)
    (hname : name ∈ shippedNames) (k : Kind) (a : Agent)
    (ha : StoresBody a (construct bodyTypesCfg z [.bodyType name]).obj)
    (hs : k = .threeCircle → ShouldersAttached a) : BodyWithin k a 0.29 := by
  obtain ⟨b, hb, r1, r2, -, -, -, -, t1, t2, s1, ts1, hsum, -⟩ := C16_shipped_values z hz name hname
  rw [hb] at ha
  obtain ⟨e1, e2, e3, e4, -, -, -⟩ := ha
  simp only at e1 e2 e3 e4
  have h0 : Spec.dist a.position a.position = 0 := by
    unfold Spec.dist; rw [sub_self]; exact length_eq_zero.2 rfl
  intro d hd
  cases k with
  | circular =>
    simp only [discs, List.mem_singleton] at hd
    subst hd
    simp only [h0]
    linarith
  | threeCircle =>
    obtain ⟨hl, hr⟩ := hs rfl
    have key : ∀ s : ℝ, s = 1 ∨ s = -1 → Spec.dist a.position
        (a.position.1 - s * (a.rTs * Real.sin a.orientation),
          a.position.2 + s * (a.rTs * Real.cos a.orientation)) = a.rTs := by
      intro s hs
      have hs2 : s ^ 2 = 1 := by rcases hs with rfl | rfl <;> norm_num
      unfold Spec.dist Spec.len
      simp only [Prod.fst_sub, Prod.snd_sub]
      rw [show (a.position.1 - (a.position.1 - s * (a.rTs * Real.sin a.orientation))) ^ 2 +
        (a.position.2 - (a.position.2 + s * (a.rTs * Real.cos a.orientation))) ^ 2 =
          a.rTs ^ 2 by
        linear_combination (a.rTs ^ 2) * (s ^ 2) * Real.sin_sq_add_cos_sq a.orientation +
          a.rTs ^ 2 * hs2]
      exact Real.sqrt_sq (by rw [e4]; exact ts1.le)
    simp only [discs, List.mem_cons, List.not_mem_nil, or_false] at hd
    rcases hd with rfl | rfl | rfl
    · simp only [h0]
      linarith
    · simp only
      have := key 1 (Or.inl rfl)
      rw [one_mul, one_mul] at this
      rw [hl, this]
      linarith
    · simp only
      have := key (-1) (Or.inr rfl)
      rw [show a.position.1 - -1 * (a.rTs * Real.sin a.orientation) =
        a.position.1 + a.rTs * Real.sin a.orientation by ring,
        show a.position.2 + -1 * (a.rTs * Real.cos a.orientation) =
        a.position.2 - a.rTs * Real.cos a.orientation by ring] at this
      rw [hr, this]
      linarith

/-- **C16** Two stored agents with shipped bodies that overlap have centres closer than the
default cell size of the placement; discs that are less than the sight distance 3 apart
have centres closer than the default cell size of the interactions. -/
theorem C16_default_cells (z z' : ℕ → ℝ → ℝ → ℝ) (hz : InTruncRange z) (hz' : InTruncRange z')
    (name name' : String) (hname : name ∈ shippedNames) (hname' : name' ∈ shippedNames)
    (k : Kind) (a b : Agent)
    (ha : StoresBody a (construct bodyTypesCfg z [.bodyType name]).obj)
    (hb : StoresBody b (construct bodyTypesCfg z' [.bodyType name']).obj)
    (hsa : k = .threeCircle → ShouldersAttached a)
    (hsb : k = .threeCircle → ShouldersAttached b) :
    (¬ DisjointBodies k a b → Spec.dist a.position b.position < defaultPlacementCell) ∧
    ((∃ d ∈ discs k a, ∃ e ∈ discs k b, Spec.dist d.1 e.1 - (d.2 + e.2) < 3) →
      Spec.dist a.position b.position < defaultInteractionCell) := by
  have w1 := C16_body_within z hz name hname k a ha hsa
  have w2 := C16_body_within z' hz' name' hname' k b hb hsb
  have tri : ∀ d ∈ discs k a, ∀ e ∈ discs k b, Spec.dist a.position b.position ≤
      0.58 + (Spec.dist d.1 e.1 - (d.2 + e.2)) := by
    intro d hd e he
    have h1 := w1 d hd
    have h2 := w2 e he
    have h3 := dist_triangle4 a.position d.1 e.1 b.position
    rw [dist_comm' e.1 b.position] at h3
    norm_num at h1 h2 ⊢
    linarith
  unfold defaultPlacementCell defaultInteractionCell
  constructor
  · intro h
    unfold DisjointBodies at h
    push Not at h
    obtain ⟨d, hd, e, he, hlt⟩ := h
    have := tri d hd e he
    norm_num at this ⊢
    linarith
  · rintro ⟨d, hd, e, he, hlt⟩
    have := tri d hd e he
    norm_num at this ⊢
    linarith

/-- **C16** Hence circular agents with shipped bodies that were placed with the default cell
size never overlap, whatever the groups, random positions and failures. -/
theorem C16_placed_disjoint (st0 : AgentsState)
    (hinit : AgentsState.init .circular defaultPlacementCell = some st0)
    (calls : List (Group × List Vec × Option (List Wall)))
    (hbody : ∀ (i : ℕ) (a : Agent), i < (addGroups st0 calls).index →
      (addGroups st0 calls).array[i]? = some a → ∃ z name, InTruncRange z ∧ name ∈ shippedNames ∧
      StoresBody a (construct bodyTypesCfg z [.bodyType name]).obj) (i j : ℕ) (hij : i ≠ j)
    (hi : i < (addGroups st0 calls).index) (hj : j < (addGroups st0 calls).index)
    (a b : Agent) (ha : (addGroups st0 calls).array[i]? = some a)
    (hb : (addGroups st0 calls).array[j]? = some b) :
    a.radius + b.radius ≤ Spec.dist a.position b.position := by
  have key : ∀ (i : ℕ) (a : Agent), i < (addGroups st0 calls).index →
      (addGroups st0 calls).array[i]? = some a → a.radius ≤ 0.29 := by
    intro i a h1 h2
    obtain ⟨z, name, hz, hn, hs⟩ := hbody i a h1 h2
    obtain ⟨bo, e, -, h, -⟩ := C16_shipped_values z hz name hn
    rw [hs.radius, e]
    exact h
  refine C14_agents_disjoint defaultPlacementCell st0 hinit calls i j hij hi hj a b ha hb ?_
  have h1 := key i a hi ha
  have h2 := key j b hj hb
  unfold defaultPlacementCell
  norm_num at h1 h2 ⊢
  linarith

/-- **C16** And with the default cell size of the interactions the cell list misses no pair
of circular agents with shipped bodies. -/
theorem C16_interactions_complete {n : ℕ}
    (cellPairs : (Fin n → Vec) → ℝ → List (Fin n × Fin n)) (A : AgentArray n)
    (hcells : EnumeratesNeighbours (fun i => (A.rows i).position) defaultInteractionCell
      (cellPairs (fun i => (A.rows i).position) defaultInteractionCell))
    (hA : isModel A .circular = true)
    (hbody : ∀ i, ∃ z name, InTruncRange z ∧ name ∈ shippedNames ∧
      StoresBody (A.rows i) (construct bodyTypesCfg z [.bodyType name]).obj) :
    agentAgentBlockList cellPairs A defaultInteractionCell =
      some { A with rows := agentAgentCircular A.rows (allPairs n) } := by
  have hr : ∀ i, (A.rows i).radius ≤ 0.29 := by
    intro i
    obtain ⟨z, name, hz, hn, hs⟩ := hbody i
    obtain ⟨bo, e, -, h, -⟩ := C16_shipped_values z hz name hn
    rw [hs.radius, e]
    exact h
  refine C30_circular_cells cellPairs A _ (by unfold defaultInteractionCell; norm_num) hcells hA
    fun i j _ => ?_
  have h1 := hr i
  have h2 := hr j
  unfold defaultInteractionCell
  norm_num at h1 h2 ⊢
  linarith

/-- **C16** A name that is not in the file is an error. -/
theorem C16_unknown_name (z : ℕ → ℝ → ℝ → ℝ) (name : String) (hne : name ≠ "")
    (h : name ∉ shippedNames) : (construct bodyTypesCfg z [.bodyType name]).err = true := by
  have hl : bodyTypesCfg.lookup name = none := by
    simp only [shippedNames, List.mem_cons, List.not_mem_nil, or_false, not_or] at h
    obtain ⟨h1, h2, h3, h4, h5⟩ := h
    unfold bodyTypesCfg
    simp [List.lookup, beq_eq_false_iff_ne.2 h1, beq_eq_false_iff_ne.2 h2,
      beq_eq_false_iff_ne.2 h3, beq_eq_false_iff_ne.2 h4, beq_eq_false_iff_ne.2 h5]
  unfold construct
  simp only [List.foldl_cons, List.foldl_nil]
  unfold storeKw notifyKw
  simp only [andThen_mk, hne, if_false]
  unfold observeBodyType
  simp [hl]

example : "elderly" ≠ "" ∧ "elderly" ∉ shippedNames := by decide

/-- The row of an agent object with position `p` and orientation 0. -/
noncomputable def exampleRow (b : BodyObj) (p : Vec) : Agent :=
  { Agent.default with
    radius := b.val .radius, rT := b.val .rT, rS := b.val .rS, rTs := b.val .rTs
    mass := b.val .mass, inertiaRot := b.val .inertiaRot, targetVelocity := b.val .targetVelocity
    position := p, orientation := 0
    positionLs := (p.1, p.2 + b.val .rTs), positionRs := (p.1, p.2 - b.val .rTs) }

/-- Every object has rows that store it and whose shoulders are attached. -/
example (b : BodyObj) (p : Vec) :
    StoresBody (exampleRow b p) b ∧ ShouldersAttached (exampleRow b p) := by
  refine ⟨⟨rfl, rfl, rfl, rfl, rfl, rfl, rfl⟩, ?_, ?_⟩ <;>
    simp [exampleRow]

/-- A crowd with shipped bodies. -/
example : ∃ A : AgentArray 2, isModel A .circular = true ∧ ∀ i, ∃ z name, InTruncRange z ∧
    name ∈ shippedNames ∧
      StoresBody (A.rows i) (construct bodyTypesCfg z [.bodyType name]).obj := by
  refine ⟨⟨.const .circular, ![exampleRow (construct bodyTypesCfg (fun _ _ b => b)
    [.bodyType "adult"]).obj (0, 0), exampleRow (construct bodyTypesCfg (fun _ a _ => a)
    [.bodyType "eldery"]).obj (1, 1)]⟩, rfl, fun i => ?_⟩
  fin_cases i
  · exact ⟨fun _ _ b => b, "adult", fun _ _ _ h => ⟨h, le_rfl⟩, by decide,
      ⟨rfl, rfl, rfl, rfl, rfl, rfl, rfl⟩⟩
  · exact ⟨fun _ a _ => a, "eldery", fun _ _ _ h => ⟨le_rfl, h⟩, by decide,
      ⟨rfl, rfl, rfl, rfl, rfl, rfl, rfl⟩⟩

/-! ## C53: dimensions follow radius and ratios -/

/-- **C53** However an agent is created with keyword arguments and whatever assignments
follow (successful or raising, including the body type and draws from the truncated normal
distribution), the dimensions are ratio times radius whenever both are positive. Direct
assignments to the dimensions themselves are excluded, in the configuration file and among
the later assignments. -/
theorem C53_dimensions (cfg : List (String × List (BodyAttr × ℝ))) (hc : NoDimensions cfg)
    (z : ℕ → ℝ → ℝ → ℝ) (kws : List BodyKw) (hok : (construct cfg z kws).err = false)
    (sets : List BodyKw) (hs : ∀ kw ∈ sets, NotADimension kw) :
    ProportionalBody (sets.foldl (fun b kw => (setKw cfg z b kw).obj) (construct cfg z kws).obj) := by
  have key : ∀ q p, (q, p) ∈ ratioPairs → DimInv q p
      (sets.foldl (fun b kw => (setKw cfg z b kw).obj) (construct cfg z kws).obj) := by
    intro q p hqp
    have h0 := construct_inv hqp hc z kws hok
    generalize (construct cfg z kws).obj = b at h0
    clear hok
    induction sets generalizing b with
    | nil => exact h0
    | cons kw sets ih =>
      exact ih (fun kw' h => hs kw' (by simp [h])) _
        ((keeps_setKw hqp hc z b kw (hs kw (by simp))).inv h0)
  intro hr
  exact ⟨fun h => key _ _ mem1 hr h, fun h => key _ _ mem2 hr h, fun h => key _ _ mem3 hr h⟩

lemma noDimensions_shipped : NoDimensions bodyTypesCfg := by
  unfold NoDimensions bodyTypesCfg
  simp only [List.forall_mem_cons, List.not_mem_nil, false_implies, implies_true, and_true]
  simp

/-- The shipped configuration, a creation that succeeds and a later assignment. -/
example : NoDimensions bodyTypesCfg ∧
    (construct bodyTypesCfg (fun _ _ b => b) [.bodyType "male"]).err = false ∧
    NotADimension (.attr .radius 0.25) := by
  refine ⟨?_, ?_, by simp [NotADimension]⟩
  · exact noDimensions_shipped
  · obtain ⟨b, h, -⟩ := C16_shipped_values (fun _ _ b => b) (fun _ _ _ h => ⟨h, le_rfl⟩) "male" (by decide)
    rw [h]

/-! ## C54: rotational inertia -/

/-- **C54**, full statement: after any creation and any later assignments that do not set the
inertia itself, the inertia of an agent with positive mass and radius is the documented
function of its current mass and radius. -/
def C54_statement : Prop :=
  ∀ (cfg : List (String × List (BodyAttr × ℝ))) (z : ℕ → ℝ → ℝ → ℝ) (kws sets : List BodyKw),
    (construct cfg z kws).err = false →
    (∀ e ∈ cfg, ∀ kv ∈ e.2, kv.1 ≠ .inertiaRot) →
    (∀ kw ∈ kws ++ sets, ∀ v, kw ≠ .attr .inertiaRot v) →
    let b := sets.foldl (fun b kw => (setKw cfg z b kw).obj) (construct cfg z kws).obj
    0 < b.val .mass → 0 < b.val .radius →
      b.val .inertiaRot = bodyInertia (b.val .mass) (b.val .radius)

lemma setAttr_mass_inertia {z : ℕ → ℝ → ℝ → ℝ} {b : BodyObj} {v : ℝ} (hv : 0 < v) (hne : b.val .mass ≠ v)
    (hr : 0 < b.val .radius) :
    (setAttr z b .mass v).obj.val .inertiaRot =
      if b.val .inertiaRot = 0 then bodyInertia v (b.val .radius) else b.val .inertiaRot := by
  rw [setAttr_fresh (valid_of_nonneg hv.le (by decide)) hne]
  unfold notifyAttr notifyDims
  simp only
  rw [(observeInertia_val _).2.2]
  simp only [store_val, reduceCtorEq, if_false, if_true]
  by_cases h : b.val .inertiaRot = 0
  · rw [if_pos ⟨h, hv, hr⟩, if_pos h]; rfl
  · rw [if_neg (fun hh => h hh.1), if_neg h]

lemma setAttr_radius_inertia {z : ℕ → ℝ → ℝ → ℝ} {b : BodyObj} {v : ℝ} (hv : 0 < v)
    (hne : b.val .radius ≠ v) (hm : 0 < b.val .mass) :
    (setAttr z b .radius v).obj.val .inertiaRot =
      if b.val .inertiaRot = 0 then bodyInertia (b.val .mass) v else b.val .inertiaRot := by
  rw [setAttr_fresh (valid_of_nonneg hv.le (by decide)) hne]
  unfold notifyAttr notifyDims
  simp only
  obtain ⟨h1, h2, h5⟩ := observeInertia_val (b.store .radius v)
  rw [andThen_false h1]
  have hr : 0 ≤ (observeInertiaRot (b.store .radius v)).obj.val .radius := by
    rw [h2 _ (by decide), store_val, if_pos rfl]; exact hv.le
  rw [(observeRadius_val _ hr).2 _ (by decide) (by decide) (by decide), h5]
  simp only [store_val, reduceCtorEq, if_false, if_true]
  by_cases h : b.val .inertiaRot = 0
  · rw [if_pos ⟨h, hm, hv⟩, if_pos h]; rfl
  · rw [if_neg (fun hh => h hh.1), if_neg h]

/-- **C54** The statement is false: an agent with radius 0.27 whose mass is set to 80 and then
to 40 keeps the inertia `4π` of the heavier body. -/
theorem C54_inertia_fails : ¬ C54_statement := by
  intro h
  have h1 := h [] (fun _ _ _ => 0) [] [.attr .radius 0.27, .attr .mass 80, .attr .mass 40] rfl
    (by simp) (by simp)
  have hpi := Real.pi_pos
  simp only [List.foldl_cons, List.foldl_nil] at h1
  have e0 : ∀ a, (construct [] (fun _ _ _ => 0) []).obj.val a = 0 := fun _ => rfl
  generalize (construct [] (fun _ _ _ => 0) []).obj = b0 at *
  unfold setKw at h1
  simp only at h1
  obtain ⟨-, v1, u1⟩ := setAttr_radius (z := fun _ _ _ => 0) (b := b0) (v := 0.27) (by norm_num)
  have i1 : (setAttr (fun _ _ _ => 0) b0 .radius 0.27).obj.val .inertiaRot = 0 := by
    rw [setAttr_fresh (valid_of_nonneg (by norm_num) (by decide)) (by rw [e0]; norm_num)]
    unfold notifyAttr notifyDims
    simp only
    obtain ⟨h1, h2, h5⟩ := observeInertia_val (b0.store .radius 0.27)
    rw [andThen_false h1]
    have hr : 0 ≤ (observeInertiaRot (b0.store .radius 0.27)).obj.val .radius := by
      rw [h2 _ (by decide), store_val, if_pos rfl]; norm_num
    rw [(observeRadius_val _ hr).2 _ (by decide) (by decide) (by decide), h5, if_neg,
      store_val, if_neg (by decide), e0]
    intro hh
    have := hh.2.1
    rw [store_val, if_neg (by decide), e0] at this
    exact lt_irrefl _ this
  have m1 : (setAttr (fun _ _ _ => 0) b0 .radius 0.27).obj.val .mass = 0 := by
    rw [u1 _ (by decide) (by decide) (by decide) (by decide) (by decide), e0]
  generalize (setAttr (fun _ _ _ => 0) b0 .radius 0.27).obj = b1 at *
  obtain ⟨-, v2, u2⟩ := setAttr_mass (z := fun _ _ _ => 0) (b := b1) (v := 80) (by norm_num)
  have i2 := setAttr_mass_inertia (z := fun _ _ _ => 0) (b := b1) (v := 80) (by norm_num)
    (by rw [m1]; norm_num) (by rw [v1]; norm_num)
  rw [if_pos i1, v1] at i2
  have r2 : (setAttr (fun _ _ _ => 0) b1 .mass 80).obj.val .radius = 0.27 := by
    rw [u2 _ (by decide) (by decide), v1]
  generalize (setAttr (fun _ _ _ => 0) b1 .mass 80).obj = b2 at *
  have hb : bodyInertia 80 0.27 = 4 * Real.pi := by unfold bodyInertia; norm_num
  rw [hb] at i2
  obtain ⟨-, v3, u3⟩ := setAttr_mass (z := fun _ _ _ => 0) (b := b2) (v := 40) (by norm_num)
  have i3 := setAttr_mass_inertia (z := fun _ _ _ => 0) (b := b2) (v := 40) (by norm_num)
    (by rw [v2]; norm_num) (by rw [r2]; norm_num)
  rw [if_neg (by rw [i2]; positivity)] at i3
  rw [v3, u3 _ (by decide) (by decide), r2, i3, i2] at h1
  have := h1 (by norm_num) (by norm_num)
  unfold bodyInertia at this
  norm_num at this

/-- **C54** What holds: as long as the inertia is 0, the assignment that makes both mass and
radius positive sets it to the documented value. -/
theorem C54_inertia_partial (z : ℕ → ℝ → ℝ → ℝ) (b : BodyObj) (h0 : b.val .inertiaRot = 0) (v : ℝ)
    (hv : 0 < v) :
    (0 < b.val .radius → b.val .mass ≠ v →
      (setAttr z b .mass v).obj.val .inertiaRot = bodyInertia v (b.val .radius)) ∧
    (0 < b.val .mass → b.val .radius ≠ v →
      (setAttr z b .radius v).obj.val .inertiaRot = bodyInertia (b.val .mass) v) := by
  refine ⟨fun hr hne => ?_, fun hm hne => ?_⟩
  · rw [setAttr_mass_inertia hv hne hr, if_pos h0]
  · rw [setAttr_radius_inertia hv hne hm, if_pos h0]

example : (BodyObj.new.store .radius 0.3).val .inertiaRot = 0 ∧
    0 < (BodyObj.new.store .radius 0.3).val .radius ∧
    (BodyObj.new.store .radius 0.3).val .mass ≠ 70 := by
  simp only [store_val, reduceCtorEq, if_false, if_true]
  refine ⟨rfl, by norm_num, ?_⟩
  have : BodyObj.new.val .mass = 0 := rfl
  rw [this]
  norm_num

/-- **C54** And the reason for the failure in general: once the inertia is not 0, no other
assignment changes it, in particular none of mass, radius, ratios, body type, or the means
and scales of the distributions. -/
theorem C54_inertia_stays_partial (cfg : List (String × List (BodyAttr × ℝ)))
    (hcfg : ∀ e ∈ cfg, ∀ kv ∈ e.2, kv.1 ≠ .inertiaRot) (z : ℕ → ℝ → ℝ → ℝ) (b : BodyObj)
    (h0 : b.val .inertiaRot ≠ 0) (sets : List BodyKw)
    (hs : ∀ kw ∈ sets, ∀ v, kw ≠ .attr .inertiaRot v) :
    (sets.foldl (fun b kw => (setKw cfg z b kw).obj) b).val .inertiaRot = b.val .inertiaRot := by
  induction sets generalizing b with
  | nil => rfl
  | cons kw sets ih =>
    have h1 := keepsInertia_setKw hcfg z b kw (hs kw (by simp)) h0
    rw [List.foldl_cons, ih _ (by rw [h1]; exact h0) (fun k hk => hs k (by simp [hk])), h1]

example : (∀ e ∈ bodyTypesCfg, ∀ kv ∈ e.2, kv.1 ≠ .inertiaRot) ∧
    (BodyObj.new.store .inertiaRot 1).val .inertiaRot ≠ 0 := by
  constructor
  · unfold bodyTypesCfg
    simp only [List.forall_mem_cons, List.not_mem_nil, false_implies, implies_true, and_true]
    simp
  · simp [store_val]

/-! ## C64: rebuilding an agent from its row -/

/-- **C64** Assigning the fields of any row with nonnegative values (validators
enforce this, see `C64_round_trip`) to any agent object reproduces all of them, whatever the object
held before: the observers run in between do not disturb the result. -/
theorem C64_from_array (z : ℕ → ℝ → ℝ → ℝ) (b : BodyObj) (row : BodyAttr → ℝ) (h : ∀ a, 0 ≤ row a) :
    (fromArrayBody z b row).err = false ∧
      (fromArrayBody z b row).obj.val .radius = row .radius ∧
      (fromArrayBody z b row).obj.val .rT = row .rT ∧
      (fromArrayBody z b row).obj.val .rS = row .rS ∧
      (fromArrayBody z b row).obj.val .rTs = row .rTs ∧
      (fromArrayBody z b row).obj.val .mass = row .mass ∧
      (fromArrayBody z b row).obj.val .inertiaRot = row .inertiaRot ∧
      (fromArrayBody z b row).obj.val .targetVelocity = row .targetVelocity ∧
      (fromArrayBody z b row).obj.val .targetAngularVelocity = row .targetAngularVelocity := by
  obtain ⟨h1, h2⟩ := fromArray_val z b row h
  refine ⟨h1, ?_, ?_, ?_, ?_, ?_, ?_, ?_, ?_⟩ <;> exact h2 _ (by simp [bodyFields])

/-- A row whose inertia and dimensions are not those the observers would compute. -/
example : ∀ a : BodyAttr, (0 : ℝ) ≤ (if a = .inertiaRot then 7 else 0.3) := by
  intro a
  split_ifs <;> norm_num

/-- **C64** In particular a new object that is given the row of an agent with any history of
assignments has the same body. -/
theorem C64_round_trip (cfg : List (String × List (BodyAttr × ℝ))) (z z' : ℕ → ℝ → ℝ → ℝ)
    (kws sets : List BodyKw) :
    let b := sets.foldl (fun b kw => (setKw cfg z b kw).obj) (construct cfg z kws).obj
    (fromArrayBody z' BodyObj.new b.val).err = false ∧
    ∀ a ∈ bodyFields, (fromArrayBody z' BodyObj.new b.val).obj.val a = b.val a := by
  refine fromArray_val z' BodyObj.new _ ?_
  have h0 := nonneg_construct cfg z kws
  generalize (construct cfg z kws).obj = b at h0
  induction sets generalizing b with
  | nil => exact h0
  | cons kw sets ih => exact ih _ (nonneg_setKw cfg z b kw h0)

/-- A child, at the largest draws. -/
example (p : Vec) : BodyWithin .threeCircle (exampleRow (construct bodyTypesCfg (fun _ _ b => b)
    [.bodyType "child"]).obj p) 0.29 :=
  C16_body_within (fun _ _ b => b) (fun _ _ _ h => ⟨h, le_rfl⟩) "child" (by decide) .threeCircle _
    ⟨rfl, rfl, rfl, rfl, rfl, rfl, rfl⟩ fun _ => by constructor <;> simp [exampleRow]

/-- An adult and a child. -/
example (p q : Vec) := C16_default_cells (fun _ _ b => b) (fun _ a _ => a) (fun _ _ _ h => ⟨h, le_rfl⟩)
  (fun _ _ _ h => ⟨le_rfl, h⟩) "adult" "child" (by decide) (by decide) .threeCircle
  (exampleRow (construct bodyTypesCfg (fun _ _ b => b) [.bodyType "adult"]).obj p)
  (exampleRow (construct bodyTypesCfg (fun _ a _ => a) [.bodyType "child"]).obj q)
  ⟨rfl, rfl, rfl, rfl, rfl, rfl, rfl⟩ ⟨rfl, rfl, rfl, rfl, rfl, rfl, rfl⟩
  (fun _ => by constructor <;> simp [exampleRow]) fun _ => by constructor <;> simp [exampleRow]

/-- Two adults whom the cell lists report to each other. -/
example := C16_interactions_complete (n := 2) (fun _ _ => [(0, 1)]) ⟨.const .circular, ![exampleRow
    (construct bodyTypesCfg (fun _ _ b => b) [.bodyType "adult"]).obj (0, 0), exampleRow
    (construct bodyTypesCfg (fun _ a _ => a) [.bodyType "eldery"]).obj (1, 1)]⟩
  ⟨by simp, by simp, (0, 0), fun i j hij _ _ => by
    have hi := i.isLt
    have hj := j.isLt
    simp only [List.mem_singleton, Prod.ext_iff, Fin.ext_iff, Fin.val_zero, Fin.val_one]
    have : (i : ℕ) ≠ j := fun h => hij (Fin.ext h)
    omega⟩ rfl fun i => by
    fin_cases i
    · exact ⟨fun _ _ b => b, "adult", fun _ _ _ h => ⟨h, le_rfl⟩, by decide,
        ⟨rfl, rfl, rfl, rfl, rfl, rfl, rfl⟩⟩
    · exact ⟨fun _ a _ => a, "eldery", fun _ _ _ h => ⟨le_rfl, h⟩, by decide,
        ⟨rfl, rfl, rfl, rfl, rfl, rfl, rfl⟩⟩

/-- A man whose radius is set afterwards. -/
example := C53_dimensions bodyTypesCfg noDimensions_shipped (fun _ _ b => b) [.bodyType "male"]
  (by
    obtain ⟨b, h, -⟩ := C16_shipped_values (fun _ _ b => b) (fun _ _ _ h => ⟨h, le_rfl⟩) "male" (by decide)
    rw [h]) [.attr .radius 0.25] (by simp [NotADimension])

end CrowdDynamics
