import Verif.Props.ValidationTests
import Verif.Props.Braking
import Verif.Proofs.Momentum
import Verif.Proofs.RunLength
import Verif.Spec.Standoff
import Verif.Model.ValidationChecks

/-!
# Helper lemmas: two agents who walk straight towards each other
-/

namespace CrowdDynamics

open Spec

/-- What keeps the first of two agents in a head-on encounter between its start and the middle. `P` and
`R` are its last two velocities halfway between updates. -/
structure Stalled (x P R : ℝ) : Prop where
  fast : R ≤ 1.5
  fast' : P ≤ 1.5
  gain : R - P ≤ 0.2
  deep : 1.3 < R → 0.026 ≤ 2 * x - 4.49
  overlap : 2 * x - 4.49 ≤ 0.12
  turn : 2 * x - 4.49 + 0.02 * R ≤ 0.12
  back : -8.6 ≤ R
  back' : -8.6 ≤ P
  rebound : 0 < 2 * x - 4.49 → -7.6 ≤ R - 25 * (2 * x - 4.49)
  near : -4.2 ≤ 0.98 * R - 0.01 * P + 2 * x

lemma Stalled.step {x P R a ξ s c : ℝ} (h : Stalled x P R) (hξ : |ξ| ≤ 0.3) (hs0 : 0 ≤ s)
    (hs : s ≤ 28) (hsv : s ≠ 0 → 0 < P + R ∧ 0.745 ≤ x)
    (hfree : x ≤ 2.245 → c = 0)
    (hcon : 2.245 < x → s = 0 ∧
      c = -(120000 / 73.5) * (2 * x - 4.49) + (1000 / 73.5) * ((P + R) / 2))
    (ha : a = 2 * (1 - (P + R) / 2) + ξ - s + c) :
    Stalled (x + 0.01 * (R + 0.01 * a)) R (R + 0.01 * a) := by
  obtain ⟨h1, h2, h3, h4, h5, h6, h7, h8, h9, h10⟩ := h
  obtain ⟨x1, x2⟩ := abs_le.1 hξ
  rcases le_or_gt x 2.245 with hx | hx
  · have hc := hfree hx
    subst hc
    have hR : R ≤ 1.3 := by
      by_contra hh
      have := h4 (not_le.1 hh)
      linarith
    have up : R + 0.01 * a ≤ 1.3 := by linarith
    rcases eq_or_ne s 0 with h0 | h0
    · subst h0
      constructor
      all_goals first | intro hh; linarith | linarith
    · obtain ⟨hv, hx'⟩ := hsv h0
      constructor
      all_goals first | intro hh; linarith | linarith
  · obtain ⟨h0, hc⟩ := hcon hx
    subst h0
    have h9' := h9 (by linarith)
    have e : a = 2 + ξ + (500 / 73.5 - 1) * (P + R) - (120000 / 73.5) * (2 * x - 4.49) := by
      rw [ha, hc]; ring
    obtain ⟨y, hy⟩ : ∃ y, 2 * x - 4.49 = y := ⟨_, rfl⟩
    rw [hy] at e h4 h5 h6 h9'
    have hy0 : 0 < y := by linarith
    have hxy : x = (y + 4.49) / 2 := by linarith
    have hPR : P + R ≤ 3 := by linarith
    have hPR' : -17.2 ≤ P + R := by linarith
    norm_num at e
    have up : a ≤ 19.8 - 1632 * y := by linarith
    have fastNext : R + 0.01 * a ≤ 1.5 := by
      rcases le_or_gt R 1.3 with hR | hR
      · linarith
      · have := h4 hR
        linarith
    have deepNext : 1.3 < R + 0.01 * a → 0.026 ≤ y + 0.02 * (R + 0.01 * a) := by
      intro hh; linarith
    have turnNext : y + 0.02 * (R + 0.01 * a) + 0.02 * (R + 0.01 * a) ≤ 0.12 := by
      rcases le_or_gt y 0.06 with hh | hh
      · linarith
      · linarith
    have overNext : y + 0.02 * (R + 0.01 * a) ≤ 0.12 := by
      rcases le_or_gt (R + 0.01 * a) 0 with hh | hh <;> linarith
    have backNext : -8.6 ≤ R + 0.01 * a := by linarith
    have e2 : 2 * (x + 0.01 * (R + 0.01 * a)) - 4.49 = y + 0.02 * (R + 0.01 * a) := by
      rw [hxy]; ring
    refine ⟨fastNext, h1, by linarith, ?_, ?_, ?_, backNext, h7, ?_, by linarith⟩
    · rw [e2]; exact deepNext
    · rw [e2]; exact overNext
    · rw [e2]; exact turnNext
    · rw [e2]
      intro _
      linarith

lemma len_axis (c : ℝ) : len ((c, 0) : ℝ × ℝ) = |c| := by
  unfold len
  simp [Real.sqrt_sq_eq_abs]

lemma abs_fst_le_len (v : ℝ × ℝ) : |v.1| ≤ len v := by
  unfold len
  exact Real.abs_le_sqrt (by nlinarith [sq_nonneg v.2])

lemma capped_len {L : ℝ} {f g : ℝ × ℝ} (h : CappedTo L f g) : len g ≤ L := by
  rcases le_or_gt (len f) L with hf | hf
  · rw [h.1 hf]; exact hf
  · exact (h.2 hf).2.le

/-- An agent of the interaction test, apart from what changes while it walks. -/
structure TestBody (a : Agent) : Prop where
  radius : a.radius = 0.255
  mass : a.mass = 73.5
  mu : a.mu = 1.2e5
  damping : a.damping = 500
  kSoc : a.kSoc = 1.5
  tau0 : a.tau0 = 3.0

/-- The force between two agents who walk towards each other on a line. -/
lemma headOn_force {a b : Agent} {x v : ℝ} {F : ℝ × ℝ} (ha : TestBody a) (hb : TestBody b)
    (pa : a.position = (x, 0)) (pb : b.position = (5 - x, 0)) (va : a.velocity = (v, 0))
    (vb : b.velocity = (-v, 0)) (hx : x ≤ 2.305) (hF : IsNeighbourForce a b F) :
    ∃ s c : ℝ, 0 ≤ s ∧ s ≤ 28 ∧ (s ≠ 0 → 0 < v ∧ 0.745 ≤ x) ∧ (x ≤ 2.245 → c = 0) ∧
      (2.245 < x → s = 0 ∧ c = -(120000 / 73.5) * (2 * x - 4.49) + (1000 / 73.5) * v) ∧
      F.1 = 73.5 * (-s + c) := by
  have hd : Spec.dist a.position b.position = 5 - 2 * x := by
    unfold Spec.dist
    rw [pa, pb, Prod.mk_sub_mk, sub_zero, len_axis, abs_of_nonpos (by linarith)]
    ring
  have hr : a.radius + b.radius = 0.51 := by rw [ha.radius, hb.radius]; norm_num
  have hrel : a.velocity - b.velocity = (2 * v, 0) := by
    rw [va, vb]; ext <;> simp; ring
  have hpos : a.position - b.position = (2 * x - 5, 0) := by
    rw [pa, pb]; ext <;> simp; ring
  rcases le_or_gt (3 + (a.radius + b.radius)) (Spec.dist a.position b.position) with h3 | h3
  · rw [hF.1 h3]
    rw [hd, hr] at h3
    exact ⟨0, 0, le_rfl, by norm_num, fun h => absurd rfl h, fun _ => rfl, fun h => by linarith, by simp⟩
  obtain ⟨s, c, hs, hc, rfl⟩ := hF.2 h3
  rw [hd, hr] at h3
  have hx' : 0.745 ≤ x := by linarith
  have hs' : (∀ t, ¬ CollideAt a b t) → s = 0 := hs.2
  have overlap : 2.245 ≤ x → ∀ t, ¬ CollideAt a b t := by
    rintro h t ⟨h0, -, ⟨-, -, h1⟩, -⟩
    have := h1 0 le_rfl h0
    rw [zero_smul, add_zero, hpos, hr, len_axis, abs_of_nonpos (by linarith)] at this
    linarith
  have pull : ∀ t, CollideAt a b t → 0 < v ∧ s.1 ≤ 0 ∧ -2000 ≤ s.1 := by
    intro t ht
    obtain ⟨g, -, hg⟩ := hs.1 t ht
    have hl := (abs_le.1 ((abs_fst_le_len s).trans (capped_len hg))).1
    obtain ⟨h0, h30, h1, h2⟩ := ht
    have hv : 0 < v := by
      obtain ⟨q, hq, h4⟩ := h2
      have h5 := h1.2.2 0 le_rfl h0
      rw [zero_smul, add_zero, hpos, hr, len_axis, abs_of_nonpos (by linarith)] at h5
      rw [hpos, hrel, hr] at h4
      have h6 := (abs_lt.1 ((abs_fst_le_len _).trans_lt h4)).1
      simp only [Prod.fst_add, Prod.smul_fst, smul_eq_mul] at h6
      by_contra hn
      nlinarith [mul_nonneg hq.le (neg_nonneg.2 (not_lt.1 hn))]
    have hR : ∀ {a : Agent}, TestBody a → Spec.Responsive a := fun h =>
      ⟨by rw [h.mass]; norm_num, by rw [h.kSoc]; norm_num, by rw [h.tau0]; norm_num⟩
    have hsl := ((C160_circular_partial a b (hR ha) (hR hb) (by rw [hr]; norm_num)).1
      ⟨h2, t, h0, h30, h1⟩).1
    rw [← social_unique hs (social_spec a b (by rw [hr]; norm_num)), hrel] at hsl
    simp only [Spec.inner, mul_zero, add_zero] at hsl
    refine ⟨hv, ?_, hl⟩
    by_contra hn
    nlinarith [mul_pos (not_le.1 hn) hv]
  refine ⟨-s.1 / 73.5, c.1 / 73.5, ?_, ?_, ?_, ?_, ?_, ?_⟩
  · by_cases h : ∃ t, CollideAt a b t
    · obtain ⟨t, ht⟩ := h
      have := (pull t ht).2.1
      exact div_nonneg (by linarith) (by norm_num)
    · rw [hs' (not_exists.1 h)]; simp
  · by_cases h : ∃ t, CollideAt a b t
    · obtain ⟨t, ht⟩ := h
      have := (pull t ht).2.2
      rw [div_le_iff₀ (by norm_num)]
      linarith
    · rw [hs' (not_exists.1 h)]; simp
  · intro hne
    by_cases h : ∃ t, CollideAt a b t
    · obtain ⟨t, ht⟩ := h
      exact ⟨(pull t ht).1, hx'⟩
    · rw [hs' (not_exists.1 h)] at hne
      simp at hne
  · intro h
    rw [hc.1 (by rw [hd, hr]; linarith)]
    simp
  · intro h
    refine ⟨by rw [hs' (overlap h.le)]; simp, ?_⟩
    obtain ⟨m, h1, -, -, rfl⟩ := hc.2 (by rw [hd, hr]; linarith)
    rw [hd, hpos] at h1
    have e1 := congrArg Prod.fst h1
    have e2 := congrArg Prod.snd h1
    simp only [Prod.smul_fst, Prod.smul_snd, smul_eq_mul] at e1 e2
    have hne : 5 - 2 * x ≠ 0 := by linarith
    have m1 : m.1 = -1 := by
      apply mul_left_cancel₀ hne
      rw [e1]; ring
    have m2 : m.2 = 0 := (mul_eq_zero.1 e2).resolve_left hne
    rw [hd, hr, hrel, ha.mu, ha.damping]
    simp [Spec.inner, m1, m2]
    ring
  · simp only [Prod.fst_add]
    ring

/-- Updates of the interaction test never raise an exception. -/
lemma walk_updates {n : ℕ} (env : SimEnv n) (s : SimState n) (k : ℕ) :
    ∃ t, AfterUpdates (walkLogic.update env) k s t := by
  induction k with
  | zero => exact ⟨s, .zero _⟩
  | succ k ih =>
    obtain ⟨t, ht⟩ := ih
    obtain ⟨u, hu⟩ := walk_total env t
    exact ⟨u, .succ ht hu⟩

lemma updates_iterations {n : ℕ} {env : SimEnv n} {e : LogicExpr} {nodes : List Node}
    (ho : e.order = .ok nodes) {k : ℕ} {s t : SimState n} (h : AfterUpdates (e.update env) k s t) :
    t.data.iterations = s.data.iterations + k := by
  obtain ⟨kind, root, -, hup⟩ := update_as_tree ho
  rw [hup] at h
  induction h with
  | zero => rfl
  | succ _ h2 ih =>
    obtain ⟨-, -, -, -, -, -, -, -, h3⟩ := simUpdate_spec env kind root _ _ _ h2
    rw [h3, ih, if_pos rfl]
    rfl

/-- A test runs for 1000 updates. -/
lemma run_thousand {n : ℕ} {env : SimEnv n} {e : LogicExpr} {nodes : List Node}
    (ho : e.order = .ok nodes) {s : SimState n} (hi : s.data.iterations = 0)
    (hok : ∀ k, ∃ t, AfterUpdates (e.update env) k s t) (fuel : ℕ) (hf : 1000 < fuel) :
    simRun (e.update env) (some thousandIterations) fuel 0 s =
      some (.ok (), (fun s => (e.update env s).2)^[1000] s) := by
  have hk : ∀ k, ((fun s => (e.update env s).2)^[k] s).data.iterations = k := by
    intro k
    obtain ⟨t, ht⟩ := hok k
    rw [← afterUpdates_iterate ht, updates_iterations ho ht, hi, zero_add]
  refine run_first hok _ 1000 ?_ (fun k hk' => ?_) fuel hf
  · suffices e : ∀ M, M = 1000 →
        thousandIterations M ((fun s => (e.update env s).2)^[M] s) = true from e 1000 rfl
    intro M hM
    unfold thousandIterations
    rw [hk, hM]
    rfl
  · simp [thousandIterations, hk, hk'.ne]

/-- However long a test may run, it ends after 1000 updates. -/
lemma run_thousand_unique {n : ℕ} {env : SimEnv n} {e : LogicExpr} {nodes : List Node}
    (ho : e.order = .ok nodes) {s t : SimState n} {r : Except PyErr Unit} (hi : s.data.iterations = 0)
    (hok : ∀ k, ∃ t, AfterUpdates (e.update env) k s t) (fuel : ℕ)
    (h : simRun (e.update env) (some thousandIterations) fuel 0 s = some (r, t)) :
    AfterUpdates (e.update env) 1000 s t := by
  have hk : ∀ k, ((fun s => (e.update env s).2)^[k] s).data.iterations = k := by
    intro k
    obtain ⟨t, ht⟩ := hok k
    rw [← afterUpdates_iterate ht, updates_iterations ho ht, hi, zero_add]
  obtain ⟨u, hu⟩ := hok 1000
  have hu' := afterUpdates_iterate hu
  suffices e : ∀ fuel k t r, k ≤ 1000 →
      simRun (e.update env) (some thousandIterations) fuel k ((fun s => (e.update env s).2)^[k] s) =
        some (r, t) → t = u by
    rw [e fuel 0 t r (by norm_num) h]
    exact hu
  intro fuel
  induction fuel with
  | zero => intro k t r _ h; cases h
  | succ fuel ih =>
    intro k t r hk1 h
    unfold simRun at h
    simp only [Option.elim, thousandIterations, hk, afterUpdates_next hok k] at h
    by_cases h1 : k = 1000
    · subst h1
      simp only [beq_self_eq_true, if_true, Option.some.injEq, Prod.mk.injEq] at h
      rw [← h.2, hu']
    · rw [if_neg (by simpa using h1)] at h
      exact ih (k + 1) t r (by omega) h

/-- The two agents of the interaction test. -/
lemma interaction_rows {z : ℕ → ℝ → ℝ → ℝ} {st : AgentsState} {s : SimState 2}
    (hst : interactionAgents z .circular = some st) (hs : NewSimulation .circular st.array s) :
    s.agents.rows 0 = walkerRow .circular (0, 0) 0 ∧
      s.agents.rows 1 = walkerRow .circular (5, 0) Real.pi := by
  obtain ⟨st', h1, -, -, h4⟩ := interaction_array z .circular
  rw [h1] at hst
  cases hst
  have hr := hs.rows
  rw [h4] at hr
  simpa [List.ofFn_succ] using hr

lemma standoff_run {z : ℕ → ℝ → ℝ → ℝ} {st : AgentsState} {env : SimEnv 2} {s : SimState 2}
    (hst : interactionAgents z .circular = some st) (hs : NewSimulation .circular st.array s)
    (hw : OpenField env) (N : ℕ) :
    ShippedRun env walkLogic [.fluctuation, .orientation, .adjusting, .agentAgent (3.0 + 2 * 0.3),
      .integrator 0.01 0.01, .reset] s N fun k => (fun s => (walkLogic.update env s).2)^[k] s := by
  obtain ⟨r0, r1⟩ := interaction_rows hst hs
  refine ⟨⟨0, 1, 0, by norm_num, by norm_num, rfl⟩, order_walk, hw.domain, ⟨hs.kind, ?_, ?_, ?_, ?_,
    hw.draws, fun g hg => ?_, fun c hc => ?_⟩, ?_, ⟨rfl, fun k _ => ?_, fun k _ h => ?_⟩,
    fun j _ => hw.cells _ _ (by norm_num)⟩
  · exact Fin.forall_fin_two.2 ⟨by rw [r0]; norm_num [walkerRow], by rw [r1]; norm_num [walkerRow]⟩
  · exact Fin.forall_fin_two.2 ⟨by rw [r0]; norm_num [walkerRow], by rw [r1]; norm_num [walkerRow]⟩
  · exact Fin.forall_fin_two.2 ⟨by rw [r0]; norm_num [walkerRow, Agent.default],
      by rw [r1]; norm_num [walkerRow, Agent.default]⟩
  · exact Fin.forall_fin_two.2 ⟨by rw [r0]; norm_num [walkerRow, Agent.default],
      by rw [r1]; norm_num [walkerRow, Agent.default]⟩
  · rw [hw.obstacles] at hg; cases hg
  · rw [List.mem_singleton] at hc
    cases hc
    refine ⟨by norm_num, fun i j hij => ?_, hw.cells _ _ (by norm_num)⟩
    fin_cases i <;> fin_cases j <;> simp only [Fin.zero_eta, Fin.mk_one, r0, r1] <;>
      norm_num [walkerRow]
  · exact Fin.forall_fin_two.2 ⟨by rw [r0]; exact ⟨rfl, rfl⟩, by rw [r1]; exact ⟨rfl, rfl⟩⟩
  · exact afterUpdates_next (walk_updates env s) k
  · obtain ⟨c, hc, -⟩ := h
    cases hc

/-- After any number of updates the first agent is stalled. -/
lemma standoff {z : ℕ → ℝ → ℝ → ℝ} {st : AgentsState} {env : SimEnv 2} {s : SimState 2}
    (hst : interactionAgents z .circular = some st) (hs : NewSimulation .circular st.array s)
    (hw : OpenField env) (hd : OppositeDraws env) (N : ℕ) (t : SimState 2)
    (ht : AfterUpdates (walkLogic.update env) N s t) :
    ∃ P R, Stalled (t.agents.rows 0).position.1 P R ∧ (t.agents.rows 0).velocity.1 = (P + R) / 2 ∧
      R = (t.agents.rows 0).velocity.1 + 0.005 * ((t.agents.rows 0).forcePrev.1 / 73.5) := by
  obtain ⟨r0, r1⟩ := interaction_rows hst hs
  have hsym := C141_symmetric z st hst env hw.obstacles hw.cells hd.strength hd.line hd.sides s
  have hrow : [s.agents.rows 0, s.agents.rows 1] = st.array := by
    rw [← hs.rows]; simp [List.ofFn_succ]
  suffices key : ∀ k t, AfterUpdates (walkLogic.update env) k s t →
      (∀ i, (t.agents.rows i).targetDirection = (s.agents.rows i).targetDirection) ∧
      ∃ P R, Stalled (t.agents.rows 0).position.1 P R ∧
        (t.agents.rows 0).velocity.1 = (P + R) / 2 ∧
        R = (t.agents.rows 0).velocity.1 + 0.005 * ((t.agents.rows 0).forcePrev.1 / 73.5) from
    (key N t ht).2
  intro k
  induction k with
  | zero =>
    intro t ht
    cases ht
    refine ⟨fun _ => rfl, 1, 1, ?_, ?_, ?_⟩
    · rw [r0]
      constructor <;> norm_num [walkerRow]
    · rw [r0]; norm_num [walkerRow]
    · rw [r0]; norm_num [walkerRow, Agent.default, Agent.zero]
  | succ k ih =>
    intro t ht
    have ht0 := ht
    obtain _ | @⟨_, _, u, _, hu, hut⟩ := ht
    obtain ⟨hdir, P, R, hst', hv, hR⟩ := ih u hu
    have hdir' : ∀ i, (t.agents.rows i).targetDirection = (s.agents.rows i).targetDirection :=
      fun i => (walk_direction env u t hut i).trans (hdir i)
    refine ⟨hdir', R, ?_⟩
    have hrun := standoff_run hst hs hw (k + 1)
    have hnew := run_newton hrun k (by omega) 0
    have hbody := (completed_body order_walk hrun.completed k (by omega)).2
    rw [← afterUpdates_iterate hu] at hnew hbody
    rw [← afterUpdates_iterate ht0] at hnew
    obtain ⟨y0, hx5, hvel, vy⟩ := hsym u hs.kind hrow k hu
    obtain ⟨-, f, a, p, w, cf, ca, ⟨F, hF, hp⟩, cw, x, y, hx, hy, hv', hp', hf⟩ := hnew
    have hw0 : w = 0 := by simpa using cw
    have hp1 : p = F 1 := by
      rw [hp, show (Finset.univ.erase (0 : Fin 2)) = {1} by decide, Finset.sum_singleton]
    have hb : ∀ i, TestBody (u.agents.rows i) := by
      intro i
      have b := hbody i
      have hsi : TestBody (s.agents.rows i) := by
        revert i
        refine fun i _ => ?_
        fin_cases i
        · simp only [Fin.zero_eta, r0]
          constructor <;> rfl
        · simp only [Fin.mk_one, r1]
          constructor <;> rfl
      exact ⟨b.radius ▸ hsi.radius, b.mass ▸ hsi.mass, b.mu ▸ hsi.mu, b.damping ▸ hsi.damping,
        b.kSoc ▸ hsi.kSoc, b.tau0 ▸ hsi.tau0⟩
    obtain ⟨X, hX⟩ : ∃ X, (u.agents.rows 0).position.1 = X := ⟨_, rfl⟩
    obtain ⟨V, hV⟩ : ∃ V, (u.agents.rows 0).velocity.1 = V := ⟨_, rfl⟩
    rw [hX] at hst' hx5
    rw [hV] at hv hR
    have hA : (u.agents.rows 0).position = (X, 0) := Prod.ext hX (y0 0)
    have hA' : (u.agents.rows 0).velocity = (V, 0) := Prod.ext hV (vy 0)
    obtain ⟨σ, c, s0, s1, s2, s3, s4, s5⟩ := headOn_force (a := aiming u t 0) (b := aiming u t 1)
      (x := X) (v := V) ⟨(hb 0).1, (hb 0).2, (hb 0).3, (hb 0).4, (hb 0).5, (hb 0).6⟩
      ⟨(hb 1).1, (hb 1).2, (hb 1).3, (hb 1).4, (hb 1).5, (hb 1).6⟩ hA
      (Prod.ext (by show (u.agents.rows 1).position.1 = 5 - X; linarith) (y0 1)) hA'
      (by show (u.agents.rows 1).velocity = _; rw [hvel, hA']; simp)
      (by have := hst'.overlap; linarith) (hF 1 (by decide))
    have tau : (u.agents.rows 0).tauAdj = 0.5 := by rw [← (hbody 0).tauAdj, r0]; rfl
    have std : (u.agents.rows 0).stdRandForce = 0.1 := by rw [← (hbody 0).stdRandForce, r0]; rfl
    have tv : (u.agents.rows 0).targetVelocity = 1 := by rw [← (hbody 0).targetVelocity, r0]; rfl
    have td : (t.agents.rows 0).targetDirection = (1, 0) := by
      rw [hdir' 0, r0]; simp [walkerRow]
    have ca' : (u.agents.rows 0).tauAdj • a = (u.agents.rows 0).mass •
        ((u.agents.rows 0).targetVelocity • (t.agents.rows 0).targetDirection -
          (u.agents.rows 0).velocity) := ca
    rw [tau, (hb 0).mass, tv, td, hA'] at ca'
    have ea : a.1 = 147 * (1 - V) := by
      have := congrArg Prod.fst ca'
      simp only [Prod.smul_fst, Prod.fst_sub, smul_eq_mul] at this
      linarith
    have cf' : len f ≤ 3 * (u.agents.rows 0).mass * (u.agents.rows 0).stdRandForce := cf
    rw [(hb 0).mass, std] at cf'
    have ef := (abs_fst_le_len f).trans cf'
    unfold IsAcceleration at hx hy
    rw [(hb 0).mass] at hx hy
    have ex : 73.5 * x.1 = (u.agents.rows 0).forcePrev.1 := congrArg Prod.fst hx
    have ey : 73.5 * y.1 = f.1 + a.1 + p.1 + w.1 := congrArg Prod.fst hy
    rw [hw0, hp1, s5, ea] at ey
    have hy1 : y.1 = 2 * (1 - (P + R) / 2) + f.1 / 73.5 - σ + c := by
      rw [hv] at ey
      have : (73.5 : ℝ) ≠ 0 := by norm_num
      apply mul_left_cancel₀ this
      rw [ey]
      simp only [Prod.fst_zero]
      ring
    have e1 := congrArg Prod.fst hv'
    have e2 := congrArg Prod.fst hp'
    simp only [Prod.fst_add, Prod.smul_fst, smul_eq_mul] at e1 e2
    rw [hV] at e1
    rw [hX] at e2
    have exx : x.1 = (u.agents.rows 0).forcePrev.1 / 73.5 := by rw [← ex]; ring
    rw [← exx] at hR
    have hfin := Stalled.step (a := y.1) (ξ := f.1 / 73.5) (s := σ) (c := c) hst'
      (by
        rw [abs_div, abs_of_pos (show (0 : ℝ) < 73.5 by norm_num), div_le_iff₀ (by norm_num)]
        linarith) s0 s1 (fun h => by
          obtain ⟨h1, h2⟩ := s2 h
          exact ⟨by linarith, h2⟩) s3 (fun h => by rw [← hv]; exact s4 h) hy1
    refine ⟨R + 0.01 * y.1, ?_, ?_, ?_⟩
    · have : (t.agents.rows 0).position.1 = X + 0.01 * (R + 0.01 * y.1) := by
        rw [e2, e1, hR]; ring
      rw [this]
      exact hfin
    · rw [e1]; linarith
    · rw [hf]
      have : (f + a + p + w).1 / 73.5 = y.1 := by
        rw [← hy]; ring
      rw [this, e1, hR]
      ring

end CrowdDynamics
