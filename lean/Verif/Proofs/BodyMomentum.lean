import Verif.Proofs.TurningRun
import Verif.Spec.BodyMomentum

/-!
# Helper lemmas: the momentum of three-circle agents
-/

namespace CrowdDynamics

open Spec

variable {n : ℕ}

/-- The orders of the shipped simulations, except that of `TestMovement`. -/
lemma shipped_shape (env : SimEnv n) (ratioObs width : ℝ)
    (hf : env.field.domain ≠ none) (hw : 1 ≤ (1 - ratioObs) * width) (k : ℕ) (e : LogicExpr)
    (he : (shippedLogic ratioObs width env.field)[k]? = some e) (hk : k ≠ 11) :
    ∃ (before : List Node) (walls : Bool),
      e.order = .ok (before ++ .integrator 0.01 0.01 :: [.reset]) ∧
      SensibleOrder (before ++ .integrator 0.01 0.01 :: [.reset]) ∧
      (∀ x ∈ before, ¬ Moves x ∧ ¬ Clears x) ∧
      (∀ c, .agentAgent c ∈ before → c = 3.0 + 2 * 0.3) ∧
      (Node.agentObstacle ∈ before ↔ walls = true) ∧
      before.filter addsForces = [.fluctuation, .adjusting, .agentAgent (3.0 + 2 * 0.3)] ++
        (if walls then [.agentObstacle] else []) := by
  obtain ⟨d, hd⟩ := Option.ne_none_iff_exists'.1 hf
  obtain ⟨ring, holes⟩ := d
  have hlt : k < 13 := by
    have := (List.getElem?_eq_some_iff.1 he).1
    simpa [shippedLogic] using this
  interval_cases k
  all_goals
    simp only [shippedLogic, List.getElem?_cons_zero, List.getElem?_cons_succ,
      Option.some.injEq] at he
    subst he
  · exact ⟨[.fluctuation, .orientation, .adjusting,
      .agentAgent (3.0 + 2 * 0.3)],
      false, order_walk, sensible_walk, by simp [Moves, Clears], by simp, by simp, rfl⟩
  · exact ⟨[.insideDomain ring, .fluctuation, .navigation 0.1 0.5 0.3,
      .orientation, .adjusting, .agentAgent (3.0 + 2 * 0.3), .agentObstacle],
      true, order_navigation hd, sensible_navigation ring, by simp [Moves, Clears], by simp, by simp, rfl⟩
  · exact ⟨[.insideDomain ring, .fluctuation, .navigation 0.1 0.5 0.3,
      .orientation, .adjusting, .agentAgent (3.0 + 2 * 0.3), .agentObstacle],
      true, order_navigation hd, sensible_navigation ring, by simp [Moves, Clears], by simp, by simp, rfl⟩
  · exact ⟨[.insideDomain ring, .fluctuation, .navigation 0.1 0.5 0.3,
      .orientation, .adjusting, .agentAgent (3.0 + 2 * 0.3), .agentObstacle],
      true, order_navigation hd, sensible_navigation ring, by simp [Moves, Clears], by simp, by simp, rfl⟩
  · exact ⟨[.fluctuation, .herding 10.0 5, .orientation, .adjusting,
      .agentAgent (3.0 + 2 * 0.3)],
      false, order_herding, sensible_herding, by simp [Moves, Clears], by simp, by simp, rfl⟩
  · exact ⟨[.insideDomain ring, .fluctuation, .herding 10.0 5,
      .navigation 0.1 0.5 0.3, .orientation, .adjusting, .agentAgent (3.0 + 2 * 0.3), .agentObstacle],
      true, order_rounding hd, sensible_rounding ring, by simp [Moves, Clears], by simp, by simp, rfl⟩
  · exact ⟨[.insideDomain ring, .fluctuation,
      .exitDetection ((1 - ratioObs) * width), .herding 10.0 5, .navigation 0.1 0.5 0.3,
      .orientation, .adjusting, .agentAgent (3.0 + 2 * 0.3), .agentObstacle],
      true, order_avoid hd hw, sensible_avoid ring _, by simp [Moves, Clears], by simp, by simp, rfl⟩
  · exact ⟨[.fluctuation, .herding 10.0 5, .orientation, .adjusting,
      .agentAgent (3.0 + 2 * 0.3), .agentObstacle],
      true, order_closed, sensible_closed, by simp [Moves, Clears], by simp, by simp, rfl⟩
  · exact ⟨[.fluctuation, .herding 10.0 5, .orientation, .adjusting,
      .agentAgent (3.0 + 2 * 0.3), .agentObstacle],
      true, order_closed, sensible_closed, by simp [Moves, Clears], by simp, by simp, rfl⟩
  · exact ⟨[.insideDomain ring, .fluctuation, .exitDetection 20.0,
      .leaderFollower 20.0, .navigation 0.1 0.5 0.3, .orientation, .adjusting,
      .agentAgent (3.0 + 2 * 0.3), .agentObstacle],
      true, order_fourExits hd, sensible_fourExits ring, by simp [Moves, Clears], by simp, by simp, rfl⟩
  · exact ⟨[.insideDomain ring, .fluctuation, .exitDetection 20.0,
      .leaderFollower 20.0, .navigation 0.1 0.5 0.3, .orientation, .adjusting,
      .agentAgent (3.0 + 2 * 0.3), .agentObstacle],
      true, order_fourExits hd, sensible_fourExits ring, by simp [Moves, Clears], by simp, by simp, rfl⟩
  · exact absurd rfl hk
  · exact ⟨[.fluctuation, .orientation, .adjusting,
      .agentAgent (3.0 + 2 * 0.3)],
      false, order_walk, sensible_walk, by simp [Moves, Clears], by simp, by simp, rfl⟩

/-- What a node adds to the forces, except that the node for forces between agents adds nothing in
total. -/
def OutsideNode (env : SimEnv n) (A : Crowd n) (node : Node) (E : Fin n → Vec × ℝ) : Prop :=
  ((∃ c, node = .agentAgent c) → E = 0) ∧
  ((¬ ∃ c, node = .agentAgent c) → ∀ k, ContributesBody CodeArm env A k node (E k))

lemma samePhysics_turn {a b a' b' : Agent} (h : SamePhysics a b) (ha : SameTurn a a')
    (hb : SameTurn b b') : SamePhysics a' b' := by
  obtain ⟨h1, h2, h3, h4, h5, h6⟩ := h
  exact ⟨ha.body.mass ▸ hb.body.mass ▸ h1, ha.body.kSoc ▸ hb.body.kSoc ▸ h2,
    ha.body.tau0 ▸ hb.body.tau0 ▸ h3, ha.body.mu ▸ hb.body.mu ▸ h4,
    ha.body.kappa ▸ hb.body.kappa ▸ h5, ha.body.damping ▸ hb.body.damping ▸ h6⟩

/-- One node. -/
lemma node_outside (env : SimEnv n) (node : Node) (s t : SimState n)
    (hr : RegularBody env [node] s) (h : node.update env s = (.ok (), t)) (hc : ¬ Clears node)
    (hm : ¬ Moves node) (hs : ∀ i j, SamePhysics (s.agents.rows i) (s.agents.rows j)) :
    ∃ E, OutsideNode env s.agents.rows node E ∧
      ∑ k, (t.agents.rows k).force = ∑ k, (s.agents.rows k).force + ∑ k, (E k).1 := by
  by_cases ha : ∃ c, node = .agentAgent c
  · refine ⟨0, ⟨fun _ => rfl, fun h' => absurd ha h'⟩, ?_⟩
    obtain ⟨c, rfl⟩ := ha
    have e : agentAgentBlockList env.cellPairs s.agents c = some ⟨s.agents.dtype,
        agentAgentThreeCircle s.agents.rows
          (env.cellPairs (fun i => (s.agents.rows i).position) c)⟩ := by
      unfold agentAgentBlockList
      simp [isModel, hr.kind]
    simp only [Node.update, e] at h
    cases h
    simp only
    rw [C29_threeCircle_momentum _ _ fun p _ => hs p.1 p.2]
    simp
  · obtain ⟨-, h2⟩ := node_contributes_body env node s t hr h hc hm
    choose E h3 h4 h5 using h2
    refine ⟨E, ⟨fun h' => absurd h' ha, fun _ => h3⟩, ?_⟩
    rw [← Finset.sum_add_distrib]
    exact Finset.sum_congr rfl fun k _ => h4 k

lemma nodes_outside (env : SimEnv n) (nodes : List Node) : ∀ (s t : SimState n),
    RegularBody env nodes s → updateNodes env nodes s = (.ok (), t) →
    (∀ x ∈ nodes, ¬ Moves x ∧ ¬ Clears x) →
    nodes.Pairwise (fun a b => ¬ (Adjusts a ∧ Steers b)) →
    (∀ i j, SamePhysics (s.agents.rows i) (s.agents.rows j)) →
    ∃ Es, List.Forall₂ (OutsideNode env t.agents.rows) nodes Es ∧
      ∑ k, (t.agents.rows k).force = ∑ k, (s.agents.rows k).force + ∑ k, (Es.sum k).1 := by
  induction nodes with
  | nil =>
    intro s t _ h _ _ _
    cases h
    exact ⟨[], .nil, by simp⟩
  | cons x xs ih =>
    intro s t hr h hx hp hs
    obtain ⟨q, u, hu⟩ : ∃ q u, x.update env s = (q, u) := ⟨_, _, rfl⟩
    rw [updateNodes, hu] at h
    cases q with
    | error e => cases h
    | ok _ =>
      simp only at h
      obtain ⟨hm, hc⟩ := hx x List.mem_cons_self
      have d1 := (node_contributes_body env x s u (regularBody_head hr) hu hc hm).1
      obtain ⟨E, ⟨o1, o2⟩, e1⟩ := node_outside env x s u (regularBody_head hr) hu hc hm hs
      have m1 := fun k => (node_still_body env x s u _ hu hm k).1
      have m2 := nodes_still_body env xs u t _ h fun y hy => (hx y (List.mem_cons_of_mem _ hy)).1
      obtain ⟨hp1, hp2⟩ := List.pairwise_cons.1 hp
      obtain ⟨Es, c2, e2⟩ := ih u t (regularBody_step hr d1 m1) h
        (fun y hy => hx y (List.mem_cons_of_mem _ hy)) hp2
        (fun i j => samePhysics_turn (hs i j) (m1 i) (m1 j))
      refine ⟨E :: Es, .cons ⟨o1, fun hn k => ?_⟩ c2, ?_⟩
      · refine contributesBody_congr (fun j => (m1 j).trans (m2 j).1) (fun ha => ?_) (o2 hn k)
        have hs : ¬ Steers x := by cases x <;> first | exact absurd ha id | exact id
        obtain ⟨p1, p2⟩ := (m2 k).2 fun y hy hy' => hp1 y hy ⟨ha, hy'⟩
        obtain ⟨q1, q2⟩ := (node_still_body env x s u _ hu hm k).2 hs
        exact ⟨(p1.trans q1).symm, (p2.trans q2).symm⟩
      · rw [e2, e1, List.sum_cons]
        simp only [Pi.add_apply, Prod.fst_add, Finset.sum_add_distrib, add_assoc]

/-- A whole update. -/
lemma update_outside (env : SimEnv n) (before after : List Node) (dtMin dtMax : ℝ)
    (hb : ∀ x ∈ before, ¬ Moves x ∧ ¬ Clears x)
    (hs : before.Pairwise (fun a b => ¬ (Adjusts a ∧ Steers b)))
    (ha : ∀ x ∈ after, ¬ Moves x ∧ ¬ Steers x) (s t : SimState n)
    (hr : RegularBody env before s)
    (hp : ∀ i j, SamePhysics (s.agents.rows i) (s.agents.rows j))
    (h : updateNodes env (before ++ .integrator dtMin dtMax :: after) s = (.ok (), t)) :
    ∃ Es, List.Forall₂ (OutsideNode env (aimingBody s t)) before Es ∧
      ∑ k, (t.agents.rows k).forcePrev = ∑ k, (s.agents.rows k).force + ∑ k, (Es.sum k).1 := by
  rw [updateNodes_append] at h
  obtain ⟨q, v, hv⟩ : ∃ q v, updateNodes env before s = (q, v) := ⟨_, _, rfl⟩
  rw [hv] at h
  cases q with
  | error e => cases h
  | ok _ =>
    simp only [updateNodes, Node.update] at h
    have d1 := (nodes_contribute_body env before s v hr hv hb hs).1
    obtain ⟨Es, c1, e1⟩ := nodes_outside env before s v hr hv hb hs hp
    have m := fun j => (nodes_still_body env before s v _ hv (fun x hx => (hb x hx).1) j).1
    have hmass : ∀ j, (v.agents.rows j).mass ≠ 0 := fun j => by
      rw [← (m j).body.mass]; exact (hr.mass j).ne'
    have hin : ∀ j, (v.agents.rows j).inertiaRot ≠ 0 := fun j => by
      rw [← (m j).body.inertiaRot]; exact (hr.inertia j).ne'
    have hk : v.agents.dtype.kind = .threeCircle := by rw [d1]; exact hr.kind
    have a2 := nodes_still_body env after _ t _ h fun x hx => (ha x hx).1
    have htd : ∀ j, (t.agents.rows j).targetDirection = (v.agents.rows j).targetDirection ∧
        (t.agents.rows j).targetOrientation = (v.agents.rows j).targetOrientation := by
      intro j
      obtain ⟨x1, x2⟩ := (a2 j).2 fun x hx => (ha x hx).2
      obtain ⟨-, -, y1, y2⟩ := integrator_turn dtMin dtMax v hk j (hmass j) (hin j)
      exact ⟨x1.trans y1, x2.trans y2⟩
    refine ⟨Es, ?_, ?_⟩
    · refine c1.imp fun x E hE => ⟨hE.1, fun hn k => ?_⟩
      refine contributesBody_congr (fun j => ?_) (fun _ => ?_) (hE.2 hn k)
      · obtain ⟨⟨hb, b1, b2, b3⟩, b4, b5, b6, b7, b8⟩ := (m j).symm
        exact ⟨⟨⟨hb.1, hb.2, hb.3, hb.4, hb.5, hb.6, hb.7, hb.8, hb.9, hb.10, hb.11, hb.12, hb.13,
          hb.14, hb.15, hb.16, hb.17, hb.18, hb.19, hb.20⟩, b1, b2, b3⟩, b4, b5, b6, b7, b8⟩
      · exact ⟨(htd k).1.symm, (htd k).2.symm⟩
    · rw [← e1]
      refine Finset.sum_congr rfl fun k _ => ?_
      obtain ⟨⟨p, q, -, -, -, -, h5⟩, -⟩ := integrator_turn dtMin dtMax v hk k (hmass k) (hin k)
      rw [← (a2 k).1.forcePrev, h5]

/-- Only the nodes that produce forces matter. -/
lemma outside_filter {env : SimEnv n} {A : Crowd n} {nodes : List Node}
    {Es : List (Fin n → Vec × ℝ)} (h : List.Forall₂ (OutsideNode env A) nodes Es) :
    ∃ Gs, List.Forall₂ (OutsideNode env A) (nodes.filter addsForces) Gs ∧ Gs.sum = Es.sum := by
  induction h with
  | nil => exact ⟨[], .nil, rfl⟩
  | @cons x f xs fs hx _ ih =>
    obtain ⟨gs, h1, h2⟩ := ih
    by_cases hf : addsForces x = true
    · rw [List.filter_cons_of_pos hf]
      exact ⟨f :: gs, .cons hx h1, by rw [List.sum_cons, List.sum_cons, h2]⟩
    · rw [List.filter_cons_of_neg hf]
      have : f = 0 := by
        have h3 : ¬ ∃ c, x = .agentAgent c := by
          rintro ⟨c, rfl⟩
          exact hf rfl
        funext k
        have := hx.2 h3 k
        cases x <;> first | exact this | exact absurd rfl hf
      exact ⟨gs, h1, by rw [List.sum_cons, this, zero_add, h2]⟩

open Classical in
/-- In every step of a run the forces add up to what acts from outside. -/
lemma run_outside {env : SimEnv n} {e : LogicExpr} {order : List Node} {s : SimState n} {N : ℕ}
    {S : ℕ → SimState n} (h : ShippedBodyRun env e order s N S)
    (hs : ∀ i j, SamePhysics (s.agents.rows i) (s.agents.rows j)) {j : ℕ} (hj : j < N) :
    ∃ E : Fin n → Vec, (∀ i, ActsOnBodyFromOutside env order (S j) (S (j + 1)) i (E i)) ∧
      ∑ i, ((S (j + 1)).agents.rows i).forcePrev = ∑ i, E i := by
  obtain ⟨ratioObs, width, k, hw, hk, he⟩ := h.shipped
  obtain ⟨before, walls, ho, hso, hb, hc, hwm, hfil⟩ :=
    shipped_shape env ratioObs width h.domain hw k e he hk
  have hoo := h.order
  rw [ho] at hoo
  obtain rfl := Except.ok.inj hoo
  have hbody := (completed_body h.order h.completed j hj.le).2
  have h0 : (∀ i, ((S j).agents.rows i).force = 0) ∧
      ∀ i, ShouldersAttached ((S j).agents.rows i) := by
    rcases j with _ | j
    · rw [h.completed.first]
      exact ⟨fun i => (h.start i).1, h.regular.attached⟩
    · have hn := body_newton h j (by omega)
      refine ⟨fun i => (hn i).1, fun i => ?_⟩
      obtain ⟨-, -, _, _, _, _, -, -, -, -, -, _, _, -, -, -, -, -, -, ha⟩ := hn i
      exact ha
  have hr := body_regular h hj h0.2
  obtain ⟨u, hu, ea⟩ := update_order ho env _ _ _ (h.completed.next j hj)
  have hr' : RegularBody env before (S j) :=
    ⟨hr.kind, hr.radii, hr.attached, hr.mass, hr.inertia, hr.tau, hr.tauRot, hr.std, hr.stdTorque,
      hr.draws, hr.drawsTorque, hr.obstacles, fun c h => by
      rw [hc c h]; exact hr.cells _ List.mem_cons_self⟩
  have hsb : before.Pairwise (fun a b => ¬ (Adjusts a ∧ Steers b)) := by
    obtain ⟨h1, h2⟩ := (allBefore_iff _ _ _).1 hso.steer
    exact (List.pairwise_append.1 h2).1
  have hp : ∀ a b, SamePhysics ((S j).agents.rows a) ((S j).agents.rows b) := fun a b => by
    obtain ⟨h1, h2, h3, h4, h5, h6⟩ := hs a b
    exact ⟨(hbody a).mass.symm.trans (h1.trans (hbody b).mass),
      (hbody a).kSoc.symm.trans (h2.trans (hbody b).kSoc),
      (hbody a).tau0.symm.trans (h3.trans (hbody b).tau0),
      (hbody a).mu.symm.trans (h4.trans (hbody b).mu),
      (hbody a).kappa.symm.trans (h5.trans (hbody b).kappa),
      (hbody a).damping.symm.trans (h6.trans (hbody b).damping)⟩
  obtain ⟨Es, c1, e1⟩ := update_outside env before [.reset] 0.01 0.01 hb hsb
    (by simp [Moves, Steers]) (S j) u hr' hp hu
  have haim : aimingBody (S j) (S (j + 1)) = aimingBody (S j) u := by unfold aimingBody; rw [ea]
  simp only [h0.1, Finset.sum_const_zero, zero_add] at e1
  obtain ⟨gs, g1, g2⟩ := outside_filter c1
  rw [hfil] at g1
  rw [ea, e1, ← g2]
  have nf : ¬ ∃ c, Node.fluctuation = .agentAgent c := by simp
  have na : ¬ ∃ c, Node.adjusting = .agentAgent c := by simp
  have no : ¬ ∃ c, Node.agentObstacle = .agentAgent c := by simp
  unfold ActsOnBodyFromOutside
  rw [haim]
  cases walls with
  | false =>
    obtain ⟨f, _, c1, r1, rfl⟩ := List.forall₂_cons_left_iff.1 g1
    obtain ⟨a, _, c2, r2, rfl⟩ := List.forall₂_cons_left_iff.1 r1
    obtain ⟨p, _, c3, r3, rfl⟩ := List.forall₂_cons_left_iff.1 r2
    cases List.forall₂_nil_left_iff.1 r3
    obtain rfl := c3.1 ⟨_, rfl⟩
    refine ⟨fun i => (f i + a i + 0).1, fun i => ⟨f i, a i, 0, c1.2 nf i, c2.2 na i, ?_, rfl⟩, ?_⟩
    · rw [if_neg (by simpa using hwm)]
    · simp
  | true =>
    obtain ⟨f, _, c1, r1, rfl⟩ := List.forall₂_cons_left_iff.1 g1
    obtain ⟨a, _, c2, r2, rfl⟩ := List.forall₂_cons_left_iff.1 r1
    obtain ⟨p, _, c3, r3, rfl⟩ := List.forall₂_cons_left_iff.1 r2
    obtain ⟨w, _, c4, r4, rfl⟩ := List.forall₂_cons_left_iff.1 r3
    cases List.forall₂_nil_left_iff.1 r4
    obtain rfl := c3.1 ⟨_, rfl⟩
    refine ⟨fun i => (f i + a i + w i).1, fun i => ⟨f i, a i, w i, c1.2 nf i, c2.2 na i, ?_, rfl⟩, ?_⟩
    · rw [if_pos (by simpa using hwm)]; exact c4.2 no i
    · simp [add_assoc]

end CrowdDynamics
