import Verif.Proofs.CollectiveMotion
import Verif.Proofs.SortCases
import Verif.Props.Evacuation
import Mathlib.Logic.Relation
import Mathlib.Data.List.ReduceOption

/-!
# Properties C41–C43, C68, C74: neighbours, herding and leaders
-/

namespace CrowdDynamics

open Spec

variable {n : ℕ}

/-! ## C41: the `k` nearest neighbours -/

/-- **C41** For `k ≥ 1` the neighbour search, with the pairs of the cell list library for the
cell size `sight`, gives every agent its `k` nearest visible agents. -/
theorem C41_nearest (pos : Fin n → Vec) (ws : List Wall) (sight : ℝ) (hsight : 0 < sight) (k : ℕ)
    (hk : 1 ≤ k) (pairs : List (Fin n × Fin n)) (hp : EnumeratesNeighbours pos sight pairs) :
    ∃ T, findNearestNeighbors pos sight k pairs ws = some T ∧
      ∀ i, KNearest pos ws sight k i (T i) := by
  obtain ⟨o, hc⟩ := hp.complete
  refine findNearestNeighbors_spec pos ws sight k (by omega) pairs hp.distinct hp.once ?_
  intro i j hij hd
  obtain ⟨h1, h2⟩ := cells_close hsight (o := o) hd.le
  exact hc i j hij h1 h2

/-- Three agents on a line, without walls; the nearest two are asked for. -/
example : ∃ T, findNearestNeighbors (![(0, 0), (1, 0), (3, 0)] : Fin 3 → Vec) 5 2
      [(0, 1), (2, 0), (1, 2)] [] = some T ∧
    ∀ i, KNearest (![(0, 0), (1, 0), (3, 0)] : Fin 3 → Vec) [] 5 2 i (T i) := by
  refine C41_nearest _ _ _ (by norm_num) _ (by norm_num) _ ⟨by decide, by decide, 0, ?_⟩
  intro i j hij _ _
  fin_cases i <;> fin_cases j <;> first | exact absurd rfl hij | decide

/-- **C41** If fewer than `k` agents are visible then all of them are listed. -/
theorem C41_all_if_few (pos : Fin n → Vec) (ws : List Wall) (sight : ℝ) (k : ℕ) (i : Fin n)
    (row : List (Option (Fin n))) (h : KNearest pos ws sight k i row) (hfew : none ∈ row) (j : Fin n) :
    some j ∈ row ↔ CanSee pos ws sight i j := by
  refine ⟨h.sound j, fun hj => ?_⟩
  by_contra hn
  exact (h.nearest j hj hn).1 hfew

/-- Four neighbours are asked for among three agents. -/
example (T : Fin 3 → List (Option (Fin 3)))
    (h : ∀ i, KNearest (![(0, 0), (1, 0), (3, 0)] : Fin 3 → Vec) [] 5 4 i (T i)) (hl : none ∈ T 0) :=
  C41_all_if_few _ [] 5 4 0 (T 0) (h 0) hl 2

/-- **C41** The excluded case `k = 0`, which the node `LeaderFollowerWithHerding` accepts: the
search raises an exception as soon as two agents see each other. -/
theorem C41_zero_raises (pos : Fin n → Vec) (ws : List Wall) (sight : ℝ)
    (pairs : List (Fin n × Fin n)) (i j : Fin n) (hij : (i, j) ∈ pairs)
    (hsee : CanSee pos ws sight i j) : findNearestNeighbors pos sight 0 pairs ws = none := by
  unfold findNearestNeighbors
  obtain ⟨pre, post, rfl⟩ := List.append_of_mem hij
  simp only [List.foldlM_append, List.foldlM_cons]
  -- every step either raises or changes nothing
  obtain ⟨r0, hr0⟩ : ∃ r : Fin n → NeighborRow n, r = fun _ => ⟨[], sight⟩ := ⟨_, rfl⟩
  have hstep : ∀ p, neighborStep pos ws r0 p = none ∨ neighborStep pos ws r0 p = some r0 := by
    intro p
    unfold neighborStep offerNeighbor setNeighbor
    by_cases h1 : isObstacleBetweenPoints (pos p.1) (pos p.2) ws = true
    · right; rw [if_pos h1]
    · rw [if_neg h1]
      by_cases h2 : length (pos p.1 - pos p.2) < sight
      · left; simp [hr0, h2, npArgmax]
      · right; simp [hr0, h2]
  have hpre : pre.foldlM (neighborStep pos ws) r0 = none ∨
      pre.foldlM (neighborStep pos ws) r0 = some r0 := by
    induction pre with
    | nil => right; rfl
    | cons p pre ih =>
      rw [List.foldlM_cons]
      rcases hstep p with h | h
      · left; rw [h]; rfl
      · rw [h]; exact ih (by simp)
  have hlast : neighborStep pos ws r0 (i, j) = none := by
    unfold neighborStep offerNeighbor setNeighbor
    have h1 := (not_blocked_iff _ _ _).2 hsee.2.2
    have h2 : length (pos i - pos j) < sight := hsee.2.1
    rw [if_neg (by simp [h1])]
    simp [hr0, h2, npArgmax]
  simp only [List.replicate_zero]
  rw [← hr0]
  rcases hpre with h | h
  · simp [h]
  · simp [h, hlast]

/-- Three agents in a row, pairs as the library may enumerate them. -/
example : EnumeratesNeighbours (![(0, 0), (1, 0), (3, 0)] : Fin 3 → Vec) 5
    [(0, 1), (2, 0), (1, 2)] := by
  refine ⟨by decide, by decide, 0, ?_⟩
  intro i j hij _ _
  fin_cases i <;> fin_cases j <;> first | exact absurd rfl hij | decide

/-! ## C42: herding -/

/-- **C42** `herding_relationship` says for each of the two agents whether it may follow the
other one: both move and the other one does not head for it. -/
theorem C42_meaning (x1 x2 v1 v2 : Vec) (phi : ℝ) :
    ((herdingRelationship x1 x2 v1 v2 phi).1 = true ↔ MayFollow x1 v1 x2 v2 phi) ∧
    ((herdingRelationship x1 x2 v1 v2 phi).2 = true ↔ MayFollow x2 v2 x1 v1 phi) :=
  herding_eq x1 x2 v1 v2 phi

/-- **C42** Swapping the agents swaps the answers. -/
theorem C42_symmetric (x1 x2 v1 v2 : Vec) (phi : ℝ) :
    herdingRelationship x2 x1 v2 v1 phi = (herdingRelationship x1 x2 v1 v2 phi).swap := by
  have h1 := C42_meaning x1 x2 v1 v2 phi
  have h2 := C42_meaning x2 x1 v2 v1 phi
  apply Prod.ext
  · rw [Prod.fst_swap, Bool.eq_iff_iff, h1.2, h2.1]
  · rw [Prod.snd_swap, Bool.eq_iff_iff, h1.1, h2.2]

open Classical in
/-- The sums of the loop in `herding_interaction`. -/
lemma herdingSums_eq (pos vel : Fin n → Vec) (phi : ℝ) (i : Fin n) (row : List (Option (Fin n))) :
    let F := row.reduceOption.filter fun j => MayFollow (pos i) (vel i) (pos j) (vel j) phi
    herdingSums pos vel phi i row = ((F.map pos).sum, (F.map vel).sum, F.length) := by
  intro F
  unfold herdingSums
  have key : ∀ (row : List (Option (Fin n))) (x v : Vec) (m : ℕ),
      row.foldl (fun acc j =>
        match j with
        | none => acc
        | some j =>
          if (herdingRelationship (pos i) (pos j) (vel i) (vel j) phi).1 then
            (acc.1 + pos j, acc.2.1 + vel j, acc.2.2 + 1)
          else acc) (x, v, m) =
      (x + ((row.reduceOption.filter fun j =>
          MayFollow (pos i) (vel i) (pos j) (vel j) phi).map pos).sum,
       v + ((row.reduceOption.filter fun j =>
          MayFollow (pos i) (vel i) (pos j) (vel j) phi).map vel).sum,
       m + (row.reduceOption.filter fun j =>
          MayFollow (pos i) (vel i) (pos j) (vel j) phi).length) := by
    intro row
    induction row with
    | nil => intro x v m; simp
    | cons o row ih =>
      intro x v m
      rw [List.foldl_cons]
      cases o with
      | none => rw [List.reduceOption_cons_of_none]; exact ih x v m
      | some j =>
        rw [List.reduceOption_cons_of_some]
        by_cases h : MayFollow (pos i) (vel i) (pos j) (vel j) phi
        · have h' := (herding_eq (pos i) (pos j) (vel i) (vel j) phi).1.2 h
          simp only [h', if_true]
          rw [ih, List.filter_cons_of_pos (by simpa using h)]
          simp only [List.map_cons, List.sum_cons, List.length_cons]
          refine Prod.ext (add_assoc _ _ _) (Prod.ext (add_assoc _ _ _) ?_)
          simp only
          omega
        · have h' : (herdingRelationship (pos i) (pos j) (vel i) (vel j) phi).1 = false := by
            rw [← Bool.not_eq_true]
            exact fun e => h ((herding_eq _ _ _ _ _).1.1 e)
          simp only [h']
          rw [List.filter_cons_of_neg (by simpa using h)]
          simpa using ih x v m
  refine (key row 0 0 0).trans ?_
  simp [F]

open Classical in
/-- **C42** Only herding agents with a neighbour they may follow get a direction: the normalised
mixture of the direction to the mean position and the direction of the total velocity of these
neighbours. -/
theorem C42_direction (isHerding : Fin n → Bool) (pos vel : Fin n → Vec)
    (neighbors : Fin n → List (Option (Fin n))) (weight phi : ℝ) (i : Fin n) :
    let F := (neighbors i).reduceOption.filter fun j =>
      MayFollow (pos i) (vel i) (pos j) (vel j) phi
    ((isHerding i = false ∨ F = []) →
      herdingInteraction isHerding pos vel neighbors weight phi i = (0, false)) ∧
    (isHerding i = true → F ≠ [] →
      herdingInteraction isHerding pos vel neighbors weight phi i =
        (dir (weight • dir ((F.length : ℝ)⁻¹ • (F.map pos).sum - pos i) +
          (1 - weight) • dir (F.map vel).sum), true)) := by
  intro F
  have hs := herdingSums_eq pos vel phi i (neighbors i)
  simp only at hs
  unfold herdingInteraction
  simp only [hs]
  constructor
  · rintro (h | h)
    · simp [h]
    · have : F.length = 0 := by rw [h]; rfl
      by_cases hh : isHerding i = true
      · rw [if_pos hh, if_neg (by show ¬ (F.length > 0); omega)]
      · rw [if_neg hh]
  · intro h hF
    rw [if_pos h, if_pos (List.length_pos_iff.2 hF)]
    rw [normalize_eq_dir, normalize_eq_dir, normalize_eq_dir, one_div]
    rfl

/-- **C42** All directions are unit vectors or zero, and agents that are not herding get none. -/
theorem C42_unit_or_zero (isHerding : Fin n → Bool) (pos vel : Fin n → Vec)
    (neighbors : Fin n → List (Option (Fin n))) (weight phi : ℝ) (i : Fin n) :
    let r := herdingInteraction isHerding pos vel neighbors weight phi i
    (len r.1 = 1 ∨ r.1 = 0) ∧ (isHerding i = false → r = (0, false)) := by
  unfold herdingInteraction
  simp only
  split_ifs with h1 h2
  · exact ⟨length_normalize_or _, fun h => by simp [h1] at h⟩
  · exact ⟨Or.inr rfl, fun _ => rfl⟩
  · exact ⟨Or.inr rfl, fun _ => rfl⟩

/-- An agent may follow another one that walks in the same direction. -/
example : MayFollow (0, 0) (1, 0) (1, 0) (1, 0) (Real.pi / 2) := by
  refine ⟨by simp, by simp, fun h => ?_⟩
  have := h.1
  rw [Real.cos_pi_div_two, cosAngle] at this
  norm_num [Spec.inner, Spec.len] at this

/-! ## C74: agents that come straight towards you -/

/-- The statement of C74: an agent whose direction of motion differs by less than `phi` from the
direction to the other agent is not taken for one that heads away. -/
def C74_statement : Prop :=
  ∀ (x1 x2 v1 v2 : Vec) (phi : ℝ), 0 < phi → phi ≤ Real.pi → v1 ≠ 0 → v2 ≠ 0 →
    Real.cos phi < cosAngle (x1 - x2) v2 → (herdingRelationship x1 x2 v1 v2 phi).1 = false

/-- **C74** The statement is false: an agent that walks exactly towards the other one
is classified as heading away, because the comparison `c < 1.0` excludes the angle 0. -/
theorem C74_head_on_fails : ¬ C74_statement := by
  intro h
  have h1 := h (0, 0) (1, 0) (0, 1) (-1, 0) (Real.pi / 2) (by positivity)
    (by linarith [Real.pi_pos]) (by simp) (by simp)
    (by rw [Real.cos_pi_div_two, cosAngle]; norm_num [Spec.inner, Spec.len])
  have h2 : MayFollow (0, 0) (0, 1) (1, 0) (-1, 0) (Real.pi / 2) := by
    refine ⟨by simp, by simp, fun h => ?_⟩
    have := h.2
    rw [cosAngle] at this
    norm_num [Spec.inner, Spec.len] at this
  rw [(C42_meaning _ _ _ _ _).1.2 h2] at h1
  exact absurd h1 (by simp)

/-- **C74** It holds if the motion is not exactly towards the other agent. -/
theorem C74_oblique_partial (x1 x2 v1 v2 : Vec) (phi : ℝ)
    (hphi : Real.cos phi < cosAngle (x1 - x2) v2) (hne : cosAngle (x1 - x2) v2 ≠ 1) :
    (herdingRelationship x1 x2 v1 v2 phi).1 = false := by
  rw [← Bool.not_eq_true, (C42_meaning _ _ _ _ _).1]
  exact fun h => h.2.2 ⟨hphi, lt_of_le_of_ne (cosAngle_le_one _ _) hne⟩

/-- An agent that passes the other one obliquely meets the hypotheses. -/
example : Real.cos (Real.pi / 2) < cosAngle ((0, 0) - (4, 3)) ((-1, 0) : Vec) ∧
    cosAngle ((0, 0) - (4, 3)) ((-1, 0) : Vec) ≠ 1 := by
  have e : len ((0, 0) - ((4 : ℝ), (3 : ℝ))) = 5 := by
    rw [Spec.len, Real.sqrt_eq_iff_mul_self_eq (by positivity) (by norm_num)]
    norm_num
  have e' : len ((-1, 0) : ℝ × ℝ) = 1 := by norm_num [Spec.len]
  rw [Real.cos_pi_div_two, cosAngle, e, e']
  norm_num [Spec.inner]

/-! ## C43: following leaders -/

/-- Index of the remembered leader: none (-1) or an agent of the crowd. -/
def ValidLeaders (a : Fin n → Agent) : Prop :=
  ∀ i, (a i).indexLeader = -1 ∨ ∃ l : Fin n, (a i).indexLeader = l.val

lemma agent_eta (x : Agent) {t l : ℤ} (ht : t = x.target) (hl : l = x.indexLeader) :
    { x with target := t, indexLeader := l } = x := by
  subst ht hl; rfl

/-- **C43** The node `LeaderFollower` leaves all agents alone that are not followers; every
follower is treated according to `FollowRule`, and gets its familiar exit as target if that
gives no strategy. Nothing but target, remembered leader and direction of followers changes. -/
theorem C43_leader_follower (oob : ℤ → ℤ) (argsort : List ℝ → List ℕ) (hsort : IsArgsort argsort)
    (ws : List Wall) (sight : ℝ) (a : Crowd n) (hvalid : ValidLeaders a) :
    ∃ (new memory : Fin n → ℤ) (has : Fin n → Bool) (d : Fin n → Vec),
      ∀ i, ((a i).isFollower = false →
          new i = (a i).target ∧ leaderFollowerUpdate oob argsort ws sight a i = a i) ∧
        ((a i).isFollower = true →
          FollowRule a ws sight (0.45 * Real.pi) 0.40 (fun i => (a i).target) new i (memory i)
            (has i) (d i) ∧
          leaderFollowerUpdate oob argsort ws sight a i =
            { a i with
              target := if has i then new i else (a i).familiarExit
              indexLeader := memory i
              targetDirection := d i }) := by
  have hb := brute_spec oob argsort hsort a 0.40 (0.45 * Real.pi) ws sight (fun i => (a i).target)
    hvalid
  simp only at hb
  unfold leaderFollowerUpdate leaderFollowerInteraction
  simp only
  generalize leaderFollowerInteractionBrute oob argsort (fun i => (a i).isFollower)
    (fun i => (a i).isLeader) (fun i => (a i).position) (fun i => (a i).velocity) 0.40
    (0.45 * Real.pi) (fun i => (a i).target) (fun i => (a i).indexLeader) ws sight = S at hb ⊢
  refine ⟨S.target, S.indexLeader, S.hasStrategy, S.newDirection, fun i => ⟨fun hf => ?_,
    fun hf => ⟨(hb i).1 hf, ?_⟩⟩⟩
  · obtain ⟨h1, h2, h3, h4⟩ := (hb i).2 hf
    refine ⟨h1, ?_⟩
    rw [if_neg (by simp [hf])]
    exact agent_eta _ (by simp [hf, h1]) h2
  · cases hh : S.hasStrategy i <;> simp [hf]

/-- A follower and a leader. -/
example := C43_leader_follower (n := 2) id orderOf orderOf_sorts [] 20
  ![{ Agent.zero with isFollower := true, indexLeader := -1, velocity := (1, 0) },
    { Agent.zero with isLeader := true, position := (1, 0), velocity := (1, 0), indexLeader := -1 }]
  (fun i => Or.inl (by fin_cases i <;> rfl))

/-- Copying targets one after the other only moves targets around. -/
lemma followRule_targets {a : Fin n → Agent} {ws : List Wall} {sight phi weight : ℝ}
    {old new : Fin n → ℤ} {memory : Fin n → ℤ} {has : Fin n → Bool} {d : Fin n → Vec}
    (h : ∀ i, ((a i).isFollower = false → new i = old i) ∧
      ((a i).isFollower = true → FollowRule a ws sight phi weight old new i (memory i) (has i) (d i)))
    (i : Fin n) : new i = -1 ∨ ∃ m, new i = old m := by
  induction hi : i.val using Nat.strong_induction_on generalizing i with
  | _ k ih =>
    subst hi
    cases hf : (a i).isFollower with
    | false => exact Or.inr ⟨i, (h i).1 hf⟩
    | true =>
      rcases (h i).2 hf with ⟨j, -, -, h1, -⟩ | ⟨l, -, -, h1, -⟩ | ⟨-, -, h1, -⟩
      · exact Or.inl h1
      · unfold copied at h1
        split_ifs at h1 with hl
        · rw [h1]
          exact ih l.val (by simpa using hl) l rfl
        · exact Or.inr ⟨l, h1⟩
      · exact Or.inr ⟨i, h1⟩

/-- **C43** No target is invented: after the node `LeaderFollower` every target is -1, was the
target of some agent before, or is the agent's own familiar exit; every remembered leader is a
leader now or was remembered before. -/
theorem C43_no_new_targets (oob : ℤ → ℤ) (argsort : List ℝ → List ℕ) (hsort : IsArgsort argsort)
    (ws : List Wall) (sight : ℝ) (a : Crowd n) (hvalid : ValidLeaders a) (i : Fin n) :
    let b := leaderFollowerUpdate oob argsort ws sight a
    ((b i).target = -1 ∨ (∃ m, (b i).target = (a m).target) ∨
      (b i).target = (a i).familiarExit) ∧
    ((b i).indexLeader = (a i).indexLeader ∨
      ∃ j : Fin n, (b i).indexLeader = j.val ∧ (a j).isLeader = true) := by
  obtain ⟨new, memory, has, d, h⟩ := C43_leader_follower oob argsort hsort ws sight a hvalid
  intro b
  have ht := followRule_targets (a := a) (fun i => ⟨fun hf => ((h i).1 hf).1,
    fun hf => ((h i).2 hf).1⟩) i
  cases hf : (a i).isFollower with
  | false =>
    have e : b i = a i := ((h i).1 hf).2
    rw [e]
    exact ⟨Or.inr (Or.inl ⟨i, rfl⟩), Or.inl rfl⟩
  | true =>
    obtain ⟨hr, e⟩ := (h i).2 hf
    have e : b i = _ := e
    rw [e]
    simp only
    constructor
    · cases has i with
      | true =>
        rcases ht with h1 | h1
        · exact Or.inl (by simpa using h1)
        · exact Or.inr (Or.inl (by simpa using h1))
      | false => exact Or.inr (Or.inr rfl)
    · rcases hr with ⟨j, h1, -, -, h2, -⟩ | ⟨l, -, -, -, h2, -⟩ | ⟨-, h1, -, h2, -⟩
      · exact Or.inr ⟨j, h2, h1.1.1⟩
      · exact Or.inl h2
      · exact Or.inl (h2.trans h1.symm)

example := C43_no_new_targets (n := 2) id orderOf orderOf_sorts [] 20
  ![{ Agent.zero with isFollower := true, indexLeader := -1, velocity := (1, 0) },
    { Agent.zero with isLeader := true, position := (1, 0), velocity := (1, 0), indexLeader := -1 }]
  (fun i => Or.inl (by fin_cases i <;> rfl)) 0

/-- **C43** The node `LeaderFollowerWithHerding`: agents that are not followers are left alone;
followers first lose their target if they herd, then `FollowRule` applies (sight 20), and the
familiar exit is used if neither gives anything. The new direction is a unit vector or zero. -/
theorem C43_with_herding (oob : ℤ → ℤ) (argsort : List ℝ → List ℕ) (hsort : IsArgsort argsort)
    (cellPairs : (Fin n → Vec) → ℝ → List (Fin n × Fin n)) (ws : List Wall) (sight : ℝ) (k : ℕ)
    (a b : Crowd n) (hvalid : ValidLeaders a)
    (hb : leaderFollowerWithHerdingUpdate oob argsort cellPairs ws sight k a = some b) :
    ∃ (herds : Fin n → Bool) (new memory : Fin n → ℤ) (has : Fin n → Bool) (d e : Fin n → Vec),
      ∀ i, ((a i).isFollower = false → herds i = false ∧ new i = (a i).target ∧ b i = a i) ∧
        ((a i).isFollower = true →
          FollowRule a ws 20 (0.45 * Real.pi) 0.40 (fun i => if herds i then -1 else (a i).target)
            new i (memory i) (has i) (d i) ∧
          (len (e i) = 1 ∨ e i = 0) ∧
          b i =
            { a i with
              target := if herds i || has i then new i else (a i).familiarExit
              indexLeader := memory i
              targetDirection := e i }) := by
  unfold leaderFollowerWithHerdingUpdate leaderFollowerWithHerdingInteraction at hb
  simp only at hb
  cases hN : findNearestNeighbors (fun i => (a i).position) sight k
      (cellPairs (fun i => (a i).position) sight) ws with
  | none => rw [hN] at hb; simp at hb
  | some N =>
    rw [hN] at hb
    simp only [Option.bind_eq_bind, Option.bind_some, Option.some.injEq] at hb
    have hH := C42_unit_or_zero (fun i => (a i).isFollower) (fun i => (a i).position)
      (fun i => (a i).velocity) N 0.15 (0.45 * Real.pi)
    generalize herdingInteraction (fun i => (a i).isFollower) (fun i => (a i).position)
      (fun i => (a i).velocity) N 0.15 (0.45 * Real.pi) = H at hb hH
    have hbr := brute_spec oob argsort hsort a 0.40 (0.45 * Real.pi) ws 20
      (fun i => if (H i).2 then noTarget else (a i).target) hvalid
    simp only at hbr
    obtain ⟨S, hS⟩ : ∃ S, leaderFollowerInteractionBrute oob argsort (fun i => (a i).isFollower)
      (fun i => (a i).isLeader) (fun i => (a i).position) (fun i => (a i).velocity) 0.40
      (0.45 * Real.pi) (fun i => if (H i).2 then noTarget else (a i).target)
      (fun i => (a i).indexLeader) ws 20 = S := ⟨_, rfl⟩
    rw [hS] at hbr hb
    refine ⟨fun i => (H i).2, S.target, S.indexLeader, S.hasStrategy, S.newDirection,
      normalizeNx2 fun i => weightedAverage (S.newDirection i) (H i).1 0.65,
      fun i => ⟨fun hf => ?_, fun hf => ⟨(hbr i).1 hf, length_normalize_or _, ?_⟩⟩⟩
    · obtain ⟨h1, h2, h3, h4⟩ := (hbr i).2 hf
      have h5 : (H i).2 = false := by rw [(hH i).2 hf]
      have h6 : S.target i = (a i).target := by rw [h1]; simp [h5]
      refine ⟨h5, h6, ?_⟩
      rw [← hb]
      simp only
      rw [if_neg (by simp [hf])]
      exact agent_eta _ (by simp [hf, h6]) h2
    · rw [← hb]
      cases hh : S.hasStrategy i <;> cases hh2 : (H i).2 <;> simp [hf, hh, hh2]

/-- A follower that walks behind a leader; nobody is remembered yet. -/
example : NearestCounting (n := 2)
    ![{ Agent.zero with isFollower := true, indexLeader := -1, velocity := (1, 0) },
      { Agent.zero with isLeader := true, position := (1, 0), velocity := (1, 0), indexLeader := -1 }]
    [] 20 (Real.pi / 2) 0 1 := by
  have hd : Spec.dist ((0 : ℝ), (0 : ℝ)) (1, 0) = 1 := by norm_num [Spec.dist, Spec.len]
  refine ⟨⟨rfl, ?_, Or.inr ⟨by simp, ?_⟩⟩, ?_⟩
  · simp [Agent.zero]
    rw [hd]
    norm_num
  · refine ⟨by simp, by simp, fun h => ?_⟩
    have := h.1
    rw [Real.cos_pi_div_two, cosAngle] at this
    norm_num [Spec.inner, Spec.len, Agent.zero] at this
  · intro j' hj'
    fin_cases j'
    · exact absurd hj'.1 (by simp [Agent.zero])
    · exact le_refl _

/-! ## C68: histories -/

/-- One step of a history in which exits are detected and leaders are followed, for a field with
the given targets and obstacles. Other nodes may change everything except targets, remembered
leaders, familiar exits and who is a follower. -/
inductive SteerStep (oob : ℤ → ℤ) (argsort : List ℝ → List ℕ)
    (cellPairs : (Fin n → Vec) → ℝ → List (Fin n × Fin n)) (targets : List (List Vec))
    (ws : List Wall) : Crowd n → Crowd n → Prop
  | exit (a b : Crowd n) (range : ℝ) (h : exitDetectionUpdate targets ws range a = some b) :
      SteerStep oob argsort cellPairs targets ws a b
  | leader (a : Crowd n) (sight : ℝ) :
      SteerStep oob argsort cellPairs targets ws a (leaderFollowerUpdate oob argsort ws sight a)
  | herding (a b : Crowd n) (sight : ℝ) (k : ℕ)
      (h : leaderFollowerWithHerdingUpdate oob argsort cellPairs ws sight k a = some b) :
      SteerStep oob argsort cellPairs targets ws a b
  | other (a b : Crowd n)
      (h : ∀ i, (b i).target = (a i).target ∧ (b i).indexLeader = (a i).indexLeader ∧
        (b i).familiarExit = (a i).familiarExit ∧ (b i).isFollower = (a i).isFollower) :
      SteerStep oob argsort cellPairs targets ws a b

section
variable {oob : ℤ → ℤ} {argsort : List ℝ → List ℕ}
  {cellPairs : (Fin n → Vec) → ℝ → List (Fin n × Fin n)} {targets : List (List Vec)}
  {ws : List Wall}

/-- One step: valid leader indices stay valid, nobody becomes a follower, targets of others are
kept, and targets come from the allowed sources. -/
lemma steerStep_inv (hsort : IsArgsort argsort) {a b : Crowd n} (hvalid : ValidLeaders a)
    (h : SteerStep oob argsort cellPairs targets ws a b) :
    ValidLeaders b ∧ ∀ i, (b i).familiarExit = (a i).familiarExit ∧
      ((a i).isFollower = false → (b i).isFollower = false ∧ (b i).target = (a i).target) ∧
      ((b i).target = -1 ∨ (∃ c : ℕ, c < targets.length ∧ (b i).target = c) ∨
        (∃ m, (b i).target = (a m).target) ∨ (b i).target = (a i).familiarExit) := by
  cases h with
  | exit b range h =>
    refine ⟨fun i => ?_, fun i => ?_⟩
    · rcases exitNode_rows targets ws range a b h i with ⟨-, c, -, e⟩ | ⟨-, e⟩ <;> rw [e] <;>
        exact hvalid i
    · rcases exitNode_rows targets ws range a b h i with ⟨hf, c, hc, e⟩ | ⟨-, e⟩
      · rw [e]
        refine ⟨rfl, fun h => by simp [hf] at h, Or.inr (Or.inl ⟨c, ?_, rfl⟩)⟩
        obtain ⟨door, hd, -⟩ := hc.1
        simpa using (List.getElem?_eq_some_iff.1 hd).1
      · rw [e]
        exact ⟨rfl, fun h => ⟨h, rfl⟩, Or.inr (Or.inr (Or.inl ⟨i, rfl⟩))⟩
  | leader sight =>
    obtain ⟨new, memory, has, d, h⟩ := C43_leader_follower oob argsort hsort ws sight a hvalid
    refine ⟨fun i => ?_, fun i => ⟨?_, ?_, ?_⟩⟩
    · rcases (C43_no_new_targets oob argsort hsort ws sight a hvalid i).2 with e | ⟨j, e, -⟩
      · rw [e]; exact hvalid i
      · exact Or.inr ⟨j, e⟩
    · cases hf : (a i).isFollower with
      | false => rw [((h i).1 hf).2]
      | true => rw [((h i).2 hf).2]
    · intro hf
      rw [((h i).1 hf).2]
      exact ⟨hf, rfl⟩
    · rcases (C43_no_new_targets oob argsort hsort ws sight a hvalid i).1 with e | e | e
      · exact Or.inl e
      · exact Or.inr (Or.inr (Or.inl e))
      · exact Or.inr (Or.inr (Or.inr e))
  | herding b sight k hb =>
    obtain ⟨herds, new, memory, has, d, e, h⟩ := C43_with_herding oob argsort hsort cellPairs ws
      sight k a b hvalid hb
    have ht := followRule_targets (a := a) (old := fun i => if herds i then -1 else (a i).target)
      (new := new) (fun i => ⟨fun hf => by
        obtain ⟨h1, h2, -⟩ := (h i).1 hf
        rw [h2]; simp [h1], fun hf => ((h i).2 hf).1⟩)
    have ht' : ∀ i, new i = -1 ∨ ∃ m, new i = (a m).target := by
      intro i
      rcases ht i with h1 | ⟨m, h1⟩
      · exact Or.inl h1
      · cases hm : herds m with
        | true => left; rw [h1]; simp [hm]
        | false => right; exact ⟨m, by rw [h1]; simp [hm]⟩
    refine ⟨fun i => ?_, fun i => ⟨?_, ?_, ?_⟩⟩
    · cases hf : (a i).isFollower with
      | false => rw [((h i).1 hf).2.2]; exact hvalid i
      | true =>
        obtain ⟨hr, -, e⟩ := (h i).2 hf
        rw [e]
        simp only
        rcases hr with ⟨j, -, -, -, h2, -⟩ | ⟨l, -, -, -, h2, -⟩ | ⟨-, h1, -, h2, -⟩
        · exact Or.inr ⟨j, h2⟩
        · rw [h2]; exact hvalid i
        · exact Or.inl h2
    · cases hf : (a i).isFollower with
      | false => rw [((h i).1 hf).2.2]
      | true => rw [((h i).2 hf).2.2]
    · intro hf
      rw [((h i).1 hf).2.2]
      exact ⟨hf, rfl⟩
    · cases hf : (a i).isFollower with
      | false => rw [((h i).1 hf).2.2]; exact Or.inr (Or.inr (Or.inl ⟨i, rfl⟩))
      | true =>
        rw [((h i).2 hf).2.2]
        simp only
        split_ifs with hh
        · rcases ht' i with h1 | h1
          · exact Or.inl h1
          · exact Or.inr (Or.inr (Or.inl h1))
        · exact Or.inr (Or.inr (Or.inr rfl))
  | other b h =>
    refine ⟨fun i => ?_, fun i => ?_⟩
    · rw [(h i).2.1]; exact hvalid i
    · obtain ⟨h1, h2, h3, h4⟩ := h i
      refine ⟨h3, fun hf => ⟨h4.trans hf, h1⟩, Or.inr (Or.inr (Or.inl ⟨i, h1⟩))⟩

/-- **C68** In every history an agent that is not a follower stays independent and keeps its
target. -/
theorem C68_independent (hsort : IsArgsort argsort) {a b : Crowd n} (hvalid : ValidLeaders a)
    (h : Relation.ReflTransGen (SteerStep oob argsort cellPairs targets ws) a b) (i : Fin n)
    (hi : (a i).isFollower = false) :
    (b i).isFollower = false ∧ (b i).target = (a i).target := by
  suffices ValidLeaders b ∧ (b i).isFollower = false ∧ (b i).target = (a i).target from this.2
  induction h with
  | refl => exact ⟨hvalid, hi, rfl⟩
  | tail _ hstep ih =>
    obtain ⟨h1, h2⟩ := steerStep_inv hsort ih.1 hstep
    obtain ⟨-, h3, -⟩ := h2 i
    obtain ⟨h4, h5⟩ := h3 ih.2.1
    exact ⟨h1, h4, h5.trans ih.2.2⟩

/-- A history of one update of the followers, with a leader who is nobody's follower. -/
example := C68_independent (n := 2) (oob := id) (cellPairs := fun _ _ => [(0, 1)]) (targets := [])
  (ws := []) (a := ![{ Agent.zero with isFollower := true, indexLeader := -1, velocity := (1, 0) },
    { Agent.zero with isLeader := true, position := (1, 0), velocity := (1, 0), indexLeader := -1 }])
  orderOf_sorts (fun i => Or.inl (by fin_cases i <;> rfl)) (.single (.leader _ 20)) 1 rfl

/-- **C68** In every history every target is -1, a valid exit index, or the initial target or
familiar exit of some agent; remembered leaders stay valid. -/
theorem C68_targets (hsort : IsArgsort argsort) {a b : Crowd n} (hvalid : ValidLeaders a)
    (h : Relation.ReflTransGen (SteerStep oob argsort cellPairs targets ws) a b) :
    ValidLeaders b ∧ ∀ i, (b i).target = -1 ∨ (∃ c : ℕ, c < targets.length ∧ (b i).target = c) ∨
      (∃ m, (b i).target = (a m).target) ∨ ∃ m, (b i).target = (a m).familiarExit := by
  suffices (∀ i, (b i).familiarExit = (a i).familiarExit) ∧ ValidLeaders b ∧ ∀ i,
      (b i).target = -1 ∨ (∃ c : ℕ, c < targets.length ∧ (b i).target = c) ∨
      (∃ m, (b i).target = (a m).target) ∨ ∃ m, (b i).target = (a m).familiarExit from this.2
  induction h with
  | refl => exact ⟨fun _ => rfl, hvalid, fun i => Or.inr (Or.inr (Or.inl ⟨i, rfl⟩))⟩
  | tail _ hstep ih =>
    obtain ⟨hfam, hv, ht⟩ := ih
    obtain ⟨h1, h2⟩ := steerStep_inv hsort hv hstep
    refine ⟨fun i => (h2 i).1.trans (hfam i), h1, fun i => ?_⟩
    rcases (h2 i).2.2 with e | e | ⟨m, e⟩ | e
    · exact Or.inl e
    · exact Or.inr (Or.inl e)
    · rw [e]; exact ht m
    · rw [e, hfam i]
      exact Or.inr (Or.inr (Or.inr ⟨i, rfl⟩))

/-- Agents as they are created remember no leader. -/
example : ValidLeaders (fun _ : Fin 3 => Agent.default) := fun _ => Or.inl rfl

end

end CrowdDynamics
