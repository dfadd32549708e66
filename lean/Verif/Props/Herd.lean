import Verif.Proofs.HerdCases

/-!
# C193: a crowd that walks one way is not turned round; C43: the direction of herding followers
-/

namespace CrowdDynamics

open Spec

variable {n : ℕ}

/-- **C43** The direction that the node `LeaderFollowerWithHerding` gives to a follower is the normalised
mixture of the direction `d` that it takes over from a leader (weight 0.65, see `FollowRule`) and the
direction `h` that it takes over from those of its nearest visible neighbours whom it may follow (see
`HerdDirection`). -/
theorem C43_herding_direction (oob : ℤ → ℤ) (argsort : List ℝ → List ℕ) (hsort : IsArgsort argsort)
    (cellPairs : (Fin n → Vec) → ℝ → List (Fin n × Fin n)) (ws : List Wall) (sight : ℝ)
    (hsight : 0 < sight) (k : ℕ) (hk : 1 ≤ k) (a b : Crowd n) (hvalid : ValidLeaders a)
    (hp : EnumeratesNeighbours (fun i => (a i).position) sight
      (cellPairs (fun i => (a i).position) sight))
    (hb : leaderFollowerWithHerdingUpdate oob argsort cellPairs ws sight k a = some b) (i : Fin n)
    (hf : (a i).isFollower = true) :
    ∃ (row : List (Option (Fin n))) (old new : Fin n → ℤ) (memory : ℤ) (has : Bool) (d h : ℝ × ℝ),
      KNearest (fun i => (a i).position) ws sight k i row ∧
      FollowRule a ws 20 (0.45 * Real.pi) 0.40 old new i memory has d ∧
      HerdDirection a (0.45 * Real.pi) 0.15 i row h ∧
      (b i).targetDirection = dir ((0.65 : ℝ) • d + (0.35 : ℝ) • h) := by
  obtain ⟨N, hN, hK⟩ := C41_nearest (fun i => (a i).position) ws sight hsight k hk _ hp
  unfold leaderFollowerWithHerdingUpdate leaderFollowerWithHerdingInteraction at hb
  simp only [hN, Option.bind_eq_bind, Option.bind_some, Option.some.injEq] at hb
  have hH := C42_direction (fun i => (a i).isFollower) (fun i => (a i).position)
    (fun i => (a i).velocity) N 0.15 (0.45 * Real.pi) i
  obtain ⟨H, hHd⟩ : ∃ H, herdingInteraction (fun i => (a i).isFollower) (fun i => (a i).position)
    (fun i => (a i).velocity) N 0.15 (0.45 * Real.pi) = H := ⟨_, rfl⟩
  simp only [hHd] at hb hH
  have hbr := brute_spec oob argsort hsort a 0.40 (0.45 * Real.pi) ws 20
    (fun i => if (H i).2 then noTarget else (a i).target) hvalid
  simp only at hbr
  obtain ⟨S, hS⟩ : ∃ S, leaderFollowerInteractionBrute oob argsort (fun i => (a i).isFollower)
    (fun i => (a i).isLeader) (fun i => (a i).position) (fun i => (a i).velocity) 0.40
    (0.45 * Real.pi) (fun i => if (H i).2 then noTarget else (a i).target)
    (fun i => (a i).indexLeader) ws 20 = S := ⟨_, rfl⟩
  rw [hS] at hbr hb
  refine ⟨N i, _, S.target, S.indexLeader i, S.hasStrategy i, S.newDirection i, (H i).1, hK i,
    (hbr i).1 hf, ?_, ?_⟩
  · unfold HerdDirection
    simp only
    by_cases hF : ((N i).reduceOption.filter fun j =>
        MayFollow (a i).position (a i).velocity (a j).position (a j).velocity (0.45 * Real.pi)) = []
    · left
      refine ⟨hF, ?_⟩
      rw [hH.1 (Or.inr hF)]
    · right
      refine ⟨hF, ?_⟩
      rw [hH.2 hf hF]
  · rw [← hb]
    simp only [hf, if_true, normalizeNx2, weightedAverage]
    rw [normalize_eq_dir]
    norm_num

/-- Three agents, of whom two are followers and one is a leader. -/
example : ∃ (b : Crowd 3) (row : List (Option (Fin 3))) (old new : Fin 3 → ℤ) (memory : ℤ) (has : Bool)
    (d h : ℝ × ℝ), leaderFollowerWithHerdingUpdate (fun _ => 0) orderOf (fun _ _ => allPairs 3) [] 5 2
      column = some b ∧ KNearest (fun i => (column i).position) [] 5 2 0 row ∧
      FollowRule column [] 20 (0.45 * Real.pi) 0.40 old new 0 memory has d ∧
      HerdDirection column (0.45 * Real.pi) 0.15 0 row h ∧
      (b 0).targetDirection = dir ((0.65 : ℝ) • d + (0.35 : ℝ) • h) := by
  obtain ⟨b, hb⟩ := herdingUpdate_total (fun _ => 0) orderOf (fun _ _ => allPairs 3) [] 5 2
    (by norm_num) column
  obtain ⟨row, old, new, memory, has, d, h, h'⟩ := C43_herding_direction (fun _ => 0) orderOf orderOf_sorts
    (fun _ _ => allPairs 3) [] 5 (by norm_num) 2 (by norm_num) column b column_valid (all_cells _ _) hb 0 rfl
  exact ⟨b, row, old, new, memory, has, d, h, hb, h'⟩

/-- **C193** A follower in `LeaderFollower`: if all leaders that it sees walk in the direction `u`, up to
the angle with cosine `c ≥ 2/3`, then the direction that it gets (if it gets one) makes progress in this
direction, at the rate `0.6 * c - 0.4` at least. -/
theorem C193_leader (oob : ℤ → ℤ) (argsort : List ℝ → List ℕ) (hsort : IsArgsort argsort)
    (ws : List Wall) (sight : ℝ) (a : Crowd n) (hvalid : ValidLeaders a) (i : Fin n)
    (hf : (a i).isFollower = true) (u : ℝ × ℝ) (hu : len u = 1) (c : ℝ) (hc : 2 / 3 ≤ c)
    (hall : ∀ j, (a j).isLeader = true → Spec.dist (a i).position (a j).position ≤ sight →
      (∀ x ∈ ws, ¬ Hides (a i).position (a j).position x) → Onward u c (a j).velocity) :
    let b := leaderFollowerUpdate oob argsort ws sight a
    (b i).targetDirection = 0 ∨ 0.6 * c - 0.4 ≤ Spec.inner (b i).targetDirection u := by
  intro b
  obtain ⟨new, memory, has, d, h⟩ := C43_leader_follower oob argsort hsort ws sight a hvalid
  obtain ⟨hr, hb⟩ := (h i).2 hf
  have e : (b i).targetDirection = d i := by
    show (leaderFollowerUpdate oob argsort ws sight a i).targetDirection = d i
    rw [hb]
  obtain ⟨p, hp, hd⟩ := followRule_onward hr (s := 0.6 * c - 0.4) (fun p q h1 h2 h3 _ => by
    have := onward_mix hu (w := 0.40) (by norm_num) (by norm_num) h1 h3 h2 (by linarith)
    norm_num at this ⊢
    exact this) hall
  rw [e, hd]
  exact onward_dir_unit hp

/-- The follower at the back; a leader walks ahead of it, and counts. -/
example : (let b := leaderFollowerUpdate (fun _ => 0) orderOf [] 20 column
    (b 0).targetDirection = 0 ∨ 0.6 * 1 - 0.4 ≤ Spec.inner (b 0).targetDirection (1, 0)) ∧
    Counts column [] 20 (0.45 * Real.pi) 0 2 := by
  refine ⟨C193_leader (fun _ => 0) orderOf orderOf_sorts [] 20 column column_valid 0 rfl (1, 0)
    (by norm_num [len]) 1 (by norm_num) (fun j _ _ _ => ?_), column_counts⟩
  obtain ⟨v, hv, e⟩ := column_right j
  rw [e]
  exact onward_smul hv (by norm_num [Onward, len, Spec.inner])

/-- **C193** If they all walk in the direction `u` exactly then the direction is at most 42 degrees off. -/
theorem C193_leader_same (oob : ℤ → ℤ) (argsort : List ℝ → List ℕ) (hsort : IsArgsort argsort)
    (ws : List Wall) (sight : ℝ) (a : Crowd n) (hvalid : ValidLeaders a) (i : Fin n)
    (hf : (a i).isFollower = true) (u : ℝ × ℝ) (hu : len u = 1)
    (hall : ∀ j, (a j).isLeader = true → Spec.dist (a i).position (a j).position ≤ sight →
      (∀ x ∈ ws, ¬ Hides (a i).position (a j).position x) → ∃ v : ℝ, 0 ≤ v ∧ (a j).velocity = v • u) :
    let b := leaderFollowerUpdate oob argsort ws sight a
    (b i).targetDirection = 0 ∨ Real.sqrt 5 / 3 ≤ Spec.inner (b i).targetDirection u := by
  intro b
  obtain ⟨new, memory, has, d, h⟩ := C43_leader_follower oob argsort hsort ws sight a hvalid
  obtain ⟨hr, hb⟩ := (h i).2 hf
  have e : (b i).targetDirection = d i := by
    show (leaderFollowerUpdate oob argsort ws sight a i).targetDirection = d i
    rw [hb]
  obtain ⟨p, hp, hd⟩ := followRule_onward hr (c := 1) (s := Real.sqrt 5 / 3) (u := u)
    (fun p q h1 h2 h3 h4 => by
      have e1 : dir q = u := by
        have := dir_of_onward_one hu h3 (fun h0 => by rw [h0, len_zero_pair] at h2; norm_num at h2)
        rwa [dir_of_unit h2] at this
      rw [e1]
      refine onward_mix_same hu (by norm_num) (by positivity) (by norm_num) ?_ h1
      rw [div_pow, Real.sq_sqrt (by norm_num)]
      norm_num)
    (fun j h1 h2 h3 => by
      obtain ⟨v, hv, e1⟩ := hall j h1 h2 h3
      rw [e1]
      refine onward_smul hv ?_
      unfold Onward
      rw [hu, inner_self_one hu]
      norm_num)
  rw [e, hd]
  exact onward_dir_unit hp

/-- The same follower. -/
example : let b := leaderFollowerUpdate (fun _ => 0) orderOf [] 20 column
    (b 0).targetDirection = 0 ∨ Real.sqrt 5 / 3 ≤ Spec.inner (b 0).targetDirection (1, 0) :=
  C193_leader_same (fun _ => 0) orderOf orderOf_sorts [] 20 column column_valid 0 rfl (1, 0)
    (by norm_num [len]) (fun j _ _ _ => column_right j)

/-- **C193** A follower in `LeaderFollowerWithHerding`: if all leaders and all neighbours that it sees walk
in the direction `u`, up to the angle with cosine `c ≥ 2/3`, then the direction that it gets makes progress
in this direction, at the rate `0.6 * c - 0.4` at least. -/
theorem C193_herd (oob : ℤ → ℤ) (argsort : List ℝ → List ℕ) (hsort : IsArgsort argsort)
    (cellPairs : (Fin n → Vec) → ℝ → List (Fin n × Fin n)) (ws : List Wall) (sight : ℝ)
    (hsight : 0 < sight) (k : ℕ) (hk : 1 ≤ k) (a b : Crowd n) (hvalid : ValidLeaders a)
    (hp : EnumeratesNeighbours (fun i => (a i).position) sight
      (cellPairs (fun i => (a i).position) sight))
    (hb : leaderFollowerWithHerdingUpdate oob argsort cellPairs ws sight k a = some b) (i : Fin n)
    (hf : (a i).isFollower = true) (u : ℝ × ℝ) (hu : len u = 1) (c : ℝ) (hc : 2 / 3 ≤ c)
    (hlead : ∀ j, (a j).isLeader = true → Spec.dist (a i).position (a j).position ≤ 20 →
      (∀ x ∈ ws, ¬ Hides (a i).position (a j).position x) → Onward u c (a j).velocity)
    (hall : ∀ j, CanSee (fun i => (a i).position) ws sight i j → Onward u c (a j).velocity) :
    (b i).targetDirection = 0 ∨ 0.6 * c - 0.4 ≤ Spec.inner (b i).targetDirection u := by
  obtain ⟨row, old, new, memory, has, d, h, hrow, hr, hh, he⟩ :=
    C43_herding_direction oob argsort hsort cellPairs ws sight hsight k hk a b hvalid hp hb i hf
  obtain ⟨p, hp, hd⟩ := followRule_onward hr (s := 0.6 * c - 0.4) (fun p q h1 h2 h3 _ => by
    have := onward_mix hu (w := 0.40) (by norm_num) (by norm_num) h1 h3 h2 (by linarith)
    norm_num at this ⊢
    exact this) hlead
  obtain ⟨q, hq, hd'⟩ := herdDirection_onward hh hrow (u := u) (c := c) (s := 0.6 * c - 0.4) (by linarith)
    (fun p q h1 h2 h3 _ => by
      have := onward_mix hu (w := 0.15) (by norm_num) (by norm_num) h1 h3 h2 (by linarith)
      exact onward_mono (by linarith) this) hall
  rw [he, hd, hd']
  exact onward_dir_unit (onward_add (by linarith) (onward_smul (by norm_num) (onward_dir hp))
    (onward_smul (by norm_num) (onward_dir hq)))

/-- The same follower, with its neighbours. -/
example : ∃ b : Crowd 3, leaderFollowerWithHerdingUpdate (fun _ => 0) orderOf (fun _ _ => allPairs 3) []
      5 2 column = some b ∧
    ((b 0).targetDirection = 0 ∨ 0.6 * 1 - 0.4 ≤ Spec.inner (b 0).targetDirection (1, 0)) := by
  obtain ⟨b, hb⟩ := herdingUpdate_total (fun _ => 0) orderOf (fun _ _ => allPairs 3) [] 5 2
    (by norm_num) column
  have h : ∀ j : Fin 3, Onward (1, 0) 1 (column j).velocity := fun j => by
    obtain ⟨v, hv, e⟩ := column_right j
    rw [e]
    exact onward_smul hv (by norm_num [Onward, len, Spec.inner])
  exact ⟨b, hb, C193_herd (fun _ => 0) orderOf orderOf_sorts (fun _ _ => allPairs 3) [] 5 (by norm_num) 2
    (by norm_num) column b column_valid (all_cells _ _) hb 0 rfl (1, 0) (by norm_num [len]) 1
    (by norm_num) (fun j _ _ _ => h j) (fun j _ => h j)⟩

/-- **C193** If they all walk in the direction `u` exactly then the direction is at most 42 degrees off;
and if there are no leaders in sight, at most 11 degrees. -/
theorem C193_herd_same (oob : ℤ → ℤ) (argsort : List ℝ → List ℕ) (hsort : IsArgsort argsort)
    (cellPairs : (Fin n → Vec) → ℝ → List (Fin n × Fin n)) (ws : List Wall) (sight : ℝ)
    (hsight : 0 < sight) (k : ℕ) (hk : 1 ≤ k) (a b : Crowd n) (hvalid : ValidLeaders a)
    (hp : EnumeratesNeighbours (fun i => (a i).position) sight
      (cellPairs (fun i => (a i).position) sight))
    (hb : leaderFollowerWithHerdingUpdate oob argsort cellPairs ws sight k a = some b) (i : Fin n)
    (hf : (a i).isFollower = true) (u : ℝ × ℝ) (hu : len u = 1)
    (hall : ∀ j, CanSee (fun i => (a i).position) ws sight i j → ∃ v : ℝ, 0 ≤ v ∧ (a j).velocity = v • u) :
    ((∀ j, (a j).isLeader = true → Spec.dist (a i).position (a j).position ≤ 20 →
        (∀ x ∈ ws, ¬ Hides (a i).position (a j).position x) → ∃ v : ℝ, 0 ≤ v ∧ (a j).velocity = v • u) →
      (b i).targetDirection = 0 ∨ Real.sqrt 5 / 3 ≤ Spec.inner (b i).targetDirection u) ∧
    ((∀ j, (a j).isLeader = true → Spec.dist (a i).position (a j).position ≤ 20 →
        ∃ x ∈ ws, Hides (a i).position (a j).position x) →
      (b i).targetDirection = 0 ∨ Real.sqrt 280 / 17 ≤ Spec.inner (b i).targetDirection u) := by
  obtain ⟨row, old, new, memory, has, d, h, hrow, hr, hh, he⟩ :=
    C43_herding_direction oob argsort hsort cellPairs ws sight hsight k hk a b hvalid hp hb i hf
  have hone : ∀ x : ℝ × ℝ, (∃ v : ℝ, 0 ≤ v ∧ x = v • u) → Onward u 1 x := by
    rintro x ⟨v, hv, rfl⟩
    refine onward_smul hv ?_
    unfold Onward
    rw [hu, inner_self_one hu]
    norm_num
  have hdir : ∀ q : ℝ × ℝ, len (dir q) = 1 → Onward u 1 (dir q) → dir q = u := by
    intro q h2 h3
    have := dir_of_onward_one hu h3 (fun h0 => by rw [h0, len_zero_pair] at h2; norm_num at h2)
    rwa [dir_of_unit h2] at this
  obtain ⟨q, hq, hd'⟩ := herdDirection_onward hh hrow (u := u) (c := 1) (s := Real.sqrt 280 / 17)
    (by norm_num) (fun p q h1 h2 h3 _ => by
      rw [hdir q h2 h3]
      refine onward_mix_same hu (by norm_num) (by positivity) (by norm_num) ?_ h1
      rw [div_pow, Real.sq_sqrt (by norm_num)]
      norm_num) (fun j hj => hone _ (hall j hj))
  constructor
  · intro hlead
    obtain ⟨p, hp, hd⟩ := followRule_onward hr (c := 1) (s := Real.sqrt 5 / 3) (u := u)
      (fun p q h1 h2 h3 _ => by
        rw [hdir q h2 h3]
        refine onward_mix_same hu (by norm_num) (by positivity) (by norm_num) ?_ h1
        rw [div_pow, Real.sq_sqrt (by norm_num)]
        norm_num) (fun j h1 h2 h3 => hone _ (hlead j h1 h2 h3))
    have hle : Real.sqrt 5 / 3 ≤ Real.sqrt 280 / 17 := by
      have h1 : Real.sqrt 5 ≤ 12 / 5 := by
        rw [Real.sqrt_le_left (by norm_num)]; norm_num
      have h2 : (16 : ℝ) ≤ Real.sqrt 280 := Real.le_sqrt_of_sq_le (by norm_num)
      linarith
    rw [he, hd, hd']
    exact onward_dir_unit (onward_add (by positivity) (onward_smul (by norm_num) (onward_dir hp))
      (onward_smul (by norm_num) (onward_dir (onward_mono hle hq))))
  · intro hno
    have hd : d = 0 := by
      rcases hr with ⟨j, hn, hv, -⟩ | ⟨-, -, -, -, -, -, hd⟩ | ⟨-, -, -, -, -, hd⟩
      · obtain ⟨x, hx, hx'⟩ := hno j hn.1.1 hn.1.2.1
        exact absurd hx' (hv x hx)
      · exact hd
      · exact hd
    rw [he, hd, hd', smul_zero, zero_add]
    exact onward_dir_unit (onward_smul (by norm_num) (onward_dir hq))

/-- The same follower, with its neighbours. -/
example : ∃ b : Crowd 3, leaderFollowerWithHerdingUpdate (fun _ => 0) orderOf (fun _ _ => allPairs 3) []
      5 2 column = some b ∧
    ((b 0).targetDirection = 0 ∨ Real.sqrt 5 / 3 ≤ Spec.inner (b 0).targetDirection (1, 0)) := by
  obtain ⟨b, hb⟩ := herdingUpdate_total (fun _ => 0) orderOf (fun _ _ => allPairs 3) [] 5 2
    (by norm_num) column
  exact ⟨b, hb, (C193_herd_same (fun _ => 0) orderOf orderOf_sorts (fun _ _ => allPairs 3) [] 5
    (by norm_num) 2 (by norm_num) column b column_valid (all_cells _ _) hb 0 rfl (1, 0)
    (by norm_num [len]) (fun j _ => column_right j)).1 (fun j _ _ _ => column_right j)⟩

end CrowdDynamics
