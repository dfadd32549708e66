import Verif.Proofs.Placement
import Verif.Proofs.Acceptance

/-!
# Properties C14, C15, C17, C18, C70: placing agents
-/

namespace CrowdDynamics

open Classical Spec

/-! ## C14: circular agents do not overlap -/

/-- **C14** After any sequence of calls (some of which may have raised), two different
placed agents whose radii sum to at most the cell size do not overlap. -/
theorem C14_agents_disjoint (c : ℝ) (st0 : AgentsState)
    (hinit : AgentsState.init .circular c = some st0)
    (calls : List (Group × List Vec × Option (List Wall))) (i j : ℕ) (hij : i ≠ j)
    (hi : i < (addGroups st0 calls).index) (hj : j < (addGroups st0 calls).index)
    (a b : Agent) (ha : (addGroups st0 calls).array[i]? = some a)
    (hb : (addGroups st0 calls).array[j]? = some b) (hr : a.radius + b.radius ≤ c) :
    a.radius + b.radius ≤ Spec.dist a.position b.position := by
  obtain ⟨hs, hc, hk, -⟩ := safe_init hinit
  obtain ⟨h1, h2, -⟩ := addGroups_safe hc hs calls
  have ea : rowAt (addGroups st0 calls).array i = a := by
    unfold rowAt; rw [List.getD_eq_getElem?_getD, ha]; rfl
  have eb : rowAt (addGroups st0 calls).array j = b := by
    unfold rowAt; rw [List.getD_eq_getElem?_getD, hb]; rfl
  have hbody : ∀ x : Agent, BodyWithin .circular x x.radius := by
    intro x d hd
    simp only [discs, List.mem_singleton] at hd
    subst hd
    have : Spec.dist x.position x.position = 0 := by
      unfold Spec.dist; rw [sub_self]; exact length_eq_zero.2 rfl
    simp only [this, zero_add, le_refl]
  have hkk : (addGroups st0 calls).kind = .circular := h2.trans hk
  rcases lt_or_gt_of_ne hij with h | h
  · have := h1.pair i j h hj
    rw [hkk, ea, eb] at this
    have := this _ _ (hbody a) (hbody b) hr
    exact this (a.position, a.radius) (by simp [discs]) (b.position, b.radius) (by simp [discs])
  · have := h1.pair j i h hi
    rw [hkk, ea, eb] at this
    have := disjoint_symm (this _ _ (hbody b) (hbody a) (by linarith))
    exact this (a.position, a.radius) (by simp [discs]) (b.position, b.radius) (by simp [discs])

/-- **C14** Agents placed by a call keep clear of all obstacles given to that call, also
after any later calls. Obstacles of length zero are excluded (their distance is NaN). -/
theorem C14_clear_of_obstacles (c : ℝ) (st0 : AgentsState)
    (hinit : AgentsState.init .circular c = some st0)
    (before after : List (Group × List Vec × Option (List Wall))) (group : Group)
    (gen : List Vec) (obs : List Wall) (i : ℕ)
    (hi1 : (addGroups st0 before).index ≤ i)
    (hi2 : i < (addGroups st0 (before ++ [(group, gen, some obs)])).index)
    (a : Agent)
    (ha : (addGroups st0 (before ++ (group, gen, some obs) :: after)).array[i]? = some a)
    (w : Wall) (hw : w ∈ obs) (hne : w.p0 ≠ w.p1) (q : Vec) (hq : q ∈ segment ℝ w.p0 w.p1) :
    a.radius ≤ Spec.dist a.position q := by
  obtain ⟨hs, hc, hk, -⟩ := safe_init hinit
  obtain ⟨h1, h2, -⟩ := addGroups_safe hc hs before
  rw [addGroups_append] at hi2 ha
  set st := addGroups st0 before with hst
  simp only [addGroups] at hi2 ha
  obtain ⟨s1, s2, s3, s4⟩ := addGroup_safe hc h1 group gen (some obs)
  obtain ⟨-, -, -, t4⟩ := addGroups_safe hc s1 after
  have ea := t4 i hi2
  have ea' : rowAt (addGroups (addNonOverlappingGroup st group gen (some obs)).state after).array i
      = a := by
    unfold rowAt; rw [List.getD_eq_getElem?_getD, ha]; rfl
  rw [ea'] at ea
  by_cases hkk : st.kind = group.kind
  · obtain ⟨n, hL, -⟩ := addGroup_inv hc h1 group gen (some obs) hkk
    rw [hL.idx] at hi2
    simp only at hi2
    obtain ⟨m, hm, hr, hg⟩ := hL.row (i - st.index) (by omega)
    simp only at hr
    rw [Nat.add_sub_cancel' hi1, ← ea] at hr
    have hcl := clear_of_overlappingObstacles (hL.clear (i - st.index) (by omega) obs rfl m hg)
      w hw hne
    have hkind : (addNonOverlappingGroup st group gen (some obs)).state.kind = .circular :=
      s2.trans (h2.trans hk)
    rw [hkind, ← hr] at hcl
    exact hcl (a.position, a.radius) (by simp [discs]) q hq
  · rw [addGroup_mismatch group gen (some obs) hkk] at hi2
    simp only at hi2
    omega

/-! ### Concrete placements used as examples -/

/-- An agent object with the given body. -/
noncomputable def exampleMember (radius rT rS rTs : ℝ) : Member :=
  ⟨{ Agent.default with radius := radius, rT := rT, rS := rS, rTs := rTs }, none, none⟩

/-- An empty `Agents` object with cell size `c`. -/
noncomputable def emptyState (k : Kind) (c : ℝ) : AgentsState := ⟨k, [], 0, ⟨c, []⟩⟩

lemma init_eq (k : Kind) {c : ℝ} (hc : 0 < c) : AgentsState.init k c = some (emptyState k c) := by
  unfold AgentsState.init BlockList.init
  rw [if_pos hc]; rfl

/-- Two agents at places whose cells are not neighbours are both stored, whatever their
size: the state after the call. -/
lemma place_two (k : Kind) {c : ℝ} (hc : 0 < c) (m1 m2 : Member) (p q : Vec)
    (hfar : ¬ CellsWithin c 1 [p.1, p.2] [q.1, q.2]) :
    ∃ bl, (addNonOverlappingGroup (emptyState k c) ⟨k, 2, [m1, m2]⟩ [p, q] none).state =
      ⟨k, [((m1.setPosition p).touch k).row, ((m2.setPosition q).touch k).row], 2, bl⟩ := by
  obtain ⟨hs, -⟩ := safe_init (init_eq k hc)
  have hg : Stored c ⟨k, [Agent.zero, Agent.zero], 0, ⟨c, []⟩⟩ := (safe_grow hs 2).stored
  set r1 := ((m1.setPosition p).touch k).row with hr1
  set bl := ((⟨c, []⟩ : BlockList ℝ ℕ).nearest [p.1, p.2] 1).2.setItem [p.1, p.2] 0 with hbl
  have hst : Stored c ⟨k, [r1, Agent.zero], 1, bl⟩ :=
    stored_accept hg p r1 (row_position _ _ _) (by simp)
  rw [addGroup_eq _ _ rfl]
  have e1 : placeLoop 2 none [p, q] 0 0 ⟨k, [Agent.zero, Agent.zero], 0, ⟨c, []⟩⟩ [m1, m2] =
      placeLoop 2 none [q] 1 0 ⟨k, [r1, Agent.zero], 1, bl⟩
        [(m1.setPosition p).touch k, m2] :=
    placeLoop_accept (by norm_num) (by norm_num) rfl
      (no_overlap_far hg _ p (by intro i hi; simp at hi)) rfl
  have e2 : placeLoop 2 none [q] 1 0 ⟨k, [r1, Agent.zero], 1, bl⟩
        [(m1.setPosition p).touch k, m2] =
      placeLoop 2 none [] 2 0 ⟨k, [r1, ((m2.setPosition q).touch k).row], 2,
        (bl.nearest [q.1, q.2] 1).2.setItem [q.1, q.2] 1⟩
        [(m1.setPosition p).touch k, (m2.setPosition q).touch k] :=
    placeLoop_accept (by norm_num) (by norm_num) rfl
      (no_overlap_far hst _ q (by
        intro i hi
        have hi0 : i = 0 := by simp only at hi; omega
        subst hi0
        have : rowAt [r1, Agent.zero] 0 = r1 := rfl
        simp only [this]
        rw [hr1, row_position]
        exact hfar)) rfl
  refine ⟨(bl.nearest [q.1, q.2] 1).2.setItem [q.1, q.2] 1, ?_⟩
  have e3 := e1.trans (e2.trans (placeLoop_done (by norm_num)))
  exact congrArg PlaceResult.state e3

lemma not_within_of_floor {c a b x y : ℝ} (h : 2 ≤ |⌊a / c⌋ - ⌊x / c⌋|) :
    ¬ CellsWithin c 1 [a, b] [x, y] := by
  intro hw
  cases hw with
  | cons h1 _ => omega

/-- An agent beside a wall is placed. -/
example : ∃ st0, AgentsState.init .circular (0.6 : ℝ) = some st0 ∧
    (addGroups st0 []).index ≤ 0 ∧
    0 < (addGroups st0 ([] ++ [((⟨.circular, 1, [exampleMember 0.25 0 0 0]⟩ : Group),
      [((0, 0) : Vec)], some [(⟨(-5, 1), (5, 1)⟩ : Wall)])])).index ∧
    ((-5, 1) : Vec) ≠ (5, 1) := by
  have hc : (0 : ℝ) < 0.6 := by norm_num
  refine ⟨_, init_eq _ hc, le_rfl, ?_, by norm_num⟩
  obtain ⟨hs, -⟩ := safe_init (init_eq .circular hc)
  have hg := safe_grow hs 1
  simp only [List.nil_append, addGroups]
  rw [addGroup_eq _ _ rfl]
  have h1 := no_overlap_far hg.stored (((exampleMember 0.25 0 0 0).setPosition (0, 0)).touch .circular)
    (0, 0) (by intro i hi; simp [emptyState] at hi)
  have h2 : (((exampleMember 0.25 0 0 0).setPosition (0, 0)).touch .circular).overlappingObstacles
      .circular [(⟨(-5, 1), (5, 1)⟩ : Wall)] = false := by
    refine overlappingCircleLine_clear fun w hw d hd q hq => ?_
    obtain rfl := List.mem_singleton.1 hw
    obtain rfl := List.mem_singleton.1 hd
    obtain ⟨a, b, -, -, hab, rfl⟩ := hq
    simp only [row_position, row_radius]
    refine le_trans (by norm_num [exampleMember] : (exampleMember 0.25 0 0 0).agent.radius ≤ 1) ?_
    refine Real.le_sqrt_of_sq_le ?_
    have : a * 1 + b * 1 = 1 := by linarith
    simp only [Prod.fst_sub, Prod.snd_sub, Prod.fst_add, Prod.snd_add, Prod.smul_fst,
      Prod.smul_snd, smul_eq_mul, this]
    nlinarith [sq_nonneg (0 - (a * -5 + b * 5))]
  simp only
  rw [placeLoop_accept_clear (m := exampleMember 0.25 0 0 0) (by norm_num) (by norm_num) rfl h1 h2]
  rw [placeLoop, if_neg (by norm_num)]
  exact Nat.succ_pos _

/-- The hypotheses of `C14_agents_disjoint` are met by two agents of radius 0.25 placed at
`(0, 0)` and `(3, 0)` with the default cell size. -/
example : ∃ st0, AgentsState.init .circular (0.6 : ℝ) = some st0 ∧
    ∃ (calls : List (Group × List Vec × Option (List Wall))) (a b : Agent),
      1 < (addGroups st0 calls).index ∧ (addGroups st0 calls).array[0]? = some a ∧
      (addGroups st0 calls).array[1]? = some b ∧ a.radius + b.radius ≤ 0.6 ∧
      0 < a.radius := by
  have hc : (0 : ℝ) < 0.6 := by norm_num
  refine ⟨_, init_eq _ hc, [(⟨.circular, 2, [exampleMember 0.25 0 0 0, exampleMember 0.25 0 0 0]⟩,
    [((0, 0) : Vec), (3, 0)], none)], ?_⟩
  have hfl : ⌊(3 : ℝ) / 0.6⌋ = 5 := by
    rw [Int.floor_eq_iff]; norm_num
  obtain ⟨bl, h⟩ := place_two .circular hc (exampleMember 0.25 0 0 0) (exampleMember 0.25 0 0 0)
    (0, 0) (3, 0) (not_within_of_floor (by simp [hfl]))
  simp only [addGroups, h]
  refine ⟨_, _, by norm_num, rfl, rfl, ?_, ?_⟩
  · rw [row_radius, row_radius]; simp only [exampleMember]; norm_num
  · rw [row_radius]; simp only [exampleMember]; norm_num

/-! ## C15: the radius restriction is needed -/

/-- **C15** is false: with the default cell size 0.6, two agents of radius 1 are both
placed although they overlap. -/
theorem C15_any_radius_fails :
    ¬ ∀ (st0 : AgentsState), AgentsState.init .circular (0.6 : ℝ) = some st0 →
      ∀ (calls : List (Group × List Vec × Option (List Wall))) (i j : ℕ), i ≠ j →
      i < (addGroups st0 calls).index → j < (addGroups st0 calls).index →
      ∀ a b : Agent, (addGroups st0 calls).array[i]? = some a →
        (addGroups st0 calls).array[j]? = some b →
        a.radius + b.radius ≤ Spec.dist a.position b.position := by
  intro hall
  have hc : (0 : ℝ) < 0.6 := by norm_num
  have hfl : ⌊(1.3 : ℝ) / 0.6⌋ = 2 := by
    rw [Int.floor_eq_iff]; norm_num
  obtain ⟨bl, h⟩ := place_two .circular hc (exampleMember 1 0 0 0) (exampleMember 1 0 0 0)
    (0, 0) (1.3, 0) (not_within_of_floor (by simp [hfl]))
  have := hall _ (init_eq _ hc) [(⟨.circular, 2, [exampleMember 1 0 0 0, exampleMember 1 0 0 0]⟩,
    [((0, 0) : Vec), (1.3, 0)], none)] 0 1 (by norm_num)
  simp only [addGroups, h] at this
  have := this (by norm_num) (by norm_num) _ _ rfl rfl
  rw [row_radius, row_radius, row_position, row_position] at this
  have hd : Spec.dist ((0, 0) : Vec) (1.3, 0) = 1.3 := by
    unfold Spec.dist Spec.len
    rw [Real.sqrt_eq_iff_mul_self_eq (by positivity) (by norm_num)]
    norm_num
  rw [hd] at this
  simp only [exampleMember] at this
  norm_num at this

/-- **C15** (partial) Agents of any size do not overlap if the cell size is at least twice
the largest radius in use. Missing: `Agents` does not check the radii against its cell
size, so the unconditional claim is false. -/
theorem C15_any_radius_partial (c R : ℝ) (hR : 2 * R ≤ c) (st0 : AgentsState)
    (hinit : AgentsState.init .circular c = some st0)
    (calls : List (Group × List Vec × Option (List Wall)))
    (hrad : ∀ a ∈ (addGroups st0 calls).array, a.radius ≤ R) (i j : ℕ) (hij : i ≠ j)
    (hi : i < (addGroups st0 calls).index) (hj : j < (addGroups st0 calls).index)
    (a b : Agent) (ha : (addGroups st0 calls).array[i]? = some a)
    (hb : (addGroups st0 calls).array[j]? = some b) :
    a.radius + b.radius ≤ Spec.dist a.position b.position := by
  apply C14_agents_disjoint c st0 hinit calls i j hij hi hj a b ha hb
  linarith [hrad a (List.mem_of_getElem? ha), hrad b (List.mem_of_getElem? hb)]

example : (2 : ℝ) * 0.29 ≤ 0.6 := by norm_num

/-! ## C17: bookkeeping -/

/-- **C17** Bookkeeping of one call on an object with any history. `placed` agents were
stored; the call asked for exactly `placed + rejected` positions, at most `11 * size`. -/
theorem C17_bookkeeping (k : Kind) (c : ℝ) (st0 : AgentsState)
    (hinit : AgentsState.init k c = some st0)
    (before : List (Group × List Vec × Option (List Wall))) (group : Group) (gen : List Vec)
    (obstacles : Option (List Wall)) (st : AgentsState) (hst : st = addGroups st0 before)
    (r : PlaceResult) (hr : r = addNonOverlappingGroup st group gen obstacles)
    (hk : group.kind = k) :
    ∃ (placed rejected : ℕ) (used : List Vec),
      gen = used ++ r.rest ∧ used.length = placed + rejected ∧
      placed ≤ group.size ∧ rejected ≤ 10 * group.size ∧
      used.length ≤ 11 * group.size ∧
      r.state.index = st.index + placed ∧ r.state.index ≤ r.state.array.length ∧
      r.state.array.length = st.array.length + group.size ∧
      (∀ i, i < st.index → r.state.array[i]? = st.array[i]?) ∧
      (r.outcome = .ok → placed = group.size ∨ rejected = 10 * group.size) ∧
      (r.outcome = .generatorError → r.rest = [] ∧ placed < group.size) ∧
      (r.outcome = .indexError → placed < group.size ∧ group.members.length ≤ placed) ∧
      r.outcome ≠ .typeMismatch := by
  obtain ⟨hs, hc, hk0, -⟩ := safe_init hinit
  obtain ⟨h1, h2, -⟩ := addGroups_safe hc hs before
  rw [← hst] at h1 h2
  have hkk : st.kind = group.kind := by rw [h2, hk0, hk]
  obtain ⟨n, hL, hO⟩ := addGroup_inv hc h1 group gen obstacles hkk
  rw [← hr] at hL hO
  obtain ⟨used, hu1, hu2⟩ := hL.used
  have hlen : r.state.array.length = st.array.length + group.size := by
    rw [hL.len]; simp
  have hidx : r.state.index = st.index + n := hL.idx
  refine ⟨n, r.overlaps, used, hu1, hu2, hL.ile, hL.ole, ?_, hidx, ?_, hlen, ?_, ?_, ?_, ?_, ?_⟩
  · have := hL.ile
    have := hL.ole
    omega
  · rw [hidx, hlen]
    have := h1.stored.le
    have := hL.ile
    omega
  · intro i hi
    have hle := h1.stored.le
    have hold := hL.old i hi
    rw [rowAt_append_zero] at hold
    unfold rowAt at hold
    have l1 : i < st.array.length := by omega
    have l2 : i < r.state.array.length := by omega
    rw [List.getD_eq_getElem?_getD, List.getD_eq_getElem?_getD, List.getElem?_eq_getElem l1,
      List.getElem?_eq_getElem l2] at hold
    rw [List.getElem?_eq_getElem l1, List.getElem?_eq_getElem l2]
    simpa using hold
  · intro ho
    have := hL.ile
    have := hL.ole
    rcases hO with ⟨-, h⟩ | ⟨h, -⟩ | ⟨h, -⟩
    · omega
    · rw [h] at ho; cases ho
    · rw [h] at ho; cases ho
  · intro ho
    rcases hO with ⟨h, -⟩ | ⟨-, h, h', -⟩ | ⟨h, -⟩
    · rw [h] at ho; cases ho
    · exact ⟨h, h'⟩
    · rw [h] at ho; cases ho
  · intro ho
    rcases hO with ⟨h, -⟩ | ⟨h, -⟩ | ⟨-, h, h'⟩
    · rw [h] at ho; cases ho
    · rw [h] at ho; cases ho
    · rw [hL.mlen] at h; exact ⟨h', h⟩
  · intro ho
    rcases hO with ⟨h, -⟩ | ⟨h, -⟩ | ⟨h, -⟩ <;> rw [h] at ho <;> cases ho

/-- **C17** A group of another agent type is refused before anything is changed. -/
theorem C17_type_mismatch (st : AgentsState) (group : Group) (gen : List Vec)
    (obstacles : Option (List Wall)) (hk : st.kind ≠ group.kind) :
    (addNonOverlappingGroup st group gen obstacles).outcome = .typeMismatch ∧
      (addNonOverlappingGroup st group gen obstacles).state = st ∧
      (addNonOverlappingGroup st group gen obstacles).rest = gen := by
  rw [addGroup_mismatch group gen obstacles hk]
  exact ⟨rfl, rfl, rfl⟩

/-- **C17** The stored rows carry the attributes of the group members in order; only the
position (and the shoulders) are new. -/
theorem C17_rows (k : Kind) (c : ℝ) (st0 : AgentsState)
    (hinit : AgentsState.init k c = some st0)
    (before : List (Group × List Vec × Option (List Wall))) (group : Group) (gen : List Vec)
    (obstacles : Option (List Wall)) (st : AgentsState) (hst : st = addGroups st0 before)
    (r : PlaceResult) (hr : r = addNonOverlappingGroup st group gen obstacles)
    (hk : group.kind = k) (i : ℕ) (hi1 : st.index ≤ i) (hi2 : i < r.state.index) :
    ∃ a m, r.state.array[i]? = some a ∧ group.members[i - st.index]? = some m ∧
      a = { m.agent with
              position := a.position
              positionLs := a.positionLs
              positionRs := a.positionRs } := by
  obtain ⟨hs, hc, hk0, -⟩ := safe_init hinit
  obtain ⟨h1, h2, -⟩ := addGroups_safe hc hs before
  rw [← hst] at h1 h2
  have hkk : st.kind = group.kind := by rw [h2, hk0, hk]
  obtain ⟨n, hL, hO⟩ := addGroup_inv hc h1 group gen obstacles hkk
  rw [← hr] at hL hO
  have hidx : r.state.index = st.index + n := hL.idx
  obtain ⟨m, hm, hrow, hg⟩ := hL.row (i - st.index) (by omega)
  simp only at hrow
  rw [Nat.add_sub_cancel' hi1] at hrow
  obtain ⟨m0, hm0, hd⟩ := hL.data _ _ hg
  have hlt : i < r.state.array.length := lt_of_lt_of_le hi2 hL.safe.stored.le
  refine ⟨r.state.array[i], m0, List.getElem?_eq_getElem hlt, hm0, ?_⟩
  unfold rowAt at hrow
  rw [List.getD_eq_getElem?_getD, List.getElem?_eq_getElem hlt] at hrow
  simp only [Option.getD_some] at hrow
  rw [hrow]
  unfold Member.row
  rw [hd]

/-- **C17** The positions at which the call stored its agents are positions that the generator
delivered to it, in the order of the rows. -/
theorem C17_positions (k : Kind) (c : ℝ) (st0 : AgentsState)
    (hinit : AgentsState.init k c = some st0)
    (before : List (Group × List Vec × Option (List Wall))) (group : Group) (gen : List Vec)
    (obstacles : Option (List Wall)) (st : AgentsState) (hst : st = addGroups st0 before)
    (r : PlaceResult) (hr : r = addNonOverlappingGroup st group gen obstacles)
    (hk : group.kind = k) :
    ∃ used, gen = used ++ r.rest ∧
      ((r.state.array.take r.state.index).drop st.index |>.map Agent.position).Sublist used := by
  obtain ⟨hs, hc, hk0, -⟩ := safe_init hinit
  obtain ⟨h1, h2, -⟩ := addGroups_safe hc hs before
  rw [← hst] at h1 h2
  have hkk : st.kind = group.kind := by rw [h2, hk0, hk]
  obtain ⟨used, e, h⟩ := addGroup_positions h1 group gen obstacles hkk
  rw [← hr] at e h
  refine ⟨used, e, ?_⟩
  convert h using 1
  have hle : r.state.index ≤ r.state.array.length := by
    rw [hr]; exact (addGroup_safe hc h1 group gen obstacles).1.stored.le
  apply List.ext_getElem
  · simp [Nat.min_eq_left hle]
  · intro i hi1 hi2
    simp only [List.length_map, List.length_drop, List.length_take, Nat.min_eq_left hle] at hi1
    simp only [List.getElem_map, List.getElem_drop, List.getElem_take, List.getElem_range]
    unfold rowAt
    rw [List.getD_eq_getElem?_getD, List.getElem?_eq_getElem (by omega)]
    rfl

/-- An interrupted call: the generator delivers one position for two agents. -/
example : ∃ st0, AgentsState.init .circular (0.6 : ℝ) = some st0 ∧
    (addNonOverlappingGroup st0 ⟨.circular, 2, [exampleMember 0.25 0 0 0,
      exampleMember 0.25 0 0 0]⟩ [((0, 0) : Vec)] none).outcome = .generatorError ∧
    (addNonOverlappingGroup st0 ⟨.circular, 2, [exampleMember 0.25 0 0 0,
      exampleMember 0.25 0 0 0]⟩ [((0, 0) : Vec)] none).state.index = 1 := by
  have hc : (0 : ℝ) < 0.6 := by norm_num
  refine ⟨_, init_eq _ hc, ?_⟩
  obtain ⟨hs, -⟩ := safe_init (init_eq .circular hc)
  have hg := safe_grow hs 2
  rw [addGroup_eq _ _ rfl]
  simp only
  rw [placeLoop_accept (m := exampleMember 0.25 0 0 0) (by norm_num) (by norm_num) rfl
    (no_overlap_far hg.stored _ _ (by intro i hi; simp [emptyState] at hi)) rfl]
  rw [placeLoop, if_pos (by norm_num)]
  exact ⟨rfl, rfl⟩

example : (emptyState .circular 1).kind ≠ (⟨.threeCircle, 1, []⟩ : Group).kind := by
  simp [emptyState]

/-! ## C18: three-circle agents -/

/-- The call used as counterexample: two agents in one group, the second position is
rejected, the third accepted. -/
lemma stale_state : ∃ bl,
    (addNonOverlappingGroup (emptyState .threeCircle 0.6) ⟨.threeCircle, 2,
      [exampleMember 0.27 0.16 0.1 0.17, exampleMember 0.27 0.16 0.1 0.17]⟩
      [((0, 0) : Vec), (0.1, 0), (5, 5)] none).state =
      ⟨.threeCircle,
        [{ (exampleMember 0.27 0.16 0.1 0.17).agent with
            position := (0, 0), positionLs := (0, 0.17), positionRs := (0, -0.17) },
          { (exampleMember 0.27 0.16 0.1 0.17).agent with
            position := (5, 5), positionLs := (0.1, 0.17), positionRs := (0.1, -0.17) }], 2, bl⟩ := by
  have hc : (0 : ℝ) < 0.6 := by norm_num
  obtain ⟨hs, -⟩ := safe_init (init_eq .threeCircle hc)
  have hg := safe_grow hs 2
  set m := exampleMember 0.27 0.16 0.1 0.17 with hm
  have hrow : ∀ p : Vec, ((m.setPosition p).touch .threeCircle).row =
      { m.agent with position := p, positionLs := (p.1, p.2 + 0.17),
                     positionRs := (p.1, p.2 - 0.17) } := by
    intro p
    unfold Member.touch Member.row Member.setPosition shoulderOffset
    simp [hm, exampleMember, rotate270, unitVector, Agent.default, Agent.zero]
    constructor <;> ext <;> simp [sub_eq_add_neg]
  have hg' : Stored 0.6 ⟨.threeCircle, [Agent.zero, Agent.zero], 0, ⟨0.6, []⟩⟩ := hg.stored
  set m1 := (m.setPosition (0, 0)).touch .threeCircle with hm1
  set m2 := (m.setPosition (0.1, 0)).touch .threeCircle with hm2
  set bl := ((⟨0.6, []⟩ : BlockList ℝ ℕ).nearest [0, 0] 1).2.setItem [0, 0] 0 with hbl
  have hst : Stored 0.6 ⟨.threeCircle, [m1.row, Agent.zero], 1, bl⟩ :=
    stored_accept hg' (0, 0) m1.row (row_position _ _ _) (by simp)
  have hst2 : Stored 0.6 ⟨.threeCircle, [m1.row, Agent.zero], 1, (bl.nearest [0.1, 0] 1).2⟩ :=
    stored_reject hst ((0.1, 0) : Vec)
  have e1 : placeLoop 2 none [((0, 0) : Vec), (0.1, 0), (5, 5)] 0 0
      ⟨.threeCircle, [Agent.zero, Agent.zero], 0, ⟨0.6, []⟩⟩ [m, m] =
      placeLoop 2 none [((0.1, 0) : Vec), (5, 5)] 1 0
        ⟨.threeCircle, [m1.row, Agent.zero], 1, bl⟩ [m1, m] :=
    placeLoop_accept (by norm_num) (by norm_num) rfl
      (no_overlap_far hg' _ _ (by intro i hi; simp at hi)) rfl
  have e2 : placeLoop 2 none [((0.1, 0) : Vec), (5, 5)] 1 0
        ⟨.threeCircle, [m1.row, Agent.zero], 1, bl⟩ [m1, m] =
      placeLoop 2 none [((5, 5) : Vec)] 1 1
        ⟨.threeCircle, [m1.row, Agent.zero], 1, (bl.nearest [0.1, 0] 1).2⟩ [m1, m2] := by
    refine placeLoop_reject (m := m) (by norm_num) (by norm_num) rfl ?_
    by_contra hcon
    rw [Bool.not_eq_true, overlapping_eq_false] at hcon
    have hmem := mem_nearest_of_close hc hst ((0.1, 0) : Vec) 0 (by simp) (by
      have : rowAt [m1.row, Agent.zero] 0 = m1.row := rfl
      simp only [this]
      rw [hm1, row_position]
      unfold Spec.dist Spec.len
      rw [Real.sqrt_le_iff]; norm_num)
    have := hcon _ (List.mem_map.2 ⟨0, hmem, rfl⟩)
    have h2 := this ((0, 0), 0.16) (by
      have : [m1.row, Agent.zero].getD 0 Agent.zero = m1.row := rfl
      simp only [this]
      rw [hm1, hrow]
      simp [discs, hm, exampleMember]) ((0.1, 0), 0.16) (by
      simp only
      rw [hrow]
      simp [discs, hm, exampleMember])
    have h3 : Spec.dist ((0, 0) : Vec) (0.1, 0) = 0.1 := by
      unfold Spec.dist Spec.len
      rw [Real.sqrt_eq_iff_mul_self_eq (by positivity) (by norm_num)]
      norm_num
    simp only [h3] at h2
    norm_num at h2
  have hfl : ⌊(5 : ℝ) / 0.6⌋ = 8 := by
    rw [Int.floor_eq_iff]; norm_num
  set m3 := (m2.setPosition (5, 5)).touch .threeCircle with hm3
  have e3 : placeLoop 2 none [((5, 5) : Vec)] 1 1
        ⟨.threeCircle, [m1.row, Agent.zero], 1, (bl.nearest [0.1, 0] 1).2⟩ [m1, m2] =
      placeLoop 2 none [] 2 1 ⟨.threeCircle, [m1.row, m3.row], 2,
        ((bl.nearest [0.1, 0] 1).2.nearest [5, 5] 1).2.setItem [5, 5] 1⟩ [m1, m3] :=
    placeLoop_accept (by norm_num) (by norm_num) rfl (no_overlap_far hst2 _ _ (by
      intro i hi
      have hi0 : i = 0 := by simp only at hi; omega
      subst hi0
      have : rowAt [m1.row, Agent.zero] 0 = m1.row := rfl
      simp only [this]
      rw [hm1, row_position]
      exact not_within_of_floor (by simp [hfl]))) rfl
  have e4 := congrArg PlaceResult.state (e1.trans (e2.trans (e3.trans
    (placeLoop_done (by norm_num)))))
  refine ⟨((bl.nearest [0.1, 0] 1).2.nearest [5, 5] 1).2.setItem [5, 5] 1, ?_⟩
  rw [addGroup_eq _ _ rfl]
  refine Eq.trans e4 ?_
  simp only
  have r3 : m3.row = { m.agent with
            position := (5, 5), positionLs := (0.1, 0.17), positionRs := (0.1, -0.17) } := by
    rw [hm3, hm2]
    unfold Member.touch Member.row Member.setPosition shoulderOffset
    simp [hm, exampleMember, rotate270, unitVector, Agent.default, Agent.zero]
  have r1 := hrow (0, 0)
  simp only [zero_add, zero_sub] at r1
  rw [hm1, r1, r3]

/-- **C18** is false: when a candidate position is rejected the shoulders of the next
candidate stay where the first candidate was. -/
theorem C18_shoulders_attached_fails :
    ¬ ∀ (st0 : AgentsState), AgentsState.init .threeCircle (0.6 : ℝ) = some st0 →
      ∀ (group : Group) (gen : List Vec),
      (∀ m ∈ group.members, m.ls = none ∧ m.rs = none) →
      ∀ i, i < (addNonOverlappingGroup st0 group gen none).state.index →
      ∀ a, (addNonOverlappingGroup st0 group gen none).state.array[i]? = some a →
        ShouldersAttached a := by
  intro hall
  have hc : (0 : ℝ) < 0.6 := by norm_num
  obtain ⟨bl, h⟩ := stale_state
  have := hall _ (init_eq _ hc) ⟨.threeCircle, 2,
      [exampleMember 0.27 0.16 0.1 0.17, exampleMember 0.27 0.16 0.1 0.17]⟩
      [((0, 0) : Vec), (0.1, 0), (5, 5)] (by simp [exampleMember]) 1
  rw [h] at this
  have := (this (by norm_num) _ rfl).1
  have h1 := congrArg Prod.fst this
  simp [exampleMember, Agent.default, Agent.zero] at h1
  norm_num at h1

/-- **C18** is false: the stored bodies can overlap although both agents are small
compared to the cell size. -/
theorem C18_no_overlap_fails :
    ¬ ∀ (st0 : AgentsState), AgentsState.init .threeCircle (0.6 : ℝ) = some st0 →
      ∀ (group : Group) (gen : List Vec),
      (∀ m ∈ group.members, m.ls = none ∧ m.rs = none ∧ m.agent.rT ≤ 0.3 ∧
        m.agent.rTs + m.agent.rS ≤ 0.3) →
      ∀ i j, i ≠ j → i < (addNonOverlappingGroup st0 group gen none).state.index →
      j < (addNonOverlappingGroup st0 group gen none).state.index →
      ∀ a b, (addNonOverlappingGroup st0 group gen none).state.array[i]? = some a →
        (addNonOverlappingGroup st0 group gen none).state.array[j]? = some b →
        DisjointBodies .threeCircle a b := by
  intro hall
  have hc : (0 : ℝ) < 0.6 := by norm_num
  obtain ⟨bl, h⟩ := stale_state
  have := hall _ (init_eq _ hc) ⟨.threeCircle, 2,
      [exampleMember 0.27 0.16 0.1 0.17, exampleMember 0.27 0.16 0.1 0.17]⟩
      [((0, 0) : Vec), (0.1, 0), (5, 5)] (by simp [exampleMember]; norm_num) 0 1 (by norm_num)
  rw [h] at this
  have := this (by norm_num) (by norm_num) _ _ rfl rfl
  have h2 := this ((0, 0.17), 0.1) (by simp [discs, exampleMember]) ((0.1, 0.17), 0.1)
    (by simp [discs, exampleMember])
  have h3 : Spec.dist ((0, 0.17) : Vec) (0.1, 0.17) = 0.1 := by
    unfold Spec.dist Spec.len
    rw [Real.sqrt_eq_iff_mul_self_eq (by positivity) (by norm_num)]
    norm_num
  simp only [h3] at h2
  norm_num at h2

/-- **C18** (partial) A call on fresh agent objects in which no position is rejected
leaves all shoulders attached. Missing: calls with rejected positions. -/
theorem C18_shoulders_attached_partial (c : ℝ) (st0 : AgentsState)
    (hinit : AgentsState.init .threeCircle c = some st0)
    (before : List (Group × List Vec × Option (List Wall))) (st : AgentsState)
    (hst : st = addGroups st0 before) (group : Group) (gen : List Vec)
    (obstacles : Option (List Wall))
    (hfresh : ∀ m ∈ group.members, m.ls = none ∧ m.rs = none)
    (hno : (addNonOverlappingGroup st group gen obstacles).overlaps = 0) (i : ℕ)
    (hi1 : st.index ≤ i) (hi2 : i < (addNonOverlappingGroup st group gen obstacles).state.index)
    (a : Agent) (ha : (addNonOverlappingGroup st group gen obstacles).state.array[i]? = some a) :
    ShouldersAttached a := by
  obtain ⟨hs, hc, hk0, -⟩ := safe_init hinit
  obtain ⟨h1, h2, -⟩ := addGroups_safe hc hs before
  rw [← hst] at h1 h2
  have ea : rowAt (addNonOverlappingGroup st group gen obstacles).state.array i = a := by
    unfold rowAt; rw [List.getD_eq_getElem?_getD, ha]; rfl
  rw [← ea]
  by_cases hkk : st.kind = group.kind
  · rw [addGroup_eq gen obstacles hkk] at hno hi2 ⊢
    have hlen : st.index + group.size ≤
        (st.array ++ List.replicate group.size Agent.zero).length := by
      have := h1.stored.le
      simp only [List.length_append, List.length_replicate]; omega
    exact placeLoop_attached gen
      ⟨st.kind, st.array ++ List.replicate group.size Agent.zero, st.index, st.neighbours⟩
      group.members (h2.trans hk0) hfresh hlen hno i hi1 hi2
  · rw [addGroup_mismatch group gen obstacles hkk] at hi2
    simp only at hi2; omega

/-- **C18** (partial) After any history, two placed agents whose stored bodies lie within
`ea` and `eb` of their positions do not overlap if `ea + eb` is at most the cell size.
Missing: agents whose shoulders were left behind at a rejected position. -/
theorem C18_no_overlap_partial (c : ℝ) (st0 : AgentsState)
    (hinit : AgentsState.init .threeCircle c = some st0)
    (calls : List (Group × List Vec × Option (List Wall))) (i j : ℕ) (hij : i ≠ j)
    (hi : i < (addGroups st0 calls).index) (hj : j < (addGroups st0 calls).index)
    (a b : Agent) (ha : (addGroups st0 calls).array[i]? = some a)
    (hb : (addGroups st0 calls).array[j]? = some b) (ea eb : ℝ)
    (hea : BodyWithin .threeCircle a ea) (heb : BodyWithin .threeCircle b eb)
    (hc' : ea + eb ≤ c) : DisjointBodies .threeCircle a b := by
  obtain ⟨hs, hc, hk, -⟩ := safe_init hinit
  obtain ⟨h1, h2, -⟩ := addGroups_safe hc hs calls
  have e1 : rowAt (addGroups st0 calls).array i = a := by
    unfold rowAt; rw [List.getD_eq_getElem?_getD, ha]; rfl
  have e2 : rowAt (addGroups st0 calls).array j = b := by
    unfold rowAt; rw [List.getD_eq_getElem?_getD, hb]; rfl
  have hkk : (addGroups st0 calls).kind = .threeCircle := h2.trans hk
  rcases lt_or_gt_of_ne hij with h | h
  · have := h1.pair i j h hj
    rw [hkk, e1, e2] at this
    exact this _ _ hea heb hc'
  · have := h1.pair j i h hi
    rw [hkk, e1, e2] at this
    exact disjoint_symm (this _ _ heb hea (by linarith))

/-- **C18** (partial) A body with attached shoulders lies within the radius `R` of its
position if torso and shoulder extent are at most `R`, as for all shipped body types. -/
theorem C18_body_within_partial (a : Agent) (R : ℝ) (h : ShouldersAttached a) (h0 : 0 ≤ a.rTs)
    (hT : a.rT ≤ R) (hS : a.rTs + a.rS ≤ R) : BodyWithin .threeCircle a R := by
  have hl : ∀ s : ℝ, s ^ 2 = 1 → Spec.dist a.position
      (a.position.1 - s * (a.rTs * Real.sin a.orientation),
        a.position.2 + s * (a.rTs * Real.cos a.orientation)) = a.rTs := by
    intro s hs
    unfold Spec.dist Spec.len
    rw [Real.sqrt_eq_iff_mul_self_eq (by positivity) h0]
    simp only [Prod.fst_sub, Prod.snd_sub]
    have := Real.sin_sq_add_cos_sq a.orientation
    linear_combination a.rTs ^ 2 * s ^ 2 * this + a.rTs ^ 2 * hs
  intro d hd
  simp only [discs, List.mem_cons, List.not_mem_nil, or_false] at hd
  rcases hd with rfl | rfl | rfl
  · have : Spec.dist a.position a.position = 0 := by
      unfold Spec.dist; rw [sub_self]; exact length_eq_zero.2 rfl
    simp only [this, zero_add]; exact hT
  · simp only
    have := hl 1 (by norm_num)
    rw [one_mul, one_mul, ← h.1] at this
    rw [this]; exact hS
  · simp only
    have := hl (-1) (by norm_num)
    rw [neg_one_mul, neg_one_mul, sub_neg_eq_add, ← sub_eq_add_neg, ← h.2] at this
    rw [this]; exact hS

/-- A call without rejections: two male-sized agents at `(0, 0)` and `(3, 0)`. -/
example : ∃ st0, AgentsState.init .threeCircle (0.6 : ℝ) = some st0 ∧
    ∃ (group : Group) (gen : List Vec), (∀ m ∈ group.members, m.ls = none ∧ m.rs = none) ∧
    1 < (addNonOverlappingGroup st0 group gen none).state.index := by
  have hc : (0 : ℝ) < 0.6 := by norm_num
  have hfl : ⌊(3 : ℝ) / 0.6⌋ = 5 := by
    rw [Int.floor_eq_iff]; norm_num
  obtain ⟨bl, h⟩ := place_two .threeCircle hc (exampleMember 0.27 0.16 0.1 0.17)
    (exampleMember 0.27 0.16 0.1 0.17) (0, 0) (3, 0) (not_within_of_floor (by simp [hfl]))
  refine ⟨_, init_eq _ hc, ⟨.threeCircle, 2, [exampleMember 0.27 0.16 0.1 0.17,
    exampleMember 0.27 0.16 0.1 0.17]⟩, [((0, 0) : Vec), (3, 0)], by simp [exampleMember], ?_⟩
  rw [h]; norm_num

/-- Two attached bodies of the size of a male body. -/
example : BodyWithin .threeCircle { Agent.default with
      rT := 0.16, rS := 0.1, rTs := 0.17, position := (3, 0), positionLs := (3, 0.17),
      positionRs := (3, -0.17) } 0.27 ∧ (0.27 : ℝ) + 0.27 ≤ 0.6 := by
  refine ⟨C18_body_within_partial _ _ ?_ ?_ ?_ ?_, by norm_num⟩
  · constructor <;> simp [Agent.default, Agent.zero]
  all_goals norm_num

/-! ## C70: rows that were never placed -/

/-- **C70** is false: if a group does not fit, zero-filled rows (agents of radius 0 at the
origin) stay in the array. -/
theorem C70_only_placed_rows_fails :
    ¬ ∀ (st0 : AgentsState), AgentsState.init .circular (0.6 : ℝ) = some st0 →
      ∀ (group : Group) (gen : List Vec),
      (addNonOverlappingGroup st0 group gen none).outcome = .ok →
      (addNonOverlappingGroup st0 group gen none).state.array.length =
        (addNonOverlappingGroup st0 group gen none).state.index := by
  intro hall
  have hc : (0 : ℝ) < 0.6 := by norm_num
  set m := exampleMember 0.25 0 0 0 with hm
  obtain ⟨hs, -⟩ := safe_init (init_eq .circular hc)
  have hg := safe_grow hs 2
  -- the same position for both agents, twenty times
  have hloop : ∀ (n o : ℕ) (st : AgentsState) (ms : List Member), n + o = 20 → Stored 0.6 st → st.kind = .circular → st.index = 1 →
      (rowAt st.array 0).position = (0, 0) → (rowAt st.array 0).radius = 0.25 →
      st.array.length = 2 →
      (∃ m' : Member, ms[1]? = some m' ∧ m'.agent.radius = 0.25) →
      (placeLoop 2 none (List.replicate n ((0, 0) : Vec)) 1 o st ms).outcome = .ok ∧
      (placeLoop 2 none (List.replicate n ((0, 0) : Vec)) 1 o st ms).state.index = 1 ∧
      (placeLoop 2 none (List.replicate n ((0, 0) : Vec)) 1 o st ms).state.array.length = 2 := by
    intro n
    induction n with
    | zero =>
      intro o st ms ho hS hk h1 h2 h3 h4 h5
      rw [placeLoop_done (by omega)]
      exact ⟨rfl, h1, h4⟩
    | succ n ih =>
      intro o st ms ho hS hk h1 h2 h3 h4 h5
      obtain ⟨m', hm', hr'⟩ := h5
      rw [List.replicate_succ, placeLoop_reject (m := m') (by norm_num) (by omega) hm' (by
        by_contra hcon
        rw [Bool.not_eq_true, overlapping_eq_false] at hcon
        have hd0 : Spec.dist ((0, 0) : Vec) (0, 0) = 0 := by
          unfold Spec.dist; rw [sub_self]; exact length_eq_zero.2 rfl
        have hmem := mem_nearest_of_close hc hS ((0, 0) : Vec) 0 (by omega) (by
          rw [h2, hd0]; norm_num)
        have := hcon _ (List.mem_map.2 ⟨0, hmem, rfl⟩)
        rw [hk] at this
        have h6 := this ((rowAt st.array 0).position, (rowAt st.array 0).radius)
          (by simp [discs, rowAt])
          (((m'.setPosition (0, 0)).touch .circular).row.position,
            ((m'.setPosition (0, 0)).touch .circular).row.radius) (by simp [discs])
        rw [row_position, row_radius, h2, h3, hr', hd0] at h6
        norm_num at h6)]
      refine ih (o + 1) _ _ (by omega) (stored_reject hS _) hk h1 h2 h3 h4 ?_
      refine ⟨_, List.getElem?_set_self (by
        by_contra hcon
        rw [List.getElem?_eq_none (by omega)] at hm'
        cases hm'), ?_⟩
      rw [touch_agent]
      exact hr'
  have hrow0 : rowAt (((emptyState .circular 0.6).array ++ List.replicate 2 Agent.zero).set
      (emptyState .circular 0.6).index ((m.setPosition (0, 0)).touch .circular).row) 0 =
      ((m.setPosition (0, 0)).touch .circular).row := rowAt_set_self (by simp [emptyState]) _
  have key := hloop 20 0 ⟨.circular, (([] : List Agent) ++ List.replicate 2 Agent.zero).set 0
      ((m.setPosition (0, 0)).touch .circular).row, 1,
      (((emptyState .circular 0.6).neighbours.nearest [0, 0] 1).2.setItem [0, 0] 0)⟩
      ([m, m].set 0 ((m.setPosition (0, 0)).touch .circular)) rfl
      (stored_accept hg.stored (0, 0) ((m.setPosition (0, 0)).touch .circular).row
        (row_position _ _ _) (by simp [emptyState])) rfl rfl
      (by
        have : rowAt ((([] : List Agent) ++ List.replicate 2 Agent.zero).set 0
          ((m.setPosition (0, 0)).touch .circular).row) 0 = _ := hrow0
        simp only [this]; rw [row_position])
      (by
        have : rowAt ((([] : List Agent) ++ List.replicate 2 Agent.zero).set 0
          ((m.setPosition (0, 0)).touch .circular).row) 0 = _ := hrow0
        simp only [this]; rw [row_radius]; simp [hm, exampleMember])
      (by simp) ⟨m, rfl, by simp [hm, exampleMember]⟩
  have hres : addNonOverlappingGroup (emptyState .circular 0.6) ⟨.circular, 2, [m, m]⟩
      ((0, 0) :: List.replicate 20 ((0, 0) : Vec)) none = placeLoop 2 none
        (List.replicate 20 ((0, 0) : Vec)) 1 0 ⟨.circular,
        (([] : List Agent) ++ List.replicate 2 Agent.zero).set 0
      ((m.setPosition (0, 0)).touch .circular).row, 1,
      (((emptyState .circular 0.6).neighbours.nearest [0, 0] 1).2.setItem [0, 0] 0)⟩
      ([m, m].set 0 ((m.setPosition (0, 0)).touch .circular)) := by
    rw [addGroup_eq _ _ rfl]
    simp only
    rw [placeLoop_accept (m := m) (by norm_num) (by norm_num) rfl
      (no_overlap_far hg.stored _ _ (by intro i hi; simp [emptyState] at hi)) rfl]
    rfl
  have := hall _ (init_eq _ hc) ⟨.circular, 2, [m, m]⟩
    ((0, 0) :: List.replicate 20 ((0, 0) : Vec))
  rw [hres] at this
  have := this key.1
  rw [key.2.1, key.2.2] at this
  norm_num at this

/-- **C70** (partial) All rows from the insertion index on are zero-filled; they exist only
if some group was not placed completely. Missing: the code never removes them. -/
theorem C70_only_placed_rows_partial (k : Kind) (c : ℝ) (st0 : AgentsState)
    (hinit : AgentsState.init k c = some st0)
    (calls : List (Group × List Vec × Option (List Wall))) :
    (∀ i a, (addGroups st0 calls).index ≤ i → (addGroups st0 calls).array[i]? = some a →
      a = Agent.zero) ∧
    ((∀ before call after, calls = before ++ call :: after → call.1.kind = k ∧
        (addNonOverlappingGroup (addGroups st0 before) call.1 call.2.1 call.2.2).state.index =
          (addGroups st0 before).index + call.1.size) →
      (addGroups st0 calls).index = (addGroups st0 calls).array.length) := by
  obtain ⟨hs, hc, hk, h0, h0'⟩ := safe_init hinit
  obtain ⟨h1, h2, -⟩ := addGroups_safe hc hs calls
  constructor
  · intro i a hi ha
    have e1 : rowAt (addGroups st0 calls).array i = a := by
      unfold rowAt; rw [List.getD_eq_getElem?_getD, ha]; rfl
    rw [← e1]
    exact h1.stored.zero i hi
  · clear h1 h2
    induction calls using List.reverseRecOn with
    | nil => intro _; simp [addGroups, h0, h0']
    | append_singleton calls call ih =>
      intro hall
      obtain ⟨g, gen, obs⟩ := call
      have ih' := ih (by
        intro before call' after hcall
        exact hall before call' (after ++ [(g, gen, obs)]) (by rw [hcall]; simp))
      obtain ⟨hkind, hlast⟩ := hall calls (g, gen, obs) [] rfl
      simp only at hkind hlast
      obtain ⟨h1, h2, -⟩ := addGroups_safe hc hs calls
      rw [addGroups_append]
      simp only [addGroups]
      obtain ⟨n, hL, -⟩ := addGroup_inv hc h1 g gen obs (by rw [h2, hk, hkind])
      rw [hlast, ih', hL.len]
      simp

/-- A call that places its whole group. -/
example : ∃ st0, AgentsState.init .circular (0.6 : ℝ) = some st0 ∧
    (addNonOverlappingGroup st0 ⟨.circular, 2, [exampleMember 0.25 0 0 0,
      exampleMember 0.25 0 0 0]⟩ [((0, 0) : Vec), (3, 0)] none).state.index = st0.index + 2 := by
  have hc : (0 : ℝ) < 0.6 := by norm_num
  have hfl : ⌊(3 : ℝ) / 0.6⌋ = 5 := by
    rw [Int.floor_eq_iff]; norm_num
  obtain ⟨bl, h⟩ := place_two .circular hc (exampleMember 0.25 0 0 0)
    (exampleMember 0.25 0 0 0) (0, 0) (3, 0) (not_within_of_floor (by simp [hfl]))
  refine ⟨_, init_eq _ hc, ?_⟩
  rw [h]; rfl

/-- **C70** The rows that no agent was placed in are blank: not active, without mass and size, at the
origin, and with the target number 0. -/
theorem C70_unused_rows (k : Kind) (c : ℝ) (st0 : AgentsState)
    (hinit : AgentsState.init k c = some st0)
    (calls : List (Group × List Vec × Option (List Wall))) (i : ℕ)
    (hi : (addGroups st0 calls).index ≤ i) (a : Agent)
    (ha : (addGroups st0 calls).array[i]? = some a) : Blank a := by
  obtain ⟨hs, hc, -⟩ := safe_init hinit
  have hz := (addGroups_safe hc hs calls).1.stored.zero i hi
  unfold rowAt at hz
  rw [List.getD_eq_getElem?_getD, ha] at hz
  have : a = Agent.zero := hz
  subst this
  simp [Blank, Agent.zero]

/-- A group of one for which no position is free. -/
example : ∃ st0, AgentsState.init .circular (0.6 : ℝ) = some st0 ∧
    (addGroups st0 [(⟨.circular, 1, [exampleMember 0.25 0 0 0]⟩, [], none)]).index ≤ 0 ∧
    ∃ a, (addGroups st0 [(⟨.circular, 1, [exampleMember 0.25 0 0 0]⟩, [], none)]).array[0]? =
      some a := by
  have hc : (0 : ℝ) < 0.6 := by norm_num
  refine ⟨_, init_eq _ hc, ?_⟩
  simp [addGroups, addNonOverlappingGroup, placeLoop, emptyState]

end CrowdDynamics
