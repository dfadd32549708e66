import Verif.Proofs.OutdoorStart

/-!
# Property C146: how the simulations `Outdoor` start
-/

namespace CrowdDynamics

open Spec

/-- **C146** The simulation without leaders: a row for everybody, those that were placed are nobody's
leader or follower, walk in the direction that was drawn for them, stand on the field and, if they are
circular, do not overlap; the remaining rows are not active. -/
theorem C146_outdoor (kind : Kind) (w h : ℝ) (hw : 0 ≤ w) (hh : 0 ≤ h) (draws : List OutdoorDraw)
    (hz : ∀ d ∈ draws, InTruncRange d.z) (gen : List Vec)
    (hgen : ∀ p ∈ gen, p ∈ (outdoorField w h).samples 0) :
    ∃ st, outdoorAgents kind "adult" draws gen = some st ∧ st.array.length = draws.length ∧
      st.index ≤ draws.length ∧
      (∀ i, i < st.index → ∃ a d, st.array[i]? = some a ∧ draws[i]? = some d ∧
        SetsOut kind false false d.uniform a ∧ OnField w h a.position) ∧
      (∀ i a, st.index ≤ i → st.array[i]? = some a → a.active = false) ∧
      (kind = .circular → ∀ i j a b, i ≠ j → i < st.index → j < st.index → st.array[i]? = some a →
        st.array[j]? = some b → a.radius + b.radius ≤ Spec.dist a.position b.position) := by
  have hc : (0 : ℝ) < defaultPlacementCell := by norm_num [defaultPlacementCell]
  obtain ⟨st0, hinit⟩ : ∃ st, AgentsState.init kind defaultPlacementCell = some st := by
    simp [AgentsState.init, BlockList.init, hc]
  obtain ⟨hs, -, hk, hidx, harr⟩ := safe_init hinit
  obtain ⟨r, hr⟩ : ∃ r, r = addNonOverlappingGroup st0 ⟨kind, draws.length, draws.map fun d =>
      outdoorMember kind "adult" false false d.z d.uniform⟩ gen none := ⟨_, rfl⟩
  have key := outdoor_group kind false false OutdoorDraw.uniform draws hz gen st0 hinit [] st0 rfl r hr
  obtain ⟨placed, -, -, -, -, h1, -, -, h2, h3, h4, -⟩ :=
    C17_bookkeeping kind _ st0 hinit [] _ gen none st0 rfl r hr rfl
  rw [hidx] at key h2
  simp only [harr, List.length_nil, Nat.zero_add, Nat.sub_zero, Nat.zero_le, forall_const] at key h1 h2 h4
  have hsafe := addGroup_safe hc hs ⟨kind, draws.length, draws.map fun d =>
      outdoorMember kind "adult" false false d.z d.uniform⟩ gen none
  rw [← hr] at hsafe
  refine ⟨r.state, by rw [outdoorAgents, hinit, hr]; rfl, h4, by omega, ?_, ?_, ?_⟩
  · intro i hi
    obtain ⟨a, d, k1, k2, k3, k4, -⟩ := key i hi
    exact ⟨a, d, k1, k2, k3, outdoor_samples hw hh (hgen _ k4)⟩
  · intro i a hi ha
    have := hsafe.1.stored.zero i hi
    unfold rowAt at this
    rw [List.getD_eq_getElem?_getD, ha] at this
    simp only [Option.getD_some] at this
    rw [this]
    rfl
  · rintro rfl i j a b hij hi hj ha hb
    have e : r.state = addGroups st0 [(⟨.circular, draws.length, draws.map fun d =>
      outdoorMember .circular "adult" false false d.z d.uniform⟩, gen, none)] := by rw [hr]; rfl
    rw [e] at hi hj ha hb
    refine C16_placed_disjoint st0 hinit _ (fun i a hi ha => ?_) i j hij hi hj a b ha hb
    rw [← e] at hi ha
    obtain ⟨a', d, k1, k2, -, -, k5⟩ := key i hi
    rw [k1] at ha
    cases ha
    exact ⟨d.z, "adult", hz d (List.mem_of_getElem? k2), by decide, k5⟩

/-- **C146** The simulation with at most one leader: a row for everybody; the leader always has the
first row and stands at the fixed position, looking along the first axis; the others that were placed
are followers, walk in the direction that was drawn for them and stand on the field; circular agents,
the leader included, do not overlap. -/
theorem C146_led (kind : Kind) (w h hr vr : ℝ) (hw : 0 ≤ w) (hh : 0 ≤ h)
    (leaders herding : List OutdoorDraw) (hone : leaders.length ≤ 1)
    (hz1 : ∀ d ∈ leaders, InTruncRange d.z) (hz2 : ∀ d ∈ herding, InTruncRange d.z) (gen : List Vec)
    (hgen : ∀ p ∈ gen, p ∈ (outdoorField w h).samples 0) :
    ∃ st, outdoorLedAgents kind "adult" w h hr vr leaders herding gen = some st ∧
      st.array.length = leaders.length + herding.length ∧
      leaders.length ≤ st.index ∧ st.index ≤ leaders.length + herding.length ∧
      (∀ i, i < leaders.length → ∃ a, st.array[i]? = some a ∧ SetsOut kind true false 0 a ∧
        a.position = (hr * w, vr * h)) ∧
      (∀ i, leaders.length ≤ i → i < st.index → ∃ a d, st.array[i]? = some a ∧
        herding[i - leaders.length]? = some d ∧ SetsOut kind false true d.uniform a ∧
        OnField w h a.position) ∧
      (∀ i a, st.index ≤ i → st.array[i]? = some a → a.active = false) ∧
      (kind = .circular → ∀ i j a b, i ≠ j → i < st.index → j < st.index → st.array[i]? = some a →
        st.array[j]? = some b → a.radius + b.radius ≤ Spec.dist a.position b.position) := by
  have hc : (0 : ℝ) < defaultPlacementCell := by norm_num [defaultPlacementCell]
  obtain ⟨st0, hinit⟩ : ∃ st, AgentsState.init kind defaultPlacementCell = some st := by
    simp [AgentsState.init, BlockList.init, hc]
  obtain ⟨hs, -, hk, hidx, harr⟩ := safe_init hinit
  obtain ⟨g1, hg1⟩ : ∃ g, g = List.replicate (11 * leaders.length) (hr * w, vr * h) := ⟨_, rfl⟩
  obtain ⟨r1, hr1⟩ : ∃ r, r = addNonOverlappingGroup st0 (outdoorGroup kind "adult" true leaders) g1
    none := ⟨_, rfl⟩
  have key1 := outdoor_group kind true false (outdoorOrientation true) leaders hz1 g1 st0 hinit [] st0
    rfl r1 hr1
  obtain ⟨placed1, -, -, -, -, a1, -, -, a2, a3, a4, -⟩ :=
    C17_bookkeeping kind _ st0 hinit [] _ g1 none st0 rfl r1 hr1 rfl
  have hfull : r1.state.index = leaders.length := by
    match leaders, hone with
    | [], _ =>
      simp only [outdoorGroup, List.length_nil, Nat.le_zero] at a1
      rw [a2, a1, hidx]
      rfl
    | [d], _ =>
      have := add_one hs (by rw [harr, hidx]; rfl) (outdoorMember kind "adult" true (!true) d.z
        (outdoorOrientation true d)) (hr * w, vr * h) (List.replicate 10 (hr * w, vr * h))
        (by rw [hidx]; intro i hi; omega)
      obtain ⟨-, -, b2, -⟩ := this
      rw [hr1, hg1]
      rw [hk, hidx] at b2
      exact b2
  simp only [hidx, harr, List.length_nil, Nat.zero_add, Nat.sub_zero, Nat.zero_le, forall_const]
    at key1 a2 a4
  have e1 : r1.state = addGroups st0 [(outdoorGroup kind "adult" true leaders, g1, none)] := by
    rw [hr1]; rfl
  obtain ⟨hs1, hk1, -⟩ := addGroup_safe hc hs (outdoorGroup kind "adult" true leaders) g1 none
  rw [← hr1] at hs1 hk1
  obtain ⟨r2, hr2⟩ : ∃ r, r = addNonOverlappingGroup r1.state (outdoorGroup kind "adult" false herding)
    gen none := ⟨_, rfl⟩
  have key2 := outdoor_group kind false true (outdoorOrientation false) herding hz2 gen st0 hinit
    [(outdoorGroup kind "adult" true leaders, g1, none)] r1.state e1 r2 hr2
  obtain ⟨placed2, -, -, -, -, c1, -, -, c2, c3, c4, c5, -⟩ :=
    C17_bookkeeping kind _ st0 hinit [(outdoorGroup kind "adult" true leaders, g1, none)] _ gen none
    r1.state e1 r2 hr2 rfl
  have hsafe := addGroup_safe hc hs1 (outdoorGroup kind "adult" false herding) gen none
  rw [← hr2] at hsafe
  rw [hfull] at key2 c2 c5 key1
  have hlen : r2.state.array.length = leaders.length + herding.length := by
    rw [c4, a4]; rfl
  have hplaced : placed2 ≤ herding.length := c1
  have hr2' : r2.state = addGroups st0 [(outdoorGroup kind "adult" true leaders, g1, none),
      (outdoorGroup kind "adult" false herding, gen, none)] := by rw [hr2, hr1]; rfl
  refine ⟨r2.state, by rw [outdoorLedAgents, hinit, hr2', hg1]; rfl, hlen, by omega, by omega, ?_, ?_,
    ?_, ?_⟩
  · intro i hi
    obtain ⟨a, d, k1, k2, k3, k4, -⟩ := key1 i hi
    refine ⟨a, by rw [c5 i hi, k1], ?_, ?_⟩
    · have : outdoorOrientation true d = 0 := by norm_num [outdoorOrientation]
      rw [this] at k3
      exact k3
    · rw [hg1] at k4
      exact List.eq_of_mem_replicate k4
  · intro i hi1 hi2
    obtain ⟨a, d, k1, k2, k3, k4, -⟩ := key2 i hi1 hi2
    exact ⟨a, d, k1, k2, k3, outdoor_samples hw hh (hgen _ k4)⟩
  · intro i a hi ha
    have := hsafe.1.stored.zero i hi
    unfold rowAt at this
    rw [List.getD_eq_getElem?_getD, ha] at this
    simp only [Option.getD_some] at this
    rw [this]
    rfl
  · rintro rfl i j a b hij hi hj ha hb
    have hbody : ∀ (i : ℕ) (a : Agent), i < r2.state.index → r2.state.array[i]? = some a →
        ∃ z name, InTruncRange z ∧ name ∈ shippedNames ∧
          StoresBody a (construct bodyTypesCfg z [.bodyType name]).obj := by
      intro i a hi ha
      by_cases hil : i < leaders.length
      · obtain ⟨a', d, k1, k2, -, -, k5⟩ := key1 i hil
        rw [c5 i hil, k1] at ha
        cases ha
        exact ⟨d.z, "adult", hz1 d (List.mem_of_getElem? k2), by decide, k5⟩
      · obtain ⟨a', d, k1, k2, -, -, k5⟩ := key2 i (by omega) hi
        rw [k1] at ha
        cases ha
        exact ⟨d.z, "adult", hz2 d (List.mem_of_getElem? k2), by decide, k5⟩
    rw [hr2'] at hi hj ha hb hbody
    exact C16_placed_disjoint st0 hinit _ hbody i j hij hi hj a b ha hb

/-- One leader and two followers, one of whom looks backwards; the default field. -/
example : (0 : ℝ) ≤ 20 ∧
    (∀ d ∈ [(⟨fun _ a b => (a + b) / 2, 0.5⟩ : OutdoorDraw), ⟨fun _ a _ => a, Real.pi⟩],
      InTruncRange d.z) ∧
    (∀ p ∈ [((3, 4) : Vec), (15, 20)], p ∈ (outdoorField 20 20).samples 0) := by
  refine ⟨by norm_num, ?_, ?_⟩
  · intro d hd
    simp only [List.mem_cons, List.not_mem_nil, or_false] at hd
    rcases hd with rfl | rfl
    · intro k a b h; constructor <;> simp only <;> linarith
    · intro k a b h; exact ⟨le_rfl, h⟩
  · intro p hp
    have e : (outdoorField 20 20).samples 0 = convexHull ℝ {p | p ∈ box 0 20 0 20 ∧
        ∀ q ∈ (∅ : Set Vec), 0.3 ≤ length (p - q)} := by
      rw [← room_box (by norm_num) (by norm_num)]
      rfl
    rw [e]
    refine subset_convexHull _ _ ⟨?_, by simp⟩
    simp only [List.mem_cons, List.not_mem_nil, or_false] at hp
    rcases hp with rfl | rfl <;> rw [mem_box] <;> norm_num

end CrowdDynamics
