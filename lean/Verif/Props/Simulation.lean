import Verif.Spec.Simulation
import Verif.Proofs.Simulation

/-!
# Properties of running simulations: C45, C46, C47, C48, C65, C66, C80, C81
-/

namespace CrowdDynamics

open Spec

/-! ## A small simulation for the examples -/

/-- Surroundings of the simulation: an empty field (no targets, no obstacles), libraries that do
nothing. -/
noncomputable def demoEnv (n : ℕ) : SimEnv n where
  fields := fun _ => ⟨none, none, [], []⟩
  self := 0
  lib := ⟨⟨⟨fun _ _ => [], fun _ => [], fun _ => []⟩, fun _ _ _ => none, fun g _ _ => g,
    fun _ _ _ => (0, 0), fun _ _ _ => false⟩, fun l => .multi l⟩
  nan := 0
  cellPairs := fun _ _ => []
  argsort := fun _ => []
  oob := fun _ => 0
  asarray := fun _ => .ok []
  contains := fun _ p => open Classical in decide (0 < p.1 ∧ p.1 < 1)
  phi := fun _ _ => 0
  z := fun _ _ a _ => a
  w := fun _ _ a _ => a

/-- Data of a new simulation. -/
noncomputable def demoData : SimData := ⟨0, 0, 0, some 0⟩

/-- A new simulation of circular agents. -/
noncomputable def demoState {n : ℕ} (rows : Crowd n) : SimState n :=
  ⟨⟨.const .circular, rows⟩, demoData, ⟨[], [], [], []⟩, 0⟩

/-- `Reset(simulation) << Integrator(simulation)`. -/
def demoTree : LTree := .node 0 [.node 1 []]

/-- The nodes of this tree. -/
noncomputable def demoKind : ℕ → Node
  | 0 => .reset
  | _ => .integrator 0.01 0.02

lemma demo_nodes : demoTree.postorder.map demoKind = [.integrator 0.01 0.02, .reset] := rfl

/-! ## C45 -/

/-- **C45** A run that ends with an answer or an exception consists of `m` completed updates, none
of them after the exit condition held; it ends normally exactly at the first test that finds the
exit condition true, otherwise with the exception of update `m + 1`. In both cases `iterations`
grew by `m`. -/
theorem C45_iterations {n : ℕ} (env : SimEnv n) (kind : ℕ → Node) (root : LTree)
    (exit : Option (ℕ → SimState n → Bool)) (fuel : ℕ) (s s' : SimState n)
    (r : Except PyErr Unit) (h : simRun (simUpdate env kind root) exit fuel 0 s = some (r, s')) :
    ∃ m states, Completed (simUpdate env kind root) exit s m states ∧
      s'.data.iterations = s.data.iterations + m ∧
      (∀ k ≤ m, (states k).data.iterations = s.data.iterations + k) ∧
      ((r = .ok () ∧ s' = states m ∧ ExitHolds exit m (states m)) ∨
       ∃ e, r = .error e ∧ ¬ ExitHolds exit m (states m) ∧
        simUpdate env kind root (states m) = (.error e, s')) := by
  obtain ⟨m, states, hc, hr⟩ := simRun_spec _ exit fuel 0 s s' r h
  have hex : (exit.map fun c k => c (0 + k)) = exit := by
    cases exit with
    | none => rfl
    | some c => simp
  rw [hex] at hc
  simp only [Nat.zero_add] at hr
  have hk : ∀ k ≤ m, (states k).data.iterations = s.data.iterations + k := by
    intro k
    induction k with
    | zero => intro _; rw [hc.first]; rfl
    | succ k ih =>
      intro hk
      obtain ⟨t, _, _, _, _, _, _, _, hi⟩ :=
        simUpdate_spec env kind root _ _ _ (hc.next k (by omega))
      rw [hi, ih (by omega)]
      simp only [if_true]
      omega
  refine ⟨m, states, hc, ?_, hk, ?_⟩
  · rcases hr with ⟨_, rfl, _⟩ | ⟨e, _, _, he⟩
    · exact hk m le_rfl
    · obtain ⟨t, _, _, _, _, _, _, _, hi⟩ := simUpdate_spec env kind root _ _ _ he
      rw [hi, hk m le_rfl]
      simp
  · rcases hr with ⟨h1, h2, h3⟩ | h4
    · exact Or.inl ⟨h1, h2, h2 ▸ h3⟩
    · exact Or.inr h4

/-- **C45** If the updates succeed up to the first moment at which the exit condition holds then
the run ends there. -/
theorem C45_stops {σ : Type} (update : σ → Except PyErr Unit × σ) (exit : Option (ℕ → σ → Bool))
    (s : σ) (m : ℕ) (states : ℕ → σ) (h : Completed update exit s m states)
    (hm : ExitHolds exit m (states m)) (fuel : ℕ) (hf : m < fuel) :
    simRun update exit fuel 0 s = some (.ok (), states m) := by
  have key : ∀ (d call fuel : ℕ), call + d = m → d < fuel →
      simRun update exit fuel call (states call) = some (.ok (), states m) := by
    intro d
    induction d with
    | zero =>
      intro call fuel hc hf
      obtain ⟨fuel, rfl⟩ : ∃ f, fuel = f + 1 := ⟨fuel - 1, by omega⟩
      obtain rfl : call = m := by omega
      obtain ⟨c, hc, hx⟩ := hm
      unfold simRun
      simp [hc, hx]
    | succ d ih =>
      intro call fuel hc hf
      obtain ⟨fuel, rfl⟩ : ∃ f, fuel = f + 1 := ⟨fuel - 1, by omega⟩
      have hlt : call < m := by omega
      have h0 : ¬ (exit.elim false (fun c => c call (states call))) = true := by
        intro hh
        refine h.open_ call hlt ?_
        cases exit with
        | none => simp at hh
        | some c => exact ⟨c, rfl, hh⟩
      unfold simRun
      rw [if_neg h0, h.next call hlt]
      exact ih (call + 1) fuel (by omega) (by omega)
  have := key m 0 fuel (by omega) hf
  rwa [h.first] at this

example := C45_stops (fun s : ℕ => (.ok (), s + 2)) (some fun _ s => decide (6 ≤ s)) 0 3
  (fun k => 2 * k) ⟨rfl, fun k _ => rfl, fun k hk => by simp [ExitHolds]; omega⟩
  (by simp [ExitHolds]) 5 (by norm_num)

/-- **C45** Without an exit condition the run never ends normally. -/
theorem C45_no_exit {σ : Type} (update : σ → Except PyErr Unit × σ) (fuel : ℕ) (s s' : σ)
    (r : Except PyErr Unit) (h : simRun update none fuel 0 s = some (r, s')) : r ≠ .ok () := by
  obtain ⟨m, states, _, hr⟩ := simRun_spec update none fuel 0 s s' r h
  rcases hr with ⟨_, _, c, hc, _⟩ | ⟨e, he, _⟩
  · simp at hc
  · rw [he]; simp

example := C45_no_exit (fun s : ℕ => if s < 3 then (.ok (), s + 1) else (.error .value, s)) 10 0 3
  (.error .value) rfl

/-- **C45** In a simulation with one integrator, `time_tot` is the sum of the time steps of the
completed updates, each of which lies between the two bounds; so `time_tot` grew by at least
`m * dt_min` and at most `m * dt_max`. -/
theorem C45_time {n : ℕ} (env : SimEnv n) (kind : ℕ → Node) (root : LTree)
    (exit : Option (ℕ → SimState n → Bool)) (s : SimState n) (m : ℕ) (states : ℕ → SimState n)
    (h : Completed (simUpdate env kind root) exit s m states) (dtMin dtMax : ℝ)
    (h1 : OneIntegrator (root.postorder.map kind) dtMin dtMax) (hd : dtMin ≤ dtMax) :
    (states m).data.timeTot =
      s.data.timeTot + ∑ k ∈ Finset.range m, (states (k + 1)).data.dt ∧
    (∀ k < m, dtMin ≤ (states (k + 1)).data.dt ∧ (states (k + 1)).data.dt ≤ dtMax) ∧
    m * dtMin ≤ (states m).data.timeTot - s.data.timeTot ∧
    (states m).data.timeTot - s.data.timeTot ≤ m * dtMax := by
  have hstep : ∀ k < m, (states (k + 1)).data.timeTot =
      (states k).data.timeTot + (states (k + 1)).data.dt ∧
      dtMin ≤ (states (k + 1)).data.dt ∧ (states (k + 1)).data.dt ≤ dtMax := by
    intro k hk
    obtain ⟨t, ht, _, e1, e2, _⟩ := simUpdate_spec env kind root _ _ _ (h.next k hk)
    rw [e1, e2]
    rcases nodes_time env h1 hd _ t _ ht with h' | ⟨h', _⟩
    · exact h'
    · exact absurd rfl h'
  have hsum : ∀ k ≤ m, (states k).data.timeTot =
      s.data.timeTot + ∑ j ∈ Finset.range k, (states (j + 1)).data.dt := by
    intro k
    induction k with
    | zero => intro _; rw [h.first]; simp
    | succ k ih =>
      intro hk
      rw [(hstep k (by omega)).1, ih (by omega), Finset.sum_range_succ]
      ring
  refine ⟨hsum m le_rfl, fun k hk => (hstep k hk).2, ?_, ?_⟩
  · rw [hsum m le_rfl, add_sub_cancel_left]
    calc (m : ℝ) * dtMin = ∑ _k ∈ Finset.range m, dtMin := by simp
      _ ≤ _ := Finset.sum_le_sum fun k hk => (hstep k (Finset.mem_range.1 hk)).2.1
  · rw [hsum m le_rfl, add_sub_cancel_left]
    calc _ ≤ ∑ _k ∈ Finset.range m, dtMax :=
          Finset.sum_le_sum fun k hk => (hstep k (Finset.mem_range.1 hk)).2.2
      _ = (m : ℝ) * dtMax := by simp

/-- **C45** The update that raises an exception advances `time_tot` by one step or not at all. -/
theorem C45_time_exception {n : ℕ} (env : SimEnv n) (kind : ℕ → Node) (root : LTree)
    (s s' : SimState n) (e : PyErr) (h : simUpdate env kind root s = (.error e, s'))
    (dtMin dtMax : ℝ) (h1 : OneIntegrator (root.postorder.map kind) dtMin dtMax)
    (hd : dtMin ≤ dtMax) :
    s'.data.timeTot = s.data.timeTot ∨
      dtMin ≤ s'.data.timeTot - s.data.timeTot ∧ s'.data.timeTot - s.data.timeTot ≤ dtMax := by
  obtain ⟨t, ht, _, e1, _⟩ := simUpdate_spec env kind root _ _ _ h
  rw [e1]
  rcases nodes_time env h1 hd _ t _ ht with ⟨h2, h3, h4⟩ | ⟨_, h2, _⟩
  · right
    rw [h2, add_sub_cancel_left]
    exact ⟨h3, h4⟩
  · exact Or.inl h2

/-- The tree of the example has one integrator. -/
example : OneIntegrator (demoTree.postorder.map demoKind) 0.01 0.02 :=
  ⟨[], [.reset], demo_nodes, by simp, by simp [IsIntegrator]⟩

lemma demo_update {n : ℕ} (s : SimState n) :
    (simUpdate (demoEnv n) demoKind demoTree s).1 = .ok () := by
  unfold simUpdate
  rw [demo_nodes]
  rfl

/-- A run of the example that is stopped at the fourth test ends after three updates. -/
lemma demo_run (rows : Crowd 2) : ∃ s', simRun (simUpdate (demoEnv 2) demoKind demoTree)
      (some fun call _ => decide (3 ≤ call)) 10 0 (demoState rows) = some (.ok (), s') ∧
    s'.data.iterations = 3 := by
  obtain ⟨f, hf⟩ : ∃ f : SimState 2 → SimState 2,
    ∀ s, simUpdate (demoEnv 2) demoKind demoTree s = (.ok (), f s) :=
    ⟨fun s => (simUpdate (demoEnv 2) demoKind demoTree s).2, fun s => by rw [← demo_update s]⟩
  have hc : Completed (simUpdate (demoEnv 2) demoKind demoTree)
      (some fun call _ => decide (3 ≤ call)) (demoState rows) 3 (fun k => f^[k] (demoState rows)) := by
    refine ⟨rfl, fun k _ => ?_, fun k hk => ?_⟩
    · rw [hf, Function.iterate_succ_apply']
    · rintro ⟨c, hc, hx⟩
      simp only [Option.some.injEq] at hc
      subst hc
      have := of_decide_eq_true hx
      omega
  have hrun := C45_stops _ _ _ _ _ hc ⟨_, rfl, by decide⟩ 10 (by norm_num)
  refine ⟨_, hrun, ?_⟩
  obtain ⟨m, st, hc', hi, hk, hr⟩ := C45_iterations _ _ _ _ _ _ _ _ hrun
  have h0 : (demoState rows).data.iterations = 0 := rfl
  rcases hr with ⟨_, _, c, hcc, hx⟩ | ⟨e, he, _⟩
  · simp only [Option.some.injEq] at hcc
    subst hcc
    have h3 : 3 ≤ m := of_decide_eq_true hx
    rcases Nat.lt_or_ge 3 m with h4 | h4
    · exact absurd ⟨_, rfl, by simp⟩ (hc'.open_ 3 h4)
    · rw [hi, h0]; omega
  · simp at he

example (rows : Crowd 2) : ∃ r s', simRun (simUpdate (demoEnv 2) demoKind demoTree)
    (some fun call _ => decide (3 ≤ call)) 10 0 (demoState rows) = some (r, s') ∧
    s'.data.iterations = 3 :=
  let ⟨s', h, h'⟩ := demo_run rows
  ⟨_, s', h, h'⟩

/-! ## C46 -/

/-- An update puts things in the queue, but never the end marker. -/
def PutsItems {σ α : Type} (update : σ × List (QueueItem α) →
    Except PyErr Unit × (σ × List (QueueItem α))) : Prop :=
  ∀ s, ∃ items : List α, (update s).2.2 = s.2 ++ items.map .item

/-- The queue gained some items and after them one end marker. -/
def EndsWithMarker {α : Type} (before after : List (QueueItem α)) : Prop :=
  ∃ items : List α, after = before ++ items.map .item ++ [.endProcess]

/-- An update of the simulation next to the queue, which the shipped nodes do not touch. -/
noncomputable def besideQueue {n : ℕ} {α : Type} (env : SimEnv n) (kind : ℕ → Node) (root : LTree) :
    SimState n × List (QueueItem α) → Except PyErr Unit × (SimState n × List (QueueItem α)) :=
  fun s => ((simUpdate env kind root s.1).1, ((simUpdate env kind root s.1).2, s.2))

/-- C46, full statement for simulations made of the shipped nodes: whenever the process ends, the
queue has gained one end marker. -/
def C46_statement : Prop :=
  ∀ (n : ℕ) (env : SimEnv n) (kind : ℕ → Node) (root : LTree) (stopped : ℕ → Bool) (fuel : ℕ)
    (s : SimState n) (q : List (QueueItem Unit)) (r : Except PyErr Unit) (ev : Bool)
    (s' : SimState n) (q' : List (QueueItem Unit)),
    processRun (besideQueue env kind root) stopped fuel (s, q) = some (r, ev, s', q') →
    EndsWithMarker q q'

lemma queue_items {σ α : Type} {update : σ × List (QueueItem α) →
    Except PyErr Unit × (σ × List (QueueItem α))} (hu : PutsItems update)
    (exit : Option (ℕ → σ × List (QueueItem α) → Bool)) (fuel call : ℕ)
    (s s' : σ × List (QueueItem α)) (r : Except PyErr Unit)
    (h : simRun update exit fuel call s = some (r, s')) :
    ∃ items : List α, s'.2 = s.2 ++ items.map .item := by
  refine simRun_invariant (fun t => ∃ items : List α, t.2 = s.2 ++ items.map .item) ?_ fuel call s
    s' r h ⟨[], by simp⟩
  rintro t r t' ht ⟨items, hi⟩
  obtain ⟨more, hm⟩ := hu t
  rw [ht] at hm
  exact ⟨items ++ more, by rw [hm, hi]; simp⟩

lemma isCrowdDynamics_iff {e : PyErr} : e.isCrowdDynamics = true ↔ e ∈ packageErrors := by
  cases e <;> simp [PyErr.isCrowdDynamics, packageErrors]

/-- **C46** (partial) For every simulation whose nodes only put items in the queue: if the process
ends without an exception, then after the items the queue holds exactly one end marker, the last
element, and the event is set. The process ends so whenever the simulation stops or raises a
`CrowdDynamicsException`. -/
theorem C46_caught_partial {σ α : Type} (update : σ × List (QueueItem α) →
    Except PyErr Unit × (σ × List (QueueItem α))) (hu : PutsItems update) (stopped : ℕ → Bool)
    (fuel : ℕ) (s : σ × List (QueueItem α)) :
    (∀ ev s' q', processRun update stopped fuel s = some (.ok (), ev, s', q') →
      ev = true ∧ EndsWithMarker s.2 q') ∧
    (∀ r t, simRun update (some fun call _ => stopped call) fuel 0 s = some (r, t) →
      (r = .ok () ∨ ∃ e, r = .error e ∧ e ∈ packageErrors) →
      ∃ q', processRun update stopped fuel s = some (.ok (), true, t.1, q') ∧
        EndsWithMarker s.2 q') := by
  have key : ∀ t, (∃ r, simRun update (some fun call _ => stopped call) fuel 0 s = some (r, t)) →
      EndsWithMarker s.2 (t.2 ++ [.endProcess]) := by
    rintro t ⟨r, hr⟩
    obtain ⟨items, hi⟩ := queue_items hu _ _ _ _ _ _ hr
    exact ⟨items, by rw [hi]⟩
  refine ⟨fun ev s' q' h => ?_, fun r t h hr => ?_⟩
  · unfold processRun at h
    cases hs : simRun update (some fun call _ => stopped call) fuel 0 s with
    | none => rw [hs] at h; simp at h
    | some p =>
      obtain ⟨r, t⟩ := p
      rw [hs] at h
      cases r with
      | error e =>
        simp only at h
        split_ifs at h
        · simp only [Option.some.injEq, Prod.mk.injEq] at h
          obtain ⟨_, rfl, _, rfl⟩ := h
          exact ⟨rfl, key t ⟨_, hs⟩⟩
        · simp at h
      | ok u =>
        simp only [Option.some.injEq, Prod.mk.injEq] at h
        obtain ⟨_, rfl, _, rfl⟩ := h
        exact ⟨rfl, key t ⟨_, hs⟩⟩
  · refine ⟨t.2 ++ [.endProcess], ?_, key t ⟨r, h⟩⟩
    unfold processRun
    rw [h]
    rcases hr with rfl | ⟨e, rfl, he⟩
    · rfl
    · simp [isCrowdDynamics_iff.2 he]

/-- **C46** Every other exception ends the process without an end marker: the queue holds only
items. -/
theorem C46_other_exception {σ α : Type} (update : σ × List (QueueItem α) →
    Except PyErr Unit × (σ × List (QueueItem α))) (hu : PutsItems update) (stopped : ℕ → Bool)
    (fuel : ℕ) (s t : σ × List (QueueItem α)) (e : PyErr)
    (h : simRun update (some fun call _ => stopped call) fuel 0 s = some (.error e, t))
    (he : e ∉ packageErrors) :
    ∃ items : List α, processRun update stopped fuel s =
      some (.error e, false, t.1, s.2 ++ items.map .item) := by
  obtain ⟨items, hi⟩ := queue_items hu _ _ _ _ _ _ h
  refine ⟨items, ?_⟩
  unfold processRun
  rw [h]
  have he' : e.isCrowdDynamics = false := by
    rw [← Bool.not_eq_true]
    exact fun hc => he (isCrowdDynamics_iff.1 hc)
  simp [he', hi]

example := C46_other_exception (α := ℕ) (fun s : ℕ × List (QueueItem ℕ) =>
    if s.1 < 1 then (.ok (), (s.1 + 1, s.2 ++ [.item s.1])) else (.error .value, s))
  (fun s => by
    by_cases h : s.1 < 1
    · exact ⟨[s.1], by simp [h]⟩
    · exact ⟨[], by simp [h]⟩)
  (fun _ => false) 5 (0, []) (1, [.item 0]) .value rfl (by simp [packageErrors])

/-- A tree that consists of the node `ExitDetection`. -/
noncomputable def exitKind : ℕ → Node := fun _ => .exitDetection 20

lemma exit_raises (s : SimState 0) :
    simUpdate (demoEnv 0) exitKind (.node 0 []) s = (.error .value, s) := rfl

/-- **C46** fails: a simulation with the node `ExitDetection` in a field without targets raises a
`ValueError` at the first update, and its process ends without putting the end marker. -/
theorem C46_fails : ¬ C46_statement := by
  intro h
  have hp : processRun (besideQueue (demoEnv 0) exitKind (.node 0 [])) (fun _ => false) 1
      (demoState (fun i => i.elim0), ([] : List (QueueItem Unit))) =
      some (.error .value, false, demoState (fun i => i.elim0), []) := by
    unfold processRun
    have : simRun (besideQueue (α := Unit) (demoEnv 0) exitKind (.node 0 []))
        (some fun _ _ => false) 1 0 (demoState (fun i => i.elim0), []) =
        some (.error .value, (demoState (fun i => i.elim0), [])) := by
      simp [simRun, besideQueue, exit_raises]
    rw [this]
    simp [PyErr.isCrowdDynamics]
  obtain ⟨items, hi⟩ := h 0 (demoEnv 0) exitKind (.node 0 []) (fun _ => false) 1 _ _ _ _ _ _ hp
  simp at hi

/-- The shipped nodes put nothing in the queue. -/
example {n : ℕ} (env : SimEnv n) (kind : ℕ → Node) (root : LTree) :
    PutsItems (α := Unit) (besideQueue env kind root) :=
  fun s => ⟨[], by simp [besideQueue]⟩

/-- A process that another process stops before its third update. -/
example : EndsWithMarker (α := ℕ) [.item 7] [.item 7, .item 0, .item 1, .endProcess] ∧
    processRun (σ := ℕ) (fun s => (.ok (), (s.1 + 1, s.2 ++ [.item s.1])))
      (fun call => decide (2 ≤ call)) 5 (0, [.item 7]) =
      some (.ok (), true, 2, [.item 7, .item 0, .item 1, .endProcess]) :=
  ⟨⟨[0, 1], rfl⟩, rfl⟩

/-! ## C47 -/

/-- The agents move to new positions and `InsideDomain` is updated, several times. -/
noncomputable def domainHistory {n : ℕ} (contains : Vec → Bool) :
    List (Fin n → Vec) → SimState n → SimState n
  | [], s => s
  | pos :: rest, s =>
    domainHistory contains rest (insideDomainUpdate contains
      (s.withRows fun i => { s.agents.rows i with position := pos i })).2

/-- Number of agents whose flag `active` is not set. -/
def inactiveAgents {n : ℕ} (s : SimState n) : ℕ := countTrue fun i => !(s.agents.rows i).active

/-- C47, full statement: starting with active agents and a new node, after updates of the node at
any positions the counter is the number of agents that are outside now. -/
def C47_statement : Prop :=
  ∀ (n : ℕ) (contains : Vec → Bool) (history : List (Fin n → Vec)) (pos : Fin n → Vec)
    (s : SimState n), (∀ i, (s.agents.rows i).active = true) → s.data.inactive = some 0 →
    (domainHistory contains (history ++ [pos]) s).data.inactive =
      some (countTrue fun i => !contains (pos i))

lemma domain_step {n : ℕ} (contains : Vec → Bool) (s : SimState n) (pos : Fin n → Vec) (c : ℕ)
    (hc : s.data.inactive = some c) :
    let s' := (insideDomainUpdate contains
      (s.withRows fun i => { s.agents.rows i with position := pos i })).2
    (∀ i, (s'.agents.rows i).active = contains (pos i)) ∧
    s'.data.inactive =
      some (c + countTrue fun i => xor (s.agents.rows i).active (contains (pos i))) := by
  intro s'
  have e : s' = (insideDomainUpdate contains
      (s.withRows fun i => { s.agents.rows i with position := pos i })).2 := rfl
  have hc' : (s.withRows fun i => { s.agents.rows i with position := pos i }).data.inactive =
      some c := hc
  unfold insideDomainUpdate at e
  simp only [hc'] at e
  rw [e, ← filter_length_countTrue]
  exact ⟨fun i => rfl, rfl⟩

/-- **C47** (partial) After every history the flags are right: an agent is active exactly if its
last position is inside. -/
theorem C47_flags {n : ℕ} (contains : Vec → Bool) (history : List (Fin n → Vec))
    (pos : Fin n → Vec) (s : SimState n) (i : Fin n) :
    ((domainHistory contains (history ++ [pos]) s).agents.rows i).active = contains (pos i) := by
  induction history generalizing s with
  | nil =>
    simp only [List.nil_append, domainHistory, insideDomainUpdate]
    cases s.withRows _ |>.data.inactive <;> rfl
  | cons p ps ih => exact ih _

/-- **C47** (partial) What the counter really is, in every history: at least the number of agents
that are inactive now, and an even number more. -/
theorem C47_bound_partial {n : ℕ} (contains : Vec → Bool) (history : List (Fin n → Vec))
    (s : SimState n) (c : ℕ) (hc : s.data.inactive = some c)
    (h : ∃ k, c = inactiveAgents s + 2 * k) :
    ∃ k, (domainHistory contains history s).data.inactive =
      some (inactiveAgents (domainHistory contains history s) + 2 * k) := by
  induction history generalizing s c with
  | nil => obtain ⟨k, hk⟩ := h; exact ⟨k, hc.trans (congrArg some hk)⟩
  | cons pos rest ih =>
    obtain ⟨h1, h2⟩ := domain_step contains s pos c hc
    refine ih _ _ h2 ?_
    obtain ⟨k, hk⟩ := h
    have e : inactiveAgents (insideDomainUpdate contains
        (s.withRows fun i => { s.agents.rows i with position := pos i })).2 =
        countTrue fun i => !contains (pos i) := by
      unfold inactiveAgents
      simp only [h1]
    have hx := count_changes (fun i => (s.agents.rows i).active) (fun i => contains (pos i))
    obtain ⟨z, hz⟩ : ∃ z, (countTrue fun i => !(s.agents.rows i).active && !contains (pos i)) = z :=
      ⟨_, rfl⟩
    have hle : z ≤ inactiveAgents s := by
      rw [← hz]
      unfold inactiveAgents
      rw [countTrue_eq_sum, countTrue_eq_sum]
      refine Finset.sum_le_sum fun i _ => ?_
      cases (s.agents.rows i).active <;> cases contains (pos i) <;> simp
    rw [hz] at hx
    unfold inactiveAgents at hk hle
    rw [e, hk]
    exact ⟨(countTrue fun i => !(s.agents.rows i).active) - z + k, by omega⟩

/-- No agent is inside after it was outside, in a history that starts with the given flags. -/
def NobodyReturns {n : ℕ} (contains : Vec → Bool) : (Fin n → Bool) → List (Fin n → Vec) → Prop
  | _, [] => True
  | inside, pos :: rest => (∀ i, contains (pos i) = true → inside i = true) ∧
      NobodyReturns contains (fun i => contains (pos i)) rest

/-- **C47** (partial) If no agent returns into the domain, the counter is the number of agents
outside. -/
theorem C47_no_return_partial {n : ℕ} (contains : Vec → Bool) (history : List (Fin n → Vec))
    (s : SimState n) (hc : s.data.inactive = some (inactiveAgents s))
    (h : NobodyReturns contains (fun i => (s.agents.rows i).active) history) :
    (domainHistory contains history s).data.inactive =
      some (inactiveAgents (domainHistory contains history s)) := by
  induction history generalizing s with
  | nil => exact hc
  | cons pos rest ih =>
    obtain ⟨h1, h2⟩ := domain_step contains s pos _ hc
    refine ih _ ?_ ?_
    · rw [h2]
      congr 1
      unfold inactiveAgents
      simp only [h1]
      rw [countTrue_eq_sum, countTrue_eq_sum, countTrue_eq_sum, ← Finset.sum_add_distrib]
      refine Finset.sum_congr rfl fun i _ => ?_
      have hi : contains (pos i) = true → (s.agents.rows i).active = true := h.1 i
      revert hi
      cases (s.agents.rows i).active <;> cases contains (pos i) <;> simp
    · simp only [h1]
      exact h.2

/-- **C47** (partial) The same from the construction of the node on, for agents that are active then: the
ring of the domain is used, and the counter of a new node starts at zero whatever it was before. Without
a domain the construction fails. -/
theorem C47_constructed_partial {n : ℕ} (contains : List Vec → Vec → Bool) (f : Field) (s : SimState n)
    (ha : ∀ i, (s.agents.rows i).active = true) :
    (f.domain = none → (insideDomainInit f s.data).1 = .error .attribute) ∧
    ∀ d, f.domain = some d → ∃ data, insideDomainInit f s.data = (.ok (.insideDomain d.1), data) ∧
      ∀ history, NobodyReturns (contains d.1) (fun _ => true) history →
        (domainHistory (contains d.1) history { s with data := data }).data.inactive =
          some (inactiveAgents (domainHistory (contains d.1) history { s with data := data })) := by
  refine ⟨fun h => by simp [insideDomainInit, h], fun d h => ⟨{ s.data with inactive := some 0 },
    by simp [insideDomainInit, h], fun history hn => ?_⟩⟩
  refine C47_no_return_partial (contains d.1) history { s with data := { s.data with inactive := some 0 } }
    ?_ (by simpa only [ha] using hn)
  have : inactiveAgents { s with data := { s.data with inactive := some 0 } } = 0 := by
    unfold inactiveAgents
    rw [countTrue_eq_sum]
    simp [ha]
  rw [this]

/-- Two agents one of whom leaves, in a simulation whose data were used before. -/
example : (∀ i, ((demoState fun _ : Fin 2 => Agent.default).agents.rows i).active = true) ∧
    (⟨some ([(0, 0), (1, 0), (1, 1)], []), none, [], []⟩ : Field).domain = some ([(0, 0), (1, 0), (1, 1)], []) ∧
    NobodyReturns (n := 2) (fun p => open Classical in decide (0 < p.1 ∧ p.1 < 1)) (fun _ => true)
      [fun i => (if i = 0 then 0.5 else 2, 0.5)] :=
  ⟨fun _ => rfl, rfl, fun _ _ => rfl, trivial⟩

/-- **C47** fails: an agent that leaves the domain and comes back is counted twice, and the counter
says 2 while nobody is outside. -/
theorem C47_fails : ¬ C47_statement := by
  intro h
  have := h 1 (fun p => open Classical in decide (0 < p.1 ∧ p.1 < 1)) [fun _ => (2, 0.5)]
    (fun _ => (0.5, 0.5)) (demoState fun _ => Agent.default) (fun _ => rfl) rfl
  revert this
  simp only [List.cons_append, List.nil_append, domainHistory]
  obtain ⟨a1, a2⟩ := domain_step (fun p => open Classical in decide (0 < p.1 ∧ p.1 < 1))
    (demoState fun _ : Fin 1 => Agent.default) (fun _ => (2, 0.5)) 0 rfl
  obtain ⟨b1, b2⟩ := domain_step (fun p => open Classical in decide (0 < p.1 ∧ p.1 < 1))
    _ (fun _ : Fin 1 => (0.5, 0.5)) _ a2
  rw [b2]
  simp only [a1]
  have e1 : decide ((0 : ℝ) < 0.5 ∧ (0.5 : ℝ) < 1) = true := by
    rw [decide_eq_true_iff]; norm_num
  have e2 : decide ((0 : ℝ) < 2 ∧ (2 : ℝ) < 1) = false := by
    rw [decide_eq_false_iff_not]; norm_num
  have e3 : (demoState fun _ : Fin 1 => Agent.default).agents.rows = fun _ => Agent.default := rfl
  have e4 : Agent.default.active = true := rfl
  simp only [e1, e2, e3, e4, countTrue_eq_sum]
  simp

/-- Two agents, one of which leaves for good. -/
example : NobodyReturns (n := 2) (fun p => open Classical in decide (0 < p.1 ∧ p.1 < 1))
    (fun _ => true) [fun i => if i = 0 then (2, 0) else (0.5, 0), fun i =>
      if i = 0 then (3, 0) else (0.25, 0)] := by
  refine ⟨fun _ _ => rfl, fun i => ?_, trivial⟩
  fin_cases i
  · simp
  · simp; norm_num

/-! ## C48 -/

/-- A polygon. -/
def IsPolygon : Geom → Prop
  | .polygon _ _ => True
  | _ => False

open Classical in
/-- C48, full statement: the node can be created for every field, with one counter for every
polygon target. -/
def C48_statement : Prop :=
  ∀ f : Field, ∃ node data, targetReachedInit f = .ok (node, data) ∧
    data.length = (f.targets.filter fun g => decide (IsPolygon g)).length

lemma targetLoop_none (gs : List Geom) (h : ∀ g ∈ gs, ¬ IsPolygon g) (i : ℕ)
    (paths : List (List Vec)) (data : List (String × ℕ)) :
    targetReachedLoop i gs paths data = .ok (.targetReached paths, data) := by
  induction gs generalizing i with
  | nil => rfl
  | cons g gs ih =>
    have hg := h g List.mem_cons_self
    have hgs := fun x hx => h x (List.mem_cons_of_mem _ hx)
    cases g with
    | polygon a b => exact absurd trivial hg
    | _ => exact ih hgs (i + 1)

lemma targetLoop_some (gs : List Geom) (h : ∃ g ∈ gs, IsPolygon g) (i : ℕ)
    (paths : List (List Vec)) (data : List (String × ℕ)) :
    targetReachedLoop i gs paths data = .error .key := by
  induction gs generalizing i with
  | nil => simp at h
  | cons g gs ih =>
    cases g with
    | polygon a b => rfl
    | point p =>
      obtain ⟨x, hx, hp⟩ := h
      rcases List.mem_cons.1 hx with rfl | hx
      · exact absurd hp id
      · exact ih ⟨x, hx, hp⟩ (i + 1)
    | lineString l =>
      obtain ⟨x, hx, hp⟩ := h
      rcases List.mem_cons.1 hx with rfl | hx
      · exact absurd hp id
      · exact ih ⟨x, hx, hp⟩ (i + 1)
    | multi l =>
      obtain ⟨x, hx, hp⟩ := h
      rcases List.mem_cons.1 hx with rfl | hx
      · exact absurd hp id
      · exact ih ⟨x, hx, hp⟩ (i + 1)
    | other =>
      obtain ⟨x, hx, hp⟩ := h
      rcases List.mem_cons.1 hx with rfl | hx
      · exact absurd hp id
      · exact ih ⟨x, hx, hp⟩ (i + 1)

/-- **C48** The node cannot be created, for a `KeyError`, exactly if there is a polygon target. -/
theorem C48_polygon_error (f : Field) :
    targetReachedInit f = .error .key ↔ ∃ g ∈ f.targets, IsPolygon g := by
  constructor
  · intro h
    by_contra hn
    push Not at hn
    unfold targetReachedInit at h
    rw [targetLoop_none f.targets hn] at h
    simp at h
  · exact fun h => targetLoop_some f.targets h 0 [] []

/-- **C48** (partial) Without polygon targets the node can be created; it adds no counters and its
updates change nothing and never raise. -/
theorem C48_partial (f : Field) (h : ∀ g ∈ f.targets, ¬ IsPolygon g) :
    ∃ node, targetReachedInit f = .ok (node, []) ∧
      ∀ (n : ℕ) (env : SimEnv n) (s : SimState n), node.update env s = (.ok (), s) :=
  ⟨.targetReached [], targetLoop_none f.targets h 0 [] [], fun n env s => by
    simp [Node.update]⟩

/-- **C48** fails for a field with one square target. -/
theorem C48_fails : ¬ C48_statement := by
  intro h
  obtain ⟨node, data, hn, _⟩ := h ⟨none, none, [.polygon [(0, 0), (1, 0), (1, 1), (0, 1)] []], []⟩
  rw [(C48_polygon_error _).2 ⟨.polygon _ _, List.mem_cons_self, trivial⟩] at hn
  simp at hn

/-- A field whose only target is a door line. -/
example : ∀ g ∈ (⟨none, none, [.lineString [(0, 0), (0, 1)]], []⟩ : Field).targets,
    ¬ IsPolygon g := by
  intro g hg
  rw [List.mem_singleton.1 hg]
  exact id

/-! ## C65 -/

/-- C65, full statement for the nodes of a simulation: what happens to the active agents does not
depend on the inactive ones. -/
def C65_statement : Prop :=
  ∀ (n : ℕ) (env : SimEnv n) (node : Node) (s t : SimState n),
    ¬ IsInsideDomain node → s.data = t.data → s.caches = t.caches → s.draws = t.draws →
    s.agents.dtype = t.agents.dtype → AgreeOnActive s t →
    ∀ i, (s.agents.rows i).active = true →
      (node.update env s).2.agents.rows i = (node.update env t).2.agents.rows i

/-- **C65** No node except `InsideDomain` looks at the flag `active`: with other flags every node
has the same outcome and makes the same changes, whatever the crowd, the field and the libraries.
So inactive agents are moved, exert forces and are followed like the others. -/
theorem C65_flag_unread {n : ℕ} (env : SimEnv n) (node : Node) (h : ¬ IsInsideDomain node)
    (s : SimState n) (b : Fin n → Bool) :
    (node.update env (setActive b s)).1 = (node.update env s).1 ∧
    (node.update env (setActive b s)).2 = setActive b (node.update env s).2 := by
  rw [update_flagged b env node h s]
  exact ⟨rfl, rfl⟩

/-- Two agents: the first one walks, the second one is inactive and has the given speed. -/
noncomputable def fastGhost (v : ℝ) : Crowd 2 := fun i =>
  if i = 0 then { Agent.default with velocity := (1, 0), targetVelocity := 1, mass := 1 }
  else { Agent.default with active := false, velocity := (v, 0), targetVelocity := 1, mass := 1 }

lemma fastGhost_dt (v : ℝ) (hv : 1 ≤ v) :
    adaptiveTimestep (fastGhost v) 0.001 0.01 =
      if 1.1 * 1 * 0.01 / v > (0.01 : ℝ) then 0.01
      else if 1.1 * 1 * 0.01 / v < 0.001 then 0.001 else 1.1 * 1 * 0.01 / v := by
  have l0 : length (fastGhost v 0).velocity = 1 := by
    have : (fastGhost v 0).velocity = (1, 0) := rfl
    rw [this]
    unfold length
    norm_num
  have l1 : length (fastGhost v 1).velocity = v := by
    have : (fastGhost v 1).velocity = (v, 0) := rfl
    rw [this]
    unfold length
    simp only [ne_eq, OfNat.ofNat_ne_zero, not_false_eq_true, zero_pow, add_zero]
    exact Real.sqrt_sq (by linarith)
  have hV : vMaxLoop (fastGhost v) = v := by
    unfold vMaxLoop
    simp only [List.finRange_succ, List.finRange_zero, List.map_cons, List.map_nil,
      List.foldl_cons, List.foldl_nil]
    have e : (Fin.succ 0 : Fin 2) = 1 := rfl
    rw [e, l0, l1]
    rw [if_pos (by norm_num : (1 : ℝ) > 0)]
    split_ifs with h
    · rfl
    · linarith
  unfold adaptiveTimestep
  have hn : (npMax (List.ofFn fun i => (fastGhost v i).targetVelocity)).getD 0 = 1 := by
    simp [npMax, List.ofFn_succ, fastGhost]
  rw [hV, hn, if_neg (by linarith)]

/-- **C65** fails: an inactive agent that runs fast makes the time step of everyone shorter, so the
active agent gets to another place. -/
theorem C65_fails : ¬ C65_statement := by
  intro h
  have := h 2 (demoEnv 2) (.integrator 0.001 0.01) (demoState (fastGhost 1))
    (demoState (fastGhost 10)) id rfl rfl rfl rfl (by
      intro i
      fin_cases i
      · exact ⟨rfl, fun _ => rfl⟩
      · exact ⟨rfl, fun h => by simp [demoState, fastGhost] at h⟩) 0 rfl
  have hp := congrArg (fun a => a.position.1) this
  have e : ∀ v, ((Node.integrator 0.001 0.01).update (demoEnv 2)
      (demoState (fastGhost v))).2.agents.rows 0 =
      translationalVerletRow (adaptiveTimestep (fastGhost v) 0.001 0.01) (fastGhost v 0) := by
    intro v
    simp [Node.update, integratorUpdate, velocityVerletIntegrator, demoState, isModel,
      DtypeObj.kind, translationalVerlet]
  simp only [e, fastGhost_dt 1 le_rfl, fastGhost_dt 10 (by norm_num)] at hp
  have r : ∀ v dt, (translationalVerletRow dt (fastGhost v 0)).position.1 = dt := by
    intro v dt
    simp [translationalVerletRow, fastGhost, Agent.default, Agent.zero]
  rw [r, r] at hp
  norm_num at hp

/-! ## C66 -/

/-- **C66** Every run of a simulation made of any tree of shipped nodes, however long it is and
however it ends, keeps the type of the array and the body, the physical parameters and the role of
every agent. -/
theorem C66_body {n : ℕ} (env : SimEnv n) (kind : ℕ → Node) (root : LTree)
    (exit : Option (ℕ → SimState n → Bool)) (fuel : ℕ) (s s' : SimState n)
    (r : Except PyErr Unit) (h : simRun (simUpdate env kind root) exit fuel 0 s = some (r, s')) :
    s'.agents.dtype = s.agents.dtype ∧ ∀ i, SameBody (s.agents.rows i) (s'.agents.rows i) := by
  refine simRun_invariant (fun t => t.agents.dtype = s.agents.dtype ∧
    ∀ i, SameBody (s.agents.rows i) (t.agents.rows i)) ?_ fuel 0 s s' r h
    ⟨rfl, fun i => sameBody_refl _⟩
  rintro t r t' ht ⟨h1, h2⟩
  obtain ⟨u, hu, ea, _⟩ := simUpdate_spec env kind root t t' r ht
  obtain ⟨k1, k2, _⟩ := nodes_keep env _ t u r hu
  rw [ea]
  exact ⟨k1.trans h1, fun i => (h2 i).trans (k2 i).1⟩

/-- The demonstration run meets the hypothesis. -/
example : ∃ r s', simRun (simUpdate (demoEnv 2) demoKind demoTree)
    (some fun call _ => decide (3 ≤ call)) 10 0 (demoState (fastGhost 3)) = some (r, s') :=
  let ⟨s', h, _⟩ := demo_run (fastGhost 3)
  ⟨_, s', h⟩

/-- **C66** In a tree where after `Reset` only nodes run that do not produce forces (for example
`Reset` is the root), after every completed update all forces are zero, and all torques of
three-circle agents. -/
theorem C66_forces {n : ℕ} (env : SimEnv n) (kind : ℕ → Node) (root : LTree)
    (before after : List Node) (ht : root.postorder.map kind = before ++ .reset :: after)
    (ha : ∀ x ∈ after, LeavesForces x) (s s' : SimState n)
    (h : simUpdate env kind root s = (.ok (), s')) (i : Fin n) :
    (s'.agents.rows i).force = (0, 0) ∧
      (s'.agents.dtype.kind = .threeCircle → (s'.agents.rows i).torque = 0) := by
  obtain ⟨t, hu, ea, _⟩ := simUpdate_spec env kind root s s' _ h
  rw [ea]
  rw [ht, updateNodes_append] at hu
  obtain ⟨q, u, hq⟩ : ∃ q u, updateNodes env before s = (q, u) := ⟨_, _, rfl⟩
  rw [hq] at hu
  cases q with
  | error e => simp at hu
  | ok x =>
    simp only [updateNodes] at hu
    obtain ⟨q', v, hv⟩ : ∃ q v, Node.reset.update env u = (q, v) := ⟨_, _, rfl⟩
    obtain ⟨hr, hrest⟩ := reset_atRest env u v q' hv
    rw [hv, hr] at hu
    exact nodes_forces env after ha v t _ hu hrest i

/-- The tree of the example. -/
example : demoTree.postorder.map demoKind = [.integrator 0.01 0.02] ++ .reset :: [] ∧
    ∀ x ∈ ([] : List Node), LeavesForces x := ⟨rfl, by simp⟩

/-! ## C80 -/

/-- **C80** In every run nobody becomes a leader or stops being one, and nobody becomes a
follower. -/
theorem C80_roles {n : ℕ} (env : SimEnv n) (kind : ℕ → Node) (root : LTree)
    (exit : Option (ℕ → SimState n → Bool)) (fuel : ℕ) (s s' : SimState n)
    (r : Except PyErr Unit) (h : simRun (simUpdate env kind root) exit fuel 0 s = some (r, s'))
    (i : Fin n) :
    (s'.agents.rows i).isLeader = (s.agents.rows i).isLeader ∧
    ((s'.agents.rows i).isFollower = true → (s.agents.rows i).isFollower = true) := by
  refine ⟨((C66_body env kind root exit fuel s s' r h).2 i).isLeader.symm, ?_⟩
  refine simRun_invariant (fun t => (t.agents.rows i).isFollower = true →
    (s.agents.rows i).isFollower = true) ?_ fuel 0 s s' r h (fun h => h)
  intro t r t' ht h1
  obtain ⟨u, hu, ea, _⟩ := simUpdate_spec env kind root t t' r ht
  rw [ea]
  exact fun hf => h1 (((nodes_keep env _ t u r hu).2.1 i).2 hf)

/-- A run with a follower. -/
example : ∃ r s', simRun (simUpdate (demoEnv 2) demoKind demoTree)
    (some fun call _ => decide (3 ≤ call)) 10 0
    (demoState fun _ => { Agent.default with isFollower := true }) = some (r, s') :=
  let ⟨s', h, _⟩ := demo_run _
  ⟨_, s', h⟩

/-! ## C81 -/

/-- **C81** If at the start of a run every agent's target and familiar exit is missing or the index
of a target of the field, and its leader is missing or the index of an agent, then so it is at the
end of the run, however it ends. -/
theorem C81_references {n : ℕ} (env : SimEnv n) (kind : ℕ → Node) (root : LTree)
    (exit : Option (ℕ → SimState n → Bool)) (fuel : ℕ) (s s' : SimState n)
    (r : Except PyErr Unit) (h : simRun (simUpdate env kind root) exit fuel 0 s = some (r, s'))
    (hv : ∀ i, ValidRefs env.field.targets.length n (s.agents.rows i)) (i : Fin n) :
    ValidRefs env.field.targets.length n (s'.agents.rows i) := by
  refine simRun_invariant (fun t => ∀ i, ValidRefs env.field.targets.length n (t.agents.rows i)) ?_
    fuel 0 s s' r h hv i
  intro t r t' ht h1
  obtain ⟨u, hu, ea, _⟩ := simUpdate_spec env kind root t t' r ht
  rw [ea]
  exact nodes_refs env _ t u r hu h1

/-- New agents have valid references, whatever the field. -/
example (m : ℕ) : ∀ i : Fin 3, ValidRefs m 3 ((fun _ => Agent.default : Crowd 3) i) :=
  fun _ => ⟨Or.inl rfl, Or.inl rfl, Or.inl rfl⟩

end CrowdDynamics
