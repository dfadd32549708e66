import Verif.Proofs.Logic
import Verif.Spec.ShippedLogic

/-!
# Helper lemmas: evaluation of logic expressions
-/

namespace CrowdDynamics

open Spec

/-- Appending whole trees below the root of another one. -/
theorem lshift_roots (i : ℕ) (F : List LTree) (ds : List LTree) : ∀ cs : List LTree,
    Distinct (F ++ .node i cs :: ds) →
    lshift i (ds.map LTree.id) (F ++ .node i cs :: ds) = (.ok (), F ++ [.node i (cs ++ ds)]) := by
  induction ds with
  | nil => intro cs _; simp [lshift]
  | cons d ds ih =>
    intro cs hd
    have hn := hd
    unfold Distinct at hn
    rw [preorderAll_append, preorderAll_cons, preorderAll_cons, LTree.preorder] at hn
    simp only [List.cons_append, List.nodup_append, List.nodup_cons, List.mem_append,
      List.mem_cons, ne_eq] at hn
    obtain ⟨nF, ⟨hi, ncs, ⟨nd, nds, hdds⟩, hcs⟩, hF⟩ := hn
    have hdid := id_mem_preorder d
    have e1 : setParent d.id (some i) (F ++ .node i cs :: d :: ds) =
        (.ok (), F ++ .node i (cs ++ [d]) :: ds) := by
      rw [setParent_move hd ⟨d, by simp, .refl _⟩]
      · have g1 : d.id ∉ preorderAll F := fun h => hF _ h _ (.inr (.inr (.inl hdid))) rfl
        have g2 : d.id ∉ (LTree.node i cs).preorder := by
          rw [LTree.preorder, List.mem_cons, not_or]
          refine ⟨fun h => hi (.inr (.inl (h ▸ hdid))), fun h => hcs _ h _ (.inl hdid) rfl⟩
        have g3 : d.id ∉ preorderAll ds := fun h => hdds _ hdid _ h rfl
        have g4 : (LTree.node i cs).id ≠ d.id := fun h => hi (.inr (.inl (by
          have : i = d.id := h
          rw [this]; exact hdid)))
        rw [detachAll_append, detachAll_absent _ _ g1, detachAll, if_neg g4, detach_absent _ _ g2,
          detachAll, if_pos rfl, detachAll_absent _ _ g3]
        have k1 : i ∉ preorderAll F := fun h => hF _ h _ (.inl rfl) rfl
        have k2 : i ∉ preorderAll cs := fun h => hi (.inl h)
        have k3 : i ∉ preorderAll ds := fun h => hi (.inr (.inr h))
        rw [attachAll_append, attachAll_absent _ _ _ k1, attachAll, LTree.attach,
          attachAll_absent _ _ _ k2, attachAll_absent _ _ _ k3, if_pos rfl]
      · intro h
        have hp := (edgesAll_preorder (F ++ .node i cs :: d :: ds)).nodup_iff.2 hd
        exact (List.nodup_append.1 hp).2.2 d.id (by simp) d.id
          (List.mem_map.2 ⟨_, h, rfl⟩) rfl
      · intro h
        exact hi (.inr (.inl h))
      · rw [mem_preorderAll]
        exact ⟨.node i cs, by simp, by simp [LTree.preorder]⟩
    have hd' : Distinct (F ++ .node i (cs ++ [d]) :: ds) := by
      refine Distinct.perm hd ?_
      simp only [preorderAll_append, preorderAll_cons, LTree.preorder, preorderAll_nil]
      simp
    rw [List.map_cons, lshift, addChildren, e1]
    simp only
    rw [ih _ hd']
    simp

mutual

theorem Stands.mono {k k' : ℕ → Option Node} (h : ∀ i x, k i = some x → k' i = some x) :
    ∀ {e t}, Stands k e t → Stands k' e t
  | _, _, .new h1 h2 => .new (h _ _ h1) h2
  | _, _, .shift h1 h2 => .shift (Stands.mono h h1) (StandAll.mono h h2)

theorem StandAll.mono {k k' : ℕ → Option Node} (h : ∀ i x, k i = some x → k' i = some x) :
    ∀ {e t}, StandAll k e t → StandAll k' e t
  | _, _, .nil => .nil
  | _, _, .cons h1 h2 => .cons (Stands.mono h h1) (StandAll.mono h h2)

end

theorem nodes_mono (a b : List Node) (i : ℕ) (x : Node) (h : a[i]? = some x) :
    (a ++ b)[i]? = some x := by
  rw [List.getElem?_append_left]
  · exact h
  · exact (List.getElem?_eq_some_iff.1 h).1

theorem makes_run {call : NodeCall} {node : Node} (h : Makes call node) (data : SimData) :
    ∃ data', call.run data = (.ok node, data') := by
  cases h with
  | plain => exact ⟨_, rfl⟩
  | insideDomain f ring holes h =>
    refine ⟨{ data with inactive := some 0 }, ?_⟩
    simp [NodeCall.run, insideDomainInit, h]
  | exitDetection r h =>
    refine ⟨data, ?_⟩
    simp [NodeCall.run, not_lt.2 h]

theorem run_counters (call : NodeCall) (data : SimData) :
    (call.run data).2.iterations = data.iterations ∧ (call.run data).2.timeTot = data.timeTot ∧
      (call.run data).2.dt = data.dt := by
  cases call with
  | plain => exact ⟨rfl, rfl, rfl⟩
  | insideDomain f =>
    simp only [NodeCall.run, insideDomainInit]
    split <;> exact ⟨rfl, rfl, rfl⟩
  | exitDetection r =>
    simp only [NodeCall.run]
    split <;> exact ⟨rfl, rfl, rfl⟩

mutual

theorem eval_counters : ∀ (e : LogicExpr) (s : BuildState),
    (e.eval s).2.data.iterations = s.data.iterations ∧
      (e.eval s).2.data.timeTot = s.data.timeTot ∧ (e.eval s).2.data.dt = s.data.dt
  | .new call, s => by
    have h := run_counters call s.data
    rw [LogicExpr.eval]
    split <;> (rename_i hr; rw [hr] at h; exact h)
  | .shift left right, s => by
    have h := eval_counters left s
    rw [LogicExpr.eval]
    split
    · rename_i hr; rw [hr] at h; exact h
    · rename_i self s' hr
      rw [hr] at h
      have h' := evalAll_counters right s'
      simp only at h
      rw [h.1, h.2.1, h.2.2] at h'
      split
      · rename_i hr'; rw [hr'] at h'; exact h'
      · rename_i hr'
        rw [hr'] at h'
        split <;> exact h'

theorem evalAll_counters : ∀ (es : List LogicExpr) (s : BuildState),
    (evalAll es s).2.data.iterations = s.data.iterations ∧
      (evalAll es s).2.data.timeTot = s.data.timeTot ∧ (evalAll es s).2.data.dt = s.data.dt
  | [], s => by
    rw [evalAll]
    exact ⟨rfl, rfl, rfl⟩
  | e :: rest, s => by
    have h := eval_counters e s
    rw [evalAll]
    split
    · rename_i hr; rw [hr] at h; exact h
    · rename_i k s' hr
      rw [hr] at h
      have h' := evalAll_counters rest s'
      simp only at h
      rw [h.1, h.2.1, h.2.2] at h'
      split <;> (rename_i hr'; rw [hr'] at h'; exact h')

end

/-- What evaluation does: it appends one tree (or several). -/
structure Built (s : BuildState) (ts : List LTree) (more : List Node) : Prop where
  nodup : (preorderAll ts).Nodup
  lower : ∀ x ∈ preorderAll ts, s.nodes.length ≤ x
  upper : ∀ x ∈ preorderAll ts, x < (s.nodes ++ more).length

mutual

theorem eval_spec : ∀ (e : LogicExpr), Possible e → ∀ s : BuildState,
    Distinct s.forest → (∀ x ∈ preorderAll s.forest, x < s.nodes.length) →
    ∃ t more data, e.eval s = (.ok t.id, ⟨s.nodes ++ more, s.forest ++ [t], data⟩) ∧
      Stands (fun i => (s.nodes ++ more)[i]?) e t ∧ Built s [t] more
  | .new call, hp, s, hd, hF => by
    cases hp with
    | @new _ node hm =>
      obtain ⟨data, hr⟩ := makes_run hm s.data
      refine ⟨.node s.nodes.length [], [node], data, ?_, .new ?_ hm, ?_⟩
      · rw [LogicExpr.eval, hr]
        rfl
      · simp
      · constructor <;> simp [LTree.preorder]
  | .shift left right, hp, s, hd, hF => by
    cases hp with
    | shift hl hr =>
      obtain ⟨⟨i, cs⟩, more, data, h1, h2, b1⟩ := eval_spec left hl s hd hF
      obtain ⟨s', hs'⟩ : ∃ s' : BuildState,
        (⟨s.nodes ++ more, s.forest ++ [.node i cs], data⟩ : BuildState) = s' := ⟨_, rfl⟩
      have eN : s'.nodes = s.nodes ++ more := by rw [← hs']
      have eF : s'.forest = s.forest ++ [.node i cs] := by rw [← hs']
      have hd' : Distinct s'.forest := by
        unfold Distinct
        rw [eF, preorderAll_append]
        exact List.nodup_append.2 ⟨hd, b1.nodup, fun a ha b hb hab =>
          absurd (hF a ha) (not_lt.2 (hab ▸ b1.lower b hb))⟩
      have hF' : ∀ x ∈ preorderAll s'.forest, x < s'.nodes.length := by
        intro x hx
        rw [eF, preorderAll_append, List.mem_append] at hx
        rw [eN]
        rcases hx with hx | hx
        · exact lt_of_lt_of_le (hF x hx) (by simp)
        · exact b1.upper x hx
      obtain ⟨ts, more', data', g1, g2, b2⟩ := evalAll_spec right hr s' hd' hF'
      have hd2 : Distinct (s.forest ++ .node i cs :: ts) := by
        have : s.forest ++ .node i cs :: ts = s'.forest ++ ts := by rw [eF]; simp
        unfold Distinct
        rw [this, preorderAll_append]
        exact List.nodup_append.2 ⟨hd', b2.nodup, fun a ha b hb hab =>
          absurd (hF' a ha) (not_lt.2 (hab ▸ b2.lower b hb))⟩
      refine ⟨.node i (cs ++ ts), more ++ more', data', ?_, ?_, ?_⟩
      · rw [LogicExpr.eval, h1]
        simp only [hs', g1]
        have : s'.forest ++ ts = s.forest ++ .node i cs :: ts := by rw [eF]; simp
        rw [this]
        have el := lshift_roots i s.forest ts cs hd2
        simp only [LTree.id] at el ⊢
        rw [show (LTree.node i cs).id = i from rfl] at *
        simp only [el, eN]
        simp
      · refine .shift (Stands.mono ?_ h2) (StandAll.mono ?_ g2)
        · intro j x hx
          rw [← List.append_assoc]
          exact nodes_mono _ _ _ _ hx
        · intro j x hx
          rw [eN, List.append_assoc] at hx
          exact hx
      · have e : ∀ x, x ∈ preorderAll [LTree.node i (cs ++ ts)] ↔
            x ∈ preorderAll [LTree.node i cs] ∨ x ∈ preorderAll ts := by
          intro x
          simp [LTree.preorder, preorderAll_append, or_assoc]
        constructor
        · unfold Distinct at hd2
          rw [preorderAll_append] at hd2
          have := (List.nodup_append.1 hd2).2.1
          simpa [LTree.preorder, preorderAll_append] using this
        · intro x hx
          rcases (e x).1 hx with h | h
          · exact b1.lower x h
          · have := b2.lower x h
            rw [eN] at this
            exact le_trans (by simp) this
        · intro x hx
          rcases (e x).1 hx with h | h
          · have := b1.upper x h
            rw [← List.append_assoc]
            exact lt_of_lt_of_le this (by simp)
          · have := b2.upper x h
            rw [eN, List.append_assoc] at this
            exact this

theorem evalAll_spec : ∀ (es : List LogicExpr), PossibleAll es → ∀ s : BuildState,
    Distinct s.forest → (∀ x ∈ preorderAll s.forest, x < s.nodes.length) →
    ∃ ts more data, evalAll es s = (.ok (ts.map LTree.id), ⟨s.nodes ++ more, s.forest ++ ts, data⟩) ∧
      StandAll (fun i => (s.nodes ++ more)[i]?) es ts ∧ Built s ts more
  | [], _, s, hd, hF => by
    refine ⟨[], [], s.data, ?_, .nil, ?_⟩
    · rw [evalAll]; simp
    · constructor <;> simp
  | e :: es, hp, s, hd, hF => by
    cases hp with
    | cons he hes =>
      obtain ⟨t, more, data, h1, h2, b1⟩ := eval_spec e he s hd hF
      obtain ⟨s', hs'⟩ : ∃ s' : BuildState,
        (⟨s.nodes ++ more, s.forest ++ [t], data⟩ : BuildState) = s' := ⟨_, rfl⟩
      have eN : s'.nodes = s.nodes ++ more := by rw [← hs']
      have eF : s'.forest = s.forest ++ [t] := by rw [← hs']
      have hd' : Distinct s'.forest := by
        unfold Distinct
        rw [eF, preorderAll_append]
        exact List.nodup_append.2 ⟨hd, b1.nodup, fun a ha b hb hab =>
          absurd (hF a ha) (not_lt.2 (hab ▸ b1.lower b hb))⟩
      have hF' : ∀ x ∈ preorderAll s'.forest, x < s'.nodes.length := by
        intro x hx
        rw [eF, preorderAll_append, List.mem_append] at hx
        rw [eN]
        rcases hx with hx | hx
        · exact lt_of_lt_of_le (hF x hx) (by simp)
        · exact b1.upper x hx
      obtain ⟨ts, more', data', g1, g2, b2⟩ := evalAll_spec es hes s' hd' hF'
      refine ⟨t :: ts, more ++ more', data', ?_, ?_, ?_⟩
      · rw [evalAll, h1]
        simp only [hs', g1, eN, eF]
        simp
      · refine .cons (Stands.mono ?_ h2) (StandAll.mono ?_ g2)
        · intro j x hx
          rw [← List.append_assoc]
          exact nodes_mono _ _ _ _ hx
        · intro j x hx
          rw [eN, List.append_assoc] at hx
          exact hx
      · have el : ∀ x ∈ preorderAll ts, (s.nodes ++ more).length ≤ x := by
          intro x hx
          rw [← eN]
          exact b2.lower x hx
        constructor
        · rw [preorderAll_cons]
          refine List.nodup_append.2 ⟨by simpa using b1.nodup, b2.nodup, fun a ha b hb hab => ?_⟩
          exact absurd (b1.upper a (by simpa using ha)) (not_lt.2 (hab ▸ el b hb))
        · intro x hx
          rw [preorderAll_cons, List.mem_append] at hx
          rcases hx with h | h
          · exact b1.lower x (by simpa using h)
          · exact le_trans (by simp) (el x h)
        · intro x hx
          rw [preorderAll_cons, List.mem_append] at hx
          rcases hx with h | h
          · rw [← List.append_assoc]
            exact lt_of_lt_of_le (b1.upper x (by simpa using h)) (by simp)
          · have := b2.upper x h
            rw [eN, List.append_assoc] at this
            exact this

end

/-- The result of building an expression in a new simulation. -/
theorem build_spec (e : LogicExpr) (hp : Possible e) :
    ∃ t nodes data, e.build = (.ok (some t), ⟨nodes, [t], data⟩) ∧
      Stands (fun i => nodes[i]?) e t ∧ Distinct [t] := by
  obtain ⟨t, more, data, h1, h2, b⟩ := eval_spec e hp ⟨[], [], newData⟩ (by simp [Distinct])
    (by simp)
  refine ⟨t, more, data, ?_, by simpa using h2, b.nodup⟩
  unfold LogicExpr.build
  rw [h1]
  simp [rootOf, id_mem_preorder]

mutual

/-- The calls below the root, in the order of updates. -/
def belowCalls : LogicExpr → List NodeCall
  | .new _ => []
  | .shift left right => belowCalls left ++ callsAll right

/-- The calls of several expressions, in the order of updates. -/
def callsAll : List LogicExpr → List NodeCall
  | [] => []
  | e :: es => belowCalls e ++ [rootCall e] ++ callsAll es

/-- The call that makes the root. -/
def rootCall : LogicExpr → NodeCall
  | .new call => call
  | .shift left _ => rootCall left

end

/-- The node with the number is made by the call. -/
def MadeBy (kind : ℕ → Option Node) (i : ℕ) (call : NodeCall) : Prop :=
  ∃ node, kind i = some node ∧ Makes call node

mutual

theorem stands_order {kind : ℕ → Option Node} : ∀ {e : LogicExpr} {i : ℕ} {cs : List LTree},
    Stands kind e (.node i cs) →
    List.Forall₂ (MadeBy kind) (postorderAll cs) (belowCalls e) ∧ MadeBy kind i (rootCall e)
  | _, _, _, .new h1 h2 => by
    rw [belowCalls, rootCall]
    exact ⟨by simp, _, h1, h2⟩
  | _, _, _, .shift h1 h2 => by
    rw [belowCalls, rootCall, postorderAll_append]
    have a := stands_order h1
    exact ⟨List.rel_append a.1 (standAll_order h2), a.2⟩

theorem standAll_order {kind : ℕ → Option Node} : ∀ {es : List LogicExpr} {ts : List LTree},
    StandAll kind es ts → List.Forall₂ (MadeBy kind) (postorderAll ts) (callsAll es)
  | _, _, .nil => by rw [callsAll]; simp
  | _, _, .cons (t := .node i cs) h1 h2 => by
    rw [callsAll, postorderAll_cons, LTree.postorder]
    have a := stands_order h1
    exact List.rel_append (List.rel_append a.1 (.cons a.2 .nil)) (standAll_order h2)

end

theorem makes_unique {c : NodeCall} {a b : Node} (h : Makes c a) (h' : Makes c b) : a = b := by
  cases h with
  | plain => cases h'; rfl
  | insideDomain f ring holes h =>
    cases h' with
    | insideDomain _ ring' holes' h2 =>
      rw [h] at h2
      cases h2
      rfl
  | exitDetection r h => cases h'; rfl

/-- The order of updates of an expression. -/
theorem order_eq {e : LogicExpr} (hp : Possible e) {ns : List Node}
    (h : List.Forall₂ Makes (belowCalls e ++ [rootCall e]) ns) : e.order = .ok ns := by
  obtain ⟨⟨i, cs⟩, nodes, data, h1, h2, -⟩ := build_spec e hp
  unfold LogicExpr.order
  rw [h1]
  simp only
  congr 1
  have a := stands_order h2
  have b : List.Forall₂ (MadeBy fun i => nodes[i]?) (postorderAll cs ++ [i])
      (belowCalls e ++ [rootCall e]) := List.rel_append a.1 (.cons a.2 .nil)
  rw [LTree.postorder]
  clear h1 h2 a
  generalize postorderAll cs ++ [i] = l at b ⊢
  generalize belowCalls e ++ [rootCall e] = m at h b
  clear hp
  induction b generalizing ns with
  | nil => cases h; rfl
  | cons hd _ ih =>
    cases h with
    | cons g1 g2 =>
      obtain ⟨node, e1, e2⟩ := hd
      rw [List.map_cons, ih g2]
      congr 1
      rw [List.getD_eq_getElem?_getD, show nodes[_]? = some node from e1]
      exact makes_unique e2 g1

theorem allBefore_iff (P Q : Node → Prop) (order : List Node) :
    AllBefore P Q order ↔ (∀ x ∈ order, ¬ (P x ∧ Q x)) ∧
      order.Pairwise (fun a b => ¬ (Q a ∧ P b)) := by
  constructor
  · intro h
    refine ⟨fun x hx hpq => ?_, ?_⟩
    · obtain ⟨i, hi⟩ := List.mem_iff_getElem?.1 hx
      exact lt_irrefl _ (h i i x x hi hi hpq.1 hpq.2)
    · rw [List.pairwise_iff_getElem]
      intro i j hi hj hij hpq
      have := h j i _ _ (List.getElem?_eq_getElem hj) (List.getElem?_eq_getElem hi) hpq.2 hpq.1
      omega
  · rintro ⟨h1, h2⟩ i j a b hi hj ha hb
    rw [List.pairwise_iff_getElem] at h2
    obtain ⟨hi', ei⟩ := List.getElem?_eq_some_iff.1 hi
    obtain ⟨hj', ej⟩ := List.getElem?_eq_some_iff.1 hj
    rcases lt_trichotomy i j with h | h | h
    · exact h
    · subst h
      rw [ei] at ej
      subst ej
      exact absurd ⟨ha, hb⟩ (h1 a (List.mem_iff_getElem?.2 ⟨i, hi⟩))
    · exact absurd ⟨ej ▸ hb, ei ▸ ha⟩ (h2 j i hj' hi' h)

end CrowdDynamics
