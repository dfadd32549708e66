import Verif.Proofs.Logic
import Mathlib.Tactic.FinCases

/-!
# Properties C44, C78, C79: the logic tree
-/

namespace CrowdDynamics

open Spec

/-! ## C44: order of the updates -/

/-- **C44** An update runs exactly the nodes of the tree, each once. -/
theorem C44_once (t : LTree) (hd : Distinct [t]) :
    t.postorder.Nodup ∧ ∀ a, a ∈ t.postorder ↔ HasNode [t] a := by
  have e : preorderAll [t] = t.preorder := by simp
  refine ⟨?_, fun a => ?_⟩
  · rw [(postorder_perm t).nodup_iff, ← e]; exact hd
  · rw [(postorder_perm t).mem_iff, hasNode_iff, e]

/-- **C44** Every node runs after all nodes below it. -/
theorem C44_children_first (t : LTree) (hd : Distinct [t]) (a b : ℕ) (h : BelowNode [t] a b) :
    RunsBefore t.postorder a b := by
  have key : ∀ a b, BelowNode [t] a b →
      ∃ cs, InForest (.node b cs) [t] ∧ ∃ u ∈ cs, ∃ ds, Subtree (.node a ds) u := by
    intro a b h
    induction h with
    | child h =>
      obtain ⟨cs, ds, h1, h2⟩ := h
      exact ⟨cs, h1, _, h2, ds, .refl _⟩
    | step h _ ih =>
      obtain ⟨cs, ds, h1, h2⟩ := h
      obtain ⟨es, g1, u, hu, fs, g2⟩ := ih
      obtain ⟨t', ht', g1'⟩ := id g1
      have := inForest_unique hd h1 ⟨t', ht', Subtree.trans (Subtree.trans g2 (.inside hu (.refl _))) g1'⟩
        rfl
      cases this
      exact ⟨es, g1, u, hu, ds, Subtree.trans (.inside h2 (.refl _)) g2⟩
  obtain ⟨cs, ⟨t', ht', h1⟩, u, hu, ds, h2⟩ := key a b h
  rw [List.mem_singleton] at ht'
  subst ht'
  obtain ⟨l1, l2, e⟩ := subtree_postorder h1
  have ha : a ∈ postorderAll cs := by
    refine (postorderAll_perm cs).mem_iff.2 (mem_preorderAll.2 ⟨u, hu, ?_⟩)
    exact (subtree_preorder h2).subset (by simp [LTree.preorder])
  obtain ⟨m1, m2, em⟩ := List.append_of_mem ha
  refine ⟨l1 ++ m1, m2, l2, ?_⟩
  rw [← e, LTree.postorder, em]
  simp

/-- A logic tree: node 0 above 1, which is above 2 and 3. -/
def sampleTree : LTree := .node 0 [.node 1 [.node 2 [], .node 3 []]]

/-- The hypotheses can be met, and the update order is the expected one. -/
example : Distinct [sampleTree] ∧ BelowNode [sampleTree] 3 0 ∧
    sampleTree.postorder = [2, 3, 1, 0] := by
  refine ⟨by simp [Distinct, sampleTree, LTree.preorder], ?_,
    by simp [sampleTree, LTree.postorder]⟩
  refine .step (b := 1) ?_ (.child ?_)
  · exact ⟨[.node 2 [], .node 3 []], [],
      ⟨sampleTree, by simp, .inside (List.mem_singleton.2 rfl) (.refl _)⟩, by simp⟩
  · exact ⟨[.node 1 [.node 2 [], .node 3 []]], _, ⟨sampleTree, by simp, .refl _⟩,
      List.mem_singleton.2 rfl⟩

/-- **C44** After `self.inject_before(node)`, the injected node runs right after `self`, in the
same tree; `self` is its child, it has the former parent of `self`, and no other node changes its
parent. -/
theorem C44_inject_before (F F' : List LTree) (hd : Distinct F) (self node : ℕ)
    (h : injectBefore self node F = (.ok (), F')) :
    (∃ t ∈ F', RunsRightBefore t.postorder self node) ∧
    (∀ a b, ChildOf F' a b ↔ (a = self ∧ b = node) ∨ (a = node ∧ ChildOf F self b) ∨
      (a ≠ self ∧ a ≠ node ∧ ChildOf F a b)) ∧
    Distinct F' ∧ ∀ a, HasNode F' a ↔ HasNode F a := by
  obtain ⟨-, h2, cs, ds, t, ht, hs⟩ := injectBefore_ok hd h
  have hp := injectBefore_perm hd self node
  rw [h] at hp
  refine ⟨⟨t, ht, ?_⟩, ?_, Distinct.perm hd hp, fun a => ?_⟩
  · obtain ⟨l1, l2, e⟩ := subtree_postorder hs
    refine ⟨l1 ++ postorderAll cs ++ postorderAll ds, l2, ?_⟩
    rw [← e, LTree.postorder, postorderAll_append, postorderAll_cons, LTree.postorder]
    simp
  · simpa only [childOf_iff] using h2
  · rw [hasNode_iff, hasNode_iff]; exact hp.mem_iff

/-- **C44** After `self.inject_after(node)`, the injected node runs right before `self`, in the
same tree; it is the only child of `self`, has got all former children of `self`, and no other node
changes its parent. -/
theorem C44_inject_after (F F' : List LTree) (hd : Distinct F) (self node : ℕ)
    (h : injectAfter self node F = (.ok (), F')) :
    (∃ t ∈ F', RunsRightBefore t.postorder node self) ∧
    (∀ a b, ChildOf F' a b ↔ (a = node ∧ b = self) ∨
      (a ≠ node ∧ ChildOf F a self ∧ b = node) ∨
      (a ≠ node ∧ ¬ ChildOf F a self ∧ ChildOf F a b)) ∧
    (∀ a, ChildOf F' a self ↔ a = node) ∧
    Distinct F' ∧ ∀ a, HasNode F' a ↔ HasNode F a := by
  obtain ⟨hne, h2, cs, ds, t, ht, hs⟩ := injectAfter_ok hd h
  have hp := injectAfter_perm hd self node
  rw [h] at hp
  refine ⟨⟨t, ht, ?_⟩, ?_, ?_, Distinct.perm hd hp, fun a => ?_⟩
  · obtain ⟨l1, l2, e⟩ := subtree_postorder hs
    refine ⟨l1 ++ postorderAll cs ++ postorderAll ds, l2, ?_⟩
    rw [← e, LTree.postorder, postorderAll_append, postorderAll_cons, LTree.postorder]
    simp
  · simpa only [childOf_iff] using h2
  · intro a
    rw [childOf_iff, h2]
    constructor
    · rintro (⟨h, -⟩ | ⟨-, -, h⟩ | ⟨-, h, h'⟩)
      · exact h
      · exact absurd h hne
      · exact absurd h' h
    · rintro rfl
      exact .inl ⟨rfl, rfl⟩
  · rw [hasNode_iff, hasNode_iff]; exact hp.mem_iff

/-- **C44** A new node, which has neither parent nor children, can always be injected before and
after any other node. -/
theorem C44_inject_new (F : List LTree) (hd : Distinct F) (self node : ℕ) (hs : HasNode F self)
    (hn : LTree.node node [] ∈ F) (hne : self ≠ node) :
    (∃ F', injectBefore self node F = (.ok (), F')) ∧
      ∃ F', injectAfter self node F = (.ok (), F') := by
  have hnin : InForest (.node node []) F := ⟨_, hn, .refl _⟩
  have hroot : ∀ b, (node, b) ∉ edgesAll F := by
    intro b hb
    have hnd := (edgesAll_preorder F).nodup_iff.2 hd
    exact (List.nodup_append.1 hnd).2.2 node (List.mem_map.2 ⟨_, hn, rfl⟩) node
      (List.mem_map.2 ⟨_, hb, rfl⟩) rfl
  have hleaf : ∀ a, (a, node) ∉ edgesAll F := by
    intro a ha
    obtain ⟨cs, ds, h1, h2⟩ := childOf_iff.2 ha
    have := inForest_unique hd h1 hnin rfl
    cases this
    simp at h2
  have hnF : node ∈ preorderAll F := hasNode_iff.1 ⟨[], hnin⟩
  have hsub : ∀ s sub, s ≠ node → findAll s F = some sub → node ∉ sub.preorder := by
    intro s sub hsn e hm
    obtain ⟨hid, hin⟩ := (findAll_spec s F).1 sub e
    rcases mem_preorder_edges hm with h | ⟨b, hb⟩
    · exact hsn (by rw [h, hid])
    · exact hroot b (edges_subset hin hb)
  have hfind : ∀ s, s ∈ preorderAll F → ∃ sub, findAll s F = some sub := by
    intro s hs
    cases e : findAll s F with
    | none => exact absurd hs ((findAll_spec s F).2 e)
    | some sub => exact ⟨sub, rfl⟩
  constructor
  · obtain ⟨sub, e⟩ := hfind self (hasNode_iff.1 hs)
    obtain ⟨F1, h1⟩ := (setParent_ok_iff e (p := some node)).2
      (.inr fun q hq => by cases hq; exact ⟨hsub self sub hne e, hnF⟩)
    obtain ⟨p1, ed1, sub1, f1, in1, ins1⟩ := setParent_ok hd h1
    rw [e] at f1
    cases f1
    have hd1 := Distinct.perm hd p1
    have hpn : parentOfAll self F ≠ some node := by
      rw [ne_eq, parentOfAll_eq_some hd]; exact hleaf self
    obtain ⟨cs, hcs⟩ := ins1 hpn node rfl
    have hid := ((findAll_spec self F).1 sub e).1
    have f2 : findAll node F1 = some (.node node (cs ++ [sub])) := findAll_eq hd1 hcs
    unfold injectBefore
    simp only [h1]
    refine (setParent_ok_iff f2).2 (.inr fun q hq => ?_)
    have hq' : (self, q) ∈ edgesAll F := (parentOfAll_eq_some hd).1 hq
    have hqF : q ∈ preorderAll F := by
      obtain ⟨cs', ds, g1, -⟩ := childOf_iff.2 hq'
      exact hasNode_iff.1 ⟨cs', g1⟩
    refine ⟨fun hm => ?_, p1.mem_iff.2 hqF⟩
    -- everything below `node` is now `self` and what is below `self`
    have hcs' : cs = [] := by
      rcases cs with _ | ⟨c, cs⟩
      · rfl
      · exfalso
        have h2 : (c.id, node) ∈ edgesAll F1 := by
          cases c with
          | node k ds => exact childOf_iff.1 ⟨.node k ds :: cs ++ [sub], ds, hcs, List.mem_cons_self⟩
        rw [ed1] at h2
        rcases h2 with ⟨h2, -⟩ | ⟨-, h2⟩
        · have hnd := List.Nodup.sublist (inForest_preorder hcs) hd1
          rw [LTree.preorder, List.nodup_cons, preorderAll_append] at hnd
          refine (List.nodup_append.1 hnd.2).2.2 self ?_ self ?_ rfl
          · rw [preorderAll_cons, ← h2]; exact List.mem_append_left _ (id_mem_preorder c)
          · rw [preorderAll_cons]; exact List.mem_append_left _ (hid ▸ id_mem_preorder sub)
        · exact hleaf _ h2
    subst hcs'
    rw [LTree.preorder] at hm
    simp only [List.nil_append, preorderAll_cons, preorderAll_nil, List.append_nil,
      List.mem_cons] at hm
    rcases hm with rfl | hm
    · exact hleaf _ hq'
    · exact no_cycle hd e hq' hm
  · -- the children are moved one after the other
    have loop : ∀ (l : List ℕ) (G : List LTree), Distinct G → (∀ b, (node, b) ∉ edgesAll G) →
        node ∈ preorderAll G → (∀ c ∈ l, c ∈ preorderAll G ∧ c ≠ node) →
        ∃ G', adoptAll node l G = (.ok (), G') ∧ (∀ b, (node, b) ∉ edgesAll G') ∧
          (preorderAll G').Perm (preorderAll G) := by
      intro l
      induction l with
      | nil => intro G _ h _ _; exact ⟨G, rfl, h, .refl _⟩
      | cons c l ih =>
        intro G hG hr hnG hl
        obtain ⟨hcG, hcn⟩ := hl c (by simp)
        obtain ⟨sub, e⟩ : ∃ sub, findAll c G = some sub := by
          cases e : findAll c G with
          | none => exact absurd hcG ((findAll_spec c G).2 e)
          | some sub => exact ⟨sub, rfl⟩
        obtain ⟨hid, hin⟩ := (findAll_spec c G).1 sub e
        have hnsub : node ∉ sub.preorder := by
          intro hm
          rcases mem_preorder_edges hm with h | ⟨b, hb⟩
          · exact hcn (by rw [h, hid])
          · exact hr b (edges_subset hin hb)
        obtain ⟨G1, h1⟩ := (setParent_ok_iff e (p := some node)).2
          (.inr fun q hq => by cases hq; exact ⟨hnsub, hnG⟩)
        obtain ⟨p1, ed1, -⟩ := setParent_ok hG h1
        obtain ⟨G', h2, h3, h4⟩ := ih G1 (Distinct.perm hG p1)
          (fun b hb => by
            rw [ed1] at hb
            rcases hb with hb | hb
            · exact hcn hb.1.symm
            · exact hr b hb.2)
          (p1.mem_iff.2 hnG)
          (fun c' hc' => ⟨p1.mem_iff.2 (hl c' (by simp [hc'])).1, (hl c' (by simp [hc'])).2⟩)
        refine ⟨G', ?_, h3, h4.trans p1⟩
        rw [adoptAll, h1]
        exact h2
    obtain ⟨F1, h1, h2, h3⟩ := loop (childrenOf self F) F hd hroot hnF (by
      intro c hc
      rw [mem_childrenOf hd] at hc
      refine ⟨?_, ?_⟩
      · exact (edgesAll_preorder F).subset (List.mem_append_right _ (List.mem_map.2 ⟨_, hc, rfl⟩))
      · rintro rfl; exact hroot _ hc)
    obtain ⟨-, hd1, ed1⟩ := adoptAll_ok node _ hd h1
    unfold injectAfter
    rw [h1]
    simp only
    obtain ⟨sub, e⟩ : ∃ sub, findAll node F1 = some sub := by
      cases e : findAll node F1 with
      | none => exact absurd (h3.mem_iff.2 hnF) ((findAll_spec node F1).2 e)
      | some sub => exact ⟨sub, rfl⟩
    obtain ⟨hid, hin⟩ := (findAll_spec node F1).1 sub e
    refine (setParent_ok_iff e).2 (.inr fun q hq => ?_)
    cases hq
    refine ⟨fun hm => ?_, h3.mem_iff.2 (hasNode_iff.1 hs)⟩
    -- `self` would lie below `node`, hence below one of its own children
    have climb : ∀ (x : ℕ), BelowNode F1 x node → ¬ ChildOf F x self → x ≠ node →
        BelowNode F x self := by
      intro x hx
      have : ∀ x y, BelowNode F1 x y → y = node → ¬ ChildOf F x self → x ≠ node →
          BelowNode F x self := by
        intro x y h
        induction h with
        | child h =>
          intro hy hc _
          rw [childOf_iff, hy, ed1] at h
          rcases h with h | h
          · exact absurd (childOf_iff.2 ((mem_childrenOf hd).1 h.1)) hc
          · exact absurd h.2 (hleaf _)
        | @step a b c h _ ih =>
          intro hy hc hne
          rw [childOf_iff, ed1] at h
          rcases h with h | h
          · exact absurd (childOf_iff.2 ((mem_childrenOf hd).1 h.1)) hc
          · have hab := childOf_iff.2 h.2
            by_cases hb : ChildOf F b self
            · exact .step hab (.child hb)
            · by_cases hbn : b = node
              · subst hbn; exact absurd h.2 (hleaf _)
              · exact .step hab (ih hy hb hbn)
      exact this x node hx rfl
    have hcyc : ∀ x y, BelowNode F x y → ∃ cs, InForest (.node y cs) F ∧ x ∈ preorderAll cs := by
      intro x y h
      induction h with
      | child h =>
        obtain ⟨cs, ds, g1, g2⟩ := h
        exact ⟨cs, g1, mem_preorderAll.2 ⟨_, g2, by simp [LTree.preorder]⟩⟩
      | @step a b c h _ ih =>
        obtain ⟨cs, ds, g1, g2⟩ := h
        obtain ⟨es, g3, g4⟩ := ih
        refine ⟨es, g3, ?_⟩
        obtain ⟨u, hu, hb⟩ := mem_preorderAll.1 g4
        obtain ⟨fs, hf⟩ := mem_preorder_subtree u hb
        obtain ⟨t, ht, g3'⟩ := g3
        have := inForest_unique hd g1 ⟨t, ht, Subtree.trans (.inside hu hf) g3'⟩ rfl
        cases this
        refine mem_preorderAll.2 ⟨u, hu, (subtree_preorder hf).subset ?_⟩
        rw [LTree.preorder]
        exact List.mem_cons_of_mem _ (mem_preorderAll.2 ⟨_, g2, by simp [LTree.preorder]⟩)
    have hirr : ¬ BelowNode F self self := by
      intro h
      obtain ⟨cs, g1, g2⟩ := hcyc self self h
      have hnd := List.Nodup.sublist (inForest_preorder g1) hd
      rw [LTree.preorder, List.nodup_cons] at hnd
      exact hnd.1 g2
    have hbelow : BelowNode F1 self node := by
      -- from membership in the subtree
      have gen : ∀ (t : LTree), (∀ u, Subtree u t → InForest u F1) → ∀ x ∈ t.preorder, x ≠ t.id →
          BelowNode F1 x t.id := by
        intro t
        induction t using LTree.ind with
        | h i cs ih =>
          intro hin x hx hne
          rw [LTree.preorder, List.mem_cons] at hx
          rcases hx with hx | hx
          · exact absurd hx hne
          · obtain ⟨c, hc, hxc⟩ := mem_preorderAll.1 hx
            have hci : ChildOf F1 c.id i := by
              cases c with
              | node k ds => exact ⟨cs, ds, hin _ (.refl _), hc⟩
            by_cases hxe : x = c.id
            · rw [hxe]; exact .child hci
            · have h1 := ih c hc (fun u hu => hin u (.inside hc hu)) x hxc hxe
              exact belowNode_trans h1 (.child hci)
      have hall : ∀ u, Subtree u sub → InForest u F1 := by
        intro u hu
        obtain ⟨t, ht, hst⟩ := hin
        exact ⟨t, ht, Subtree.trans hu hst⟩
      have := gen sub hall self hm (by rw [hid]; exact hne)
      rwa [hid] at this
    have hnc : ¬ ChildOf F self self := by
      intro h
      exact hirr (.child h)
    exact hirr (climb self hbelow hnc hne)

/-- The hypotheses can be met: a new node 7 beside the tree above. -/
example : Distinct [sampleTree, .node 7 []] ∧ HasNode [sampleTree, .node 7 []] 1 ∧
    LTree.node 7 [] ∈ [sampleTree, .node 7 []] ∧ (1 : ℕ) ≠ 7 := by
  refine ⟨by simp [Distinct, sampleTree, LTree.preorder], ?_, by simp, by simp⟩
  exact ⟨[.node 2 [], .node 3 []], sampleTree, by simp,
    .inside (List.mem_singleton.2 rfl) (.refl _)⟩

/-- Injecting the new node before node 1. -/
example : injectBefore 1 7 [sampleTree, .node 7 []] =
    (.ok (), [.node 0 [.node 7 [.node 1 [.node 2 [], .node 3 []]]]]) := by
  simp [injectBefore, setParent, sampleTree, findAll, LTree.find, parentOfAll, LTree.parentOf,
    LTree.id, detachAll, LTree.detach, attachAll, LTree.attach, LTree.preorder]

/-- Injecting the new node after node 1. -/
example : injectAfter 1 7 [sampleTree, .node 7 []] =
    (.ok (), [.node 0 [.node 1 [.node 7 [.node 2 [], .node 3 []]]]]) := by
  simp [injectAfter, adoptAll, childrenOf, setParent, sampleTree, findAll, LTree.find, parentOfAll,
    LTree.parentOf, LTree.id, detachAll, LTree.detach, attachAll, LTree.attach, LTree.preorder]

/-- What may be done with a forest of logic nodes. -/
inductive TreeEdit where
  /-- a new node is made -/
  | new (id : ℕ)
  /-- `self.inject_before(node)` -/
  | before (self node : ℕ)
  /-- `self.inject_after(node)` -/
  | after (self node : ℕ)
  /-- `self << others` -/
  | lshift (self : ℕ) (others : List ℕ)

/-- The forest after an edit, whether or not an exception was raised. -/
def TreeEdit.run (F : List LTree) : TreeEdit → List LTree
  | .new id => F ++ [.node id []]
  | .before s n => (injectBefore s n F).2
  | .after s n => (injectAfter s n F).2
  | .lshift s l => (CrowdDynamics.lshift s l F).2

/-- The nodes made by an edit. -/
def TreeEdit.made : TreeEdit → List ℕ
  | .new id => [id]
  | _ => []

/-- **C44** No sequence of edits, whether or not some of them raise exceptions, loses or duplicates
a node: the nodes are those that were there and those that were made. -/
theorem C44_edits (es : List TreeEdit) (F : List LTree)
    (hd : (preorderAll F ++ (es.map TreeEdit.made).flatten).Nodup) :
    Distinct (es.foldl TreeEdit.run F) ∧
      ∀ a, HasNode (es.foldl TreeEdit.run F) a ↔
        HasNode F a ∨ ∃ e ∈ es, a ∈ e.made := by
  have key : (preorderAll (es.foldl TreeEdit.run F)).Perm
      (preorderAll F ++ (es.map TreeEdit.made).flatten) := by
    induction es generalizing F with
    | nil => simp
    | cons e es ih =>
      have hdF : Distinct F := hd.of_append_left
      have h1 : (preorderAll (e.run F)).Perm (preorderAll F ++ e.made) := by
        cases e with
        | new id => simp [TreeEdit.run, TreeEdit.made, preorderAll_append, LTree.preorder]
        | before s n => simpa [TreeEdit.run, TreeEdit.made] using injectBefore_perm hdF s n
        | after s n => simpa [TreeEdit.run, TreeEdit.made] using injectAfter_perm hdF s n
        | lshift s l => simpa [TreeEdit.run, TreeEdit.made] using lshift_perm s l hdF
      have h2 : (preorderAll (e.run F) ++ (es.map TreeEdit.made).flatten).Perm
          (preorderAll F ++ ((e :: es).map TreeEdit.made).flatten) := by
        simpa using h1.append_right (es.map TreeEdit.made).flatten
      exact (ih (e.run F) (h2.nodup_iff.2 hd)).trans h2
  refine ⟨key.nodup_iff.2 hd, fun a => ?_⟩
  rw [hasNode_iff, key.mem_iff, List.mem_append, hasNode_iff]
  simp

/-- Making two nodes, joining them and injecting. -/
example : (preorderAll [sampleTree] ++
    (([.new 7, .before 1 7, .new 8, .lshift 0 [8, 7], .after 1 8] : List TreeEdit).map
      TreeEdit.made).flatten).Nodup := by
  simp [sampleTree, LTree.preorder, TreeEdit.made]

/-! ## C78: injecting keeps the order of the other nodes -/

/-- The full claim of C78: injecting a new node changes the order of no two other nodes of the
tree. -/
def C78_statement : Prop :=
  ∀ (t : LTree) (self node : ℕ) (F' : List LTree), Distinct [t, .node node []] → HasNode [t] self →
    (injectBefore self node [t, .node node []] = (.ok (), F') ∨
      injectAfter self node [t, .node node []] = (.ok (), F')) →
    ∀ a b, a ≠ node → b ≠ node → RunsBefore t.postorder a b →
      ∃ t' ∈ F', RunsBefore t'.postorder a b

/-- **C78** is false of the code: `inject_before` moves the node behind its siblings. -/
theorem C78_inject_before_fails : ¬ C78_statement := by
  intro h
  obtain ⟨t', ht', l1, l2, l3, e⟩ := h (.node 0 [.node 1 [], .node 2 []]) 1 7
    [.node 0 [.node 2 [], .node 7 [.node 1 []]]]
    (by simp [Distinct, LTree.preorder])
    ⟨[], .node 0 [.node 1 [], .node 2 []], by simp, .inside (by simp) (.refl _)⟩
    (.inl (by
      simp [injectBefore, setParent, findAll, LTree.find, parentOfAll, LTree.parentOf,
        LTree.id, detachAll, LTree.detach, attachAll, LTree.attach, LTree.preorder]))
    1 2 (by simp) (by simp) ⟨[], [], [0], by simp [LTree.postorder]⟩
  rw [List.mem_singleton] at ht'
  subst ht'
  simp only [LTree.postorder, postorderAll_cons, postorderAll_nil, List.append_nil,
    List.nil_append, List.cons_append] at e
  have hn : ([2, 1, 7, 0] : List ℕ).Nodup := by simp
  have hidx : ∀ l : List ℕ, l = l1 ++ 1 :: l2 ++ 2 :: l3 → l.Nodup →
      l.idxOf 1 < l.idxOf 2 := by
    intro l hl hnd
    subst hl
    have h12 : (2 : ℕ) ∉ l1 ++ 1 :: l2 := by
      intro hm
      exact (List.nodup_append.1 hnd).2.2 2 hm 2 (by simp) rfl
    have h11 : (1 : ℕ) ∉ l1 := by
      intro hm
      rw [List.append_assoc] at hnd
      exact (List.nodup_append.1 hnd).2.2 1 hm 1 (by simp) rfl
    rw [List.idxOf_append_of_notMem h12, List.append_assoc, List.idxOf_append_of_notMem h11]
    simp
  have := hidx [2, 1, 7, 0] e hn
  simp [List.idxOf, List.findIdx_cons] at this

/-- **C78** (partial) `inject_after` keeps the order of all other nodes. What is missing:
`inject_before` of a node with siblings behind it, for which the claim is false. -/
theorem C78_inject_after_partial (t : LTree) (self node : ℕ) (hd : Distinct [t, .node node []])
    (hs : HasNode [t] self) :
    ∃ t', injectAfter self node [t, .node node []] = (.ok (), [t']) ∧
      t'.postorder.filter (· ≠ node) = t.postorder := by
  obtain ⟨K, cs, hK, rfl⟩ := ctx_exists hs
  refine ⟨_, injectAfter_ctx hK hd, ?_⟩
  obtain ⟨P, Q, hpq⟩ := ctx_postorder hK
  have hn : ∀ x ∈ (K cs).postorder, x ≠ node := by
    intro x hx hxn
    unfold Distinct at hd
    rw [preorderAll_cons, List.nodup_append] at hd
    exact hd.2.2 x ((postorder_perm _).mem_iff.1 hx) node (by simp [LTree.preorder]) hxn
  rw [hpq] at hn ⊢
  rw [hpq]
  have e : ∀ l : List ℕ, (∀ x ∈ l, x ≠ node) → l.filter (· ≠ node) = l := by
    intro l hl
    exact List.filter_eq_self.2 fun x hx => by simpa using hl x hx
  simp only [postorderAll_cons, LTree.postorder, postorderAll_nil, List.append_nil]
  simp only [List.filter_append, List.filter_cons, List.filter_nil, ne_eq, not_true_eq_false,
    decide_false, Bool.false_eq_true, if_false, List.append_nil]
  rw [e P fun x hx => hn x (by simp [hx]), e (postorderAll cs) fun x hx => hn x (by simp [hx]),
    e Q fun x hx => hn x (by simp [hx])]
  have := hn self (by simp)
  simp [this]

example := C78_inject_after_partial sampleTree 1 7
  (by simp [Distinct, sampleTree, LTree.preorder])
  ⟨[.node 2 [], .node 3 []], sampleTree, by simp, .inside (List.mem_singleton.2 rfl) (.refl _)⟩

/-- **C78** (partial) `inject_before` keeps the order of all other nodes if `self` is the root, or
has no siblings behind it. -/
theorem C78_inject_before_partial (t : LTree) (self node : ℕ) (hd : Distinct [t, .node node []])
    (h : t.id = self ∨ ∃ p l sub, sub.id = self ∧ InForest (.node p (l ++ [sub])) [t]) :
    ∃ t', injectBefore self node [t, .node node []] = (.ok (), [t']) ∧
      t'.postorder.filter (· ≠ node) = t.postorder := by
  have hn : ∀ x ∈ t.postorder, x ≠ node := by
    intro x hx hxn
    unfold Distinct at hd
    rw [preorderAll_cons, List.nodup_append] at hd
    exact hd.2.2 x ((postorder_perm _).mem_iff.1 hx) node (by simp [LTree.preorder]) hxn
  have e : ∀ l : List ℕ, (∀ x ∈ l, x ≠ node) → l.filter (· ≠ node) = l := by
    intro l hl
    exact List.filter_eq_self.2 fun x hx => by simpa using hl x hx
  rcases h with rfl | ⟨p, l, sub, rfl, hin⟩
  · refine ⟨_, injectBefore_root hd, ?_⟩
    rw [LTree.postorder, postorderAll_cons, postorderAll_nil, List.append_nil, List.filter_append,
      e _ hn]
    simp
  · obtain ⟨K, cs, hK, rfl⟩ := ctx_exists (self := p) ⟨_, hin⟩
    have hcs : cs = l ++ [sub] := by
      have h1 : InForest (.node p cs) [K cs] := ⟨_, by simp, ctx_subtree hK cs⟩
      have hd1 : Distinct [K cs] := by
        unfold Distinct at hd ⊢
        rw [preorderAll_cons] at hd
        simpa using hd.of_append_left
      have := inForest_unique hd1 h1 hin rfl
      cases this
      rfl
    subst hcs
    refine ⟨_, injectBefore_ctx hK hd, ?_⟩
    obtain ⟨P, Q, hpq⟩ := ctx_postorder hK
    rw [hpq] at hn ⊢
    rw [hpq]
    simp only [postorderAll_append, postorderAll_cons, LTree.postorder, postorderAll_nil,
      List.append_nil] at hn ⊢
    simp only [List.filter_append, List.filter_cons, List.filter_nil, ne_eq, not_true_eq_false,
      decide_false, Bool.false_eq_true, if_false, List.append_nil]
    rw [e P fun x hx => hn x (by simp [hx]), e (postorderAll l) fun x hx => hn x (by simp [hx]),
      e sub.postorder fun x hx => hn x (by simp [hx]), e Q fun x hx => hn x (by simp [hx])]
    have := hn p (by simp)
    simp [this]

/-- The hypotheses can be met: node 3 is the last child of node 1. -/
example : Distinct [sampleTree, .node 7 []] ∧
    ∃ p l sub, sub.id = 3 ∧ InForest (.node p (l ++ [sub])) [sampleTree] := by
  refine ⟨by simp [Distinct, sampleTree, LTree.preorder], 1, [.node 2 []], .node 3 [], rfl,
    sampleTree, by simp, .inside (List.mem_singleton.2 rfl) (.refl _)⟩

/-! ## C79: looking up a node by its name -/

/-- **C79** From every node of a tree the same node is found for a name; a node is found if and only
if there is one with the name in the tree, and it then has the name. -/
theorem C79_getitem (F : List LTree) (hd : Distinct F) (name : ℕ → String) (item : String)
    (t : LTree) (ht : t ∈ F) (a b : ℕ) (ha : a ∈ t.preorder) (hb : b ∈ t.preorder) :
    getItem name a item F = getItem name b item F ∧
    ((∃ k, k ∈ t.preorder ∧ name k = item) →
      ∃ k, getItem name a item F = .ok k ∧ k ∈ t.preorder ∧ name k = item) ∧
    ((¬ ∃ k, k ∈ t.preorder ∧ name k = item) → getItem name a item F = .error .key) := by
  have root : ∀ x ∈ t.preorder, rootOf x F = some t := by
    intro x hx
    unfold rootOf
    cases e : F.find? fun t => x ∈ t.preorder with
    | none => simp at e; exact absurd hx (e t ht)
    | some u =>
      have h1 : x ∈ u.preorder := by simpa using List.find?_some e
      have h2 : u ∈ F := List.mem_of_find?_eq_some e
      congr 1
      by_contra hne
      obtain ⟨l1, l2, rfl⟩ := List.append_of_mem ht
      obtain ⟨n1, n2, -⟩ := notMem_around hd hx
      rcases List.mem_append.1 h2 with h | h
      · exact n1 (mem_preorderAll.2 ⟨u, h, h1⟩)
      · rcases List.mem_cons.1 h with h | h
        · exact hne h
        · exact n2 (mem_preorderAll.2 ⟨u, h, h1⟩)
  refine ⟨?_, ?_, ?_⟩
  · unfold getItem
    rw [root a ha, root b hb]
  · rintro ⟨k, hk, hn⟩
    unfold getItem
    rw [root a ha]
    simp only
    cases e : t.preorder.find? fun k => name k = item with
    | none => simp at e; exact absurd hn (e k hk)
    | some k' => exact ⟨k', rfl, List.mem_of_find?_eq_some e, by simpa using List.find?_some e⟩
  · intro hn
    unfold getItem
    rw [root a ha]
    simp only
    cases e : t.preorder.find? fun k => name k = item with
    | none => rfl
    | some k' =>
      exact absurd ⟨k', List.mem_of_find?_eq_some e, by simpa using List.find?_some e⟩ hn

/-- The hypotheses can be met. -/
example : Distinct [sampleTree] ∧ 2 ∈ sampleTree.preorder ∧ 0 ∈ sampleTree.preorder := by
  simp [Distinct, sampleTree, LTree.preorder]

end CrowdDynamics
