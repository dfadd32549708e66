import Verif.Spec.TreeOrder
import Mathlib.Data.List.Perm.Basic
import Mathlib.Data.List.Nodup
import Mathlib.Data.List.Infix
import Mathlib.Tactic.Tauto

/-!
# Logic trees
-/

namespace CrowdDynamics

open Spec

/-- Induction over trees. -/
theorem LTree.ind {P : LTree → Prop} (h : ∀ i cs, (∀ c ∈ cs, P c) → P (.node i cs)) :
    ∀ t, P t
  | .node i cs => h i cs fun c hc => by
      have := List.sizeOf_lt_of_mem hc
      exact LTree.ind h c

theorem preorderAll_append (a b : List LTree) :
    preorderAll (a ++ b) = preorderAll a ++ preorderAll b := by
  induction a with
  | nil => simp [preorderAll]
  | cons t a ih => simp [preorderAll, ih]

theorem postorderAll_append (a b : List LTree) :
    postorderAll (a ++ b) = postorderAll a ++ postorderAll b := by
  induction a with
  | nil => simp [postorderAll]
  | cons t a ih => simp [postorderAll, ih]

@[simp] theorem preorderAll_cons (t : LTree) (a : List LTree) :
    preorderAll (t :: a) = t.preorder ++ preorderAll a := by rw [preorderAll]

@[simp] theorem preorderAll_nil : preorderAll [] = [] := by rw [preorderAll]

@[simp] theorem postorderAll_cons (t : LTree) (a : List LTree) :
    postorderAll (t :: a) = t.postorder ++ postorderAll a := by rw [postorderAll]

@[simp] theorem postorderAll_nil : postorderAll [] = [] := by rw [postorderAll]

theorem mem_preorderAll {x : ℕ} {F : List LTree} :
    x ∈ preorderAll F ↔ ∃ t ∈ F, x ∈ t.preorder := by
  induction F with
  | nil => simp
  | cons t F ih => simp [ih]

theorem postorder_perm (t : LTree) : t.postorder.Perm t.preorder := by
  induction t using LTree.ind with
  | h i cs ih =>
    rw [LTree.postorder, LTree.preorder]
    have : (postorderAll cs).Perm (preorderAll cs) := by
      induction cs with
      | nil => simp
      | cons c cs ihc =>
        rw [postorderAll_cons, preorderAll_cons]
        exact (ih c (by simp)).append (ihc fun c' hc' => ih c' (by simp [hc']))
    exact (List.perm_append_comm.trans (by simpa using this.cons i))

theorem postorderAll_perm (F : List LTree) : (postorderAll F).Perm (preorderAll F) := by
  induction F with
  | nil => simp
  | cons c cs ihc =>
    rw [postorderAll_cons, preorderAll_cons]
    exact (postorder_perm c).append ihc

theorem id_mem_preorder (t : LTree) : t.id ∈ t.preorder := by
  cases t; simp [LTree.preorder, LTree.id]

theorem subtree_preorder {s t : LTree} (h : Subtree s t) : s.preorder.Sublist t.preorder := by
  induction h with
  | refl => exact List.Sublist.refl _
  | @inside c i cs hc _ ih =>
    rw [LTree.preorder]
    refine List.Sublist.cons _ (ih.trans ?_)
    obtain ⟨l1, l2, rfl⟩ := List.append_of_mem hc
    rw [preorderAll_append, preorderAll_cons]
    exact (List.sublist_append_left _ _).trans (List.sublist_append_right _ _)

theorem inForest_preorder {s : LTree} {F : List LTree} (h : InForest s F) :
    s.preorder.Sublist (preorderAll F) := by
  obtain ⟨t, ht, hs⟩ := h
  refine (subtree_preorder hs).trans ?_
  obtain ⟨l1, l2, rfl⟩ := List.append_of_mem ht
  rw [preorderAll_append, preorderAll_cons]
  exact (List.sublist_append_left _ _).trans (List.sublist_append_right _ _)

theorem subtree_postorder {s t : LTree} (h : Subtree s t) : s.postorder <:+: t.postorder := by
  induction h with
  | refl => exact List.infix_refl _
  | @inside c i cs hc _ ih =>
    rw [LTree.postorder]
    refine ih.trans ?_
    obtain ⟨l1, l2, rfl⟩ := List.append_of_mem hc
    rw [postorderAll_append, postorderAll_cons]
    exact ⟨postorderAll l1, postorderAll l2 ++ [i], by simp⟩

theorem Subtree.trans {a b c : LTree} (h1 : Subtree a b) (h2 : Subtree b c) : Subtree a c := by
  induction h2 with
  | refl => exact h1
  | inside hc _ ih => exact .inside hc ih

theorem mem_preorder_subtree {x : ℕ} (t : LTree) (h : x ∈ t.preorder) :
    ∃ cs, Subtree (.node x cs) t := by
  induction t using LTree.ind with
  | h i cs ih =>
    rw [LTree.preorder, List.mem_cons] at h
    rcases h with rfl | h
    · exact ⟨cs, .refl _⟩
    · obtain ⟨t, ht, hx⟩ := mem_preorderAll.1 h
      obtain ⟨ds, hs⟩ := ih t ht hx
      exact ⟨ds, .inside ht hs⟩

theorem hasNode_iff {F : List LTree} {x : ℕ} : HasNode F x ↔ x ∈ preorderAll F := by
  constructor
  · rintro ⟨cs, h⟩
    exact (inForest_preorder h).subset (by simp [LTree.preorder])
  · intro h
    obtain ⟨t, ht, hx⟩ := mem_preorderAll.1 h
    obtain ⟨ds, hs⟩ := mem_preorder_subtree t hx
    exact ⟨ds, t, ht, hs⟩

theorem inForest_inside {u : LTree} {F : List LTree} {i : ℕ} {cs : List LTree}
    (h : InForest u cs) (h' : InForest (.node i cs) F) : InForest u F := by
  obtain ⟨c, hc, hu⟩ := h
  obtain ⟨t, ht, hs⟩ := h'
  exact ⟨t, ht, Subtree.trans (.inside hc hu) hs⟩

/-- In a forest with distinct numbers a number determines the subtree. -/
theorem subtree_unique (t : LTree) : t.preorder.Nodup → ∀ u v : LTree, Subtree u t → Subtree v t →
    u.id = v.id → u = v := by
  induction t using LTree.ind with
  | h i cs ih =>
    intro hn u v hu hv huv
    rw [LTree.preorder, List.nodup_cons] at hn
    have key : ∀ w : LTree, ∀ c ∈ cs, Subtree w c → w.id ∈ preorderAll cs := by
      intro w c hc hw
      exact mem_preorderAll.2 ⟨c, hc, (subtree_preorder hw).subset (id_mem_preorder w)⟩
    cases hu with
    | refl =>
      cases hv with
      | refl => rfl
      | @inside c _ _ hc hv =>
        have := key v c hc hv
        rw [← huv] at this
        exact absurd this hn.1
    | @inside c _ _ hc hu =>
      cases hv with
      | refl =>
        have := key u c hc hu
        rw [huv] at this
        exact absurd this hn.1
      | @inside d _ _ hd hv =>
        have hcd : c = d := by
          by_contra hne
          obtain ⟨l1, l2, rfl⟩ := List.append_of_mem hc
          have hn2 := hn.2
          rw [preorderAll_append, preorderAll_cons] at hn2
          have hcu : u.id ∈ c.preorder := (subtree_preorder hu).subset (id_mem_preorder u)
          have hdv : v.id ∈ d.preorder := (subtree_preorder hv).subset (id_mem_preorder v)
          rw [huv] at hcu
          rw [List.nodup_append, List.nodup_append] at hn2
          obtain ⟨-, ⟨-, -, h3⟩, h4⟩ := hn2
          rcases List.mem_append.1 hd with hd | hd
          · exact h4 _ (mem_preorderAll.2 ⟨d, hd, hdv⟩) _ (by simp [hcu]) rfl
          · rcases List.mem_cons.1 hd with hd | hd
            · exact hne hd.symm
            · exact h3 _ hcu _ (mem_preorderAll.2 ⟨d, hd, hdv⟩) rfl
        subst hcd
        refine ih c hc ?_ u v hu hv huv
        refine hn.2.sublist ?_
        have : Subtree c (.node 0 cs) := .inside hc (.refl _)
        obtain ⟨l1, l2, rfl⟩ := List.append_of_mem hc
        rw [preorderAll_append, preorderAll_cons]
        exact (List.sublist_append_left _ _).trans (List.sublist_append_right _ _)

theorem inForest_unique {F : List LTree} (hd : Distinct F) {u v : LTree} (hu : InForest u F)
    (hv : InForest v F) (h : u.id = v.id) : u = v := by
  -- put the forest below a node with an unused number
  obtain ⟨z, hz⟩ : ∃ z, z ∉ preorderAll F := by
    refine ⟨(preorderAll F).foldr max 0 + 1, fun hm => ?_⟩
    have : ∀ l : List ℕ, ∀ x ∈ l, x ≤ l.foldr max 0 := by
      intro l
      induction l with
      | nil => simp
      | cons a l ih =>
        intro x hx
        rcases List.mem_cons.1 hx with rfl | hx
        · exact le_max_left _ _
        · simp only [List.foldr_cons]
          exact (ih x hx).trans (le_max_right _ _)
    have := this _ _ hm
    omega
  obtain ⟨t, ht, hu⟩ := hu
  obtain ⟨t', ht', hv⟩ := hv
  refine subtree_unique (.node z F) ?_ u v (.inside ht hu) (.inside ht' hv) h
  rw [LTree.preorder]
  exact List.nodup_cons.2 ⟨hz, hd⟩

/-! ## Finding -/

theorem find_spec (s : ℕ) (t : LTree) :
    (∀ r, t.find s = some r → r.id = s ∧ Subtree r t) ∧ (t.find s = none → s ∉ t.preorder) := by
  induction t using LTree.ind with
  | h i cs ih =>
    have hall : (∀ r, findAll s cs = some r → r.id = s ∧ ∃ c ∈ cs, Subtree r c) ∧
        (findAll s cs = none → s ∉ preorderAll cs) := by
      induction cs with
      | nil => simp [findAll]
      | cons c cs ihc =>
        obtain ⟨h1, h2⟩ := ihc fun c' hc' => ih c' (by simp [hc'])
        obtain ⟨g1, g2⟩ := ih c (by simp)
        rw [findAll]
        cases e : c.find s with
        | some r =>
          simp only
          refine ⟨fun r' hr' => ?_, by simp⟩
          cases hr'
          exact ⟨(g1 r e).1, c, by simp, (g1 r e).2⟩
        | none =>
          simp only
          refine ⟨fun r' hr' => ?_, fun hn => ?_⟩
          · obtain ⟨e1, c', hc', e2⟩ := h1 r' hr'
            exact ⟨e1, c', by simp [hc'], e2⟩
          · rw [preorderAll_cons]
            simp [h2 hn, g2 e]
    rw [LTree.find]
    by_cases hi : i = s
    · rw [if_pos hi]
      refine ⟨fun r hr => ?_, by simp⟩
      cases hr
      exact ⟨hi, .refl _⟩
    · rw [if_neg hi]
      refine ⟨fun r hr => ?_, fun hn => ?_⟩
      · obtain ⟨e1, c, hc, e2⟩ := hall.1 r hr
        exact ⟨e1, .inside hc e2⟩
      · rw [LTree.preorder]
        simp [hall.2 hn, Ne.symm hi]

theorem findAll_spec (s : ℕ) (F : List LTree) :
    (∀ r, findAll s F = some r → r.id = s ∧ InForest r F) ∧
      (findAll s F = none → s ∉ preorderAll F) := by
  induction F with
  | nil => simp [findAll]
  | cons c cs ihc =>
    obtain ⟨g1, g2⟩ := find_spec s c
    rw [findAll]
    cases e : c.find s with
    | some r =>
      simp only
      refine ⟨fun r' hr' => ?_, by simp⟩
      cases hr'
      exact ⟨(g1 r e).1, c, by simp, (g1 r e).2⟩
    | none =>
      simp only
      refine ⟨fun r' hr' => ?_, fun hn => ?_⟩
      · obtain ⟨e1, c', hc', e2⟩ := ihc.1 r' hr'
        exact ⟨e1, c', by simp [hc'], e2⟩
      · rw [preorderAll_cons]
        simp [ihc.2 hn, g2 e]

theorem findAll_eq {F : List LTree} (hd : Distinct F) {u : LTree} (hu : InForest u F) :
    findAll u.id F = some u := by
  have h := findAll_spec u.id F
  cases e : findAll u.id F with
  | none => exact absurd ((inForest_preorder hu).subset (id_mem_preorder u)) (h.2 e)
  | some r =>
    obtain ⟨h1, h2⟩ := h.1 r e
    rw [inForest_unique hd h2 hu h1]

/-! ## Edges -/

mutual

/-- Pairs of a child and its parent. -/
def LTree.edges : LTree → List (ℕ × ℕ)
  | .node i cs => cs.map (fun c => (c.id, i)) ++ edgesAll cs

/-- Pairs of a child and its parent in a forest. -/
def edgesAll : List LTree → List (ℕ × ℕ)
  | [] => []
  | t :: ts => t.edges ++ edgesAll ts

end

@[simp] theorem edgesAll_nil : edgesAll [] = [] := by rw [edgesAll]

@[simp] theorem edgesAll_cons (t : LTree) (F : List LTree) :
    edgesAll (t :: F) = t.edges ++ edgesAll F := by rw [edgesAll]

theorem edgesAll_append (a b : List LTree) : edgesAll (a ++ b) = edgesAll a ++ edgesAll b := by
  induction a with
  | nil => simp
  | cons t a ih => simp [ih]

theorem mem_edgesAll {e : ℕ × ℕ} {F : List LTree} : e ∈ edgesAll F ↔ ∃ t ∈ F, e ∈ t.edges := by
  induction F with
  | nil => simp
  | cons t F ih => simp [ih]

theorem mem_edges {a b : ℕ} (t : LTree) :
    (a, b) ∈ t.edges ↔ ∃ cs ds, Subtree (.node b cs) t ∧ LTree.node a ds ∈ cs := by
  induction t using LTree.ind with
  | h i cs ih =>
    rw [LTree.edges, List.mem_append, List.mem_map, mem_edgesAll]
    constructor
    · rintro (⟨c, hc, e⟩ | ⟨c, hc, e⟩)
      · cases c with
        | node j ds =>
          simp only [LTree.id, Prod.mk.injEq] at e
          obtain ⟨rfl, rfl⟩ := e
          exact ⟨cs, ds, .refl _, hc⟩
      · obtain ⟨es, ds, h1, h2⟩ := (ih c hc).1 e
        exact ⟨es, ds, .inside hc h1, h2⟩
    · rintro ⟨es, ds, h1, h2⟩
      cases h1 with
      | refl => exact .inl ⟨_, h2, rfl⟩
      | @inside c _ _ hc h1 => exact .inr ⟨c, hc, (ih c hc).2 ⟨es, ds, h1, h2⟩⟩

theorem childOf_iff {F : List LTree} {a b : ℕ} : ChildOf F a b ↔ (a, b) ∈ edgesAll F := by
  rw [mem_edgesAll]
  constructor
  · rintro ⟨cs, ds, ⟨t, ht, h1⟩, h2⟩
    exact ⟨t, ht, (mem_edges t).2 ⟨cs, ds, h1, h2⟩⟩
  · rintro ⟨t, ht, h⟩
    obtain ⟨cs, ds, h1, h2⟩ := (mem_edges t).1 h
    exact ⟨cs, ds, ⟨t, ht, h1⟩, h2⟩

theorem parentOf_spec (s : ℕ) (t : LTree) :
    (∀ b, t.parentOf s = some b → (s, b) ∈ t.edges) ∧
      (t.parentOf s = none → ∀ b, (s, b) ∉ t.edges) := by
  induction t using LTree.ind with
  | h i cs ih =>
    have hall : (∀ b, parentOfAll s cs = some b → (s, b) ∈ edgesAll cs) ∧
        (parentOfAll s cs = none → ∀ b, (s, b) ∉ edgesAll cs) := by
      induction cs with
      | nil => simp [parentOfAll]
      | cons c cs ihc =>
        obtain ⟨h1, h2⟩ := ihc fun c' hc' => ih c' (by simp [hc'])
        obtain ⟨g1, g2⟩ := ih c (by simp)
        rw [parentOfAll]
        cases e : c.parentOf s with
        | some r =>
          simp only
          refine ⟨fun r' hr' => ?_, by simp⟩
          cases hr'
          simp [g1 r e]
        | none =>
          simp only
          refine ⟨fun r' hr' => ?_, fun hn b => ?_⟩
          · simp [h1 r' hr']
          · simp [h2 hn b, g2 e b]
    rw [LTree.parentOf, LTree.edges]
    by_cases hs : s ∈ cs.map LTree.id
    · rw [if_pos hs]
      refine ⟨fun b hb => ?_, by simp⟩
      cases hb
      obtain ⟨c, hc, e⟩ := List.mem_map.1 hs
      exact List.mem_append_left _ (List.mem_map.2 ⟨c, hc, by rw [e]⟩)
    · rw [if_neg hs]
      refine ⟨fun b hb => List.mem_append_right _ (hall.1 b hb), fun hn b => ?_⟩
      rw [List.mem_append, not_or]
      refine ⟨fun hm => ?_, hall.2 hn b⟩
      obtain ⟨c, hc, e⟩ := List.mem_map.1 hm
      rw [Prod.mk.injEq] at e
      exact hs (List.mem_map.2 ⟨c, hc, e.1⟩)

theorem parentOfAll_spec (s : ℕ) (F : List LTree) :
    (∀ b, parentOfAll s F = some b → (s, b) ∈ edgesAll F) ∧
      (parentOfAll s F = none → ∀ b, (s, b) ∉ edgesAll F) := by
  induction F with
  | nil => simp [parentOfAll]
  | cons c cs ihc =>
    obtain ⟨g1, g2⟩ := parentOf_spec s c
    rw [parentOfAll]
    cases e : c.parentOf s with
    | some r =>
      simp only
      refine ⟨fun r' hr' => ?_, by simp⟩
      cases hr'
      simp [g1 r e]
    | none =>
      simp only
      refine ⟨fun r' hr' => ?_, fun hn b => ?_⟩
      · simp [ihc.1 r' hr']
      · simp [ihc.2 hn b, g2 e b]

/-- The children of all nodes, with the roots, are all nodes. -/
theorem edges_preorder (t : LTree) : (t.id :: t.edges.map Prod.fst).Perm t.preorder := by
  induction t using LTree.ind with
  | h i cs ih =>
    rw [LTree.edges, LTree.preorder, LTree.id, List.map_append, List.map_map]
    refine List.Perm.cons _ ?_
    have e : (cs.map (Prod.fst ∘ fun c : LTree => (c.id, i))) = cs.map LTree.id := by
      simp [Function.comp_def]
    rw [e]
    clear e
    induction cs with
    | nil => simp
    | cons c cs ihc =>
      have h1 := ihc fun c' hc' => ih c' (by simp [hc'])
      have h2 := ih c (by simp)
      rw [preorderAll_cons, edgesAll_cons, List.map_append, List.map_cons, List.cons_append]
      refine List.Perm.trans ?_ (h2.append h1)
      rw [List.cons_append]
      refine List.Perm.cons _ ?_
      rw [← List.append_assoc, ← List.append_assoc]
      exact List.Perm.append_right _ List.perm_append_comm

theorem edgesAll_preorder (F : List LTree) :
    (F.map LTree.id ++ (edgesAll F).map Prod.fst).Perm (preorderAll F) := by
  induction F with
  | nil => simp
  | cons c cs ihc =>
    have h2 := edges_preorder c
    rw [preorderAll_cons, edgesAll_cons, List.map_append, List.map_cons, List.cons_append]
    refine List.Perm.trans ?_ (h2.append ihc)
    rw [List.cons_append]
    refine List.Perm.cons _ ?_
    rw [← List.append_assoc, ← List.append_assoc]
    exact List.Perm.append_right _ List.perm_append_comm

theorem parent_unique {F : List LTree} (hd : Distinct F) {a b b' : ℕ} (h : (a, b) ∈ edgesAll F)
    (h' : (a, b') ∈ edgesAll F) : b = b' := by
  have hn : ((edgesAll F).map Prod.fst).Nodup :=
    ((edgesAll_preorder F).nodup_iff.2 hd).of_append_right
  have := List.inj_on_of_nodup_map hn h h' rfl
  exact congrArg Prod.snd this

theorem parentOfAll_eq_some {F : List LTree} (hd : Distinct F) {a b : ℕ} :
    parentOfAll a F = some b ↔ (a, b) ∈ edgesAll F := by
  refine ⟨(parentOfAll_spec a F).1 b, fun h => ?_⟩
  cases e : parentOfAll a F with
  | none => exact absurd h ((parentOfAll_spec a F).2 e b)
  | some b' => rw [parent_unique hd h ((parentOfAll_spec a F).1 b' e)]

theorem mem_preorder_edges {x : ℕ} {t : LTree} (h : x ∈ t.preorder) :
    x = t.id ∨ ∃ b, (x, b) ∈ t.edges := by
  have := (edges_preorder t).mem_iff.2 h
  rcases List.mem_cons.1 this with h | h
  · exact .inl h
  · obtain ⟨⟨a, b⟩, he, rfl⟩ := List.mem_map.1 h
    exact .inr ⟨b, he⟩

theorem edges_subset {u : LTree} {F : List LTree} (h : InForest u F) {e : ℕ × ℕ} (he : e ∈ u.edges) :
    e ∈ edgesAll F := by
  obtain ⟨t, ht, hs⟩ := h
  obtain ⟨a, b⟩ := e
  obtain ⟨cs, ds, h1, h2⟩ := (mem_edges u).1 he
  exact mem_edgesAll.2 ⟨t, ht, (mem_edges t).2 ⟨cs, ds, Subtree.trans h1 hs, h2⟩⟩

/-! ## Removing and inserting -/

/-- Taking the tree `sub` out of a forest, where it has the parent `p`. -/
inductive Removed (sub : LTree) : Option ℕ → List LTree → List LTree → Prop
  | here (l1 l2) : Removed sub none (l1 ++ sub :: l2) (l1 ++ l2)
  | child {i cs cs'} (l1 l2) : Removed sub none cs cs' →
      Removed sub (some i) (l1 ++ .node i cs :: l2) (l1 ++ .node i cs' :: l2)
  | deep {p i cs cs'} (l1 l2) : Removed sub (some p) cs cs' →
      Removed sub (some p) (l1 ++ .node i cs :: l2) (l1 ++ .node i cs' :: l2)

/-- Appending the tree `sub` to the children of `q`. -/
inductive Inserted (q : ℕ) (sub : LTree) : List LTree → List LTree → Prop
  | here {cs} (l1 l2) :
      Inserted q sub (l1 ++ .node q cs :: l2) (l1 ++ .node q (cs ++ [sub]) :: l2)
  | deep {i cs cs'} (l1 l2) : Inserted q sub cs cs' →
      Inserted q sub (l1 ++ .node i cs :: l2) (l1 ++ .node i cs' :: l2)

theorem detach_absent (s : ℕ) (t : LTree) (h : s ∉ t.preorder) : t.detach s = t := by
  induction t using LTree.ind with
  | h i cs ih =>
    rw [LTree.preorder, List.mem_cons, not_or] at h
    rw [LTree.detach]
    congr 1
    have h2 := h.2
    clear h
    induction cs with
    | nil => rw [detachAll]
    | cons c cs ihc =>
      rw [preorderAll_cons, List.mem_append, not_or] at h2
      rw [detachAll, if_neg, ih c (by simp) h2.1, ihc (fun c' hc' => ih c' (by simp [hc'])) h2.2]
      intro e
      exact h2.1 (e ▸ id_mem_preorder c)

theorem detachAll_absent (s : ℕ) (F : List LTree) (h : s ∉ preorderAll F) : detachAll s F = F := by
  induction F with
  | nil => rw [detachAll]
  | cons c cs ihc =>
    rw [preorderAll_cons, List.mem_append, not_or] at h
    rw [detachAll, if_neg, detach_absent s c h.1, ihc h.2]
    intro e
    exact h.1 (e ▸ id_mem_preorder c)

theorem attach_absent (q : ℕ) (sub t : LTree) (h : q ∉ t.preorder) : LTree.attach q sub t = t := by
  induction t using LTree.ind with
  | h i cs ih =>
    rw [LTree.preorder, List.mem_cons, not_or] at h
    rw [LTree.attach, if_neg (Ne.symm h.1), List.append_nil]
    congr 1
    have h2 := h.2
    clear h
    induction cs with
    | nil => rw [attachAll]
    | cons c cs ihc =>
      rw [preorderAll_cons, List.mem_append, not_or] at h2
      rw [attachAll, ih c (by simp) h2.1, ihc (fun c' hc' => ih c' (by simp [hc'])) h2.2]

theorem attachAll_absent (q : ℕ) (sub : LTree) (F : List LTree) (h : q ∉ preorderAll F) :
    attachAll q sub F = F := by
  induction F with
  | nil => rw [attachAll]
  | cons c cs ihc =>
    rw [preorderAll_cons, List.mem_append, not_or] at h
    rw [attachAll, attach_absent q sub c h.1, ihc h.2]

theorem detachAll_append (s : ℕ) (a b : List LTree) :
    detachAll s (a ++ b) = detachAll s a ++ detachAll s b := by
  induction a with
  | nil => simp [detachAll]
  | cons t a ih =>
    rw [List.cons_append, detachAll, detachAll, ih]
    split_ifs <;> simp

theorem attachAll_append (q : ℕ) (sub : LTree) (a b : List LTree) :
    attachAll q sub (a ++ b) = attachAll q sub a ++ attachAll q sub b := by
  induction a with
  | nil => simp [attachAll]
  | cons t a ih => rw [List.cons_append, attachAll, attachAll, ih]; simp

theorem notMem_around {s : ℕ} {l1 l2 : List LTree} {t : LTree}
    (hd : Distinct (l1 ++ t :: l2)) (hs : s ∈ t.preorder) :
    s ∉ preorderAll l1 ∧ s ∉ preorderAll l2 ∧ t.preorder.Nodup := by
  unfold Distinct at hd
  rw [preorderAll_append, preorderAll_cons, List.nodup_append, List.nodup_append] at hd
  obtain ⟨-, ⟨h1, -, h3⟩, h4⟩ := hd
  refine ⟨fun h => h4 _ h _ (by simp [hs]) rfl, fun h => h3 _ hs _ h rfl, h1⟩

theorem detach_removed {sub t : LTree} (hs : Subtree sub t) : t.preorder.Nodup → sub ≠ t →
    ∀ i cs, t = .node i cs → ∃ p, (Removed sub p cs (detachAll sub.id cs)) ∧
      (p = none → (sub.id, i) ∈ t.edges) := by
  induction hs with
  | refl => exact fun _ h => absurd rfl h
  | @inside c j ds hc hsc ih =>
    intro hn hne i cs e
    cases e
    rw [LTree.preorder, List.nodup_cons] at hn
    obtain ⟨l1, l2, rfl⟩ := List.append_of_mem hc
    have hid : sub.id ∈ c.preorder := (subtree_preorder hsc).subset (id_mem_preorder sub)
    obtain ⟨n1, n2, n3⟩ := notMem_around hn.2 hid
    rw [detachAll_append, detachAll_absent _ _ n1, detachAll, detachAll_absent _ _ n2]
    by_cases hsc' : sub = c
    · subst hsc'
      rw [if_pos rfl]
      refine ⟨none, .here l1 l2, fun _ => ?_⟩
      rw [LTree.edges]
      exact List.mem_append_left _ (List.mem_map.2 ⟨sub, by simp, rfl⟩)
    · have hne' : c.id ≠ sub.id := fun e =>
        hsc' (subtree_unique c n3 sub c hsc (.refl _) e.symm)
      rw [if_neg hne']
      cases c with
      | node k es =>
        obtain ⟨p, hp, -⟩ := ih n3 hsc' k es rfl
        rw [LTree.detach]
        cases p with
        | none => exact ⟨some k, .child l1 l2 hp, by simp⟩
        | some p => exact ⟨some p, .deep l1 l2 hp, by simp⟩

theorem detachAll_removed {sub : LTree} {F : List LTree} (hd : Distinct F) (h : InForest sub F) :
    ∃ p, Removed sub p F (detachAll sub.id F) := by
  obtain ⟨t, ht, hs⟩ := h
  obtain ⟨l1, l2, rfl⟩ := List.append_of_mem ht
  have hid : sub.id ∈ t.preorder := (subtree_preorder hs).subset (id_mem_preorder sub)
  obtain ⟨n1, n2, n3⟩ := notMem_around hd hid
  rw [detachAll_append, detachAll_absent _ _ n1, detachAll, detachAll_absent _ _ n2]
  by_cases hst : sub = t
  · subst hst
    rw [if_pos rfl]
    exact ⟨none, .here l1 l2⟩
  · have hne' : t.id ≠ sub.id := fun e => hst (subtree_unique t n3 sub t hs (.refl _) e.symm)
    rw [if_neg hne']
    cases t with
    | node k es =>
      obtain ⟨p, hp, -⟩ := detach_removed hs n3 hst k es rfl
      rw [LTree.detach]
      cases p with
      | none => exact ⟨some k, .child l1 l2 hp⟩
      | some p => exact ⟨some p, .deep l1 l2 hp⟩

theorem attachAll_inserted {q : ℕ} (sub : LTree) {F : List LTree} (hd : Distinct F)
    (h : q ∈ preorderAll F) : Inserted q sub F (attachAll q sub F) := by
  obtain ⟨t, ht, hs⟩ := mem_preorderAll.1 h
  clear h
  induction t using LTree.ind generalizing F with
  | h i cs ih =>
    obtain ⟨l1, l2, rfl⟩ := List.append_of_mem ht
    obtain ⟨n1, n2, n3⟩ := notMem_around hd hs
    rw [attachAll_append, attachAll_absent _ _ _ n1, attachAll, attachAll_absent _ _ _ n2,
      LTree.attach]
    rw [LTree.preorder, List.nodup_cons] at n3
    by_cases hi : i = q
    · subst hi
      rw [if_pos rfl, attachAll_absent _ _ _ n3.1]
      exact .here l1 l2
    · rw [if_neg hi, List.append_nil]
      rw [LTree.preorder, List.mem_cons] at hs
      rcases hs with hs | hs
      · exact absurd hs.symm hi
      · obtain ⟨c, hc, hqc⟩ := mem_preorderAll.1 hs
        exact .deep l1 l2 (ih c hc n3.2 hc hqc)

theorem removed_preorder {sub : LTree} {p : Option ℕ} {F F0 : List LTree} (h : Removed sub p F F0) :
    (preorderAll F).Perm (sub.preorder ++ preorderAll F0) := by
  induction h with
  | here l1 l2 =>
    rw [preorderAll_append, preorderAll_cons, preorderAll_append, ← List.append_assoc,
      ← List.append_assoc]
    exact List.Perm.append_right _ List.perm_append_comm
  | child l1 l2 _ ih =>
    rename_i i cs cs' _
    rw [preorderAll_append, preorderAll_cons, preorderAll_append, preorderAll_cons, LTree.preorder,
      LTree.preorder]
    rw [List.perm_iff_count] at ih ⊢
    intro x
    have := ih x
    simp only [List.count_append, List.count_cons] at this ⊢
    omega
  | deep l1 l2 _ ih =>
    rename_i i cs cs' _
    rw [preorderAll_append, preorderAll_cons, preorderAll_append, preorderAll_cons, LTree.preorder,
      LTree.preorder]
    rw [List.perm_iff_count] at ih ⊢
    intro x
    have := ih x
    simp only [List.count_append, List.count_cons] at this ⊢
    omega

theorem inserted_preorder {sub : LTree} {q : ℕ} {F F' : List LTree} (h : Inserted q sub F F') :
    (preorderAll F').Perm (sub.preorder ++ preorderAll F) := by
  induction h with
  | here l1 l2 =>
    rw [preorderAll_append, preorderAll_cons, preorderAll_append, preorderAll_cons, LTree.preorder,
      LTree.preorder, preorderAll_append, preorderAll_cons, preorderAll_nil]
    rw [List.perm_iff_count]
    intro x
    simp only [List.count_append, List.count_cons, List.count_nil]
    omega
  | deep l1 l2 _ ih =>
    rw [preorderAll_append, preorderAll_cons, preorderAll_append, preorderAll_cons, LTree.preorder,
      LTree.preorder]
    rw [List.perm_iff_count] at ih ⊢
    intro x
    have := ih x
    simp only [List.count_append, List.count_cons] at this ⊢
    omega

/-- The edge to the parent, if there is one. -/
def upEdge (s : ℕ) : Option ℕ → List (ℕ × ℕ)
  | none => []
  | some p => [(s, p)]

theorem removed_none {sub : LTree} {F F0 : List LTree} (h : Removed sub none F F0) :
    ∃ l1 l2, F = l1 ++ sub :: l2 ∧ F0 = l1 ++ l2 := by
  generalize hp : (none : Option ℕ) = p at h
  cases h with
  | here l1 l2 => exact ⟨l1, l2, rfl, rfl⟩
  | child => cases hp
  | deep => cases hp

theorem removed_some_ids {sub : LTree} {p : ℕ} {F F0 : List LTree}
    (h : Removed sub (some p) F F0) : F.map LTree.id = F0.map LTree.id := by
  generalize hp : some p = p' at h
  cases h with
  | here l1 l2 => cases hp
  | child => simp [LTree.id]
  | deep => simp [LTree.id]

theorem inserted_ids {sub : LTree} {q : ℕ} {F F' : List LTree} (h : Inserted q sub F F') :
    F.map LTree.id = F'.map LTree.id := by
  cases h with
  | here => simp [LTree.id]
  | deep => simp [LTree.id]

theorem removed_edges {sub : LTree} {p : Option ℕ} {F F0 : List LTree} (h : Removed sub p F F0) :
    (edgesAll F).Perm (upEdge sub.id p ++ sub.edges ++ edgesAll F0) := by
  induction h with
  | here l1 l2 =>
    simp only [edgesAll_append, edgesAll_cons, upEdge]
    rw [List.perm_iff_count]
    intro x
    simp only [List.count_append, List.count_nil]
    omega
  | child l1 l2 h ih =>
    rename_i i cs cs'
    obtain ⟨m1, m2, rfl, rfl⟩ := removed_none h
    simp only [edgesAll_append, edgesAll_cons, LTree.edges, upEdge] at ih ⊢
    rw [List.perm_iff_count] at ih ⊢
    intro x
    have := ih x
    simp only [List.count_append, List.count_nil, List.map_append, List.map_cons, List.count_cons]
      at this ⊢
    omega
  | deep l1 l2 h ih =>
    rename_i i cs cs'
    have hm := removed_some_ids h
    have hm' : cs.map (fun c => (c.id, i)) = cs'.map (fun c => (c.id, i)) := by
      have := congrArg (List.map fun k => (k, i)) hm
      simpa [List.map_map, Function.comp_def] using this
    simp only [edgesAll_append, edgesAll_cons, LTree.edges, upEdge, hm'] at ih ⊢
    rw [List.perm_iff_count] at ih ⊢
    intro x
    have := ih x
    simp only [List.count_append, List.count_cons, List.count_nil] at this ⊢
    omega

theorem inserted_edges {sub : LTree} {q : ℕ} {F F' : List LTree} (h : Inserted q sub F F') :
    (edgesAll F').Perm ((sub.id, q) :: sub.edges ++ edgesAll F) := by
  induction h with
  | here l1 l2 =>
    simp only [edgesAll_append, edgesAll_cons, LTree.edges, edgesAll_nil]
    rw [List.perm_iff_count]
    intro x
    simp only [List.count_append, List.count_nil, List.map_append, List.map_cons, List.count_cons,
      List.map_nil, List.cons_append]
    omega
  | deep l1 l2 h ih =>
    rename_i i cs cs'
    have hm := inserted_ids h
    have hm' : cs.map (fun c => (c.id, i)) = cs'.map (fun c => (c.id, i)) := by
      have := congrArg (List.map fun k => (k, i)) hm
      simpa [List.map_map, Function.comp_def] using this
    simp only [edgesAll_append, edgesAll_cons, LTree.edges, hm'] at ih ⊢
    rw [List.perm_iff_count] at ih ⊢
    intro x
    have := ih x
    simp only [List.count_append, List.count_cons, List.cons_append] at this ⊢
    omega

theorem inForest_mid {u : LTree} {i : ℕ} {cs l1 l2 : List LTree} (h : InForest u cs) :
    InForest u (l1 ++ .node i cs :: l2) := by
  obtain ⟨c, hc, hs⟩ := h
  exact ⟨.node i cs, by simp, .inside hc hs⟩

theorem inserted_subtree {sub : LTree} {q : ℕ} {F F' : List LTree} (h : Inserted q sub F F') :
    ∃ cs, InForest (.node q (cs ++ [sub])) F' := by
  induction h with
  | here l1 l2 =>
    rename_i cs
    exact ⟨cs, .node q (cs ++ [sub]), by simp, .refl _⟩
  | deep l1 l2 h ih =>
    obtain ⟨cs, hc⟩ := ih
    exact ⟨cs, inForest_mid hc⟩

/-- What `setParent` does if it does not raise an exception. -/
theorem setParent_ok {F F' : List LTree} (hd : Distinct F) {s : ℕ} {p : Option ℕ}
    (h : setParent s p F = (.ok (), F')) :
    (preorderAll F').Perm (preorderAll F) ∧
    (∀ a b, (a, b) ∈ edgesAll F' ↔ (a = s ∧ p = some b) ∨ (a ≠ s ∧ (a, b) ∈ edgesAll F)) ∧
    ∃ sub, findAll s F = some sub ∧ InForest sub F' ∧
      (parentOfAll s F ≠ p → ∀ q, p = some q → ∃ cs, InForest (.node q (cs ++ [sub])) F') := by
  unfold setParent at h
  cases e : findAll s F with
  | none => rw [e] at h; simp at h
  | some sub =>
    obtain ⟨hid, hin⟩ := (findAll_spec s F).1 sub e
    rw [e] at h
    simp only at h
    by_cases hp : parentOfAll s F = p
    · rw [if_pos hp] at h
      cases h
      refine ⟨.refl _, fun a b => ?_, sub, rfl, hin, fun hne => absurd hp hne⟩
      rw [← hp, parentOfAll_eq_some hd]
      constructor
      · intro hab
        by_cases ha : a = s
        · subst ha; exact .inl ⟨rfl, hab⟩
        · exact .inr ⟨ha, hab⟩
      · rintro (⟨rfl, hab⟩ | ⟨-, hab⟩) <;> exact hab
    · rw [if_neg hp] at h
      obtain ⟨pp, hrem⟩ := detachAll_removed hd hin
      rw [hid] at hrem
      have hper := removed_preorder hrem
      have hed := removed_edges hrem
      rw [hid] at hed
      have hd0 : (sub.preorder ++ preorderAll (detachAll s F)).Nodup := hper.nodup_iff.1 hd
      have hfst : ((edgesAll F).map Prod.fst).Nodup :=
        ((edgesAll_preorder F).nodup_iff.2 hd).of_append_right
      -- no other edge goes up from `s`
      have hno : ∀ b, (s, b) ∉ sub.edges ++ edgesAll (detachAll s F) := by
        intro b hb
        rcases List.mem_append.1 hb with hb | hb
        · have : s ∈ sub.edges.map Prod.fst := List.mem_map.2 ⟨_, hb, rfl⟩
          have hn := (edges_preorder sub).nodup_iff.2 hd0.of_append_left
          rw [hid] at hn
          exact (List.nodup_cons.1 hn).1 this
        · have h1 : s ∈ preorderAll (detachAll s F) :=
            (edgesAll_preorder _).subset (List.mem_append_right _ (List.mem_map.2 ⟨_, hb, rfl⟩))
          have h2 : s ∈ sub.preorder := hid ▸ id_mem_preorder sub
          exact (List.nodup_append.1 hd0).2.2 s h2 s h1 rfl
      have hother : ∀ a b, a ≠ s →
          ((a, b) ∈ edgesAll F ↔ (a, b) ∈ sub.edges ++ edgesAll (detachAll s F)) := by
        intro a b ha
        rw [hed.mem_iff, List.append_assoc, List.mem_append]
        constructor
        · rintro (h | h)
          · cases pp with
            | none => simp [upEdge] at h
            | some pp => simp [upEdge] at h; exact absurd h.1 ha
          · exact h
        · exact .inr
      cases p with
      | none =>
        simp only at h
        cases h
        refine ⟨?_, fun a b => ?_, sub, rfl, ⟨sub, by simp, .refl _⟩, fun _ q hq => by cases hq⟩
        · rw [preorderAll_append, preorderAll_cons, preorderAll_nil, List.append_nil]
          exact List.perm_append_comm.trans hper.symm
        · rw [edgesAll_append, edgesAll_cons, edgesAll_nil, List.append_nil]
          have hc : (a, b) ∈ edgesAll (detachAll s F) ++ sub.edges ↔
              (a, b) ∈ sub.edges ++ edgesAll (detachAll s F) := List.perm_append_comm.mem_iff
          rw [hc]
          by_cases ha : a = s
          · subst ha
            simp only [hno b, false_iff]
            simp
          · rw [← hother a b ha]
            simp [ha]
      | some q =>
        simp only at h
        by_cases hq : q ∈ sub.preorder
        · rw [if_pos hq] at h; simp at h
        · rw [if_neg hq] at h
          by_cases hqF : q ∉ preorderAll F
          · rw [if_pos hqF] at h; simp at h
          · rw [if_neg hqF] at h
            cases h
            rw [not_not] at hqF
            have hq0 : q ∈ preorderAll (detachAll s F) := by
              rcases List.mem_append.1 (hper.mem_iff.1 hqF) with h | h
              · exact absurd h hq
              · exact h
            have hins := attachAll_inserted sub hd0.of_append_right hq0
            have hie := inserted_edges hins
            rw [hid] at hie
            obtain ⟨cs, hcs⟩ := inserted_subtree hins
            refine ⟨(inserted_preorder hins).trans hper.symm, fun a b => ?_, sub, rfl,
              ?_, fun _ q' hq' => by cases hq'; exact ⟨cs, hcs⟩⟩
            · rw [hie.mem_iff, List.cons_append, List.mem_cons]
              by_cases ha : a = s
              · subst ha
                simp only [hno b, or_false, Prod.mk.injEq, true_and, Option.some.injEq, ne_eq,
                  not_true_eq_false, false_and]
                exact eq_comm
              · rw [← hother a b ha]
                simp [ha]
            · obtain ⟨t, ht, hs⟩ := hcs
              exact ⟨t, ht, Subtree.trans (.inside (by simp) (.refl _)) hs⟩

/-- Whatever happens, no node is lost or duplicated. -/
theorem setParent_perm {F : List LTree} (hd : Distinct F) (s : ℕ) (p : Option ℕ) :
    (preorderAll (setParent s p F).2).Perm (preorderAll F) := by
  obtain ⟨r, F', e⟩ : ∃ r F', setParent s p F = (r, F') := ⟨_, _, rfl⟩
  rw [e]
  cases r with
  | ok u => exact (setParent_ok hd e).1
  | error err =>
    have : F' = F := by
      unfold setParent at e
      cases ef : findAll s F with
      | none => rw [ef] at e; cases e; rfl
      | some sub =>
        rw [ef] at e
        cases p with
        | none =>
          simp only at e
          split_ifs at e <;> cases e
        | some q =>
          simp only at e
          split_ifs at e <;> cases e <;> rfl
    subst this
    exact .refl _

theorem Distinct.perm {F F' : List LTree} (hd : Distinct F)
    (h : (preorderAll F').Perm (preorderAll F)) : Distinct F' := h.nodup_iff.2 hd

theorem setParent_distinct {F : List LTree} (hd : Distinct F) (s : ℕ) (p : Option ℕ) :
    Distinct (setParent s p F).2 := Distinct.perm hd (setParent_perm hd s p)

/-- Exactly when `setParent` succeeds. -/
theorem setParent_ok_iff {F : List LTree} {s : ℕ} {p : Option ℕ} {sub : LTree}
    (e : findAll s F = some sub) :
    (∃ F', setParent s p F = (.ok (), F')) ↔
      parentOfAll s F = p ∨ ∀ q, p = some q → q ∉ sub.preorder ∧ q ∈ preorderAll F := by
  unfold setParent
  rw [e]
  simp only
  by_cases hp : parentOfAll s F = p
  · simp [hp]
  · rw [if_neg hp]
    cases p with
    | none => simp
    | some q =>
      simp only
      by_cases hq : q ∈ sub.preorder
      · rw [if_pos hq]; simp [hp, hq]
      · rw [if_neg hq]
        by_cases hqF : q ∉ preorderAll F
        · rw [if_pos hqF]; simp [hp, hq, hqF]
        · rw [if_neg hqF]
          rw [not_not] at hqF
          simp [hq, hqF]

/-- A node is not its own parent, nor is its parent below it. -/
theorem no_cycle {F : List LTree} (hd : Distinct F) {s b : ℕ} {sub : LTree}
    (e : findAll s F = some sub) (h : (s, b) ∈ edgesAll F) : b ∉ sub.preorder := by
  obtain ⟨hid, hin⟩ := (findAll_spec s F).1 sub e
  obtain ⟨cs, ds, h1, h2⟩ := childOf_iff.2 h
  have hsub : sub = .node s ds := by
    obtain ⟨t, ht, hs⟩ := h1
    exact inForest_unique hd hin ⟨t, ht, Subtree.trans (.inside h2 (.refl _)) hs⟩ hid
  have hn : (LTree.node b cs).preorder.Nodup := List.Nodup.sublist (inForest_preorder h1) hd
  rw [LTree.preorder, List.nodup_cons] at hn
  intro hb
  exact hn.1 (mem_preorderAll.2 ⟨_, h2, hsub ▸ hb⟩)

theorem belowNode_trans {F : List LTree} {a b c : ℕ} (h1 : BelowNode F a b) (h2 : BelowNode F b c) :
    BelowNode F a c := by
  induction h1 with
  | child h => exact .step h h2
  | step h _ ih => exact .step h (ih h2)

/-! ## `inject_before`, `inject_after`, `<<` -/

theorem injectBefore_perm {F : List LTree} (hd : Distinct F) (s n : ℕ) :
    (preorderAll (injectBefore s n F).2).Perm (preorderAll F) := by
  unfold injectBefore
  have h1 := setParent_perm hd s (some n)
  obtain ⟨r, F1, e⟩ : ∃ r F', setParent s (some n) F = (r, F') := ⟨_, _, rfl⟩
  rw [e] at h1
  simp only [e]
  cases r with
  | error err => exact h1
  | ok u => exact (setParent_perm (Distinct.perm hd h1) n _).trans h1

theorem adoptAll_perm (n : ℕ) (l : List ℕ) : ∀ {F : List LTree}, Distinct F →
    (preorderAll (adoptAll n l F).2).Perm (preorderAll F) := by
  induction l with
  | nil => intro F _; exact .refl _
  | cons c l ih =>
    intro F hd
    rw [adoptAll]
    have h1 := setParent_perm hd c (some n)
    obtain ⟨r, F1, e⟩ : ∃ r F', setParent c (some n) F = (r, F') := ⟨_, _, rfl⟩
    rw [e] at h1 ⊢
    cases r with
    | error err => exact h1
    | ok u => exact (ih (Distinct.perm hd h1)).trans h1

theorem injectAfter_perm {F : List LTree} (hd : Distinct F) (s n : ℕ) :
    (preorderAll (injectAfter s n F).2).Perm (preorderAll F) := by
  unfold injectAfter
  have h1 := adoptAll_perm n (childrenOf s F) hd
  obtain ⟨r, F1, e⟩ : ∃ r F', adoptAll n (childrenOf s F) F = (r, F') := ⟨_, _, rfl⟩
  rw [e] at h1 ⊢
  cases r with
  | error err => exact h1
  | ok u => exact (setParent_perm (Distinct.perm hd h1) n _).trans h1

theorem lshift_perm (s : ℕ) (l : List ℕ) : ∀ {F : List LTree}, Distinct F →
    (preorderAll (lshift s l F).2).Perm (preorderAll F) := by
  induction l with
  | nil => intro F _; exact .refl _
  | cons c l ih =>
    intro F hd
    rw [lshift]
    have h1 : (preorderAll (addChildren s c F).2).Perm (preorderAll F) := setParent_perm hd c (some s)
    obtain ⟨r, F1, e⟩ : ∃ r F', addChildren s c F = (r, F') := ⟨_, _, rfl⟩
    rw [e] at h1 ⊢
    cases r with
    | error err => exact h1
    | ok u => exact (ih (Distinct.perm hd h1)).trans h1

/-- What `inject_before` does if it does not raise an exception. -/
theorem injectBefore_ok {F F' : List LTree} (hd : Distinct F) {s n : ℕ}
    (h : injectBefore s n F = (.ok (), F')) :
    s ≠ n ∧ (∀ a b, (a, b) ∈ edgesAll F' ↔ (a = s ∧ b = n) ∨ (a = n ∧ (s, b) ∈ edgesAll F) ∨
      (a ≠ s ∧ a ≠ n ∧ (a, b) ∈ edgesAll F)) ∧
    ∃ cs ds, InForest (.node n (cs ++ [.node s ds])) F' := by
  unfold injectBefore at h
  obtain ⟨r, F1, e⟩ : ∃ r F', setParent s (some n) F = (r, F') := ⟨_, _, rfl⟩
  simp only [e] at h
  cases r with
  | error err => cases h
  | ok u =>
    simp only at h
    obtain ⟨p1, ed1, sub1, f1, in1, ins1⟩ := setParent_ok hd e
    have hd1 := Distinct.perm hd p1
    obtain ⟨p2, ed2, sub2, f2, in2, -⟩ := setParent_ok hd1 h
    have hok := (setParent_ok_iff f1 (p := some n)).1 ⟨_, e⟩
    have hok2 := (setParent_ok_iff f2 (p := parentOfAll s F)).1 ⟨_, h⟩
    have hid1 := ((findAll_spec s F).1 sub1 f1).1
    have hid2 := ((findAll_spec n F1).1 sub2 f2).1
    -- the node was not the parent before
    have hnp : parentOfAll s F ≠ some n := by
      intro hp
      rw [hp] at hok2
      rcases hok2 with h2 | h2
      · exact no_cycle hd1 f2 ((parentOfAll_eq_some hd1).1 h2) (hid2 ▸ id_mem_preorder sub2)
      · exact (h2 n rfl).1 (hid2 ▸ id_mem_preorder sub2)
    have hn1 : n ∉ sub1.preorder := by
      rcases hok with h2 | h2
      · exact absurd h2 hnp
      · exact (h2 n rfl).1
    have hsn : s ≠ n := by
      rintro rfl
      exact hn1 (hid1 ▸ id_mem_preorder sub1)
    refine ⟨hsn, fun a b => ?_, ?_⟩
    · rw [ed2 a b, ed1 a b, parentOfAll_eq_some hd]
      by_cases han : a = n
      · subst han; simp [Ne.symm hsn]
      · by_cases has : a = s
        · subst has; simp [han]; exact eq_comm
        · simp [han, has]
    · obtain ⟨cs, hcs⟩ := ins1 hnp n rfl
      have : sub2 = .node n (cs ++ [sub1]) :=
        inForest_unique hd1 ((findAll_spec n F1).1 sub2 f2).2 hcs hid2
      rw [this] at in2
      cases sub1 with
      | node k ds =>
        simp only [LTree.id] at hid1
        subst hid1
        exact ⟨cs, ds, in2⟩

theorem mem_childrenOf {F : List LTree} (hd : Distinct F) {s a : ℕ} :
    a ∈ childrenOf s F ↔ (a, s) ∈ edgesAll F := by
  unfold childrenOf
  rw [← childOf_iff]
  cases e : findAll s F with
  | none =>
    simp only [List.not_mem_nil, false_iff]
    rintro ⟨cs, ds, h1, h2⟩
    exact (findAll_spec s F).2 e (hasNode_iff.1 ⟨cs, h1⟩)
  | some sub =>
    obtain ⟨hid, hin⟩ := (findAll_spec s F).1 sub e
    cases sub with
    | node k cs =>
      simp only [LTree.id] at hid
      subst hid
      simp only [List.mem_map]
      constructor
      · rintro ⟨c, hc, rfl⟩
        cases c with
        | node j ds => exact ⟨cs, ds, hin, hc⟩
      · rintro ⟨cs', ds, h1, h2⟩
        have := inForest_unique hd h1 hin rfl
        cases this
        exact ⟨_, h2, rfl⟩

theorem adoptAll_ok (n : ℕ) (l : List ℕ) : ∀ {F F' : List LTree}, Distinct F →
    adoptAll n l F = (.ok (), F') → n ∉ l ∧ Distinct F' ∧
    ∀ a b, (a, b) ∈ edgesAll F' ↔ (a ∈ l ∧ b = n) ∨ (a ∉ l ∧ (a, b) ∈ edgesAll F) := by
  induction l with
  | nil =>
    intro F F' hd h
    cases h
    exact ⟨by simp, hd, fun a b => by simp⟩
  | cons c l ih =>
    intro F F' hd h
    rw [adoptAll] at h
    obtain ⟨r, F1, e⟩ : ∃ r F', setParent c (some n) F = (r, F') := ⟨_, _, rfl⟩
    rw [e] at h
    cases r with
    | error err => cases h
    | ok u =>
      simp only at h
      obtain ⟨p1, ed1, sub1, f1, in1, -⟩ := setParent_ok hd e
      have hd1 := Distinct.perm hd p1
      obtain ⟨g1, g2, g3⟩ := ih hd1 h
      have hcn : n ≠ c := by
        rintro rfl
        have hid1 := ((findAll_spec n F).1 sub1 f1).1
        rcases (setParent_ok_iff f1 (p := some n)).1 ⟨_, e⟩ with h2 | h2
        · exact no_cycle hd f1 ((parentOfAll_eq_some hd).1 h2) (hid1 ▸ id_mem_preorder sub1)
        · exact (h2 n rfl).1 (hid1 ▸ id_mem_preorder sub1)
      refine ⟨by simp [hcn, g1], g2, fun a b => ?_⟩
      rw [g3 a b, ed1 a b]
      by_cases hac : a = c
      · subst hac
        by_cases hal : a ∈ l
        · simp [hal]
        · simp [hal]; exact eq_comm
      · simp [hac]

/-- What `inject_after` does if it does not raise an exception. -/
theorem injectAfter_ok {F F' : List LTree} (hd : Distinct F) {s n : ℕ}
    (h : injectAfter s n F = (.ok (), F')) :
    s ≠ n ∧ (∀ a b, (a, b) ∈ edgesAll F' ↔ (a = n ∧ b = s) ∨
      (a ≠ n ∧ (a, s) ∈ edgesAll F ∧ b = n) ∨
      (a ≠ n ∧ (a, s) ∉ edgesAll F ∧ (a, b) ∈ edgesAll F)) ∧
    ∃ cs ds, InForest (.node s (cs ++ [.node n ds])) F' := by
  unfold injectAfter at h
  obtain ⟨r, F1, e⟩ : ∃ r F', adoptAll n (childrenOf s F) F = (r, F') := ⟨_, _, rfl⟩
  rw [e] at h
  cases r with
  | error err => cases h
  | ok u =>
    simp only at h
    obtain ⟨hnc, hd1, ed1⟩ := adoptAll_ok n _ hd e
    obtain ⟨p2, ed2, sub2, f2, in2, ins2⟩ := setParent_ok hd1 h
    have hid2 := ((findAll_spec n F1).1 sub2 f2).1
    simp only [mem_childrenOf hd] at ed1 hnc
    have hnp : parentOfAll n F1 ≠ some s := by
      intro hp
      rw [parentOfAll_eq_some hd1, ed1] at hp
      rcases hp with hp | hp
      · exact hnc hp.1
      · exact hp.1 hp.2
    have hsn : s ≠ n := by
      rintro rfl
      rcases (setParent_ok_iff f2 (p := some s)).1 ⟨_, h⟩ with h2 | h2
      · exact hnp h2
      · exact (h2 s rfl).1 (hid2 ▸ id_mem_preorder sub2)
    refine ⟨hsn, fun a b => ?_, ?_⟩
    · rw [ed2 a b, ed1 a b]
      by_cases han : a = n
      · subst han; simp; exact eq_comm
      · simp [han]
    · obtain ⟨cs, hcs⟩ := ins2 hnp s rfl
      cases sub2 with
      | node k ds =>
        simp only [LTree.id] at hid2
        subst hid2
        exact ⟨cs, ds, hcs⟩

/-! ## The tree around a node -/

/-- A tree with the node `self`, as a function of the children of this node. -/
inductive Ctx (self : ℕ) : (List LTree → LTree) → Prop
  | root : Ctx self (fun cs => .node self cs)
  | deep {K} (i : ℕ) (l1 l2 : List LTree) : Ctx self K →
      Ctx self (fun cs => .node i (l1 ++ K cs :: l2))

theorem ctx_of_subtree {u t : LTree} (h : Subtree u t) :
    ∀ s cs, u = .node s cs → ∃ K, Ctx s K ∧ t = K cs := by
  induction h with
  | refl => intro s cs e; exact ⟨_, .root, e⟩
  | @inside c i ds hc _ ih =>
    intro s cs e
    obtain ⟨K, hK, rfl⟩ := ih s cs e
    obtain ⟨l1, l2, rfl⟩ := List.append_of_mem hc
    exact ⟨_, .deep i l1 l2 hK, rfl⟩

theorem ctx_exists {t : LTree} {self : ℕ} (h : HasNode [t] self) :
    ∃ K cs, Ctx self K ∧ t = K cs := by
  obtain ⟨cs, t', ht', hs⟩ := h
  rw [List.mem_singleton] at ht'
  subst ht'
  obtain ⟨K, hK, e⟩ := ctx_of_subtree hs self cs rfl
  exact ⟨K, cs, hK, e⟩

theorem ctx_subtree {self : ℕ} {K : List LTree → LTree} (hK : Ctx self K) (cs : List LTree) :
    Subtree (.node self cs) (K cs) := by
  induction hK with
  | root => exact .refl _
  | deep i l1 l2 _ ih => exact .inside (by simp) ih

theorem ctx_postorder {self : ℕ} {K : List LTree → LTree} (hK : Ctx self K) :
    ∃ P Q, ∀ cs, (K cs).postorder = P ++ postorderAll cs ++ self :: Q := by
  induction hK with
  | root => exact ⟨[], [], fun cs => by simp [LTree.postorder]⟩
  | deep i l1 l2 _ ih =>
    obtain ⟨P, Q, h⟩ := ih
    refine ⟨postorderAll l1 ++ P, Q ++ postorderAll l2 ++ [i], fun cs => ?_⟩
    rw [LTree.postorder, postorderAll_append, postorderAll_cons, h]
    simp

/-- The nodes of the context. -/
theorem ctx_preorder {self : ℕ} {K : List LTree → LTree} (hK : Ctx self K) :
    ∃ R : List ℕ, self ∈ R ∧ (∀ cs, (K cs).preorder.Perm (R ++ preorderAll cs)) ∧
      (∀ s cs, s ∉ R → (K cs).detach s = K (detachAll s cs)) ∧
      (∀ q sub cs, q ∉ R → LTree.attach q sub (K cs) = K (attachAll q sub cs)) ∧
      (∀ sub cs, R.Nodup → self ∉ preorderAll cs → LTree.attach self sub (K cs) = K (cs ++ [sub])) ∧
      (∀ cs, (K cs).id ∈ R) := by
  induction hK with
  | root =>
    refine ⟨[self], by simp, fun cs => by simp [LTree.preorder], fun s cs _ => by rw [LTree.detach],
      fun q sub cs hq => ?_, fun sub cs _ hs => ?_, fun cs => by simp [LTree.id]⟩
    · have : self ≠ q := by rintro rfl; simp at hq
      rw [LTree.attach, if_neg this, List.append_nil]
    · rw [LTree.attach, if_pos rfl, attachAll_absent _ _ _ hs]
  | @deep K i l1 l2 _ ih =>
    obtain ⟨R, h1, h2, h3, h4, h5, h6⟩ := ih
    refine ⟨i :: preorderAll l1 ++ R ++ preorderAll l2, by simp [h1], fun cs => ?_, fun s cs hs => ?_,
      fun q sub cs hq => ?_, fun sub cs hn hs => ?_, fun cs => by simp [LTree.id]⟩
    · rw [LTree.preorder, preorderAll_append, preorderAll_cons]
      have := h2 cs
      rw [List.perm_iff_count] at this ⊢
      intro x
      have := this x
      simp only [List.count_append, List.count_cons, List.cons_append] at this ⊢
      omega
    · simp only [List.mem_append, List.mem_cons, not_or] at hs
      obtain ⟨⟨⟨hi, hl1⟩, hR⟩, hl2⟩ := hs
      rw [LTree.detach, detachAll_append, detachAll_absent _ _ hl1, detachAll, if_neg,
        detachAll_absent _ _ hl2, h3 s cs hR]
      intro e
      exact hR (e ▸ h6 cs)
    · simp only [List.mem_append, List.mem_cons, not_or] at hq
      obtain ⟨⟨⟨hi, hl1⟩, hR⟩, hl2⟩ := hq
      rw [LTree.attach, attachAll_append, attachAll_absent _ _ _ hl1, attachAll,
        attachAll_absent _ _ _ hl2, h4 q sub cs hR, if_neg (Ne.symm hi), List.append_nil]
    · simp only [List.cons_append, List.nodup_cons, List.nodup_append, List.mem_append, not_or]
        at hn
      obtain ⟨⟨⟨hi1, hi2⟩, hi3⟩, ⟨n1, n2, n3⟩, n4, n5⟩ := hn
      have g1 : self ∉ preorderAll l1 := fun h => n3 _ h _ h1 rfl
      have g2 : self ∉ preorderAll l2 := fun h => n5 _ (.inr h1) _ h rfl
      have g3 : i ≠ self := by rintro rfl; exact hi2 h1
      rw [LTree.attach, attachAll_append, attachAll_absent _ _ _ g1, attachAll,
        attachAll_absent _ _ _ g2, h5 sub cs n2 hs, if_neg g3, List.append_nil]

/-- Moving a node below another one. -/
theorem setParent_move {F : List LTree} (hd : Distinct F) {sub : LTree} (hin : InForest sub F)
    {q : ℕ} (hp : (sub.id, q) ∉ edgesAll F) (hq : q ∉ sub.preorder) (hqF : q ∈ preorderAll F) :
    setParent sub.id (some q) F = (.ok (), attachAll q sub (detachAll sub.id F)) := by
  unfold setParent
  rw [findAll_eq hd hin]
  simp only
  rw [if_neg (by rw [parentOfAll_eq_some hd]; exact hp), if_neg hq, if_neg (by simpa using hqF)]

theorem detachAll_ctx {K : List LTree → LTree} {R : List ℕ} {s : ℕ} {cs : List LTree}
    {n : ℕ} {ds : List LTree} (hR : (K cs).id ∈ R) (hsR : s ∉ R)
    (h3 : (K cs).detach s = K (detachAll s cs)) (hsn : s ∉ (LTree.node n ds).preorder) :
    detachAll s [K cs, .node n ds] = [K (detachAll s cs), .node n ds] := by
  have hne : (K cs).id ≠ s := fun e => hsR (e ▸ hR)
  rw [detachAll, if_neg hne, h3, detachAll_absent s [.node n ds] (by simpa using hsn)]

theorem adoptAll_ctx {self n : ℕ} {K : List LTree → LTree} (hK : Ctx self K) (rest : List LTree) :
    ∀ done, Distinct [K rest, .node n done] →
      adoptAll n (rest.map LTree.id) [K rest, .node n done] =
        (.ok (), [K [], .node n (done ++ rest)]) := by
  obtain ⟨R, h1, h2, h3, h4, h5, h6⟩ := ctx_preorder hK
  induction rest with
  | nil => intro done _; simp [adoptAll]
  | cons c rest ih =>
    intro done hd
    have hd' := hd
    unfold Distinct at hd'
    simp only [preorderAll_cons, preorderAll_nil, List.append_nil] at hd'
    have hper := (h2 (c :: rest)).append_right (LTree.node n done).preorder
    have hnd := hper.nodup_iff.1 hd'
    simp only [preorderAll_cons, LTree.preorder, List.nodup_append, List.mem_append, List.mem_cons,
      List.nodup_cons] at hnd
    obtain ⟨⟨hRn, ⟨hc, hrest, hcr⟩, hRc⟩, ⟨hnn, hdone⟩, hall⟩ := hnd
    have hcid := id_mem_preorder c
    have hcR : c.id ∉ R := fun h => hRc _ h _ (.inl hcid) rfl
    have hcrest : c.id ∉ preorderAll rest := fun h => hcr _ hcid _ h rfl
    have hnR : n ∉ R := fun h => hall _ (.inl h) n (.inl rfl) rfl
    have hnc : n ∉ c.preorder := fun h => hall _ (.inr (.inl h)) n (.inl rfl) rfl
    have hnrest : n ∉ preorderAll rest := fun h => hall _ (.inr (.inr h)) n (.inl rfl) rfl
    have hcn : c.id ∉ (LTree.node n done).preorder := by
      rw [LTree.preorder, List.mem_cons]
      rintro (h | h)
      · exact hall _ (.inr (.inl hcid)) n (.inl rfl) h
      · exact hall _ (.inr (.inl hcid)) _ (.inr h) rfl
    have hin : InForest c [K (c :: rest), .node n done] :=
      ⟨K (c :: rest), by simp,
        Subtree.trans (.inside List.mem_cons_self (.refl _)) (ctx_subtree hK _)⟩
    have hedge : (c.id, n) ∉ edgesAll [K (c :: rest), .node n done] := by
      intro he
      have he' : (c.id, self) ∈ edgesAll [K (c :: rest), .node n done] := by
        cases c with
        | node k es =>
          exact childOf_iff.1 ⟨_, es, ⟨_, List.mem_cons_self, ctx_subtree hK _⟩, List.mem_cons_self⟩
      have := parent_unique hd he he'
      exact hnR (this ▸ h1)
    have e := setParent_move hd hin hedge hnc (by simp [LTree.preorder])
    rw [detachAll_ctx (h6 _) hcR (h3 _ _ hcR) hcn, detachAll, if_pos rfl,
      detachAll_absent _ _ hcrest, attachAll, attachAll, attachAll, h4 _ _ _ hnR,
      attachAll_absent _ _ _ hnrest, LTree.attach, if_pos rfl, attachAll_absent _ _ _ hnn] at e
    rw [List.map_cons, adoptAll, e]
    simp only
    rw [ih (done ++ [c])]
    · simp
    · have := setParent_perm hd c.id (some n)
      rw [e] at this
      exact Distinct.perm hd this

theorem injectAfter_ctx {self n : ℕ} {K : List LTree → LTree} (hK : Ctx self K) {cs : List LTree}
    (hd : Distinct [K cs, .node n []]) :
    injectAfter self n [K cs, .node n []] = (.ok (), [K [.node n cs]]) := by
  have hd' := hd
  unfold Distinct at hd'
  simp only [preorderAll_cons, preorderAll_nil, List.append_nil, LTree.preorder] at hd'
  obtain ⟨R, h1, h2, h3, h4, h5, h6⟩ := ctx_preorder hK
  have hper := (h2 cs).append_right [n]
  have hnd := hper.nodup_iff.1 hd'
  simp only [List.nodup_append, List.mem_append, List.mem_singleton] at hnd
  obtain ⟨⟨hRn, hcs, hRc⟩, -, hall⟩ := hnd
  have hsn : self ≠ n := fun e => hall self (.inl h1) n rfl e
  have hnR : n ∉ R := fun h => hall _ (.inl h) n rfl rfl
  have hscs : self ∉ preorderAll cs := fun h => hRc _ h1 _ h rfl
  have hch : childrenOf self [K cs, .node n []] = cs.map LTree.id := by
    unfold childrenOf
    have : findAll self [K cs, .node n []] = some (.node self cs) :=
      findAll_eq hd (u := .node self cs) ⟨_, by simp, ctx_subtree hK cs⟩
    rw [this]
  have ha := adoptAll_ctx hK cs [] hd
  have hp := adoptAll_perm n (cs.map LTree.id) hd
  rw [ha] at hp
  simp only [List.nil_append] at ha hp
  have hd1 := Distinct.perm hd hp
  unfold injectAfter
  rw [hch, ha]
  simp only
  have hin : InForest (.node n cs) [K [], .node n cs] := ⟨_, by simp, .refl _⟩
  have hnK : n ∉ (K []).preorder := by
    intro h
    have := (h2 []).mem_iff.1 h
    simp at this
    exact hnR this
  have hedge : (n, self) ∉ edgesAll [K [], .node n cs] := by
    intro h
    have hn := (edgesAll_preorder [K [], .node n cs]).nodup_iff.2 hd1
    exact (List.nodup_append.1 hn).2.2 n (by simp [LTree.id]) n (List.mem_map.2 ⟨_, h, rfl⟩) rfl
  have e := setParent_move hd1 hin hedge (q := self) (by
      rw [LTree.preorder, List.mem_cons]
      rintro (h | h)
      · exact hsn h
      · exact hscs h)
    (by
      rw [preorderAll_cons]
      exact List.mem_append_left _ ((h2 []).mem_iff.2 (List.mem_append_left _ h1)))
  simp only [LTree.id] at e
  rw [e]
  have hne : (K []).id ≠ n := fun e => hnR (e ▸ h6 [])
  rw [detachAll, if_neg hne, detach_absent _ _ hnK, detachAll,
    if_pos (show (LTree.node n cs).id = n from rfl), detachAll, attachAll,
    attachAll, h5 _ _ hRn (by simp)]
  simp

theorem injectBefore_root {t : LTree} {n : ℕ} (hd : Distinct [t, .node n []]) :
    injectBefore t.id n [t, .node n []] = (.ok (), [.node n [t]]) := by
  have hd' := hd
  unfold Distinct at hd'
  simp only [preorderAll_cons, preorderAll_nil, List.append_nil, LTree.preorder, List.nodup_append,
    List.mem_singleton] at hd'
  obtain ⟨-, -, hall⟩ := hd'
  have hn : n ∉ t.preorder := fun h => hall _ h n rfl rfl
  have htn : t.id ≠ n := fun h => hall _ (id_mem_preorder t) n rfl h
  have hroot : parentOfAll t.id [t, .node n []] = none := by
    cases e : parentOfAll t.id [t, .node n []] with
    | none => rfl
    | some b =>
      have hb := (parentOfAll_spec _ _).1 b e
      have hn := (edgesAll_preorder [t, .node n []]).nodup_iff.2 hd
      exact absurd rfl ((List.nodup_append.1 hn).2.2 t.id (by simp) t.id
        (List.mem_map.2 ⟨_, hb, rfl⟩))
  have hin : InForest t [t, .node n []] := ⟨_, by simp, .refl _⟩
  have e := setParent_move hd hin (q := n)
    (fun h => by
      have := (parentOfAll_eq_some hd).2 h
      rw [hroot] at this
      cases this) hn (by simp [LTree.preorder])
  rw [detachAll, if_pos rfl, detachAll, if_neg (fun h => htn (by simpa [LTree.id] using h.symm)),
    detachAll, LTree.detach, detachAll, attachAll, attachAll, LTree.attach, if_pos rfl,
    attachAll] at e
  unfold injectBefore
  simp only [e, hroot]
  unfold setParent
  simp [findAll, LTree.find, parentOfAll, LTree.parentOf, Ne.symm htn]
  have : t.parentOf n = none := by
    cases e : t.parentOf n with
    | none => rfl
    | some b =>
      have hb := (parentOf_spec _ _).1 b e
      exact absurd ((edges_preorder t).subset (List.mem_cons_of_mem _ (List.mem_map.2 ⟨_, hb, rfl⟩)))
        hn
  simp [this]

theorem injectBefore_ctx {p n : ℕ} {K : List LTree → LTree} (hK : Ctx p K) {l : List LTree}
    {sub : LTree} (hd : Distinct [K (l ++ [sub]), .node n []]) :
    injectBefore sub.id n [K (l ++ [sub]), .node n []] = (.ok (), [K (l ++ [.node n [sub]])]) := by
  have hd' := hd
  unfold Distinct at hd'
  simp only [preorderAll_cons, preorderAll_nil, List.append_nil, LTree.preorder] at hd'
  obtain ⟨R, h1, h2, h3, h4, h5, h6⟩ := ctx_preorder hK
  have hper := (h2 (l ++ [sub])).append_right [n]
  have hnd := hper.nodup_iff.1 hd'
  simp only [List.nodup_append, List.mem_append, List.mem_singleton, preorderAll_append,
    preorderAll_cons, preorderAll_nil, List.append_nil] at hnd
  obtain ⟨⟨hRn, ⟨hl, hsub, hls⟩, hRc⟩, -, hall⟩ := hnd
  have hid := id_mem_preorder sub
  have hpn : p ≠ n := fun e => hall p (.inl h1) n rfl e
  have hnR : n ∉ R := fun h => hall _ (.inl h) n rfl rfl
  have hnl : n ∉ preorderAll l := fun h => hall _ (.inr (.inl h)) n rfl rfl
  have hns : n ∉ sub.preorder := fun h => hall _ (.inr (.inr h)) n rfl rfl
  have hsn : sub.id ≠ n := fun h => hall _ (.inr (.inr hid)) n rfl h
  have hsR : sub.id ∉ R := fun h => hRc _ h _ (.inr hid) rfl
  have hsl : sub.id ∉ preorderAll l := fun h => hls _ h _ hid rfl
  have hpl : p ∉ preorderAll l := fun h => hRc _ h1 _ (.inl h) rfl
  have hps : p ∉ sub.preorder := fun h => hRc _ h1 _ (.inr h) rfl
  have hin : InForest sub [K (l ++ [sub]), .node n []] :=
    ⟨K (l ++ [sub]), by simp, Subtree.trans
      (.inside (List.mem_append_right _ (List.mem_singleton.2 rfl)) (.refl _)) (ctx_subtree hK _)⟩
  have hedge : (sub.id, p) ∈ edgesAll [K (l ++ [sub]), .node n []] := by
    cases sub with
    | node k es =>
      exact childOf_iff.1 ⟨_, es, ⟨_, List.mem_cons_self, ctx_subtree hK _⟩,
        List.mem_append_right _ (List.mem_singleton.2 rfl)⟩
  have hpar := (parentOfAll_eq_some hd).2 hedge
  have e := setParent_move hd hin (q := n) (fun h => hpn (parent_unique hd hedge h)) hns
    (by simp [LTree.preorder])
  have hp1 := setParent_perm hd sub.id (some n)
  rw [detachAll_ctx (h6 _) hsR (h3 _ _ hsR)
      (by simp [LTree.preorder, hsn]), detachAll_append, detachAll_absent _ _ hsl, detachAll,
    if_pos rfl, detachAll, List.append_nil, attachAll, attachAll, attachAll, h4 _ _ _ hnR,
    attachAll_absent _ _ _ hnl, LTree.attach, if_pos rfl, attachAll, List.nil_append] at e
  rw [e] at hp1
  have hd1 := Distinct.perm hd hp1
  unfold injectBefore
  simp only [e, hpar]
  have hin2 : InForest (.node n [sub]) [K l, .node n [sub]] := ⟨_, by simp, .refl _⟩
  have hedge2 : (n, p) ∉ edgesAll [K l, .node n [sub]] := by
    intro h
    have hn := (edgesAll_preorder [K l, .node n [sub]]).nodup_iff.2 hd1
    exact (List.nodup_append.1 hn).2.2 n (by simp [LTree.id]) n (List.mem_map.2 ⟨_, h, rfl⟩) rfl
  have e2 := setParent_move hd1 hin2 hedge2 (by
      rw [LTree.preorder]
      simp [hpn, hps])
    (by
      rw [preorderAll_cons]
      exact List.mem_append_left _ ((h2 l).mem_iff.2 (List.mem_append_left _ h1)))
  simp only [LTree.id] at e2
  rw [e2]
  have hnK : n ∉ (K l).preorder := by
    intro h
    rcases List.mem_append.1 ((h2 l).mem_iff.1 h) with h | h
    · exact hnR h
    · exact hnl h
  have hne : (K l).id ≠ n := fun e => hnR (e ▸ h6 l)
  rw [detachAll, if_neg hne, detach_absent _ _ hnK, detachAll,
    if_pos (show (LTree.node n [sub]).id = n from rfl), detachAll, attachAll,
    attachAll, h5 _ _ hRn hpl]

end CrowdDynamics
