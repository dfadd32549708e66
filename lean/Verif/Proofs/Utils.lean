import Mathlib.Tactic.Linarith
import Mathlib.Data.List.Basic
import Verif.Spec.Utils

/-!
# Lemmas about directories, commands and groups
-/

namespace CrowdDynamics

open Spec

open Classical

/-! ## `remember_cwd` -/

lemma rememberCwd_ok {P D α : Type} (resolve : P → D → P) (d : D) (body : OsAction P α)
    (w : OsState P) (h0 : w.isDir w.cwd)
    (h1 : w.isDir (resolve w.cwd d) →
      (body { w with cwd := resolve w.cwd d }).2.isDir w.cwd) :
    rememberCwd resolve d body w =
      if w.isDir (resolve w.cwd d) then
        ((body { w with cwd := resolve w.cwd d }).1,
          { (body { w with cwd := resolve w.cwd d }).2 with cwd := w.cwd })
      else (.error .os, w) := by
  unfold rememberCwd osGetcwd
  rw [if_pos h0]
  simp only
  by_cases h : w.isDir (resolve w.cwd d)
  · have h2 := h1 h
    simp only [osChdir, if_pos h, if_pos h2]
  · simp only [osChdir, if_neg h, if_pos h0]

lemma rememberAll_ok {P D α : Type} (resolve : P → D → P) (ds : List D) (body : OsAction P α)
    (hkeep : ∀ w p, w.isDir p → (body w).2.isDir p) (w : OsState P) (h0 : w.isDir w.cwd) :
    rememberAll resolve ds body w = match enter resolve w.isDir w.cwd ds with
      | none => (.error .os, w)
      | some p => ((body { w with cwd := p }).1, if ds = [] then (body w).2 else
        ⟨w.cwd, (body { w with cwd := p }).2.isDir⟩) := by
  induction ds generalizing w with
  | nil => simp [rememberAll, enter]
  | cons d ds ih =>
    have e : rememberAll resolve (d :: ds) body = rememberCwd resolve d
      (rememberAll resolve ds body) := rfl
    rw [e, rememberCwd_ok resolve d _ w h0]
    · by_cases h : w.isDir (resolve w.cwd d)
      · rw [if_pos h, ih { w with cwd := resolve w.cwd d } h, enter, if_pos h]
        simp only
        cases hen : enter resolve w.isDir (resolve w.cwd d) ds with
        | none => simp
        | some p =>
          simp only [List.cons_ne_nil, if_false]
          cases ds with
          | nil =>
            simp only [enter, Option.some.injEq] at hen
            subst hen
            simp
          | cons d' ds => simp
      · rw [if_neg h, enter, if_neg h]
    · intro h
      rw [ih { w with cwd := resolve w.cwd d } h]
      simp only
      cases hen : enter resolve w.isDir (resolve w.cwd d) ds with
      | none => exact h0
      | some p =>
        simp only
        by_cases hd : ds = []
        · rw [if_pos hd]
          exact hkeep _ _ h0
        · rw [if_neg hd]
          exact hkeep _ _ h0

/-! ## Imports -/

lemma splitext_py (name : Text) : splitextExt name = ['.', 'p', 'y'] ↔ IsPythonFile name := by
  unfold splitextExt IsPythonFile
  simp only
  obtain ⟨tail, htail⟩ : ∃ t, (name.reverse.takeWhile fun c => decide (c ≠ '.')) = t := ⟨_, rfl⟩
  rw [htail]
  have hle : tail.length ≤ name.length := by
    have : tail.length ≤ name.reverse.length := by
      rw [← htail]
      exact List.Sublist.length_le (List.takeWhile_sublist _)
    rwa [List.length_reverse] at this
  constructor
  · intro h
    split_ifs at h with hc
    exact ⟨name.take (name.length - tail.length - 1), by rw [← h, List.take_append_drop], hc.2⟩
  · rintro ⟨stem, rfl, hc⟩
    have ht : tail = ['y', 'p'] := by
      rw [← htail]
      simp
    subst ht
    have hl : (stem ++ ['.', 'p', 'y']).length - ['y', 'p'].length - 1 = stem.length := by
      simp
    rw [hl, List.take_left, List.drop_left, if_pos ⟨by simp, hc⟩]

lemma mem_odSet {V : Type} (key : Text) (value : V) (d : List (Text × V))
    (hd : (d.map Prod.fst).Nodup) (k : Text) (v : V) :
    (k, v) ∈ odSet key value d ↔ (k = key ∧ v = value) ∨ (k ≠ key ∧ (k, v) ∈ d) := by
  induction d with
  | nil =>
    simp only [odSet, List.mem_singleton, Prod.mk.injEq, List.not_mem_nil, and_false, or_false]
  | cons e d ih =>
    obtain ⟨k', v'⟩ := e
    rw [List.map_cons, List.nodup_cons] at hd
    rw [odSet]
    by_cases h : k' = key
    · rw [if_pos h]
      subst h
      simp only [List.mem_cons, Prod.mk.injEq]
      constructor
      · rintro (h | h)
        · exact Or.inl h
        · by_cases hk : k = k'
          · subst hk
            exact absurd (List.mem_map.2 ⟨(k, v), h, rfl⟩) hd.1
          · exact Or.inr ⟨hk, Or.inr h⟩
      · rintro (h | ⟨h1, h2 | h2⟩)
        · exact Or.inl h
        · exact absurd h2.1 h1
        · exact Or.inr h2
    · rw [if_neg h]
      simp only [List.mem_cons, Prod.mk.injEq, ih hd.2]
      constructor
      · rintro (⟨rfl, rfl⟩ | h | h)
        · exact Or.inr ⟨h, Or.inl ⟨rfl, rfl⟩⟩
        · exact Or.inl h
        · exact Or.inr ⟨h.1, Or.inr h.2⟩
      · rintro (h | ⟨h1, h2 | h2⟩)
        · exact Or.inr (Or.inl h)
        · exact Or.inl h2
        · exact Or.inr (Or.inr ⟨h1, h2⟩)

lemma odSet_keys {V : Type} (key : Text) (value : V) (d : List (Text × V)) (k : Text) :
    k ∈ (odSet key value d).map Prod.fst ↔ k = key ∨ k ∈ d.map Prod.fst := by
  induction d with
  | nil => simp [odSet]
  | cons e d ih =>
    obtain ⟨k', v'⟩ := e
    rw [odSet]
    by_cases h : k' = key
    · rw [if_pos h]
      subst h
      simp only [List.map_cons, List.mem_cons]
      tauto
    · rw [if_neg h]
      simp only [List.map_cons, List.mem_cons, ih]
      tauto

lemma odSet_nodup {V : Type} (key : Text) (value : V) (d : List (Text × V))
    (hd : (d.map Prod.fst).Nodup) : ((odSet key value d).map Prod.fst).Nodup := by
  induction d with
  | nil => simp [odSet]
  | cons e d ih =>
    obtain ⟨k', v'⟩ := e
    rw [List.map_cons, List.nodup_cons] at hd
    rw [odSet]
    by_cases h : k' = key
    · rw [if_pos h, List.map_cons, List.nodup_cons]
      exact hd
    · rw [if_neg h, List.map_cons, List.nodup_cons]
      refine ⟨fun hm => ?_, ih hd.2⟩
      rcases (odSet_keys key value d k').1 hm with h' | h'
      · exact h h'
      · exact hd.1 h'

lemma odUpdate_nodup {V : Type} (items d : List (Text × V)) (hd : (d.map Prod.fst).Nodup) :
    ((odUpdate d items).map Prod.fst).Nodup := by
  unfold odUpdate
  induction items generalizing d with
  | nil => exact hd
  | cons e items ih =>
    rw [List.foldl_cons]
    exact ih _ (odSet_nodup _ _ _ hd)

lemma mem_odUpdate {V : Type} (items d : List (Text × V)) (hd : (d.map Prod.fst).Nodup)
    (hi : (items.map Prod.fst).Nodup) (k : Text) (v : V) :
    (k, v) ∈ odUpdate d items ↔
      (k, v) ∈ items ∨ (k ∉ items.map Prod.fst ∧ (k, v) ∈ d) := by
  unfold odUpdate
  induction items generalizing d with
  | nil => simp
  | cons e items ih =>
    obtain ⟨k', v'⟩ := e
    rw [List.map_cons, List.nodup_cons] at hi
    rw [List.foldl_cons, ih _ (odSet_nodup _ _ _ hd) hi.2, mem_odSet _ _ _ hd]
    simp only [List.map_cons, List.mem_cons, Prod.mk.injEq, not_or]
    constructor
    · rintro (h | ⟨h1, ⟨rfl, rfl⟩ | ⟨h2, h3⟩⟩)
      · exact Or.inl (Or.inr h)
      · exact Or.inl (Or.inl ⟨rfl, rfl⟩)
      · exact Or.inr ⟨⟨h2, h1⟩, h3⟩
    · rintro ((⟨rfl, rfl⟩ | h) | ⟨⟨h1, h2⟩, h3⟩)
      · exact Or.inr ⟨hi.1, Or.inl ⟨rfl, rfl⟩⟩
      · exact Or.inl h
      · exact Or.inr ⟨h2, Or.inr ⟨h1, h3⟩⟩

lemma mem_subclassesOf {C : Type} (sub : C → C → Bool) (base : C)
    (entries : List (Text × PyObj C)) (name : Text) (c : C) :
    (name, c) ∈ subclassesOf sub base entries ↔ Binds sub base entries name c := by
  unfold subclassesOf Binds
  rw [List.mem_filterMap]
  constructor
  · rintro ⟨⟨n, o⟩, hm, he⟩
    obtain ⟨h1, h2⟩ := List.mem_filter.1 hm
    cases o with
    | other => simp at he
    | cls c' =>
      simp only [Option.some.injEq, Prod.mk.injEq] at he
      obtain ⟨rfl, rfl⟩ := he
      simp only [filterCls, Bool.and_eq_true, decide_eq_true_eq] at h2
      exact ⟨h1, h2⟩
  · rintro ⟨h1, h2, h3⟩
    refine ⟨(name, .cls c), List.mem_filter.2 ⟨h1, ?_⟩, rfl⟩
    simp [filterCls, h2, h3]

lemma subclassesOf_nodup {C : Type} (sub : C → C → Bool) (base : C)
    (entries : List (Text × PyObj C)) (h : (entries.map Prod.fst).Nodup) :
    ((subclassesOf sub base entries).map Prod.fst).Nodup := by
  refine List.Nodup.sublist ?_ h
  unfold subclassesOf
  induction entries with
  | nil => simp
  | cons e entries ih =>
    rw [List.map_cons, List.nodup_cons] at h
    obtain ⟨n, o⟩ := e
    rw [List.filter_cons]
    cases o with
    | other =>
      simp only [filterCls, Bool.false_eq_true, if_false]
      exact (ih h.2).cons _
    | cls c =>
      by_cases hf : filterCls sub base (.cls c) = true
      · simp only [hf, if_true, List.filterMap_cons, List.map_cons]
        exact (ih h.2).cons_cons _
      · simp only [hf]
        exact (ih h.2).cons _

lemma importLoop_ok {C : Type} (sub : C → C → Bool) (base : C)
    (load : Text → Except PyErr (List (Text × PyObj C)))
    (files : List (Text × List (Text × PyObj C)))
    (hload : ∀ f ∈ files, load f.1 = .ok f.2)
    (hn : ∀ f ∈ files, (f.2.map Prod.fst).Nodup) (d : List (Text × C))
    (hd : (d.map Prod.fst).Nodup) :
    ∃ d', importLoop sub base load (files.map Prod.fst) d = .ok d' ∧
      (d'.map Prod.fst).Nodup ∧ ∀ name c, (name, c) ∈ d' ↔
        LastBinding sub base files name c ∨ ((name, c) ∈ d ∧
          ∀ f ∈ files, IsPythonFile f.1 → ∀ c', ¬ Binds sub base f.2 name c') := by
  induction files generalizing d with
  | nil =>
    refine ⟨d, rfl, hd, fun name c => ?_⟩
    constructor
    · intro h
      exact Or.inr ⟨h, by simp⟩
    · rintro (⟨a, f, b, h, -⟩ | h)
      · simp at h
      · exact h.1
  | cons f files ih =>
    have hload' := fun g hg => hload g (List.mem_cons_of_mem _ hg)
    have hn' := fun g hg => hn g (List.mem_cons_of_mem _ hg)
    have hlast : ∀ name c, LastBinding sub base (f :: files) name c ↔
        LastBinding sub base files name c ∨ (IsPythonFile f.1 ∧ Binds sub base f.2 name c ∧
          ∀ g ∈ files, IsPythonFile g.1 → ∀ c', ¬ Binds sub base g.2 name c') := by
      intro name c
      constructor
      · rintro ⟨a, g, b, h, h1, h2, h3⟩
        cases a with
        | nil =>
          simp only [List.nil_append, List.cons.injEq] at h
          obtain ⟨rfl, rfl⟩ := h
          exact Or.inr ⟨h1, h2, h3⟩
        | cons a0 a =>
          simp only [List.cons_append, List.cons.injEq] at h
          obtain ⟨rfl, rfl⟩ := h
          exact Or.inl ⟨a, g, b, rfl, h1, h2, h3⟩
      · rintro (⟨a, g, b, h, h1, h2, h3⟩ | ⟨h1, h2, h3⟩)
        · exact ⟨f :: a, g, b, by rw [h]; rfl, h1, h2, h3⟩
        · exact ⟨[], f, files, rfl, h1, h2, h3⟩
    rw [List.map_cons, importLoop]
    by_cases hpy : splitextExt f.1 = ['.', 'p', 'y']
    · have hpy' := (splitext_py f.1).1 hpy
      have hs := subclassesOf_nodup sub base f.2 (hn f List.mem_cons_self)
      obtain ⟨d', h1, h2, h3⟩ := ih hload' hn' _ (odUpdate_nodup (subclassesOf sub base f.2) d hd)
      refine ⟨d', ?_, h2, fun name c => ?_⟩
      · rw [if_pos hpy, hload f List.mem_cons_self]
        exact h1
      · rw [h3, hlast, mem_odUpdate _ _ hd hs, mem_subclassesOf]
        have hk : name ∉ (subclassesOf sub base f.2).map Prod.fst ↔
            ∀ c', ¬ Binds sub base f.2 name c' := by
          constructor
          · intro h c' hc'
            exact h (List.mem_map.2 ⟨(name, c'), (mem_subclassesOf sub base f.2 name c').2 hc', rfl⟩)
          · intro h hm
            obtain ⟨⟨n, c'⟩, hm', rfl⟩ := List.mem_map.1 hm
            exact h c' ((mem_subclassesOf sub base f.2 _ c').1 hm')
        rw [hk]
        constructor
        · rintro (h | ⟨h | ⟨h4, h5⟩, h6⟩)
          · exact Or.inl (Or.inl h)
          · exact Or.inl (Or.inr ⟨hpy', h, h6⟩)
          · refine Or.inr ⟨h5, fun g hg => ?_⟩
            rcases List.mem_cons.1 hg with rfl | hg
            · exact fun _ => h4
            · exact h6 g hg
        · rintro ((h | ⟨-, h4, h5⟩) | ⟨h4, h5⟩)
          · exact Or.inl h
          · exact Or.inr ⟨Or.inl h4, h5⟩
          · exact Or.inr ⟨Or.inr ⟨h5 f List.mem_cons_self hpy', h4⟩,
              fun g hg => h5 g (List.mem_cons_of_mem _ hg)⟩
    · have hpy' : ¬ IsPythonFile f.1 := fun h => hpy ((splitext_py f.1).2 h)
      obtain ⟨d', h1, h2, h3⟩ := ih hload' hn' d hd
      refine ⟨d', by rw [if_neg hpy]; exact h1, h2, fun name c => ?_⟩
      rw [h3, hlast]
      constructor
      · rintro (h | ⟨h4, h5⟩)
        · exact Or.inl (Or.inl h)
        · refine Or.inr ⟨h4, fun g hg => ?_⟩
          rcases List.mem_cons.1 hg with rfl | hg
          · exact fun h => absurd h hpy'
          · exact h5 g hg
      · rintro ((h | ⟨h4, -⟩) | ⟨h4, h5⟩)
        · exact Or.inl h
        · exact absurd h4 hpy'
        · exact Or.inr ⟨h4, fun g hg => h5 g (List.mem_cons_of_mem _ hg)⟩

/-! ## Commands -/

lemma appendOptions_ok {T O : Type} {toOption : Text → T → Except PyErr O}
    (traits : List (Text × T)) (options : List O)
    (h : (appendOptions toOption traits options).1 = .ok ()) :
    (appendOptions toOption traits options).2.length = options.length + traits.length := by
  induction traits generalizing options with
  | nil => simp [appendOptions]
  | cons t traits ih =>
    obtain ⟨n, t⟩ := t
    rw [appendOptions] at h ⊢
    cases ho : toOption n t with
    | error e => rw [ho] at h; simp at h
    | ok o =>
      rw [ho] at h
      simp only at h ⊢
      rw [ih _ h]
      simp
      omega

lemma find_odSet {V : Type} (key : Text) (value : V) (d : List (Text × V)) (k : Text) :
    (odSet key value d).find? (fun c => decide (c.1 = k)) =
      if k = key then some (key, value) else d.find? fun c => decide (c.1 = k) := by
  induction d with
  | nil =>
    rw [odSet, List.find?_cons]
    by_cases h : key = k
    · simp [h]
    · have h' : ¬ k = key := fun e => h e.symm
      simp [h, h']
  | cons e d ih =>
    obtain ⟨k', v'⟩ := e
    rw [odSet]
    by_cases h : k' = key
    · rw [if_pos h]
      subst h
      rw [List.find?_cons, List.find?_cons]
      by_cases hk : k' = k
      · simp [hk]
      · have h' : ¬ k = k' := fun e => hk e.symm
        simp [hk, h']
    · rw [if_neg h, List.find?_cons, List.find?_cons]
      by_cases hk : k' = k
      · subst hk
        simp [h]
      · simp [hk, ih]

lemma simulationCommands_ok {C T O : Type} (ownTraits : C → List (Text × T))
    (toOption : Text → T → Except PyErr O) (sims : List (Text × C))
    (hn : (sims.map Prod.fst).Nodup) (s s' : CliState C O)
    (h : simulationCommands ownTraits toOption sims s = (.ok (), s')) :
    s'.cell = (match sims.getLast? with
      | some e => some e.2
      | none => s.cell) ∧
    (∀ e ∈ sims, ∃ o, s'.commands.find? (fun c => decide (c.1 = e.1)) = some (e.1, o) ∧
      o.length = (ownTraits e.2).length) ∧
    (∀ k, k ∉ sims.map Prod.fst → s'.commands.find? (fun c => decide (c.1 = k)) =
      s.commands.find? fun c => decide (c.1 = k)) := by
  induction sims generalizing s with
  | nil =>
    simp only [simulationCommands, Prod.mk.injEq, true_and] at h
    subst h
    simp
  | cons e sims ih =>
    obtain ⟨name, cls⟩ := e
    rw [List.map_cons, List.nodup_cons] at hn
    rw [simulationCommands] at h
    cases hr : (appendOptions toOption (ownTraits cls) []).1 with
    | error e => simp only [hr] at h; simp at h
    | ok u =>
      simp only [hr] at h
      have hlen := appendOptions_ok (ownTraits cls) [] hr
      obtain ⟨h1, h2, h3⟩ := ih hn.2 _ h
      refine ⟨?_, ?_, ?_⟩
      · rw [h1]
        cases sims with
        | nil => simp
        | cons e' sims =>
          rw [List.getLast?_cons_cons]
          obtain ⟨x, hx⟩ : ∃ x, (e' :: sims).getLast? = some x :=
            ⟨_, List.getLast?_eq_getLast_of_ne_nil (List.cons_ne_nil e' sims)⟩
          rw [hx]
      · intro e he
        rcases List.mem_cons.1 he with rfl | he
        · refine ⟨_, ?_, by simpa using hlen⟩
          rw [h3 name hn.1, find_odSet, if_pos rfl]
        · exact h2 e he
      · intro k hk
        simp only [List.map_cons, List.mem_cons, not_or] at hk
        rw [h3 k hk.2, find_odSet, if_neg hk.1]

/-! ## Groups -/

lemma makeDrawn_ok {A M : Type} (make : A → Except PyErr M) (draw : ℕ → Except PyErr A) (n c : ℕ)
    (h : ∀ i < n, ∃ a m, draw (c + i) = .ok a ∧ make a = .ok m) :
    ∃ ms, makeDrawn make draw n c = (.ok ms, c + n) ∧ ms.length = n ∧
      ∀ i < n, ∃ a m, draw (c + i) = .ok a ∧ make a = .ok m ∧ ms[i]? = some m := by
  induction n generalizing c with
  | zero => exact ⟨[], rfl, rfl, fun i hi => absurd hi (Nat.not_lt_zero i)⟩
  | succ n ih =>
    obtain ⟨a, m, h1, h2⟩ := h 0 (Nat.succ_pos n)
    rw [Nat.add_zero] at h1
    obtain ⟨ms, e1, e2, e3⟩ := ih (c + 1) fun i hi => by
      have := h (i + 1) (by omega)
      rwa [show c + (i + 1) = c + 1 + i by omega] at this
    refine ⟨m :: ms, ?_, by simp [e2], fun i hi => ?_⟩
    · rw [makeDrawn, h1]
      simp only [h2, e1]
      rw [show c + 1 + n = c + (n + 1) by omega]
    · cases i with
      | zero => exact ⟨a, m, h1, h2, rfl⟩
      | succ i =>
        obtain ⟨a', m', h3, h4, h5⟩ := e3 i (by omega)
        exact ⟨a', m', by rw [show c + (i + 1) = c + 1 + i by omega]; exact h3, h4, by
          rw [List.getElem?_cons_succ]; exact h5⟩

lemma makeDrawn_stop {A M : Type} (make : A → Except PyErr M) (draw : ℕ → Except PyErr A)
    (n c k : ℕ) (e : PyErr) (hk : k < n)
    (h : ∀ i < k, ∃ a m, draw (c + i) = .ok a ∧ make a = .ok m) (he : draw (c + k) = .error e) :
    makeDrawn make draw n c = (.error e, c + k) := by
  induction n generalizing c k with
  | zero => omega
  | succ n ih =>
    cases k with
    | zero =>
      rw [Nat.add_zero] at he
      rw [makeDrawn, he]
      rfl
    | succ k =>
      obtain ⟨a, m, h1, h2⟩ := h 0 (Nat.succ_pos k)
      rw [Nat.add_zero] at h1
      have := ih (c + 1) k (by omega) (fun i hi => by
        have := h (i + 1) (by omega)
        rwa [show c + (i + 1) = c + 1 + i by omega] at this)
        (by rwa [show c + 1 + k = c + (k + 1) by omega])
      rw [makeDrawn, h1]
      simp only [h2, this]
      rw [show c + 1 + k = c + (k + 1) by omega]

lemma makeDrawn_refused {A M : Type} (make : A → Except PyErr M) (draw : ℕ → Except PyErr A)
    (n c k : ℕ) (e : PyErr) (hk : k < n)
    (h : ∀ i < k, ∃ a m, draw (c + i) = .ok a ∧ make a = .ok m) (a : A) (hd : draw (c + k) = .ok a)
    (he : make a = .error e) : makeDrawn make draw n c = (.error e, c + (k + 1)) := by
  induction n generalizing c k with
  | zero => omega
  | succ n ih =>
    cases k with
    | zero =>
      rw [Nat.add_zero] at hd
      rw [makeDrawn, hd]
      simp only [he]
    | succ k =>
      obtain ⟨a', m, h1, h2⟩ := h 0 (Nat.succ_pos k)
      rw [Nat.add_zero] at h1
      have := ih (c + 1) k (by omega) (fun i hi => by
        have := h (i + 1) (by omega)
        rwa [show c + (i + 1) = c + 1 + i by omega] at this)
        (by rwa [show c + 1 + k = c + (k + 1) by omega])
      rw [makeDrawn, h1]
      simp only [h2, this]
      rw [show c + 1 + (k + 1) = c + (k + 1 + 1) by omega]

lemma makeAll_ok {A M : Type} (make : A → Except PyErr M) (items : List A)
    (h : ∀ a ∈ items, ∃ m, make a = .ok m) :
    ∃ ms, makeAll make items = .ok ms ∧ ms.length = items.length ∧
      ∀ (i : ℕ) (a : A), items[i]? = some a → ∃ m, make a = .ok m ∧ ms[i]? = some m := by
  induction items with
  | nil => exact ⟨[], rfl, rfl, fun i a hi => by simp at hi⟩
  | cons a items ih =>
    obtain ⟨m, hm⟩ := h a List.mem_cons_self
    obtain ⟨ms, e1, e2, e3⟩ := ih fun b hb => h b (List.mem_cons_of_mem _ hb)
    refine ⟨m :: ms, ?_, by simp [e2], fun i b hi => ?_⟩
    · rw [makeAll, hm, e1]
      rfl
    · cases i with
      | zero =>
        simp only [List.getElem?_cons_zero, Option.some.injEq] at hi
        subst hi
        exact ⟨m, hm, rfl⟩
      | succ i =>
        rw [List.getElem?_cons_succ] at hi ⊢
        exact e3 i b hi

end CrowdDynamics
