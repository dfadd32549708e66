import Verif.Spec.FreshField
import Verif.Proofs.Geometry
import Verif.Proofs.Navigation

/-!
# Caches of the field
-/

namespace CrowdDynamics

open Spec

/-- Every entry of the caches is what a fresh computation gives, and belongs to one of the fields
asked. -/
structure SoundCaches (lib : FieldLib) (fields : ℕ → Field) (asked : Set ℕ) (c : Caches) : Prop where
  mesh : ∀ e ∈ c.mesh, freshMesh (fields e.1.1) e.1.2 = .ok e.2 ∧ e.1.1 ∈ asked
  path : ∀ e ∈ c.path, freshPath lib (fields e.1.1) e.1.2.1 e.1.2.2.1 e.1.2.2.2 = .ok e.2 ∧
    e.1.1 ∈ asked
  obs : ∀ e ∈ c.obs, freshObs lib (fields e.1.1) e.1.2 = .ok e.2 ∧ e.1.1 ∈ asked
  nav : ∀ e ∈ c.nav, freshNav lib (fields e.1.1) e.1.2.1 e.1.2.2.1 e.1.2.2.2.1 e.1.2.2.2.2 =
    .ok e.2 ∧ e.1.1 ∈ asked

theorem callCached_sound {κ ν : Type} {get : Caches → Lru κ ν} {set : Caches → Lru κ ν → Caches}
    {key : κ} {body : Caches → Except PyErr ν × Caches} {c : Caches} (I : Caches → Prop)
    (P : κ × ν → Prop) (fresh : Except PyErr ν)
    (hget : ∀ c, I c → ∀ e ∈ get c, P e)
    (hset : ∀ c l, I c → (∀ e ∈ l, P e) → I (set c l))
    (hP : ∀ v, P (key, v) → fresh = .ok v) (hP' : ∀ v, fresh = .ok v → P (key, v))
    (hbody : ∀ c, I c → (body c).1 = fresh ∧ I (body c).2) (hc : I c) :
    (callCached get set key body c).1 = fresh ∧ I (callCached get set key body c).2 := by
  classical
  unfold callCached
  split
  · rename_i e he
    have hk : e.1 = key := by simpa using List.find?_some he
    have hm : e ∈ get c := List.mem_of_find?_eq_some he
    have hPe := hget c hc e hm
    refine ⟨?_, hset c _ hc fun e' he' => ?_⟩
    · obtain ⟨k, v⟩ := e
      cases hk
      exact (hP v hPe).symm
    · rcases List.mem_cons.1 he' with rfl | h
      · exact hPe
      · exact hget c hc e' (List.mem_of_mem_filter h)
  · have hb := hbody c hc
    split
    · rename_i err c' e
      rw [e] at hb
      exact hb
    · rename_i v c' e
      rw [e] at hb
      refine ⟨hb.1, hset c' _ hb.2 fun e' he' => ?_⟩
      rcases List.mem_cons.1 (List.mem_of_mem_take he') with rfl | h
      · exact hP' v hb.1.symm
      · exact hget c' hb.2 e' h

variable {lib : FieldLib} {fields : ℕ → Field} {asked : Set ℕ} {c : Caches}

theorem meshgrid_sound (hc : SoundCaches lib fields asked c) {id : ℕ} (hid : id ∈ asked) (s : ℝ) :
    (Field.meshgrid fields id s c).1 = freshMesh (fields id) s ∧
      SoundCaches lib fields asked (Field.meshgrid fields id s c).2 := by
  refine callCached_sound (SoundCaches lib fields asked)
    (fun e => freshMesh (fields e.1.1) e.1.2 = .ok e.2 ∧ e.1.1 ∈ asked) _
    (fun c hc => hc.mesh) (fun c l hc hl => ⟨hl, hc.path, hc.obs, hc.nav⟩)
    (fun v h => h.1) (fun v h => ⟨h, hid⟩) (fun c hc => ⟨?_, hc⟩) hc
  unfold meshgridBody freshMesh
  cases (fields id).domain <;> rfl

theorem path_sound (hc : SoundCaches lib fields asked c) {id : ℕ} (hid : id ∈ asked) (s : ℝ)
    (i : TargetIndex) (r : ℝ) :
    (Field.shortestPathTarget lib fields id s i r c).1 = freshPath lib (fields id) s i r ∧
      SoundCaches lib fields asked (Field.shortestPathTarget lib fields id s i r c).2 := by
  refine callCached_sound (SoundCaches lib fields asked)
    (fun e => freshPath lib (fields e.1.1) e.1.2.1 e.1.2.2.1 e.1.2.2.2 = .ok e.2 ∧ e.1.1 ∈ asked) _
    (fun c hc => hc.path) (fun c l hc hl => ⟨hc.mesh, hl, hc.obs, hc.nav⟩)
    (fun v h => h.1) (fun v h => ⟨h, hid⟩) (fun c hc => ?_) hc
  have hm := meshgrid_sound hc hid s
  unfold freshPath
  cases e : selectTargets lib (fields id) i with
  | error err => exact ⟨rfl, hc⟩
  | ok t =>
    obtain ⟨m, c', e'⟩ : ∃ m c', Field.meshgrid fields id s c = (m, c') := ⟨_, _, rfl⟩
    rw [e'] at hm
    simp only at hm ⊢
    rw [e', ← hm.1]
    cases m with
    | error err => exact ⟨rfl, hm.2⟩
    | ok m => exact ⟨rfl, hm.2⟩

theorem obs_sound (hc : SoundCaches lib fields asked c) {id : ℕ} (hid : id ∈ asked) (s : ℝ) :
    (Field.directionMapObstacles lib fields id s c).1 = freshObs lib (fields id) s ∧
      SoundCaches lib fields asked (Field.directionMapObstacles lib fields id s c).2 := by
  refine callCached_sound (SoundCaches lib fields asked)
    (fun e => freshObs lib (fields e.1.1) e.1.2 = .ok e.2 ∧ e.1.1 ∈ asked) _
    (fun c hc => hc.obs) (fun c l hc hl => ⟨hc.mesh, hc.path, hl, hc.nav⟩)
    (fun v h => h.1) (fun v h => ⟨h, hid⟩) (fun c hc => ?_) hc
  have hm := meshgrid_sound hc hid s
  unfold freshObs
  obtain ⟨m, c', e'⟩ : ∃ m c', Field.meshgrid fields id s c = (m, c') := ⟨_, _, rfl⟩
  rw [e'] at hm
  simp only at hm ⊢
  rw [e', ← hm.1]
  cases m with
  | error err => exact ⟨rfl, hm.2⟩
  | ok m => exact ⟨rfl, hm.2⟩

theorem nav_sound (hc : SoundCaches lib fields asked c) {id : ℕ} (hid : id ∈ asked)
    (i : TargetIndex) (s r k : ℝ) :
    (Field.navigationToTarget lib fields id i s r k c).1 = freshNav lib (fields id) i s r k ∧
      SoundCaches lib fields asked (Field.navigationToTarget lib fields id i s r k c).2 := by
  refine callCached_sound (SoundCaches lib fields asked)
    (fun e => freshNav lib (fields e.1.1) e.1.2.1 e.1.2.2.1 e.1.2.2.2.1 e.1.2.2.2.2 = .ok e.2 ∧
      e.1.1 ∈ asked) _
    (fun c hc => hc.nav) (fun c l hc hl => ⟨hc.mesh, hc.path, hc.obs, hl⟩)
    (fun v h => h.1) (fun v h => ⟨h, hid⟩) (fun c hc => ?_) hc
  unfold freshNav
  by_cases ht : (fields id).targets = []
  · rw [if_pos ht, if_pos ht]; exact ⟨rfl, hc⟩
  rw [if_neg ht, if_neg ht]
  have hp := path_sound hc hid s i r
  obtain ⟨p, c1, e1⟩ : ∃ m c', Field.shortestPathTarget lib fields id s i r c = (m, c') :=
    ⟨_, _, rfl⟩
  rw [e1] at hp ⊢
  simp only at hp ⊢
  rw [← hp.1]
  cases p with
  | error err => exact ⟨rfl, hp.2⟩
  | ok t =>
    have ho := obs_sound hp.2 hid s
    obtain ⟨o, c2, e2⟩ : ∃ m c', Field.directionMapObstacles lib fields id s c1 = (m, c') :=
      ⟨_, _, rfl⟩
    simp only
    rw [e2] at ho ⊢
    simp only at ho ⊢
    rw [← ho.1]
    cases o with
    | error err => exact ⟨rfl, ho.2⟩
    | ok o =>
      have hm := meshgrid_sound ho.2 hid s
      obtain ⟨m, c3, e3⟩ : ∃ m c', Field.meshgrid fields id s c2 = (m, c') := ⟨_, _, rfl⟩
      simp only
      rw [e3] at hm ⊢
      simp only at hm ⊢
      rw [← hm.1]
      cases m with
      | error err => exact ⟨rfl, hm.2⟩
      | ok m => exact ⟨rfl, hm.2⟩

theorem answer_sound (hc : SoundCaches lib fields asked c) {id : ℕ} (hid : id ∈ asked) (q : Query) :
    (answer lib fields id c q).1 = freshAnswer lib (fields id) q ∧
      SoundCaches lib fields asked (answer lib fields id c q).2 := by
  cases q with
  | mesh s => have := meshgrid_sound hc hid s; exact ⟨congrArg _ this.1, this.2⟩
  | path s i r => have := path_sound hc hid s i r; exact ⟨congrArg _ this.1, this.2⟩
  | obs s => have := obs_sound hc hid s; exact ⟨congrArg _ this.1, this.2⟩
  | nav i s r k => have := nav_sound hc hid i s r k; exact ⟨congrArg _ this.1, this.2⟩

theorem SoundCaches.mono (hc : SoundCaches lib fields asked c) {asked' : Set ℕ}
    (h : asked ⊆ asked') : SoundCaches lib fields asked' c :=
  ⟨fun e he => ⟨(hc.mesh e he).1, h (hc.mesh e he).2⟩,
    fun e he => ⟨(hc.path e he).1, h (hc.path e he).2⟩,
    fun e he => ⟨(hc.obs e he).1, h (hc.obs e he).2⟩,
    fun e he => ⟨(hc.nav e he).1, h (hc.nav e he).2⟩⟩

theorem SoundCaches.update (hc : SoundCaches lib fields asked c) {id : ℕ} (hid : id ∉ asked)
    (f : Field) : SoundCaches lib (Function.update fields id f) asked c := by
  have key : ∀ k ∈ asked, Function.update fields id f k = fields k := by
    intro k hk
    exact Function.update_of_ne (by rintro rfl; exact hid hk) _ _
  refine ⟨fun e he => ?_, fun e he => ?_, fun e he => ?_, fun e he => ?_⟩
  · rw [key _ (hc.mesh e he).2]; exact hc.mesh e he
  · rw [key _ (hc.path e he).2]; exact hc.path e he
  · rw [key _ (hc.obs e he).2]; exact hc.obs e he
  · rw [key _ (hc.nav e he).2]; exact hc.nav e he

theorem soundCaches_empty : SoundCaches lib fields asked emptyCaches :=
  ⟨by simp [emptyCaches], by simp [emptyCaches], by simp [emptyCaches], by simp [emptyCaches]⟩

theorem answers_sound (es : List FieldEvent) : ∀ (fields : ℕ → Field) (asked : Set ℕ) (c : Caches),
    SoundCaches lib fields asked c → ModifiedOnlyBefore asked es →
    answers lib fields c es = freshAnswers lib fields es := by
  induction es with
  | nil => intros; rfl
  | cons e es ih =>
    intro fields asked c hc hm
    cases e with
    | query id q =>
      have h := answer_sound (hc.mono (Set.subset_insert id asked)) (Set.mem_insert id asked) q
      rw [answers, freshAnswers, h.1, ih fields _ _ h.2 hm]
    | modify id f =>
      rw [answers, freshAnswers]
      exact ih _ asked c (hc.update hm.1 f) hm.2

theorem foldl_min_le (g : Vec → ℝ) (l : List Vec) : ∀ m : ℝ,
    l.foldl (fun m q => min m (g q)) m ≤ m ∧
      ∀ p ∈ l, l.foldl (fun m q => min m (g q)) m ≤ g p := by
  induction l with
  | nil => simp
  | cons a l ih =>
    intro m
    obtain ⟨h1, h2⟩ := ih (min m (g a))
    refine ⟨h1.trans (min_le_left _ _), fun p hp => ?_⟩
    rcases List.mem_cons.1 hp with rfl | hp
    · exact h1.trans (min_le_right _ _)
    · exact h2 p hp

theorem le_foldl_max (g : Vec → ℝ) (l : List Vec) : ∀ m : ℝ,
    m ≤ l.foldl (fun m q => max m (g q)) m ∧
      ∀ p ∈ l, g p ≤ l.foldl (fun m q => max m (g q)) m := by
  induction l with
  | nil => simp
  | cons a l ih =>
    intro m
    obtain ⟨h1, h2⟩ := ih (max m (g a))
    refine ⟨(le_max_left _ _).trans h1, fun p hp => ?_⟩
    rcases List.mem_cons.1 hp with rfl | hp
    · exact (le_max_right _ _).trans h1
    · exact h2 p hp

theorem polygonBounds_le (ext : List Vec) (p : Vec) (hp : p ∈ ext) :
    (polygonBounds ext).1 ≤ p.1 ∧ (polygonBounds ext).2.1 ≤ p.2 ∧
      p.1 ≤ (polygonBounds ext).2.2.1 ∧ p.2 ≤ (polygonBounds ext).2.2.2 := by
  cases ext with
  | nil => simp at hp
  | cons a l =>
    have h1 := foldl_min_le (fun q => q.1) l a.1
    have h2 := foldl_min_le (fun q => q.2) l a.2
    have h3 := le_foldl_max (fun q => q.1) l a.1
    have h4 := le_foldl_max (fun q => q.2) l a.2
    rcases List.mem_cons.1 hp with rfl | hp
    · exact ⟨h1.1, h2.1, h3.1, h4.1⟩
    · exact ⟨h1.2 p hp, h2.2 p hp, h3.2 p hp, h4.2 p hp⟩

end CrowdDynamics
