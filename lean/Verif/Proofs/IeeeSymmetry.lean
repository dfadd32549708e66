import Verif.Spec.IeeeSymmetry
import Mathlib.Tactic.Ring
import Mathlib.Tactic.Linarith

/-!
# Mapping axes to axes with infinities and NaN: helper lemmas
-/

namespace CrowdDynamics

open Spec
open scoped Classical

namespace F64

theorem neg_neg' (x : F64) : x.neg.neg = x := by
  cases x <;> simp [F64.neg]

theorem pack_neg (y : ℝ) : F64.pack (-y) = (F64.pack y).neg := by
  unfold F64.pack
  rw [abs_neg]
  split_ifs with h
  · rfl
  · have : y ≠ 0 := by
      rintro rfl
      rw [abs_zero] at h
      exact h (by positivity)
    simp only [F64.neg, Left.neg_neg_iff]
    rcases lt_or_gt_of_ne this with h | h
    · simp [h, not_lt.2 h.le]
    · simp [h, not_lt.2 h.le]

theorem decide_neg {x : ℝ} (h : x ≠ 0) : decide (-x < 0) = !decide (x < 0) := by
  simp only [Left.neg_neg_iff]
  rcases lt_or_gt_of_ne h with h | h
  · simp [h, not_lt.2 h.le]
  · simp [h, not_lt.2 h.le]

variable {rnd : ℝ → ℝ} (o : ∀ x, rnd (-x) = -rnd x)

theorem add_comm' (x y : F64) : x.add rnd y = y.add rnd x := by
  cases x <;> cases y <;> simp only [F64.add]
  · rename_i s t
    cases s <;> cases t <;> simp
  · rw [add_comm]

theorem mul_comm' (x y : F64) : x.mul rnd y = y.mul rnd x := by
  cases x <;> cases y <;> simp only [F64.mul]
  · rename_i s t
    cases s <;> cases t <;> simp
  · rename_i s x
    cases s <;> cases h : decide (x < 0) <;> simp
  · rename_i x s
    cases s <;> cases h : decide (x < 0) <;> simp
  · rw [mul_comm]

include o

theorem add_neg' (x y : F64) : x.neg.add rnd y.neg = (x.add rnd y).neg := by
  cases x <;> cases y <;> simp only [F64.add, F64.neg]
  · rename_i s t
    cases s <;> cases t <;> simp
  · rw [← neg_add, o, pack_neg]
    rfl

theorem sub_neg' (x y : F64) : x.neg.sub rnd y.neg = (x.sub rnd y).neg := add_neg' o _ _

theorem mul_neg_left (x y : F64) : x.neg.mul rnd y = (x.mul rnd y).neg := by
  cases x <;> cases y <;> simp only [F64.mul, F64.neg]
  · rename_i s t
    cases s <;> cases t <;> simp
  · rename_i s x
    split_ifs
    · rfl
    · cases s <;> cases h : decide (x < 0) <;> simp
  · rename_i x s
    by_cases hx : x = 0
    · simp [hx]
    · rw [if_neg (neg_ne_zero.2 hx), if_neg hx, decide_neg hx]
      cases s <;> cases h : decide (x < 0) <;> simp
  · rw [neg_mul, o, pack_neg]
    rfl

theorem mul_neg_right (x y : F64) : x.mul rnd y.neg = (x.mul rnd y).neg := by
  rw [mul_comm', mul_neg_left o, mul_comm']

theorem div_neg_left (x y : F64) : x.neg.div rnd y = (x.div rnd y).neg := by
  cases x <;> cases y <;> simp only [F64.div, F64.neg]
  · rename_i s x
    cases s <;> cases h : decide (x < 0) <;> simp
  · simp
  · rename_i x y
    by_cases hy : y = 0
    · rw [if_pos hy, if_pos hy]
      by_cases hx : x = 0
      · simp [hx]
      · rw [if_neg (neg_ne_zero.2 hx), if_neg hx, decide_neg hx]
    · rw [if_neg hy, if_neg hy, neg_div, o, pack_neg]
      rfl

end F64

theorem hypotI_neg {A : Arith} (h : SignFree A) (x y : F64) : x.neg.hypot A y = x.hypot A y := by
  cases x <;> cases y <;> simp only [F64.hypot, F64.neg]
  rw [h.hypot]

theorem hypotI_swap {A : Arith} (h : SignFree A) (x y : F64) : x.hypot A y = y.hypot A x := by
  cases x <;> cases y <;> simp only [F64.hypot]
  rw [h.swap]

theorem abs_negI (x : F64) : x.neg.abs = x.abs := by
  cases x <;> simp [F64.neg, F64.abs]

theorem sign_negI (x : F64) : x.neg.sign = x.sign.neg := by
  cases x with
  | nan => rfl
  | inf s => cases s <;> simp [F64.neg, F64.sign]
  | num x =>
    simp only [F64.neg, F64.sign, npSign]
    rcases lt_trichotomy x 0 with h | h | h
    · simp [h, not_lt.2 h.le]
    · simp [h]
    · simp [h, not_lt.2 h.le]

/-- The opposite vector. -/
def vnegI (v : F64 × F64) : F64 × F64 := (v.1.neg, v.2.neg)

/-- What is used of the eight symmetries. -/
structure AxisLikeI (A : Arith) (e : Vec → Vec) (g : F64 × F64 → F64 × F64) : Prop where
  odd : ∀ x, A.rnd (-x) = -A.rnd x
  lin : ∀ φ : F64 → F64 → F64 → F64, (∀ x y z, φ x.neg y.neg z.neg = (φ x y z).neg) → ∀ u v w : F64 × F64,
    (φ (g u).1 (g v).1 (g w).1, φ (g u).2 (g v).2 (g w).2) = g (φ u.1 v.1 w.1, φ u.2 v.2 w.2)
  dot : ∀ u v, dotI A.rnd (g u) (g v) = dotI A.rnd u v
  len : ∀ u, (g u).1.hypot A (g u).2 = u.1.hypot A u.2
  turn : (∀ v, rotate90I (g v) = g (rotate90I v)) ∨ ∀ v, rotate90I (g v) = vnegI (g (rotate90I v))
  embed : ∀ v : Vec, (.num (e v).1, .num (e v).2) = g (.num v.1, .num v.2)

theorem axisLikeI {A : Arith} (h : SignFree A) (s a b : Bool) :
    AxisLikeI A (axisMap s a b) (axisMapI s a b) := by
  have o := h.rnd
  have h2 := hypotI_neg h
  have h3 : ∀ x y : F64, x.hypot A y.neg = x.hypot A y := fun x y => by
    rw [hypotI_swap h, h2, hypotI_swap h]
  refine ⟨o, ?_, ?_, ?_, ?_, ?_⟩
  · intro φ hφ u v w
    cases s <;> cases a <;> cases b <;> simp [axisMapI, hφ]
  · intro u v
    cases s <;> cases a <;> cases b <;>
      simp [axisMapI, dotI, F64.mul_neg_left o, F64.mul_neg_right o, F64.neg_neg', F64.add_comm']
  · intro u
    cases s <;> cases a <;> cases b <;> simp [axisMapI, h2, h3, hypotI_swap h u.1 u.2]
  · cases s <;> cases a <;> cases b <;>
      first
        | (left; intro v; simp [axisMapI, rotate90I, F64.neg_neg']; done)
        | (right; intro v; simp [axisMapI, rotate90I, vnegI, F64.neg_neg']; done)
  · intro v
    cases s <;> cases a <;> cases b <;> simp [axisMap, axisMapI, F64.neg]

namespace AxisLikeI

variable {A : Arith} {e : Vec → Vec} {g : F64 × F64 → F64 × F64} (H : AxisLikeI A e g)

include H

theorem lin1 (φ : F64 → F64) (hφ : ∀ x, φ x.neg = (φ x).neg) (u : F64 × F64) :
    (φ (g u).1, φ (g u).2) = g (φ u.1, φ u.2) :=
  H.lin (fun x _ _ => φ x) (fun x _ _ => hφ x) u u u

theorem lin2 (φ : F64 → F64 → F64) (hφ : ∀ x y, φ x.neg y.neg = (φ x y).neg) (u v : F64 × F64) :
    (φ (g u).1 (g v).1, φ (g u).2 (g v).2) = g (φ u.1 v.1, φ u.2 v.2) :=
  H.lin (fun x y _ => φ x y) (fun x y _ => hφ x y) u v v

theorem zero : g (.num 0, .num 0) = (.num 0, .num 0) :=
  (H.lin1 (fun _ => .num 0) (by simp [F64.neg]) (.num 0, .num 0)).symm

theorem neg (u : F64 × F64) : g (vnegI u) = vnegI (g u) := (H.lin1 F64.neg (fun _ => rfl) u).symm

theorem sub (u v : F64 × F64) : vsubI A.rnd (g u) (g v) = g (vsubI A.rnd u v) :=
  H.lin2 (F64.sub A.rnd) (F64.sub_neg' H.odd) u v

theorem add (u v : F64 × F64) : vaddI A.rnd (g u) (g v) = g (vaddI A.rnd u v) :=
  H.lin2 (F64.add A.rnd) (F64.add_neg' H.odd) u v

theorem wall (u v : Vec) : subI A.rnd (e u) (e v) = g (subI A.rnd u v) := by
  have := H.sub (.num u.1, .num u.2) (.num v.1, .num v.2)
  rwa [← H.embed, ← H.embed] at this

theorem div (u : F64 × F64) (d : F64) : divI A.rnd (g u) d = g (divI A.rnd u d) :=
  H.lin1 (fun x => x.div A.rnd d) (fun x => F64.div_neg_left H.odd x d) u

theorem mul (u : F64 × F64) (d : F64) : mulI A.rnd (g u) d = g (mulI A.rnd u d) :=
  H.lin1 (fun x => x.mul A.rnd d) (fun x => F64.mul_neg_left H.odd x d) u

theorem turn270 : (∀ v, rotate270I (g v) = g (rotate270I v)) ∨
    ∀ v, rotate270I (g v) = vnegI (g (rotate270I v)) := by
  have t : ∀ v : F64 × F64, rotate270I v = vnegI (rotate90I v) := fun v => by
    simp [rotate90I, rotate270I, vnegI, F64.neg_neg']
  rcases H.turn with h | h
  · exact .inl fun v => by rw [t, t, h, H.neg]
  · exact .inr fun v => by rw [t, t, h, H.neg]

theorem truncate (v : F64 × F64) (l : F64) : truncateI A (g v) l = (truncateI A v l).map g := by
  unfold truncateI
  simp only [H.len]
  split_ifs
  · cases h : l.sdiv A.rnd (v.1.hypot A v.2) with
    | error _ => rfl
    | ok s =>
      have := H.mul v s
      simp only [mulI] at this
      simp only [bind, Except.bind, Except.map, this]
  · rfl

theorem circles (x0 x1 : F64 × F64) (r0 r1 : ℝ) :
    distanceCirclesG A (g x0) r0 (g x1) r1 =
      ((distanceCirclesG A x0 r0 x1 r1).1, g (distanceCirclesG A x0 r0 x1 r1).2) := by
  unfold distanceCirclesG
  simp only [H.sub, H.len]
  congr 1
  split_ifs
  · exact H.zero.symm
  · exact H.div _ _

theorem gradient (x v : F64 × F64) (a b d : F64) :
    gradientI A.rnd (g x) (g v) a b d = g (gradientI A.rnd x v a b d) := by
  have o := H.odd
  refine H.lin2 (fun x v => (v.sub A.rnd (((v.mul A.rnd b).add A.rnd (x.mul A.rnd a)).div A.rnd d)).div A.rnd a)
    (fun x y => ?_) x v
  rw [F64.mul_neg_left o, F64.mul_neg_left o, F64.add_neg' o, F64.div_neg_left o, F64.sub_neg' o,
    F64.div_neg_left o]

theorem part (a : AgentI) (grad : F64 × F64) (mag : F64) :
    socialPartG A (mapAgentI g a) (g grad) mag = g (socialPartG A a grad mag) :=
  H.lin1 (fun x => (((F64.num a.mass).neg.mul A.rnd (.num a.kSoc)).mul A.rnd x).mul A.rnd mag)
    (fun x => by rw [F64.mul_neg_right H.odd, F64.mul_neg_left H.odd]) grad

theorem social (ai aj : AgentI) :
    forceSocialCircularG A (mapAgentI g ai) (mapAgentI g aj) =
      (forceSocialCircularG A ai aj).map fun f => (g f.1, g f.2) := by
  have z := H.zero
  have p1 := H.part ai
  have p2 := H.part aj
  have hn := H.neg
  unfold vnegI at hn
  unfold forceSocialCircularG
  simp only [p1, p2, ← hn, H.truncate,
    show (mapAgentI g ai).position = g ai.position from rfl,
    show (mapAgentI g aj).position = g aj.position from rfl,
    show (mapAgentI g ai).velocity = g ai.velocity from rfl,
    show (mapAgentI g aj).velocity = g aj.velocity from rfl,
    show (mapAgentI g ai).radius = ai.radius from rfl, show (mapAgentI g aj).radius = aj.radius from rfl,
    show (mapAgentI g ai).tau0 = ai.tau0 from rfl, show (mapAgentI g aj).tau0 = aj.tau0 from rfl,
    H.sub, H.dot, H.gradient]
  split_ifs
  · simp only [Except.map, z]
  · simp only [bind, Except.bind]
    generalize F64.sdiv _ _ _ = T
    cases T with
    | error _ => rfl
    | ok tau =>
      dsimp only
      split_ifs
      · simp only [Except.map, z]
      · cases magnitudeI A tau (.num ai.tau0) with
        | error _ => rfl
        | ok m =>
          dsimp only
          cases magnitudeI A tau (.num aj.tau0) with
          | error _ => rfl
          | ok m' =>
            dsimp only
            generalize truncateI A (socialPartG A ai _ _) _ = F
            generalize truncateI A _ _ = F'
            cases F with
            | error _ => rfl
            | ok f =>
              cases F' with
              | error _ => rfl
              | ok f' => rfl

theorem contact (h : F64) (n v t : F64 × F64) (mu kappa damping : F64) :
    forceContactI A.rnd h (g n) (g v) (g t) mu kappa damping =
      g (forceContactI A.rnd h n v t mu kappa damping) := by
  have o := H.odd
  unfold forceContactI
  simp only [H.dot]
  refine H.lin2 (fun ni ti => (h.neg.mul A.rnd ((mu.mul A.rnd ni).sub A.rnd
      ((kappa.mul A.rnd (dotI A.rnd v t)).mul A.rnd ti))).add A.rnd
      ((damping.mul A.rnd (dotI A.rnd v n)).mul A.rnd ni)) (fun x y => ?_) n t
  rw [F64.mul_neg_right o, F64.mul_neg_right o _ y, F64.sub_neg' o, F64.mul_neg_right o,
    F64.mul_neg_right o _ x, F64.add_neg' o]

theorem dot_neg (u v : F64 × F64) : dotI A.rnd u (vnegI v) = (dotI A.rnd u v).neg := by
  have o := H.odd
  simp only [dotI, vnegI]
  rw [F64.mul_neg_right o, F64.mul_neg_right o, F64.add_neg' o]

theorem neg_dot (u v : F64 × F64) : dotI A.rnd (vnegI u) v = (dotI A.rnd u v).neg := by
  have o := H.odd
  simp only [dotI, vnegI]
  rw [F64.mul_neg_left o, F64.mul_neg_left o, F64.add_neg' o]

theorem contact_flip (h : F64) (n v t : F64 × F64) (mu kappa damping : F64) :
    forceContactI A.rnd h n v (vnegI t) mu kappa damping = forceContactI A.rnd h n v t mu kappa damping := by
  have o := H.odd
  unfold forceContactI
  simp only [H.dot_neg]
  simp only [vnegI, F64.mul_neg_right o, F64.mul_neg_left o, F64.neg_neg']

theorem contact_turned (h : F64) (n v : F64 × F64) (mu kappa damping : F64) :
    forceContactI A.rnd h (g n) (g v) (rotate270I (g n)) mu kappa damping =
      g (forceContactI A.rnd h n v (rotate270I n) mu kappa damping) := by
  rcases H.turn270 with t | t
  · rw [t, H.contact]
  · rw [t, H.contact_flip, H.contact]

theorem pair (ai aj : AgentI) :
    pairForcesG A (mapAgentI g ai) (mapAgentI g aj) =
      (pairForcesG A ai aj).map (Option.map fun f => (g f.1, g f.2)) := by
  have hs := H.social ai aj
  unfold pairForcesG
  simp only [hs]
  simp only [mapAgentI, H.circles, H.sub, H.contact_turned]
  split_ifs
  · cases forceSocialCircularG A ai aj with
    | error _ => rfl
    | ok f => simp only [bind, Except.bind, Except.map, Option.map_some, H.add, H.sub]
  · cases forceSocialCircularG A ai aj with
    | error _ => rfl
    | ok f => rfl
  · rfl

theorem push {n : ℕ} (F : Fin n → F64 × F64) (i : Fin n) (f : F64 × F64) :
    addForceI A.rnd (fun k => g (F k)) i (g f) = fun k => g (addForceI A.rnd F i f k) := by
  funext k
  unfold addForceI
  by_cases hk : k = i
  · subst hk
    simp only [Function.update_self, H.add]
  · simp only [Function.update_of_ne hk]

theorem interaction {n : ℕ} (agents : Fin n → AgentI) (i j : Fin n) (F : Fin n → F64 × F64) :
    interactionAgentAgentCircularG A (fun k => mapAgentI g (agents k)) i j (fun k => g (F k)) =
      (interactionAgentAgentCircularG A agents i j F).map fun F k => g (F k) := by
  unfold interactionAgentAgentCircularG
  simp only [H.pair]
  cases pairForcesG A (agents i) (agents j) with
  | error _ => rfl
  | ok f =>
    cases f with
    | none => rfl
    | some f => simp only [bind, Except.bind, Except.map, Option.map_some, H.push]

theorem interactions {n : ℕ} (agents : Fin n → AgentI) (pairs : List (Fin n × Fin n)) (F : Fin n → F64 × F64) :
    agentAgentCircularG A (fun k => mapAgentI g (agents k)) pairs (fun k => g (F k)) =
      (agentAgentCircularG A agents pairs F).map fun F k => g (F k) := by
  unfold agentAgentCircularG
  induction pairs generalizing F with
  | nil => rfl
  | cons p ps ih =>
    rw [List.foldlM_cons, List.foldlM_cons, H.interaction]
    cases interactionAgentAgentCircularG A agents p.1 p.2 F with
    | error _ => rfl
    | ok F' => exact ih F'

theorem line (x : F64 × F64) (r : ℝ) (p0 p1 : Vec) :
    distanceCircleLineG A (g x) r (e p0) (e p1) =
      ((distanceCircleLineG A x r p0 p1).1, g (distanceCircleLineG A x r p0 p1).2) := by
  have o := H.odd
  unfold distanceCircleLineG
  simp only [H.wall, H.embed, H.sub, H.len, H.div, H.dot]
  split_ifs with h1 h2
  · rfl
  · rfl
  · have hm : ∀ (c : F64) (v : F64 × F64), (c.mul A.rnd (g v).1, c.mul A.rnd (g v).2) =
        g (c.mul A.rnd v.1, c.mul A.rnd v.2) := fun c v =>
      H.lin1 (fun x => c.mul A.rnd x) (fun x => F64.mul_neg_right o c x) v
    rcases H.turn with t | t
    · simp only [t, H.dot, hm]
    · simp only [t, H.neg_dot, H.dot, abs_negI, sign_negI]
      simp only [vnegI, F64.mul_neg_right o, F64.mul_neg_left o, F64.neg_neg', hm]

theorem obstacle {n : ℕ} (agents : Fin n → AgentI) (i : Fin n) (w : Wall) (F : Fin n → F64 × F64) :
    interactionAgentCircularObstacleG A (fun k => mapAgentI g (agents k)) i (mapWall e w) (fun k => g (F k)) =
      fun k => g (interactionAgentCircularObstacleG A agents i w F k) := by
  unfold interactionAgentCircularObstacleG
  simp only [mapAgentI, mapWall, H.line, H.contact_turned, H.push]
  split_ifs <;> rfl

theorem obstacles {n : ℕ} (agents : Fin n → AgentI) (walls : List Wall) (F : Fin n → F64 × F64) :
    agentCircularObstacleG A (fun k => mapAgentI g (agents k)) (walls.map (mapWall e)) (fun k => g (F k)) =
      fun k => g (agentCircularObstacleG A agents walls F k) := by
  have inner : ∀ (i : Fin n) (ws : List Wall) (F : Fin n → F64 × F64),
      (ws.map (mapWall e)).foldl (fun F w =>
        interactionAgentCircularObstacleG A (fun k => mapAgentI g (agents k)) i w F) (fun k => g (F k)) =
      fun k => g (ws.foldl (fun F w => interactionAgentCircularObstacleG A agents i w F) F k) := by
    intro i ws
    induction ws with
    | nil => intro F; rfl
    | cons w ws ih =>
      intro F
      rw [List.map_cons, List.foldl_cons, List.foldl_cons, H.obstacle, ih]
  unfold agentCircularObstacleG
  generalize List.finRange n = is
  induction is generalizing F with
  | nil => rfl
  | cons i is ih => rw [List.foldl_cons, List.foldl_cons, inner, ih]

theorem adjust {n : ℕ} (agents : Fin n → AgentI) (d F : Fin n → F64 × F64) :
    forceAdjustAgentsI A.rnd (fun k => mapAgentI g (agents k)) (fun k => g (d k)) (fun k => g (F k)) =
      (forceAdjustAgentsI A.rnd agents d F).map fun F k => g (F k) := by
  have o := H.odd
  have one : ∀ (m t v0 : ℝ) (u v : F64 × F64), forceAdjustI A.rnd m t v0 (g u) (g v) =
      (forceAdjustI A.rnd m t v0 u v).map g := by
    intro m t v0 u v
    unfold forceAdjustI
    cases (F64.num m).sdiv A.rnd (.num t) with
    | error _ => rfl
    | ok q =>
      simp only [bind, Except.bind, Except.map]
      exact congrArg _ (H.lin2 (fun x y => q.mul A.rnd (((F64.num v0).mul A.rnd x).sub A.rnd y))
        (fun x y => by rw [F64.mul_neg_right o, F64.sub_neg' o, F64.mul_neg_right o]) u v)
  unfold forceAdjustAgentsI
  generalize List.finRange n = is
  induction is generalizing F with
  | nil => rfl
  | cons i is ih =>
    rw [List.foldlM_cons, List.foldlM_cons]
    simp only [mapAgentI, one] at ih ⊢
    cases forceAdjustI A.rnd (agents i).mass (agents i).tauAdj (agents i).targetVelocity (d i)
        (agents i).velocity with
    | error _ => rfl
    | ok f =>
      simp only [bind, Except.bind, Except.map, H.push] at ih ⊢
      exact ih _

/-- A row whose vectors are mapped. -/
def mapRow (g : F64 × F64 → F64 × F64) (r : RowI) : RowI :=
  { r with position := g r.position, velocity := g r.velocity, force := g r.force, forcePrev := g r.forcePrev }

theorem verlet (dt : F64) (r : RowI) :
    translationalVerletRowI A.rnd dt (mapRow g r) = mapRow g (translationalVerletRowI A.rnd dt r) := by
  unfold translationalVerletRowI
  simp only [mapRow, H.div, H.add, H.mul]

theorem integrate {n : ℕ} (dtMin dtMax : ℝ) (rows : Fin n → RowI) :
    velocityVerletIntegratorI A dtMin dtMax (fun i => mapRow g (rows i)) =
      (velocityVerletIntegratorI A dtMin dtMax rows).map fun p => (p.1, fun i => mapRow g (p.2 i)) := by
  have v : vMaxLoopI A (fun k => mapRow g (rows k)) = vMaxLoopI A rows := by
    unfold vMaxLoopI
    simp only [mapRow, H.len]
  have t : adaptiveTimestepI A (fun i => mapRow g (rows i)) dtMin dtMax =
      adaptiveTimestepI A rows dtMin dtMax := by
    unfold adaptiveTimestepI
    rw [v]
    rfl
  unfold velocityVerletIntegratorI
  rw [t]
  cases adaptiveTimestepI A rows dtMin dtMax with
  | error _ => rfl
  | ok dt => simp only [bind, Except.bind, Except.map, H.verlet]

theorem update {n : ℕ} (walls : List Wall) (dtMin dtMax : ℝ) (inp : StepInput n) (agents : Fin n → AgentI) :
    updateI A (walls.map (mapWall e)) dtMin dtMax (mapInput g inp) (fun i => mapAgentI g (agents i)) =
      (updateI A walls dtMin dtMax inp agents).map fun c i => mapAgentI g (c i) := by
  have z := H.zero
  have a1 := H.adjust agents inp.direction fun i => vaddI A.rnd (agents i).force (inp.fluctuation i)
  unfold updateI
  simp only [show ∀ i, (mapInput g inp).fluctuation i = g (inp.fluctuation i) from fun _ => rfl,
    show (mapInput g inp).direction = fun i => g (inp.direction i) from rfl,
    show (mapInput g inp).pairs = inp.pairs from rfl,
    show ∀ i, (mapAgentI g (agents i)).force = g (agents i).force from fun _ => rfl, H.add, a1]
  cases forceAdjustAgentsI A.rnd agents inp.direction
      (fun i => vaddI A.rnd (agents i).force (inp.fluctuation i)) with
  | error _ => rfl
  | ok F =>
    simp only [bind, Except.bind, Except.map, H.interactions]
    cases agentAgentCircularG A agents inp.pairs F with
    | error _ => rfl
    | ok F =>
      dsimp only
      rw [H.obstacles]
      have i1 := H.integrate dtMin dtMax (fun i =>
        ({ (agents i).toRowI with force := agentCircularObstacleG A agents walls F i } : RowI))
      have r : (fun i => ({ (mapAgentI g (agents i)).toRowI with
          force := g (agentCircularObstacleG A agents walls F i) } : RowI)) =
          fun i => mapRow g { (agents i).toRowI with force := agentCircularObstacleG A agents walls F i } := rfl
      rw [r, i1]
      cases velocityVerletIntegratorI A dtMin dtMax (fun i =>
        ({ (agents i).toRowI with force := agentCircularObstacleG A agents walls F i } : RowI)) with
      | error _ => rfl
      | ok p =>
        simp only [Except.map]
        congr 1
        funext i
        simp only [mapAgentI, mapRow, z]

theorem run {n : ℕ} (walls : List Wall) (dtMin dtMax : ℝ) (inputs : List (StepInput n))
    (agents : Fin n → AgentI) :
    runI A (walls.map (mapWall e)) dtMin dtMax (inputs.map (mapInput g)) (fun i => mapAgentI g (agents i)) =
      (runI A walls dtMin dtMax inputs agents).map fun c i => mapAgentI g (c i) := by
  unfold runI
  induction inputs generalizing agents with
  | nil => rfl
  | cons inp inputs ih =>
    rw [List.map_cons, List.foldlM_cons, List.foldlM_cons, H.update]
    cases updateI A walls dtMin dtMax inp agents with
    | error _ => rfl
    | ok c => exact ih c

end AxisLikeI

end CrowdDynamics
