import Verif.Spec.IeeeMotion
import Verif.Model.RoundedMotion
import Verif.Model.CoreTests
import Verif.Proofs.IeeeContact

/-!
# The integrators with infinities and NaN: helper lemmas
-/

namespace CrowdDynamics

open Spec Real
open scoped Classical

/-! ### The time step -/

/-- Not NaN and not negative. -/
def NonNeg : F64 → Prop
  | .nan => False
  | .inf s => s = false
  | .num x => 0 ≤ x

theorem nonNeg_of_gt {l v : F64} (hv : NonNeg v) (h : l.gt v) : NonNeg l := by
  cases l with
  | nan => exact h.elim
  | inf s =>
    cases v with
    | nan => exact hv.elim
    | inf t => exact h.1
    | num y => exact h
  | num x =>
    cases v with
    | nan => exact hv.elim
    | inf t => exact absurd h (by rw [show t = false from hv]; exact Bool.false_ne_true)
    | num y =>
      have hy : 0 ≤ y := hv
      have hxy : x > y := h
      exact hy.trans hxy.le

theorem vMaxLoopI_nonNeg {n : ℕ} (A : Arith) (rows : Fin n → RowI) : NonNeg (vMaxLoopI A rows) := by
  unfold vMaxLoopI
  have key : ∀ (l : List (Fin n)) (v : F64), NonNeg v → NonNeg (l.foldl (fun vMax i =>
      let l := (rows i).velocity.1.hypot A (rows i).velocity.2
      if l.gt vMax then l else vMax) v) := by
    intro l
    induction l with
    | nil => exact fun v h => h
    | cons i l ih =>
      intro v hv
      rw [List.foldl_cons]
      apply ih
      dsimp only
      split_ifs with h
      · exact nonNeg_of_gt hv h
      · exact hv
  exact key _ _ (le_refl (0 : ℝ))

theorem npMax_le {l : List ℝ} {B : ℝ} (h0 : 0 ≤ B) (h : ∀ x ∈ l, |x| ≤ B) :
    |(npMax l).getD 0| ≤ B := by
  cases l with
  | nil => simpa [npMax] using h0
  | cons a t =>
    show |t.foldl max a| ≤ B
    have key : ∀ (t : List ℝ) (a : ℝ), |a| ≤ B → (∀ x ∈ t, |x| ≤ B) → |t.foldl max a| ≤ B := by
      intro t
      induction t with
      | nil => exact fun a ha _ => ha
      | cons b t ih =>
        intro a ha ht
        rw [List.foldl_cons]
        refine ih _ ?_ (fun x hx => ht x (List.mem_cons_of_mem _ hx))
        rcases max_choice a b with e | e <;> rw [e]
        · exact ha
        · exact ht b (List.mem_cons_self ..)
    exact key t a (h a (List.mem_cons_self ..)) (fun x hx => h x (List.mem_cons_of_mem _ hx))

theorem pack_ne_nan (y : ℝ) : F64.pack y ≠ .nan := by
  unfold F64.pack
  split_ifs <;> exact fun h => F64.noConfusion h

/-- The time step is a number between the bounds, whatever the velocities are. -/
theorem adaptiveTimestepI_num {n : ℕ} {A : Arith} (hr : A.rnd = fl64) (rows : Fin n → RowI)
    {dtMin dtMax : ℝ} (h0 : 0 ≤ dtMin) (h1 : dtMin ≤ dtMax) (h2 : dtMax ≤ 2 ^ (10 : ℤ))
    (ht : ∀ i, |(rows i).targetVelocity| ≤ 2 ^ (10 : ℤ)) :
    ∃ dt, adaptiveTimestepI A rows dtMin dtMax = .ok (.num dt) ∧ dtMin ≤ dt ∧ dt ≤ dtMax := by
  obtain ⟨rnd, hyp, ex⟩ := A
  obtain rfl : rnd = fl64 := hr
  have hv := vMaxLoopI_nonNeg ⟨fl64, hyp, ex⟩ rows
  unfold adaptiveTimestepI
  dsimp only
  generalize vMaxLoopI ⟨fl64, hyp, ex⟩ rows = v at *
  by_cases hz : v = .num 0
  · rw [if_pos hz]
    exact ⟨dtMax, rfl, h1, le_rfl⟩
  rw [if_neg hz]
  have hm : |(npMax (List.ofFn fun i => (rows i).targetVelocity)).getD 0| ≤ 2 ^ (10 : ℤ) := by
    refine npMax_le (two_zpow_pos _).le ?_
    intro x hx
    obtain ⟨i, rfl⟩ := List.mem_ofFn.1 hx
    exact ht i
  generalize (npMax (List.ofFn fun i => (rows i).targetVelocity)).getD 0 = m at *
  have hc : IsNum (.num (fl64 1.1)) (fl64 1.1) 1 :=
    ⟨rfl, fl_abs_le (by norm_num) (by norm_num [abs_le])⟩
  have hd : IsNum (.num dtMax) dtMax 10 := ⟨rfl, by rw [abs_of_nonneg (h0.trans h1)]; exact h2⟩
  have hm' : IsNum (.num m) m 10 := ⟨rfl, hm⟩
  have s1 := hc.mul hm' (k := 11) (by norm_num) (by norm_num) (by norm_num)
  have s2 := s1.mul hd (k := 21) (by norm_num) (by norm_num) (by norm_num)
  rw [s2.1]
  generalize fl64 (fl64 (fl64 1.1 * m) * dtMax) = D at *
  unfold F64.sdiv
  rw [if_neg hz]
  simp only [bind, Except.bind]
  have hn : (F64.num D).div fl64 v ≠ .nan := by
    cases v with
    | nan => exact hv.elim
    | inf s => exact fun h => F64.noConfusion h
    | num y =>
      have hy : y ≠ 0 := fun h => hz (by rw [h])
      show (if y = 0 then _ else F64.pack (fl64 (D / y))) ≠ _
      rw [if_neg hy]
      exact pack_ne_nan _
  generalize (F64.num D).div fl64 v = q at *
  by_cases c1 : q.gt (.num dtMax)
  · rw [if_pos c1]
    exact ⟨dtMax, rfl, h1, le_rfl⟩
  rw [if_neg c1]
  by_cases c2 : (F64.num dtMin).gt q
  · rw [if_pos c2]
    exact ⟨dtMin, rfl, le_rfl, h1⟩
  rw [if_neg c2]
  cases q with
  | nan => exact absurd rfl hn
  | inf s =>
    cases s
    · exact absurd rfl c1
    · exact absurd rfl c2
  | num y => exact ⟨y, rfl, not_lt.1 c2, not_lt.1 c1⟩

/-- An agent whose speed is NaN counts as one at rest. -/
theorem adaptiveTimestepI_ignores {n : ℕ} (A : Arith) (rows : Fin n → RowI) (k : Fin n)
    (h : (rows k).velocity.1.hypot A (rows k).velocity.2 = .nan) (hz : A.hypot 0 0 = 0)
    (dtMin dtMax : ℝ) :
    adaptiveTimestepI A rows dtMin dtMax =
      adaptiveTimestepI A (Function.update rows k { rows k with velocity := (.num 0, .num 0) })
        dtMin dtMax := by
  have p0 : F64.pack 0 = .num 0 := by
    unfold F64.pack
    rw [if_pos]
    rw [abs_zero]
    exact two_zpow_pos _
  have e : vMaxLoopI A rows =
      vMaxLoopI A (Function.update rows k { rows k with velocity := (.num 0, .num 0) }) := by
    unfold vMaxLoopI
    have key : ∀ (l : List (Fin n)) (v : F64), NonNeg v →
        l.foldl (fun vMax i =>
          let l := (rows i).velocity.1.hypot A (rows i).velocity.2
          if l.gt vMax then l else vMax) v =
        l.foldl (fun vMax i =>
          let l := (Function.update rows k
            { rows k with velocity := (.num 0, .num 0) } i).velocity.1.hypot A
            (Function.update rows k { rows k with velocity := (.num 0, .num 0) } i).velocity.2
          if l.gt vMax then l else vMax) v := by
      intro l
      induction l with
      | nil => exact fun v _ => rfl
      | cons i l ih =>
        intro v hv
        rw [List.foldl_cons, List.foldl_cons]
        dsimp only
        by_cases hi : i = k
        · subst hi
          rw [Function.update_self, h]
          have h1 : ¬ F64.gt .nan v := fun h => h
          have h2 : ¬ F64.gt ((F64.num 0).hypot A (.num 0)) v := by
            have e : (F64.num 0).hypot A (.num 0) = .num 0 := by
              show F64.pack (A.hypot 0 0) = _
              rw [hz, p0]
            rw [e]
            cases v with
            | nan => exact hv.elim
            | inf t => rw [show t = false from hv]; exact Bool.false_ne_true
            | num y => exact not_lt.2 hv
          rw [if_neg h1, if_neg h2]
          exact ih v hv
        · rw [Function.update_of_ne hi]
          apply ih
          split_ifs with hc
          · exact nonNeg_of_gt hv hc
          · exact hv
    exact key _ _ (le_refl (0 : ℝ))
  have e' : (fun i => (Function.update rows k
      { rows k with velocity := (.num 0, .num 0) } i).targetVelocity) =
      fun i => (rows i).targetVelocity := by
    funext i
    by_cases hi : i = k
    · subst hi
      rw [Function.update_self]
    · rw [Function.update_of_ne hi]
  unfold adaptiveTimestepI
  rw [← e, e']

/-! ### Finite agents -/

/-- The components of the results. -/
theorem euler_comp {x v f m dt : ℝ} (hx : |x| ≤ 2 ^ (400 : ℤ)) (hv : |v| ≤ 2 ^ (400 : ℤ))
    (hf : |f| ≤ 2 ^ (400 : ℤ)) (hm : (2 : ℝ) ^ (-400 : ℤ) ≤ |m| ∧ |m| ≤ 2 ^ (400 : ℤ))
    (hd : |dt| ≤ 2 ^ (10 : ℤ)) :
    IsNum ((F64.num x).add fl64 (((F64.num v).mul fl64 (.num dt)).add fl64
      ((((F64.num f).div fl64 (.num m)).div fl64 (.num 2)).mul fl64
        ((F64.num dt).mul fl64 (.num dt)))))
      (fl64 (x + fl64 (fl64 (v * dt) + halfSquareF fl64 dt (fl64 (f / m))))) 900 ∧
    IsNum ((F64.num v).add fl64 (((F64.num f).div fl64 (.num m)).mul fl64 (.num dt)))
      (fl64 (v + fl64 (fl64 (f / m) * dt))) 900 := by
  have nx : IsNum (.num x) x 400 := ⟨rfl, hx⟩
  have nv : IsNum (.num v) v 400 := ⟨rfl, hv⟩
  have nf : IsNum (.num f) f 400 := ⟨rfl, hf⟩
  have nm : IsNum (.num m) m 400 := ⟨rfl, hm.2⟩
  have nd : IsNum (.num dt) dt 10 := ⟨rfl, hd⟩
  have n2 : IsNum (.num 2) 2 1 := ⟨rfl, by norm_num⟩
  have a := (nf.div nm hm.1 (k := 800) (by norm_num) (by norm_num) (by norm_num)).1
  have b := (a.div n2 (j := 1) (by norm_num) (k := 799) (by norm_num) (by norm_num)
    (by norm_num)).1
  have d2 := nd.mul nd (k := 20) (by norm_num) (by norm_num) (by norm_num)
  have c := b.mul d2 (k := 819) (by norm_num) (by norm_num) (by norm_num)
  have vd := nv.mul nd (k := 410) (by norm_num) (by norm_num) (by norm_num)
  have s := vd.add c (k := 820) (by norm_num) (by norm_num) (by norm_num) (by norm_num)
  have ad := a.mul nd (k := 810) (by norm_num) (by norm_num) (by norm_num)
  exact ⟨nx.add s (by norm_num) (by norm_num) (by norm_num) (by norm_num),
    nv.add ad (by norm_num) (by norm_num) (by norm_num) (by norm_num)⟩

theorem verlet_comp {x v f g m dt : ℝ} (hx : |x| ≤ 2 ^ (400 : ℤ)) (hv : |v| ≤ 2 ^ (400 : ℤ))
    (hf : |f| ≤ 2 ^ (400 : ℤ)) (hg : |g| ≤ 2 ^ (400 : ℤ))
    (hm : (2 : ℝ) ^ (-400 : ℤ) ≤ |m| ∧ |m| ≤ 2 ^ (400 : ℤ)) (hd : |dt| ≤ 2 ^ (10 : ℤ)) :
    IsNum ((F64.num v).add fl64 (((((F64.num g).div fl64 (.num m)).add fl64
      ((F64.num f).div fl64 (.num m))).div fl64 (.num 2)).mul fl64 (.num dt)))
      (fl64 (v + fl64 (fl64 (fl64 (fl64 (g / m) + fl64 (f / m)) / 2) * dt))) 900 ∧
    IsNum ((F64.num x).add fl64 ((((F64.num v).add fl64 (((((F64.num g).div fl64
      (.num m)).add fl64 ((F64.num f).div fl64 (.num m))).div fl64 (.num 2)).mul fl64
      (.num dt))).mul fl64 (.num dt)).add fl64 ((((F64.num f).div fl64 (.num m)).div fl64
      (.num 2)).mul fl64 ((F64.num dt).mul fl64 (.num dt)))))
      (fl64 (x + fl64 (fl64 (fl64 (v + fl64 (fl64 (fl64 (fl64 (g / m) + fl64 (f / m)) / 2) * dt)) *
        dt) + halfSquareF fl64 dt (fl64 (f / m))))) 900 := by
  have nx : IsNum (.num x) x 400 := ⟨rfl, hx⟩
  have nv : IsNum (.num v) v 400 := ⟨rfl, hv⟩
  have nf : IsNum (.num f) f 400 := ⟨rfl, hf⟩
  have ng : IsNum (.num g) g 400 := ⟨rfl, hg⟩
  have nm : IsNum (.num m) m 400 := ⟨rfl, hm.2⟩
  have nd : IsNum (.num dt) dt 10 := ⟨rfl, hd⟩
  have n2 : IsNum (.num 2) 2 1 := ⟨rfl, by norm_num⟩
  have a := (nf.div nm hm.1 (k := 800) (by norm_num) (by norm_num) (by norm_num)).1
  have o := (ng.div nm hm.1 (k := 800) (by norm_num) (by norm_num) (by norm_num)).1
  have oa := o.add a (k := 801) (by norm_num) (by norm_num) (by norm_num) (by norm_num)
  have ob := (oa.div n2 (j := 1) (by norm_num) (k := 800) (by norm_num) (by norm_num)
    (by norm_num)).1
  have od := ob.mul nd (k := 810) (by norm_num) (by norm_num) (by norm_num)
  have u := nv.add od (k := 811) (by norm_num) (by norm_num) (by norm_num) (by norm_num)
  have ud := u.mul nd (k := 821) (by norm_num) (by norm_num) (by norm_num)
  have b := (a.div n2 (j := 1) (by norm_num) (k := 799) (by norm_num) (by norm_num)
    (by norm_num)).1
  have d2 := nd.mul nd (k := 20) (by norm_num) (by norm_num) (by norm_num)
  have c := b.mul d2 (k := 819) (by norm_num) (by norm_num) (by norm_num)
  have s := ud.add c (k := 822) (by norm_num) (by norm_num) (by norm_num) (by norm_num)
  exact ⟨u.mono (by norm_num),
    nx.add s (by norm_num) (by norm_num) (by norm_num) (by norm_num)⟩

theorem finiteVec_of {X Y : F64} {x y : ℝ} {k : ℤ} (h : IsNum X x k) (h' : IsNum Y y k) :
    FiniteVec k (X, Y) := ⟨x, y, Prod.ext h.1 h'.1, h.2, h'.2⟩

theorem euler_finite {dt : ℝ} (hd : |dt| ≤ 2 ^ (10 : ℤ)) {row : RowI} (h : FiniteRow row) :
    FiniteVec 900 (translationalEulerRowI fl64 (.num dt) row).position ∧
      FiniteVec 900 (translationalEulerRowI fl64 (.num dt) row).velocity := by
  obtain ⟨⟨x1, x2, ex, hx1, hx2⟩, ⟨v1, v2, ev, hv1, hv2⟩, ⟨f1, f2, ef, hf1, hf2⟩, -, hm⟩ := h
  obtain ⟨pos, vel, force, prev, mass, tv⟩ := row
  dsimp only at ex ev ef hm
  subst ex ev ef
  obtain ⟨a1, b1⟩ := euler_comp hx1 hv1 hf1 hm hd
  obtain ⟨a2, b2⟩ := euler_comp hx2 hv2 hf2 hm hd
  exact ⟨finiteVec_of a1 a2, finiteVec_of b1 b2⟩

theorem verlet_finite {dt : ℝ} (hd : |dt| ≤ 2 ^ (10 : ℤ)) {row : RowI} (h : FiniteRow row) :
    FiniteVec 900 (translationalVerletRowI fl64 (.num dt) row).position ∧
      FiniteVec 900 (translationalVerletRowI fl64 (.num dt) row).velocity := by
  obtain ⟨⟨x1, x2, ex, hx1, hx2⟩, ⟨v1, v2, ev, hv1, hv2⟩, ⟨f1, f2, ef, hf1, hf2⟩,
    ⟨g1, g2, eg, hg1, hg2⟩, hm⟩ := h
  obtain ⟨pos, vel, force, prev, mass, tv⟩ := row
  dsimp only at ex ev ef eg hm
  subst ex ev ef eg
  obtain ⟨a1, b1⟩ := verlet_comp hx1 hv1 hf1 hg1 hm hd
  obtain ⟨a2, b2⟩ := verlet_comp hx2 hv2 hf2 hg2 hm hd
  exact ⟨finiteVec_of b1 b2, finiteVec_of a1 a2⟩

/-! ### The same without overflow -/

/-- Bounds of the attributes that are added and multiplied. -/
theorem finiteRow_bounds {a : Agent} (h : FiniteRow (finiteRow a)) :
    ((|a.position.1| ≤ 2 ^ (400 : ℤ) ∧ |a.position.2| ≤ 2 ^ (400 : ℤ)) ∧
      |a.velocity.1| ≤ 2 ^ (400 : ℤ) ∧ |a.velocity.2| ≤ 2 ^ (400 : ℤ)) ∧
      (|a.force.1| ≤ 2 ^ (400 : ℤ) ∧ |a.force.2| ≤ 2 ^ (400 : ℤ)) ∧
      |a.forcePrev.1| ≤ 2 ^ (400 : ℤ) ∧ |a.forcePrev.2| ≤ 2 ^ (400 : ℤ) := by
  have key : ∀ {p q : ℝ}, FiniteVec 400 (.num p, .num q) →
      |p| ≤ 2 ^ (400 : ℤ) ∧ |q| ≤ 2 ^ (400 : ℤ) := by
    rintro p q ⟨p', q', e, h1, h2⟩
    injection e with e1 e2
    injection e1 with e1
    injection e2 with e2
    rw [e1, e2]
    exact ⟨h1, h2⟩
  exact ⟨⟨key h.position, key h.velocity⟩, key h.force, key h.forcePrev⟩

theorem euler_refines {dt : ℝ} (hd : |dt| ≤ 2 ^ (10 : ℤ)) {a : Agent}
    (h : FiniteRow (finiteRow a)) : translationalEulerRowI fl64 (.num dt) (finiteRow a) =
      finiteRow (translationalEulerRowF fl64 dt a) := by
  obtain ⟨⟨⟨x1, x2⟩, v1, v2⟩, ⟨f1, f2⟩, -⟩ := (finiteRow_bounds h)
  obtain ⟨a1, b1⟩ := euler_comp x1 v1 f1 h.mass hd
  obtain ⟨a2, b2⟩ := euler_comp x2 v2 f2 h.mass hd
  show RowI.mk (_, _) (_, _) _ _ _ _ = RowI.mk (_, _) (_, _) _ _ _ _
  exact congr_arg₂ (fun (p q : F64 × F64) => RowI.mk p q (.num a.force.1, .num a.force.2)
    (.num a.forcePrev.1, .num a.forcePrev.2) a.mass a.targetVelocity) (Prod.ext a1.1 a2.1)
    (Prod.ext b1.1 b2.1)

theorem verlet_refines {dt : ℝ} (hd : |dt| ≤ 2 ^ (10 : ℤ)) {a : Agent}
    (h : FiniteRow (finiteRow a)) : translationalVerletRowI fl64 (.num dt) (finiteRow a) =
      finiteRow (translationalVerletRowF fl64 dt a) := by
  obtain ⟨⟨⟨x1, x2⟩, v1, v2⟩, ⟨f1, f2⟩, g1, g2⟩ := (finiteRow_bounds h)
  obtain ⟨a1, b1⟩ := verlet_comp x1 v1 f1 g1 h.mass hd
  obtain ⟨a2, b2⟩ := verlet_comp x2 v2 f2 g2 h.mass hd
  exact congr_arg₂ (fun (p q : F64 × F64) => RowI.mk p q (.num a.force.1, .num a.force.2)
    (.num a.force.1, .num a.force.2) a.mass a.targetVelocity) (Prod.ext b1.1 b2.1)
    (Prod.ext a1.1 a2.1)

/-- The largest speed is the same. -/
theorem vMaxLoopI_refines {n : ℕ} {A : Arith} (hh : AccurateHypot A.hypot) (agents : Crowd n)
    (h : ∀ i, FiniteRow (finiteRow (agents i))) :
    vMaxLoopI A (fun i => finiteRow (agents i)) = .num (vMaxLoopF A agents) := by
  unfold vMaxLoopI vMaxLoopF
  have key : ∀ (l : List (Fin n)) (v : ℝ),
      l.foldl (fun vMax i =>
        let l := (finiteRow (agents i)).velocity.1.hypot A (finiteRow (agents i)).velocity.2
        if l.gt vMax then l else vMax) (F64.num v) =
      .num (l.foldl (fun vMax i =>
        let l := lengthF A (agents i).velocity
        if l > vMax then l else vMax) v) := by
    intro l
    induction l with
    | nil => exact fun v => rfl
    | cons i l ih =>
      intro v
      rw [List.foldl_cons, List.foldl_cons, ← ih]
      obtain ⟨⟨-, v1, v2⟩, -⟩ := finiteRow_bounds (h i)
      have e := (hypot_num (A := A) hh (X := .num (agents i).velocity.1)
        (Y := .num (agents i).velocity.2) ⟨rfl, v1⟩ ⟨rfl, v2⟩ (by norm_num) (by norm_num)).1
      congr 1
      have e' : (finiteRow (agents i)).velocity.1.hypot A (finiteRow (agents i)).velocity.2 =
        .num (lengthF A (agents i).velocity) := e
      dsimp only
      rw [e']
      by_cases hc : lengthF A (agents i).velocity > v
      · rw [if_pos hc, if_pos (show (F64.num _).gt (.num v) from hc)]
      · rw [if_neg hc, if_neg (show ¬ (F64.num _).gt (.num v) from hc)]
  exact key _ _

/-- The time step is the same. -/
theorem adaptiveTimestepI_refines {n : ℕ} {A : Arith} (hr : A.rnd = fl64)
    (hh : AccurateHypot A.hypot) (agents : Crowd n) (h : ∀ i, FiniteRow (finiteRow (agents i)))
    {dtMin dtMax : ℝ} (h0 : 0 ≤ dtMin) (h1 : dtMin ≤ dtMax) (h2 : dtMax ≤ 2 ^ (10 : ℤ))
    (ht : ∀ i, |(agents i).targetVelocity| ≤ 2 ^ (10 : ℤ)) :
    adaptiveTimestepI A (fun i => finiteRow (agents i)) dtMin dtMax =
      .ok (.num (adaptiveTimestepF A agents dtMin dtMax)) := by
  have e := vMaxLoopI_refines hh agents h
  obtain ⟨rnd, hyp, ex⟩ := A
  obtain rfl : rnd = fl64 := hr
  unfold adaptiveTimestepI adaptiveTimestepF
  dsimp only
  rw [e]
  generalize vMaxLoopF ⟨fl64, hyp, ex⟩ agents = v at *
  by_cases hz : v = 0
  · rw [if_pos hz, if_pos (by rw [hz])]
  have hz' : F64.num v ≠ .num 0 := fun h => hz (F64.num.inj h)
  rw [if_neg hz, if_neg hz']
  have hm : |(npMax (List.ofFn fun i => (agents i).targetVelocity)).getD 0| ≤ 2 ^ (10 : ℤ) := by
    refine npMax_le (two_zpow_pos _).le ?_
    intro x hx
    obtain ⟨i, rfl⟩ := List.mem_ofFn.1 hx
    exact ht i
  have et : (fun i => (finiteRow (agents i)).targetVelocity) = fun i => (agents i).targetVelocity :=
    rfl
  rw [et]
  generalize (npMax (List.ofFn fun i => (agents i).targetVelocity)).getD 0 = m at *
  have hc : IsNum (.num (fl64 1.1)) (fl64 1.1) 1 :=
    ⟨rfl, fl_abs_le (by norm_num) (by norm_num [abs_le])⟩
  have hd : IsNum (.num dtMax) dtMax 10 := ⟨rfl, by rw [abs_of_nonneg (h0.trans h1)]; exact h2⟩
  have hm' : IsNum (.num m) m 10 := ⟨rfl, hm⟩
  have s1 := hc.mul hm' (k := 11) (by norm_num) (by norm_num) (by norm_num)
  have s2 := s1.mul hd (k := 21) (by norm_num) (by norm_num) (by norm_num)
  rw [s2.1]
  generalize fl64 (fl64 (fl64 1.1 * m) * dtMax) = D at *
  unfold F64.sdiv
  rw [if_neg hz']
  simp only [bind, Except.bind]
  have eq : (F64.num D).div fl64 (.num v) = F64.pack (fl64 (D / v)) := by
    show (if v = 0 then _ else F64.pack (fl64 (D / v))) = _
    rw [if_neg hz]
  rw [eq]
  generalize fl64 (D / v) = q at *
  have big : (2 : ℝ) ^ (10 : ℤ) < 2 ^ (1024 : ℤ) := zpow_lt_zpow_right₀ (by norm_num) (by norm_num)
  unfold F64.pack
  by_cases hq : |q| < 2 ^ (1024 : ℤ)
  · rw [if_pos hq]
    by_cases c1 : q > dtMax
    · rw [if_pos c1, if_pos (show (F64.num q).gt (.num dtMax) from c1)]
    rw [if_neg c1, if_neg (show ¬ (F64.num q).gt (.num dtMax) from c1)]
    by_cases c2 : q < dtMin
    · rw [if_pos c2, if_pos (show (F64.num dtMin).gt (.num q) from c2)]
    · rw [if_neg c2, if_neg (show ¬ (F64.num dtMin).gt (.num q) from c2)]
  · rw [if_neg hq]
    have hq' : (2 : ℝ) ^ (1024 : ℤ) ≤ |q| := not_lt.1 hq
    have top : dtMax < (2 : ℝ) ^ (1024 : ℤ) := lt_of_le_of_lt h2 big
    clear big hq eq e hm s1 s2 hc hd hm' h2 ht
    generalize (2 : ℝ) ^ (1024 : ℤ) = P at *
    by_cases hs : q < 0
    · rw [abs_of_neg hs] at hq'
      have b1 : ¬ q > dtMax := by
        intro hc
        linarith [h0.trans h1]
      have b2 : q < dtMin := by linarith
      rw [if_neg b1, if_pos b2]
      have g1 : ¬ (F64.inf (decide (q < 0))).gt (.num dtMax) := by
        rw [decide_eq_true hs]
        exact Bool.noConfusion
      have g2 : (F64.num dtMin).gt (.inf (decide (q < 0))) := by
        rw [decide_eq_true hs]
        exact rfl
      rw [if_neg g1, if_pos g2]
    · rw [abs_of_nonneg (not_lt.1 hs)] at hq'
      have b1 : q > dtMax := by linarith
      rw [if_pos b1]
      have g1 : (F64.inf (decide (q < 0))).gt (.num dtMax) := by
        rw [decide_eq_false hs]
        exact rfl
      rw [if_pos g1]

/-! ### NaN -/

theorem nan_add (rnd : ℝ → ℝ) (X : F64) : F64.add rnd .nan X = .nan := by cases X <;> rfl

theorem add_nan (rnd : ℝ → ℝ) (X : F64) : F64.add rnd X .nan = .nan := by cases X <;> rfl

theorem nan_mul (rnd : ℝ → ℝ) (X : F64) : F64.mul rnd .nan X = .nan := by cases X <;> rfl

theorem nan_div (rnd : ℝ → ℝ) (X : F64) : F64.div rnd .nan X = .nan := by cases X <;> rfl

theorem euler_lost {rnd : ℝ → ℝ} {dt : F64} {row : RowI} {b : Bool}
    (h : axisOf b row.velocity = .nan ∨ axisOf b row.force = .nan) :
    Lost b (translationalEulerRowI rnd dt row) := by
  unfold Lost translationalEulerRowI
  cases b <;> dsimp only [vaddI, mulI, divI, axisOf] at h ⊢ <;> rcases h with h | h <;> rw [h] <;>
    simp only [nan_add, add_nan, nan_mul, nan_div, and_self]

theorem verlet_lost {rnd : ℝ → ℝ} {dt : F64} {row : RowI} {b : Bool}
    (h : axisOf b row.velocity = .nan ∨ axisOf b row.force = .nan) :
    Lost b (translationalVerletRowI rnd dt row) := by
  unfold Lost translationalVerletRowI
  cases b <;> dsimp only [vaddI, mulI, divI, axisOf] at h ⊢ <;> rcases h with h | h <;> rw [h] <;>
    simp only [nan_add, add_nan, nan_mul, nan_div, and_self]

/-- The attributes that the integrators do not change. -/
theorem target_kept (rnd : ℝ → ℝ) (dt : F64) (row : RowI) :
    (translationalEulerRowI rnd dt row).targetVelocity = row.targetVelocity ∧
      (translationalVerletRowI rnd dt row).targetVelocity = row.targetVelocity := ⟨rfl, rfl⟩

theorem euler_run {n : ℕ} {A : Arith} {rows : Fin n → RowI} {dtMin dtMax : ℝ} {dt : F64}
    (e : adaptiveTimestepI A rows dtMin dtMax = .ok dt) :
    eulerIntegratorI A dtMin dtMax rows =
      .ok (dt, fun i => translationalEulerRowI A.rnd dt (rows i)) := by
  unfold eulerIntegratorI
  rw [e]
  rfl

theorem verlet_run {n : ℕ} {A : Arith} {rows : Fin n → RowI} {dtMin dtMax : ℝ} {dt : F64}
    (e : adaptiveTimestepI A rows dtMin dtMax = .ok dt) :
    velocityVerletIntegratorI A dtMin dtMax rows =
      .ok (dt, fun i => translationalVerletRowI A.rnd dt (rows i)) := by
  unfold velocityVerletIntegratorI
  rw [e]
  rfl

/-- An agent that is lost remains so. -/
theorem updates_lost {n : ℕ} {A : Arith} (hr : A.rnd = fl64) {dtMin dtMax : ℝ} (h0 : 0 ≤ dtMin)
    (h1 : dtMin ≤ dtMax) (h2 : dtMax ≤ 2 ^ (10 : ℤ)) (i : Fin n) (b : Bool)
    (steps : List (Bool × (Fin n → F64 × F64))) : ∀ (rows : Fin n → RowI),
    (∀ j, |(rows j).targetVelocity| ≤ 2 ^ (10 : ℤ)) → Lost b (rows i) →
    ∃ rows', updates A dtMin dtMax steps rows = .ok rows' ∧ Lost b (rows' i) := by
  induction steps with
  | nil => exact fun rows _ h => ⟨rows, rfl, h⟩
  | cons s steps ih =>
    obtain ⟨verlet, force⟩ := s
    intro rows ht h
    obtain ⟨dt, e, -, -⟩ := adaptiveTimestepI_num hr (givenForce force rows) h0 h1 h2 ht
    unfold updates
    cases verlet
    · rw [if_neg Bool.false_ne_true, euler_run e]
      exact ih _ ht (euler_lost (Or.inl h.2))
    · rw [if_pos rfl, verlet_run e]
      exact ih _ ht (verlet_lost (Or.inl h.2))

/-- An agent with a force that is not a number is lost from the next update on. -/
theorem updates_nan {n : ℕ} {A : Arith} (hr : A.rnd = fl64) {dtMin dtMax : ℝ} (h0 : 0 ≤ dtMin)
    (h1 : dtMin ≤ dtMax) (h2 : dtMax ≤ 2 ^ (10 : ℤ)) (i : Fin n) (b : Bool) (verlet : Bool)
    (force : Fin n → F64 × F64) (steps : List (Bool × (Fin n → F64 × F64))) (rows : Fin n → RowI)
    (ht : ∀ j, |(rows j).targetVelocity| ≤ 2 ^ (10 : ℤ)) (h : axisOf b (force i) = .nan) :
    ∃ rows', updates A dtMin dtMax ((verlet, force) :: steps) rows = .ok rows' ∧
      Lost b (rows' i) := by
  obtain ⟨dt, e, -, -⟩ := adaptiveTimestepI_num hr (givenForce force rows) h0 h1 h2 ht
  unfold updates
  cases verlet
  · rw [if_neg Bool.false_ne_true, euler_run e]
    exact updates_lost hr h0 h1 h2 i b steps _ ht (euler_lost (Or.inr h))
  · rw [if_pos rfl, verlet_run e]
    exact updates_lost hr h0 h1 h2 i b steps _ ht (verlet_lost (Or.inr h))

end CrowdDynamics
