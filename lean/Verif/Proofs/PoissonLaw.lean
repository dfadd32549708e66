import Verif.Model.PoissonDraws
import Verif.Spec.PoissonLaw
import Verif.Proofs.Motion

/-!
# Lemmas: ticks are Poisson distributed
-/

namespace CrowdDynamics

open Spec MeasureTheory ProbabilityTheory

/-- Exactly `k` ticks happen before `t`; the first interval is `d pos`. -/
def Ticks (d : ℕ → ℝ) : ℕ → ℝ → ℕ → Prop
  | 0, t, pos => t ≤ d pos
  | k + 1, t, pos => d pos < t ∧ Ticks d k (t - d pos) (pos + 1)

lemma loop_ticks (d : ℕ → ℝ) (dt : ℝ) (k : ℕ) : ∀ (pos : ℕ) (c : ℝ),
    (∃ fuel ts, poissonClockLoop d dt fuel (pos + 1) (c + d pos) = some (ts, pos + 1 + k) ∧
      ts.length = k) ↔ Ticks d k (dt - c) pos := by
  induction k with
  | zero =>
    intro pos c
    constructor
    · rintro ⟨fuel, ts, h, hl⟩
      cases fuel with
      | zero => simp [poissonClockLoop] at h
      | succ fuel =>
        unfold poissonClockLoop at h
        by_cases hlt : c + d pos < dt
        · rw [if_pos hlt] at h
          cases hres : poissonClockLoop d dt fuel (pos + 1 + 1) (c + d pos + d (pos + 1)) with
          | none => rw [hres] at h; simp at h
          | some r =>
            rw [hres] at h
            simp only [Option.some.injEq, Prod.mk.injEq] at h
            rw [← h.1] at hl
            simp at hl
        · unfold Ticks
          linarith
    · intro h
      unfold Ticks at h
      refine ⟨1, [], ?_, rfl⟩
      unfold poissonClockLoop
      rw [if_neg (by linarith)]
  | succ k ih =>
    intro pos c
    have e : dt - c - d pos = dt - (c + d pos) := by ring
    constructor
    · rintro ⟨fuel, ts, h, hl⟩
      cases fuel with
      | zero => simp [poissonClockLoop] at h
      | succ fuel =>
        unfold poissonClockLoop at h
        by_cases hlt : c + d pos < dt
        · rw [if_pos hlt] at h
          cases hres : poissonClockLoop d dt fuel (pos + 1 + 1) (c + d pos + d (pos + 1)) with
          | none => rw [hres] at h; simp at h
          | some r =>
            rw [hres] at h
            simp only [Option.some.injEq, Prod.mk.injEq] at h
            obtain ⟨h1, h2⟩ := h
            refine ⟨by linarith, ?_⟩
            rw [e, ← ih (pos + 1) (c + d pos)]
            refine ⟨fuel, r.1, ?_, ?_⟩
            · rw [hres]
              congr 1
              refine Prod.ext rfl ?_
              simp only
              omega
            · rw [← h1] at hl
              simpa using hl
        · rw [if_neg hlt] at h
          simp only [Option.some.injEq, Prod.mk.injEq] at h
          rw [← h.1] at hl
          simp at hl
    · rintro ⟨h1, h2⟩
      rw [e, ← ih (pos + 1) (c + d pos)] at h2
      obtain ⟨fuel, ts, h, hl⟩ := h2
      refine ⟨fuel + 1, (c + d pos) :: ts, ?_, by simp [hl]⟩
      unfold poissonClockLoop
      rw [if_pos (by linarith), h]
      simp only [Option.some.injEq, Prod.mk.injEq, true_and]
      omega

/-- The number of calls of the generator is one more than the number of ticks. -/
lemma loop_pos (d : ℕ → ℝ) (dt : ℝ) (fuel : ℕ) : ∀ (pos : ℕ) (c : ℝ) (ts : List ℝ) (pos' : ℕ),
    poissonClockLoop d dt fuel pos c = some (ts, pos') → pos' = pos + ts.length := by
  induction fuel with
  | zero => intro pos c ts pos' h; simp [poissonClockLoop] at h
  | succ fuel ih =>
    intro pos c ts pos' h
    unfold poissonClockLoop at h
    by_cases hlt : c < dt
    · rw [if_pos hlt] at h
      cases hres : poissonClockLoop d dt fuel (pos + 1) (c + d pos) with
      | none => rw [hres] at h; simp at h
      | some r =>
        rw [hres] at h
        simp only [Option.some.injEq, Prod.mk.injEq] at h
        obtain ⟨rfl, rfl⟩ := h
        rw [ih _ _ r.1 r.2 hres, List.length_cons]
        omega
    · rw [if_neg hlt] at h
      simp only [Option.some.injEq, Prod.mk.injEq] at h
      obtain ⟨rfl, rfl⟩ := h
      rfl

lemma clock_ticks (d : ℕ → ℝ) (dt : ℝ) (k pos : ℕ) :
    (∃ fuel ts pos', poissonClock d dt fuel pos = some (ts, pos') ∧ ts.length = k) ↔
      Ticks d k dt pos := by
  have h := loop_ticks d dt k pos 0
  rw [sub_zero] at h
  rw [← h]
  unfold poissonClock
  rw [zero_add]
  constructor
  · rintro ⟨fuel, ts, pos', h, hl⟩
    have := loop_pos d dt fuel _ _ ts pos' h
    rw [hl] at this
    exact ⟨fuel, ts, by rw [h, this], hl⟩
  · rintro ⟨fuel, ts, h, hl⟩
    exact ⟨fuel, ts, _, h, hl⟩

/-! ## Measurability and locality -/

lemma ticks_congr {d d' : ℕ → ℝ} (k : ℕ) : ∀ (t : ℝ) (pos : ℕ),
    (∀ i, pos ≤ i → i ≤ pos + k → d i = d' i) → (Ticks d k t pos ↔ Ticks d' k t pos) := by
  induction k with
  | zero =>
    intro t pos h
    unfold Ticks
    rw [h pos le_rfl (by omega)]
  | succ k ih =>
    intro t pos h
    unfold Ticks
    rw [h pos le_rfl (by omega), ih _ (pos + 1) fun i h1 h2 => h i (by omega) (by omega)]

lemma ticks_measurable (k pos : ℕ) :
    MeasurableSet {x : ℝ × (ℕ → ℝ) | Ticks x.2 k x.1 pos} := by
  induction k generalizing pos with
  | zero =>
    unfold Ticks
    exact measurableSet_le measurable_fst ((measurable_pi_apply pos).comp measurable_snd)
  | succ k ih =>
    have hm : Measurable fun x : ℝ × (ℕ → ℝ) => (x.1 - x.2 pos, x.2) :=
      Measurable.prodMk (by fun_prop) measurable_snd
    have e : {x : ℝ × (ℕ → ℝ) | Ticks x.2 (k + 1) x.1 pos} =
        {x | x.2 pos < x.1} ∩ (fun x : ℝ × (ℕ → ℝ) => (x.1 - x.2 pos, x.2)) ⁻¹'
          {x | Ticks x.2 k x.1 (pos + 1)} := rfl
    rw [e]
    have h1 : MeasurableSet {x : ℝ × (ℕ → ℝ) | x.2 pos < x.1} :=
      measurableSet_lt ((measurable_pi_apply pos).comp measurable_snd) measurable_fst
    exact h1.inter (hm (ih (pos + 1)))

lemma ticks_measurable' (k pos : ℕ) (t : ℝ) : MeasurableSet {d : ℕ → ℝ | Ticks d k t pos} :=
  (measurable_prodMk_left (x := t)) (ticks_measurable k pos)

/-- The draws at the positions in `T`, zero elsewhere. -/
noncomputable def onlyAt (T : Finset ℕ) (y : T → ℝ) : ℕ → ℝ :=
  fun i => if h : i ∈ T then y ⟨i, h⟩ else 0

lemma onlyAt_measurable (T : Finset ℕ) : Measurable (onlyAt T) := by
  refine measurable_pi_iff.2 fun i => ?_
  unfold onlyAt
  by_cases h : i ∈ T
  · simp only [h, dif_pos]
    exact measurable_pi_apply _
  · simp only [h, dif_neg, not_false_iff]
    exact measurable_const

lemma onlyAt_eq (T : Finset ℕ) (d : ℕ → ℝ) {i : ℕ} (h : i ∈ T) :
    onlyAt T (fun j => d j) i = d i := by
  unfold onlyAt
  rw [dif_pos h]

/-! ## The distribution of one clock -/

/-- The density of the exponential distribution times the Poisson probability of the remaining
time, integrated. -/
lemma poisson_convolution {r : ℝ} (hr : 0 < r) (k : ℕ) (t : ℝ) (ht : 0 ≤ t) :
    ∫⁻ x in Set.Iio t, ENNReal.ofReal (Real.exp (-(r * (t - x))) * (r * (t - x)) ^ k / k.factorial)
      ∂(expMeasure r) =
      ENNReal.ofReal (Real.exp (-(r * t)) * (r * t) ^ (k + 1) / (k + 1).factorial) := by
  have hexp : expMeasure r = volume.withDensity (exponentialPDF r) := rfl
  have hmeas : Measurable (exponentialPDF r) :=
    (measurable_exponentialPDFReal r).ennreal_ofReal
  have hf : Measurable fun x : ℝ =>
      ENNReal.ofReal (Real.exp (-(r * (t - x))) * (r * (t - x)) ^ k / k.factorial) := by
    fun_prop
  rw [hexp, restrict_withDensity measurableSet_Iio, lintegral_withDensity_eq_lintegral_mul _ hmeas hf]
  have hset : (∫⁻ x in Set.Iio t, (exponentialPDF r * fun x =>
        ENNReal.ofReal (Real.exp (-(r * (t - x))) * (r * (t - x)) ^ k / k.factorial)) x) =
      ∫⁻ x in Set.Ioc 0 t, ENNReal.ofReal
        (r * Real.exp (-(r * t)) * ((r * (t - x)) ^ k / k.factorial)) := by
    have hsplit : ∫⁻ x in Set.Iio t, (exponentialPDF r * fun x =>
        ENNReal.ofReal (Real.exp (-(r * (t - x))) * (r * (t - x)) ^ k / k.factorial)) x =
        ∫⁻ x in Set.Ioo 0 t, (exponentialPDF r * fun x =>
        ENNReal.ofReal (Real.exp (-(r * (t - x))) * (r * (t - x)) ^ k / k.factorial)) x := by
      rw [← lintegral_indicator measurableSet_Iio, ← lintegral_indicator measurableSet_Ioo]
      refine lintegral_congr_ae ?_
      have h0 : ∀ᵐ x : ℝ, x ≠ 0 := by
        simp [ae_iff]
      filter_upwards [h0] with x hx
      by_cases h1 : x < t
      · by_cases h2 : 0 < x
        · rw [Set.indicator_of_mem (by exact h1), Set.indicator_of_mem (by exact ⟨h2, h1⟩)]
        · have h3 : x < 0 := lt_of_le_of_ne (not_lt.1 h2) hx
          rw [Set.indicator_of_mem (by exact h1), Set.indicator_of_notMem (by exact fun h => h2 h.1),
            Pi.mul_apply, exponentialPDF_of_neg h3, zero_mul]
      · rw [Set.indicator_of_notMem (by exact h1), Set.indicator_of_notMem (by exact fun h => h1 h.2)]
    rw [hsplit, restrict_Ioo_eq_restrict_Ioc]
    refine setLIntegral_congr_fun measurableSet_Ioc fun x hx => ?_
    simp only [Pi.mul_apply]
    rw [exponentialPDF_of_nonneg hx.1.le, ← ENNReal.ofReal_mul (by positivity)]
    congr 1
    have : Real.exp (-(r * t)) = Real.exp (-(r * x)) * Real.exp (-(r * (t - x))) := by
      rw [← Real.exp_add]; congr 1; ring
    rw [this]
    ring
  rw [hset, ← ofReal_integral_eq_lintegral_ofReal]
  · congr 1
    rw [← intervalIntegral.integral_of_le ht, intervalIntegral.integral_const_mul,
      intervalIntegral.integral_div]
    have e : ∫ x in (0 : ℝ)..t, (r * (t - x)) ^ k = r ^ k * (t ^ (k + 1) / (k + 1)) := by
      have : ∀ x : ℝ, (r * (t - x)) ^ k = r ^ k * (t - x) ^ k := fun x => mul_pow _ _ _
      simp only [this]
      rw [intervalIntegral.integral_const_mul,
        intervalIntegral.integral_comp_sub_left (fun x => x ^ k) t, integral_pow]
      simp
    rw [e, Nat.factorial_succ]
    push_cast
    field_simp
    rw [mul_pow]
    ring
  · refine (Continuous.integrableOn_Icc ?_).mono_set Set.Ioc_subset_Icc_self
    fun_prop
  · refine (ae_restrict_iff' measurableSet_Ioc).2 (Filter.Eventually.of_forall fun x hx => ?_)
    have : 0 ≤ t - x := sub_nonneg.2 hx.2
    simp only [Pi.zero_apply]
    positivity

/-- A drawn interval is exponentially distributed with mean `interval`. -/
lemma exponentialDraw_law {Ω : Type} [MeasurableSpace Ω] {μ : Measure Ω} [IsProbabilityMeasure μ]
    {X : Ω → ℝ} (h : HasLaw X (expMeasure 1) μ) {interval : ℝ} (hi : 0 < interval) :
    HasLaw (fun ω => exponentialDraw interval (X ω)) (expMeasure (1 / interval)) μ := by
  have hm : AEMeasurable (fun ω => exponentialDraw interval (X ω)) μ := by
    unfold exponentialDraw
    exact h.aemeasurable.const_mul interval
  refine ⟨hm, ?_⟩
  have i1 := isProbabilityMeasure_expMeasure (one_pos : (0 : ℝ) < 1)
  have i2 := isProbabilityMeasure_expMeasure (r := 1 / interval) (by positivity)
  have i3 : IsProbabilityMeasure (μ.map fun ω => exponentialDraw interval (X ω)) :=
    Measure.isProbabilityMeasure_map hm
  refine Measure.eq_of_cdf _ _ ?_
  ext x
  rw [cdf_expMeasure_eq (by positivity)]
  have e1 : cdf (μ.map fun ω => exponentialDraw interval (X ω)) x =
      cdf (expMeasure 1) (x / interval) := by
    rw [cdf_eq_real, cdf_eq_real, ← h.map_eq, measureReal_def, measureReal_def,
      Measure.map_apply_of_aemeasurable hm measurableSet_Iic,
      Measure.map_apply_of_aemeasurable h.aemeasurable measurableSet_Iic]
    congr 2
    ext ω
    simp only [exponentialDraw, Set.mem_preimage, Set.mem_Iic]
    rw [le_div_iff₀ hi, mul_comm]
  rw [e1, cdf_expMeasure_eq one_pos]
  have e2 : (0 ≤ x / interval) ↔ 0 ≤ x := by
    constructor
    · intro h
      by_contra hx
      have := div_neg_of_neg_of_pos (not_le.1 hx) hi
      linarith
    · exact fun h => div_nonneg h hi.le
  simp only [e2]
  congr 3
  ring_nf

lemma exp_tail {r : ℝ} (hr : 0 < r) (t : ℝ) (ht : 0 ≤ t) :
    expMeasure r (Set.Ici t) = ENNReal.ofReal (Real.exp (-(r * t))) := by
  have i1 := isProbabilityMeasure_expMeasure hr
  have hna : NullSingletonClass (expMeasure r) := by
    have hexp : expMeasure r = volume.withDensity (exponentialPDF r) := rfl
    rw [hexp]
    infer_instance
  have h := cdf_expMeasure_eq hr t
  rw [if_pos ht, cdf_eq_real] at h
  rw [← measure_congr (Ioi_ae_eq_Ici (μ := expMeasure r) (a := t)), ← Set.compl_Iic,
    ← ofReal_measureReal (by exact measure_ne_top _ _), measureReal_compl measurableSet_Iic, h]
  simp

variable {Ω : Type} [MeasurableSpace Ω] {μ : Measure Ω} [IsProbabilityMeasure μ]

/-- The number of ticks before `t` is Poisson distributed. -/
lemma ticks_law {draws : ℕ → Ω → ℝ} {r : ℝ} (hr : 0 < r) (hind : iIndepFun draws μ)
    (hlaw : ∀ i, HasLaw (draws i) (expMeasure r) μ) (k : ℕ) : ∀ (pos : ℕ) (t : ℝ), 0 ≤ t →
    μ {ω | Ticks (fun i => draws i ω) k t pos} =
      ENNReal.ofReal (Real.exp (-(r * t)) * (r * t) ^ k / k.factorial) := by
  have hdm : AEMeasurable (fun ω i => draws i ω) μ :=
    aemeasurable_pi_iff.2 fun i => (hlaw i).aemeasurable
  induction k with
  | zero =>
    intro pos t ht
    have := (hlaw pos).measure_eq (p := fun x => t ≤ x) measurableSet_Ici
    unfold Ticks
    rw [this]
    simp only [pow_zero, mul_one, Nat.factorial_zero, Nat.cast_one, div_one]
    exact exp_tail hr t ht
  | succ k ih =>
    intro pos t ht
    set T : Finset ℕ := Finset.Icc (pos + 1) (pos + 1 + k) with hT
    have hdisj : Disjoint ({pos} : Finset ℕ) T := by
      rw [Finset.disjoint_left]
      intro i h1 h2
      rw [Finset.mem_singleton] at h1
      rw [hT, Finset.mem_Icc] at h2
      omega
    have hI := hind.indepFun_finset₀ {pos} T hdisj fun i => (hlaw i).aemeasurable
    -- the first interval and the later ones
    have hI' : IndepFun (draws pos) (fun ω => onlyAt T fun j => draws j ω) μ :=
      hI.comp (φ := fun y : ({pos} : Finset ℕ) → ℝ => y ⟨pos, Finset.mem_singleton_self _⟩)
        (measurable_pi_apply _) (onlyAt_measurable T)
    have hYm : AEMeasurable (fun ω => onlyAt T fun j => draws j ω) μ :=
      (onlyAt_measurable T).comp_aemeasurable
        (aemeasurable_pi_iff.2 fun i => (hlaw i).aemeasurable)
    have hY : ∀ ω s, Ticks (onlyAt T fun j => draws j ω) k s (pos + 1) ↔
        Ticks (fun i => draws i ω) k s (pos + 1) := by
      intro ω s
      refine ticks_congr k s (pos + 1) fun i h1 h2 => ?_
      exact onlyAt_eq T (fun i => draws i ω) (by rw [hT, Finset.mem_Icc]; omega)
    have hprod := (indepFun_iff_map_prod_eq_prod_map_map (hlaw pos).aemeasurable hYm).1 hI'
    have hS : MeasurableSet {x : ℝ × (ℕ → ℝ) | x.1 < t ∧ Ticks x.2 k (t - x.1) (pos + 1)} := by
      have hm : Measurable fun x : ℝ × (ℕ → ℝ) => (t - x.1, x.2) :=
        Measurable.prodMk (by fun_prop) measurable_snd
      exact (measurableSet_lt measurable_fst measurable_const).inter
        (hm (ticks_measurable k (pos + 1)))
    have hev : {ω | Ticks (fun i => draws i ω) (k + 1) t pos} =
        (fun ω => (draws pos ω, onlyAt T fun j => draws j ω)) ⁻¹'
          {x : ℝ × (ℕ → ℝ) | x.1 < t ∧ Ticks x.2 k (t - x.1) (pos + 1)} := by
      ext ω
      simp only [Set.mem_ofPred_eq, Set.mem_preimage, hY]
      rfl
    have hpm : IsProbabilityMeasure (μ.map fun ω => onlyAt T fun j => draws j ω) :=
      Measure.isProbabilityMeasure_map hYm
    rw [hev, ← Measure.map_apply_of_aemeasurable ((hlaw pos).aemeasurable.prodMk hYm) hS, hprod,
      (hlaw pos).map_eq, Measure.prod_apply hS, ← poisson_convolution hr k t ht,
      ← lintegral_indicator measurableSet_Iio]
    refine lintegral_congr fun x => ?_
    by_cases hx : x < t
    · rw [Set.indicator_of_mem (by exact hx), ← ih (pos + 1) (t - x) (by linarith),
        Measure.map_apply_of_aemeasurable hYm (measurable_prodMk_left hS)]
      congr 1
      ext ω
      simp only [Set.mem_preimage, Set.mem_ofPred_eq, hY, hx, true_and]
    · rw [Set.indicator_of_notMem (by exact hx)]
      have : Prod.mk x ⁻¹' {x : ℝ × (ℕ → ℝ) | x.1 < t ∧ Ticks x.2 k (t - x.1) (pos + 1)} = ∅ := by
        ext d
        simp [hx]
      rw [this, measure_empty]

/-! ## The distribution of all clocks -/

/-- The clocks tick `ks` times, one clock after the other. -/
def TicksList (d : ℕ → ℝ) : List ℕ → ℝ → ℕ → Prop
  | [], _, _ => True
  | k :: ks, t, pos => Ticks d k t pos ∧ TicksList d ks t (pos + 1 + k)

/-- One more than the last position that matters. -/
def endPos : List ℕ → ℕ → ℕ
  | [], pos => pos
  | k :: ks, pos => endPos ks (pos + 1 + k)

lemma endPos_ge (ks : List ℕ) : ∀ pos, pos ≤ endPos ks pos := by
  induction ks with
  | nil => exact fun pos => le_rfl
  | cons k ks ih =>
    intro pos
    have := ih (pos + 1 + k)
    show pos ≤ endPos ks (pos + 1 + k)
    omega

lemma ticksList_congr {d d' : ℕ → ℝ} (ks : List ℕ) : ∀ (t : ℝ) (pos : ℕ),
    (∀ i, pos ≤ i → i < endPos ks pos → d i = d' i) →
      (TicksList d ks t pos ↔ TicksList d' ks t pos) := by
  induction ks with
  | nil => exact fun t pos _ => Iff.rfl
  | cons k ks ih =>
    intro t pos h
    have h0 := endPos_ge ks (pos + 1 + k)
    have he : endPos (k :: ks) pos = endPos ks (pos + 1 + k) := rfl
    rw [he] at h
    unfold TicksList
    rw [ticks_congr k t pos fun i h1 h2 => h i h1 (by omega),
      ih t (pos + 1 + k) fun i h1 h2 => h i (by omega) h2]

lemma ticksList_measurable (ks : List ℕ) (t : ℝ) : ∀ pos,
    MeasurableSet {d : ℕ → ℝ | TicksList d ks t pos} := by
  induction ks with
  | nil => intro pos; simp [TicksList]
  | cons k ks ih =>
    intro pos
    exact (ticks_measurable' k pos t).inter (ih (pos + 1 + k))

lemma ticksList_law {draws : ℕ → Ω → ℝ} {r : ℝ} (hr : 0 < r) (hind : iIndepFun draws μ)
    (hlaw : ∀ i, HasLaw (draws i) (expMeasure r) μ) (t : ℝ) (ht : 0 ≤ t) (ks : List ℕ) :
    ∀ pos, μ {ω | TicksList (fun i => draws i ω) ks t pos} =
      (ks.map fun k : ℕ =>
        ENNReal.ofReal (Real.exp (-(r * t)) * (r * t) ^ k / k.factorial)).prod := by
  induction ks with
  | nil => intro pos; simp [TicksList]
  | cons k ks ih =>
    intro pos
    set S : Finset ℕ := Finset.Icc pos (pos + k) with hS
    set T : Finset ℕ := Finset.Ico (pos + 1 + k) (endPos ks (pos + 1 + k)) with hT
    have hdisj : Disjoint S T := by
      rw [Finset.disjoint_left]
      intro i h1 h2
      rw [hS, Finset.mem_Icc] at h1
      rw [hT, Finset.mem_Ico] at h2
      omega
    have hI := (hind.indepFun_finset₀ S T hdisj fun i => (hlaw i).aemeasurable).comp
      (onlyAt_measurable S) (onlyAt_measurable T)
    have h1 : ∀ ω, Ticks (onlyAt S fun j => draws j ω) k t pos ↔
        Ticks (fun i => draws i ω) k t pos := by
      intro ω
      refine ticks_congr k t pos fun i h1 h2 => ?_
      exact onlyAt_eq S (fun i => draws i ω) (by rw [hS, Finset.mem_Icc]; omega)
    have h2 : ∀ ω, TicksList (onlyAt T fun j => draws j ω) ks t (pos + 1 + k) ↔
        TicksList (fun i => draws i ω) ks t (pos + 1 + k) := by
      intro ω
      refine ticksList_congr ks t _ fun i h1 h2 => ?_
      exact onlyAt_eq T (fun i => draws i ω) (by rw [hT, Finset.mem_Ico]; omega)
    have key := hI.measure_inter_preimage_eq_mul _ _ (ticks_measurable' k pos t)
      (ticksList_measurable ks t (pos + 1 + k))
    have e1 : {ω | TicksList (fun i => draws i ω) (k :: ks) t pos} =
        (onlyAt S ∘ fun ω (i : S) => draws i ω) ⁻¹' {d | Ticks d k t pos} ∩
        (onlyAt T ∘ fun ω (i : T) => draws i ω) ⁻¹' {d | TicksList d ks t (pos + 1 + k)} := by
      ext ω
      simp only [Set.mem_ofPred_eq, Set.mem_inter_iff, Set.mem_preimage, Function.comp]
      rw [h1, h2]
      rfl
    have e2 : (onlyAt S ∘ fun ω (i : S) => draws i ω) ⁻¹' {d | Ticks d k t pos} =
        {ω | Ticks (fun i => draws i ω) k t pos} := by
      ext ω
      exact h1 ω
    have e3 : (onlyAt T ∘ fun ω (i : T) => draws i ω) ⁻¹'
        {d | TicksList d ks t (pos + 1 + k)} =
        {ω | TicksList (fun i => draws i ω) ks t (pos + 1 + k)} := by
      ext ω
      exact h2 ω
    rw [e1, key, e2, e3, ticks_law hr hind hlaw k pos t ht, ih, List.map_cons, List.prod_cons]

lemma clockLoop_more (d : ℕ → ℝ) (dt : ℝ) (fuel : ℕ) : ∀ (pos : ℕ) (t : ℝ) (r : List ℝ × ℕ),
    poissonClockLoop d dt fuel pos t = some r → ∀ fuel', fuel ≤ fuel' →
      poissonClockLoop d dt fuel' pos t = some r := by
  induction fuel with
  | zero => intro pos t r hr; simp [poissonClockLoop] at hr
  | succ fuel ih =>
    intro pos t r hr fuel' hf
    obtain ⟨fuel', rfl⟩ := Nat.exists_eq_succ_of_ne_zero (by omega : fuel' ≠ 0)
    unfold poissonClockLoop at hr ⊢
    by_cases hlt : t < dt
    · rw [if_pos hlt] at hr ⊢
      cases hres : poissonClockLoop d dt fuel (pos + 1) (t + d pos) with
      | none => rw [hres] at hr; simp at hr
      | some q =>
        rw [ih _ _ _ hres fuel' (by omega)]
        rw [hres] at hr
        exact hr
    · rw [if_neg hlt] at hr ⊢
      exact hr

/-- The players in the order in which their ticks are collected. -/
def repeated (ks : List ℕ) (players : List ℤ) : List ℤ :=
  (List.zipWith List.replicate ks players).flatten

lemma collect_ticks (d : ℕ → ℝ) (dt : ℝ) (fuel : ℕ) (players : List ℤ) :
    ∀ (pos : ℕ) (events : List (ℝ × ℤ)) (pos' : ℕ),
      poissonCollect d dt fuel players pos = some (events, pos') →
      ∃ ks : List ℕ, ks.length = players.length ∧ TicksList d ks dt pos ∧
        events.map Prod.snd = repeated ks players := by
  induction players with
  | nil =>
    intro pos events pos' h
    simp only [poissonCollect, Option.some.injEq, Prod.mk.injEq] at h
    obtain ⟨rfl, -⟩ := h
    exact ⟨[], rfl, trivial, rfl⟩
  | cons i players ih =>
    intro pos events pos' h
    unfold poissonCollect at h
    cases hc : poissonClock d dt fuel pos with
    | none => rw [hc] at h; simp at h
    | some r =>
      rw [hc] at h
      simp only at h
      cases hrest : poissonCollect d dt fuel players r.2 with
      | none => rw [hrest] at h; simp at h
      | some r' =>
        rw [hrest] at h
        simp only [Option.some.injEq, Prod.mk.injEq] at h
        obtain ⟨rfl, -⟩ := h
        obtain ⟨ks, h1, h2, h3⟩ := ih r.2 r'.1 r'.2 hrest
        have hpos := loop_pos d dt fuel _ _ r.1 r.2 hc
        rw [hpos] at h2
        refine ⟨r.1.length :: ks, by simp [h1], ⟨(clock_ticks d dt _ pos).1
          ⟨fuel, r.1, r.2, hc, rfl⟩, h2⟩, ?_⟩
        rw [List.map_append, h3, List.map_map]
        show _ = List.replicate r.1.length i ++ repeated ks players
        congr 1
        rw [List.eq_replicate_iff]
        simp

lemma collect_of_ticks (d : ℕ → ℝ) (dt : ℝ) (players : List ℤ) :
    ∀ (pos : ℕ) (ks : List ℕ), ks.length = players.length → TicksList d ks dt pos →
      ∃ F, ∀ fuel, F ≤ fuel → ∃ events pos',
        poissonCollect d dt fuel players pos = some (events, pos') ∧
        events.map Prod.snd = repeated ks players := by
  induction players with
  | nil =>
    intro pos ks hl _
    rw [List.length_nil, List.length_eq_zero_iff] at hl
    subst hl
    exact ⟨0, fun fuel _ => ⟨[], pos, rfl, rfl⟩⟩
  | cons i players ih =>
    intro pos ks hl h
    cases ks with
    | nil => simp at hl
    | cons k ks =>
      obtain ⟨h1, h2⟩ := h
      obtain ⟨f, ts, pos', hc, hk⟩ := (clock_ticks d dt k pos).2 h1
      have hpos := loop_pos d dt f _ _ ts pos' hc
      rw [hk] at hpos
      obtain ⟨F, hF⟩ := ih (pos + 1 + k) ks (by simpa using hl) h2
      refine ⟨max F f, fun fuel hfuel => ?_⟩
      obtain ⟨events, pos'', e1, e2⟩ := hF fuel (le_trans (le_max_left _ _) hfuel)
      have hc' : poissonClock d dt fuel pos = some (ts, pos') :=
        clockLoop_more d dt f _ _ _ hc fuel (le_trans (le_max_right _ _) hfuel)
      refine ⟨ts.map (fun t => (t, i)) ++ events, pos'', ?_, ?_⟩
      · unfold poissonCollect
        rw [hc']
        simp only
        rw [hpos, e1]
      · rw [List.map_append, e2, List.map_map]
        show _ = List.replicate k i ++ repeated ks players
        congr 1
        rw [List.eq_replicate_iff]
        simp [hk]

lemma repeated_mem {ks : List ℕ} {players : List ℤ} {i : ℤ} (h : i ∈ repeated ks players) :
    i ∈ players := by
  induction players generalizing ks with
  | nil => cases ks <;> simp [repeated] at h
  | cons j players ih =>
    cases ks with
    | nil => simp [repeated] at h
    | cons k ks =>
      have : repeated (k :: ks) (j :: players) = List.replicate k j ++ repeated ks players := rfl
      rw [this, List.mem_append] at h
      rcases h with h | h
      · rw [(List.mem_replicate.1 h).2]
        exact List.mem_cons_self
      · exact List.mem_cons_of_mem _ (ih h)

/-- The number of occurrences of each player tells how often its clock ticks. -/
lemma repeated_count {players : List ℤ} (hnd : players.Nodup) (f : ℤ → ℕ) : ∀ {ks : List ℕ},
    ks.length = players.length →
    ((∀ i ∈ players, (repeated ks players).count i = f i) ↔ ks = players.map f) := by
  induction players with
  | nil =>
    intro ks hl
    rw [List.length_nil, List.length_eq_zero_iff] at hl
    simp [hl]
  | cons j players ih =>
    intro ks hl
    cases ks with
    | nil => simp at hl
    | cons k ks =>
      have e : repeated (k :: ks) (j :: players) = List.replicate k j ++ repeated ks players := rfl
      obtain ⟨hj, hnd'⟩ := List.nodup_cons.1 hnd
      have hl' : ks.length = players.length := by simpa using hl
      have c0 : (repeated ks players).count j = 0 :=
        List.count_eq_zero_of_not_mem fun h => hj (repeated_mem h)
      rw [e, List.map_cons, List.cons.injEq, ← ih hnd' hl', List.forall_mem_cons]
      refine and_congr ?_ ?_
      · rw [List.count_append, c0, List.count_replicate_self, add_zero]
      · refine forall₂_congr fun i hi => ?_
        have hne : j ≠ i := fun h => hj (h ▸ hi)
        rw [List.count_append, List.count_replicate, if_neg (by simpa using hne), zero_add]

lemma timings_ticks (shuffle : List ℤ → List ℤ) (argsort : List ℝ → List ℕ) (d : ℕ → ℝ) (dt : ℝ)
    (start : ℕ) (players : List ℤ) (hnd : players.Nodup) (hshuffle : ∀ l, (shuffle l).Perm l)
    (hsort : Spec.IsArgsort argsort) (f : ℤ → ℕ) :
    (∃ fuel ys ps, poissonTimings shuffle argsort d dt fuel start players = some (ys, ps) ∧
      ∀ i ∈ players, ys.count i = f i) ↔
      TicksList d ((shuffle players).map f) dt start := by
  have hp := hshuffle players
  have hnd' : (shuffle players).Nodup := hp.symm.nodup hnd
  have hperm : ∀ events : List (ℝ × ℤ), ((argsort (events.map Prod.fst)).map fun j =>
      (events.map Prod.snd).getD j 0).Perm (events.map Prod.snd) := by
    intro events
    refine map_getD_perm (events.map Prod.snd) 0 _ ?_
    have := (hsort (events.map Prod.fst)).1
    rwa [List.length_map] at this ⊢
  constructor
  · rintro ⟨fuel, ys, ps, h, hc⟩
    unfold poissonTimings at h
    simp only at h
    cases hres : poissonCollect d dt fuel (shuffle players) start with
    | none => rw [hres] at h; simp at h
    | some r =>
      rw [hres] at h
      simp only [Option.some.injEq, Prod.mk.injEq] at h
      obtain ⟨rfl, -⟩ := h
      obtain ⟨ks, h1, h2, h3⟩ := collect_ticks d dt fuel _ start r.1 r.2 hres
      rw [← (repeated_count hnd' f h1).1 fun i hi => ?_]
      · exact h2
      · rw [← hc i (hp.mem_iff.1 hi), (hperm r.1).count_eq, h3]
  · intro h
    obtain ⟨F, hF⟩ := collect_of_ticks d dt (shuffle players) start _ (by simp) h
    obtain ⟨events, pos', e1, e2⟩ := hF F le_rfl
    refine ⟨F, _, shuffle players, by unfold poissonTimings; simp only; rw [e1], fun i hi => ?_⟩
    rw [(hperm events).count_eq, e2]
    exact (repeated_count hnd' f (by simp)).2 rfl i (hp.mem_iff.2 hi)

lemma drawn_law {std : ℕ → Ω → ℝ} (h : StandardExponential μ std) {interval : ℝ}
    (hi : 0 < interval) :
    iIndepFun (fun i ω => exponentialDraw interval (std i ω)) μ ∧
      ∀ i, HasLaw (fun ω => exponentialDraw interval (std i ω)) (expMeasure (1 / interval)) μ := by
  refine ⟨?_, fun i => exponentialDraw_law (h.law i) hi⟩
  exact h.indep.comp (fun _ x => exponentialDraw interval x) fun _ => by
    unfold exponentialDraw
    fun_prop

lemma ticks_unique {d : ℕ → ℝ} {k : ℕ} : ∀ {k' : ℕ} {t : ℝ} {pos : ℕ}, Ticks d k t pos →
    Ticks d k' t pos → k = k' := by
  induction k with
  | zero =>
    intro k' t pos h h'
    cases k' with
    | zero => rfl
    | succ k' =>
      unfold Ticks at h h'
      linarith [h'.1]
  | succ k ih =>
    intro k' t pos h h'
    cases k' with
    | zero =>
      unfold Ticks at h h'
      linarith [h.1]
    | succ k' => rw [ih h.2 h'.2]

/-- With probability one some number of ticks happens. -/
lemma ticks_exist {draws : ℕ → Ω → ℝ} {r : ℝ} (hr : 0 < r) (hind : iIndepFun draws μ)
    (hlaw : ∀ i, HasLaw (draws i) (expMeasure r) μ) (t : ℝ) (ht : 0 ≤ t) (pos : ℕ) :
    ∀ᵐ ω ∂μ, ∃ k, Ticks (fun i => draws i ω) k t pos := by
  have hdm : AEMeasurable (fun ω i => draws i ω) μ :=
    aemeasurable_pi_iff.2 fun i => (hlaw i).aemeasurable
  have hnull : ∀ k, NullMeasurableSet {ω | Ticks (fun i => draws i ω) k t pos} μ := fun k =>
    hdm.nullMeasurable (ticks_measurable' k pos t)
  have hU : {ω | ∃ k, Ticks (fun i => draws i ω) k t pos} =
      ⋃ k, {ω | Ticks (fun i => draws i ω) k t pos} := by
    ext ω; simp
  have hone : μ {ω | ∃ k, Ticks (fun i => draws i ω) k t pos} = 1 := by
    rw [hU, measure_iUnion₀ ?_ hnull]
    · have : ∀ k, μ {ω | Ticks (fun i => draws i ω) k t pos} =
          poissonMeasure (r * t).toNNReal {k} := by
        intro k
        rw [ticks_law hr hind hlaw k pos t ht, poissonMeasure_singleton,
          Real.coe_toNNReal _ (by positivity)]
      simp only [this]
      rw [← measure_iUnion, Set.iUnion_of_singleton]
      · exact measure_univ
      · intro i j hij
        simpa using hij
      · exact fun k => measurableSet_singleton k
    · intro i j hij
      refine Disjoint.aedisjoint (Set.disjoint_left.2 fun ω h1 h2 => hij (ticks_unique h1 h2))
  have hc : NullMeasurableSet {ω | ∃ k, Ticks (fun i => draws i ω) k t pos} μ := by
    rw [hU]
    exact NullMeasurableSet.iUnion hnull
  rw [← prob_compl_eq_zero_iff₀ hc] at hone
  exact hone

lemma ticksList_exist {d : ℕ → ℝ} {t : ℝ} (h : ∀ pos, ∃ k, Ticks d k t pos) (players : List ℤ) :
    ∀ pos, ∃ ks : List ℕ, ks.length = players.length ∧ TicksList d ks t pos := by
  induction players with
  | nil => exact fun pos => ⟨[], rfl, trivial⟩
  | cons i players ih =>
    intro pos
    obtain ⟨k, hk⟩ := h pos
    obtain ⟨ks, h1, h2⟩ := ih (pos + 1 + k)
    exact ⟨k :: ks, by simp [h1], hk, h2⟩

end CrowdDynamics
