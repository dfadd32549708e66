import Verif.Spec.Poisson
import Mathlib.Probability.Distributions.Exponential
import Mathlib.Probability.Distributions.Poisson.Basic
import Mathlib.Probability.HasLaw
import Mathlib.Probability.Independence.Basic

/-!
# Distribution of the ticks of random clocks
-/

namespace CrowdDynamics.Spec

open MeasureTheory ProbabilityTheory

/-- The numbers are independent and exponentially distributed with mean 1. -/
structure StandardExponential {Ω : Type} [MeasurableSpace Ω] (μ : Measure Ω) (std : ℕ → Ω → ℝ) :
    Prop where
  /-- independent -/
  indep : iIndepFun std μ
  /-- exponentially distributed -/
  law : ∀ i, HasLaw (std i) (expMeasure 1) μ

end CrowdDynamics.Spec
