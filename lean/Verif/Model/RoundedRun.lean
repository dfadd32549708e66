import Verif.Model.RoundedUpdate

/-!
# Runs of circular agents with rounding and without overflow
-/

namespace CrowdDynamics

noncomputable section

/-- `k` updates one after the other; `none` if one of them gives a force that is not a number.
Simplification: the random forces, the target directions and the pairs of neighbours are the same in each
update.
Source: crowddynamics/simulation/multiagent.py:50-55. -/
def runF {n : ℕ} (A : Arith) (walls : List Wall) (dtMin dtMax : ℝ) (xi direction : Fin n → Vec)
    (pairs : List (Fin n × Fin n)) (agents : Crowd n) : ℕ → Option (Crowd n)
  | 0 => some agents
  | k + 1 => (runF A walls dtMin dtMax xi direction pairs agents k).bind
      (updateF A walls dtMin dtMax xi direction pairs)

end

end CrowdDynamics
