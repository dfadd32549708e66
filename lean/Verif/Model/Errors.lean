import Mathlib.Init

/-!
# Python exceptions as values
-/

namespace CrowdDynamics

/-- The exceptions that the modelled code can raise. Source:
crowddynamics/exceptions.py:10-43 for the first seven; the others are Python's own. -/
inductive PyErr where
  /-- `CrowdDynamicsException` -/
  | crowdDynamics
  /-- `InvalidType` -/
  | invalidType
  /-- `InvalidValue` -/
  | invalidValue
  /-- `ValidationError` -/
  | validation
  /-- `OverlappingError` -/
  | overlapping
  /-- `AgentStructureFull` -/
  | structureFull
  /-- `AttributeError` -/
  | attribute
  /-- `TypeError` -/
  | type
  /-- `ValueError` -/
  | value
  /-- `IndexError` -/
  | index
  /-- `KeyError` -/
  | key
  /-- `LoopError` of anytree -/
  | loop
  /-- `NotImplementedError` -/
  | notImplemented
  /-- `OSError` -/
  | os
  /-- `StopIteration` -/
  | stopIteration
  /-- any other exception -/
  | other
  deriving DecidableEq

/-- `isinstance(error, CrowdDynamicsException)`.
Source: crowddynamics/exceptions.py:10-43. -/
def PyErr.isCrowdDynamics : PyErr → Bool
  | .crowdDynamics | .invalidType | .invalidValue | .validation | .overlapping
  | .structureFull => true
  | _ => false

end CrowdDynamics
