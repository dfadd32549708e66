import Verif.Model.Motion

/-!
# Model of `BodyType` and `AgentType.from_array` of `crowddynamics/simulation/agents.py`

The library `traitlets` is modelled as follows. Assigning an attribute validates the value;
if it is invalid a `TraitError` is raised and nothing changes. Otherwise the value is stored
and, if it differs from the old value, the observers of the attribute run at once, so that
assignments in observers run their own observers before the outer assignment returns. An
exception in an observer leaves the stored value. Keyword arguments of the constructor are
stored first; the observers run afterwards, in order.
-/

namespace CrowdDynamics

/-- The float attributes of the classes `Body` and `BodyType`.
Source: crowddynamics/simulation/agents.py:63-95, 106-129. -/
inductive BodyAttr where
  | radius | rT | rS | rTs | mass | inertiaRot | targetVelocity | targetAngularVelocity
  | ratioRt | ratioRs | ratioTs
  | radiusMean | radiusScale | targetVelocityMean | targetVelocityScale | massMean | massScale
  deriving DecidableEq

/-- The part of an agent object that is described by `BodyType`. `drawn` counts the random
numbers drawn so far. Source: crowddynamics/simulation/agents.py:98-129. -/
structure BodyObj where
  /-- values of the float attributes -/
  val : BodyAttr → ℝ
  /-- `body_type` -/
  bodyType : String
  /-- number of calls of `truncnorm` so far -/
  drawn : ℕ

/-- What an assignment leaves behind: the object, and whether an exception was raised.
Source: crowddynamics/simulation/agents.py:140-192 (assignments that can raise). -/
structure BodyOutcome where
  /-- the object afterwards -/
  obj : BodyObj
  /-- an exception was raised -/
  err : Bool

noncomputable section

open Classical

/-- Statements in sequence: an exception skips the rest.
Source: crowddynamics/simulation/agents.py:140-192 (statements of the observers). -/
def BodyOutcome.andThen (o : BodyOutcome) (f : BodyObj → BodyOutcome) : BodyOutcome :=
  if o.err then o else f o.obj

/-- A new object. Source: crowddynamics/simulation/agents.py:63-129 (all defaults are 0 or
the empty string). -/
def BodyObj.new : BodyObj := ⟨fun _ => 0, "", 0⟩

/-- Validation of `Float(min=0)` and `Float(min=0, max=1)`.
Source: crowddynamics/simulation/agents.py:64-95, 106-129. -/
def BodyAttr.valid (a : BodyAttr) (v : ℝ) : Prop :=
  0 ≤ v ∧ (a = .ratioRt ∨ a = .ratioRs ∨ a = .ratioTs → v ≤ 1)

/-- Store a value without running observers.
Source: crowddynamics/simulation/agents.py:63-129 (the attributes). -/
def BodyObj.store (b : BodyObj) (a : BodyAttr) (v : ℝ) : BodyObj :=
  { b with val := Function.update b.val a v }

/-- Assign an attribute; `notify` runs its observers.
Source: crowddynamics/simulation/agents.py:140-192 (`@observe`). -/
def assign (notify : BodyAttr → BodyObj → BodyOutcome) (b : BodyObj) (a : BodyAttr) (v : ℝ) :
    BodyOutcome :=
  if a.valid v then
    if b.val a = v then ⟨b, false⟩ else notify a (b.store a v)
  else ⟨b, true⟩

/-- Attributes without observers.
Source: crowddynamics/simulation/agents.py:68-79, 84-95. -/
def noObserver (_ : BodyAttr) (b : BodyObj) : BodyOutcome := ⟨b, false⟩

/-- Source: crowddynamics/simulation/agents.py:185-192 (`_observe_inertia_rot`). -/
def observeInertiaRot (b : BodyObj) : BodyOutcome :=
  if b.val .inertiaRot = 0 ∧ b.val .mass > 0 ∧ b.val .radius > 0 then
    let inertia := 4 * Real.pi
    let mass := 80
    let radius := 0.27
    assign noObserver b .inertiaRot
      (inertia * (b.val .mass / mass) * (b.val .radius / radius) ^ 2)
  else ⟨b, false⟩

/-- `if ratio > 0: r_x = ratio * radius`.
Source: crowddynamics/simulation/agents.py:160-165. -/
def scaleIfRatio (ratio part : BodyAttr) (b : BodyObj) : BodyOutcome :=
  if b.val ratio > 0 then assign noObserver b part (b.val ratio * b.val .radius) else ⟨b, false⟩

/-- Source: crowddynamics/simulation/agents.py:154-172 (`_observe_radius`). -/
def observeRadius (name : BodyAttr) (b : BodyObj) : BodyOutcome :=
  if name = .radius then
    ((scaleIfRatio .ratioRt .rT b).andThen (scaleIfRatio .ratioRs .rS)).andThen
      (scaleIfRatio .ratioTs .rTs)
  else if b.val .radius > 0 then
    if name = .ratioRt then assign noObserver b .rT (b.val .ratioRt * b.val .radius)
    else if name = .ratioRs then assign noObserver b .rS (b.val .ratioRs * b.val .radius)
    else if name = .ratioTs then assign noObserver b .rTs (b.val .ratioTs * b.val .radius)
    else ⟨b, false⟩
  else ⟨b, false⟩

/-- The observers of radius, mass and ratios.
Source: crowddynamics/simulation/agents.py:154, 185 (`@observe`). -/
def notifyDims (a : BodyAttr) (b : BodyObj) : BodyOutcome :=
  match a with
  | .radius => (observeInertiaRot b).andThen (observeRadius .radius)
  | .mass => observeInertiaRot b
  | .ratioRt => observeRadius .ratioRt b
  | .ratioRs => observeRadius .ratioRs b
  | .ratioTs => observeRadius .ratioTs b
  | _ => ⟨b, false⟩

/-- The pattern common to the three `_observe_…_truncnorm`: draw a value if the attribute is
0 and mean and scale are positive. `z` are the standardised random numbers of scipy.
Source: crowddynamics/simulation/agents.py:131-134 (`_truncnorm`), 149-152, 174-183. -/
def observeTruncnorm (z : ℕ → ℝ → ℝ → ℝ) (target mean scale : BodyAttr) (b : BodyObj) : BodyOutcome :=
  if b.val target = 0 ∧ b.val mean > 0 ∧ b.val scale > 0 then
    assign notifyDims { b with drawn := b.drawn + 1 } target
      (truncnorm (-3) 3 (b.val mean) 1 (some (b.val scale)) (z b.drawn))
  else ⟨b, false⟩

/-- The observers of all float attributes.
Source: crowddynamics/simulation/agents.py:149, 154, 174, 179, 185 (`@observe`). -/
def notifyAttr (z : ℕ → ℝ → ℝ → ℝ) (a : BodyAttr) (b : BodyObj) : BodyOutcome :=
  match a with
  | .radiusMean | .radiusScale => observeTruncnorm z .radius .radiusMean .radiusScale b
  | .massMean | .massScale => observeTruncnorm z .mass .massMean .massScale b
  | .targetVelocityMean | .targetVelocityScale =>
    observeTruncnorm z .targetVelocity .targetVelocityMean .targetVelocityScale b
  | a => notifyDims a b

/-- `setattr(self, k, v)` for a float attribute.
Source: crowddynamics/simulation/agents.py:145. -/
def setAttr (z : ℕ → ℝ → ℝ → ℝ) (b : BodyObj) (a : BodyAttr) (v : ℝ) : BodyOutcome :=
  assign (notifyAttr z) b a v

/-- The loop `for k, v in items: setattr(self, k, v)`.
Source: crowddynamics/simulation/agents.py:144-145. -/
def setAll (z : ℕ → ℝ → ℝ → ℝ) (b : BodyObj) (items : List (BodyAttr × ℝ)) : BodyOutcome :=
  items.foldl (fun o kv => o.andThen fun b => setAttr z b kv.1 kv.2) ⟨b, false⟩

/-- The shipped body types in the order of the file.
Source: crowddynamics/conf/body_types.cfg.
Source: crowddynamics/simulation/agents.py:136-138 (the file that is loaded). -/
def bodyTypesCfg : List (String × List (BodyAttr × ℝ)) :=
  [("adult", [(.ratioRt, 0.5882), (.ratioRs, 0.3725), (.ratioTs, 0.6275),
      (.radiusMean, 0.255), (.radiusScale, 0.035), (.targetVelocityMean, 1.25),
      (.targetVelocityScale, 0.3), (.massMean, 73.5), (.massScale, 8.0)]),
   ("male", [(.ratioRt, 0.5926), (.ratioRs, 0.3704), (.ratioTs, 0.6296),
      (.radiusMean, 0.27), (.radiusScale, 0.02), (.targetVelocityMean, 1.35),
      (.targetVelocityScale, 0.2), (.massMean, 80.0), (.massScale, 8.0)]),
   ("female", [(.ratioRt, 0.5833), (.ratioRs, 0.375), (.ratioTs, 0.625),
      (.radiusMean, 0.24), (.radiusScale, 0.02), (.targetVelocityMean, 1.15),
      (.targetVelocityScale, 0.2), (.massMean, 67.0), (.massScale, 6.7)]),
   ("child", [(.ratioRt, 0.5714), (.ratioRs, 0.3333), (.ratioTs, 0.6667),
      (.radiusMean, 0.21), (.radiusScale, 0.015), (.targetVelocityMean, 0.9),
      (.targetVelocityScale, 0.3), (.massMean, 57.0), (.massScale, 5.7)]),
   ("eldery", [(.ratioRt, 0.6), (.ratioRs, 0.36), (.ratioTs, 0.64),
      (.radiusMean, 0.25), (.radiusScale, 0.02), (.targetVelocityMean, 0.8),
      (.targetVelocityScale, 0.3), (.massMean, 70.0), (.massScale, 7.0)])]

/-- Source: crowddynamics/simulation/agents.py:140-147 (`_observe_body_type`). An unknown
body type is a `KeyError`. -/
def observeBodyType (cfg : List (String × List (BodyAttr × ℝ))) (z : ℕ → ℝ → ℝ → ℝ) (old : String)
    (b : BodyObj) : BodyOutcome :=
  if old = "" then
    match cfg.lookup b.bodyType with
    | none => ⟨b, true⟩
    | some items => setAll z b items
  else ⟨b, true⟩

/-- `self.body_type = name`. Source: crowddynamics/simulation/agents.py:99-100, 140-147. -/
def setBodyType (cfg : List (String × List (BodyAttr × ℝ))) (z : ℕ → ℝ → ℝ → ℝ) (b : BodyObj)
    (name : String) : BodyOutcome :=
  if b.bodyType = name then ⟨b, false⟩
  else observeBodyType cfg z b.bodyType { b with bodyType := name }

/-- An assignment to one of the attributes of `BodyType`.
Source: crowddynamics/simulation/agents.py:63-129. -/
inductive BodyKw where
  /-- a float attribute -/
  | attr (a : BodyAttr) (v : ℝ)
  /-- the body type -/
  | bodyType (name : String)

/-- One assignment.
Source: crowddynamics/simulation/agents.py:63-192. -/
def setKw (cfg : List (String × List (BodyAttr × ℝ))) (z : ℕ → ℝ → ℝ → ℝ) (b : BodyObj) :
    BodyKw → BodyOutcome
  | .attr a v => setAttr z b a v
  | .bodyType name => setBodyType cfg z b name

/-- Storing one keyword argument of the constructor.
Source: crowddynamics/simulation/agents.py:63-129. -/
def storeKw (o : BodyOutcome) : BodyKw → BodyOutcome
  | .attr a v => o.andThen fun b => if a.valid v then ⟨b.store a v, false⟩ else ⟨b, true⟩
  | .bodyType name => o.andThen fun b => ⟨{ b with bodyType := name }, false⟩

/-- The delayed notification for one keyword argument (none if the value is the default).
Source: crowddynamics/simulation/agents.py:140-192. -/
def notifyKw (cfg : List (String × List (BodyAttr × ℝ))) (z : ℕ → ℝ → ℝ → ℝ) (b : BodyObj) :
    BodyKw → BodyOutcome
  | .attr a v => if v = 0 then ⟨b, false⟩ else notifyAttr z a b
  | .bodyType name => if name = "" then ⟨b, false⟩ else observeBodyType cfg z "" b

/-- The constructor with keyword arguments (each name at most once).
Source: crowddynamics/simulation/agents.py:348, 372 (classes) and 596-600 (calls). -/
def construct (cfg : List (String × List (BodyAttr × ℝ))) (z : ℕ → ℝ → ℝ → ℝ) (kws : List BodyKw) :
    BodyOutcome :=
  let o := kws.foldl storeKw ⟨BodyObj.new, false⟩
  kws.foldl (fun o kw => o.andThen fun b => notifyKw cfg z b kw) o

/-- The fields of the class `Body` in the order of the dtype.
Source: crowddynamics/traits.py:158-219, crowddynamics/simulation/agents.py:63-95, 301-309. -/
def bodyFields : List BodyAttr :=
  [.radius, .rT, .rS, .rTs, .mass, .inertiaRot, .targetVelocity, .targetAngularVelocity]

/-- The assignments of `from_array` to the fields of `Body` (the other fields have no
observers). Source: crowddynamics/simulation/agents.py:336-341 (`from_array`). -/
def fromArrayBody (z : ℕ → ℝ → ℝ → ℝ) (b : BodyObj) (row : BodyAttr → ℝ) : BodyOutcome :=
  setAll z b (bodyFields.map fun a => (a, row a))

/-- Default of `Agents.cell_size`. Source: crowddynamics/simulation/agents.py:621-622. -/
def defaultPlacementCell : ℝ := 0.6

/-- Default of `AgentAgentInteractions.cell_size`, with the defaults of `sight_soc` and
`max_agent_radius`. Source: crowddynamics/simulation/logic.py:98-105, 114-116
(`_default_cell_size`). -/
def defaultInteractionCell : ℝ := 3.0 + 2 * 0.3

end

end CrowdDynamics
