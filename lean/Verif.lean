import Verif.Model.Agent
import Verif.Model.BlockList
import Verif.Model.BodyType
import Verif.Model.CollectiveMotion
import Verif.Model.CommandLine
import Verif.Model.CoreTests
import Verif.Model.Distance
import Verif.Model.Errors
import Verif.Model.Evacuation
import Verif.Model.ExampleFields
import Verif.Model.Field
import Verif.Model.FieldTraits
import Verif.Model.Float64
import Verif.Model.Geom2D
import Verif.Model.Geometry
import Verif.Model.IO
import Verif.Model.Ieee
import Verif.Model.IeeeContact
import Verif.Model.IeeeCrowd
import Verif.Model.IeeeMotion
import Verif.Model.Integrator
import Verif.Model.InteractionTests
import Verif.Model.Interactions
import Verif.Model.Keywords
import Verif.Model.Logic
import Verif.Model.Motion
import Verif.Model.Navigation
import Verif.Model.OutdoorStart
import Verif.Model.Placement
import Verif.Model.PoissonDraws
import Verif.Model.PowerLaw
import Verif.Model.PowerLawTests
import Verif.Model.Quantities
import Verif.Model.RandomAngles
import Verif.Model.Rounded
import Verif.Model.RoundedArea
import Verif.Model.RoundedContact
import Verif.Model.RoundedMotion
import Verif.Model.RoundedRun
import Verif.Model.RoundedUpdate
import Verif.Model.RoundedWalk
import Verif.Model.RoundedWalls
import Verif.Model.Sampling
import Verif.Model.SaveData
import Verif.Model.ShippedLogic
import Verif.Model.Simulation
import Verif.Model.StartPositions
import Verif.Model.Strategies
import Verif.Model.Timestamp
import Verif.Model.TraitTable
import Verif.Model.Traits
import Verif.Model.Utils
import Verif.Model.ValidationChecks
import Verif.Model.ValidationTests
import Verif.Model.Vector2D
import Verif.Model.VectorTests
import Verif.Model.Version
import Verif.Model.Visualizations
import Verif.Spec.BlockList
import Verif.Spec.Body
import Verif.Spec.BodyDynamics
import Verif.Spec.BodyIsolation
import Verif.Spec.BodyMomentum
import Verif.Spec.BodyNoSwap
import Verif.Spec.BodyViewpoint
import Verif.Spec.Braking
import Verif.Spec.Collision
import Verif.Spec.CommandLine
import Verif.Spec.Contact
import Verif.Spec.Convergence
import Verif.Spec.Csv
import Verif.Spec.Dynamics
import Verif.Spec.ExampleFields
import Verif.Spec.Field
import Verif.Spec.FieldTraits
import Verif.Spec.Float64
import Verif.Spec.Following
import Verif.Spec.FreshField
import Verif.Spec.GridSymmetry
import Verif.Spec.Guidance
import Verif.Spec.Herd
import Verif.Spec.IO
import Verif.Spec.Ieee
import Verif.Spec.IeeeContact
import Verif.Spec.IeeeCrowd
import Verif.Spec.IeeeMotion
import Verif.Spec.IeeeSymmetry
import Verif.Spec.IeeeUpdate
import Verif.Spec.Interactions
import Verif.Spec.Isolation
import Verif.Spec.Keywords
import Verif.Spec.LongRun
import Verif.Spec.Momentum
import Verif.Spec.Motion
import Verif.Spec.NoSwap
import Verif.Spec.Nowhere
import Verif.Spec.OutdoorStart
import Verif.Spec.Outline
import Verif.Spec.PairOrder
import Verif.Spec.PairTurn
import Verif.Spec.Partners
import Verif.Spec.Placement
import Verif.Spec.Plane
import Verif.Spec.Poisson
import Verif.Spec.PoissonLaw
import Verif.Spec.Polygon
import Verif.Spec.Quantities
import Verif.Spec.RandomAngles
import Verif.Spec.Renumber
import Verif.Spec.RoundedWall
import Verif.Spec.RunLength
import Verif.Spec.Sampling
import Verif.Spec.SaveData
import Verif.Spec.ShippedLogic
import Verif.Spec.ShippedTotal
import Verif.Spec.Sight
import Verif.Spec.Simulation
import Verif.Spec.SocialForce
import Verif.Spec.Standoff
import Verif.Spec.Steering
import Verif.Spec.Strategies
import Verif.Spec.Timestamp
import Verif.Spec.TraitTable
import Verif.Spec.Traits
import Verif.Spec.TreeOrder
import Verif.Spec.Turning
import Verif.Spec.UniformSampling
import Verif.Spec.Utils
import Verif.Spec.ValidationTests
import Verif.Spec.VectorTests
import Verif.Spec.Version
import Verif.Spec.VersionStyles
import Verif.Spec.Viewpoint
import Verif.Spec.Visualizations
import Verif.Spec.WallRattle
import Verif.Spec.WallWalk
import Verif.Proofs.Acceptance
import Verif.Proofs.BlockList
import Verif.Proofs.BodyDynamics
import Verif.Proofs.BodyDynamicsCases
import Verif.Proofs.BodyIsolation
import Verif.Proofs.BodyIsolationCases
import Verif.Proofs.BodyMomentum
import Verif.Proofs.BodyMotion
import Verif.Proofs.BodyNoSwap
import Verif.Proofs.BodyNoSwapCases
import Verif.Proofs.BodyProgress
import Verif.Proofs.BodyProgressCases
import Verif.Proofs.BodyStride
import Verif.Proofs.BodyStrideCases
import Verif.Proofs.BodyType
import Verif.Proofs.BodyViewpoint
import Verif.Proofs.BodyViewpointCases
import Verif.Proofs.Braking
import Verif.Proofs.CollectiveMotion
import Verif.Proofs.CommandLine
import Verif.Proofs.Contact
import Verif.Proofs.ContactCases
import Verif.Proofs.Convergence
import Verif.Proofs.ConvergenceCases
import Verif.Proofs.CoreTests
import Verif.Proofs.CoreTestsCases
import Verif.Proofs.Csv
import Verif.Proofs.Distance
import Verif.Proofs.DrawCases
import Verif.Proofs.Dynamics
import Verif.Proofs.DynamicsCases
import Verif.Proofs.Evacuation
import Verif.Proofs.ExampleEnclosed
import Verif.Proofs.ExampleFields
import Verif.Proofs.Field
import Verif.Proofs.FieldCases
import Verif.Proofs.FieldTraits
import Verif.Proofs.Float64
import Verif.Proofs.Geom2D
import Verif.Proofs.Geometry
import Verif.Proofs.GridSymmetry
import Verif.Proofs.GridSymmetryMachine
import Verif.Proofs.Guidance
import Verif.Proofs.GuidanceCases
import Verif.Proofs.Herd
import Verif.Proofs.HerdCases
import Verif.Proofs.IO
import Verif.Proofs.Ieee
import Verif.Proofs.IeeeCases
import Verif.Proofs.IeeeContact
import Verif.Proofs.IeeeContactCases
import Verif.Proofs.IeeeCrowd
import Verif.Proofs.IeeeCrowdCases
import Verif.Proofs.IeeeLength
import Verif.Proofs.IeeeMotion
import Verif.Proofs.IeeeMotionCases
import Verif.Proofs.IeeeSymmetry
import Verif.Proofs.IeeeUpdate
import Verif.Proofs.IeeeUpdateCases
import Verif.Proofs.IeeeWallRun
import Verif.Proofs.IeeeWitness
import Verif.Proofs.Integrator
import Verif.Proofs.InteractionTests
import Verif.Proofs.Interactions
import Verif.Proofs.Isolation
import Verif.Proofs.IsolationCases
import Verif.Proofs.Keywords
import Verif.Proofs.Logic
import Verif.Proofs.LongRun
import Verif.Proofs.LongRunCases
import Verif.Proofs.MirrorPair
import Verif.Proofs.Momentum
import Verif.Proofs.MomentumCases
import Verif.Proofs.Motion
import Verif.Proofs.Navigation
import Verif.Proofs.NavigationNode
import Verif.Proofs.NoSwap
import Verif.Proofs.NoSwapCases
import Verif.Proofs.Nowhere
import Verif.Proofs.OutdoorStart
import Verif.Proofs.PairOrder
import Verif.Proofs.PairTurn
import Verif.Proofs.Partners
import Verif.Proofs.Placement
import Verif.Proofs.PoissonLaw
import Verif.Proofs.PowerLaw
import Verif.Proofs.PowerLawTests
import Verif.Proofs.Progress
import Verif.Proofs.ProgressCases
import Verif.Proofs.Quantities
import Verif.Proofs.RandomAngles
import Verif.Proofs.Refusals
import Verif.Proofs.Renumber
import Verif.Proofs.Rounded
import Verif.Proofs.RoundedAngles
import Verif.Proofs.RoundedArea
import Verif.Proofs.RoundedAreaCases
import Verif.Proofs.RoundedCells
import Verif.Proofs.RoundedContact
import Verif.Proofs.RoundedGrid
import Verif.Proofs.RoundedLines
import Verif.Proofs.RoundedMotion
import Verif.Proofs.RoundedPairs
import Verif.Proofs.RoundedPairsCases
import Verif.Proofs.RoundedTime
import Verif.Proofs.RoundedTotal
import Verif.Proofs.RoundedWalk
import Verif.Proofs.RoundedWalkCases
import Verif.Proofs.RoundedWall
import Verif.Proofs.RoundedWallRun
import Verif.Proofs.RoundedWallStep
import Verif.Proofs.RunLength
import Verif.Proofs.Sampling
import Verif.Proofs.SaveData
import Verif.Proofs.SaveDataCases
import Verif.Proofs.ShippedLogic
import Verif.Proofs.ShippedLogicCases
import Verif.Proofs.ShippedRun
import Verif.Proofs.ShippedTotal
import Verif.Proofs.ShippedTotalCases
import Verif.Proofs.Simulation
import Verif.Proofs.SocialForce
import Verif.Proofs.SortCases
import Verif.Proofs.Standoff
import Verif.Proofs.StandoffCases
import Verif.Proofs.StartPositions
import Verif.Proofs.StrategiesCases
import Verif.Proofs.Timestamp
import Verif.Proofs.TraitTable
import Verif.Proofs.TraitTableCases
import Verif.Proofs.Traits
import Verif.Proofs.Turning
import Verif.Proofs.TurningCases
import Verif.Proofs.TurningRun
import Verif.Proofs.UniformSampling
import Verif.Proofs.Utils
import Verif.Proofs.ValidationTests
import Verif.Proofs.Vector2D
import Verif.Proofs.VectorTests
import Verif.Proofs.Version
import Verif.Proofs.Viewpoint
import Verif.Proofs.ViewpointCases
import Verif.Proofs.Visualizations
import Verif.Proofs.VisualizationsCases
import Verif.Proofs.WallRattle
import Verif.Proofs.WallRattleCases
import Verif.Proofs.WallWalk
import Verif.Proofs.WallWalkCases
import Verif.Props.Acceptance
import Verif.Props.BlockList
import Verif.Props.BodyDynamics
import Verif.Props.BodyIsolation
import Verif.Props.BodyLimits
import Verif.Props.BodyMomentum
import Verif.Props.BodyNoSwap
import Verif.Props.BodyProgress
import Verif.Props.BodyStride
import Verif.Props.BodyType
import Verif.Props.BodyViewpoint
import Verif.Props.Braking
import Verif.Props.CollectiveMotion
import Verif.Props.CommandLine
import Verif.Props.Contact
import Verif.Props.Convergence
import Verif.Props.CoreTests
import Verif.Props.Distance
import Verif.Props.Dynamics
import Verif.Props.Evacuation
import Verif.Props.ExampleFields
import Verif.Props.Field
import Verif.Props.FieldTraits
import Verif.Props.Geom2D
import Verif.Props.Geometry
import Verif.Props.GridSymmetry
import Verif.Props.Guidance
import Verif.Props.Herd
import Verif.Props.IO
import Verif.Props.Ieee
import Verif.Props.IeeeContact
import Verif.Props.IeeeCrowd
import Verif.Props.IeeeMotion
import Verif.Props.IeeeUpdate
import Verif.Props.Integrator
import Verif.Props.InteractionTests
import Verif.Props.Interactions
import Verif.Props.Isolation
import Verif.Props.Keywords
import Verif.Props.Logic
import Verif.Props.LongRun
import Verif.Props.MirrorPair
import Verif.Props.Momentum
import Verif.Props.Motion
import Verif.Props.Navigation
import Verif.Props.NavigationNode
import Verif.Props.NoSwap
import Verif.Props.Nowhere
import Verif.Props.OutdoorStart
import Verif.Props.PairOrder
import Verif.Props.PairTurn
import Verif.Props.Partners
import Verif.Props.Placement
import Verif.Props.PoissonLaw
import Verif.Props.PowerLaw
import Verif.Props.PowerLawTests
import Verif.Props.Progress
import Verif.Props.Quantities
import Verif.Props.RandomAngles
import Verif.Props.Refusals
import Verif.Props.Renumber
import Verif.Props.RoundedAngles
import Verif.Props.RoundedArea
import Verif.Props.RoundedCells
import Verif.Props.RoundedContact
import Verif.Props.RoundedGrid
import Verif.Props.RoundedLines
import Verif.Props.RoundedMotion
import Verif.Props.RoundedPairs
import Verif.Props.RoundedTime
import Verif.Props.RoundedWalk
import Verif.Props.RoundedWall
import Verif.Props.RunLength
import Verif.Props.Sampling
import Verif.Props.SaveData
import Verif.Props.ShippedLogic
import Verif.Props.ShippedTotal
import Verif.Props.Simulation
import Verif.Props.SocialForce
import Verif.Props.Standoff
import Verif.Props.StartPositions
import Verif.Props.Strategies
import Verif.Props.Timestamp
import Verif.Props.TraitTable
import Verif.Props.Traits
import Verif.Props.Turning
import Verif.Props.UniformSampling
import Verif.Props.Utils
import Verif.Props.ValidationTests
import Verif.Props.Vector2D
import Verif.Props.VectorTests
import Verif.Props.Version
import Verif.Props.VersionStyles
import Verif.Props.Viewpoint
import Verif.Props.Visualizations
import Verif.Props.WallRattle
import Verif.Props.WallWalk
