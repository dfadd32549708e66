# Coverage of the code

Generated from the citations in the model: for each function of the package the definitions that cite its lines.
311 of 353 functions (and classes without methods) are modelled.


## crowddynamics/_version.py

| Function | Lines | Definitions |
|---|---|---|
| `get_keywords` | 20-30 | `getKeywordsSource`, `Keywords`, `getKeywords` |
| `VersioneerConfig` | 33-34 | `VersioneerConfig` |
| `get_config` | 37-48 | `VersioneerConfig`, `getConfig` |
| `NotThisMethod` | 51-52 | `VersionErr` |
| `run_command` | 70-104 | `pyStrip`, `Ran`, `runCommand` |
| `versions_from_parentdir` | 107-129 | `pathBasename`, `pathDirname`, `parentdirLoop`, `versionsFromParentdir` |
| `git_get_keywords` | 132-158 | `readLines`, `upToLastQuote`, `matchValue`, `searchValue`, `keywordOfLine`, `gitGetKeywords` |
| `git_versions_from_keywords` | 161-213 | `VersionInfo`, `pyStrip`, `stripParens`, `replaceFirst`, `isoDate`, `textLe`, `insertText`, `sortedSet`, `isDigitChar`, `keywordRefs`, `likelyTags`, `gitVersionsFromKeywords` |
| `git_pieces_from_vcs` | 216-305 | `pyStrip`, `replaceFirst`, `isoDate`, `gitNames`, `Pieces`, `isHexChar`, `isDigitChar`, `skipBreak`, `describeMatch`, `argsGitDir`, `argsDescribe`, `argsHead` … |
| `plus_or_dot` | 308-312 | `plusOrDot` |
| `render_pep440` | 315-337 | `formatInt`, `truthyTag`, `renderPep440` |
| `render_pep440_pre` | 340-353 | `formatInt`, `truthyTag`, `renderPep440Pre` |
| `render_pep440_post` | 356-380 | `formatInt`, `getKey`, `truthyTag`, `renderPep440Post` |
| `render_pep440_old` | 383-402 | `truthyTag`, `renderPep440Old` |
| `render_git_describe` | 405-422 | `truthyTag`, `renderGitDescribe` |
| `render_git_describe_long` | 425-442 | `truthyTag`, `renderGitDescribeLong` |
| `render` | 445-474 | `VersionInfo`, `renderStyle`, `renderVersion` |
| `get_versions` | 477-520 | `VersionInfo`, `pathDirname`, `goUp`, `getVersions` |

## crowddynamics/cli.py

| Function | Lines | Definitions |
|---|---|---|
| `import_simulations` | 24-31 | `odSet`, `odUpdate`, `splitextExt`, `importLoop`, `importSimulations` |
| `main` | 34-38 | `programRun` |
| `concat_npy` | 49-57 | `pathJoin`, `concatNpy` |
| `run` | 60-70 | `joinChoices`, `choiceConvert`, `loglevelOption`, `runHelp`, `runLogging`, `CliState`, `invokeChain` |
| `simulation_commands` | 73-87 | `CliState`, `appendOptions`, `simulationCommands`, `invokeCommand` |

## crowddynamics/config.py

| Function | Lines | Definitions |
|---|---|---|
| `load_config` | 23-28 | `ValidateResult`, `validateSection`, `ValidateResult.isTrue`, `validateConfig`, `ValidateResult.truthy`, `loadConfig` |
| `import_simulation_callables` | 31-63 | `OsAction` |

## crowddynamics/core/block_list.py

| Function | Lines | Definitions |
|---|---|---|
| `MutableBlockList.__init__` | 70-91 | `Blocks`, `BlockList`, `BlockList.init` |
| `MutableBlockList._transform` | 93-107 | `blockTransform`, `cFmod`, `pyFloorDivF`, `blockTransformF` |
| `MutableBlockList._nearest_blocks` | 109-122 | `offsetRange`, `offsetProduct`, `nearestBlocks`, `nearestBlocksF` |
| `MutableBlockList.__setitem__` | 124-127 | `Blocks.append`, `BlockList.setItem`, `BlockList.step`, `BlockList.run` |
| `MutableBlockList.__getitem__` | 129-132 | `Blocks.access`, `BlockList.getItem`, `BlockList.step`, `BlockList.run` |
| `MutableBlockList.nearest` | 134-146 | `Blocks.access`, `Blocks.concat`, `BlockList.nearest`, `BlockList.step`, `BlockList.run` |

## crowddynamics/core/distance.py

| Function | Lines | Definitions |
|---|---|---|
| `distance_circles` | 16-47 | `distanceCircles`, `divI`, `distanceCirclesI`, `distanceCirclesG`, `distanceCirclesF` |
| `distance_three_circles` | 50-105 | `MinState`, `minStep`, `pairs33`, `ThreeDist`, `distanceThreeCircles`, `momentF`, `distanceThreeCirclesF` |
| `distance_circle_line` | 108-146 | `npSign`, `distanceCircleLine`, `divI`, `F64.abs`, `F64.sign`, `distanceCircleLineI`, `distanceCircleLineG`, `unitF`, `distanceCircleLineF` |
| `distance_three_circle_line` | 149-180 | `MinState`, `minStepOpt`, `distanceThreeCircleLine`, `momentF` |

## crowddynamics/core/evacuation.py

| Function | Lines | Definitions |
|---|---|---|
| `narrow_exit_capacity` | 15-85 | `pyFloorDiv`, `narrowExitCapacity`, `cFmod`, `pyFloorDivF`, `narrowExitCapacityF` |
| `agent_closer_to_exit` | 88-134 | `agentCloserToExit` |
| `exit_detection` | 137-174 | `ExitState`, `exitStep`, `exitDetection` |

## crowddynamics/core/geom2D.py

| Function | Lines | Definitions |
|---|---|---|
| `polygon_area` | 4-33 | `triangleAreaF`, `polygonArea`, `polygonAreaF` |
| `line_intersect` | 36-59 | `lineIntersect`, `vecSubF`, `lineIntersectF` |

## crowddynamics/core/geometry.py

| Function | Lines | Definitions |
|---|---|---|
| `GeomTypes` | 24-28 | `GeomFlag` |
| `_geom_to_array` | 31-47 | `GeomRow`, `geomToArrayParts` |
| `geom_to_array` | 50-60 | `npConcatenate`, `geomToArray` |
| `geom_to_linesegment` | 63-96 | `segmentsOf`, `geomToLinesegment`, `geomsToLinesegment` |
| `geom_to_linear_obstacles` | 99-102 | `geomToLinearObstacles` |
| `draw_geom` | 105-130 | `Grid`, `npIndex`, `paint`, `DrawLib`, `drawGeom`, `drawGeoms` |
| `union` | 133-135 | `unionAll`, `FieldLib` |

## crowddynamics/core/integrator.py

| Function | Lines | Definitions |
|---|---|---|
| `adaptive_timestep` | 29-97 | `vMaxLoopF`, `adaptiveTimestepF`, `RowI`, `vMaxLoopI`, `adaptiveTimestepI`, `AgentArray`, `npMax`, `vMaxLoop`, `adaptiveTimestep` |
| `translational_euler` | 100-109 | `RowI`, `mulI`, `translationalEulerRowI`, `translationalEulerRow`, `translationalEuler`, `halfSquareF`, `translationalEulerRowF` |
| `rotational_euler` | 112-121 | `rotationalEulerRow`, `rotationalEuler`, `rotationalEulerRowF` |
| `euler_integrator` | 124-161 | `testAdaptiveTimestep`, `eulerIntegratorI`, `isThreeCircleConst`, `eulerIntegrator` |
| `translational_verlet` | 164-176 | `RowI`, `mulI`, `translationalVerletRowI`, `translationalVerletRow`, `translationalVerlet`, `halfSquareF`, `translationalVerletRowF` |
| `rotational_verlet` | 179-193 | `rotationalVerletRow`, `rotationalVerlet`, `rotationalVerletRowF` |
| `velocity_verlet_integrator_init` | 196-206 | `velocityVerletIntegratorInit` |
| `velocity_verlet_integrator` | 209-256 | `testAdaptiveTimestep`, `velocityVerletIntegratorI`, `velocityVerletIntegrator` |

## crowddynamics/core/interactions.py

| Function | Lines | Definitions |
|---|---|---|
| `interaction_agent_agent_circular` | 51-70 | `vaddI`, `vsubI`, `pairForcesI`, `addForceI`, `interactionAgentAgentCircularI`, `AgentI`, `pairForcesG`, `interactionAgentAgentCircularG`, `addForce`, `interactionAgentAgentCircular`, `addForceF`, `pairForcesF` … |
| `interaction_agent_agent_three_circle` | 73-104 | `Agent.circles`, `Agent.radii`, `addForce`, `addTorque`, `interactionAgentAgentThreeCircle` |
| `interaction_agent_circular_obstacle` | 107-120 | `vaddI`, `addForceI`, `interactionAgentCircularObstacleI`, `AgentI`, `interactionAgentCircularObstacleG`, `addForce`, `interactionAgentCircularObstacle`, `interactionAgentCircularObstacleF` |
| `interaction_agent_three_circle_obstacle` | 123-141 | `addForce`, `addTorque`, `interactionAgentThreeCircleObstacle` |
| `agent_agent_circular` | 147-155 | `agentAgentCircularI`, `agentAgentCircularG`, `agentAgentCircular`, `agentAgentCircularF` |
| `agent_agent_three_circle` | 158-166 | `agentAgentThreeCircle` |
| `agent_circular_obstacle` | 169-176 | `agentCircularObstacleI`, `agentCircularObstacleG`, `agentCircularObstacle`, `agentCircularObstacleF` |
| `agent_three_circle_obstacle` | 179-186 | `agentThreeCircleObstacle` |
| `agent_agent_block_list` | 191-205 | `agentAgentBlockList` |
| `agent_obstacle` | 208-214 | `agentObstacle` |

## crowddynamics/core/motion/adjusting.py

| Function | Lines | Definitions |
|---|---|---|
| `force_adjust` | 16-51 | `forceAdjustI`, `forceAdjust`, `forceAdjustF` |
| `torque_adjust` | 54-95 | `torqueAdjust` |
| `force_adjust_agents` | 98-108 | `forceAdjustAgentsI`, `forceAdjustAgents`, `forceAdjustRowF` |
| `torque_adjust_agents` | 111-121 | `torqueAdjustAgents` |

## crowddynamics/core/motion/contact.py

| Function | Lines | Definitions |
|---|---|---|
| `force_contact` | 12-48 | `forceContactI`, `forceContact`, `forceContactF` |

## crowddynamics/core/motion/fluctuation.py

| Function | Lines | Definitions |
|---|---|---|
| `force_fluctuation` | 14-42 | `forceFluctuation`, `uniformDraw`, `fluctuationAngle`, `fluctuationDrawn` |
| `torque_fluctuation` | 45-62 | `torqueFluctuation` |

## crowddynamics/core/motion/power_law.py

| Function | Lines | Definitions |
|---|---|---|
| `potential` | 55-80 | `potential` |
| `magnitude` | 83-102 | `F64`, `F64.pack`, `F64.neg`, `F64.add`, `F64.mul`, `F64.sdiv`, `F64.exp`, `magnitudeI`, `magnitude`, `Arith`, `Arith.exact`, `Arith.machine` … |
| `gradient_circle_circle` | 105-126 | `F64.add`, `F64.sub`, `F64.mul`, `F64.div`, `gradientI`, `gradientCircleCircle`, `gradientCircleCircleF` |
| `gradient_three_circle` | 129-149 | `gradientThreeCircle` |
| `time_to_collision_circle_circle` | 152-210 | `npSqrt`, `timeToCollisionCircleCircle` |
| `force_social_circular` | 213-259 | `F64.neg`, `F64.sub`, `F64.mul`, `F64.sdiv`, `F64.sqrt`, `F64.le`, `F64.gt`, `subI`, `socialPartI`, `forceSocialCircularI`, `AgentI`, `socialPartG` … |
| `force_social_three_circle` | 262-363 | `npSqrt`, `socialForces`, `Contact`, `contactStep`, `contactOffset`, `forceSocialThreeCircle` |

## crowddynamics/core/quantities.py

| Function | Lines | Definitions |
|---|---|---|
| `density_classical` | 10-34 | `listMin`, `listMax`, `gridAdd`, `gridZeros`, `classicalLoop`, `densityClassical` |
| `bounding_box` | 37-53 | `listMin`, `listMax` |
| `voronoi_finite_polygons_2d` | 63-145 | `Voronoi.ridgesOf`, `meanPoint`, `farPoint`, `ridgeLoop`, `regionLoop`, `voronoiFinite` |
| `density_voronoi_1` | 148-231 | `gridAdd`, `gridZeros`, `Voronoi`, `intRange`, `VCell`, `cellLoop`, `cellPairs`, `voronoiLoop`, `densityVoronoi1` |
| `density_voronoi_2` | 234-266 | `Voronoi`, `densityVoronoi2` |
| `_core_2` | 269-303 | `listMin`, `listMax`, `gridZeros`, `coreStep`, `core2` |

## crowddynamics/core/rand.py

| Function | Lines | Definitions |
|---|---|---|
| `truncnorm` | 8-32 | `truncnorm` |
| `random_vector` | 35-37 | `randomVector`, `uniformDraw`, `randomVectorOrient`, `randomVectorDrawn` |
| `poisson_clock` | 40-96 | `poissonClockLoop`, `poissonClock`, `exponentialDraw`, `poissonClockDrawn`, `poissonClockLoopF`, `poissonClockF` |
| `poisson_timings` | 99-128 | `poissonCollect`, `poissonTimings`, `poissonTimingsDrawn` |

## crowddynamics/core/sampling.py

| Function | Lines | Definitions |
|---|---|---|
| `linestring_length_cumsum` | 10-17 | `linestringLengthCumsumF`, `linestringLengthCumsum` |
| `random_sample_line` | 20-32 | `randomSampleLineF`, `randomSampleLine` |
| `linestring_sample` | 35-55 | `normalizedWeightsF`, `linestringSampleF`, `searchsortedGo`, `searchsorted`, `normalizedWeights`, `linestringChoice`, `linestringSample` |
| `triangle_area_cumsum` | 58-76 | `triangleAreaCumsumF`, `triangleAreaCumsum` |
| `random_sample_triangle` | 79-112 | `randomSampleTriangleF`, `randomSampleTriangle` |
| `polygon_sample` | 115-156 | `searchsortedGo`, `searchsorted`, `normalizedWeights`, `triangleChoice`, `polygonSample`, `RandomTriple` |

## crowddynamics/core/sensory_region.py

| Function | Lines | Definitions |
|---|---|---|
| `is_obstacle_between_points` | 9-16 | `isObstacleBetweenPoints` |

## crowddynamics/core/steering/collective_motion.py

| Function | Lines | Definitions |
|---|---|---|
| `normalize_nx2` | 16-21 | `normalizeNx2` |
| `herding_relationship` | 24-58 | `herdingRelationship` |
| `set_neighbor` | 61-66 | `npArgmax`, `setNeighbor` |
| `find_nearest_neighbors` | 69-107 | `NeighborRow`, `offerNeighbor`, `neighborStep`, `findNearestNeighbors` |
| `herding_interaction` | 110-155 | `herdingSums`, `herdingInteraction` |
| `leader_follower_interaction_brute` | 158-221 | `FollowState`, `readTarget`, `FollowState.copyTarget`, `leaderScan`, `followStep`, `leaderFollowerInteractionBrute` |
| `leader_follower_interaction` | 224-237 | `leaderFollowerInteraction`, `leaderFollowerUpdate` |
| `leader_follower_with_herding_interaction` | 240-279 | `leaderFollowerWithHerdingInteraction`, `leaderFollowerWithHerdingUpdate` |

## crowddynamics/core/steering/navigation.py

| Function | Lines | Definitions |
|---|---|---|
| `static_potential` | 25-56 | `staticPotential` |
| `is_inside` | 59-64 | `isInside` |
| `getdefault` | 67-78 | `getdefaultRow` |

## crowddynamics/core/steering/obstacle_handling.py

| Function | Lines | Definitions |
|---|---|---|
| `obstacle_handling` | 11-74 | `obstacleHandlingCell`, `obstacleHandling` |
| `obstacle_handling_continuous` | 77-102 | `obstacleHandlingContinuousRow`, `obstacleHandlingContinuous` |
| `direction_map_obstacles` | 105-110 | `directionMapObstacles` |

## crowddynamics/core/steering/orientation.py

| Function | Lines | Definitions |
|---|---|---|
| `orient_towards_target_direction` | 17-21 | `orientTowardsTargetDirection` |

## crowddynamics/core/steering/quickest_path.py

| Function | Lines | Definitions |
|---|---|---|
| `meshgrid` | 22-49 | `Grid`, `truncInt`, `arange`, `meshgrid`, `arangeF`, `meshgridF` |
| `distance_map` | 54-117 | `FmmSolver`, `distanceMap` |
| `direction_map` | 144-163 | `gradient1`, `directionMap` |
| `fill_missing` | 168-181 | `fillMissing`, `PathLib` |
| `shortest_path` | 184-197 | `PathLib`, `shortestPath` |

## crowddynamics/core/vector2D.py

| Function | Lines | Definitions |
|---|---|---|
| `wrap_to_pi` | 8-36 | `halfEven`, `fl64Exp`, `fl64`, `cFmod`, `pyModF`, `wrapToPiF`, `pyMod`, `wrapToPi` |
| `rotate90` | 39-59 | `rotate90I`, `rotate90` |
| `rotate270` | 62-82 | `rotate270I`, `rotate270` |
| `angle` | 85-96 | `angle` |
| `length` | 99-113 | `F64.hypot`, `Arith`, `Arith.exact`, `Arith.machine`, `lengthF`, `length` |
| `dot` | 116-131 | `halfEven`, `dotI`, `dotF`, `dot` |
| `cross` | 134-149 | `halfEven`, `cross` |
| `normalize` | 152-163 | `normalize`, `normalizeF` |
| `truncate` | 166-187 | `F64.sdiv`, `F64.gt`, `truncateI`, `truncateF`, `truncate` |
| `unit_vector` | 190-200 | `unitVector` |
| `weighted_average` | 203-226 | `weightedAverage` |

## crowddynamics/examples/collective_motion.py

| Function | Lines | Definitions |
|---|---|---|
| `Outdoor.attributes` | 47-63 | `OutdoorDraw`, `outdoorMember`, `outdoorOrientation`, `outdoorGroup` |
| `Outdoor._default_logic` | 65-73 | `herdingLogic` |
| `Outdoor._default_agents` | 79-101 | `outdoorGroup`, `outdoorLedAgents` |
| `Rounding.attributes` | 126-142 | `chooseTarget`, `roundingGroups` |
| `Rounding._default_logic` | 144-154 | `roundingLogic` |
| `Rounding._default_field` | 156-158 | `ExampleSimulation.field` |
| `Rounding._default_agents` | 160-180 | `roundingGroups`, `ExampleSimulation.passesObstacles` |
| `AvoidObstacle.attributes` | 211-227 | `chooseTarget`, `avoidObstacleGroups` |
| `AvoidObstacle._default_logic` | 229-240 | `ExampleSimulation.detectionRange`, `NodeCall`, `avoidObstacleLogic` |
| `AvoidObstacle._default_field` | 242-246 | `ExampleSimulation.field` |
| `AvoidObstacle._default_agents` | 248-268 | `avoidObstacleGroups`, `ExampleSimulation.passesObstacles` |
| `ClosedRoom.attributes` | 294-307 | `closedRoomGroups` |
| `ClosedRoom._default_logic` | 309-318 | `closedRoomLogic` |
| `ClosedRoom._default_field` | 320-322 | `ExampleSimulation.field` |
| `ClosedRoom._default_agents` | 324-344 | `closedRoomGroups`, `ExampleSimulation.passesObstacles` |
| `AroundCircle._default_logic` | 361-370 | `closedRoomLogic`, `agentlessLogic` |
| `FourExitsRandomPlacing.attributes` | 406-423 | `chooseTarget`, `fourExitsLeaderGroups` |
| `FourExitsRandomPlacing._default_logic` | 425-435 | `ExampleSimulation.detectionRange`, `fourExitsLogic` |
| `FourExitsRandomPlacing._default_field` | 437-439 | `ExampleSimulation.field` |
| `FourExitsRandomPlacing._default_agents` | 441-461 | `fourExitsLeaderGroups`, `ExampleSimulation.passesObstacles` |
| `FourExitsFixedPlacing.attributes` | 483-498 | `fixedPlacingGroups` |
| `FourExitsFixedPlacing._default_logic` | 500-510 | `ExampleSimulation.detectionRange`, `fourExitsLogic` |
| `FourExitsFixedPlacing._default_field` | 512-514 | `fixedPlacingField`, `ExampleSimulation.field` |
| `FourExitsFixedPlacing._default_agents` | 516-550 | `leaderSpawns`, `fixedPlacingField`, `fixedPlacingGroups`, `ExampleSimulation.plan`, `ExampleSimulation.passesObstacles` |

## crowddynamics/examples/fields.py

| Function | Lines | Definitions |
|---|---|---|
| `rectangle` | 8-10 | `polygonRegion`, `rectangleRing`, `rectangle` |
| `OutdoorField._default_domain` | 21-26 | `outdoorField` |
| `OutdoorField._default_spawns` | 28-30 | `outdoorField` |
| `OutdoorField._observe_field` | 32-38 | `outdoorObserve`, `ExampleField.assign` |
| `HallwayField._default_obstacles` | 52-55 | `lineString`, `hallwayParts`, `hallwayField` |
| `HallwayField._default_targets` | 57-60 | `hallwayParts`, `hallwayField` |
| `HallwayField._default_spawns` | 62-66 | `hallwayParts`, `hallwayField` |
| `HallwayField._default_domain` | 68-70 | `hallwayField` |
| `HallwayField._observe_field` | 72-86 | `hallwayObserve`, `ExampleField.assign` |
| `Rounding.__init__` | 100-119 | `polygonExterior`, `roundingField` |
| `AvoidObstacle.__init__` | 136-150 | `avoidObstacleField` |
| `ClosedRoom.__init__` | 161-172 | `closedRoomField` |
| `RoomWithOneExit.__init__` | 189-210 | `roomWithOneExitField` |
| `FourExitsField.__init__` | 218-279 | `fourExitsField` |
| `PillarInTheMiddle.__init__` | 293-302 | `pillarField` |

## crowddynamics/examples/simulations.py

| Function | Lines | Definitions |
|---|---|---|
| `Outdoor.attributes` | 36-45 | `OutdoorDraw`, `outdoorMember`, `outdoorAgents` |
| `Outdoor._default_logic` | 47-53 | `walkLogic` |
| `Outdoor._default_agents` | 59-71 | `outdoorAgents` |
| `Hallway.attributes1` | 103-111 | `GroupPlan`, `hallwayGroups` |
| `Hallway.attributes2` | 113-121 | `GroupPlan`, `hallwayGroups` |
| `Hallway._default_logic` | 123-136 | `updateI`, `updateF`, `NodeCall`, `navigationLogic` |
| `Hallway._default_field` | 138-143 | `ExampleSimulation.field` |
| `Hallway._default_agents` | 145-163 | `GroupPlan`, `hallwayGroups`, `ExampleSimulation.passesObstacles` |
| `RoomWithOneExit.attributes` | 189-199 | `roomGroups` |
| `RoomWithOneExit._default_logic` | 201-214 | `navigationLogic` |
| `RoomWithOneExit._default_field` | 216-222 | `ExampleSimulation.field` |
| `RoomWithOneExit._default_agents` | 224-236 | `roomGroups`, `ExampleSimulation.passesObstacles` |
| `FourExitsRandomPlacing.attributes` | 254-268 | `fourExitsGroups` |
| `FourExitsRandomPlacing._default_logic` | 270-280 | `navigationLogic` |
| `FourExitsRandomPlacing._default_field` | 282-284 | `ExampleSimulation.field` |
| `FourExitsRandomPlacing._default_agents` | 286-300 | `fourExitsGroups`, `ExampleSimulation.passesObstacles` |

## crowddynamics/examples/validation.py

| Function | Lines | Definitions |
|---|---|---|
| `TestMovement.attributes` | 26-39 | `validationBody`, `validationMember` |
| `TestMovement._default_logic` | 41-44 | `testMovementLogic` |
| `TestMovement._observe_agents` | 50-63 | `LogicExpr`, `validationGroup`, `movementAgents` |
| `TestAgentInteraction.attributes` | 76-89 | `LogicExpr`, `validationBody`, `validationMember` |
| `TestAgentInteraction._default_logic` | 91-99 | `walkLogic` |
| `TestAgentInteraction._observe_agents` | 105-126 | `validationGroup`, `interactionAgents` |

## crowddynamics/exceptions.py

| Function | Lines | Definitions |
|---|---|---|
| `deprecated` | 49-66 | `PyFunction`, `deprecatedCall`, `python3FunctionAttributes` |

## crowddynamics/io.py

| Function | Lines | Definitions |
|---|---|---|
| `save_npy` | 19-45 | `Text`, `digitChar`, `decimal`, `pathJoin`, `formatIndex`, `NpyWorld`, `NpyCo`, `vstackArrays`, `npyTemplate`, `npySend`, `npyRun`, `npyStart` |
| `find_npy_files` | 48-62 | `lstrip`, `rstrip`, `isSpace`, `digitValue`, `intBody`, `pyInt`, `pathJoin`, `findInFiles`, `findNpyFiles` |
| `load_npy` | 65-82 | `npLoad`, `loadNpy` |
| `load_npy_concatenated` | 85-98 | `vstackMatrices`, `loadNpyConcatenated` |
| `save_csv` | 103-142 | `pathJoin`, `StringIO`, `StringIO.write`, `StringIO.truncate`, `StringIO.seek`, `Dict`, `CsvSend`, `CsvSend.truthy`, `CsvCo`, `CsvFormat`, `csvDumper`, `csvSend` … |
| `geometry_mapping` | 147-155 | `GeomEntry`, `GeoLib`, `geometryMapping` |
| `geometry_shape` | 158-166 | `JsonEntry`, `GeoLib`, `geometryShape` |
| `save_geometry_json` | 169-180 | `JsonChunk`, `mapGeometries`, `serializable`, `saveGeometryJson` |
| `load_geometry_json` | 183-192 | `shapeEntries`, `loadGeometryJson` |

## crowddynamics/logging.py

| Function | Lines | Definitions |
|---|---|---|
| `user_info` | 45-49 | `LogConfig`, `LoggerCfg.fresh`, `effectiveLevel`, `takenBy`, `callHandlers`, `logTo`, `setupLogging` |
| `setup_logging` | 52-56 | `LogDest`, `LoggerCfg`, `LogConfig`, `logYaml`, `setupLogging` |

## crowddynamics/simulation/agents.py

| Function | Lines | Definitions |
|---|---|---|
| `States` | 32-60 | `Agent`, `GroupPlan`, `statesCls` |
| `Body` | 63-95 | `BodyAttr`, `BodyObj.new`, `BodyAttr.valid`, `BodyObj.store`, `noObserver`, `BodyKw`, `setKw`, `storeKw`, `bodyFields`, `floatTrait`, `bodyCls` |
| `BodyType._truncnorm` | 131-134 | `observeTruncnorm`, `OutdoorDraw` |
| `BodyType._default_body_types` | 136-138 | `bodyTypesCfg` |
| `BodyType._observe_body_type` | 140-147 | `setAttr`, `setAll`, `observeBodyType`, `setBodyType` |
| `BodyType._observe_radius_truncnorm` | 149-152 | `notifyAttr` |
| `BodyType._observe_radius` | 154-172 | `BodyOutcome`, `BodyOutcome.andThen`, `assign`, `scaleIfRatio`, `observeRadius`, `notifyDims`, `notifyAttr`, `notifyKw` |
| `BodyType._observe_mass_truncnorm` | 174-177 | `notifyAttr` |
| `BodyType._observe_target_velocity_truncnorm` | 179-183 | `notifyAttr` |
| `BodyType._observe_inertia_rot` | 185-192 | `observeInertiaRot`, `notifyDims`, `notifyAttr` |
| `TranslationalMotion` | 195-257 | `Agent.default`, `shippedTraitInfo`, `shippedInfo`, `pairTrait`, `translationalCls`, `validateAll`, `targetDirectionValidators`, `assignAll` |
| `RotationalMotion` | 260-292 | `rotationalCls` |
| `AgentType.dtype` | 299-307 | `bodyFields`, `DtypeObj`, `agentTypeCls`, `agentDtype` |
| `AgentType.__array__` | 309-317 | `bodyFields`, `interactionTestAgent`, `Member.row`, `testAgentByKeyword`, `agentTypeCls` |
| `AgentType.overlapping` | 321-331 | `agentTypeCls` |
| `AgentType.from_array` | 336-341 | `fromArrayBody` |
| `Circular.overlapping` | 365-366 | `Member.overlapping`, `circularMro` |
| `Circular.overlapping_obstacles` | 368-369 | `Member.overlappingObstacles`, `circularMro` |
| `ThreeCircle._default_position_ls` | 401-404 | `shoulderOffset`, `Member`, `Member.touch` |
| `ThreeCircle._default_position_rs` | 406-409 | `Member`, `Member.touch` |
| `ThreeCircle.overlapping` | 411-415 | `Agent.circles`, `Agent.radii`, `Member.overlapping` |
| `ThreeCircle.overlapping_obstacles` | 417-418 | `Member.overlappingObstacles` |
| `Capsule` | 422-444 | `capsuleMro` |
| `is_model` | 460-470 | `isModel` |
| `shoulders` | 473-486 | `shouldersRow`, `shoulders`, `shoulderOffset` |
| `overlapping_circles` | 489-506 | `overlappingCircles`, `overlappingCirclesF` |
| `overlapping_three_circles` | 509-533 | `Agent.circles`, `Agent.radii`, `overlappingThreeCircles`, `overlappingThreeCirclesF` |
| `overlapping_circle_line` | 536-546 | `overlappingCircleLine`, `overlappingCircleLineF` |
| `overlapping_three_circle_line` | 549-562 | `overlappingThreeCircleLine` |
| `AgentGroup._observe_members` | 592-602 | `GroupPlan`, `outdoorMember`, `Group`, `makeAll`, `nextItem`, `makeDrawn`, `observeMembers`, `observeTimes`, `newGroup`, `setGroupSize`, `validationMember` |
| `Agents.__init__` | 626-631 | `Agent.zero`, `Crowd`, `AgentsState`, `AgentsState.init` |
| `Agents.add_non_overlapping_group` | 633-680 | `Agent.zero`, `Member.setPosition`, `Outcome`, `PlaceResult`, `rowsAt`, `placeLoop`, `addNonOverlappingGroup`, `addGroups`, `ExampleSimulation.starts` |

## crowddynamics/simulation/base.py

| Function | Lines | Definitions |
|---|---|---|
| `CrowdDynamicsObject._default_name` | 14-16 | `objectName` |
| `LogicNodeBase.inject_before` | 35-39 | `LTree.find`, `findAll`, `LTree.parentOf`, `parentOfAll`, `LTree.detach`, `detachAll`, `LTree.attach`, `attachAll`, `setParent`, `injectBefore` |
| `LogicNodeBase.inject_after` | 41-45 | `LTree.find`, `findAll`, `LTree.detach`, `detachAll`, `LTree.attach`, `attachAll`, `setParent`, `adoptAll`, `childrenOf`, `injectAfter` |
| `LogicNodeBase.add_children` | 47-50 | `LTree.find`, `findAll`, `LTree.detach`, `detachAll`, `LTree.attach`, `attachAll`, `setParent`, `addChildren` |
| `LogicNodeBase.__lshift__` | 52-73 | `lshift`, `BuildState`, `LogicExpr.eval`, `evalAll` |
| `LogicNodeBase.__getitem__` | 78-84 | `LTree.preorder`, `preorderAll`, `rootOf`, `getItem` |
| `SimulationBase.__init__` | 106-109 | `padded`, `strUtc`, `dictSet`, `simulationMetadata` |
| `SimulationBase._default_timestamp` | 111-113 | `UtcTime` |
| `SimulationBase.name_with_timestamp` | 115-118 | `nameWithTimestamp`, `strUtc`, `defaultDirectory` |
| `SimulationBase.run` | 123-126 | `runUntilF`, `saveRun`, `simRun` |

## crowddynamics/simulation/field.py

| Function | Lines | Definitions |
|---|---|---|
| `Field._valid_domain` | 90-97 | `ShapelyLib`, `validateGeom`, `assignDomain`, `FieldAssignment.run` |
| `Field._valid_obstacles` | 99-106 | `ShapelyLib`, `validateGeom`, `assignObstacles`, `FieldAssignment.run` |
| `Field.convex_hull` | 108-117 | `Plan.exits`, `Plan.hull` |
| `Field._samples` | 119-124 | `HullLib`, `fieldSamples`, `Plan.samples` |
| `Field.sample_spawn` | 126-129 | `Field.sampleSpawn`, `Plan.samples` |
| `Field.meshgrid` | 131-136 | `polygonBounds`, `Lru`, `lruSize`, `Caches`, `callCached`, `meshgridBody`, `Field.meshgrid` |
| `Field.shortest_path_target` | 138-149 | `TargetIndex`, `pyListGet`, `Lru`, `Caches`, `callCached`, `FieldLib`, `selectTargets`, `Field.domainGeom`, `Field.shortestPathTarget` |
| `Field.direction_map_obstacles` | 151-153 | `Lru`, `Caches`, `callCached`, `Field.directionMapObstacles` |
| `Field.navigation_to_target` | 155-164 | `Lru`, `Caches`, `callCached`, `Field.navigationToTarget` |

## crowddynamics/simulation/logic.py

| Function | Lines | Definitions |
|---|---|---|
| `LogicNode.__init__` | 49-51 | `NodeCall.run` |
| `LogicNode.update` | 53-54 | `Node.updateWithoutAgents`, `Node.update` |
| `Reset.update` | 60-64 | `walkStepF`, `Node.updateWithoutAgents`, `resetUpdate`, `Node.update` |
| `Integrator.update` | 71-75 | `timeUpdateF`, `timeAfterF`, `Node.updateWithoutAgents`, `SimData`, `integratorUpdate`, `Node.update` |
| `Fluctuation.update` | 79-86 | `StepInput`, `fluctuation`, `fluctuationDrawn`, `Node.updateWithoutAgents`, `Node.update` |
| `Adjusting.update` | 90-94 | `adjusting`, `Node.updateWithoutAgents`, `Node.update` |
| `AgentAgentInteractions._default_cell_size` | 114-116 | `defaultInteractionCell`, `callAgentAgent` |
| `AgentAgentInteractions.update` | 118-119 | `Node.updateWithoutAgents`, `Node.update` |
| `AgentObstacleInteractions.update` | 123-130 | `Node.updateWithoutAgents`, `obstaclesOf`, `Node.update` |
| `Navigation.update` | 149-165 | `navigationStep`, `navigationUpdate`, `Node.updateWithoutAgents`, `navigationLoop`, `Node.update` |
| `LeaderFollower.update` | 175-182 | `leaderFollowerUpdate`, `Node.updateWithoutAgents`, `obstaclesOf`, `Node.update` |
| `LeaderFollowerWithHerding.update` | 210-221 | `leaderFollowerWithHerdingUpdate`, `Node.updateWithoutAgents`, `obstaclesOf`, `Node.update` |
| `ExitDetection.update` | 243-255 | `meanVec`, `exitDetectionUpdate`, `Node.updateWithoutAgents`, `obstaclesOf`, `targetArrays`, `Node.update` |
| `Orientation.update` | 259-261 | `orientationUpdate`, `Node.updateWithoutAgents`, `Node.update` |
| `SaveSimulationData.__init__` | 294-316 | `SaveLib`, `SaveWorld`, `SaveNode`, `csvRecord`, `fieldGeometries`, `saveInit` |
| `SaveSimulationData.full_path` | 318-321 | `saveFullPath`, `defaultDirectory` |
| `SaveSimulationData._default_save_directory` | 323-325 | `saveFullPath`, `defaultDirectory` |
| `SaveSimulationData.add_to_simulation_logic` | 327-328 | `NpyEvent` |
| `SaveSimulationData.update` | 330-337 | `SaveWorld`, `csvRecord`, `saveUpdate`, `saveRun`, `Node.update` |
| `InsideDomain.__init__` | 345-349 | `NodeCall.run`, `callInsideDomain`, `SimData`, `insideDomainInit` |
| `InsideDomain.update` | 351-357 | `Node.updateWithoutAgents`, `SimData`, `insideDomainUpdate`, `Node.update` |
| `TargetReached.__init__` | 366-381 | `formatPositional`, `targetReachedLoop`, `targetReachedInit` |
| `TargetReached.update` | 383-387 | `Node.update` |

## crowddynamics/simulation/multiagent.py

| Function | Lines | Definitions |
|---|---|---|
| `MultiAgentSimulation.__init__` | 44-48 | `timeAfterF`, `newData`, `SimData`, `SimState` |
| `MultiAgentSimulation.update` | 51-55 | `runI`, `LTree.postorder`, `postorderAll`, `rootOf`, `runF`, `LogicExpr.build`, `LogicExpr.order`, `LogicExpr.update`, `updateNodesWithoutAgents`, `updateWithoutAgents`, `updateNodes`, `simUpdate` |
| `MultiAgentProcess.EndProcess` | 62-63 | `QueueItem` |
| `MultiAgentProcess.run` | 83-95 | `QueueItem`, `processRun` |
| `MultiAgentProcess.stop` | 97-100 | `processRun` |

## crowddynamics/testing.py

| Function | Lines | Definitions |
|---|---|---|
| `reals` | 15-49 | `ExcludeZero`, `realsStrategy`, `FloatDtype`, `roundTo`, `FloatDtype.format`, `castTo`, `realsArray`, `realsVecs`, `isCloseF`, `RealsNear`, `RealsBetween` |
| `unit_vectors` | 52-55 | `unitVectorDraw` |
| `points` | 58-62 | `pointsStrategy` |
| `linestrings` | 65-75 | `linestringsStrategy` |
| `polygons` | 78-94 | `polygonsStrategy` |
| `agents` | 101-125 | `interactionTestAgent`, `interactionTestArray` |

## crowddynamics/traits.py

| Function | Lines | Definitions |
|---|---|---|
| `shape_validator` | 17-35 | `NdArray`, `ArrayValidator`, `shapeValidator` |
| `length_validator` | 38-57 | `NdArray`, `ArrayValidator`, `npIsclose`, `lengthValidator` |
| `trait_to_type` | 60-76 | `PyType`, `traitToType` |
| `trait_to_dtype` | 79-116 | `ScalarDtype`, `Trait`, `DtypeField`, `traitToDtype` |
| `trait_to_option` | 119-155 | `PyVal`, `Trait`, `OptionType`, `traitsToTypes`, `traitToOption` |
| `class_own_traits` | 158-171 | `bodyFields`, `TraitClass`, `Trait.isTrait`, `classOwnTraits` |
| `class_traits` | 174-197 | `bodyFields`, `classTraits` |
| `class_to_struct_dtype` | 200-219 | `bodyFields`, `traitsToDtypes`, `npDtype`, `classToStructDtype` |
| `Rst.math` | 226-231 | `rstMath` |
| `Rst.literal` | 232-237 | `DocDefault`, `rstLiteral` |
| `table_of_traits` | 240-277 | `lineBreaks`, `spaces`, `splitLines`, `indentText`, `csvField`, `csvRow`, `TraitInfo`, `traitRow`, `traitRows`, `tableOfTraits` |

## crowddynamics/utils.py

| Function | Lines | Definitions |
|---|---|---|
| `remember_cwd` | 11-26 | `OsState`, `osGetcwd`, `osChdir`, `rememberCwd`, `rememberAll` |
| `interpolate_docstring` | 29-52 | `percentFormat`, `Substitution`, `Substitution.value`, `substitutionValues`, `interpolateDocstring` |
| `empty_to_none` | 60-62 | `ParamDefault`, `mkspec` |
| `mkspec` | 65-70 | `ParamDefault`, `Param`, `mkspec` |
| `parse_signature` | 73-110 | `parseSignature` |
| `filter_cls` | 132-137 | `PyObj`, `filterCls` |
| `import_subclasses` | 140-152 | `PyObj`, `subclassesOf` |

## crowddynamics/visualizations.py

| Function | Lines | Definitions |
|---|---|---|
| `set_aspect` | 17-51 | `pyMin`, `pyMax`, `pyDiv`, `setAspect` |
| `figure` | 54-84 | `splitext`, `figureManager` |
| `add_geom` | 87-105 | `Glyph`, `addGeom`, `addGeoms` |
| `add_field` | 108-126 | `addGeoms`, `optGeom`, `Field.optDomain`, `addField` |
| `add_distance_map` | 129-142 | `Glyph`, `addDistanceMap` |
| `add_direction_map` | 145-169 | `Glyph`, `everyNth`, `arctan2`, `addDirectionMap` |
| `plot_field` | 172-225 | `addGeoms`, `optGeom`, `Field.optDomain`, `filled`, `plotField` |
| `render_tree` | 230-246 | `splitext`, `TreeFormat`, `renderTree` |

## Not modelled

| File | Function | Lines |
|---|---|---|
| crowddynamics/_version.py | `register_vcs_handler` | 59-67 |
| crowddynamics/cli.py | `Colors` | 17-21 |
| crowddynamics/cli.py | `list_of_simulations` | 41-46 |
| crowddynamics/conftest.py | `attributes` | 11-20 |
| crowddynamics/conftest.py | `agents_circular` | 23-29 |
| crowddynamics/conftest.py | `agents_three_circle` | 32-38 |
| crowddynamics/core/block_list.py | `MutableBlockList.__str__` | 148-149 |
| crowddynamics/core/motion/subgroups.py | `attractor_point` | 8-24 |
| crowddynamics/core/motion/subgroups.py | `adjusting_force_intra_subgroup` | 27-42 |
| crowddynamics/core/quantities.py | `rectangle` | 56-60 |
| crowddynamics/core/rand.py | `estimate_number_poisson_timings` | 131-143 |
| crowddynamics/core/steering/orientation.py | `orientation` | 13-14 |
| crowddynamics/core/steering/quickest_path.py | `travel_time_map` | 120-141 |
| crowddynamics/examples/collective_motion.py | `Outdoor._default_field` | 75-77 |
| crowddynamics/examples/collective_motion.py | `AroundCircle._default_field` | 372-376 |
| crowddynamics/examples/collective_motion.py | `AroundCircle._default_agents` | 378-380 |
| crowddynamics/examples/collective_motion.py | `AvoidPillar` | 383-384 |
| crowddynamics/examples/fields.py | `AvoidPillar.__init__` | 322-323 |
| crowddynamics/examples/simulations.py | `Outdoor._default_field` | 55-57 |
| crowddynamics/examples/validation.py | `TestMovement._default_field` | 46-48 |
| crowddynamics/examples/validation.py | `TestAgentInteraction._default_field` | 101-103 |
| crowddynamics/exceptions.py | `CrowdDynamicsException` | 10-12 |
| crowddynamics/exceptions.py | `InvalidType` | 15-17 |
| crowddynamics/exceptions.py | `InvalidValue` | 20-22 |
| crowddynamics/exceptions.py | `ValidationError` | 25-26 |
| crowddynamics/exceptions.py | `OverlappingError` | 29-30 |
| crowddynamics/exceptions.py | `AgentStructureFull` | 33-34 |
| crowddynamics/exceptions.py | `NotACrowdDynamicsDirectory` | 37-38 |
| crowddynamics/exceptions.py | `DirectoryIsAlreadyCrowdDynamicsDirectory` | 41-43 |
| crowddynamics/logging.py | `format_numpy` | 16-23 |
| crowddynamics/logging.py | `format_pandas` | 36-42 |
| crowddynamics/simulation/agents.py | `AgentType.overlapping_obstacles` | 333-334 |
| crowddynamics/simulation/agents.py | `AgentType.__str__` | 343-344 |
| crowddynamics/simulation/base.py | `FieldBase` | 19-20 |
| crowddynamics/simulation/base.py | `AgentsBase` | 23-24 |
| crowddynamics/simulation/base.py | `LogicNodeBase.update` | 31-33 |
| crowddynamics/simulation/base.py | `LogicNodeBase.__repr__` | 75-76 |
| crowddynamics/simulation/base.py | `SimulationBase.update` | 120-121 |
| crowddynamics/simulation/multiagent.py | `MultiAgentProcess.__init__` | 65-81 |
| crowddynamics/testing.py | `multipart_geometries` | 97-98 |
| crowddynamics/testing.py | `obstacles` | 128-129 |
| crowddynamics/utils.py | `import_module` | 115-129 |
