# Formal model of yade-mpi: design and trusted base

## 1. Approach

The code in `/repo` is read as text and transcribed, function by function, into small total Lean 4 functions.
Every definition of a model cites the file and lines it transcribes.  Theorems are about these functions; nothing
is executed and no C++ or Python is parsed mechanically, so the transcription is part of the trusted base.

Each area has these kinds of files under `lean/Verif/<Area>/`:

* models (`Model.lean`, or named after the part of the code): transcription of the code;
* helper lemmas (never cited by the manifest);
* `…Props.lean`: an independent specification, the property theorems, and beside them `example`s with concrete
  non-trivial instances of their hypotheses.

Undefined behaviour (index out of range, null dereference, use of an invalidated iterator, uninitialised read) is an
explicit outcome of the model (`Res.ub`), never assumed away; exceptions are another (`Res.throws`).

When the unchanged code violates a property, the manifest entry has status `partial`: theorems with `_violated` in
the name prove the negation with a concrete witness, and theorems with `_partial` prove the property under an
explicit extra condition (or the part of it that does hold).  Parts that hold fully are also listed as properties of
their own where they are useful by themselves (C72, C73 for C52; C75, C76 for C49; …).

Numbers: `Real` (double) is modelled by an exact ordered field (ℚ, ℝ or an arbitrary one); floating-point
rounding, NaN and infinities are not modelled unless stated.  Machine integers are `Int`/`Nat` unless wrap-around
matters (then it is an outcome).

## 2. Trusted base

* The Lean 4.33.0 kernel, and the parts of Mathlib imported (checked by the same kernel).
* Axioms: only `propext`, `Classical.choice` and `Quot.sound`.  `AXIOMS.md` lists them for every theorem named in
  the manifest.  No axioms of our own, no `sorry`, no `native_decide`/`bv_decide`, no `implemented_by`.
* The transcription of the cited lines into Lean, and the simplifications stated in the header of each model file
  (repeated in section 3).
* The semantics assumed for libraries: `std::sort` gives a sorted permutation when its comparator is a strict weak
  order (C29); Eigen's eigensolver is a parameter with a stated specification; MPI's non-overtaking rule, posted
  receives and blocking sends as in `Verif/Mpi/Net.lean`; `mpi4py` pickling delivers what was sent;
  boost serialization keeps the attributes registered for it.

## 3. What is modelled

| Area | Code | Simplifications |
|---|---|---|
| Bodies | `core/BodyContainer.{hpp,cpp}`, membership part of `core/Clump.cpp`, body and clump operations of `py/wrapper/yadeWrapper.cpp` | bodies are references into a heap without freeing; only id, clumpId and members are kept |
| Intr | `core/InteractionContainer.{hpp,cpp}`, `core/Interaction.{hpp,cpp}`, interaction maps of bodies | interactions are handles; mutexes not modelled |
| Forces | `core/ForceContainer.hpp`, `ForceContainerParallel.cpp`, `ForceContainerSerial.cpp` | values in a commutative monoid; one call is one step, except in `Race.lean` (accesses to shared variables) |
| Step | `core/Scene.cpp` `moveToNextTimeStep`, `core/ThreadRunner`/`SimulationFlow` loops | engines are arbitrary functions with the effects stated |
| Sched | `pkg/common/PeriodicEngines.hpp` | virtual, real and iteration clocks are inputs |
| Dispatch | `lib/multimethods/DynLibDispatcher.hpp`, `Indexable.hpp`, `core/Dispatcher.hpp` | lookups are atomic; release build |
| Collide | `pkg/common/Collider.cpp`, `InsertionSortCollider.{hpp,cpp}` without cell | `std::sort` a parameter; parallel chunks run one after the other (their ranges are proved disjoint) |
| Peri | periodic parts of the same, `core/Cell.{hpp,cpp}` | loops on fuel; floor of an ordered field |
| Stride | when the collider may be skipped: `InsertionSortCollider::isActivated`, `Dispatching.cpp` `BoundDispatcher`, `NewtonIntegrator` maxima, `Bo1_*_Aabb` | real numbers |
| Grid | `pkg/dem/FlatGridCollider`, `pkg/common/SpatialQuickSortCollider` | conversions to int do not overflow |
| Loop | `pkg/common/InteractionLoop.cpp`, life cycle of `Interaction`, `Shop::createExplicitInteraction` | functors are arbitrary functions obeying a stated contract |
| Mech | `pkg/dem/NewtonIntegrator.cpp`, `core/Clump.cpp` (moves, mass, inertia), `pkg/dem/ScGeom.cpp`, `Ig2_{Sphere_Sphere,Box_Sphere,Facet_Sphere}_ScGeom`, `FrictPhys.cpp`, `ElasticContactLaw.cpp`, `pkg/common/Facet.cpp`, facet helpers of `py/utils.py` | real numbers, division by zero gives 0 (theorems assume non-zero where it matters) |
| Attr | `core/State.cpp` blocked degrees of freedom, tags and materials of `yadeWrapper.cpp` | strings are lists of characters |
| Accu | `lib/base/openmp-accu.hpp`, `core/EnergyTracker.hpp` | memory counted in cache lines and elements |
| Replace | `O.bodies.replaceByClumps`, choice of spheres | amounts are rationals |
| Tree | `py/tree_decomp.py`/`mpy_bisection.py` bisection decomposition | Python lists, messages as in Net |
| Drive | `pkg/common/KinematicEngines.cpp`, `ForceEngine.cpp`, `TorqueEngine.hpp`, `GravityEngines.cpp`, `StepDisplacer.hpp`, `lib/smoothing/LinearInterpolate.hpp` | real numbers; `FromTwoVectors` a parameter; NaN only as result of 0/0 in tables; assertions compiled out |
| Pack | `pkg/dem/SpherePack.{hpp,cpp}`: all members; `pkg/dem/Shop_01.cpp`: `loadSpheresFromFile`; `py/pack/_packPredicates.cpp` but GTS surfaces and predicates written in Python; `py/pack/pack.py`: `regularOrtho`, `regularHexa`, `SpherePack_toSimulation`, `filterSpherePack` | real numbers; random generator an arbitrary stream of numbers; infinite or NaN results of `makeCloud` and reads outside of vectors are `ub`; outcome of comparisons with NaN in predicates written out; recursion and loop on fuel, no outcome if it does not suffice; warnings and the rounding of saved numbers not modelled |
| Decomp | `py/domaindecomposition.py` but the unused `findMostRemotePoint` | real numbers; random numbers a parameter; messages dropped; the loop of the automatic decomposition with fuel; points missing in a cloud are an exception at once |
| Dt | `pkg/common/MatchMaker.{hpp,cpp}`, `Ip2_FrictMat_FrictMat_FrictPhys::go`, `Ip2_FrictMat_FrictMat_ViscoFrictPhys::go` (stiffness), `pkg/dem/GlobalStiffnessTimeStepper.{hpp,cpp}`, `core/TimeStepper.hpp`, `Shop::PWaveTimeStep` | real numbers, `none` for not a number; contacts given by their stiffness, normal and radii; the linear network around a state for stability; conformal pressures and threads not modelled |
| Fac | `pkg/dem/SpheresFactory.{hpp,cpp}`, `pkg/dem/DomainLimiter.{hpp,cpp}` (`DomainLimiter`), `InsertionSortCollider::probeBoundingVolume` | real numbers; random numbers a sequence; the rotation from Eigen given; reading behind the end of `PSDcum` a parameter that may be undefined behaviour; colours and masks of new spheres not modelled |
| Meas | `pkg/dem/Shop_01.cpp` (`flipCell`, `unbalancedForce`, `kineticEnergy`, `momentum`, `angularMomentum`), `pkg/dem/Shop_02.cpp` (`getStress`, `getStressLWForEachBody`, `normalShearStressTensors`, `fabricTensor`, `getDynamicStress`, `getTotalDynamicStress`, `calm`, `setContactFriction`, `growParticles`, `aabbExtrema`), `Clump::addForceTorqueFromMembers` (forces) | real numbers; a quotient by zero is a separate outcome; unbounded integers; casts of geometry, physics and materials assumed to fit; reduction over OpenMP threads not modelled |
| Run | `core/ThreadRunner.cpp`, `core/ThreadWorker.cpp` (flag), `core/SimulationFlow.cpp` (`stopAtIter`), `core/Omega.cpp` (`stop`, `step`, `run`, `pause`, `isRunning`), `py/wrapper/yadeWrapper.cpp` (`run`, `pause`, `step`, `wait`, `load`, `reset` up to the end of the runner) and the interpreter lock | sequentially consistent memory; critical sections with one access are one instruction; a step of the simulation changes only the step counter, may last, throw and give commands; the runner made after `load` or `reset`, `stopAtTime` not modelled |
| Dist | `py/mpy.py` (`mpirun`, `splitScene`, `mergeScene`, `sendRecvStates`, `isendRecvForces`, `receiveForces` as functions on the scenes of all processes), `pkg/common/InteractionLoop.cpp`, `pkg/dem/NewtonIntegrator.cpp` (which bodies), `core/Scene.hpp` (what is saved) | laws, integrator and time stepper are arbitrary functions; no clumps, grid nodes, periodic cells; messages arrive (C116); the collider is not run between a split and the next merge; what the split finds is given (C112-C115) |
| Coh | `pkg/dem/CohesiveFrictionalContactLaw.{hpp,cpp}` (law, physics functor, energies), `pkg/dem/ScGeom.cpp` (`ScGeom6D`), `Ig2_Sphere_Sphere_ScGeom6D` | real numbers; spheres; no creep of the twist, no `CohesiveFrictionalContactLaw` engine form; one thread; division by zero of both Young moduli not distinguished |
| Ctl | `pkg/dem/PeriIsoCompressor.{hpp,cpp}` (`PeriIsoCompressor`, `PeriTriaxController`), `pkg/dem/TriaxialStressController.{hpp,cpp}`, `core/Cell.cpp` (sizes of rectangular cells) | real numbers; rectangular cells, diagonal velocity gradient; what is measured is arbitrary input; no `Peri3dController`, no external work, no fluid stiffness; clumps not counted in volumes |
| Uniax | `pkg/dem/UniaxialStrainer.{hpp,cpp}`, the motion of blocked bodies in `pkg/dem/NewtonIntegrator.cpp` | real numbers; components along the axis; attributes that may be not a number are options; forces and the motion of inner bodies are arbitrary |
| Avg | `lib/smoothing/WeightedAverage2d.hpp`, `py/WeightedAverage2d.cpp` (`GaussAverage`) | real numbers; not a number is `none`; conversions to `int` out of its range and indices outside of the grid are undefined; the normal distribution function is arbitrary, its density is the exact one |
| Interp | `py/linterpolation.py` | real numbers, and integers with the division of Python 2 for `revIntegrateLinear`; all exceptions of Python are one outcome |
| Plot | `py/plot.py` (data, images, saving as text) | dictionaries are lists with an arbitrary first name; headers, figures, gnuplot and the change of the dictionary of the caller are not modelled |
| P3d | `pkg/dem/PeriIsoCompressor.*` (Peri3dController) | real numbers; the stress of the cell and the polar decomposition of its deformation are given; logging is not modelled |
| Visc | `pkg/dem/ViscoelasticPM.*`, `pkg/dem/LudingPM.*` | real numbers; SPH, deformable particles and the search of `find_cn_from_en` are not modelled |
| Text | `py/export.py` (`textExt`, `textClumps`), `py/ymport.py` (`textExt`, `text`, `textClumps`) | files are lists of lines of words; `%g` rounds to six digits by any rounding to nearest; what `float` makes of other words is a parameter; `jointedPM` is not modelled |
| Wire | `pkg/dem/WirePM.*` | real numbers; division by zero is undefined; random numbers are any function of seed and count |
| Tester | `pkg/dem/DomainLimiter.*` (`LawTester`) | real numbers; later axes and the interaction found are inputs; `uGeom` is not modelled; hooks are numbers |
| Bubble | `pkg/dem/BubbleMat.*` | real numbers; uninitialised members and what is not a number are undefined |
| Mortar | `pkg/dem/MortarMat.*` | real numbers; divisions by zero are undefined; geometry of `Verif.Mech` |
| Cpm | `pkg/dem/ConcretePM.*` | the public model, without `CPM_MATERIAL_MODEL`; real numbers; divisions by zero are undefined; rate dependence, which the public model does not use, and display are not modelled; geometry of `Verif.Mech` |
| Hertz | `pkg/dem/HertzMindlin.*` | real numbers; what gives NaN is undefined or `none`; incident and angular velocities are inputs; the capillary functor and `adhesionEnergy` are not modelled |
| Handle | `py/bodiesHandling.py`; `sphere` and `_commonBodySetup` of `py/utils.py` as far as copies need them | real numbers; lists of identifiers, not of bodies; masks of bodies are not negative; colours are not modelled |
| FVisc | `pkg/dem/FrictViscoPM.cpp`; the choice of the physics functor in `pkg/common/InteractionLoop.cpp` for its materials | real numbers, NaN results are undefined behaviour; a match maker is the value it gives for the pair; asserts absent |
| Inel | `pkg/dem/InelastCohFrictPM.cpp` | real numbers, division by zero is undefined behaviour; twist angle and relative angular velocity are inputs; the shear energy and the messages are not modelled |
| Lbm | `pkg/lbm/LBMnode.cpp`; of `pkg/lbm/HydrodynamicsLawLBM.cpp` the conditions at borders, collisions, bounce back and the counters of new nodes | real numbers, division by zero is undefined behaviour, `exit(-1)` is an exception; one node or link at a time: building links, streaming between nodes, sub-cycling, files and the race of the parallel loops on shared sums are not modelled |
| Elast | `pkg/dem/Ip2_ElastMat.cpp` | real numbers, division by zero is undefined behaviour |
| Mpi | `py/mpy.py`, `core/Subdomain.{hpp,cpp}`: states and forces exchanged (States, Exchange), votes (Vote), merge (Merge), split (Split, Resplit, EraseRemote), message order of whole runs (Whole) | default configuration (`USE_CPP_MPI`, `OPTIMIZE_COM`, `ERASE_REMOTE`); non-periodic scenes in Split |

Not modelled: floating-point rounding; all of GUI, display and file export; all engines, functors and laws not
named above; boost serialization itself; the build system; memory exhaustion; weak memory (interleavings
are sequentially consistent, which can only hide behaviours).

## 4. Properties

| Property | Status | Modelled in | How it is proved, what is missing |
|---|---|---|---|
| C01 Body ids are slot numbers and are never silently reassigned | partial | Bodies | Inductive invariant (slot i holds a body with id i, no body twice) over all histories of append/insertAtId/erase/clear. Holds for every history in which insertAtId is not given a body that is stored already; the unchanged code accepts such a body and then two ids lead to it (C01_violated). |
| C02 Iterating over O.bodies visits every existing body exactly once, in id order, without touching memory past the end | partial | Bodies | Induction on the slots; the read past the end is an outcome of the model. Order and completeness are proved for every container whatever the read behind the last element yields; that read happens in every iteration of every non-empty container (C02_violated). |
| C03 Out-of-range body ids are rejected instead of read | partial | Bodies | Case analysis; out-of-range access is `ub`. O.bodies[id] and exists are proved safe for every id; insertAtId and erase index outside the storage for every id outside the container (C03_violated). |
| C04 Clump membership is consistent in both directions | partial | Bodies | Inductive invariant relating clumpId and member sets over all histories. Invariant proved for every history in which clump and addToClump are not given clumps; addToClump and clump with the id of a clump break it in the unchanged code (two witnesses). |
| C05 Erasing a body erases exactly what was asked | proved | Bodies | Exact post-state of the recursive erase under the C04 invariant. All cases, for every scene reached by a history as in C04 and every clump size. |
| C06 The interaction container is a map keyed by unordered body pairs | proved | Intr | Representation invariant of per-body maps, linear array and back references; refinement (simulation) to a table keyed by unordered pairs. Refinement of the three mutually referencing indices against a table keyed by unordered pairs, for every legal history from the empty scene. Legality: inserted interactions join two distinct existing bodies, looked-up ids are not negative, a list position is passed to erase only for a stored pair. |
| C07 Conditional removal of potential interactions is exact and independent of the thread count | proved | Intr | Refinement to a filter for every predicate and every split in contiguous ranges. For every state reachable by body and interaction operations (bodies may be deleted), every predicate, every contiguous split. Refilling a deleted slot that is still referred to is excluded (C09), as is O.bodies.clear (C57). |
| C08 eraseNonReal removes all and only the non-real interactions, safely | partial | Intr | Exact outcome by induction on the positions. The code violates the claim: with a non-real interaction before the last position the loop passes the end of the shortened vector; proved for every such reachable state. The safe case is exact. |
| C09 A pair that was erased can be inserted again | partial | Intr | Case analysis on stale references; two concrete histories. Holds when no stale reference to the slot exists; two violating histories are proved. |
| C10 Saving and loading keeps every interaction whose bodies still exist | proved | Intr | Round trip of preSave/postLoad from the invariant of C06. Proved for every reachable state. C10_orphan_in_file_violated records what happens for a file written otherwise (an interaction with a missing body). |
| C11 Synchronised force equals the sum of everything added since the last reset | proved | Forces | Ledger of additions kept by an inductive invariant of the per-thread arrays. One call is one step (C15 treats finer interleavings). The out-of-bounds access inside setPermF (C13) is a precondition of C11_sync_sum; C11_sync_sum_noperm needs no such condition. |
| C12 Forces cannot be read before synchronisation | proved | Forces | Invariant tying the flag `synced` to the ledger. Same precondition on setPermF as C11. |
| C13 A permanent force stays until it is changed or reset | partial | Forces | Invariant of the permanent arrays; witness. The code violates the property: setPermF accesses _maxId[-1] and shrinks the arrays of permanent forces to id+100. Proved when permanent ids are within 100 of each other and the access is survived. |
| C14 Synchronising twice is the same as synchronising once | partial | Forces | Equality of states; witness in the serial build. Holds in the threaded build; the build without threads adds permanent forces at every sync. |
| C15 Concurrent growth of the force storage loses no contribution | partial | Forces | Small-step interleavings of the accesses to shared variables; invariant over schedules; losing schedule as witness. The code violates the property (unsynchronised read-compare-write of the shared size). Proved for schedules in which this access is indivisible. |
| C16 Sub-stepping does not change what a step does | proved | Step | Simulation between stepping at once and by sub-steps, induction over toggles. All toggling patterns, all behaviours of engines that neither raise nor assign O.engines (those are C17, C18). |
| C17 Replacing O.engines during a step takes effect at the next step only | partial | Step | Trace of executed engines over all histories; three witnesses. False in three uses: assigning an empty list inside a step, assigning between steps while an in-step assignment is pending, switching sub-stepping off right after the prologue while an assignment is pending. Proved for all histories avoiding these. |
| C18 An exception inside an engine does not make other engines run twice in one step | partial | Step | Induction on the engine list. False without sub-stepping: every completed engine runs again (proved for every list and failing position). Proved in sub-stepping mode. |
| C19 O.run(n) performs exactly n steps and O.stopAtTime stops | partial | Step | Induction on the number of steps. O.run(n) proved in full. O.stopAtTime compares with ==, so the run does not stop when the time steps over it; proved only for stop times a whole number of steps away. |
| C20 Single-argument dispatch picks the functor of the nearest ancestor class | proved | Dispatch | Nearest ancestor as independent specification; invariant of the cached callback table. All hierarchies, registrations and lookup sequences. The functor remembered in the object itself is C22. |
| C21 Two-argument dispatch picks the closest pair and reports ambiguity reliably | partial | Dispatch | Nearest pair specification; invariant of the matrix; witnesses. Nearest/ambiguous/none proved on a freshly filled matrix; a functor found stays found. False after other lookups (cached copies are taken for registrations), on repetition of an ambiguous lookup, for argument roles with related classes, and (undefined behaviour) when reporting ambiguity in a matrix with more rows than columns. |
| C22 Dispatch depends only on which functors are registered, not on when | partial | Dispatch | Equality of dispatch tables; witnesses. Assigning the functor list is independent of history. False for add() after a lookup, for objects that cache their functor, and for two functors of one class. |
| C23 The pair filter of the colliders is symmetric and complete | partial | Collide | Exact decision table. Exact decision table (mask bits by testBit) and symmetry for existing bodies. A deleted body is read through the null pointer before the test: undefined behaviour. |
| C24 The sweep keeps each axis list a sorted permutation | proved | Collide | Permutation and sortedness by induction over insertions and histories. All histories of runs (initial, incremental, parallel with threads squared at most the number of bodies, sortThenCollide). Shrinking containers are C67. |
| C25 The incremental collider misses no overlap | proved | Collide | Invariant "overlapping pairs are known" preserved by every inversion. By induction over all histories of runs, sequential and parallel sort. Hypothesis Settled: no pair becomes collidable without an initial sort (see C68). Overlap by more than a face (see C69). |
| C26 The initial sweep finds every overlap | proved | Collide | Induction on the sweep. From any prior state, any interactions, any axis. |
| C27 The collider creates nothing spurious and keeps nothing obsolete | partial | Collide | Invariant on the interaction list; witness. Nothing spurious, real interactions kept: proved. Nothing obsolete: for bodies with boxes; a deleted body keeps its potential interaction because stale boxes are compared. |
| C28 The parallel sort never touches memory outside the bounds list | partial | Collide | Index bounds of chunk table; concrete out-of-range. No out-of-range access and same coordinates for lists of at least 2*threads^2 bounds. Out of range for 1000 bodies and 64 threads (every list), and for a short last chunk. |
| C29 Bounds are compared by a strict weak order | partial | Collide | Order properties; witnesses. Transitive, asymmetric for different bounds. Not irreflexive, incomparability not transitive for bodies of zero width. |
| C30 Periodic overlap test is exact | partial | Peri | Floor arithmetic. Exact for all boxes of the accepted sizes. With exchanged bodies the shift is opposite if the two widths sum to less than the period minus the tolerance; otherwise two different shifts may both bring the boxes together and the reported ones need not be opposite (witness). |
| C31 Wrapping into the cell is exact | proved | Peri | Floor arithmetic. The period count must fit a 32-bit int, otherwise the conversion is undefined behaviour in the model. |
| C32 Skipping the collider is safe | partial | Stride | Inductive invariant (stored box contains exact box as long as the displacement is below the margin) over reachable histories. In scenes without a cell or with an unsheared cell: every reachable history of integrator runs, collider turns and other events that keep positions and radii. Missing: sheared cells, where the property is false (displacements are measured along the axes of space, boxes along the base vectors of the cell; C32_violated_sheared). |
| C33 The grid collider finds every pair of touching spheres | partial | Grid | Geometry of cells over an ordered field. true for grids whose origin has equal coordinates; otherwise overlapping spheres inside the grid can be missed: the second coordinate of the origin is subtracted from all three |
| C34 The reference collider obeys the pair filter and ignores bodies without box | partial | Grid | Characterisation of the sweep. exact when every body exists and has a box, except that the pair filter is never asked; erased bodies and bodies without a box leave stale or unwritten entries in use |
| C35 One pass of the interaction loop takes each interaction through legal states only | proved | Loop | Independent list of legal ways through the loop; every pass is one of them. functors are arbitrary functions obeying the contract FnOk; abnormal ends (exception, exit, undefined) are separate outcomes |
| C36 Swapping an interaction's bodies keeps the physical pair | proved | Intr | Case analysis |
| C37 Contact forces obey action and reaction | partial | Mech.C37_contact_point, Mech.C37_spheres_partial, Mech.C37_violated_wall | Vector identities. Holds for every geometry when the law uses the contact point, and for sphere-sphere contacts with every option and periodic shift. With spherical bodies assumed or in periodic scenes, a wall-sphere contact applies an unbalanced moment (witness). |
| C38 Blocked degrees of freedom keep their velocity | partial | Mech.C38_blocked_partial, Mech.C38_free, Mech.C38_violated_member | Induction over steps. Both halves hold for standalone bodies and clumps (first half over any history, any order of the loop). The blocked degrees of freedom of a clump member are ignored: its velocity is overwritten by the clump (witness). |
| C39 Numerical damping only ever removes energy | proved | Mech.C39_accel, Mech.C39_factor, Mech.C39_torque | Ordered-field inequalities |
| C40 Resultant on a clump equals the resultant on its members | proved | Mech.C40_distances, Mech.C40_relative, Mech.C40_resultant, Mech.C40_rigid, Mech.C40_runs | Induction over members |
| C41 Forming a clump does not move its members | partial | Mech.C41_mass_centre_partial, Mech.C41_placement, Mech.C41_violated_mass | Induction over members, algebra. Placement holds for every member set, discretisation and eigensolver. Mass and centre hold for members whose spheres have the mass density times volume and do not intersect; the stored mass of a sphere is ignored (witness), and intersecting spheres are integrated on a grid instead. |
| C42 Body states survive the exchange between subdomains | partial | Mpi.C42_roundtrip_partial, Mpi.C42_violated_short | Round trip, exact footprint. Round trip proved for every list of existing bodies. False for messages that are too short: the wrong length is logged and the message is read beyond its end. |
| C43 Bounding boxes survive the exchange between subdomains | partial | Mpi.C43_bounded_partial, Mpi.C43_violated | Round trip. Proved for bounded bodies (and for the states of all). False for a body without bound: the receiver creates a bound with both corners at the origin. |
| C44 A subdomain's box is the tightest box around its bodies | partial | Mpi.C44_tightest_partial, Mpi.C44_violated | Least upper bound. Proved unless the first member has been erased, in which case a null pointer is dereferenced. |
| C45 All processes take the same collision-detection decision | proved | Mpi.Vote | Invariant over all interleavings of broadcasts. Any number of processes, calls and any interleaving; a broadcast in which roots disagree is a distinct outcome, shown unreachable. |
| C46 State exchange messages match | proved | Mpi.Exchange | Message-passing semantics (posted receives, FIFO channels, buffered or not); progress from a ranking of operations; delivery by counting. Asynchronous processes, any number of steps, intersection lists changing from step to step. Without buffering by the MPI library the states never hang; the messages of forces may (C47_violated_unbuffered). |
| C47 Forces received by the master belong to the current step | partial | Mpi.Exchange | Counting of sends and waits. False once the set of workers touching the master changes: a worker sends in every step, the master listens only to those touching it, and later receives the old messages. Proved: current if the master has listened to the worker from the beginning; in general which step the forces come from. |
| C48 Merging returns every worker's state to the right body on the master | partial | Mpi.C48_merge_partial, Mpi.C48_violated_angMom, Mpi.C48_violated_bounded, Mpi.C48_violated_erased | Round trip over all workers. Position, velocity, angular velocity, orientation and bound are returned to the right bodies. False for the angular momentum, for the bounded flag, and (undefined behaviour) when a worker has erased one of its bodies. |
| C49 Tree scatter gives each item to exactly one worker and gather brings all back | partial | Tree | Levels of the bisection tree; witnesses. Delivery to exactly one worker, matching of sends and gathering are C75 (full). That every worker takes part holds when the number of levels is enough: up to 16 workers and for 32, 64; it is false for 17-20 workers and for every power of two from 128 on (natural logarithm instead of base two). With fewer bodies than workers an IndexError is possible. |
| C50 O.tags behaves as a dictionary | partial | Attr | Refinement to a map. All histories of assignments, arbitrary values. Reading a key that itself contains = is not rejected and can return part of another value. |
| C51 Blocked degrees of freedom round-trip through their string form | proved | Attr | Round trip over all strings and all 6-bit patterns. All strings and all 6-bit patterns; every modelled assignment produces such a pattern. |
| C52 Periodic engines respect period, limit and initial-run settings | partial | Sched | Induction over polls. False as stated: nDo=0 with initRun runs once; a silent first poll is counted so at most nDo-1 runs follow; an engine added late runs at once although initRun=False; a missed firstIterRun means never. The true parts are C72 and C73. |
| C53 Per-thread accumulators add up | partial | Accu | Refinement to sums. Scalar accumulator: full. Array accumulator: full for one thread and while it does not outgrow its first cache lines; with two threads or more growing further over-reads the old memory (always). |
| C54 Energy reported by name equals the energy added under that name | partial | Accu | Refinement to a table; interleavings. Histories of atomic operations, and all interleavings for a name known before. A new name can be registered twice by two threads; callers keep stale identifiers after clear. |
| C55 Replacing spheres by clumps selects the requested number of spheres | partial | Replace | Exact counts; witnesses. Holds if every template gets at least one sphere, the rounded numbers do not exceed the number of spheres together, and there are at most 46340 spheres. Otherwise: division by zero, null body, integer overflow. |
| C56 Homogeneous deformation keeps the reference cell | proved | Peri | Matrix identities, induction over steps |
| C57 Emptying the body container leaves a usable scene | partial | Intr | Outcome analysis. The code violates the claim: interactions survive O.bodies.clear() and the single-threaded bulk removal loops for ever. Safe when interactions are cleared first. |
| C58 Looking up interactions of missing bodies is safe | partial | Intr | Outcome analysis. Item look-up is safe for non-negative ids; has() is not when the lower-id body is deleted, and negative ids read outside the vector. |
| C59 Appending bodies gives consecutive ids and disturbs nobody | proved | Bodies | Exact post-state |
| C60 Looking up a body by id never reads outside the container | proved | Bodies | Outcome analysis |
| C61 Reading a force without synchronisation | partial | Forces | Outcome analysis. The permanent array is read without bounds check. |
| C62 Unchecked reads of the totals return the right quantity | partial | Forces | Equality with the ledger. The serial getTorqueUnsynced returns the force. |
| C63 Prescribed displacement increments are summed and last one step | proved | Forces | Ledger invariant |
| C64 Functors receive objects of the classes they declare | proved | Dispatch | Invariant over interleavings of registration and lookup. All interleavings of registrations and lookups, symmetric and asymmetric dispatchers. |
| C65 Dispatching an object of the top-level class is reported | partial | Dispatch | Outcome analysis. dispFunctor raises; the engine-side lookups read out of bounds in release builds. |
| C66 "No functor" is reported exactly when none applies | proved | Dispatch | Invariant of matrix contents. All interleavings of registrations and lookups. |
| C67 The collider survives changes of the number of bodies and of periodicity | partial | Collide | Outcome of runs after shrinking. Works with more bodies and with none. With fewer (but some) bodies, or when the scene stops being periodic, every run reads outside the emptied lists. |
| C68 Changes of masks and boxes at run time are noticed | partial | Collide | History invariant; witness. True when an initial sort is asked for; an ordinary run misses the pair. |
| C69 Touching boxes are treated alike | partial | Collide | History witness. Existing interactions of touching boxes stay; whether there is one depends on the history. |
| C70 Materials are found under their numbers | proved | Attr | Inductive invariant |
| C71 Each place holds a material of that number | partial | Attr | Inductive invariant; witness. True if no material is appended twice; a material appended twice has the number of its last place only. |
| C72 Runs of a periodic engine are limited and spaced | proved | Sched | Induction over polls |
| C73 A periodic engine with an initial run runs exactly nDo times | proved | Sched | Induction over polls |
| C74 Threaded vectors hold what was pushed | proved | Accu | Refinement to concatenation |
| C75 Bisection neither deadlocks nor loses bodies | proved | Tree | Invariant of bisection messages; deadlock freedom by induction on levels |
| C76 Bisection separates the subdomains | proved | Tree | Sorted splitting by induction on levels |
| C77 Looping over O.bodies visits every body once | partial | Bodies | Histories of the iterator with deletions in between. The result is right whatever the place past the end of the vector contains; but advancing past the last body reads that place, which is undefined behaviour in every complete loop over a non-empty container. |
| C78 Orientations stay unit quaternions | proved | Mech.C78_orientations_unit | Norm preservation. Inertia components are assumed non-zero for aspherical bodies (division by zero gives infinities in the code). |
| C79 The step does not depend on the order of bodies | proved | Mech.C79_order_independent | Commutation of disjoint footprints, induction over permutations. Iterations are atomic in the model; that they touch disjoint bodies is part of the proof (footprint_disjoint). |
| C80 A body without torque rotates freely | partial | Mech.C80_angVel_partial, Mech.C80_momentum_partial, Mech.C80_turn_partial, Mech.C80_violated_angVel | Algebra; witness. The aspherical integrator turns the angular velocity with the orientation before normalising it: witness. |
| C81 Energy tracking reports the energies of the bodies | partial | Mech.C81_damping_partial, Mech.C81_rotational_partial, Mech.C81_violated | Algebra; witness. The inertia tensor is turned by the inverse of the orientation: wrong for turned bodies with unequal moments (witness). |
| C82 A damped step leaves at most the kinetic energy of the undamped step | partial | Mech.C82_kinetic_partial, Mech.C82_violated_kinetic | Inequalities; witness. False when the velocity reverses within the step (witness). |
| C83 A clump has the inertia of its members | partial | Mech.C83_inertia_partial, Mech.C83_violated_density, Mech.C83_violated_left_handed, Mech.C83_violated_turned | Parallel-axis algebra; witnesses. Holds for solid, non-intersecting spheres and members that are not turned relative to their principal axes, with right-handed eigenvectors. Turned non-spherical members: transpose used. Left-handed eigenvectors: converted into a quaternion that does not describe them. Intersecting spheres: the own inertia of a grid cell lacks the density. |
| C84 A newly formed clump is at rest | partial | Mech.C84_rest_partial, Mech.C84_violated | Exact post-state; witness. Velocity and angular velocity are reset; the angular momentum is not, so a clump that was spinning spins up again in the next step. |
| C85 Friction never exceeds the Coulomb limit | proved | Mech.C85_limit, Mech.C85_separated | Inequalities, induction over steps |
| C86 Sliding only dissipates energy | proved | Mech.C86_dissipation | Inequalities |
| C87 Rigid motion does not change a contact | partial | Mech.C87_rigid_partial, Mech.C87_violated | Algebra, bounds per step; witness. The magnitude never decreases, grows at most by a second-order factor per step, and is exact when the pair does not turn. It grows strictly and tilts out of the contact plane when the pair turns (witness): the turning is linearised. |
| C88 Exchanging the bodies of a contact exchanges the loads | proved | Mech.C88_history, Mech.C88_step | Symmetry of the step. Sphere-sphere contacts with the elastic-frictional law; the case of coinciding centres is undefined behaviour in both orders. |
| C89 Sphere-sphere contact geometry | proved | Mech.C89_spheres | Geometry |
| C90 Box-sphere contact geometry | partial | Mech.C90_inside_partial, Mech.C90_outside, Mech.C90_violated_periodic | Geometry (nearest point); witness. Everything holds except the contact point of a sphere whose centre is inside the box in a periodic scene: it is computed from the position instead of the periodic image (witness, arbitrarily far). |
| C91 Facet-sphere contact geometry | partial | Mech.C91_facet_partial, Mech.C91_initial, Mech.C91_violated | Geometry (nearest point in triangle, seven regions); witnesses. Holds for every facet made by utils.facet from non-collinear points with shrinkFactor zero, in every placement. A centre exactly on the boundary of the triangle divides zero by zero (shown at the vertices). |
| C92 New facet vertices take effect | partial | Mech.C92_created_partial, Mech.C92_violated | Exact post-state; witness. Creating the facet again works; setNewVerticesOfFacet leaves the cached normals, edge normals and inscribed radius of the old triangle in place (witness). |
| C93 Velocity across the period matches the motion of the cell | proved | Peri | Algebra of velocity gradient |
| C94 Assigning the size keeps the shape of the cell | proved | Peri | Matrix identities |
| C95 Periodic lists of bounds stay consistent | proved | Peri | Circular list as infinite sequence; every sort move keeps it. all executions with one initial sort and a fixed number of ids; the run is assumed to complete |
| C96 Periodic collider misses no contact | partial | Peri | Invariant on the infinite sequence. true with one initial sort and a fixed number of ids; false after repeated initial sorts (periods are lost) and when bodies are added |
| C97 A periodic collider run changes interactions as documented | proved | Peri | Characterisation of a run. for every run of a fresh collider or one reached by such an execution |
| C98 The shift of a potential interaction is current | partial | Peri | Outcome; witness. true for new interactions; a potential interaction that stays keeps its old shift |
| C99 An empty periodic scene can be stepped | partial | Peri | Outcome. true with an initial sort; an ordinary run divides by zero |
| C100 Interactions the collider no longer sees are removed | partial | Loop | Case analysis. such interactions are not touched, but never removed either: the list of pairs to erase is not read |
| C101 A contact law finds a contact fresh exactly once | partial | Loop | Induction over steps; witness. true while the step count only grows; after O.resetTime() an old contact is found fresh again |
| C102 Geometry functors get shapes in their own order | partial | Loop | Invariant of cached functors; witness. true while bodies keep the classes of their shapes; a shape replaced by one of another class is passed to the cached functor |
| C103 Explicitly created interactions are as the loop would make them | partial | Loop | Floor arithmetic; witnesses. nearest image only when the second body is not more than half a cell below; exchanged bodies get the shift of the wrong sign; without force the functor pointer is null |
| C104 What a collider finds is looked at in the same step | partial | Grid | Case analysis; witness. true for the quick-sort collider, and for the grid collider on pairs that had an interaction; a pair newly found by the grid collider in one cell is passed over in that step |
| C105 The grid collider runs again when bodies have moved | partial | Grid | Induction over steps. would hold if the integrator recorded the largest speed; it records nothing for bodies without bounding box, so the collider never runs after its first run |
| C106 Leaving the margin is noticed | proved | Stride | Inequalities on the recorded maximum |
| C107 Bodies moved by a script are noticed | partial | Stride | History of three events. The property is false: the collider uses the maximum recorded by the last integrator run, so the contacts of the next step are looked for with the old boxes (C107_violated). Proved: the collider runs after the next integrator run. |
| C108 Bounding boxes contain the shapes | partial | Stride | Geometry of boxes; witnesses. Facets and boxes: proved, and the box is the smallest. Spheres: proved without cell and in cells sheared in one plane at most, with an enlargement factor of at least 1 (or unset). False otherwise (C108_violated_shear, C108_violated_factor). |
| C109 Skipping the collider is safe for non-spherical bodies | partial | Stride | Geometry; witness. False: the displacement of the reference point is compared with the margin, a body turning in place leaves its box unnoticed (C109_violated). Proved for bodies that keep their orientation. |
| C110 Growth of particles is noticed | partial | Stride | Inequalities; witness. False: growing particles never changes the decision of the collider. Proved: a standalone sphere stays inside its stored box while growth and displacement together are within the margin. |
| C111 The collider runs again when the periodic cell has changed | partial | Stride | Infinite run as witness. False: with homoDeform=0 a cell shrinking by a tenth per step never makes the collider run (C111_violated, an infinite run). Proved: a change of at least one unit of length per unit of time is noticed. |
| C112 Splitting a scene gives processes matching lists of neighbours and of shared bodies | partial | Mpi.Split | Folds over interaction lists against a geometric specification; link to the collider theorems. Proved for every scene in which no two subdomain boxes touch exactly; the lists of shared ids always match the ones mirrored. False when boxes of two subdomains touch exactly: whether the collider reports such a pair depends on the order of equal bounds, which may differ between processes, and one worker then waits for a message the other never sends. That the collider supplies the interactions assumed is isIntrs_of_run. |
| C113 After a split every worker holds the remote bodies its own bodies may touch | partial | Mpi.Split | As C112. Proved for bodies whose mask has the bit of the subdomains, listed in the ids of their subdomain, and strictly overlapping boxes. False for bodies without bit 0 in the mask (never shared) and for bodies appended after the first split (not in the ids of any subdomain). |
| C114 After a split no contact between bodies of different workers is missed while the collider is not run | partial | Mpi.Resplit | Margins of boxes through two dispatches and two collider runs. Proved when the split is made in iteration 0 or with negative targetInterv. False for a re-split later: the boxes of remote bodies are created anew with margin minSweepDistFactor·verletDist only, and two spheres moving towards each other within their margins overlap in neither worker. |
| C115 When a scene is split a worker erases exactly the remote bodies it has no contact with | partial | Mpi.EraseRemote | Loop invariant over the body container. Proved for scenes without vacant ids in which every clump has a member that is kept. False otherwise: a vacant id gives an exception (attribute of None), and so does a remote clump visited after all of its members were erased, which erased the clump with them. |
| C116 A whole distributed run of splits, steps and merges never hangs and never mixes up messages | proved | Mpi.Whole | Composition of matched message programs, induction over phases. Under the condition that the neighbour lists of each split fit together (C112). Messages of forces to the master are the subject of C47 and are excluded from the claims about what is received; without buffering it is assumed that they are not sent or that the master listens to every worker. |
| C117 A table of times and values prescribes one function of time | partial | Drive | Invariant of the remembered position over all sequences of readings; witnesses. Full for strictly increasing times. With repeated times (jumps) readings stay on the curve but depend on history; exchanging the table may give NaN; a table with one time and wrap, or with fewer values than times, is read past its end. |
| C118 Bodies driven by translation, rotation or helix engines move exactly on the prescribed screw | proved | Drive | Rotation algebra, induction over steps. About each body listed once. C118_violated_twice shows that a body listed twice gets twice the velocity. Exact real arithmetic; no periodic cell. |
| C119 A combined kinematic engine gives the sum of the velocities of its parts | partial | Drive | Footprint of every engine as a velocity field determined by the forces alone; permutations. The sums hold in full. Adding to a combined engine changes the left operand itself, and a combined engine on the right of + raises. |
| C120 A servo controlled wall never exceeds its maximum velocity | partial | Drive | Invariant over histories of the controller. For bodies listed once; a body listed twice moves at twice the limit. |
| C121 A servo controlled wall reacts to the force along its axis | partial | Drive | Algebra; witnesses. Holds in size for axes along a coordinate. The direction of the force is lost, and for oblique axes perpendicular forces count. |
| C122 A body on a pedal moves on a circle of the given radius | partial | Drive | Trigonometry, induction over steps; witness. The circle is right, but the position on it is not the phase `fi` of the engine. Eigen's FromTwoVectors is a parameter assumed to give a unit quaternion taking z to the axis. |
| C123 Force engines push exactly the bodies listed | proved | Drive | Induction on the ids. Axis of unit length for the radial engine. The torque engine is C129. |
| C124 Drag engines slow down the spheres listed | partial | Drive | Induction on the ids. For ids within the body container; an id outside is read before it is checked. |
| C125 Gravity as an engine and gravity of the integrator are the same | partial | Drive | Equality of steps; witness. For bodies of non-zero mass and clumps that carry the mass of their members with its centre at their position; a clump whose members have masses set by hand falls differently. |
| C126 Central and axial gravity attract every body with mass times acceleration | partial | Drive | Sums over all bodies; witnesses. Axial gravity in full. A missing central body (the default) is dereferenced; a clump as central body attracts its own members and so moves itself. |
| C127 Erasing a body does not disturb the engines that list it | partial | Drive | Footprints; induction for the violation. Holds for force, radial force and drag engines and all kinematic engines; the step displacer always dereferences the erased body. |
| C128 The two modes of the step displacer give the same displacement | proved | Drive | Angle-axis algebra (arg of a complex number), induction on the ids. About bodies that exist; listed once in the direct mode (C128_violated_twice otherwise). Exact real arithmetic. |
| C129 The torque engine passes over invalid ids like the force engine | partial | Drive | Induction on the ids. For ids that are not negative (torques of ids without body are stored and ignored); negative ids write outside the storage. |
| C130 Bodies driven harmonically follow the oscillation prescribed | proved | Drive | Derivative; error bound of one step from monotonicity, induction over steps. Exact real arithmetic; no periodic cell. |
| C131 Forces from a table follow the table | proved | Drive | Composition of C117 and C123. Without wrap; repeated times are C117. |
| C132 Random packings have no overlaps | partial | Pack | Invariant of the loop over all generators and retries; floor arithmetic for images; witnesses. Proved for boxes, for periodic boxes (images of other spheres) and for cells with perpendicular edges; false in leaning cells and for a sphere and its own images. |
| C133 Random packings stay within the box | partial | Pack | Same invariant; witness. False for spheres wider than the box, which are placed and stick out. |
| C134 Random packings keep what was there and count what they made | partial | Pack | Invariant of loop and retries; witnesses. False for packings with earlier spheres: they are counted as new and deleted by retries. |
| C135 Radii of random packings follow the distribution asked for | proved | Pack | Characterisation of the drawing of sizes against an independent curve and an integral. Including the scaling of the sizes. |
| C136 Size distributions are accepted or refused, never misread | partial | Pack | Absence of the ub outcome by induction over loop and retries; witness. Proved for cumulated fractions from 0 to 1 (and increasing positive sizes if by mass); false for fractions that start at 0 but do not end at 1: they are accepted, since the check joins both conditions by and. |
| C137 Seeds make random packings repeatable | partial | Pack | Equality of runs; witness for every generator that does not repeat. Only the first call of a process uses its seed: the generator is a static variable. |
| C138 Random packings attain the porosity asked for | proved | Pack | Composition of C134 and the radius formula. No fuzz, volume not zero. |
| C139 Predicates describe the solids they are named after | partial | Pack | Structural induction on the solid against a set-valued specification; witnesses. False for parallelepipeds with left-handed edges (empty) and for cylinders of no height and hyperboloids with a skirt wider than the bases (everything). |
| C140 Boxes of solids enclose them | partial | Pack | Structural induction; Cauchy inequalities; witnesses. False for degenerate solids. |
| C141 Padding keeps whole balls inside | partial | Pack | Structural induction; nearest points; witnesses. Proved for spheres, boxes, parallelepipeds, cylinders and unions, intersections and differences of them, and above the middle of notches; false for symmetric differences, ellipsoids, hyperboloids and below notches. |
| C142 Regular packings do not overlap and stay in the solid | proved | Pack | Lattice distances by case analysis of indices. Hexagonal packings: distances of all pairs of the infinite lattice. |
| C143 Regular packings leave no place of their grid empty | partial | Pack | Floor arithmetic; witness. True for hexagonal packings; orthogonal ones leave out spheres touching the upper sides of the box. |
| C144 Repeating a periodic packing keeps the infinite packing | proved | Pack | Bijection of images by division with remainder |
| C145 Filling a volume | partial | Pack | Ceiling arithmetic on C144; witnesses. True of the cell, not of dim(); without cell, an infinite number is converted to int before the exception. |
| C146 Repeating keeps clumps | partial | Pack | Membership; witness. False: copies stand alone. |
| C147 The box of a packing is exact | proved | Pack | Folds of minima and maxima |
| C148 Moving, turning and scaling a packing | partial | Pack | Isometry of unit quaternions; witness. rotate is false for axes that are not of length one, which stretch the packing. |
| C149 Clumps of a packing | proved | Pack | Invariant over the spheres seen |
| C150 Putting a packing into a simulation and reading it back | proved | Pack | Characterisation of ids through both conversions. In the absence of bodies in the simulation. |
| C151 Periodicity of packings is carried along | partial | Pack | Invariant of operations; witnesses. cellSize and isPeriodic disagree after rotate, fromSimulation without cell, construction from a list and periodic makeClumpCloud. |
| C152 Saving and loading a packing | partial | Pack | Induction over lines; witnesses. Six digits of the text are not modelled. False for isPeriodic, for a cell left from before, and a mixture of lines with and without clump ids. |
| C153 Relative density | proved | Pack | Lebesgue measure of disjoint balls in a box. Against the Lebesgue measure of the union of balls. |
| C154 Particle size distribution | partial | Pack | Counting in bins, cumulative sums; witness. The order of the two lists is the reverse of the documented one. |
| C155 Filtering a packing by a predicate | proved | Pack | Induction over the spheres |
| C156 Random packings of clumps do not overlap | partial | Pack | Invariant of the loop with bounding spheres; wrap lemma for images; witnesses. False for spheres that were there before, images of the clump itself, and flat cells. |
| C157 Random packings of clumps stay in the box | proved | Pack | Same invariant |
| C158 Random packings of clumps consist of copies of the given clumps | partial | Pack | Same invariant; witness. Ids start with 0 at each call: a second call merges old and new clumps. |
| C159 Random packings of clumps read only what is there | partial | Pack | Absence of the ub outcome by a safety invariant; witnesses. One sphere behind the last is read if clumps come near each other; true for one clump or clumps of one sphere at the origin. |
| C160 It does not matter where given clumps lie | partial | Pack | Same invariant; impossibility for all random numbers. Clumps are moved away from the origin instead of to it; true for those centred there. |
| C161 Subdomains tile the box | partial | Decomp | Induction over the cells of the grid; a cell covers and is covered by its blocks. False if parts are given for some axes only: there are no subdomains then. |
| C162 The automatic decomposition makes as many subdomains as asked for | partial | Decomp | What holds when the loop ends; termination by powers of 0.99 and by the number of missing workers; invariant of the endless loop. True whenever it returns, and it returns for cubes; it never returns for long boxes, and throws for flat ones. |
| C163 The subdomain found contains the point | partial | Decomp | Neighbouring cells share four corners and the other four are compared; minimum over the list. True if no cell was halved and eight times the diagonal is less than ten million. |
| C164 Clouds: the worker found is that of the nearest point | partial | Decomp | Minimum over the list. True if some point of the cloud is nearer than ten million. |
| C165 Clouds: each point is the most remote of its sample | partial | Decomp | Maximum over the sample; induction over the workers; witnesses. The sample is emptied before each draw, so only the last point drawn is considered. |
| C166 MatchMaker returns the match or the fallback | proved | Dt | Induction over the list of matches. Any string that is no algorithm is an exception. |
| C167 Contact stiffness does not depend on the order of materials | partial | Dt | Field arithmetic; witness. Not a number if both Poisson ratios are zero. |
| C168 The time step is the smallest over bodies, clumps included | proved | Dt | Invariant of the loop over bodies; contacts summed by induction. For bodies with contacts; C169 covers the rest. |
| C169 The time step stays below maxDt | partial | Dt | As C168; witnesses. True if a moving body is under load; defaultDt is not limited; a negative maxDt makes the step negative. |
| C170 The time step is stable | partial | Dt | Quadratic forms: virtual work, contact energy bounded by the diagonal, a conserved form bounds the motion; growing mode as witness. Proved for safety factors up to 0.4 (0.7 if contacts are along axes, 1 if they are also frictionless); with the default of 0.8 two spheres in contact along a diagonal are unstable. |
| C171 P-wave time step | proved | Dt | Induction over the bodies. Radii, moduli and masses positive. |
| C172 Updates of the time step are memory safe | partial | Dt | Induction over updates with the sizes of vectors as invariant; witnesses. True without viscous option and density scaling; four ways to undefined behaviour else. |
| C173 Density scaling makes the target step good for each body | partial | Dt | Invariant of the loop over bodies; equation of motion. True of bodies under load; bodies made since the last update have a scaling of -1 and are accelerated opposite to the force. |
| C174 Probing a volume finds each body in it | partial | Fac | Induction over the sorted bounds; witness. True while no body has left its margin; a body that moved further since the last sort is not found. |
| C175 Spheres made by factories do not overlap | partial | Fac | Invariant of the loop; boxes apart on an axis; witnesses. True of one factory; two factories in a step do not see the spheres of each other; a negative maxAttempt makes spheres at zero unchecked. |
| C176 Factories keep their mass flow and limits | proved | Fac | Invariant of the loop, induction over steps. One step and any number of steps. |
| C177 Factories count what they make | proved | Fac | Invariant of the loop |
| C178 Factories follow the size distribution asked for | partial | Fac | Invariant over all steps: the bin picked is not overfull; witnesses. True of distributions that end in one, whatever is read behind the end of PSDcum; the read is undefined behaviour, and in percent only the first size is ever made. |
| C179 Factories keep to their region | partial | Fac | Rotation of the circle; bounds; witness. True of circles; in boxes only of centres. |
| C180 DomainLimiter erases what is out of its box | proved | Fac | Induction over the slots and the ids erased, over the theorems of C05 |
| C181 Steps of factories end | partial | Fac | Bound on the number of turns; endless run by induction. True if maxParticles is not negative or spheres have mass; without mass and with a negative maxAttempt the step never ends. |
| C182 Flipping the cell keeps the packing | partial | Meas | Inverse of the flip from its determinant; witnesses. True if the flip has determinant one and nothing on the diagonal; the automatic flip of a cell with an obtuse angle throws or puts contacts on the other side. |
| C183 getStress is the mean stress | proved | Meas | Contacts summed by induction, exchanged with the sum over bodies |
| C184 Stresses of bodies add up to the stress of the assembly | proved | Meas | Branch vector split at the contact point |
| C185 normalShearStressTensors splits the stress | partial | Meas | Sums of entries; witnesses. True in equilibrium up to the sign, which is the opposite of the documented one; out of equilibrium the shear part is wrong; without compressionPositive every compressed contact is strong. |
| C186 fabricTensor is the mean of the contact directions | partial | Meas | Sums of n⊗n; witnesses. True if no part is empty; otherwise the result is not a number. |
| C187 kineticEnergy is that of the free bodies | proved | Meas | Invariant of the loop over bodies; rotation of axes. Bodies with different principal moments have to be marked as aspherical. |
| C188 momentum and angularMomentum are those of all bodies | partial | Meas | Induction over bodies; witnesses. True without erased bodies and clumps; erased bodies are dereferenced, clumps counted twice, the spin of spheres is left out. |
| C189 growParticles grows spheres and clumps in place | partial | Meas | Invariant of the loop over bodies; witnesses. True if no body was erased; clumps fall apart if marks of clump and members differ; contacts of bodies that do not grow become stiffer. |
| C190 unbalancedForce is zero in equilibrium only | partial | Meas | Induction over bodies and contacts; witnesses. True without clumps under gravity and with contact forces; a clump held against gravity is reported out of equilibrium, before and after the integrator. |
| C191 aabbExtrema is the smallest box | proved | Meas | Invariant of the loop |
| C192 Dynamic stresses of bodies and of the assembly agree | partial | Meas | Induction over bodies; witnesses. They agree for spheres up to the sign, which the total has the wrong way; other shapes and erased bodies are undefined behaviour. |
| C193 setContactFriction sets bodies and contacts | partial | Meas | Induction over bodies and contacts; witnesses. True per material if no body was erased; fixed bodies that share a material with moving ones are changed. |
| C194 Two steps are never executed at the same time | partial | Run | Invariant: mutexes are held exactly where the code holds them; at most one active thread without pause; witness. Background steps exclude each other, steps of O.step() too, and all of them if O.pause is never used; after O.run(); O.pause() a call of O.step() runs beside the last background step. |
| C195 O.run(n) makes n steps | partial | Run | Invariant over all interleavings of one script and its threads; witnesses. Proved for scripts that wait for each run (O.run(n, True)); a request given while an earlier run is ending is forgotten. |
| C196 O.wait() raises when the run has failed | partial | Run | Same invariant with failing steps; witness. True if O.wait() finds the run still going on; a run that has failed before is taken for a success. |
| C197 Threads do not wait for each other for ever | partial | Run | Order of the mutexes: a holder waits only for lower ones; circles stay; witnesses. Proved for O.run, O.pause, O.wait and O.step from scripts and engines; O.reset() during a run with Python engines, O.load from an engine, and Omega::step() during a run can lock up. |
| C198 The runner is not used after it is freed | partial | Run | Invariant over all interleavings; witness. Proved if every started thread has locked its mutex when O.load or O.reset is given; otherwise the new thread uses the freed runner. |
| C199 O.wait() returns only between steps | partial | Run | Invariant of C194; witness. True as long as O.pause is not used; after O.pause() O.wait() returns during the last step. |
| C200 A distributed run moves bodies as an ordinary run does | partial | Dist | Refinement: each process agrees with an all-pairs world on its bodies, copies and contacts, induction over iterations; ordinary run as the case of one process; witnesses. Proved for all laws, integrators, decompositions and numbers of iterations, given the lists of a good split (C112-C115), when the time step is constant, the law depends on position, velocity, angular velocity and orientation only, permanent forces act on bodies of the master only and the master has no contacts with bodies of workers at the split. False with a time stepper (each process has its own time step), with permanent forces on bodies of workers (not sent with the scene), and with laws reading other parts of the state of remote bodies (never sent). |
| C201 The master knows the whole force on each of its bodies | partial | Dist | Same invariant; sum over processes of sums over bodies; witness. Same conditions as C200. False when bodies of the master are in contact with bodies of workers before the split, as after some ordinary iterations: the master keeps these contacts, with the positions the bodies of workers had, and their forces count twice. |
| C202 Merging and splitting again does not change the motion of bodies | partial | Dist | Invariant up to histories, induction over phases; witness. Proved for every sequence of phases when forces do not depend on the history of contacts and motions not on unsent parts of the state, and for a single merge for all laws of C200. False for laws with history, which all laws with friction are: contacts of workers are not part of a merge, and after the next split their springs start from zero. |
| C203 Results do not depend on how the collider lists contacts | proved | Dist | Refinement with one process. Clumps and periodic cells are not modelled. |
| C204 Cohesive contacts never exceed their strength | proved | Coh | Case analysis of the law for every pass. For spheres. |
| C205 Cohesive contacts below their strength are elastic | partial | Coh | Case analysis; witnesses. Proved for strengths that are not exceeded. False for negative strengths, the default, documented as purely elastic: pressed contacts vanish, and bonds break under the smallest shear. |
| C206 Contacts without a bond are frictional contacts | proved | Coh | Refinement of the cohesive law on unbonded contacts by the frictional law, induction over passes. For spheres with positive stiffnesses, non-zero Poisson ratio, no matchmaker for the friction angle, no creep, and no moments at unbonded contacts. |
| C207 The normal force of cohesive contacts is the documented function of distance | partial | Coh | Case analysis; witness. False for contacts that slide under tension: their normal force is set to zero though they are not broken. |
| C208 When the law gives up a cohesive contact | partial | Coh | Equivalence by case analysis; witness. Exact condition proved; neverErase is declared by the law and ignored. |
| C209 Sliding of cohesive contacts dissipates energy | partial | Coh | Inequality for scaled vectors; witness. False when a bond that disables friction breaks: the shear force is raised to the frictional limit. |
| C210 elasticEnergy() is the energy stored in all contacts | partial | Coh | Induction over contacts; witness for all geometries. Proved for stiffnesses other than zero. False for materials with alphaKr=0: zero divided by zero. |
| C211 setCohesionNow makes the present contacts cohesive and no later ones | partial | Coh | Induction over calls and iterations; witnesses. Proved for a request with none pending in an iteration that has contacts. Without contacts the request waits for the first ones; a second request in the step after the first is swallowed. One thread. Bonding itself (state and reference orientations, own requests of contacts served once) is proved without conditions. |
| C212 Loads of cohesive contacts balance | proved | Coh | Vector algebra. For spheres. |
| C213 Bending and twisting moments follow the relative rotation since the bond was made | partial | Coh | Quaternion algebra, trigonometry; witness. Proved for relative rotations below half a turn; a full turn gives no twist. The form without creep of the twist. Which of its two quaternions writes an orientation does not matter, except at exactly half a turn. |
| C214 Parameters of cohesive contacts are the documented ones and do not depend on the order of bodies | proved | Coh | Algebra. For spheres; strengths from the materials. |
| C215 Creep relaxes the shear force | partial | Coh | Algebra; witness. Proved up to a time step of twice the viscosity over the stiffness; beyond it the force grows. |
| C216 Isotropic compression keeps the cell large enough | proved | Ctl | Case analysis of the step, induction over runs |
| C217 keepProportions keeps proportions | proved | Ctl | Induction over runs |
| C218 The next stress is taken when the packing is at rest at the present one | partial | Ctl | Case analysis; witness. Proved in steps that are multiples of globalUpdateInt. In other steps the initial value -1 of the unbalanced force, or an old one, counts as stable. |
| C219 After the last stress the cell stays | partial | Ctl | Case analysis; runs after the end, unbounded witness. The engine does nothing more, but the velocity gradient of the last step stays, and the cell goes on growing or shrinking. |
| C220 PeriIsoCompressor rejects unusable scenes by exceptions | partial | Ctl | Case analysis; witnesses. Proved for periodic scenes with charLen given. Otherwise `throw;` without an exception ends the process, or a missing body is used; globalUpdateInt=0 divides by zero. |
| C221 PeriTriaxController respects maxStrainRate | proved | Ctl | Case analysis |
| C222 PeriTriaxController keeps the cell large enough | partial | Ctl | Inequality; witness. Proved for edges up to one unit of length; longer ones can shrink below the limit, as a length is used as a strain. |
| C223 Without damping strain goals are reached at once | partial | Ctl | Exponential and logarithm; two-step witness. Proved for steps that follow no growth; 0.8 of the previous rate is added also with growDamping=0, so a goal reached is left again. |
| C224 doneHook of PeriTriaxController runs only in the desired state | partial | Ctl | Case analysis; witnesses. Proved for stress goals in steps that are multiples of globUpdate. Elsewhere predicted values are compared; the predicted strain is not the logarithmic one. |
| C225 Walls move no faster than max_vel | partial | Ctl | Induction over steps; two-step witness. Proved for stressDamping from 0.8 to 1 (in general with the factor 5(1-stressDamping)); with the default 0.25 walls move up to 3.75 times as fast. |
| C226 Stress control converges | partial | Ctl | Quadratic form falling by 0.8 per step (Lyapunov function), limit; induction for the witness. Proved, with rate, for ratios of stiffness about 0.011 to 3.59; far stiffer samples make the error double in every step. |
| C227 Strain rates approach the goal as documented | partial | Ctl | Induction over steps; witnesses. Proved for both walls active at an unchanged size; half the goal with one wall; with moving walls the rate stays below the goal. |
| C228 Stress and strain of a box are those of its contents | proved | Ctl | Algebra; induction over the spheres |
| C229 Walls are addressed safely | partial | Ctl | Case analysis; induction. Proved for 0 to 5; others read beyond the array, and wall numbers changed after the first step are not used for forces. |
| C230 Particles grow by at most maxMultiplier | partial | Ctl | Inequality; witnesses. Proved for compressive goals and mean stress; otherwise the growth is unbounded, or not a number. |
| C231 Straining starts smoothly | partial | Uniax | Invariant over runs; witnesses. Proved if currentStrainRate is set to 0 and the engine starts at time 0. In a new engine currentStrainRate is not a number, compares false, and the full rate acts at once; the ramp is in the time of the simulation, so an engine started late begins with a multiple of the rate. |
| C232 Straining stops at stopStrain | partial | Uniax | Case analysis of the step after any run; witnesses, runs after the end. Proved for positive stopStrain. For a negative one the absolute strain is compared with the negative number, so that the first step compresses to stopStrain at once; the ends keep their velocities in the idle iterations. |
| C233 Straining is reversed at limitStrain | partial | Uniax | Simulation of runs with and without the limit. Only the reported rate changes its sign; every run has the same motion as without limitStrain. |
| C234 A specimen is strained at strainRate | partial | Uniax | Induction over runs; witnesses. Proved for documented asymmetries and resting unmoved ends. Other asymmetries strain at twice the rate; an unmoved end keeps its initial velocity. |
| C235 setSpeeds gives a homogeneous field | proved | Uniax | Field equations |
| C236 UniaxialStrainer rejects unusable settings | partial | Uniax | Case analysis; witnesses. Proved for ids of existing bodies. Without ids memory beyond a list is read; after an exception the next call strains the specimen. |
| C237 avgStress is the stress in the specimen | proved | Uniax | Case analysis |
| C238 A smoothed value is an average | proved | Avg | Induction over scripts; weighted sums |
| C239 All points within reach are used | partial | Avg | Geometry of cells, induction over scripts; witnesses. Proved for points in the same row of cells and for points nearer by the height of a cell. The filter of cells adds the half height of a cell to the wrong coordinate, so that points in reach in other rows are left out; points kept in border cells although outside of the grid are not found from where they are. |
| C240 Settings of a GaussAverage take effect | partial | Avg | Simulation of scripts; witnesses. Proved for avg and relThreshold. stDev leaves the bell curve as it was; the area of avgPerUnitArea is the one of the threshold 3. |
| C241 Points of a GaussAverage are in their cells | partial | Avg | Invariant over scripts, partition of the points. Proved for cells of the grid. Other cells are read outside of the vectors. |
| C242 Clipping polygons | proved | Avg | Induction over vertices, half planes |
| C243 Smoothing is independent of the unit of length | partial | Avg | Simulation of scripts in other units. Proved for avg. avgPerUnitArea scales with the third power, the weights being densities of a one-dimensional distribution. |
| C244 integral integrates piecewise linear functions | proved | Interp | Induction over points, fundamental theorem of calculus |
| C245 xFractionalFromIntegral inverts the integral | partial | Interp | Induction over points, quadratic equations; witnesses. Proved for positive values and integrals below the total. An assertion fails at a zero, the total is refused, values before the range are given for negative integrals, slopes of integer coordinates are rounded in Python 2. |
| C246 xFromIntegral inverts the integral of periodic functions | partial | Interp | Integrals of periodic functions; witness. Proved for positive functions on points from zero on. Whole periods are refused for functions that begin with zero. |
| C247 sanitizeInterpolation keeps the function | proved | Interp | Induction over points |
| C248 plot data are a table | proved | Plot | Induction over calls. addData without images, or with at least one row before; images without rows are in C249 and C250. |
| C249 images belong to rows | partial | Plot | Induction over steps; witnesses. Proved for steps which add a row and then images. Images given before the row are one row off, and an assertion depends on the order of a dictionary. |
| C250 reset removes data, plots and labels | partial | Plot | Calculation; witnesses. Labels and images stay; images left add rows without numbers to the next data. |
| C251 reverseData reverses rows | partial | Plot | Calculation; witness. Images are not reversed. |
| C252 vectors are recorded by component | partial | Plot | Induction over names; witness. Proved when names of components are not given otherwise; a number given under such a name is lost. |
| C253 saveDataTxt writes the table | partial | Plot | Induction over rows; witness. Sets of names, and tables without columns, raise exceptions after the file was opened. |
| C254 prescribed paths are followed | partial | P3d | Invariant over steps; witnesses. Proved for points at whole numbers of steps while no rate is limited. Default paths with a prescribed strain read beyond their end; points between steps make strains overshoot. |
| C255 strain rates are limited | partial | P3d | Calculation; witness. The limit is proved in general; when it acts, strain records more than was applied. |
| C256 the cell gets the strain prescribed | partial | P3d | Uniqueness of roots of matrices, induction over steps. For cells which remain symmetric and positive definite; the polar decomposition is given by its properties. |
| C257 the controller stops at the end | partial | P3d | Invariant over steps. With a hook which lets the engine go on, the second step after the end reads beyond the end of paths. |
| C258 stresses are driven towards ideal ones | partial | P3d | Calculation, induction over steps. The sign of the correction is proved, not the convergence of stresses. With goals of zero the cell is never deformed, whatever its stress; the first estimate counts stresses twice. |
| C259 viscoelastic normal forces do not attract | proved | Visc | Calculation |
| C260 friction limits the shear force | partial | Visc | Calculation; witness. Proved for the shear force which is kept, and for the whole one of sliding contacts. Contacts which do not slide get the viscous force in addition, without limit. |
| C261 parameters of a contact from those of its materials | partial | Visc | Case analysis; witness. Symmetry is proved in general; parameters are combined in series, which is half of what is documented. |
| C262 contact time and restitution are those given | partial | Visc | Exact solution of the equation of motion. Proved for the spring and the dashpot; forces are cut off at zero before the end, so that bodies part earlier and faster, and bodies without mass change the contact time. |
| C263 rolling resistance | partial | Visc | Calculation. The moment opposes rotation but is proportional to its rate, as a result of normalized() is not used. |
| C264 bodies which move together | partial | Visc | Calculation; witness. For contacts without rolling resistance; the velocity of the period has the wrong sign in cells which deform. |
| C265 contacts which are not active | partial | Visc | Case analysis. No loads, but the viscoelastic law gives up such contacts. |
| C266 Luding's law is stable for all histories | partial | Visc | Invariant over histories. For two spheres. Between a sphere and another shape the limit is zero and the first force is not a number. |
| C267 the branches of Luding's law | partial | Visc | Case analysis over invariant; witnesses. Bounds are proved for all histories; beyond the limit the same overlap gives two forces, and adhesion can exceed its limit while overlap does not decrease. |
| C268 plastic overlap of Luding's law | partial | Visc | Bounds over invariant. The plastic overlap is that of the law up to an error proportional to the step; loading in one step leaves none. |
| C269 spheres exported as text are read back | partial | Text | Induction over bodies and lines. Six digits are kept. Spheres without material are not written if the format has one. |
| C270 attributes exported as text are read back | partial | Text | Induction over bodies, attributes and lines; witnesses. For numbers and vectors which all spheres have, and comments of one line. Matrices are an exception, a missing attribute joins two spheres, and comments of several lines hide the # of the header. |
| C271 lines starting with # are skipped | partial | Text | Induction over lines; witness. For files without #format, which overrides the format given. An empty line is an exception. |
| C272 clumps exported as text are read back | partial | Text | Invariant over lines; witnesses. For ids below a million; larger ones can not be read. Clumps of which nothing is written are counted. |
| C273 files for LIGGGHTS | partial | Text | Invariant over bodies; witnesses. All but the upper end of the box on the third axis, and numbers from a million on, which are not distinct. |
| C274 wires follow their curve, unload elastically and rupture | partial | Wire | Induction over histories; witness. All histories, but for the admissible displacement itself, at which there is neither force nor rupture. |
| C275 wires only pull | partial | Wire | Invariant over histories; witness. limitFactor for curves which do not stiffen. Wires whose curve stiffens may pull when shorter than at first. |
| C276 rupture is counted and final | proved | Wire | Induction over steps |
| C277 wires from stress-strain curves | partial | Wire | Induction over curves; witnesses. Double twists of type 0 need reduced strains beyond the first; curves of double twists may start at the origin, isDoubleTwist set later is not checked, and the section does not follow the diameter. |
| C278 order of the bodies of wires | partial | Wire | Case analysis; witness. For one material or different diameters. |
| C279 distorted wires | partial | Wire | Inequalities for all generators; witness. Range of the shift. The generator is seeded once per process, later seeds are ignored. |
| C280 LawTester follows its path | partial | Tester | Induction over steps with an invariant; witness. C280_follows_partial is the partial result: for not more steps than points; with more of them the path is read past its end. |
| C281 LawTester moves the contact as prescribed | partial | Tester | Algebra of vectors for all axes; witnesses. For shear by rotation. Shear by displacement brings the bodies closer; idWeight is not ignored with rotations. |
| C282 LawTester rotates the bodies as prescribed | partial | Tester | Algebra of vectors; negation for all time steps but 1. For time steps of 1: the increment of rotation is not divided by the time step. |
| C283 local axes of a new contact | proved | Tester | Algebra of vectors |
| C284 hooks of LawTester | partial | Tester | Induction over times; witness. Each hook is run once, but one step before its point is reached. |
| C285 forces of bubbles obey the law | partial | Bubble | Bounds of Newton steps by convexity, induction over iterations and steps; negations for all contacts. Every force returned satisfies the law with a small excess; it is the small solution when Dmax was never passed. After deep penetration the other solution is found, and for one penetration a new contact gives what is not a number. |
| C286 curve of forces of bubbles | partial | Bubble | Derivatives; convexity; negation. For pctMaxForce up to 0.54 (1.47 beyond Dmax); with more the force falls with the penetration. |
| C287 parameters of bubbles | partial | Bubble | Equalities of runs; negations for all contacts. For fresh contacts only. |
| C288 loads of bubbles | proved | Bubble | Algebra of vectors; induction over iterations |
| C289 mortar is elastic until it breaks | proved | Mortar | Induction over steps, equivalence with an elastic specification |
| C290 stresses mortar bears | proved | Mortar | Algebra |
| C291 parameters of mortar | partial | Mortar | Algebra; negation. A body without radius gives no stiffness. |
| C292 mortar contacts made later do not stick | partial | Mortar | Negation for all materials, with a history. Later contacts are as cohesive as earlier ones; only an error is logged. |
| C293 damage of concrete | partial | Cpm | Induction over steps; negation. With linear softening damage exceeds one, and contacts are deleted whatever the threshold; contacts which are never damaged report more strength than they had. |
| C294 normal stress of concrete | partial | Cpm | Algebra; negation. With plasticity in compression the stress of a contact held still fades in each step. |
| C295 shear stress of concrete | partial | Cpm | Algebra; negation for all slips. The plastic shear strain grows by part of the slip. |
| C296 setting damage and residual strength | partial | Cpm | Bounds of bisection, convexity of the exponential; negation. Exponential softening: total damage gives an error, residual strengths are accepted with the wrong value. |
| C297 what the state updater reports | partial | Cpm | Induction over contacts; negation. The trace is 27 times the damage of existing contacts; the largest damage stays NaN; contacts without cohesion count as broken. |
| C298 parameters of concrete contacts | partial | Cpm | Case analysis; negation. The damage law is the one of the first body; the modulus of a MatchMaker is ignored for a shared material. |
| C299 loads of concrete balance | partial | Cpm | Algebra; negation. In periodic scenes moments do not balance if spheres overlapped when bonded. |
| C300 normal force of Hertz | partial | Hertz | Derivatives, case analysis; negation. The energy is NaN as soon as a contact which does not touch is kept. |
| C301 friction of Hertz and Mindlin | partial | Hertz | Case analysis; negation. Shear damping is added beyond the limit; with adhesion the sign of the normal force is lost. |
| C302 contacts of Hertz and Mindlin which open | partial | Hertz | Case analysis; negation for all histories of two steps. Kept contacts remember the elastic shear force. |
| C303 parameters of Hertz and Mindlin | partial | Hertz | Algebra; negation. A plane as second body; the ratio is not the documented one; a shear coefficient of restitution alone is undefined, and ignored otherwise. |
| C304 dissipation in contacts of Hertz and Mindlin | partial | Hertz | Induction over steps; negation. Friction is reported to give energy back. |
| C305 loads of contacts of Hertz | partial | Hertz | Algebra; negation. No limit of bending without normal force. |
| C306 shear force and displacement | partial | Hertz | Induction over steps; negation for all cycles. Not when the overlap changes; the law with partial slip has no shear force at all. |
| C307 dimensions of spheres | proved | Handle | Invariant of the loop, induction over the list. Sums are stated for lists of identifiers. |
| C308 dimensions of facets | partial | Handle | Invariant of the loop, induction over the list; negation. For lists of identifiers; another body in the list is an error, even if the mask leaves it out. |
| C309 moving spheres | partial | Handle | Induction over the list, algebra; negation. For lists naming no body twice. The centre counts spheres the mask leaves out, a body named twice is changed twice, orientations of spheres are not turned. |
| C310 copying spheres | partial | Handle | Induction over the list; negation. For lists of identifiers. Velocities, single blocked degrees of freedom and masses set by hand are lost. |
| C311 parameters of damped frictional contacts | partial | FVisc | Case analysis over the functors, algebra; negation. Undefined when the viscous body comes before the plain one (the exchange asked for by the dispatcher is ignored) and for two fixed bodies without mass. |
| C312 normal force of damped frictional contacts | partial | FVisc | Algebra, refinement to the law without damping; negation. Contacts pull when bodies part fast, and kept contacts of bodies that do not touch still damp. |
| C313 friction of damped frictional contacts | proved | FVisc | Algebra, induction over calls |
| C314 balance and energy of damped frictional contacts | partial | FVisc | Algebra, induction over contacts; negation. The energy reported counts the damping force as if it were elastic. |
| C315 parameters of inelastic cohesive contacts | proved | Inel | Algebra |
| C316 failure of inelastic cohesive contacts | proved | Inel | Case analysis, induction over steps |
| C317 normal force of inelastic cohesive contacts | partial | Inel | Induction over steps, algebra; negation. After yielding in tension the force jumps to the strength in compression when the contact passes its new equilibrium. |
| C318 shear of inelastic cohesive contacts | partial | Inel | Case analysis, invariant by induction over steps; negation. Twist and bending break cohesion but leave the adhesion in shear; breaking under a large normal force raises the shear force. |
| C319 moments of inelastic cohesive contacts | partial | Inel | Invariant by induction over steps; negation. When shear or twist breaks cohesion the bending moment stays and is applied in every later step. |
| C320 balance and energy of inelastic cohesive contacts | partial | Inel | Algebra; negation. The energy divides by a stiffness that is never set. |
| C321 collisions of a fluid on a lattice | proved | Lbm | Algebra |
| C322 borders of a fluid on a lattice | partial | Lbm | Case analysis over sides, algebra; negation. At corners type -1 leaves a node without density, whose collision is undefined, and the pressure condition ends the program. |
| C323 fluid at walls of bodies | partial | Lbm | Algebra; negation. At nodes with five walls or more the velocity of the wall is dropped after the force was counted. |
| C324 sides of nodes of a lattice | partial | Lbm | Case analysis over positions; negation. On a grid one node wide a node lies on two sides and gets the condition of one. |
| C325 new obstacle and fluid nodes | proved | Lbm | Induction over nodes. With one thread; with several the counters are incremented without synchronisation. |
| C326 stiffnesses of contacts of elastic materials | partial | Elast | Algebra; negation. Without radii a contact with shear gets the shear stiffness as its normal one and none in shear. |

Every property in `properties.jsonl` could be expressed; none is `not_applicable`.

## 5. Disagreements between the code and the properties

Each is a theorem with `_violated` in its name unless marked (not a theorem).

* Containers: `insertAtId` accepts a body already stored (C01); the iterator of `O.bodies` reads the slot behind the
  last (C02, C77); `insertAtId` and `erase` index outside the storage (C03); clumps of clumps (C04); `eraseNonReal`
  passes the end of the shortened vector (C08); stale references after deletion (C09, C57, C58).
* Forces: `setPermF` accesses `_maxId[-1]` and shrinks arrays (C13); permanent forces added at every serial sync (C14);
  lost contributions under concurrent growth (C15); unchecked or wrong unsynchronised reads (C61, C62).
* Steps and engines: assignment of `O.engines` inside a step (C17), engines run twice after an exception (C18),
  `stopAtTime` compares with == (C19), `nDo`/`initRun` corner cases (C52).
* Dispatch: cached copies taken for registrations, ambiguity (C21), stale functors (C22, C102), top-level class (C65).
* Colliders: null dereference before the test (C23), stale boxes of deleted bodies (C27), parallel sort out of range
  (C28), comparator not irreflexive (C29), shrinking containers (C67), masks (C68), touching boxes (C69); periodic:
  shifts not opposite (C30), lost periods after re-initialisation and added bodies (C96), stale shifts (C98), empty scene
  (C99); grid: origin taken from one coordinate (C33), pairs passed over (C104), never runs again (C105); quick sort:
  pair filter never asked (C34).
* Skipping the collider: sheared cells (C32), script moves (C107), boxes too small (C108), rotation (C109), growth (C110),
  cell changes (C111).  `updatingDispFactor` is documented but unused (not a theorem).
* Interaction loop: unseen interactions are never removed (C100), fresh contacts after `O.resetTime` (C101), explicit
  creation (C103).
* Mechanics: blocked members of clumps (C38), clump mass and inertia (C41, C83), spinning clumps (C84), wall moments (C37),
  aspherical rotation (C80), rotational energy (C81), damping with reversal (C82), shear force turning (C87), box and facet
  contacts (C90, C91, C92).  A changed `shrinkFactor` of a facet persists; the header comment of `setHSize` says that
  `trsf` is reset, it is not (not theorems).
* Others: tag keys containing `=` (C50), material appended twice (C71), array accumulator over-read (C53), double
  registration of energies (C54), `replaceByClumps` (C55).
* Driving engines: tables with jumps or exchanged tables (C117), bodies listed twice (C118, C120, C128), `+` of combined engines (C119),
  sign and oblique axes of the servo (C121), phase of the pedal (C122), ids outside the container (C124, C129), gravity on clumps
  (C125), missing or clumped central body (C126), erased bodies (C127).
* Domain decomposition: parts for some axes only (C161), endless loop for long boxes and exception for flat ones (C162), halved cells and large boxes (C163, C164),
  samples of one point (C165).
* Time steps: Poisson ratios of zero (C167), defaultDt and negative limits (C169), the default safety factor is unstable for two spheres in contact along a diagonal (C170), viscous option switched on later, free bodies with the viscous option or density scaling, interval of zero (C172), bodies made since the last update with density scaling (C173),
* Factories: bodies out of their margin are not found (C174), two factories in a step and negative maxAttempt (C175), normalisation of PSDcum reads behind its end and leaves its first element (C178), boxes hold centres only (C179), massless spheres (C181).
* Measures: automatic flips of obtuse cells (C182), sign and out of equilibrium shear part of `normalShearStressTensors` (C185), empty parts of `fabricTensor` (C186), erased bodies, clumps and spin in `momentum` and `angularMomentum` (C188), erased bodies, mixed clumps and idle contacts in `growParticles` (C189), clumps under gravity in `unbalancedForce` (C190), sign of `getTotalDynamicStress` (C192), shared materials in `setContactFriction` (C193).
* Background runs: `O.step()` after `O.pause()` runs beside the last background step (`C194_violated`); a request to run given while an earlier run ends is forgotten (`C195_violated_late`, `C195_violated_paused`); a run that fails before `O.wait()` looks is taken for a success (`C196_violated`); `O.reset()` keeps the interpreter lock while it waits for the background thread, `O.load` from an engine waits for itself, `Omega::step()` locks two mutexes in the opposite order (`C197_violated_reset`, `C197_violated_inside`, `C197_violated_single`); `O.reset()` right after `O.run()` frees the runner under the new thread (`C198_violated`); `O.wait()` after `O.pause()` returns during a step (`C199_violated`).
* Distributed runs against ordinary runs: each process has its own time stepper (`C200_violated_stepper`); permanent forces on bodies of workers are not sent (`C200_violated_perm`); laws that read more than position, velocity, angular velocity and orientation see old values in copies (`C200_violated_state`); contacts of the master with bodies of workers that exist at a split are kept and count twice (`C201_violated`); contact histories of workers are lost at each merge (`C202_violated_history`).
* Cohesive contacts: default strengths of -1 are not elastic (`C205_violated_normal`, `C205_violated_shear`); tension is lost in sliding (`C207_violated`); `neverErase` is ignored (`C208_violated`); breaking can raise the shear force (`C209_violated`); energies divide zero by zero (`C210_violated`); requests for cohesion wait or get lost (`C211_violated_late`, `C211_violated_again`); full turns do not count (`C213_violated`); creep diverges for long time steps (`C215_violated`).
* Controllers: stability taken from an initial or old value (C218), a cell that drifts on after the last stress (C219), scenes that end the process (C220), a length used as a strain (C222), overshoot without damping (C223), hooks run on predictions (C224), walls faster than `max_vel` (C225), divergence against stiff samples (C226), half the strain rate with one wall (C227), reads beyond an array and stale wall numbers (C229), unbounded growth (C230).
* Uniaxial strainer: full rate at once, or a multiple of it after a late start (C231), jump to a negative `stopStrain` and motion after the end (C232), `limitStrain` without effect (C233), twice the rate for undocumented asymmetries, moving ends kept moving (C234), reads beyond empty lists and straining after a failed start (C236).
* Smoothing: points in reach left out because an offset goes to the wrong coordinate, points outside the grid not found (C239), `stDev` without effect on the weights, area of another threshold (C240), unchecked cells (C241), values per unit of area with the dimension of a length to the minus third (C243).
* Piecewise linear functions: assertions at zeros, totals refused, places out of range, rounded slopes (C245), whole periods refused (C246).
* Data for plots: images one row off (C249), labels and images kept by reset (C250), images not reversed (C251), numbers lost under names of components (C252), sets of names (C253).
* Peri3dController: default paths read beyond their end and points between steps overshoot (C254), strain recorded beyond the limit (C255), steps after the end undefined (C257), goals of zero stress without effect and stresses counted twice (C258).
* Viscoelastic contacts: viscous shear beyond friction (C260), half of the documented stiffness (C261), restitution changed by the cut-off and by walls (C262), rolling resistance proportional to the rate (C263), wrong sign of the velocity of the period (C264), inactive contacts given up (C265); Luding's law: not a number for walls (C266), two forces for one overlap and too much adhesion (C267), no plastic overlap after one step (C268).
* Text files: spheres without material left out, six digits (C269), matrices, missing attributes and long comments (C270), `#format` overrides the argument (C271), ids of clumps from a million on and the number of clumps (C272), upper end of the LIGGGHTS box and numbers of atoms (C273).
* Wires: the admissible displacement itself (C274), curves which stiffen (C275), double twists with small strains, at the origin, set later; sections (C277), equal diameters (C278), later seeds (C279).
* LawTester: more steps than points (C280), shear by displacement and `idWeight` with rotations (C281), rotations not divided by the time step (C282), hooks one step early (C284).
* Bubbles: forces after deep penetration and at one depth (C285), great `pctMaxForce` (C286), tension of materials, changes, saved simulations and `Dmax` (C287).
* Mortar: bodies without radius (C291), contacts made after the threshold (C292).
* Concrete: linear softening and contacts never damaged (C293), plasticity in compression (C294), plastic shear strain (C295), setting damage and strength (C296), trace of the damage tensor, `maxOmega` and broken contacts (C297), damage law of a contact (C298), moments in periodic scenes (C299).
* Hertz and Mindlin: energy with contacts kept apart (C300), damping and adhesion beyond friction (C301), kept contacts (C302), viscous parameters and planes (C303), dissipation by friction (C304), bending without normal force (C305), cycles and partial slip (C306).
* Handling of bodies: facets mixed with other bodies (C308), the centre of moved spheres, bodies named twice, orientations (C309), what copies lose (C310).
* Damped frictional contacts: a viscous body before a plain one, fixed bodies without mass (C311), contacts that pull, contacts of bodies apart (C312), damping counted as elastic energy (C314).
* Inelastic cohesive contacts: jump of the force after yielding (C317), adhesion left after twist and raised shear (C318), bending moments left (C319), energy never defined (C320).
* Fluid on a lattice: documented types at corners (C322), force on bodies at narrow gaps (C323), grids one node wide (C324).  Elastic materials: shear stiffness assigned to the normal one (C326).
* Packings: `dim()` of filled volumes and missing cells (C145), clumps of repeated packings (C146), axes not of length one (C148), `isPeriodic` against `cellSize` (C151), saved periodicity and mixed columns (C152), order of psd() (C154), clump clouds: earlier spheres, own images and flat cells (C156), ids of a second call (C158), a read behind the end (C159), recentring with the wrong sign (C160); leaning cells and own images (C132), spheres wider than the box (C133), earlier spheres counted or deleted (C134),
  distributions not ending at 1 (C136), seeds ignored after the first call (C137).  The volume of a distribution by number is computed
  with the integer quotient `4/3`, that is 1 (SpherePack.cpp 140; in the model, no theorem).  Left-handed or degenerate solids (C139, C140), pads of symmetric
  differences, ellipsoids, hyperboloids and notches (C141), last row of orthogonal grids (C143).
* Processes: short messages (C42), unbounded bodies (C43), erased first member (C44), stale forces and hanging workers after
  re-splits (C47), angular momentum and flags lost at a merge (C48), idle workers in the tree (C49), neighbours not mutual
  when boxes just touch (C112), masks and bodies appended later (C113), missed contacts after a re-split (C114),
  exceptions while erasing (C115).
  Not theorems: `&vals.front()` of an empty vector
  (`core/Subdomain.hpp` 126, 150); lists of more than about 800 000 shared ids do not fit the receive buffer (mpy.py 495); a
  second `mpirun` after the pause of the collision checker goes on with stale lists of shared bodies.

## 6. Seeded bugs

`seeded/LOG.jsonl` has one line per attempt: a realistic bug is put into a model in a scratch copy, the project is rebuilt and
the theorems that fail are recorded.  Where a bug was not noticed although the English claim became false, the theorem was
tightened (field `tightened`).
