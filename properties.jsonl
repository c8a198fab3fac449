{"id": "C01", "title": "Body ids are slot numbers and are never silently reassigned", "statement": "After any sequence of O.bodies.append / insertAtId / erase / clear, append returns the previous len(O.bodies) as the new id, every live body reports an id equal to the slot where O.bodies[id] returns it, and no operation changes the body found at an id other than the ones it names.", "quantifier": "for every finite history of container operations on every set of body objects, including re-inserting a body object that is still held by the caller", "why_tests_cant": "the claim quantifies over unbounded operation histories and over aliasing between python-held body objects and container slots; a test fixes one history", "anchors": ["core/BodyContainer.cpp: insert, insertAtId, erase, clear", "py/wrapper/yadeWrapper.cpp: pyBodyContainer::append, insertAtId"]}
{"id": "C02", "title": "Iterating over O.bodies visits every existing body exactly once, in id order, without touching memory past the end", "statement": "A full iteration over the body container (begin, ++, end) yields exactly the slots holding a body, in increasing id order, terminates, and never dereferences an element at or beyond the end.", "quantifier": "for every container content, i.e. every pattern of erased slots including none, leading and trailing ones", "why_tests_cant": "reading one element past the end is undefined behaviour that normally goes unnoticed in a run; all erase patterns cannot be enumerated", "anchors": ["core/BodyContainer.hpp: smart_iterator::operator++, begin, end"]}
{"id": "C03", "title": "Out-of-range body ids are rejected instead of read", "statement": "Every id taking entry point of the body container (O.bodies[id], exists, insertAtId, erase) answers an id outside [0,len) with an error result and never indexes outside the storage; O.bodies[-k] means the k-th body from the end.", "quantifier": "for every integer id (negative, zero, huge) and every container size", "why_tests_cant": "an out-of-bounds vector access is undefined, so a test passing proves nothing; the id range is unbounded", "anchors": ["core/BodyContainer.cpp: insertAtId, erase", "core/BodyContainer.hpp: exists", "py/wrapper/yadeWrapper.cpp: pyBodyContainer::pyGetitem"]}
{"id": "C04", "title": "Clump membership is consistent in both directions", "statement": "At all times a body says it belongs to clump c exactly when clump c lists it as a member, every clump is its own owner, and no clump is a member of another clump.", "quantifier": "for every history of appending bodies, clumping, addToClump, releaseFromClump and erase calls", "why_tests_cant": "the invariant must survive every interleaving of clump operations, an unbounded set of histories; the failing histories combine three or more calls", "anchors": ["core/Clump.cpp: add, del", "core/BodyContainer.cpp: erase", "py/wrapper/yadeWrapper.cpp: pyBodyContainer::clump, addToClump, releaseFromClump"]}
{"id": "C05", "title": "Erasing a body erases exactly what was asked", "statement": "O.bodies.erase(id) on a free body removes that body only; on a clump member it removes the member from its clump (and removes the clump when it was the last member); on a clump it frees the members, or erases all of them when eraseClumpMembers is set. Every other body is untouched.", "quantifier": "for every consistent scene and every id", "why_tests_cant": "recursion between members and clump depends on arbitrary clump sizes and member order", "anchors": ["core/BodyContainer.cpp: erase", "core/Clump.cpp: del"]}
{"id": "C06", "title": "The interaction container is a map keyed by unordered body pairs", "statement": "As long as no body is deleted, any sequence of insert, erase, requestErase, clear, has, find and iteration behaves as a finite map from unordered pairs of distinct existing bodies to interactions: insert of a present pair is refused without effect, erase of a present pair removes exactly it, find(a,b)=find(b,a), and iteration lists every stored pair exactly once.", "quantifier": "for every operation history and every pair of ids", "why_tests_cant": "swap-with-last erasure and the three mutually referencing indices make the invariant history dependent; histories are unbounded", "anchors": ["core/InteractionContainer.cpp: insert, erase, find, requestErase, clear", "core/InteractionContainer.hpp: found"]}
{"id": "C07", "title": "Conditional removal of potential interactions is exact and independent of the thread count", "statement": "A collider's bulk removal deletes exactly those interactions that are not real and that the collider says should be erased, keeps all others, reports the number removed, and leaves the same set of interactions whether it runs on one thread or any number of threads.", "quantifier": "for every container content, every erase predicate, every thread count and every contiguous work split", "why_tests_cant": "the parallel variant collects positions first and erases later, so correctness depends on the order of deferred swap-with-last erasures over all splits", "anchors": ["core/InteractionContainer.hpp: conditionalyEraseNonReal", "core/InteractionContainer.cpp: erase"]}
{"id": "C08", "title": "eraseNonReal removes all and only the non-real interactions, safely", "statement": "O.interactions.eraseNonReal() leaves exactly the real interactions and never uses an invalidated iterator.", "quantifier": "for every container content and every pattern of real / potential interactions", "why_tests_cant": "erasing while iterating is undefined behaviour whose visible effect depends on the pattern of non-real entries", "anchors": ["core/InteractionContainer.cpp: eraseNonReal, erase"]}
{"id": "C09", "title": "A pair that was erased can be inserted again", "statement": "Once an interaction has been removed from the container, inserting an interaction for the same two ids (whose bodies exist) succeeds and makes it visible, even if one of the bodies was deleted and its slot filled again in between.", "quantifier": "for every history mixing body erasure, insertAtId, interaction erase and insert", "why_tests_cant": "needs a specific four-step history across two containers; the space of histories is unbounded", "anchors": ["core/InteractionContainer.cpp: insert, erase", "core/BodyContainer.cpp: erase, insertAtId"]}
{"id": "C10", "title": "Saving and loading keeps every interaction whose bodies still exist", "statement": "Saving a scene and loading it back restores exactly the interactions that carried geometry or physics and whose two bodies exist; interactions of deleted bodies are dropped without affecting any other; saving twice stores each interaction once.", "quantifier": "for every container content, every set of deleted bodies, sorted or unsorted serialization", "why_tests_cant": "depends on the position of the first orphaned interaction in an arbitrary list", "anchors": ["core/InteractionContainer.cpp: preSave, postSave, preLoad, postLoad__calledFromScene"]}
{"id": "C100", "title": "Interactions the collider no longer sees are removed", "statement": "When a collider that leaves removal to the interaction loop has run in this step, every potential interaction it did not see is removed, as documented for iterLastSeen.", "quantifier": "for every scene and every step", "why_tests_cant": "the leftover interactions have no visible effect until the container grows", "anchors": ["core/Interaction.hpp: iterLastSeen", "pkg/common/InteractionLoop.cpp: action, eraseAfterLoop"]}
{"id": "C101", "title": "A contact law finds a contact fresh exactly once", "statement": "isFresh() is true for the law exactly in the step in which the contact becomes real, and false in all later steps in which it stays real.", "quantifier": "for every history of an interaction: passes of the loop with any functor outcomes, erasures, saving and loading, and resetting the step count", "why_tests_cant": "laws reset the shear force of fresh contacts; the error needs a particular step number", "anchors": ["pkg/common/InteractionLoop.cpp: InteractionLoop::action", "core/Interaction.cpp: reset, swapOrder, isFresh"]}
{"id": "C102", "title": "Geometry functors get shapes in their own order", "statement": "Every call of a geometry functor by the interaction loop gets shapes of the classes the functor takes, in its order, whatever order the bodies are stored in; exchanging the bodies is never attempted on a contact that already has geometry or physics.", "quantifier": "for every history of an interaction, including saving and loading and bodies coming and going", "why_tests_cant": "a functor called with a wrong shape casts it statically: undefined behaviour", "anchors": ["pkg/common/InteractionLoop.cpp: InteractionLoop::action", "core/Interaction.cpp: reset, swapOrder, isFresh", "pkg/common/Dispatching.cpp: IGeomDispatcher"]}
{"id": "C103", "title": "Explicitly created interactions are as the loop would make them", "statement": "utils.createInteraction gives a real interaction for a pair that had none, with the nearest periodic image of the second body and the same geometry the interaction loop computes in the next step.", "quantifier": "for all positions, cell sizes, shapes and functors", "why_tests_cant": "wrong images appear only for some relative positions in periodic cells", "anchors": ["pkg/common/Dispatching.cpp: IGeomDispatcher::explicitAction, IPhysDispatcher::explicitAction", "pkg/dem/Shop_02.cpp: createExplicitInteraction"]}
{"id": "C104", "title": "What a collider finds is looked at in the same step", "statement": "When a collider that marks interactions as seen has found a pair in a step, the interaction loop of the same step computes the geometry of the pair instead of passing over it.", "quantifier": "for every scene and step", "why_tests_cant": "a contact starts one step late: no visible error", "anchors": ["pkg/dem/FlatGridCollider.cpp: updateCollisions", "pkg/common/SpatialQuickSortCollider.cpp: action", "pkg/common/InteractionLoop.cpp: action"]}
{"id": "C105", "title": "The grid collider runs again when bodies have moved", "statement": "While the grid collider decides not to run, no body has moved by more than its Verlet distance since its last run.", "quantifier": "for every motion of the bodies", "why_tests_cant": "the decision depends on what the integrator records over many steps", "anchors": ["pkg/dem/FlatGridCollider.cpp: isActivated", "pkg/dem/NewtonIntegrator.cpp: saveMaximaDisplacement, action"]}
{"id": "C106", "title": "Leaving the margin is noticed", "statement": "After every run of the integrator, if a body it moves is displaced, on some axis, by at least the enlargement of its bounding box since the box was made, the collider decides to run at its next turn.", "quantifier": "every scene (periodic or not), set of bodies including clumps, forces, velocities, time step, damping, order of the loop over bodies, and state of the collider", "why_tests_cant": "the displacement that just leaves the margin depends on the whole history of forces; tests try a few trajectories", "anchors": ["pkg/common/InsertionSortCollider.cpp: InsertionSortCollider::isActivated", "pkg/common/InsertionSortCollider.cpp: InsertionSortCollider::action", "pkg/common/Dispatching.cpp: BoundDispatcher::processBody", "pkg/dem/NewtonIntegrator.cpp: NewtonIntegrator::saveMaximaDisplacement"]}
{"id": "C107", "title": "Bodies moved by a script are noticed", "statement": "After a script moves a body, the collider runs before the contacts of the next step are looked for, if the body has left its bounding box.", "quantifier": "every scene, body and new position", "why_tests_cant": "the delay depends on what the integrator recorded in the step before", "anchors": ["pkg/common/InsertionSortCollider.cpp: InsertionSortCollider::isActivated", "pkg/common/InsertionSortCollider.cpp: InsertionSortCollider::action", "pkg/common/Dispatching.cpp: BoundDispatcher::processBody", "pkg/dem/NewtonIntegrator.cpp: NewtonIntegrator::saveMaximaDisplacement"]}
{"id": "C108", "title": "Bounding boxes contain the shapes", "statement": "The bounding box given to a sphere, facet or box contains every point of the shape (in cell coordinates of a periodic scene).", "quantifier": "every position, orientation, size, cell and enlargement factor", "why_tests_cant": "the set of points and of cells is infinite and the worst case is on the border", "anchors": ["pkg/common/Bo1_Aabb.cpp: Bo1_Sphere_Aabb::go", "pkg/common/Bo1_Aabb.cpp: Bo1_Facet_Aabb::go", "pkg/common/Bo1_Aabb.cpp: Bo1_Box_Aabb::go"]}
{"id": "C109", "title": "Skipping the collider is safe for non-spherical bodies", "statement": "As long as the collider decides not to run, every point of every facet or box stays inside the bounding box the collider uses.", "quantifier": "every scene, motion and orientation", "why_tests_cant": "failures need a rotation without translation of the right amount", "anchors": ["pkg/common/InsertionSortCollider.cpp: InsertionSortCollider::isActivated", "pkg/common/InsertionSortCollider.cpp: InsertionSortCollider::action", "pkg/common/Dispatching.cpp: BoundDispatcher::processBody", "pkg/dem/NewtonIntegrator.cpp: NewtonIntegrator::saveMaximaDisplacement", "pkg/common/Bo1_Aabb.cpp: Bo1_Sphere_Aabb::go", "pkg/common/Bo1_Aabb.cpp: Bo1_Facet_Aabb::go", "pkg/common/Bo1_Aabb.cpp: Bo1_Box_Aabb::go"]}
{"id": "C11", "title": "Synchronised force equals the sum of everything added since the last reset", "statement": "After synchronisation O.forces.f(id) (likewise torque) equals the sum of all forces added for that id since the last reset by any thread in any order, plus its permanent force; ids never touched read as zero.", "quantifier": "for every number of threads, every assignment of additions to threads, every interleaving of additions, synchronisations and resets, every id", "why_tests_cant": "thread schedules and container growth histories cannot be enumerated", "anchors": ["core/ForceContainerParallel.cpp", "core/ForceContainer.hpp"]}
{"id": "C110", "title": "Growth of particles is noticed", "statement": "After growParticles or growParticle the collider runs again unless the bounding boxes still contain the particles.", "quantifier": "every scene, factor and particle", "why_tests_cant": "depends on the margin left in the box of each particle at that moment", "anchors": ["pkg/dem/Shop_02.cpp: Shop::growParticles", "pkg/dem/Shop_02.cpp: Shop::growParticle", "pkg/common/InsertionSortCollider.cpp: InsertionSortCollider::isActivated", "pkg/common/InsertionSortCollider.cpp: InsertionSortCollider::action", "pkg/common/Dispatching.cpp: BoundDispatcher::processBody", "pkg/dem/NewtonIntegrator.cpp: NewtonIntegrator::saveMaximaDisplacement"]}
{"id": "C111", "title": "The collider runs again when the periodic cell has changed", "statement": "When the periodic cell has changed size by a given factor since the boxes were sorted, the collider has run again.", "quantifier": "every cell, velocity gradient, time step and number of steps", "why_tests_cant": "the change accumulates over arbitrarily many steps", "anchors": ["core/Cell.cpp: Cell::integrateAndUpdate", "core/Scene.cpp: Scene::moveToNextTimeStep", "pkg/dem/NewtonIntegrator.cpp: NewtonIntegrator::action", "pkg/common/InsertionSortCollider.cpp: InsertionSortCollider::isActivated", "pkg/common/InsertionSortCollider.cpp: InsertionSortCollider::action"]}
{"id": "C112", "title": "Splitting a scene gives processes matching lists of neighbours and of shared bodies", "statement": "After a scene is split each worker names exactly those other workers as neighbours that name it, the master's list of workers is the set of workers that touch its bodies, and the ids a process expects to receive from a neighbour are, in the same order, those the neighbour sends.", "quantifier": "for all scenes, numbers of processes, assignments of bodies to subdomains, masks and orders in which the collider lists the interactions", "why_tests_cant": "Which subdomain boxes meet depends on geometry and on the tie order of the sort in each process; MPI tests use a few fixed packings on few ranks.", "anchors": ["py/mpy.py: genLocalIntersections, updateDomainBounds, splitScene", "core/Subdomain.hpp", "pkg/common/Collider.cpp: mayCollide"]}
{"id": "C113", "title": "After a split every worker holds the remote bodies its own bodies may touch", "statement": "Whenever the boxes of two bodies of different subdomains overlap when the scene is split, each of the two workers keeps the other body, receives its state, and takes it into account in its collider.", "quantifier": "for all scenes, numbers of processes, masks and assignments of bodies to subdomains", "why_tests_cant": "A body that is silently not shared produces a missing contact only for particular geometry and masks.", "anchors": ["py/mpy.py: genLocalIntersections, unboundRemoteBodies, reboundRemoteBodies, splitScene", "core/Subdomain.cpp: setMinMax", "pkg/common/Collider.cpp: mayCollide"]}
{"id": "C114", "title": "After a split no contact between bodies of different workers is missed while the collider is not run", "statement": "Once a scene is split, as long as no body of a worker has moved further than its margin, any two spheres of different workers that touch are seen as potentially touching by at least one of the two workers.", "quantifier": "for all scenes of spheres, splits at any iteration, Verlet distances, motions within the margins", "why_tests_cant": "The margin given to the copy of a remote body depends on when its box was last updated; a missed contact shows only when both bodies move towards each other after a re-split.", "anchors": ["py/mpy.py: splitScene, unboundRemoteBodies, reboundRemoteBodies", "pkg/common/Dispatching.cpp: BoundDispatcher::processBody", "pkg/common/InsertionSortCollider.cpp: action"]}
{"id": "C115", "title": "When a scene is split a worker erases exactly the remote bodies it has no contact with", "statement": "Erasing remote bodies during a split ends without an exception, removes every remote body not connected to the subdomain of the worker, and keeps every other body.", "quantifier": "for all scenes, clumps, vacant ids and assignments of bodies to workers", "why_tests_cant": "Vacant ids and clumps far from a worker are configurations that fixed MPI tests do not contain.", "anchors": ["py/mpy.py: splitScene (eraseRemote)", "core/BodyContainer.cpp: erase"]}
{"id": "C116", "title": "A whole distributed run of splits, steps and merges never hangs and never mixes up messages", "statement": "For any sequence of splits, steps and merges the processes never wait for each other forever, and every scene, box, list of shared bodies, state or bound received is the one sent in the same split, step or merge.", "quantifier": "for all numbers of processes, sequences of splits, steps and merges, contents of messages, interleavings of processes, with or without buffering by the library", "why_tests_cant": "A deadlock or a stale message appears only for particular interleavings and buffer sizes.", "anchors": ["py/mpy.py: splitScene, updateDomainBounds, mergeScene, mpirun", "core/Subdomain.hpp: mpiSendStates, mpiIrecvStates, mpiWaitReceived"]}
{"id": "C117", "title": "A table of times and values prescribes one function of time", "statement": "An engine driven by a table of times and values applies at each time the value of the piecewise linear curve through the table, held constant before and after it (or repeated, with wrap), whatever times were asked before; it never leaves the range of the values.", "quantifier": "for all tables with increasing times, all sequences of times asked (forwards and backwards), all positions remembered", "why_tests_cant": "The lookup remembers a position, so the value may depend on the whole history of calls.", "anchors": ["lib/smoothing/LinearInterpolate.hpp: linearInterpolate", "pkg/common/KinematicEngines.cpp: InterpolatingHelixEngine", "pkg/common/ForceEngine.cpp: InterpolatingDirectedForceEngine"]}
{"id": "C118", "title": "Bodies driven by translation, rotation or helix engines move exactly on the prescribed screw", "statement": "A body with all degrees of freedom blocked that is listed once in the ids of a translation, rotation, harmonic rotation, helix or interpolated helix engine is after any number of steps exactly where the rotation about the axis by the total angle and the translation along the axis by the total advance puts it, with its orientation turned by the same angle; several such bodies keep their distances and relative orientations; the reported angle of the helix is the angle turned.", "quantifier": "for all axes, velocities changing from step to step, time steps, numbers of steps, positions of the bodies, other bodies in the scene", "why_tests_cant": "Errors of first order per step (e.g. tangential velocity instead of the chord) only show as a drift over many steps.", "anchors": ["pkg/common/KinematicEngines.cpp: TranslationEngine, RotationEngine, HarmonicRotationEngine, HelixEngine, InterpolatingHelixEngine", "pkg/dem/NewtonIntegrator.cpp: action"]}
{"id": "C119", "title": "A combined kinematic engine gives the sum of the velocities of its parts", "statement": "Under a combined engine each listed body gets the sum of the velocities it would get from each living part alone, in whatever order the parts stand; adding engines with + gives a new engine and leaves the operands as they were.", "quantifier": "for all lists of parts of all kinds, ids, states of the parts, orders", "why_tests_cant": "The parts reset and add velocities in turn, the combination of any two kinds would have to be tried.", "anchors": ["pkg/common/KinematicEngines.cpp: CombinedKinematicEngine", "pkg/common/KinematicEngines.hpp: operator+"]}
{"id": "C12", "title": "Forces cannot be read before synchronisation", "statement": "A synchronised read (getForce, getTorque) either throws or returns the up-to-date sum; it never returns a value that misses an addition made before it.", "quantifier": "for every history of additions, resets and synchronisations", "why_tests_cant": "staleness depends on flag updates along arbitrary histories", "anchors": ["core/ForceContainer.hpp: ensureSynced, getForce", "core/ForceContainerParallel.cpp: sync, reset, addForce, addMaxId"]}
{"id": "C120", "title": "A servo controlled wall never exceeds its maximum velocity", "statement": "Whatever the forces, gains, time steps and history of the controller, no body gets a velocity beyond the limit, or a rotation.", "quantifier": "for all gains, targets, force histories, iteration numbers, restarts", "why_tests_cant": "An integral term can wind up only over long force histories.", "anchors": ["pkg/common/KinematicEngines.cpp: ServoPIDController"]}
{"id": "C121", "title": "A servo controlled wall reacts to the force along its axis", "statement": "The error of the controller is the total force of its bodies along the axis less the target; forces perpendicular to the axis do not matter and opposite forces are told apart.", "quantifier": "for all axes, forces, targets, lists of bodies", "why_tests_cant": "For axes along coordinates and compressive forces everything looks right.", "anchors": ["pkg/common/KinematicEngines.cpp: ServoPIDController"]}
{"id": "C122", "title": "A body on a pedal moves on a circle of the given radius", "statement": "Over any number of steps the body moves on a circle of the given radius in a plane perpendicular to the axis, through the sum of the angles asked for, from the phase given, without rotating.", "quantifier": "for all radii, angular velocities and time steps changing from step to step, numbers of steps, axes", "why_tests_cant": "A wrong chord length shows only as a slow drift off the circle.", "anchors": ["pkg/common/KinematicEngines.cpp: BicyclePedalEngine"]}
{"id": "C123", "title": "Force engines push exactly the bodies listed", "statement": "The force engine and the radial force engine add their force to each listed body that exists, once per listing, and change nothing else; ids that are negative, too large or of erased bodies are passed over; the radial force is perpendicular to the axis and points away from it.", "quantifier": "for all lists of ids (also invalid and repeated), forces, positions, axes of unit length", "why_tests_cant": "A wrong id in the list or a body on the axis are corner cases of every simulation set-up.", "anchors": ["pkg/common/ForceEngine.cpp: ForceEngine, RadialForceEngine"]}
{"id": "C124", "title": "Drag engines slow down the spheres listed", "statement": "The drag engine adds to each listed sphere a force against its velocity of size half density times drag coefficient times cross section times speed squared, the linear one Stokes drag; others get none; invalid ids are passed over.", "quantifier": "for all lists of ids, radii, velocities, coefficients", "why_tests_cant": "Only zero velocity and invalid ids are special, both easily missed.", "anchors": ["pkg/common/ForceEngine.cpp: DragEngine, LinearDragEngine"]}
{"id": "C125", "title": "Gravity as an engine and gravity of the integrator are the same", "statement": "Running the gravity engine and then the integrator without gravity ends in the same state of every body as the integrator with that gravity.", "quantifier": "for all bodies and clumps, other forces, damping, blocked degrees of freedom, density scaling, periodic cells", "why_tests_cant": "The two ways differ by where damping and masses of clump members come in.", "anchors": ["pkg/common/GravityEngines.cpp: GravityEngine", "pkg/dem/NewtonIntegrator.cpp: action, computeAccel"]}
{"id": "C126", "title": "Central and axial gravity attract every body with mass times acceleration", "statement": "Each body but clumps, let through by the mask, gets a force of size mass times acceleration towards the axis or towards the central body; with reciprocal the total of all forces does not change; nothing else changes.", "quantifier": "for all scenes, axes, central bodies, masks, accelerations", "why_tests_cant": "Balance of forces is a statement about the whole scene, corner cases are bodies on the axis and missing central bodies.", "anchors": ["pkg/common/GravityEngines.cpp: CentralGravityEngine, AxialGravityEngine"]}
{"id": "C127", "title": "Erasing a body does not disturb the engines that list it", "statement": "After a body was erased, engines that list its id do to all other bodies exactly what they did before.", "quantifier": "for all engines, lists of ids, scenes, erased bodies", "why_tests_cant": "It depends on each engine checking each id; crashes appear only in scenes where bodies are erased.", "anchors": ["pkg/common/ForceEngine.cpp", "pkg/common/KinematicEngines.cpp: all engines", "pkg/common/StepDisplacer.hpp: StepDisplacer::action"]}
{"id": "C128", "title": "The two modes of the step displacer give the same displacement", "statement": "Without setVelocities each listed body is moved and turned at once and nothing else changes; with it, a body with all degrees of freedom blocked makes exactly this displacement and this rotation in the next step of the integrator.", "quantifier": "for all displacements, unit quaternions (also with negative real part), time steps, positions and orientations, lists of distinct existing bodies", "why_tests_cant": "Angle and axis of a quaternion have special cases near the identity and for negative real parts.", "anchors": ["pkg/common/StepDisplacer.hpp: StepDisplacer::action", "pkg/dem/NewtonIntegrator.cpp: leapfrogTranslate, leapfrogSphericalRotate"]}
{"id": "C129", "title": "The torque engine passes over invalid ids like the force engine", "statement": "The torque engine adds its torque to each listed body, once per listing, changes nothing else, and passes over ids that do not exist.", "quantifier": "for all lists of ids, torques, scenes", "why_tests_cant": "Negative ids corrupt memory without any visible sign.", "anchors": ["pkg/common/TorqueEngine.hpp: TorqueEngine::action", "core/ForceContainerParallel.cpp: addTorque"]}
{"id": "C13", "title": "A permanent force stays until it is changed or reset", "statement": "After setPermF(id,f), every later permF(id) and every synchronised force include f for that id until setPermF is called again for the same id or reset(resetAll=True); setting the permanent force of another body has no influence on it, and setting it is memory safe.", "quantifier": "for every sequence of setPermF / addF / reset / sync and all ids", "why_tests_cant": "losing the value needs a particular pair of ids and a particular order", "anchors": ["core/ForceContainerParallel.cpp: setPermForce, setPermTorque, ensureSize, resizePerm, sync", "core/ForceContainerSerial.cpp"]}
{"id": "C130", "title": "Bodies driven harmonically follow the oscillation prescribed", "statement": "A body with all degrees of freedom blocked, listed once in a harmonic motion engine, gets at each time the velocity of the oscillation A cos(2 pi f t + fi) along each axis; after any number of steps its displacement differs from that of the oscillation by no more than |A| (2 pi f)^2 / 2 times the sum of the squares of the time steps, and it does not rotate.", "quantifier": "for all amplitudes, frequencies, phases, numbers of steps, time steps changing from step to step", "why_tests_cant": "The error accumulates over steps; no finite run shows that it stays within a bound.", "anchors": ["pkg/common/KinematicEngines.cpp: HarmonicMotionEngine", "pkg/dem/NewtonIntegrator.cpp: action"]}
{"id": "C131", "title": "Forces from a table follow the table", "statement": "With a table of strictly increasing times the interpolated force engine applies to each listed body that exists, once per listing, a force along its direction of the size given by the piecewise linear curve through the table at the current time, whatever it did before, and changes nothing else.", "quantifier": "for all tables with strictly increasing times, directions of any length but zero, histories, lists of ids", "why_tests_cant": "The lookup remembers a position and the direction is changed by each call, so results could depend on history.", "anchors": ["pkg/common/ForceEngine.cpp: InterpolatingDirectedForceEngine", "lib/smoothing/LinearInterpolate.hpp: linearInterpolate"]}
{"id": "C132", "title": "Random packings have no overlaps", "statement": "Spheres made by makeCloud overlap neither each other, nor spheres that were in the packing before, nor, in periodic packings, any image of another sphere or of themselves.", "quantifier": "for all arguments, sequences of random numbers, packings without overlaps before the call, numbers of retries", "why_tests_cant": "A test sees a few seeds; overlaps depend on the random numbers and, in cells, on infinitely many images.", "anchors": ["pkg/dem/SpherePack.cpp: SpherePack::makeCloud", "pkg/dem/SpherePack.hpp: SpherePack"]}
{"id": "C133", "title": "Random packings stay within the box", "statement": "Spheres made by makeCloud lie within the box between the given corners (in periodic packings their centres lie in the cell).", "quantifier": "for all arguments, sequences of random numbers", "why_tests_cant": "A test sees a few seeds.", "anchors": ["pkg/dem/SpherePack.cpp: SpherePack::makeCloud", "pkg/dem/SpherePack.hpp: SpherePack"]}
{"id": "C134", "title": "Random packings keep what was there and count what they made", "statement": "makeCloud keeps spheres that were in the packing, adds at most the number asked for, adds exactly that number if the radius is to be found, and returns the number of spheres made.", "quantifier": "for all arguments, packings before the call, sequences of random numbers, numbers of retries", "why_tests_cant": "Retries happen only for unlucky random numbers.", "anchors": ["pkg/dem/SpherePack.cpp: SpherePack::makeCloud", "pkg/dem/SpherePack.hpp: SpherePack"]}
{"id": "C135", "title": "Radii of random packings follow the distribution asked for", "statement": "Without a size distribution radii lie within the mean radius times 1 +- rRelFuzz; with a distribution by number, diameters are read off the piecewise linear curve at evenly spread places; with one by mass, the number of spheres below each diameter is the one that follows from the masses given; with a number of spheres they are made largest first.", "quantifier": "for all arguments, sequences of random numbers, retries", "why_tests_cant": "Distributions are checked by a test for one sample only, up to statistical error.", "anchors": ["pkg/dem/SpherePack.cpp: SpherePack::makeCloud", "pkg/dem/SpherePack.hpp: SpherePack", "pkg/dem/SpherePack.cpp: SpherePack::psdGetPiece"]}
{"id": "C136", "title": "Size distributions are accepted or refused, never misread", "statement": "A call of makeCloud with a size distribution either raises an exception or makes spheres; the distribution is not read outside of its points and nothing is divided by zero.", "quantifier": "for all distributions, boxes of non-zero volume, porosities below 1, sequences of random numbers", "why_tests_cant": "A read behind the end of a vector may go unnoticed in a test.", "anchors": ["pkg/dem/SpherePack.cpp: SpherePack::makeCloud", "pkg/dem/SpherePack.hpp: SpherePack", "pkg/dem/SpherePack.cpp: SpherePack::psdGetPiece"]}
{"id": "C137", "title": "Seeds make random packings repeatable", "statement": "Two calls of makeCloud with the same seed and the same arguments on equal packings make the same spheres.", "quantifier": "for all seeds, arguments, histories of the process", "why_tests_cant": "The outcome depends on all earlier calls in the process.", "anchors": ["pkg/dem/SpherePack.cpp: SpherePack::makeCloud", "pkg/dem/SpherePack.hpp: SpherePack"]}
{"id": "C138", "title": "Random packings attain the porosity asked for", "statement": "When only a number of equal spheres is given, the volume of the spheres made is the volume of the box times one minus the porosity asked for or, after retries, times one minus a larger porosity below one.", "quantifier": "for all numbers of spheres, boxes, porosities, sequences of random numbers, numbers of retries", "why_tests_cant": "The number of retries depends on the random numbers and is not bounded.", "anchors": ["pkg/dem/SpherePack.cpp: SpherePack::makeCloud", "pkg/dem/SpherePack.hpp: SpherePack"]}
{"id": "C139", "title": "Predicates describe the solids they are named after", "statement": "A predicate without pad is true for a point exactly if the point lies in the solid given by the constructor (sphere, box, parallelepiped, cylinder, hyperboloid, ellipsoid, outside of a notch), and |, &, -, ^ are union, intersection, difference and symmetric difference.", "quantifier": "for all points, solids and nestings of set operations", "why_tests_cant": "A test tries a few points of a few solids.", "anchors": ["py/pack/_packPredicates.cpp: Predicate", "py/pack/_packPredicates.cpp: inParallelepiped", "py/pack/_packPredicates.cpp: inCylinder", "py/pack/_packPredicates.cpp: inHyperboloid", "py/pack/_packPredicates.cpp: inEllipsoid", "py/pack/_packPredicates.cpp: notInNotch"]}
{"id": "C14", "title": "Synchronising twice is the same as synchronising once", "statement": "Calling sync repeatedly without new additions in between does not change any force or torque, in the threaded and in the single-threaded build.", "quantifier": "for every container state and every number of repeated synchronisations", "why_tests_cant": "both build flavours and every state with permanent forces would have to be exercised", "anchors": ["core/ForceContainerSerial.cpp: sync", "core/ForceContainerParallel.cpp: sync"]}
{"id": "C140", "title": "Boxes of solids enclose them", "statement": "The box returned by aabb() of a predicate contains every point for which the predicate is true.", "quantifier": "for all points, solids and nestings of set operations", "why_tests_cant": "A test tries a few points; a point outside of the box is lost in all packings.", "anchors": ["py/pack/_packPredicates.cpp: Predicate", "py/pack/_packPredicates.cpp: inParallelepiped", "py/pack/_packPredicates.cpp: inCylinder", "py/pack/_packPredicates.cpp: inHyperboloid", "py/pack/_packPredicates.cpp: inEllipsoid", "py/pack/_packPredicates.cpp: notInNotch"]}
{"id": "C141", "title": "Padding keeps whole balls inside", "statement": "If a predicate is true for a point with a pad, the whole ball about the point with the pad as radius lies in the solid.", "quantifier": "for all points, pads, solids and nestings of set operations", "why_tests_cant": "Whole balls are infinitely many points.", "anchors": ["py/pack/_packPredicates.cpp: Predicate", "py/pack/_packPredicates.cpp: inParallelepiped", "py/pack/_packPredicates.cpp: inCylinder", "py/pack/_packPredicates.cpp: inHyperboloid", "py/pack/_packPredicates.cpp: inEllipsoid", "py/pack/_packPredicates.cpp: notInNotch"]}
{"id": "C142", "title": "Regular packings do not overlap and stay in the solid", "statement": "Spheres of regular orthogonal and hexagonal packings are at least the gap apart; each has its centre where the predicate is true with the radius as pad, thus lies wholly in the solid if it is built of spheres, boxes, parallelepipeds and cylinders by union, intersection and difference.", "quantifier": "for all solids, radii and gaps with a positive distance of neighbours", "why_tests_cant": "All pairs of an arbitrarily large packing in an arbitrary solid.", "anchors": ["py/pack/pack.py: regularOrtho", "py/pack/pack.py: regularHexa"]}
{"id": "C143", "title": "Regular packings leave no place of their grid empty", "statement": "A regular packing has a sphere at each point of its infinite grid where a sphere of the given radius lies in the solid.", "quantifier": "for all solids, radii and gaps", "why_tests_cant": "All points of an infinite grid.", "anchors": ["py/pack/pack.py: regularOrtho", "py/pack/pack.py: regularHexa"]}
{"id": "C144", "title": "Repeating a periodic packing keeps the infinite packing", "statement": "cellRepeat leaves the infinite periodic packing the same: at each place and for each radius there are as many spheres (of all images) after it as before; the cell is larger by the counts and there are count times as many spheres. Packings without cell and counts below one are refused.", "quantifier": "for all packings, cells and counts", "why_tests_cant": "An infinite set of images, and all packings.", "anchors": ["pkg/dem/SpherePack.cpp: SpherePack::cellRepeat"]}
{"id": "C145", "title": "Filling a volume", "statement": "cellFill repeats a periodic packing such that the result is at least as large as the volume given, with less than one cell too much, as documented in terms of dim(); packings without cell are refused.", "quantifier": "for all packings, cells and volumes", "why_tests_cant": "All sizes; division and rounding up at the limits.", "anchors": ["pkg/dem/SpherePack.cpp: SpherePack::cellFill"]}
{"id": "C146", "title": "Repeating keeps clumps", "statement": "In a repeated packing, copies of spheres of one clump form a clump again.", "quantifier": "for all packings with clumps", "why_tests_cant": "All packings.", "anchors": ["pkg/dem/SpherePack.cpp: SpherePack::cellRepeat"]}
{"id": "C147", "title": "The box of a packing is exact", "statement": "aabb() of a packing contains all its spheres and each of its six sides is touched by one.", "quantifier": "for all packings", "why_tests_cant": "All packings.", "anchors": ["pkg/dem/SpherePack.hpp: SpherePack::aabb"]}
{"id": "C148", "title": "Moving, turning and scaling a packing", "statement": "translate, rotate and scale are similarities: distances and radii keep their ratios, thus spheres that do not overlap do not afterwards; scale multiplies them by the factor given and rotate keeps the centre of the box as fixed point.", "quantifier": "for all packings, shifts, axes, angles and factors", "why_tests_cant": "All packings and angles.", "anchors": ["pkg/dem/SpherePack.hpp: SpherePack::translate", "pkg/dem/SpherePack.hpp: SpherePack::rotate", "pkg/dem/SpherePack.hpp: SpherePack::scale"]}
{"id": "C149", "title": "Clumps of a packing", "statement": "getClumps returns each sphere exactly once: those without clump in the first list, and one list of members for each clump id used.", "quantifier": "for all packings and clump ids", "why_tests_cant": "All orders of ids.", "anchors": ["pkg/dem/SpherePack.cpp: SpherePack::getClumps"]}
{"id": "C15", "title": "Concurrent growth of the force storage loses no contribution", "statement": "When several threads add forces to ids beyond the current capacity at the same time, the following synchronisation makes every one of these contributions visible.", "quantifier": "for every interleaving of the threads' memory operations", "why_tests_cant": "a lost update on the shared size needs a particular interleaving of unsynchronised reads and writes", "anchors": ["core/ForceContainerParallel.cpp: ensureSize, resize, syncSizesOfContainers, sync"]}
{"id": "C150", "title": "Putting a packing into a simulation and reading it back", "statement": "A packing put into a new simulation and read back has the same spheres, the same spheres alone, and the same spheres in one clump.", "quantifier": "for all packings, with or without clumps and cell", "why_tests_cant": "All packings and clump ids.", "anchors": ["py/pack/pack.py: SpherePack_toSimulation", "pkg/dem/SpherePack.cpp: SpherePack::fromSimulation"]}
{"id": "C151", "title": "Periodicity of packings is carried along", "statement": "A packing with a cell gives a periodic simulation with the same cell, and one without cell leaves the simulation as it is, after any of the operations on packings.", "quantifier": "for all packings and operations", "why_tests_cant": "All sequences of operations.", "anchors": ["py/pack/pack.py: SpherePack_toSimulation", "pkg/dem/SpherePack.cpp: SpherePack::fromSimulation", "pkg/dem/SpherePack.cpp: SpherePack::makeClumpCloud", "pkg/dem/SpherePack.hpp: SpherePack::rotate"]}
{"id": "C152", "title": "Saving and loading a packing", "statement": "A packing saved and loaded again has the same spheres, clumps and cell.", "quantifier": "for all packings", "why_tests_cant": "All packings.", "anchors": ["pkg/dem/SpherePack.cpp: SpherePack::toFile", "pkg/dem/SpherePack.cpp: SpherePack::fromFile", "pkg/dem/Shop_01.cpp: Shop::loadSpheresFromFile"]}
{"id": "C153", "title": "Relative density", "statement": "For spheres that do not overlap, relDensity() is the share of the box covered by spheres: above zero and at most one.", "quantifier": "for all packings", "why_tests_cant": "Volumes of sets of points.", "anchors": ["pkg/dem/SpherePack.hpp: SpherePack::relDensity"]}
{"id": "C154", "title": "Particle size distribution", "statement": "psd() gives edges in increasing order from the smallest to the largest diameter and, at each, the share (by number or mass) of spheres of smaller size, from 0 up to 1, as documented.", "quantifier": "for all packings and numbers of bins", "why_tests_cant": "All packings and bins.", "anchors": ["pkg/dem/SpherePack.cpp: SpherePack::psd"]}
{"id": "C155", "title": "Filtering a packing by a predicate", "statement": "filterSpherePack returns exactly the spheres of the packing for which the predicate is true, in order, with the centre of the packing moved to that of the predicate.", "quantifier": "for all packings and predicates", "why_tests_cant": "All packings and solids.", "anchors": ["py/pack/pack.py: filterSpherePack"]}
{"id": "C156", "title": "Random packings of clumps do not overlap", "statement": "Spheres of different clumps made by makeClumpCloud overlap neither each other nor spheres that were in the packing; in a periodic cell no images of them do.", "quantifier": "for all given clumps, boxes, numbers of clumps and random numbers", "why_tests_cant": "All random numbers, infinitely many images.", "anchors": ["pkg/dem/SpherePack.cpp: SpherePack::makeClumpCloud"]}
{"id": "C157", "title": "Random packings of clumps stay in the box", "statement": "Without periodicity, every point of every sphere made by makeClumpCloud lies in the box given.", "quantifier": "for all given clumps, boxes, numbers of clumps and random numbers", "why_tests_cant": "All random numbers.", "anchors": ["pkg/dem/SpherePack.cpp: SpherePack::makeClumpCloud"]}
{"id": "C158", "title": "Random packings of clumps consist of copies of the given clumps", "statement": "makeClumpCloud adds as many clumps as it returns, at most as many as asked for; each is a given clump moved as a rigid body and a clump of its own in the packing.", "quantifier": "for all given clumps, boxes, numbers of clumps and random numbers", "why_tests_cant": "All random numbers.", "anchors": ["pkg/dem/SpherePack.cpp: SpherePack::makeClumpCloud"]}
{"id": "C159", "title": "Random packings of clumps read only what is there", "statement": "makeClumpCloud returns without reading outside of its vectors.", "quantifier": "for all given clumps, boxes, numbers of clumps and random numbers", "why_tests_cant": "Undefined behaviour, which tests rarely show.", "anchors": ["pkg/dem/SpherePack.cpp: SpherePack::makeClumpCloud"]}
{"id": "C16", "title": "Sub-stepping does not change what a step does", "statement": "Running a time step one engine at a time, all at once, or switching between the two modes in the middle executes the same engines in the same order, with one prologue and one epilogue per step, and advances O.iter by one and O.time by dt once per step.", "quantifier": "for every engine list, every number of steps and every pattern of toggling subStepping between calls", "why_tests_cant": "the toggling pattern is an arbitrary boolean sequence; each pattern is a different path through the state machine", "anchors": ["core/Scene.cpp: moveToNextTimeStep", "core/Scene.hpp"]}
{"id": "C160", "title": "It does not matter where given clumps lie", "statement": "makeClumpCloud puts the centre of the box of each clump at a random place in the box, wherever the given clump lies.", "quantifier": "for all given clumps, boxes, numbers of clumps and random numbers", "why_tests_cant": "All random numbers.", "anchors": ["pkg/dem/SpherePack.cpp: SpherePack::makeClumpCloud"]}
{"id": "C161", "title": "Subdomains tile the box", "statement": "The subdomains of a Globaldomain fill its box: each point of the box and no other point lies in the block of a subdomain, no two blocks share inner points, and the workers are numbered 1, 2, 3 and so on.", "quantifier": "for all boxes, numbers of threads and decompositions", "why_tests_cant": "All points of all boxes.", "anchors": ["py/domaindecomposition.py: Globaldomain.__init__", "py/domaindecomposition.py: Globaldomain.partitionSubdomains", "py/domaindecomposition.py: Globaldomain.makeOneSubdomain", "py/domaindecomposition.py: Globaldomain.makeTwoSubdomains"]}
{"id": "C162", "title": "The automatic decomposition makes as many subdomains as asked for", "statement": "Globaldomain(mn,mx,numThreads) returns, with exactly numThreads subdomains.", "quantifier": "for all boxes and numbers of threads", "why_tests_cant": "Termination, for all boxes.", "anchors": ["py/domaindecomposition.py: Globaldomain.sideDecomposition", "py/domaindecomposition.py: Globaldomain.idxOfSmallestPositiveNumber"]}
{"id": "C163", "title": "The subdomain found contains the point", "statement": "Globaldomain.findSubdomain(point) returns the worker of a subdomain the block of which contains the point.", "quantifier": "for all decompositions and points of the box", "why_tests_cant": "All points, including those near the faces.", "anchors": ["py/domaindecomposition.py: Globaldomain.findSubdomain"]}
{"id": "C164", "title": "Clouds: the worker found is that of the nearest point", "statement": "GlobaldomainCloud.findSubdomain(point) returns the worker of a point of the cloud nearest to the point.", "quantifier": "for all clouds and points", "why_tests_cant": "All points.", "anchors": ["py/domaindecomposition.py: GlobaldomainCloud.findSubdomain"]}
{"id": "C165", "title": "Clouds: each point is the most remote of its sample", "statement": "GlobaldomainCloud draws, for each worker, the given number of points in the box and keeps the one farthest from the points kept before and from the corners of the box.", "quantifier": "for all boxes, numbers of workers, sample sizes and random numbers", "why_tests_cant": "All random numbers.", "anchors": ["py/domaindecomposition.py: GlobaldomainCloud.generateRandomCloud", "py/domaindecomposition.py: GlobaldomainCloud.findMostRemotePointNN", "py/domaindecomposition.py: GlobaldomainCloud.makeDomainCornerPoints"]}
{"id": "C166", "title": "MatchMaker returns the match or the fallback", "statement": "A MatchMaker called with two material ids returns the value given for these ids in either order, the first one if there are several, and else the value of the fallback chosen by algo.", "quantifier": "for all matches, algorithms, ids and values", "why_tests_cant": "All lists of matches.", "anchors": ["pkg/common/MatchMaker.cpp: MatchMaker::operator()", "pkg/common/MatchMaker.cpp: MatchMaker::postLoad"]}
{"id": "C167", "title": "Contact stiffness does not depend on the order of materials", "statement": "The stiffness and friction of a contact are the harmonic means of the two bodies, do not change if the bodies are exchanged, and are numbers.", "quantifier": "for all materials with positive stiffness and all radii", "why_tests_cant": "All values.", "anchors": ["pkg/dem/FrictPhys.cpp: Ip2_FrictMat_FrictMat_FrictPhys::go", "pkg/dem/FrictPhys.cpp: Ip2_FrictMat_FrictMat_ViscoFrictPhys::go"]}
{"id": "C168", "title": "The time step is the smallest over bodies, clumps included", "statement": "Without density scaling and viscous option the time step is 1.41044 times the safety factor times the square root of the smallest quotient of mass and stiffness, or inertia and rotational stiffness, over moving bodies, contacts of clump members counting for the clump; it is positive.", "quantifier": "for all scenes", "why_tests_cant": "All scenes.", "anchors": ["pkg/dem/GlobalStiffnessTimeStepper.cpp: GlobalStiffnessTimeStepper::computeTimeStep", "pkg/dem/GlobalStiffnessTimeStepper.cpp: GlobalStiffnessTimeStepper::findTimeStepFromBody", "pkg/dem/GlobalStiffnessTimeStepper.cpp: GlobalStiffnessTimeStepper::computeStiffnesses"]}
{"id": "C169", "title": "The time step stays below maxDt", "statement": "The time step set is never more than maxDt and never more than 1.05 times the last one.", "quantifier": "for all scenes and limits", "why_tests_cant": "All scenes.", "anchors": ["pkg/dem/GlobalStiffnessTimeStepper.cpp: GlobalStiffnessTimeStepper::computeTimeStep"]}
{"id": "C17", "title": "Replacing O.engines during a step takes effect at the next step only", "statement": "Assigning O.engines inside a step never changes the engines executed in the running step; the new list is used from the beginning of the next step on, and O.engines reads back the assigned list immediately.", "quantifier": "for every engine list, every point of the step at which the assignment happens, with and without sub-stepping", "why_tests_cant": "the position of the assignment inside the step and the mode are unbounded combinations", "anchors": ["core/Scene.cpp: moveToNextTimeStep", "py/wrapper/yadeWrapper.cpp: engines_get, engines_set"]}
{"id": "C170", "title": "The time step is stable", "statement": "With the time step set, the motion of the bodies around a state of contact forces, each contact being a linear spring, stays bounded for ever.", "quantifier": "for all networks of contacts, initial displacements and velocities, and numbers of steps", "why_tests_cant": "All numbers of steps.", "anchors": ["pkg/dem/GlobalStiffnessTimeStepper.cpp: GlobalStiffnessTimeStepper::computeTimeStep", "doc/sphinx/formulation.rst: critical timestep"]}
{"id": "C171", "title": "P-wave time step", "statement": "PWaveTimeStep returns the smallest of radius times square root of density over Young's modulus over elastic spheres, and 1 if there are none.", "quantifier": "for all scenes", "why_tests_cant": "All scenes.", "anchors": ["pkg/dem/Shop_01.cpp: Shop::PWaveTimeStep"]}
{"id": "C172", "title": "Updates of the time step are memory safe", "statement": "No sequence of updates reads or writes outside vectors, reads a variable without a value, dereferences a null pointer or divides by zero, however bodies, contacts and options change in between.", "quantifier": "for all sequences of scenes", "why_tests_cant": "All sequences.", "anchors": ["pkg/dem/GlobalStiffnessTimeStepper.cpp: GlobalStiffnessTimeStepper::computeTimeStep", "pkg/dem/GlobalStiffnessTimeStepper.cpp: GlobalStiffnessTimeStepper::findTimeStepFromBody", "pkg/dem/GlobalStiffnessTimeStepper.cpp: GlobalStiffnessTimeStepper::computeStiffnesses", "pkg/dem/GlobalStiffnessTimeStepper.cpp: GlobalStiffnessTimeStepper::isActivated"]}
{"id": "C173", "title": "Density scaling makes the target step good for each body", "statement": "With density scaling the step is at most targetDt, and after an update the target is at most the step of each body with its mass and inertia divided by its scaling, which is positive and grows by at most 5 percent; the integrator then accelerates each body along the force.", "quantifier": "for all scenes", "why_tests_cant": "All scenes.", "anchors": ["pkg/dem/GlobalStiffnessTimeStepper.cpp: GlobalStiffnessTimeStepper::findTimeStepFromBody", "pkg/dem/NewtonIntegrator.cpp: NewtonIntegrator::action", "core/State.hpp: State::densityScaling"]}
{"id": "C174", "title": "Probing a volume finds each body in it", "statement": "Probing the collider with a box returns each body whose box now meets it, and no other.", "quantifier": "for all scenes, boxes and displacements of bodies since the last sort", "why_tests_cant": "All displacements and boxes.", "anchors": ["pkg/common/InsertionSortCollider.cpp: InsertionSortCollider::probeBoundingVolume"]}
{"id": "C175", "title": "Spheres made by factories do not overlap", "statement": "The spheres a factory makes in a step overlap neither each other nor any sphere present.", "quantifier": "for all regions, random numbers, scenes and numbers of spheres", "why_tests_cant": "All random numbers and scenes.", "anchors": ["pkg/dem/SpheresFactory.cpp: SpheresFactory::action"]}
{"id": "C176", "title": "Factories keep their mass flow and limits", "statement": "After a step the mass made has attained massFlowRate times time or a limit, or no room was left after maxAttempt attempts, and it is never exceeded by more than the last sphere; maxParticles is never exceeded.", "quantifier": "for all factories, random numbers, sequences of steps and scenes", "why_tests_cant": "All sequences of steps.", "anchors": ["pkg/dem/SpheresFactory.cpp: SpheresFactory::action"]}
{"id": "C177", "title": "Factories count what they make", "statement": "ids, numParticles, totalMass and totalVolume are those of the spheres made, which have new ids, the mass and inertia of a ball of the material, the velocity asked for and radii between rMin and rMax.", "quantifier": "for all factories, random numbers and scenes", "why_tests_cant": "All factories.", "anchors": ["pkg/dem/SpheresFactory.cpp: SpheresFactory::action"]}
{"id": "C178", "title": "Factories follow the size distribution asked for", "statement": "At any time the mass (or number) made of each size differs from its share of the whole by no more than some spheres, whatever is made.", "quantifier": "for all size distributions, random numbers and sequences of steps", "why_tests_cant": "All sequences of steps.", "anchors": ["pkg/dem/SpheresFactory.cpp: SpheresFactory::action"]}
{"id": "C179", "title": "Factories keep to their region", "statement": "The spheres of a factory are within its circle or box.", "quantifier": "for all regions, normals, random numbers and scenes", "why_tests_cant": "All random numbers.", "anchors": ["pkg/dem/SpheresFactory.cpp: CircularFactory::pickRandomPosition", "pkg/dem/SpheresFactory.cpp: BoxFactory::pickRandomPosition"]}
{"id": "C18", "title": "An exception inside an engine does not make other engines run twice in one step", "statement": "If an engine raises, resuming the simulation continues the interrupted step without executing again the engines that had already completed in that step.", "quantifier": "for every engine list and every failing position (crash point)", "why_tests_cant": "crash points are unbounded; a test covers one position", "anchors": ["core/Scene.cpp: moveToNextTimeStep"]}
{"id": "C180", "title": "DomainLimiter erases what is out of its box", "statement": "A DomainLimiter erases exactly the free spheres and the clumps, with all their members, that are out of its box and match its mask, and counts each once, with mass and volume.", "quantifier": "for all scenes, clumps, boxes and masks", "why_tests_cant": "All scenes.", "anchors": ["pkg/dem/DomainLimiter.cpp: DomainLimiter::action", "core/BodyContainer.cpp: BodyContainer::erase"]}
{"id": "C181", "title": "Steps of factories end", "statement": "A step of a factory ends.", "quantifier": "for all factories, random numbers and scenes", "why_tests_cant": "Non-termination is not observable by a test.", "anchors": ["pkg/dem/SpheresFactory.cpp: SpheresFactory::action"]}
{"id": "C182", "title": "Flipping the cell keeps the packing", "statement": "flipCell() keeps the grid of images, the volume of the cell and, for each contact, which images touch; without argument it makes the cell as upright as possible.", "quantifier": "for all cells, contacts and flips", "why_tests_cant": "All cells and integer matrices.", "anchors": ["pkg/dem/Shop_01.cpp: Shop::flipCell"]}
{"id": "C183", "title": "getStress is the mean stress", "statement": "The stress times the volume is the sum of outer forces times positions in equilibrium, symmetric if moments cancel, and does not depend on the order of the bodies of contacts or on the images of bodies.", "quantifier": "for all scenes of spheres, contacts and volumes", "why_tests_cant": "All scenes.", "anchors": ["pkg/dem/Shop_02.cpp: Shop::getStress"]}
{"id": "C184", "title": "Stresses of bodies add up to the stress of the assembly", "statement": "The stresses of single bodies, weighted by the volumes of the spheres, are the stress of the assembly times its volume; each is symmetric if its moments cancel.", "quantifier": "for all scenes of spheres", "why_tests_cant": "All scenes.", "anchors": ["pkg/dem/Shop_02.cpp: Shop::getStressLWForEachBody"]}
{"id": "C185", "title": "normalShearStressTensors splits the stress", "statement": "The normal and the shear part add up to the stress with the sign asked for, strong and weak parts to the normal part, and strong contacts are the more compressed ones.", "quantifier": "for all periodic scenes, signs and thresholds", "why_tests_cant": "All scenes.", "anchors": ["pkg/dem/Shop_02.cpp: Shop::normalShearStressTensors"]}
{"id": "C186", "title": "fabricTensor is the mean of the contact directions", "statement": "The fabric tensor is the mean of n⊗n over the contacts in the box, symmetric and of trace one; strong and weak parts are the means over contacts more and less compressed than the threshold.", "quantifier": "for all scenes, cutoffs and thresholds", "why_tests_cant": "All scenes.", "anchors": ["pkg/dem/Shop_02.cpp: Shop::fabricTensor"]}
{"id": "C187", "title": "kineticEnergy is that of the free bodies", "statement": "kineticEnergy is the sum of translational and rotational energy of the free bodies and clumps, relative to the mean motion in a periodic cell; the body named has the most; it is zero after calm().", "quantifier": "for all scenes, orientations, inertias and velocity gradients", "why_tests_cant": "All scenes.", "anchors": ["pkg/dem/Shop_01.cpp: Shop::kineticEnergy", "pkg/dem/Shop_02.cpp: Shop::calm"]}
{"id": "C188", "title": "momentum and angularMomentum are those of all bodies", "statement": "momentum() is the linear and angularMomentum() the angular momentum of all bodies.", "quantifier": "for all scenes", "why_tests_cant": "All scenes.", "anchors": ["pkg/dem/Shop_01.cpp: Shop::momentum", "pkg/dem/Shop_01.cpp: Shop::angularMomentum", "pkg/dem/NewtonIntegrator.cpp: NewtonIntegrator::leapfrogSphericalRotate"]}
{"id": "C189", "title": "growParticles grows spheres and clumps in place", "statement": "All spheres and clumps grow by the factor, with density kept, clumps stay rigid, and contacts get the new radii and stiffnesses; bodies that are not to grow and their contacts stay as they are.", "quantifier": "for all scenes, factors and clumps", "why_tests_cant": "All scenes.", "anchors": ["pkg/dem/Shop_02.cpp: Shop::growParticles"]}
{"id": "C19", "title": "O.run(n) performs exactly n steps and O.stopAtTime stops", "statement": "O.run(n) started from iteration i stops at iteration i+n exactly; a positive O.stopAtTime stops the run at the first step whose end reaches that time.", "quantifier": "for every start iteration, n, dt and stop time", "why_tests_cant": "equality tests on accumulated time only fail for particular dt / stop time combinations, and non-termination cannot be observed", "anchors": ["core/SimulationFlow.cpp: singleAction", "core/ThreadRunner.cpp: run, call", "py/wrapper/yadeWrapper.cpp: pyOmega::run, stopAtTime_set"]}
{"id": "C190", "title": "unbalancedForce is zero in equilibrium only", "statement": "unbalancedForce is the mean (greatest) resultant on free bodies and clumps over the mean contact force, zero exactly in equilibrium.", "quantifier": "for all scenes and forces", "why_tests_cant": "All scenes.", "anchors": ["pkg/dem/Shop_01.cpp: Shop::unbalancedForce", "core/Clump.cpp: Clump::addForceTorqueFromMembers"]}
{"id": "C191", "title": "aabbExtrema is the smallest box", "statement": "aabbExtrema returns the smallest box around all spheres, cut by the cutoff about its centre.", "quantifier": "for all scenes and cutoffs", "why_tests_cant": "All scenes.", "anchors": ["pkg/dem/Shop_02.cpp: Shop::aabbExtrema"]}
{"id": "C192", "title": "Dynamic stresses of bodies and of the assembly agree", "statement": "getTotalDynamicStress is −1/V Σ m u⊗u with velocities relative to the mean motion, and the mean of the dynamic stresses of the bodies.", "quantifier": "for all scenes", "why_tests_cant": "All scenes.", "anchors": ["pkg/dem/Shop_02.cpp: Shop::getDynamicStress", "pkg/dem/Shop_02.cpp: Shop::getTotalDynamicStress"]}
{"id": "C193", "title": "setContactFriction sets bodies and contacts", "statement": "After setContactFriction moving bodies have the angle given, others keep theirs, and each contact has the smaller one.", "quantifier": "for all scenes and angles", "why_tests_cant": "All scenes.", "anchors": ["pkg/dem/Shop_02.cpp: Shop::setContactFriction"]}
{"id": "C194", "title": "Two steps are never executed at the same time", "statement": "At any time at most one thread executes a step of the simulation, be it in the background (O.run) or inside O.step().", "quantifier": "for all numbers of scripts and threads, all commands they and the engines give, and all interleavings", "why_tests_cant": "Interleavings of threads cannot be chosen by a test and are too many to try.", "anchors": ["core/ThreadRunner.cpp: ThreadRunner::call", "core/ThreadRunner.cpp: ThreadRunner::run", "py/wrapper/yadeWrapper.cpp: pyOmega::step", "py/wrapper/yadeWrapper.cpp: pyOmega::pause"]}
{"id": "C195", "title": "O.run(n) makes n steps", "statement": "After O.run(n) exactly n further steps are made, whatever earlier runs are still doing.", "quantifier": "for all sequences of requests, all step counts and all interleavings with the background threads", "why_tests_cant": "Interleavings of threads cannot be chosen by a test and are too many to try.", "anchors": ["core/ThreadRunner.cpp: ThreadRunner::run", "core/ThreadRunner.cpp: ThreadRunner::start", "core/ThreadRunner.cpp: ThreadRunner::stop", "core/SimulationFlow.cpp: SimulationFlow::singleAction", "py/wrapper/yadeWrapper.cpp: pyOmega::run", "py/wrapper/yadeWrapper.cpp: pyOmega::wait"]}
{"id": "C196", "title": "O.wait() raises when the run has failed", "statement": "If a step of the run throws, O.wait() (or O.run(n, True)) raises, and only then.", "quantifier": "for all sequences of runs, failing steps and interleavings", "why_tests_cant": "Interleavings of threads cannot be chosen by a test and are too many to try.", "anchors": ["core/ThreadRunner.cpp: ThreadRunner::run", "py/wrapper/yadeWrapper.cpp: pyOmega::wait", "py/wrapper/yadeWrapper.cpp: pyOmega::run"]}
{"id": "C197", "title": "Threads do not wait for each other for ever", "statement": "No commands of scripts and engines make threads wait for mutexes in a circle, or end the program.", "quantifier": "for all numbers of scripts and threads, all commands and all interleavings", "why_tests_cant": "Interleavings of threads cannot be chosen by a test and are too many to try.", "anchors": ["core/ThreadRunner.cpp: ThreadRunner::spawnSingleAction", "core/ThreadRunner.cpp: ThreadRunner::~ThreadRunner", "core/Omega.cpp: Omega::stop", "py/wrapper/yadeWrapper.cpp: pyOmega::reset", "py/wrapper/yadeWrapper.cpp: pyOmega::load"]}
{"id": "C198", "title": "The runner is not used after it is freed", "statement": "O.load and O.reset end the background threads before they free what these use.", "quantifier": "for all commands of a script and all interleavings", "why_tests_cant": "Interleavings of threads cannot be chosen by a test and are too many to try.", "anchors": ["core/ThreadRunner.cpp: ThreadRunner::~ThreadRunner", "core/ThreadRunner.cpp: ThreadRunner::run", "core/Omega.cpp: Omega::stop"]}
{"id": "C199", "title": "O.wait() returns only between steps", "statement": "When O.wait() returns no background step is being executed.", "quantifier": "for all numbers of scripts and threads, all commands and all interleavings", "why_tests_cant": "Interleavings of threads cannot be chosen by a test and are too many to try.", "anchors": ["py/wrapper/yadeWrapper.cpp: pyOmega::wait", "py/wrapper/yadeWrapper.cpp: pyOmega::pause", "core/ThreadRunner.cpp: ThreadRunner::stop"]}
{"id": "C20", "title": "Single-argument dispatch picks the functor of the nearest ancestor class", "statement": "For an object of any class the dispatcher runs the functor registered for the class itself or, failing that, for its closest ancestor; it reports 'no functor' only if no ancestor has one; asking again gives the same answer.", "quantifier": "for every class hierarchy, every set of registered functors and every sequence of lookups", "why_tests_cant": "hierarchies and lookup orders are unbounded and results are cached across lookups", "anchors": ["lib/multimethods/DynLibDispatcher.hpp: add1DEntry, locateMultivirtualFunctor1D", "lib/multimethods/Indexable.hpp"]}
{"id": "C200", "title": "A distributed run moves bodies as an ordinary run does", "statement": "After a scene was split among processes, every number of iterations of mpirun leaves each body, in the process it belongs to, with the position, velocity, orientation and other state that an ordinary O.run of the same scene gives it, whatever the contact laws, the integrator, the number of processes and the subdomains.", "quantifier": "all contact laws, integrators, scenes, assignments of bodies to processes, numbers of iterations", "why_tests_cant": "A test compares one scene with one number of processes over some iterations; the claim is about all laws, decompositions and lengths of runs.", "anchors": ["py/mpy.py: splitScene", "py/mpy.py: sendRecvStates", "py/mpy.py: isendRecvForces", "py/mpy.py: receiveForces", "py/mpy.py: mpirun", "pkg/common/InteractionLoop.cpp: InteractionLoop::action", "pkg/dem/NewtonIntegrator.cpp: NewtonIntegrator::action", "core/Subdomain.hpp: Subdomain::setStateValuesFromIds"]}
{"id": "C201", "title": "The master knows the whole force on each of its bodies", "statement": "In every iteration of a distributed run, O.forces of the master has for each body of the master, when it is integrated, the sum of the forces by all bodies in contact with it, those of workers included.", "quantifier": "all contact laws, scenes, assignments of bodies to processes, iterations", "why_tests_cant": "Whether a force is counted once depends on how contacts were created before the split and on which processes list them.", "anchors": ["py/mpy.py: splitScene", "py/mpy.py: sendRecvStates", "py/mpy.py: isendRecvForces", "py/mpy.py: receiveForces", "py/mpy.py: mpirun", "pkg/common/InteractionLoop.cpp: InteractionLoop::action", "pkg/dem/NewtonIntegrator.cpp: NewtonIntegrator::action", "core/Subdomain.hpp: Subdomain::setStateValuesFromIds"]}
{"id": "C202", "title": "Merging and splitting again does not change the motion of bodies", "statement": "A run with any number of merges and splits between its iterations (mpirun with mergeSplit) gives in the merged scene the positions and velocities that an ordinary run gives.", "quantifier": "all contact laws, scenes, assignments of bodies, sequences of splits, iterations and merges", "why_tests_cant": "How often the scene is re-split depends on the motion of bodies; a test cannot try all sequences, and errors that are small after one merge add up.", "anchors": ["py/mpy.py: splitScene", "py/mpy.py: sendRecvStates", "py/mpy.py: isendRecvForces", "py/mpy.py: receiveForces", "py/mpy.py: mpirun", "pkg/common/InteractionLoop.cpp: InteractionLoop::action", "pkg/dem/NewtonIntegrator.cpp: NewtonIntegrator::action", "core/Subdomain.hpp: Subdomain::setStateValuesFromIds", "py/mpy.py: mergeScene", "core/InteractionContainer.cpp: InteractionContainer::preSave"]}
{"id": "C203", "title": "Results do not depend on how the collider lists contacts", "statement": "The motion of bodies in an ordinary run does not depend on which additional pairs of distant bodies the collider has listed, on the order of interactions, or on which of the two bodies of an interaction comes first, for every contact law that treats both bodies alike.", "quantifier": "all symmetric contact laws, all integrators, all scenes, all lists with the pairs that touch, all numbers of iterations", "why_tests_cant": "The order of interactions depends on the history of the sort; a test sees one order.", "anchors": ["pkg/common/InteractionLoop.cpp: InteractionLoop::action", "pkg/common/InsertionSortCollider.cpp: InsertionSortCollider::handleBoundInversion", "pkg/dem/NewtonIntegrator.cpp: NewtonIntegrator::action"]}
{"id": "C204", "title": "Cohesive contacts never exceed their strength", "statement": "After every step, the tension of every cohesive contact is at most its normalAdhesion and its shear force at most the shear strength, shearAdhesion plus friction under the present normal force (shearAdhesion alone where cohesion disables friction).", "quantifier": "all materials, contacts, histories, motions of both spheres, time steps, periodic shifts", "why_tests_cant": "Tests load a contact along a few paths; the limit has to hold on every path, including those where the bond breaks in the same step.", "anchors": ["pkg/dem/CohesiveFrictionalContactLaw.cpp: Law2_ScGeom6D_CohFrictPhys_CohesionMoment::go", "pkg/dem/CohesiveFrictionalContactLaw.cpp: Ip2_CohFrictMat_CohFrictMat_CohFrictPhys::go", "pkg/dem/CohesiveFrictionalContactLaw.hpp: CohFrictPhys, CohFrictMat"]}
{"id": "C205", "title": "Cohesive contacts below their strength are elastic", "statement": "A contact whose elastic tension and shear force are below its strength is kept, unbroken, with the forces of springs; with negative strength (the default, documented as purely elastic) that is always so.", "quantifier": "all contacts, all strengths including the default ones, all motions", "why_tests_cant": "A test with given strengths says nothing about the default, nor about paths near the limit.", "anchors": ["pkg/dem/CohesiveFrictionalContactLaw.cpp: Law2_ScGeom6D_CohFrictPhys_CohesionMoment::go", "pkg/dem/CohesiveFrictionalContactLaw.hpp: CohFrictPhys, CohFrictMat"]}
{"id": "C206", "title": "Contacts without a bond are frictional contacts", "statement": "Spheres with CohFrictMat whose contacts were never made cohesive get the forces and torques that spheres with FrictMat get from Law2_ScGeom_FrictPhys_CundallStrack, at every step of every motion; so does a contact from the step after its fragile bond broke in shear: bonds do not heal.", "quantifier": "all motions, any number of contacts made and lost, all time steps and periodic shifts, all positive stiffnesses", "why_tests_cant": "Two implementations agree on the trajectories tried; agreement on all of them needs a proof.", "anchors": ["pkg/dem/CohesiveFrictionalContactLaw.cpp: Law2_ScGeom6D_CohFrictPhys_CohesionMoment::go", "pkg/dem/CohesiveFrictionalContactLaw.cpp: Ip2_CohFrictMat_CohFrictMat_CohFrictPhys::go", "pkg/dem/ElasticContactLaw.cpp: Law2_ScGeom_FrictPhys_CundallStrack::go", "pkg/dem/FrictPhys.cpp: Ip2_FrictMat_FrictMat_FrictPhys::go"]}
{"id": "C207", "title": "The normal force of cohesive contacts is the documented function of distance", "statement": "The normal force is kn times the overlap less the plastic displacement, cut off at the tensile strength; plastic displacement changes only then, so that contacts that do not break (fragile=False) unload elastically.", "quantifier": "all contacts, all overlaps, all plastic displacements", "why_tests_cant": "The formula has to hold in combination with sliding and breaking in the same step.", "anchors": ["pkg/dem/CohesiveFrictionalContactLaw.cpp: Law2_ScGeom6D_CohFrictPhys_CohesionMoment::go", "pkg/dem/CohesiveFrictionalContactLaw.hpp: CohFrictPhys, CohFrictMat"]}
{"id": "C208", "title": "When the law gives up a cohesive contact", "statement": "A contact is lost exactly when its elastic tension exceeds the strength and it is fragile or was drawn out beyond unpMax; with neverErase it is never lost.", "quantifier": "all contacts, all configurations of the law", "why_tests_cant": "Tests see contacts lost, not that no others are.", "anchors": ["pkg/dem/CohesiveFrictionalContactLaw.cpp: Law2_ScGeom6D_CohFrictPhys_CohesionMoment::go"]}
{"id": "C209", "title": "Sliding of cohesive contacts dissipates energy", "statement": "The plastic dissipation reported for a step is not negative and together with the elastic energy left is at most the elastic energy the step began with after loading.", "quantifier": "all contacts, trial forces, states of the bond", "why_tests_cant": "Energy balances of a run add up over many contacts; a gain in one hides in the total.", "anchors": ["pkg/dem/CohesiveFrictionalContactLaw.cpp: Law2_ScGeom6D_CohFrictPhys_CohesionMoment::go"]}
{"id": "C21", "title": "Two-argument dispatch picks the closest pair and reports ambiguity reliably", "statement": "For two objects the dispatcher selects the functor whose two registered classes minimise the summed inheritance distance, raises an error exactly when two different functors are equally close, is insensitive to argument order up to the reported swap for symmetric registrations, and gives the same answer every time it is asked.", "quantifier": "for every hierarchy, functor set and sequence of lookups", "why_tests_cant": "caching makes the outcome depend on the whole lookup history", "anchors": ["lib/multimethods/DynLibDispatcher.hpp: add2DEntry, locateMultivirtualFunctor2D"]}
{"id": "C210", "title": "elasticEnergy() is the energy stored in all contacts", "statement": "elasticEnergy() of the law is the sum over all contacts of the energies of the four springs (normal, shear, bending, twist).", "quantifier": "all sets of contacts, all stiffnesses including zero", "why_tests_cant": "Whether the sum is a number depends on each single contact of the run.", "anchors": ["pkg/dem/CohesiveFrictionalContactLaw.cpp: Law2_ScGeom6D_CohFrictPhys_CohesionMoment::totalElastEnergy", "pkg/dem/CohesiveFrictionalContactLaw.cpp: Ip2_CohFrictMat_CohFrictMat_CohFrictPhys::go"]}
{"id": "C211", "title": "setCohesionNow makes the present contacts cohesive and no later ones", "statement": "After setCohesionNow=True all contacts between cohesive bodies in the next step become cohesive, and contacts of later steps do not.", "quantifier": "all sequences of iterations with any contacts, requests at any time", "why_tests_cant": "The flag is reset by the calls of later iterations; the outcome depends on the whole sequence of contacts.", "anchors": ["pkg/dem/CohesiveFrictionalContactLaw.cpp: Ip2_CohFrictMat_CohFrictMat_CohFrictPhys::go"]}
{"id": "C212", "title": "Loads of cohesive contacts balance", "statement": "Forces and torques of every cohesive contact, bending and twisting moments included, have zero sum and zero moment about every point (with the second body at its periodic image).", "quantifier": "all contacts, states, periodic shifts, configurations of the law", "why_tests_cant": "A test checks the conservation of momentum within tolerance on some run.", "anchors": ["pkg/dem/CohesiveFrictionalContactLaw.cpp: Law2_ScGeom6D_CohFrictPhys_CohesionMoment::go"]}
{"id": "C213", "title": "Bending and twisting moments follow the relative rotation since the bond was made", "statement": "Twist and bending are the parts along and across the normal of the rotation of one body relative to the other since the bond was made; they vanish under common rotations, turn with the pair, moments are at most the coefficients of rolling and twisting friction times the normal force, oppose the relative rotation, and are zero without a bond unless asked for.", "quantifier": "all orientations, rotations and axes, all stiffnesses and coefficients", "why_tests_cant": "Rotations form a continuum, and composition of quaternions has sign ambiguities that show only for some of them.", "anchors": ["pkg/dem/CohesiveFrictionalContactLaw.cpp: Law2_ScGeom6D_CohFrictPhys_CohesionMoment::go", "pkg/dem/ScGeom.cpp: ScGeom6D::precomputeRotations, ScGeom6D::initRotations"]}
{"id": "C214", "title": "Parameters of cohesive contacts are the documented ones and do not depend on the order of bodies", "statement": "Stiffnesses, strengths, friction and rolling limits of a new contact do not depend on which body comes first; stiffness is that of FrictPhys; for equal materials strength is the cohesion times the square of the smaller radius and the rotational stiffness alpha times ks times both radii.", "quantifier": "all materials, all radii", "why_tests_cant": "Order of bodies is the choice of the collider; tests use equal bodies.", "anchors": ["pkg/dem/CohesiveFrictionalContactLaw.cpp: Ip2_CohFrictMat_CohFrictMat_CohFrictPhys::go", "pkg/dem/FrictPhys.cpp: Ip2_FrictMat_FrictMat_FrictPhys::go"]}
{"id": "C215", "title": "Creep relaxes the shear force", "statement": "With shear_creep and bodies at rest, the shear force of a contact decays.", "quantifier": "all time steps, viscosities, stiffnesses", "why_tests_cant": "Decay in a run with one time step says nothing about others.", "anchors": ["pkg/dem/CohesiveFrictionalContactLaw.cpp: Law2_ScGeom6D_CohFrictPhys_CohesionMoment::go"]}
{"id": "C216", "title": "Isotropic compression keeps the cell large enough", "statement": "While PeriIsoCompressor controls the cell, no edge gets shorter than 2.1 times the greatest body, and none changes by more than a hundredth of charLen per step.", "quantifier": "all forces, stiffnesses and stress series, all rectangular cells, any number of steps", "why_tests_cant": "Whether a compression run meets the limit depends on the packing; the limit has to hold for every history of forces.", "anchors": ["pkg/dem/PeriIsoCompressor.cpp: PeriIsoCompressor::action", "pkg/dem/PeriIsoCompressor.hpp: PeriIsoCompressor, PeriTriaxController", "core/Cell.cpp: Cell::integrateAndUpdate"]}
{"id": "C217", "title": "keepProportions keeps proportions", "statement": "With keepProportions the ratios of the edges of the cell are exactly those at the start, through every run.", "quantifier": "all forces and stress series, any number of steps, also after the last stress", "why_tests_cant": "Rounding aside, a test sees a few steps of one packing.", "anchors": ["pkg/dem/PeriIsoCompressor.cpp: PeriIsoCompressor::action", "core/Cell.cpp: Cell::integrateAndUpdate"]}
{"id": "C218", "title": "The next stress is taken when the packing is at rest at the present one", "statement": "PeriIsoCompressor goes to the next stress, and finally runs doneHook, only when the stress is within 0.5% of the goal and the unbalanced force is below maxUnbalanced.", "quantifier": "all states of the engine, all measured stresses and unbalanced forces, all steps", "why_tests_cant": "Which step first meets the condition depends on the run; the stale value is used only in some steps.", "anchors": ["pkg/dem/PeriIsoCompressor.cpp: PeriIsoCompressor::action", "pkg/dem/PeriIsoCompressor.hpp: PeriIsoCompressor, PeriTriaxController"]}
{"id": "C219", "title": "After the last stress the cell stays", "statement": "When PeriIsoCompressor has reached the last stress, the cell keeps its size.", "quantifier": "all runs, any number of steps after the end", "why_tests_cant": "Tests stop at doneHook; the drift afterwards is slow.", "anchors": ["pkg/dem/PeriIsoCompressor.cpp: PeriIsoCompressor::action", "core/Cell.cpp: Cell::integrateAndUpdate"]}
{"id": "C22", "title": "Dispatch depends only on which functors are registered, not on when", "statement": "The functor chosen for given arguments is a function of the set of registered functors; it does not depend on lookups performed before a functor was added.", "quantifier": "for every interleaving of registrations and lookups", "why_tests_cant": "stale cache entries appear only for particular interleavings", "anchors": ["lib/multimethods/DynLibDispatcher.hpp", "core/Dispatcher.hpp: add, functors_set"]}
{"id": "C220", "title": "PeriIsoCompressor rejects unusable scenes by exceptions", "statement": "On scenes without a periodic cell, without a body 0, or with a cell too small, the engine raises an exception.", "quantifier": "all scenes and attributes", "why_tests_cant": "The failures end the process, so that no test can catch them.", "anchors": ["pkg/dem/PeriIsoCompressor.cpp: PeriIsoCompressor::action"]}
{"id": "C221", "title": "PeriTriaxController respects maxStrainRate", "statement": "The strain rate prescribed along each axis is at most maxStrainRate in absolute value.", "quantifier": "all goals, masks, stresses, stiffnesses, dynamic and static control, all previous rates", "why_tests_cant": "The limit is followed by another correction, which only particular cells meet.", "anchors": ["pkg/dem/PeriIsoCompressor.cpp: PeriTriaxController::action, PeriTriaxController::strainStressStiffUpdate", "pkg/dem/PeriIsoCompressor.hpp: PeriIsoCompressor, PeriTriaxController"]}
{"id": "C222", "title": "PeriTriaxController keeps the cell large enough", "statement": "No edge of the cell gets shorter than 2.1 times the span of the bodies.", "quantifier": "all cells, goals, rates and time steps", "why_tests_cant": "The error depends on the unit of length and shows only near the limit.", "anchors": ["pkg/dem/PeriIsoCompressor.cpp: PeriTriaxController::action, PeriTriaxController::strainStressStiffUpdate", "core/Cell.cpp: Cell::integrateAndUpdate"]}
{"id": "C223", "title": "Without damping strain goals are reached at once", "statement": "With growDamping=0, documented as perfect control, a strain goal is reached in one step unless a limit is met, and kept.", "quantifier": "all goals, transformations, time steps", "why_tests_cant": "Tests use the default damping and look at the end of the run.", "anchors": ["pkg/dem/PeriIsoCompressor.cpp: PeriTriaxController::action, PeriTriaxController::strainStressStiffUpdate", "pkg/dem/PeriIsoCompressor.hpp: PeriIsoCompressor, PeriTriaxController", "core/Cell.cpp: Cell::integrateAndUpdate"]}
{"id": "C224", "title": "doneHook of PeriTriaxController runs only in the desired state", "statement": "doneHook runs only if all stress and strain goals are met within their tolerances and the unbalanced force is below maxUnbalanced.", "quantifier": "all states, goals, masks, measured values", "why_tests_cant": "Stale predictions coincide with the truth in quiet runs.", "anchors": ["pkg/dem/PeriIsoCompressor.cpp: PeriTriaxController::action, PeriTriaxController::strainStressStiffUpdate", "pkg/dem/PeriIsoCompressor.hpp: PeriIsoCompressor, PeriTriaxController"]}
{"id": "C225", "title": "Walls move no faster than max_vel", "statement": "Walls under stress control never move faster than max_vel1, max_vel2, max_vel3.", "quantifier": "all forces, stiffnesses, damping coefficients and histories", "why_tests_cant": "The excess depends on the history of saturated steps.", "anchors": ["pkg/dem/TriaxialStressController.cpp: TriaxialStressController::action, controlExternalStress, computeStressStrain", "pkg/dem/TriaxialStressController.hpp: TriaxialStressController"]}
{"id": "C226", "title": "Stress control converges", "statement": "Against an elastic sample the stress on a wall under control converges to the goal.", "quantifier": "all stiffnesses, goals, initial stresses, any number of steps", "why_tests_cant": "Convergence is a statement about infinitely many steps and all ratios of stiffness.", "anchors": ["pkg/dem/TriaxialStressController.cpp: TriaxialStressController::action, controlExternalStress, computeStressStrain", "pkg/dem/TriaxialStressController.hpp: TriaxialStressController"]}
{"id": "C227", "title": "Strain rates approach the goal as documented", "statement": "Under strain rate control the strain rate approaches the goal like strainDamping^n.", "quantifier": "all boxes, velocities, damping coefficients, n", "why_tests_cant": "Asymptotic statements cannot be tested, and one active wall is a usual setup.", "anchors": ["pkg/dem/TriaxialStressController.cpp: TriaxialStressController::action, controlExternalStress, computeStressStrain", "pkg/dem/TriaxialStressController.hpp: TriaxialStressController"]}
{"id": "C228", "title": "Stress and strain of a box are those of its contents", "statement": "For uniform stress the stress given for every wall is the column of the stress tensor and meanStress a third of its trace; volumetricStrain is the logarithm of the ratio of volumes; particlesVolume is right to 1e-7.", "quantifier": "all stress tensors, box sizes, reference sizes, sets of spheres", "why_tests_cant": "Signs and areas of six walls have to fit for every tensor.", "anchors": ["pkg/dem/TriaxialStressController.cpp: TriaxialStressController::action, controlExternalStress, computeStressStrain"]}
{"id": "C229", "title": "Walls are addressed safely", "statement": "stress(id) gives the stress of the wall or raises an exception, and forces are those of the walls named in the attributes.", "quantifier": "all numbers, all changes of the attributes", "why_tests_cant": "Reading beyond an array often gives plausible values.", "anchors": ["pkg/dem/TriaxialStressController.cpp: TriaxialStressController::getStress, action", "pkg/dem/TriaxialStressController.hpp: TriaxialStressController"]}
{"id": "C23", "title": "The pair filter of the colliders is symmetric and complete", "statement": "Whether two bodies may collide does not depend on the order they are given, and holds exactly when both exist, share a group mask bit, are not both in a self-avoiding mask, are not clumps, are not members of one clump, and at least one belongs to the running subdomain without being a subdomain box of its own domain. Deleted bodies are answered with 'no'.", "quantifier": "for every pair of bodies and every mask, clump and subdomain assignment", "why_tests_cant": "the decision table over unbounded masks and ids is too large, and a null body is undefined behaviour rather than a wrong answer", "anchors": ["pkg/common/Collider.cpp: mayCollide", "core/Body.hpp: maskCompatible, isClump, isClumpMember, isStandalone"]}
{"id": "C230", "title": "Particles grow by at most maxMultiplier", "statement": "In internal compaction diameters grow by a factor of at most maxMultiplier (finalMaxMultiplier in the second stage) per step.", "quantifier": "all mean stresses, goals, masks, multipliers", "why_tests_cant": "Tensile mean stresses occur only in particular packings.", "anchors": ["pkg/dem/TriaxialStressController.cpp: TriaxialStressController::action, controlExternalStress, computeStressStrain", "pkg/dem/TriaxialStressController.hpp: TriaxialStressController"]}
{"id": "C231", "title": "Straining starts smoothly", "statement": "UniaxialStrainer raises the strain rate linearly from zero to strainRate within initAccelTime and keeps it from then on.", "quantifier": "all specimens, rates, times of acceleration, time steps, times of start, any number of steps", "why_tests_cant": "The rate in each of unboundedly many steps is meant; a test looks at the end of the acceleration of one run.", "anchors": ["pkg/dem/UniaxialStrainer.cpp: UniaxialStrainer::action", "pkg/dem/UniaxialStrainer.cpp: UniaxialStrainer::init", "pkg/dem/UniaxialStrainer.hpp: UniaxialStrainer"]}
{"id": "C232", "title": "Straining stops at stopStrain", "statement": "UniaxialStrainer strains a specimen up to stopStrain exactly, never beyond it, turns itself off and stops the simulation idleIterations later.", "quantifier": "all specimens, rates, stop strains in tension and compression, any number of steps", "why_tests_cant": "Which step reaches the strain depends on rate and time step; the error for compression depends on the sign only.", "anchors": ["pkg/dem/UniaxialStrainer.cpp: UniaxialStrainer::action", "pkg/dem/UniaxialStrainer.hpp: UniaxialStrainer", "pkg/dem/NewtonIntegrator.cpp: NewtonIntegrator::action"]}
{"id": "C233", "title": "Straining is reversed at limitStrain", "statement": "When limitStrain is reached, the sense of straining is inverted.", "quantifier": "all specimens, limits, rates, any number of steps", "why_tests_cant": "That an attribute has no effect on any run is a statement about all runs.", "anchors": ["pkg/dem/UniaxialStrainer.cpp: UniaxialStrainer::action", "pkg/dem/UniaxialStrainer.hpp: UniaxialStrainer"]}
{"id": "C234", "title": "A specimen is strained at strainRate", "statement": "After n steps the specimen is 1+n*strainRate*dt times as long as at first (absSpeed accordingly), whichever ends are moved, and strain says so.", "quantifier": "all specimens, rates, speeds, asymmetries, initial velocities, any number of steps", "why_tests_cant": "Initial velocities of an end that is not to be moved are usually zero in tests.", "anchors": ["pkg/dem/UniaxialStrainer.cpp: UniaxialStrainer::action", "pkg/dem/UniaxialStrainer.cpp: UniaxialStrainer::init", "pkg/dem/UniaxialStrainer.hpp: UniaxialStrainer", "pkg/dem/NewtonIntegrator.cpp: NewtonIntegrator::action"]}
{"id": "C235", "title": "setSpeeds gives a homogeneous field", "statement": "With setSpeeds the velocities of all particles, up to the ends, are those of a homogeneous strain rate from the first step, for all values of asymmetry.", "quantifier": "all specimens, positions, rates, asymmetries", "why_tests_cant": "The field has to fit for all pairs of particles.", "anchors": ["pkg/dem/UniaxialStrainer.cpp: UniaxialStrainer::init", "pkg/dem/UniaxialStrainer.cpp: UniaxialStrainer::action", "pkg/dem/UniaxialStrainer.hpp: UniaxialStrainer"]}
{"id": "C236", "title": "UniaxialStrainer rejects unusable settings", "statement": "Unusable settings (no ids, no length, no cross section, undocumented asymmetry) give exceptions, the specimen is not strained; ends are blocked as asked for.", "quantifier": "all settings, all specimens, repeated calls", "why_tests_cant": "Undefined behaviour often goes unnoticed; a second call after an exception is not made by tests.", "anchors": ["pkg/dem/UniaxialStrainer.cpp: UniaxialStrainer::init", "pkg/dem/UniaxialStrainer.cpp: UniaxialStrainer::action", "pkg/dem/UniaxialStrainer.hpp: UniaxialStrainer"]}
{"id": "C237", "title": "avgStress is the stress in the specimen", "statement": "avgStress is the stress with which both ends are pulled, positive in tension, updated every stressUpdateInterval iterations.", "quantifier": "all forces, cross sections, intervals, iterations", "why_tests_cant": "Sign and mean have to be right for all forces on any number of bodies.", "anchors": ["pkg/dem/UniaxialStrainer.cpp: UniaxialStrainer::action", "pkg/dem/UniaxialStrainer.cpp: UniaxialStrainer::computeAxialForce", "pkg/dem/UniaxialStrainer.hpp: UniaxialStrainer"]}
{"id": "C238", "title": "A smoothed value is an average", "statement": "GaussAverage.avg gives a value between the least and the greatest value of the points within relThreshold*stDev, reproduces equal values, and is not changed by points farther away.", "quantifier": "all containers made and filled by scripts, all places asked for", "why_tests_cant": "Unboundedly many points at arbitrary places enter every value.", "anchors": ["lib/smoothing/WeightedAverage2d.hpp: WeightedAverage", "lib/smoothing/WeightedAverage2d.hpp: SymmGaussianDistributionAverage", "lib/smoothing/WeightedAverage2d.hpp: pyGaussAverage"]}
{"id": "C239", "title": "All points within reach are used", "statement": "GaussAverage.avg uses every point added that is no farther than relThreshold*stDev from the place asked for.", "quantifier": "all grids, points, places, deviations, thresholds", "why_tests_cant": "Which points are left out depends on the place within the cells; an average without some points looks plausible.", "anchors": ["lib/smoothing/WeightedAverage2d.hpp: GridContainer", "lib/smoothing/WeightedAverage2d.hpp: WeightedAverage"]}
{"id": "C24", "title": "The sweep keeps each axis list a sorted permutation", "statement": "After each collider run the list of box bounds on every axis is sorted by coordinate and contains exactly the lower and upper bound of every body, whatever the motion since the last run.", "quantifier": "for every previous order and every set of new coordinates", "why_tests_cant": "n! orders and arbitrary coordinates", "anchors": ["pkg/common/InsertionSortCollider.cpp: insertionSort, action"]}
{"id": "C240", "title": "Settings of a GaussAverage take effect", "statement": "Setting stDev or relThreshold on a container gives the results of a container made with them.", "quantifier": "all containers, points, settings before or after the points", "why_tests_cant": "A changed attribute reads as set while a copy of the old value is in use.", "anchors": ["lib/smoothing/WeightedAverage2d.hpp: SymmGaussianDistributionAverage", "lib/smoothing/WeightedAverage2d.hpp: pyGaussAverage"]}
{"id": "C241", "title": "Points of a GaussAverage are in their cells", "statement": "data gives the points accepted, each as often as added; cellNum, cellSum and cellAvg are those of the points inside the cell; other cells are refused.", "quantifier": "all containers, points, cells", "why_tests_cant": "Points on sides of cells and multiplicities for any number of points; reads outside vectors often go unnoticed.", "anchors": ["lib/smoothing/WeightedAverage2d.hpp: GridContainer", "lib/smoothing/WeightedAverage2d.hpp: pyGaussAverage"]}
{"id": "C242", "title": "Clipping polygons", "statement": "A point is inside a polygon independently of the first vertex and of the sense of rotation; cutting a polygon along a diagonal partitions it; triangles and rectangles have the points they have; points outside inclusive or inside exclusive polygons are refused and have no average.", "quantifier": "all polygons with any number of vertices, all points", "why_tests_cant": "Points level with vertices are exceptional and never met by random tests.", "anchors": ["py/WeightedAverage2d.cpp: pointInsidePolygon", "lib/smoothing/WeightedAverage2d.hpp: pyGaussAverage"]}
{"id": "C243", "title": "Smoothing is independent of the unit of length", "statement": "With all lengths k times as large avg gives the same and avgPerUnitArea gives the k^2-th part.", "quantifier": "all factors, containers, scripts, places", "why_tests_cant": "Two runs with all lengths changed have to be compared, for all factors.", "anchors": ["lib/smoothing/WeightedAverage2d.hpp: WeightedAverage", "lib/smoothing/WeightedAverage2d.hpp: SymmGaussianDistributionAverage", "lib/smoothing/WeightedAverage2d.hpp: pyGaussAverage"]}
{"id": "C244", "title": "integral integrates piecewise linear functions", "statement": "linterpolation.integral gives the integral of the piecewise linear function through the points; lists of different length are refused.", "quantifier": "all lists of points in increasing order, of any length", "why_tests_cant": "An integral over a function with any number of points is meant.", "anchors": ["py/linterpolation.py: integral"]}
{"id": "C245", "title": "xFractionalFromIntegral inverts the integral", "statement": "It gives the place in the range up to which the integral has the value wanted, and an error if the value is not reached in the range.", "quantifier": "all functions that are not negative, all values", "why_tests_cant": "Rounding of integers, zeros at points and values at the very end are exceptional.", "anchors": ["py/linterpolation.py: xFractionalFromIntegral", "py/linterpolation.py: revIntegrateLinear"]}
{"id": "C246", "title": "xFromIntegral inverts the integral of periodic functions", "statement": "It gives the place up to which the integral of the periodic continuation has the value wanted, for all values.", "quantifier": "all functions that are not negative, all values, positive and negative", "why_tests_cant": "Any number of periods, and multiples of the integral of one.", "anchors": ["py/linterpolation.py: xFromIntegral", "py/linterpolation.py: integral", "py/linterpolation.py: xFractionalFromIntegral"]}
{"id": "C247", "title": "sanitizeInterpolation keeps the function", "statement": "The points given span at least the interval wanted, stay in increasing order, and the function is the same everywhere.", "quantifier": "all functions, all intervals", "why_tests_cant": "The functions have to agree everywhere.", "anchors": ["py/linterpolation.py: sanitizeInterpolation"]}
{"id": "C248", "title": "plot data are a table", "statement": "After any calls of the functions for plot data all columns are of equal length; addData adds one row with the numbers given and nan elsewhere, new columns are nan in the rows before, and rows before are kept.", "quantifier": "all sequences of calls, all names and values, all orders of dictionaries", "why_tests_cant": "Columns appear at any time, and the order of dictionaries is arbitrary.", "anchors": ["py/plot.py: addData", "py/plot.py: addDataColumns", "py/plot.py: splitData", "py/plot.py: reverseData", "py/plot.py: resetData", "py/plot.py: reset", "py/plot.py: addImgData"]}
{"id": "C249", "title": "images belong to rows", "statement": "The image given with a row is at the place of that row, in all steps.", "quantifier": "all sequences of steps, all names of images, all orders of dictionaries", "why_tests_cant": "Names may appear later, rows may come without images.", "anchors": ["py/plot.py: addImgData", "py/plot.py: addData"]}
{"id": "C25", "title": "The incremental collider misses no overlap", "statement": "If before a collider run every pair of overlapping, collidable bodies had an interaction, then after the bodies moved arbitrarily and the collider ran again, every pair of collidable bodies whose boxes overlap (by more than a common face) has an interaction.", "quantifier": "for every number of bodies, every old and new box positions, and by induction every number of runs", "why_tests_cant": "the invariant couples three axis lists and all past runs; a missed pair shows only for particular motions", "anchors": ["pkg/common/InsertionSortCollider.cpp: action, insertionSort, handleBoundInversion", "pkg/common/InsertionSortCollider.hpp: spatialOverlap, shouldBeErased"]}
{"id": "C250", "title": "reset removes data, plots and labels", "statement": "After plot.reset nothing recorded before is left; resetData removes all data and keeps plots and labels.", "quantifier": "all states", "why_tests_cant": "What is left shows in later calls.", "anchors": ["py/plot.py: reset", "py/plot.py: resetData", "py/plot.py: addData"]}
{"id": "C251", "title": "reverseData reverses rows", "statement": "The order of rows is reversed, values of one row stay together, and reversing twice changes nothing.", "quantifier": "all tables", "why_tests_cant": "All tables are meant.", "anchors": ["py/plot.py: reverseData"]}
{"id": "C252", "title": "vectors are recorded by component", "statement": "addData records each component of a vector in a column of its own, next to the numbers given, and refuses other sequences.", "quantifier": "all names and values", "why_tests_cant": "Names of components may be names of numbers.", "anchors": ["py/plot.py: addData"]}
{"id": "C253", "title": "saveDataTxt writes the table", "statement": "The file has one line per row with the values of the variables named, or of all; variables may be given as a tuple, list or set.", "quantifier": "all tables, all choices of variables", "why_tests_cant": "All tables are meant.", "anchors": ["py/plot.py: saveDataTxt"]}
{"id": "C254", "title": "prescribed paths are followed", "statement": "Peri3dController changes each prescribed strain, and each ideal stress, linearly between the points of its path, and reaches the goal after nSteps steps.", "quantifier": "all paths, goals, masks, numbers of steps, stresses and time steps", "why_tests_cant": "Any path may be given, errors add up over all steps.", "anchors": ["pkg/dem/PeriIsoCompressor.cpp: Peri3dController::action", "pkg/dem/PeriIsoCompressor.hpp: Peri3dController"]}
{"id": "C255", "title": "strain rates are limited", "statement": "No component of the strain rate applied exceeds maxStrainRate; when the limit acts all components and the progress of the step are reduced alike; strain records what was applied.", "quantifier": "all states and inputs", "why_tests_cant": "The limit acts in states tests do not reach.", "anchors": ["pkg/dem/PeriIsoCompressor.cpp: Peri3dController::action", "pkg/dem/PeriIsoCompressor.hpp: Peri3dController"]}
{"id": "C256", "title": "the cell gets the strain prescribed", "statement": "The velocity gradient makes the cell deform by the strain rate, without rotation, so that an undeformed cell ends up deformed by the goal.", "quantifier": "all deformations, rates and time steps", "why_tests_cant": "Needs polar decompositions of all matrices.", "anchors": ["pkg/dem/PeriIsoCompressor.cpp: Peri3dController::action", "pkg/dem/PeriIsoCompressor.hpp: Peri3dController", "core/Cell.cpp: integrateAndUpdate"]}
{"id": "C257", "title": "the controller stops at the end", "statement": "Without doneHook the engine stops exactly after nSteps steps or when a strain exceeds maxStrain; with it, the hook is run and the engine may go on.", "quantifier": "all states and inputs", "why_tests_cant": "Long runs, any number of steps after the end.", "anchors": ["pkg/dem/PeriIsoCompressor.cpp: Peri3dController::action", "pkg/dem/PeriIsoCompressor.hpp: Peri3dController"]}
{"id": "C258", "title": "stresses are driven towards ideal ones", "statement": "Where a stress is prescribed the strain rate is lowered if the extrapolated stress is above the ideal one and raised otherwise, and a stress of zero is reached from any other.", "quantifier": "all states, stresses and inputs", "why_tests_cant": "Depends on all histories of stresses.", "anchors": ["pkg/dem/PeriIsoCompressor.cpp: Peri3dController::action", "pkg/dem/PeriIsoCompressor.hpp: Peri3dController"]}
{"id": "C259", "title": "viscoelastic normal forces do not attract", "statement": "The normal force of a viscoelastic contact never attracts, its damping never adds energy, and the loads on both bodies are in balance.", "quantifier": "all parameters, positions, velocities and periodic images", "why_tests_cant": "A continuum of states, balance is needed about each point.", "anchors": ["pkg/dem/ViscoelasticPM.cpp: Law2_ScGeom_ViscElPhys_Basic::go", "pkg/dem/ViscoelasticPM.cpp: computeForceTorqueViscEl", "pkg/dem/LudingPM.cpp: Law2_ScGeom_LudingPhys_Basic::go"]}
{"id": "C26", "title": "The initial sweep finds every overlap", "statement": "After an initial sort, along whichever axis is configured, every pair of collidable bodies whose boxes overlap (by more than a common face) has an interaction.", "quantifier": "for every number of bodies, boxes and sort axis, every previous state of collider and interactions", "why_tests_cant": "completeness over all box configurations", "anchors": ["pkg/common/InsertionSortCollider.cpp: action (initial sweep)"]}
{"id": "C260", "title": "friction limits the shear force", "statement": "The shear force of a viscoelastic contact does not exceed the normal force times the tangent of the friction angle; below, it is elastic, and kept from step to step.", "quantifier": "all parameters, states and histories", "why_tests_cant": "Excess shows only for certain speeds.", "anchors": ["pkg/dem/ViscoelasticPM.cpp: Law2_ScGeom_ViscElPhys_Basic::go", "pkg/dem/ViscoelasticPM.cpp: computeForceTorqueViscEl", "pkg/dem/LudingPM.cpp: Law2_ScGeom_LudingPhys_Basic::go"]}
{"id": "C261", "title": "parameters of a contact from those of its materials", "statement": "Parameters do not depend on the order of bodies; those given for both materials are combined as 2*a1*a2/(a1+a2).", "quantifier": "all pairs of materials, masses and radii", "why_tests_cant": "All combinations of parameters set.", "anchors": ["pkg/dem/ViscoelasticPM.cpp: Ip2_ViscElMat_ViscElMat_ViscElPhys::Calculate_ViscElMat_ViscElMat_ViscElPhys", "pkg/dem/ViscoelasticPM.cpp: contactParameterCalculation"]}
{"id": "C262", "title": "contact time and restitution are those given", "statement": "Two bodies whose materials have tc and en, which meet at the speed v, part after tc with the speed en*v.", "quantifier": "all masses, speeds, contact times and restitutions", "why_tests_cant": "Needs the exact motion, for all parameters.", "anchors": ["pkg/dem/ViscoelasticPM.cpp: Law2_ScGeom_ViscElPhys_Basic::go", "pkg/dem/ViscoelasticPM.cpp: computeForceTorqueViscEl", "pkg/dem/ViscoelasticPM.cpp: Ip2_ViscElMat_ViscElMat_ViscElPhys::Calculate_ViscElMat_ViscElMat_ViscElPhys", "pkg/dem/ViscoelasticPM.cpp: contactParameterCalculation"]}
{"id": "C263", "title": "rolling resistance", "statement": "Rolling resistance opposes relative rotation with the moment mR*|Fn|.", "quantifier": "all states and parameters", "why_tests_cant": "A continuum of rotations.", "anchors": ["pkg/dem/ViscoelasticPM.cpp: Law2_ScGeom_ViscElPhys_Basic::go", "pkg/dem/ViscoelasticPM.cpp: computeForceTorqueViscEl"]}
{"id": "C264", "title": "bodies which move together", "statement": "Moving two bodies in contact as one rigid body changes neither force; the same across the boundary of a periodic cell which deforms.", "quantifier": "all states, rigid motions and cells", "why_tests_cant": "All motions, deforming cells are rarely tested.", "anchors": ["pkg/dem/ViscoelasticPM.cpp: Law2_ScGeom_ViscElPhys_Basic::go", "pkg/dem/ViscoelasticPM.cpp: computeForceTorqueViscEl", "pkg/dem/LudingPM.cpp: Law2_ScGeom_LudingPhys_Basic::go"]}
{"id": "C265", "title": "contacts which are not active", "statement": "With isActive false forces of the contact are not taken into account and the contact is kept.", "quantifier": "all states", "why_tests_cant": "Effects show in later steps.", "anchors": ["pkg/dem/ViscoelasticPM.cpp: Law2_ScGeom_ViscElPhys_Basic::go", "pkg/dem/ViscoelasticPM.cpp: computeForceTorqueViscEl", "pkg/dem/LudingPM.cpp: Law2_ScGeom_LudingPhys_Basic::go"]}
{"id": "C266", "title": "Luding's law is stable for all histories", "statement": "For all histories of overlaps forces are numbers, parameters do not change, and stiffness and plastic overlap stay within their limits.", "quantifier": "all histories of overlaps, all materials and shapes", "why_tests_cant": "Infinitely many histories.", "anchors": ["pkg/dem/LudingPM.cpp: Law2_ScGeom_LudingPhys_Basic::go", "pkg/dem/LudingPM.cpp: Ip2_LudingMat_LudingMat_LudingPhys::go"]}
{"id": "C267", "title": "the branches of Luding's law", "statement": "First loading follows k1*d, then kp*(d-d0) beyond the limit; the force is between -kc*d and these lines, and depends on overlaps only when they change.", "quantifier": "all histories of overlaps", "why_tests_cant": "Infinitely many histories.", "anchors": ["pkg/dem/LudingPM.cpp: Law2_ScGeom_LudingPhys_Basic::go"]}
{"id": "C268", "title": "plastic overlap of Luding's law", "statement": "After unloading from the overlap M the overlap (1-k1/k2(M))*M remains.", "quantifier": "all histories of overlaps", "why_tests_cant": "Depends on the size of steps.", "anchors": ["pkg/dem/LudingPM.cpp: Law2_ScGeom_LudingPhys_Basic::go"]}
{"id": "C269", "title": "spheres exported as text are read back", "statement": "export.textExt writes all spheres of the group and returns their number; ymport.textExt gives them in order, scaled and moved as asked for, with their materials.", "quantifier": "all lists of bodies, masks, comments, shifts, scales, formats of positions", "why_tests_cant": "All lists of bodies and all values.", "anchors": ["py/export.py: textExt", "py/ymport.py: textExt"]}
{"id": "C27", "title": "The collider creates nothing spurious and keeps nothing obsolete", "statement": "Each interaction created by a collider run joins two collidable bodies with overlapping boxes, and after the run no potential (non-real) interaction remains between bodies whose boxes do not overlap, including deleted bodies.", "quantifier": "for every scene and every run", "why_tests_cant": "needs all configurations of boxes, deletions and existing interactions", "anchors": ["pkg/common/InsertionSortCollider.cpp: action", "pkg/common/InsertionSortCollider.hpp: shouldBeErased, spatialOverlap"]}
{"id": "C270", "title": "attributes exported as text are read back", "statement": "With x_y_z_r_attrs numbers, vectors and matrices are written for each sphere, and ymport.textExt gives them sphere by sphere.", "quantifier": "all lists of bodies, attributes and comments", "why_tests_cant": "All combinations of attributes, missing ones and comments.", "anchors": ["py/export.py: textExt", "py/ymport.py: textExt"]}
{"id": "C271", "title": "lines starting with # are skipped", "statement": "ymport.textExt and ymport.text skip all lines which start with #, and read the others in the format given.", "quantifier": "all files", "why_tests_cant": "Infinitely many files.", "anchors": ["py/ymport.py: textExt", "py/ymport.py: text"]}
{"id": "C272", "title": "clumps exported as text are read back", "statement": "export.textClumps returns the number of clumps and of spheres written, and ymport.textClumps gives the same spheres clump by clump.", "quantifier": "all lists of bodies, masks, comments, motions", "why_tests_cant": "Depends on ids of a million and more, and on masks.", "anchors": ["py/export.py: textClumps", "py/ymport.py: textClumps"]}
{"id": "C273", "title": "files for LIGGGHTS", "statement": "The header has the number of atoms, the number of types and a box which holds all spheres; each atom has its own number, mask, radius, density, position and velocities.", "quantifier": "all lists of bodies and masks", "why_tests_cant": "The box is wrong for certain orders of bodies only.", "anchors": ["py/export.py: textExt"]}
{"id": "C274", "title": "wires follow their curve, unload elastically and rupture", "statement": "Under any history of displacements the force of a wire is that of its curve when it is longer than ever, that of the line of the elastic stiffness when it is unloaded, nothing when it is slack, and it ruptures beyond the admissible displacement.", "quantifier": "all curves, all histories of displacements", "why_tests_cant": "Infinitely many histories.", "anchors": ["pkg/dem/WirePM.cpp: Law2_ScGeom_WirePhys_WirePM::go"]}
{"id": "C275", "title": "wires only pull", "statement": "A linked wire draws its bodies towards each other along the normal, with opposite forces and without torque, in periodic cells too, and limitFactor is between 0 and 1.", "quantifier": "all wires, positions, histories and cells", "why_tests_cant": "All states of loading and unloading.", "anchors": ["pkg/dem/WirePM.cpp: Law2_ScGeom_WirePhys_WirePM::go"]}
{"id": "C276", "title": "rupture is counted and final", "statement": "From linkThresholdIteration on each rupture is counted by both bodies once and the interaction is removed for good.", "quantifier": "all executions", "why_tests_cant": "All interleavings of steps and ruptures.", "anchors": ["pkg/dem/WirePM.cpp: Law2_ScGeom_WirePhys_WirePM::go"]}
{"id": "C277", "title": "wires from stress-strain curves", "statement": "The force-displacement curve of a wire is its stress-strain curve scaled by length and section; double twists and stochastically distorted wires change it as documented; unusable materials are refused.", "quantifier": "all materials, lengths, types", "why_tests_cant": "All curves and the three types of wires.", "anchors": ["pkg/dem/WirePM.cpp: Ip2_WireMat_WireMat_WirePhys::go", "pkg/dem/WirePM.cpp: WireMat::postLoad", "pkg/dem/WirePM.hpp: WireMat"]}
{"id": "C278", "title": "order of the bodies of wires", "statement": "The wire between two bodies does not depend on their order.", "quantifier": "all pairs of materials and ids", "why_tests_cant": "All pairs of materials.", "anchors": ["pkg/dem/WirePM.cpp: Ip2_WireMat_WireMat_WirePhys::go"]}
{"id": "C279", "title": "distorted wires", "statement": "The shift of a distorted wire is between 0 and lambdau times its length times the random number, and the seed makes it repeatable.", "quantifier": "all seeds and orders of creation", "why_tests_cant": "Depends on all links created before.", "anchors": ["pkg/dem/WirePM.cpp: Ip2_WireMat_WireMat_WirePhys::go", "pkg/dem/WirePM.hpp: WireMat"]}
{"id": "C28", "title": "The parallel sort never touches memory outside the bounds list", "statement": "For any number of bodies and threads the chunk boundaries used by the parallel sort lie inside the list, and the result is the same sorted list as with one thread.", "quantifier": "for every list length and every thread count", "why_tests_cant": "the out-of-range case needs many threads relative to the list; undefined behaviour is not observable by a test", "anchors": ["pkg/common/InsertionSortCollider.cpp: insertionSortParallel"]}
{"id": "C280", "title": "LawTester follows its path", "statement": "After any number of steps the prescribed deformation is that of the piecewise linear path given by disPath, rotPath and pathSteps, points are reached in the steps given, and the bodies stop after the end.", "quantifier": "all paths, steps, interactions and numbers of steps", "why_tests_cant": "Infinitely many paths and histories.", "anchors": ["pkg/dem/DomainLimiter.cpp: LawTester::action", "pkg/dem/DomainLimiter.cpp: LawTester::postLoad", "pkg/dem/DomainLimiter.hpp: LawTester", "lib/smoothing/LinearInterpolate.hpp: linearInterpolate"]}
{"id": "C281", "title": "LawTester moves the contact as prescribed", "statement": "In each step the relative displacement of both bodies at their contact is the increment of the path in local axes, however it is distributed by idWeight and rotWeight.", "quantifier": "all axes, radii, weights, increments, time steps", "why_tests_cant": "All weights and directions.", "anchors": ["pkg/dem/DomainLimiter.cpp: LawTester::action", "pkg/dem/DomainLimiter.hpp: LawTester"]}
{"id": "C282", "title": "LawTester rotates the bodies as prescribed", "statement": "In each step the relative rotation of both bodies is the increment of the rotational path, without shear at the contact.", "quantifier": "all axes, radii, weights, increments, time steps", "why_tests_cant": "Depends on the time step.", "anchors": ["pkg/dem/DomainLimiter.cpp: LawTester::action", "pkg/dem/DomainLimiter.hpp: LawTester"]}
{"id": "C283", "title": "local axes of a new contact", "statement": "The local axes of a tested interaction are perpendicular unit vectors, right-handed, the first one along the normal.", "quantifier": "all normals", "why_tests_cant": "All directions of the normal, with its degenerate cases.", "anchors": ["pkg/dem/DomainLimiter.cpp: LawTester::action"]}
{"id": "C284", "title": "hooks of LawTester", "statement": "The hook of a point of the path is run once, when the point is reached.", "quantifier": "all paths and hooks", "why_tests_cant": "All combinations of paths and hooks.", "anchors": ["pkg/dem/DomainLimiter.cpp: LawTester::action", "pkg/dem/DomainLimiter.hpp: LawTester"]}
{"id": "C285", "title": "forces of bubbles obey the law", "statement": "In every step of every contact with a penetration up to Dmax the force is the one of the law of Chan and others, up to the tolerance of the iteration, whatever happened before.", "quantifier": "all radii, tensions, tolerances and histories of penetration", "why_tests_cant": "An iteration that starts from the force of the step before; infinitely many histories.", "anchors": ["pkg/dem/BubbleMat.cpp: BubblePhys::computeForce", "pkg/dem/BubbleMat.cpp: BubblePhys::computeCoeffs", "pkg/dem/BubbleMat.cpp: Law2_ScGeom_BubblePhys_Bubble::go"]}
{"id": "C286", "title": "curve of forces of bubbles", "statement": "The curve beyond Dmax continues the law with the same force and slope, and the force grows with the penetration.", "quantifier": "all radii, tensions, parameters, penetrations", "why_tests_cant": "All depths and parameters, and a limit (the slope).", "anchors": ["pkg/dem/BubbleMat.cpp: BubblePhys::computeForce", "pkg/dem/BubbleMat.cpp: BubblePhys::computeCoeffs"]}
{"id": "C287", "title": "parameters of bubbles", "statement": "Forces depend on the surface tension of materials and law as set, also after changes and after loading, and not on Dmax.", "quantifier": "all parameters, changes, histories", "why_tests_cant": "Depends on the order of contacts, and on what is saved.", "anchors": ["pkg/dem/BubbleMat.cpp: BubblePhys::computeForce", "pkg/dem/BubbleMat.cpp: Law2_ScGeom_BubblePhys_Bubble::go", "pkg/dem/BubbleMat.hpp: BubblePhys, Law2_ScGeom_BubblePhys_Bubble", "pkg/dem/BubbleMat.cpp: Ip2_BubbleMat_BubbleMat_BubblePhys::go"]}
{"id": "C288", "title": "loads of bubbles", "statement": "Forces on both bubbles are opposite and push them apart along the normal, without torque, and vanish with the overlap.", "quantifier": "all positions, normals, radii, forces, cells", "why_tests_cant": "All configurations.", "anchors": ["pkg/dem/BubbleMat.cpp: Law2_ScGeom_BubblePhys_Bubble::go"]}
{"id": "C289", "title": "mortar is elastic until it breaks", "statement": "Through any history a mortar contact exerts the forces of elastic springs, balanced on both bodies, and breaks in the first step in which its stresses are not borne, without force in that step; with neverDamage it does not break.", "quantifier": "all histories of geometry, all strengths and stiffnesses", "why_tests_cant": "Infinitely many histories.", "anchors": ["pkg/dem/MortarMat.cpp: Law2_ScGeom_MortarPhys_Lourenco::go", "pkg/dem/MortarMat.cpp: MortarPhys::failureCondition"]}
{"id": "C29", "title": "Bounds are compared by a strict weak order", "statement": "The order handed to the library sort is irreflexive, asymmetric and has transitive incomparability, as the library requires.", "quantifier": "for all triples of bounds", "why_tests_cant": "violations need exact ties between bounds and only manifest inside the library", "anchors": ["pkg/common/InsertionSortCollider.hpp: Bounds::operator<, operator>"]}
{"id": "C290", "title": "stresses mortar bears", "statement": "The stresses which mortar bears form a convex set with the strengths as limits, so that unloading in proportion never breaks a contact.", "quantifier": "all strengths and stresses", "why_tests_cant": "A continuum of stresses.", "anchors": ["pkg/dem/MortarMat.cpp: MortarPhys::failureCondition"]}
{"id": "C291", "title": "parameters of mortar", "statement": "Parameters of a mortar contact do not depend on the order of its bodies, nor on materials being shared or copied; its strengths are those of the weaker one, its stiffness is that of springs in series, and it is positive.", "quantifier": "all materials and radii", "why_tests_cant": "All pairs of materials and radii.", "anchors": ["pkg/dem/MortarMat.cpp: Ip2_MortarMat_MortarMat_MortarPhys::go"]}
{"id": "C292", "title": "mortar contacts made later do not stick", "statement": "Contacts of mortar made from iteration cohesiveThresholdIter on are not cohesive, so that what broke does not heal.", "quantifier": "all materials, iterations and thresholds", "why_tests_cant": "Depends on when contacts are made.", "anchors": ["pkg/dem/MortarMat.cpp: Ip2_MortarMat_MortarMat_MortarPhys::go", "pkg/dem/MortarMat.hpp: MortarMat, MortarPhys, Ip2_MortarMat_MortarMat_MortarPhys"]}
{"id": "C293", "title": "damage of concrete", "statement": "Through any history the damage of a cohesive concrete contact does not decrease, lies between nothing and total, and is driven by the largest equivalent strain only; with the threshold one contacts are not deleted.", "quantifier": "all histories of geometry, all parameters", "why_tests_cant": "Infinitely many histories.", "anchors": ["pkg/dem/ConcretePM.cpp: Law2_ScGeom_CpmPhys_Cpm::go", "pkg/dem/ConcretePM.cpp: CpmPhys::funcG, CpmPhys::funcGInv", "pkg/dem/ConcretePM.hpp: CpmPhys, CpmState, Law2_ScGeom_CpmPhys_Cpm, CpmStateUpdater"]}
{"id": "C294", "title": "normal stress of concrete", "statement": "In tension a concrete contact bears no more than the strength which damage left; in compression damage does not change its stiffness, and a contact held still keeps its stress.", "quantifier": "all strains, damages and parameters", "why_tests_cant": "A continuum of states, and numbers of steps.", "anchors": ["pkg/dem/ConcretePM.cpp: Law2_ScGeom_CpmPhys_Cpm::go"]}
{"id": "C295", "title": "shear stress of concrete", "statement": "The shear stress of a concrete contact is within the limit of Mohr and Coulomb and is the elastic one for the strain less the plastic strain which is kept.", "quantifier": "all strains and parameters", "why_tests_cant": "A continuum of states.", "anchors": ["pkg/dem/ConcretePM.cpp: Law2_ScGeom_CpmPhys_Cpm::go"]}
{"id": "C296", "title": "setting damage and residual strength", "statement": "After setDamage or setRelResidualStrength the law finds the damage or the strength which was set.", "quantifier": "all parameters, all values", "why_tests_cant": "The search may stop anywhere in a continuum.", "anchors": ["pkg/dem/ConcretePM.cpp: CpmPhys::setDamage", "pkg/dem/ConcretePM.cpp: CpmPhys::setRelResidualStrength", "pkg/dem/ConcretePM.cpp: CpmPhys::funcG, CpmPhys::funcGInv"]}
{"id": "C297", "title": "what the state updater reports", "statement": "The damage of a body is the mean over its cohesive contacts, those it lost included, and lies between nothing and one; it is the trace of its damage tensor; its stress is the sum over its contacts and symmetric; the average strength and the largest damage are those of the contacts.", "quantifier": "all bodies and contacts", "why_tests_cant": "All numbers of bodies and contacts.", "anchors": ["pkg/dem/ConcretePM.cpp: CpmStateUpdater::update", "pkg/dem/ConcretePM.hpp: CpmPhys, CpmState, Law2_ScGeom_CpmPhys_Cpm, CpmStateUpdater", "pkg/dem/ConcretePM.cpp: Law2_ScGeom_CpmPhys_Cpm::go"]}
{"id": "C298", "title": "parameters of concrete contacts", "statement": "Parameters of a concrete contact do not depend on the order of its bodies, nor on materials being shared or copied; it is cohesive if it is made before cohesiveThresholdIter, and at rest when it is made.", "quantifier": "all materials, radii, iterations", "why_tests_cant": "All pairs of materials and radii.", "anchors": ["pkg/dem/ConcretePM.cpp: Ip2_CpmMat_CpmMat_CpmPhys::go", "pkg/dem/ConcretePM.cpp: Law2_ScGeom_CpmPhys_Cpm::go"]}
{"id": "C299", "title": "loads of concrete balance", "statement": "The loads of a concrete contact on both bodies balance, in forces and in moments, in periodic scenes too.", "quantifier": "all geometries and parameters", "why_tests_cant": "A continuum of geometries.", "anchors": ["pkg/dem/ConcretePM.cpp: Law2_ScGeom_CpmPhys_Cpm::go"]}
{"id": "C30", "title": "Periodic overlap test is exact", "statement": "In a periodic cell two boxes are reported overlapping exactly when some whole-period shift of the second brings it, up to the configured relative tolerance, onto the first on every axis, and the reported shift is one that does so; the answer with exchanged bodies is the opposite shift; a box too large for the cell raises an exception.", "quantifier": "for all boxes no larger than allowed and all cell sizes", "why_tests_cant": "real-valued coordinates and unbounded period counts", "anchors": ["pkg/common/InsertionSortCollider.cpp: spatialOverlapPeri"]}
{"id": "C300", "title": "normal force of Hertz", "statement": "The normal force of a contact of Hertz and Mindlin is the derivative of the energy which is reported, pushes when there is no adhesion, even with damping, and attracts by a bounded force otherwise.", "quantifier": "all overlaps, velocities, parameters", "why_tests_cant": "A continuum of overlaps and velocities.", "anchors": ["pkg/dem/HertzMindlin.cpp: Law2_ScGeom_MindlinPhys_Mindlin::go", "pkg/dem/HertzMindlin.cpp: Law2_ScGeom_MindlinPhys_Mindlin::normElastEnergy"]}
{"id": "C301", "title": "friction of Hertz and Mindlin", "statement": "The shear force does not exceed the limit of friction, which decreases as the contact opens.", "quantifier": "all histories and parameters", "why_tests_cant": "A continuum of states.", "anchors": ["pkg/dem/HertzMindlin.cpp: Law2_ScGeom_MindlinPhys_Mindlin::go"]}
{"id": "C302", "title": "contacts of Hertz and Mindlin which open", "statement": "A contact which opens exerts no force and starts afresh when it closes again, whether it was kept or not.", "quantifier": "all histories and parameters", "why_tests_cant": "Depends on the history of the contact.", "anchors": ["pkg/dem/HertzMindlin.cpp: Law2_ScGeom_MindlinPhys_Mindlin::go", "pkg/dem/HertzMindlin.hpp: MindlinPhys, Ip2_FrictMat_FrictMat_MindlinPhys, Law2_ScGeom_MindlinPhys_Mindlin"]}
{"id": "C303", "title": "parameters of Hertz and Mindlin", "statement": "Parameters do not depend on the order of bodies; viscous ones are given by damping ratios or by coefficients of restitution, for which the documented ratio is used, separately in both directions; giving both is an error.", "quantifier": "all materials, radii and options", "why_tests_cant": "All pairs of materials and combinations of options.", "anchors": ["pkg/dem/HertzMindlin.cpp: Ip2_FrictMat_FrictMat_MindlinPhys::go", "pkg/dem/HertzMindlin.hpp: MindlinPhys, Ip2_FrictMat_FrictMat_MindlinPhys, Law2_ScGeom_MindlinPhys_Mindlin"]}
{"id": "C304", "title": "dissipation in contacts of Hertz and Mindlin", "statement": "Energies reported as dissipated by damping and by friction do not decrease.", "quantifier": "all histories and parameters", "why_tests_cant": "Infinitely many histories.", "anchors": ["pkg/dem/HertzMindlin.cpp: Law2_ScGeom_MindlinPhys_Mindlin::go"]}
{"id": "C305", "title": "loads of contacts of Hertz", "statement": "Loads on both bodies balance in forces and moments, rolling resistance included, and the bending moment does not exceed its limit.", "quantifier": "all geometries, velocities and parameters", "why_tests_cant": "A continuum of geometries.", "anchors": ["pkg/dem/HertzMindlin.cpp: Law2_ScGeom_MindlinPhys_Mindlin::go", "pkg/dem/HertzMindlin.cpp: Law2_ScGeom_MindlinPhys_HertzWithLinearShear::go"]}
{"id": "C306", "title": "shear force and displacement", "statement": "The shear force of a contact which does not slide is given by its displacement; the law with partial slip resists displacements.", "quantifier": "all histories", "why_tests_cant": "Infinitely many histories.", "anchors": ["pkg/dem/HertzMindlin.cpp: Law2_ScGeom_MindlinPhys_Mindlin::go", "pkg/dem/HertzMindlin.cpp: Law2_ScGeom_MindlinPhys_MindlinDeresiewitz::go", "pkg/dem/HertzMindlin.hpp: MindlinPhys, Ip2_FrictMat_FrictMat_MindlinPhys, Law2_ScGeom_MindlinPhys_Mindlin"]}
{"id": "C307", "title": "dimensions of spheres", "statement": "The box reported for spheres given by identifiers or by a mask is the smallest one that holds them, each face touches the sphere whose identifier is given, number, volume and mass are sums over them, and the order of the list does not matter; a call without a list needs a mask that at least two bodies have.", "quantifier": "all scenes, lists of identifiers and masks", "why_tests_cant": "Infinitely many scenes and lists.", "anchors": ["py/bodiesHandling.py: spheresPackDimensions"]}
{"id": "C308", "title": "dimensions of facets", "statement": "The box reported for facets is the smallest one that holds the corners of those asked for; other bodies are left out.", "quantifier": "all scenes, lists of identifiers and masks", "why_tests_cant": "Infinitely many scenes and lists.", "anchors": ["py/bodiesHandling.py: facetsDimensions"]}
{"id": "C309", "title": "moving spheres", "statement": "Spheres given by identifiers and a mask are turned and scaled about the centre of their box and shifted, as a rigid and scaled whole, whatever else is in the list; other bodies stay as they are.", "quantifier": "all scenes, lists, masks, shifts, scales and rotations", "why_tests_cant": "A continuum of scenes and motions.", "anchors": ["py/bodiesHandling.py: spheresModify"]}
{"id": "C31", "title": "Wrapping into the cell is exact", "statement": "Wrapping a coordinate or point puts it in [0,size), differs from the original by a whole number of periods that is reported correctly, leaves wrapped points alone, and wrapping commutes with shifting by whole periods.", "quantifier": "for every real coordinate and every positive size", "why_tests_cant": "real-valued domain", "anchors": ["core/Cell.hpp: wrapNum, wrapPt, wrapShearedPt", "pkg/common/InsertionSortCollider.cpp: cellWrap, cellWrapRel"]}
{"id": "C310", "title": "copying spheres", "statement": "Copies of spheres are like the spheres but for what was asked to change, and the scene stays as it is.", "quantifier": "all scenes, lists, masks, shifts, scales and rotations", "why_tests_cant": "A continuum of scenes and motions.", "anchors": ["py/bodiesHandling.py: spheresModify, sphereDuplicate", "py/utils.py: sphere, _commonBodySetup"]}
{"id": "C311", "title": "parameters of damped frictional contacts", "statement": "The damping constant of a new contact is the fraction given by the materials of the critical one of the oscillator made of the contact stiffness and the moving mass; the parameters do not depend on which body comes first; a plain material acts as one without damping; two fixed bodies have parameters too.", "quantifier": "all materials, radii, masses and match makers", "why_tests_cant": "A continuum of materials and bodies; the order of bodies depends on the collider.", "anchors": ["pkg/dem/FrictViscoPM.cpp: Ip2_FrictViscoMat_FrictViscoMat_FrictViscoPhys::go, Ip2_FrictMat_FrictViscoMat_FrictViscoPhys::go", "pkg/common/InteractionLoop.cpp: InteractionLoop::action"]}
{"id": "C312", "title": "normal force of damped frictional contacts", "statement": "The normal force is that of the spring less damping constant times parting speed, damping takes energy from the motion, a contact never pulls, bodies that do not touch exert nothing on each other, and without damping the law is the elastic-frictional one.", "quantifier": "all geometries, states, velocities and options", "why_tests_cant": "A continuum of states.", "anchors": ["pkg/dem/FrictViscoPM.cpp: Law2_ScGeom_FrictViscoPhys_CundallStrackVisco::go"]}
{"id": "C313", "title": "friction of damped frictional contacts", "statement": "The shear force never exceeds the friction coefficient times the normal force, and the energy reported as dissipated by friction is the work over the slip and never decreases over any run.", "quantifier": "all geometries, states, options and sequences of calls", "why_tests_cant": "Unbounded sequences of contacts.", "anchors": ["pkg/dem/FrictViscoPM.cpp: Law2_ScGeom_FrictViscoPhys_CundallStrackVisco::go"]}
{"id": "C314", "title": "balance and energy of damped frictional contacts", "statement": "Loads on the two bodies balance in force and moment, and the elastic energy reported is the one stored in the springs, summed over contacts.", "quantifier": "all geometries, states, options and lists of contacts", "why_tests_cant": "A continuum of states.", "anchors": ["pkg/dem/FrictViscoPM.cpp: Law2_ScGeom_FrictViscoPhys_CundallStrackVisco::go", "pkg/dem/FrictViscoPM.cpp: Law2_ScGeom_FrictViscoPhys_CundallStrackVisco::elasticEnergy"]}
{"id": "C315", "title": "parameters of inelastic cohesive contacts", "statement": "The parameters of a new contact do not depend on which body comes first; each stiffness is twice that of the bodies in series, strengths are at most those of either material on either sphere, and the contact starts unbroken, elastic and without forces.", "quantifier": "all materials and radii", "why_tests_cant": "A continuum of materials and radii; the order of bodies depends on the collider.", "anchors": ["pkg/dem/InelastCohFrictPM.cpp: Ip2_2xInelastCohFrictMat_InelastCohFrictPhys::go"]}
{"id": "C316", "title": "failure of inelastic cohesive contacts", "statement": "A contact stretched beyond its limit fails and is removed, one compressed beyond its limit fails and is kept while bodies overlap, one within its limits does not fail; a failed contact never exerts a load again.", "quantifier": "all parameters, states and sequences of steps", "why_tests_cant": "Unbounded sequences of steps and a continuum of states.", "anchors": ["pkg/dem/InelastCohFrictPM.cpp: Law2_ScGeom6D_InelastCohFrictPhys_CohesionMoment::go"]}
{"id": "C317", "title": "normal force of inelastic cohesive contacts", "statement": "Within the elastic range the normal force depends on the depth alone, whatever happened before; beyond it, it is the strength plus the creep stiffness times the further depth; small changes of depth change the force little.", "quantifier": "all parameters and sequences of steps", "why_tests_cant": "Unbounded sequences of steps and a continuum of depths.", "anchors": ["pkg/dem/InelastCohFrictPM.cpp: Law2_ScGeom6D_InelastCohFrictPhys_CohesionMoment::go"]}
{"id": "C318", "title": "shear of inelastic cohesive contacts", "statement": "The shear force is at most the adhesion, and once cohesion is broken at most the friction; breaking never raises it.", "quantifier": "all parameters, states and sequences of steps", "why_tests_cant": "Unbounded sequences of steps and a continuum of states.", "anchors": ["pkg/dem/InelastCohFrictPM.cpp: Law2_ScGeom6D_InelastCohFrictPhys_CohesionMoment::go"]}
{"id": "C319", "title": "moments of inelastic cohesive contacts", "statement": "Once cohesion is broken a contact has neither twisting nor bending moment.", "quantifier": "all parameters, states and sequences of steps", "why_tests_cant": "Unbounded sequences of steps and a continuum of states.", "anchors": ["pkg/dem/InelastCohFrictPM.cpp: Law2_ScGeom6D_InelastCohFrictPhys_CohesionMoment::go"]}
{"id": "C32", "title": "Skipping the collider is safe", "statement": "Whenever the collider decides it does not need to run, the exact bounding box of every sphere moved by the integrator is still inside the enlarged box of the last run, so no overlap between non-enlarged boxes can be unknown.", "quantifier": "for every motion history and every parameter setting of the Verlet distance", "why_tests_cant": "real-valued motion over any number of steps", "anchors": ["pkg/common/InsertionSortCollider.cpp: isActivated, action", "pkg/common/Dispatching.cpp: BoundDispatcher::processBody", "pkg/dem/NewtonIntegrator.cpp: saveMaximaDisplacement, action"]}
{"id": "C320", "title": "balance and energy of inelastic cohesive contacts", "statement": "Loads on the two bodies balance in force and moment and are those of the forces and moments of the contact; the normal elastic energy reported is defined.", "quantifier": "all parameters, states and steps", "why_tests_cant": "A continuum of states.", "anchors": ["pkg/dem/InelastCohFrictPM.cpp: Law2_ScGeom6D_InelastCohFrictPhys_CohesionMoment::go", "pkg/dem/InelastCohFrictPM.cpp: Ip2_2xInelastCohFrictMat_InelastCohFrictPhys::go", "pkg/dem/InelastCohFrictPM.cpp: Law2_ScGeom6D_InelastCohFrictPhys_CohesionMoment::normElastEnergy"]}
{"id": "C321", "title": "collisions of a fluid on a lattice", "statement": "A collision keeps the density of a node, changes its momentum by the body force alone whatever the relaxation, leaves a fluid at rest as it is, and is undefined only without density or lattice speed.", "quantifier": "all populations, relaxations and body forces", "why_tests_cant": "A continuum of populations and parameters.", "anchors": ["pkg/lbm/HydrodynamicsLawLBM.cpp: HydrodynamicsLawLBM::action"]}
{"id": "C322", "title": "borders of a fluid on a lattice", "statement": "Each documented condition at a side or corner gives what it prescribes: a pressure condition the density of the pressure and no velocity along the side, a velocity condition a fluid at rest; only populations entering the fluid change.", "quantifier": "all populations, sides, types and pressures", "why_tests_cant": "A continuum of populations.", "anchors": ["pkg/lbm/HydrodynamicsLawLBM.cpp: HydrodynamicsLawLBM::action", "pkg/lbm/LBMnode.cpp: LBMnode::MixteBC"]}
{"id": "C323", "title": "fluid at walls of bodies", "statement": "Bounce back at a wall keeps mass on the link, returns everything at a wall at rest and more when the wall approaches; twice the force counted for the body is the momentum the fluid loses.", "quantifier": "all populations, densities, velocities and links", "why_tests_cant": "A continuum of populations and velocities.", "anchors": ["pkg/lbm/HydrodynamicsLawLBM.cpp: HydrodynamicsLawLBM::action"]}
{"id": "C324", "title": "sides of nodes of a lattice", "statement": "Every node on the border gets the condition of the one side or corner it lies on, inner nodes get none.", "quantifier": "all sizes of grid and all nodes", "why_tests_cant": "Unbounded sizes.", "anchors": ["pkg/lbm/HydrodynamicsLawLBM.cpp: HydrodynamicsLawLBM::action", "pkg/lbm/LBMnode.cpp: LBMnode::DispatchBoundaryConditions"]}
{"id": "C325", "title": "new obstacle and fluid nodes", "statement": "The numbers reported are those of nodes that became obstacles and fluid since the last time, each counted once; the same nodes are marked as new.", "quantifier": "all grids and histories of bodies, with one thread", "why_tests_cant": "Unbounded numbers of nodes.", "anchors": ["pkg/lbm/HydrodynamicsLawLBM.cpp: HydrodynamicsLawLBM::action", "pkg/lbm/LBMnode.cpp: LBMnode::checkIsNewObstacle", "pkg/lbm/LBMnode.cpp: LBMnode::checkIsNewFluid"]}
{"id": "C326", "title": "stiffnesses of contacts of elastic materials", "statement": "Stiffnesses do not depend on the order of bodies and are twice those of the bodies in series, in both directions and with or without radii; a flat body counts with the radius of the sphere; existing contacts keep theirs.", "quantifier": "all materials and radii", "why_tests_cant": "A continuum of materials and radii.", "anchors": ["pkg/dem/Ip2_ElastMat.cpp: Ip2_ElastMat_ElastMat_NormPhys::go", "pkg/dem/Ip2_ElastMat.cpp: Ip2_ElastMat_ElastMat_NormShearPhys::go"]}
{"id": "C33", "title": "The grid collider finds every pair of touching spheres", "statement": "Two spheres whose distance is at most the sum of their radii always end up in a common grid cell and get an interaction, wherever the grid is placed and even if they lie outside it.", "quantifier": "for all positions, radii, grid origins and cell sizes", "why_tests_cant": "real-valued geometry; failing grids have an origin with unequal components", "anchors": ["pkg/dem/FlatGridCollider.cpp: updateBodyCells, updateCollisions", "pkg/dem/FlatGridCollider.hpp: Grid::pt2int, fitGrid, lin"]}
{"id": "C34", "title": "The reference collider obeys the pair filter and ignores bodies without box", "statement": "The quick-sort collider creates interactions only between existing bodies that may collide and whose boxes overlap, also when some bodies have no box or were deleted.", "quantifier": "for every scene", "why_tests_cant": "stale entries depend on the history of deletions", "anchors": ["pkg/common/SpatialQuickSortCollider.cpp: action", "pkg/common/SpatialQuickSortCollider.hpp"]}
{"id": "C35", "title": "One pass of the interaction loop takes each interaction through legal states only", "statement": "In one step an interaction gets its contact law applied exactly when geometry was computed and physics exists; it is dropped when its geometry vanishes, the law ends it, a body is gone or both bodies belong to other subdomains; only real interactions reach callbacks; the creation step is recorded exactly once at the transition from potential to real.", "quantifier": "for every state of an interaction and every outcome of the functors", "why_tests_cant": "all combinations of functor outcomes and interaction states over any number of steps", "anchors": ["pkg/common/InteractionLoop.cpp: action", "core/Interaction.cpp"]}
{"id": "C36", "title": "Swapping an interaction's bodies keeps the physical pair", "statement": "Swapping the order of the two bodies negates the periodic offset, is its own inverse, is refused once the interaction has geometry or physics, and leaves the pair key unchanged.", "quantifier": "for every interaction", "why_tests_cant": "all cell offsets and ids", "anchors": ["core/Interaction.cpp: swapOrder"]}
{"id": "C37", "title": "Contact forces obey action and reaction", "statement": "Forces and torques applied by a contact on two bodies sum to zero force and to zero moment about every point, in periodic scenes as well after taking the periodic shift into account.", "quantifier": "for all positions, contact points and forces", "why_tests_cant": "real-valued vectors", "anchors": ["pkg/common/Dispatching.hpp: LawFunctor::applyForceAtContactPoint", "pkg/dem/ElasticContactLaw.cpp"]}
{"id": "C38", "title": "Blocked degrees of freedom keep their velocity", "statement": "The integrator never changes a velocity component whose degree of freedom is blocked in a non-periodic scene, whatever forces, torques, gravity and damping act; non-blocked components get exactly the force/mass acceleration.", "quantifier": "for all 64 blocking patterns, all states and forces", "why_tests_cant": "real-valued states for all patterns, over any number of steps", "anchors": ["pkg/dem/NewtonIntegrator.cpp: action, computeAccel, computeAngAccel, leapfrogTranslate"]}
{"id": "C39", "title": "Numerical damping only ever removes energy", "statement": "The damping correction never increases the power of the force on the moving body and never reverses the sign of the acceleration component for damping in [0,1].", "quantifier": "for all forces, velocities and damping coefficients in [0,1]", "why_tests_cant": "real-valued domain including zero velocities", "anchors": ["pkg/dem/NewtonIntegrator.cpp: cundallDamp1st, cundallDamp2nd"]}
{"id": "C40", "title": "Resultant on a clump equals the resultant on its members", "statement": "The force and torque transferred from members to the clump are the resultant force and resultant moment about the clump centre of all member forces and torques, and moving members as a rigid body keeps all relative positions.", "quantifier": "for every clump size, positions, forces and motions", "why_tests_cant": "unbounded member sets with real coordinates", "anchors": ["core/Clump.cpp: addForceTorqueFromMembers, updateProperties", "core/Clump.hpp: moveMembers"]}
{"id": "C41", "title": "Forming a clump does not move its members", "statement": "After computing clump properties, placing members from the clump state and their stored relative positions reproduces the world positions and orientations they had before; the clump centre is the mass-weighted mean and its mass the sum of the members' masses.", "quantifier": "for every member set and any clump orientation chosen by the eigensolver", "why_tests_cant": "real-valued geometry and an external eigensolver whose result is not fixed", "anchors": ["core/Clump.cpp: updateProperties, inertiaTensorTranslate, inertiaTensorRotate", "core/Clump.hpp: moveMembers"]}
{"id": "C42", "title": "Body states survive the exchange between subdomains", "statement": "Sending the states of a list of bodies from one process and applying them in another makes position, velocity, angular velocity and orientation of exactly these bodies equal to the sender's; malformed messages are refused without reading outside the message.", "quantifier": "for every id list and every body state", "why_tests_cant": "all list lengths; memory safety for all message sizes", "anchors": ["core/Subdomain.hpp: getStateValuesFromIds, setStateValuesFromIds"]}
{"id": "C43", "title": "Bounding boxes survive the exchange between subdomains", "statement": "Sending states with bounds reproduces the sender's bound of every listed body, including the absence of a bound.", "quantifier": "for every id list and every body, bounded or not", "why_tests_cant": "all combinations of bounded and unbounded bodies", "anchors": ["core/Subdomain.hpp: getStateBoundsValuesFromIds, setStateBoundsValuesFromIds"]}
{"id": "C44", "title": "A subdomain's box is the tightest box around its bodies", "statement": "The bounding box of a subdomain contains the box of each of its bounded bodies and is contained in every box that does; bodies without box do not influence it.", "quantifier": "for every list of bodies", "why_tests_cant": "all list lengths and real-valued boxes", "anchors": ["core/Subdomain.cpp: setMinMax"]}
{"id": "C45", "title": "All processes take the same collision-detection decision", "statement": "Every process obtains the same answer to 'must the collider run now', namely yes exactly when at least one process needs it, and all processes take part in the same number of collective operations.", "quantifier": "for every number of processes and every combination of local answers", "why_tests_cant": "process counts and schedules are unbounded; a mismatch is a deadlock", "anchors": ["py/mpy.py: checkColliderActivated"]}
{"id": "C46", "title": "State exchange messages match", "statement": "For every pair of processes, each posted receive has exactly one send of the same length and vice versa, so no exchange hangs or truncates, provided the intersections lists were exchanged.", "quantifier": "for every number of processes and every consistent set of intersections", "why_tests_cant": "process graphs are unbounded; failures are hangs", "anchors": ["py/mpy.py: sendRecvStates, genLocalIntersections, splitScene"]}
{"id": "C47", "title": "Forces received by the master belong to the current step", "statement": "In every step the forces added on the master for a worker's contacts with master bodies are those computed by the worker in the same step.", "quantifier": "for every number of steps and every history of intersection changes across re-splits", "why_tests_cant": "queued unmatched messages surface only after a later change of the intersection lists", "anchors": ["py/mpy.py: isendRecvForces, receiveForces, splitScene"]}
{"id": "C48", "title": "Merging returns every worker's state to the right body on the master", "statement": "After merging, each body owned by a worker has on the master the state it has on that worker, and bodies owned by the master are unchanged.", "quantifier": "for every assignment of bodies to workers", "why_tests_cant": "all assignments and id orders", "anchors": ["py/mpy.py: mergeScene", "core/Subdomain.hpp"]}
{"id": "C49", "title": "Tree scatter gives each item to exactly one worker and gather brings all back", "statement": "Scattering a list over the workers by recursive bisection delivers every item to exactly one worker, every worker takes part, and gathering returns all items to the first worker; every send has its receive.", "quantifier": "for every number of workers and every data list", "why_tests_cant": "the level count formula fails only for particular worker counts", "anchors": ["py/tree_decomp.py: scatter_data, gather_data, if_scatter_recv, if_scatter_send, process_data"]}
{"id": "C50", "title": "O.tags behaves as a dictionary", "statement": "Reading a tag after setting it returns the value set last for that key, setting one key does not affect another, each key is listed once, values may contain any characters including '='.", "quantifier": "for every history of assignments and all keys and values", "why_tests_cant": "prefix matching of keys makes correctness depend on all pairs of strings", "anchors": ["py/wrapper/yadeWrapper.cpp: pyTags"]}
{"id": "C51", "title": "Blocked degrees of freedom round-trip through their string form", "statement": "Reading blockedDOFs after assigning a string gives the canonical string with exactly the recognised letters, each once; writing back what was read changes nothing; unrecognised letters are ignored.", "quantifier": "for every string and every bit pattern", "why_tests_cant": "infinite set of strings", "anchors": ["core/State.cpp: blockedDOFs_vec_get, blockedDOFs_vec_set"]}
{"id": "C52", "title": "Periodic engines respect period, limit and initial-run settings", "statement": "A periodic engine runs at most nDo times when nDo>=0, exactly nDo times if it is polled long enough, two successive runs are at least one period apart, and with initRun=False it does not run the first time it is polled.", "quantifier": "for every sequence of polling times and every parameter setting", "why_tests_cant": "arbitrary polling histories and engines added late", "anchors": ["pkg/common/PeriodicEngines.hpp: isActivated"]}
{"id": "C53", "title": "Per-thread accumulators add up", "statement": "The value of a threaded accumulator equals the sum of all contributions since the last reset or set, for any distribution over threads, and growing an array accumulator preserves existing values and touches only memory it owns.", "quantifier": "for every thread count, distribution of additions and growth history", "why_tests_cant": "over-reads are undefined behaviour; distributions are unbounded", "anchors": ["lib/base/openmp-accu.hpp: OpenMPAccumulator, OpenMPArrayAccumulator"]}
{"id": "C54", "title": "Energy reported by name equals the energy added under that name", "statement": "O.energy[name] is the sum of all contributions recorded under that name, from any thread, also right after a new name appears and after O.energy.clear().", "quantifier": "for every interleaving of threads registering and adding energies, and every history with clear", "why_tests_cant": "double registration needs a particular interleaving", "anchors": ["core/EnergyTracker.hpp: findId, add, set, clear"]}
{"id": "C55", "title": "Replacing spheres by clumps selects the requested number of spheres", "statement": "replaceByClumps replaces, for each template, round(amount x number of spheres) distinct standing spheres, never the same sphere twice and never a non-existing one, for any amounts summing to at most one.", "quantifier": "for every sphere count and list of amounts", "why_tests_cant": "rounding and integer division corner cases", "anchors": ["py/wrapper/yadeWrapper.cpp: replaceByClumps"]}
{"id": "C56", "title": "Homogeneous deformation keeps the reference cell", "statement": "Integrating the cell's velocity gradient updates the cell base and the transformation together so that the reference base derived from them never changes; a velocity gradient assigned by the user takes effect at the next step only.", "quantifier": "for every velocity gradient history, time step and initial cell", "why_tests_cant": "matrix-valued histories", "anchors": ["core/Cell.cpp: integrateAndUpdate", "core/Cell.hpp: setVelGrad, getHSize0"]}
{"id": "C57", "title": "Emptying the body container leaves a usable scene", "statement": "After O.bodies.clear() (or O.bodies.replace), later steps terminate and no interaction refers to bodies that do not exist.", "quantifier": "for every scene content at the time of the call", "why_tests_cant": "depends on the interactions left over and on the number of bodies created afterwards", "anchors": ["core/BodyContainer.cpp: clear", "core/InteractionContainer.cpp: erase", "core/InteractionContainer.hpp: conditionalyEraseNonReal"]}
{"id": "C58", "title": "Looking up interactions of missing bodies is safe", "statement": "O.interactions.has(a,b) and O.interactions[a,b] are defined for every pair of ids and answer 'no interaction' when a body does not exist or was deleted.", "quantifier": "for every scene history and every pair of ids", "why_tests_cant": "the crash needs a particular combination of deleted body and id order", "anchors": ["core/InteractionContainer.hpp: found", "core/InteractionContainer.cpp: find", "py/wrapper/yadeWrapper.cpp: pyInteractionContainer"]}
{"id": "C59", "title": "Appending bodies gives consecutive ids and disturbs nobody", "statement": "O.bodies.append(b) refuses a body that already has an id; otherwise it returns the previous len(O.bodies), O.bodies[that id] is b from then on, and every other id still leads to the same body in the same state.", "quantifier": "for every history of container and clump operations before the call and every body object", "why_tests_cant": "histories and aliasing between stored and python-held bodies are unbounded", "anchors": ["py/wrapper/yadeWrapper.cpp: pyBodyContainer::append", "core/BodyContainer.cpp: insert"]}
{"id": "C60", "title": "Looking up a body by id never reads outside the container", "statement": "O.bodies[id] raises IndexError for ids below -len or from len on, and otherwise returns the content of slot id (or len+id for a negative id); exists(id) is true exactly when a body is stored there; neither ever reads outside the storage.", "quantifier": "for every 32 bit id and every container with fewer than 2^31 slots", "why_tests_cant": "out-of-bounds reads are undefined behaviour, which a passing test cannot rule out", "anchors": ["py/wrapper/yadeWrapper.cpp: pyBodyContainer::pyGetitem", "core/BodyContainer.hpp: exists"]}
{"id": "C61", "title": "Reading a force without synchronisation", "statement": "O.forces.f(id) (default, without sync) returns the sum of everything added for this body since the last reset plus its permanent force, and never reads outside the storage.", "quantifier": "for every history and every id", "why_tests_cant": "depends on which ids were used for permanent forces and on the sizes of internal storages", "anchors": ["core/ForceContainerParallel.cpp: getForceSingle, getTorqueSingle, getMoveSingle, getRotSingle"]}
{"id": "C62", "title": "Unchecked reads of the totals return the right quantity", "statement": "The reads of force and torque used for clump members (without synchronisation check) return force and torque respectively, in both builds.", "quantifier": "for every history, every id, both builds", "why_tests_cant": "the build without threads is rarely exercised", "anchors": ["core/ForceContainerSerial.cpp: getTorqueUnsynced", "core/ForceContainerParallel.cpp: getForceUnsynced, getTorqueUnsynced"]}
{"id": "C63", "title": "Prescribed displacement increments are summed and last one step", "statement": "After synchronisation the displacement (rotation) increment of a body is the sum of the increments added since the last reset by any thread; a reset removes them even if none is added afterwards.", "quantifier": "for every history of additions, resets and synchronisations by any number of threads, every id", "why_tests_cant": "the lazily maintained flag makes the result depend on the whole history", "anchors": ["core/ForceContainerParallel.cpp: addMove, addRot, sync, reset, getMove, getRot"]}
{"id": "C64", "title": "Functors receive objects of the classes they declare", "statement": "Whatever functor is selected for two objects, after the exchange of arguments reported by the lookup the first object is of (or derived from) the first class the functor expects and the second of the second.", "quantifier": "for every hierarchy and every interleaving of registrations and lookups", "why_tests_cant": "A wrong exchange is a static cast to the wrong class, whose effect is undefined; tests exercise only the shipped functor pairs in one order.", "anchors": ["lib/multimethods/DynLibDispatcher.hpp:206-265,299-359", "pkg/common/InteractionLoop.cpp:97-110"]}
{"id": "C65", "title": "Dispatching an object of the top-level class is reported", "statement": "Dispatching on an object whose class has no dispatch index (the top-level class itself) raises an error instead of selecting or reading anything.", "quantifier": "for every dispatcher state", "why_tests_cant": "Debug builds assert; release builds read out of bounds, which a test may not notice.", "anchors": ["lib/multimethods/DynLibDispatcher.hpp:121-142,268-297,299-310", "CMakeLists.txt:93"]}
{"id": "C66", "title": "\"No functor\" is reported exactly when none applies", "statement": "A two-argument lookup reports that there is no functor exactly if no registered functor has declared classes from which the two objects derive, whatever was looked up or registered before.", "quantifier": "for every hierarchy and every interleaving of registrations and lookups", "why_tests_cant": "Depends on the search loop ending neither early nor late for every shape of hierarchy and every content of the cache.", "anchors": ["lib/multimethods/DynLibDispatcher.hpp:299-359"]}
{"id": "C67", "title": "The collider survives changes of the number of bodies and of periodicity", "statement": "When bodies were added, all removed, or all replaced by fewer, or when the scene was switched between periodic and not, the next collider run works with the new bodies.", "quantifier": "for every previous and new number of bodies", "why_tests_cant": "the wrong case reads outside a vector, which a test need not notice", "anchors": ["pkg/common/InsertionSortCollider.cpp:199-227,290-300", "py/wrapper/yadeWrapper.cpp: pyBodyContainer::clear"]}
{"id": "C68", "title": "Changes of masks and boxes at run time are noticed", "statement": "When the mask, subdomain, clump membership or box of bodies is changed so that two overlapping bodies become collidable, the next collider run makes the interaction.", "quantifier": "for every scene and every change", "why_tests_cant": "only pairs that already overlapped when the change was made are missed", "anchors": ["pkg/common/InsertionSortCollider.cpp: insertionSort, action", "pkg/common/Collider.cpp: mayCollide"]}
{"id": "C69", "title": "Touching boxes are treated alike", "statement": "Whether two collidable bodies whose boxes touch exactly in a face have an interaction after a run depends only on the boxes, not on where the bodies came from.", "quantifier": "for all pairs of histories ending in the same scene", "why_tests_cant": "exact ties only, and the outcome depends on the whole history", "anchors": ["pkg/common/InsertionSortCollider.hpp: spatialOverlap, Bounds::operator>", "pkg/common/InsertionSortCollider.cpp: insertionSort"]}
{"id": "C70", "title": "Materials are found under their numbers", "statement": "O.materials.append returns the number under which the material is found, earlier materials keep their numbers, O.materials[m.id] is m for every material in the container, negative indices count from the end, indices outside raise IndexError, and looking up by label gives the first material with this label, consistently with index().", "quantifier": "for every history of appending and relabelling, every index and label", "why_tests_cant": "histories including repeated appending are unbounded", "anchors": ["py/wrapper/yadeWrapper.cpp: pyMaterialContainer", "core/Material.cpp"]}
{"id": "C71", "title": "Each place holds a material of that number", "statement": "O.materials[i].id is i for every valid i.", "quantifier": "for every history of appending", "why_tests_cant": "only repeated appending of one object breaks it; release builds do not check", "anchors": ["py/wrapper/yadeWrapper.cpp:525", "core/Material.cpp:8"]}
{"id": "C72", "title": "Runs of a periodic engine are limited and spaced", "statement": "With nDo>0 a periodic engine runs at most nDo times, and between two successive runs at least one of the active periods has elapsed.", "quantifier": "for every setting and every polling history in which the step number does not go back", "why_tests_cant": "arbitrary polling histories", "anchors": ["pkg/common/PeriodicEngines.hpp: isActivated"]}
{"id": "C73", "title": "A periodic engine with an initial run runs exactly nDo times", "statement": "With initRun=True the engine runs at its first poll, and polled at every step it has run exactly nDo times after (nDo-1)*iterPeriod+1 steps; with firstIterRun=f it does not run before step f and runs at step f.", "quantifier": "for every setting, starting step and course of the clocks", "why_tests_cant": "unbounded numbers of steps and settings", "anchors": ["pkg/common/PeriodicEngines.hpp: isActivated"]}
{"id": "C74", "title": "Threaded vectors hold what was pushed", "statement": "An OpenMPVector holds exactly the values pushed by all threads, with multiplicity; size() is their number, indexing below the size succeeds and runs through all of them thread by thread, an index beyond is reported, clear empties it.", "quantifier": "for every number of threads and every distribution of pushes", "why_tests_cant": "distributions over threads are unbounded", "anchors": ["lib/base/openmp-accu.hpp: OpenMPVector"]}
{"id": "C75", "title": "Bisection neither deadlocks nor loses bodies", "statement": "When the workers bisect the list of bodies among them and gather the result, no interleaving deadlocks (even if no send is buffered), every run ends, every message sent is received, every body of the list ends on exactly one worker independently of timing, the first worker gathers every body once with the worker holding it, and the master thereby sets the subdomain of every listed body, and of no other, to a worker between 1 and their number. No exception is raised if there are at least as many bodies as workers.", "quantifier": "for every number of workers, number of levels, list of at least as many bodies, and every interleaving", "why_tests_cant": "interleavings and process numbers are unbounded and MPI buffering is not under control of a test", "anchors": ["py/tree_decomp.py: scatter_data, gather_data, process_data", "py/mpy_bisection.py: splitScene"]}
{"id": "C76", "title": "Bisection separates the subdomains", "statement": "After the bisection any two workers' bodies are separated along one coordinate axis: all bodies of one have a coordinate not greater than all bodies of the other.", "quantifier": "for every list of positions, number of workers, levels and dimensions", "why_tests_cant": "arbitrary point sets", "anchors": ["py/tree_decomp.py: process_data, sort_data"]}
{"id": "C77", "title": "Looping over O.bodies visits every body once", "statement": "for b in O.bodies gives bodies in increasing order of ids, none twice, each existing when it is given, also if bodies are erased inside the loop, and a loop which ends has given every body which existed throughout.", "quantifier": "for every content of the container with erased bodies anywhere, and every sequence of erasures between the iterations", "why_tests_cant": "erasure patterns and their interleaving with the loop are unbounded; a read past the end of a vector is invisible to a test", "anchors": ["core/BodyContainer.hpp: smart_iterator, begin, end", "py/wrapper/yadeWrapper.cpp: pyBodyIterator"]}
{"id": "C78", "title": "Orientations stay unit quaternions", "statement": "Orientations of bodies, including clump members, stay unit quaternions through any number of steps.", "quantifier": "for every scene, forces, velocities, imposed rotations, time steps (also changing), both rotation integrators", "why_tests_cant": "real-valued, unbounded number of steps; the midpoint update could in principle reach zero", "anchors": ["pkg/dem/NewtonIntegrator.cpp: leapfrogSphericalRotate, leapfrogAsphericalRotate", "core/Clump.hpp: moveMembers"]}
{"id": "C79", "title": "The step does not depend on the order of bodies", "statement": "The scene after a step does not depend on the order in which the loop over the bodies visits them, hence not on the number of threads and the schedule.", "quantifier": "for every scene whose clumps have distinct existing members, and every two orders", "why_tests_cant": "all permutations of unbounded scenes; data races appear rarely in tests", "anchors": ["pkg/dem/NewtonIntegrator.cpp: action", "core/Clump.cpp: addForceTorqueFromMembers", "core/Clump.hpp: moveMembers"]}
{"id": "C80", "title": "A body without torque rotates freely", "statement": "Without torque a body keeps its angular momentum; its angular velocity stays constant if its moments of inertia are equal, whichever rotation integrator is used.", "quantifier": "for all states and time steps", "why_tests_cant": "real-valued; the error is of fourth order in the time step", "anchors": ["pkg/dem/NewtonIntegrator.cpp: leapfrogAsphericalRotate, leapfrogSphericalRotate, action"]}
{"id": "C81", "title": "Energy tracking reports the energies of the bodies", "statement": "With energy tracking, the rotational energy reported is the one of a rigid body with the given principal moments and orientation, and the energy lost in damping never decreases.", "quantifier": "for all states, forces, torques", "why_tests_cant": "real-valued; wrong only for turned bodies with different moments", "anchors": ["pkg/dem/NewtonIntegrator.cpp: updateEnergy"]}
{"id": "C82", "title": "A damped step leaves at most the kinetic energy of the undamped step", "statement": "For damping in [0,1] each velocity component after a damped step is at most as large as after the undamped step.", "quantifier": "for all velocities, accelerations, damping coefficients in [0,1]", "why_tests_cant": "real-valued; fails only when the velocity passes through zero", "anchors": ["pkg/dem/NewtonIntegrator.cpp: cundallDamp2nd, action"]}
{"id": "C83", "title": "A clump has the inertia of its members", "statement": "After computing clump properties, the principal moments of the clump together with its orientation give the inertia tensor of the rigid assembly of its members about their common centre of mass.", "quantifier": "for every set of members, positions, orientations, densities, and every orthonormal eigenvector basis the eigensolver may return", "why_tests_cant": "real-valued; an eigensolver whose choice of eigenvectors is not fixed", "anchors": ["core/Clump.cpp: updateProperties, inertiaTensorTranslate, inertiaTensorRotate"]}
{"id": "C84", "title": "A newly formed clump is at rest", "statement": "After computing clump properties the clump is at rest and, without forces, stays at rest.", "quantifier": "for every set of members and every previous state of the clump body", "why_tests_cant": "needs a clump spinning before its properties are recomputed; real-valued", "anchors": ["core/Clump.cpp: updateProperties", "pkg/dem/NewtonIntegrator.cpp: leapfrogAsphericalRotate"]}
{"id": "C85", "title": "Friction never exceeds the Coulomb limit", "statement": "After each step of the elastic-frictional law the shear force is at most the tangent of the friction angle times the normal force, the normal force is the stiffness times the overlap, the loads on the bodies are the sum of both, and bodies that do not touch exert no force on each other.", "quantifier": "for every overlap, previous shear force, displacement increment, stiffness, friction angle and law option", "why_tests_cant": "real-valued, history-dependent", "anchors": ["pkg/dem/ElasticContactLaw.cpp: Law2_ScGeom_FrictPhys_CundallStrack::go"]}
{"id": "C86", "title": "Sliding only dissipates energy", "statement": "The plastic work of a sliding step is not negative, and the elastic shear energy left after sliding plus the plastic work is at most the elastic shear energy before the friction limit was applied.", "quantifier": "for every contact, history and law option", "why_tests_cant": "real-valued energies along every path", "anchors": ["pkg/dem/ElasticContactLaw.cpp: Law2_ScGeom_FrictPhys_CundallStrack::go"]}
{"id": "C87", "title": "Rigid motion does not change a contact", "statement": "When two touching bodies move together as one rigid body, their shear force turns with them and keeps its magnitude.", "quantifier": "for every rigid motion of the pair and every previous force", "why_tests_cant": "real-valued; error accumulates over steps", "anchors": ["pkg/dem/ScGeom.cpp: precompute, getIncidentVel, rotate", "pkg/dem/ElasticContactLaw.cpp: Law2_ScGeom_FrictPhys_CundallStrack::go"]}
{"id": "C88", "title": "Exchanging the bodies of a contact exchanges the loads", "statement": "Whether the collider reports a pair of spheres as (a,b) or (b,a), each body receives the same force and torque over the whole history of the contact, in periodic scenes as well.", "quantifier": "for every sequence of states, time steps and periodic shifts, every pair of radii and materials", "why_tests_cant": "the order depends on insertion order; real-valued histories", "anchors": ["pkg/dem/Ig2_Sphere_Sphere_ScGeom.cpp: go", "pkg/dem/ScGeom.cpp: precompute, getIncidentVel, rotate", "pkg/dem/ElasticContactLaw.cpp: Law2_ScGeom_FrictPhys_CundallStrack::go", "pkg/dem/FrictPhys.cpp: Ip2_FrictMat_FrictMat_FrictPhys::go"]}
{"id": "C89", "title": "Sphere-sphere contact geometry", "statement": "Two spheres get a new contact exactly when their centres are within the interaction factor times the sum of radii; its normal is the unit vector from the first to the second centre, its depth the overlap, and the contact point lies on the line of centres, half the depth inside both spheres. Only coinciding centres are undefined.", "quantifier": "for all radii, positions, periodic shifts, new and existing contacts", "why_tests_cant": "real-valued", "anchors": ["pkg/dem/Ig2_Sphere_Sphere_ScGeom.cpp: go"]}
{"id": "C90", "title": "Box-sphere contact geometry", "statement": "A sphere contacts a box exactly when the box point closest to its centre is within the radius; depth, normal and contact point are those of that point. With the centre inside the box, depth and normal describe the shortest displacement that separates them.", "quantifier": "for every box size, orientation, position, radius and periodic shift", "why_tests_cant": "real-valued; faces, edges and corners in every orientation", "anchors": ["pkg/dem/Ig2_Box_Sphere_ScGeom.cpp: go"]}
{"id": "C91", "title": "Facet-sphere contact geometry", "statement": "A sphere contacts a triangular facet exactly when the point of the triangle closest to its centre is closer than the radius; depth, normal and contact point are those of that point.", "quantifier": "for every non-degenerate triangle, placement of the facet, sphere and periodic shift", "why_tests_cant": "real-valued; interior, edges and vertices of every triangle shape", "anchors": ["pkg/dem/Ig2_Facet_Sphere_ScGeom.cpp: go", "pkg/common/Facet.cpp: postLoad", "pkg/dem/Shop_02.cpp: inscribedCircleCenter", "py/utils.py: facet"]}
{"id": "C92", "title": "New facet vertices take effect", "statement": "After giving an existing facet new vertices, its contacts are those of the new triangle.", "quantifier": "for all old and new triangles", "why_tests_cant": "contacts depend on cached values derived from the vertices", "anchors": ["py/_utils.cpp: setNewVerticesOfFacet", "pkg/common/Facet.cpp: postLoad"]}
{"id": "C93", "title": "Velocity across the period matches the motion of the cell", "statement": "In a deforming periodic cell the velocity added to the image of a body in another period is the displacement of that image relative to the body during the step divided by the time step, it is zero in the same period, and shifts add up.", "quantifier": "for every cell, velocity gradient, time step and whole-period shift", "why_tests_cant": "matrix-valued, unbounded shifts", "anchors": ["core/Cell.hpp: intrShiftPos, intrShiftVel", "core/Cell.cpp: integrateAndUpdate"]}
{"id": "C94", "title": "Assigning the size keeps the shape of the cell", "statement": "After assigning the cell size each base vector has the length asked for and the old direction, the reference base is the new base, and wrapping uses the new lengths.", "quantifier": "for every cell of nonzero volume and all positive sizes", "why_tests_cant": "real-valued", "anchors": ["core/Cell.hpp: setSize, postLoad"]}
{"id": "C95", "title": "Periodic lists of bounds stay consistent", "statement": "In a periodic scene, after every run of the insertion sort collider the list of each axis holds the lower and the upper bound of every body id exactly once, each with a coordinate and a period that together give the coordinate of the box in space; starting from the split index the coordinates do not decrease and span at most one period.", "quantifier": "for every sequence of runs with one initial sort and a fixed number of ids, every motion of the bodies between the runs, every cell size", "why_tests_cant": "the order is kept incrementally through the split of the circular list; an error shows only for particular sequences of crossings of the cell border", "anchors": ["pkg/common/InsertionSortCollider.cpp: InsertionSortCollider::action, insertionSortPeri, handleBoundInversionPeri, cellWrap", "pkg/common/InsertionSortCollider.hpp: Bounds, VecBounds, shouldBeErased"]}
{"id": "C96", "title": "Periodic collider misses no contact", "statement": "In a periodic scene, after every run of the insertion sort collider every two collidable bodies whose boxes overlap for some shift by whole periods have an interaction.", "quantifier": "for every sequence of runs, every motion, every change of the cell size, also after further initial sorts and when bodies are added", "why_tests_cant": "a missed contact needs particular histories of crossings of the border and of the split index", "anchors": ["pkg/common/InsertionSortCollider.cpp: InsertionSortCollider::action, insertionSortPeri, handleBoundInversionPeri, cellWrap", "pkg/common/InsertionSortCollider.hpp: Bounds, VecBounds, shouldBeErased"]}
{"id": "C97", "title": "A periodic collider run changes interactions as documented", "statement": "A run of the periodic collider removes no real interaction and none between bodies with images that meet; each interaction it creates is potential, between two different collidable bodies whose boxes meet for the recorded shift; potential interactions left are between bodies with images that meet; no pair gets a second interaction.", "quantifier": "for every scene, every state of the collider reached, every list of interactions", "why_tests_cant": "the statement is about all histories of the circular lists and all positions of boxes relative to the cell", "anchors": ["pkg/common/InsertionSortCollider.cpp: InsertionSortCollider::action, insertionSortPeri, handleBoundInversionPeri, cellWrap", "pkg/common/InsertionSortCollider.hpp: Bounds, VecBounds, shouldBeErased"]}
{"id": "C98", "title": "The shift of a potential interaction is current", "statement": "After a run of the periodic collider the shift (cellDist) of each potential interaction is one for which the two boxes meet.", "quantifier": "for every scene and every history", "why_tests_cant": "depends on boxes whose overlap moves from one image to another between two runs", "anchors": ["pkg/common/InsertionSortCollider.cpp: InsertionSortCollider::action, insertionSortPeri, handleBoundInversionPeri, cellWrap", "pkg/common/InsertionSortCollider.hpp: Bounds, VecBounds, shouldBeErased"]}
{"id": "C99", "title": "An empty periodic scene can be stepped", "statement": "The collider runs in a periodic scene without bodies and leaves no interactions.", "quantifier": "for all settings of the collider", "why_tests_cant": "nobody tests a run without bodies; the result is a division by zero", "anchors": ["pkg/common/InsertionSortCollider.cpp: InsertionSortCollider::action, insertionSortPeri, handleBoundInversionPeri, cellWrap", "pkg/common/InsertionSortCollider.hpp: Bounds, VecBounds, shouldBeErased"]}
