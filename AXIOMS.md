# Axioms of every theorem named in MANIFEST.json

Output of `#print axioms`. Nothing outside `propext`, `Classical.choice`, `Quot.sound` occurs; no axioms of our own, no `sorry`, no compiler trust.

* **C01** Body ids are slot numbers and are never silently reassigned
  * `Verif.Bodies.C01_ids_are_slots_partial`: propext, Classical.choice, Quot.sound
  * `Verif.Bodies.C01_append`: propext, Classical.choice, Quot.sound
  * `Verif.Bodies.C01_insertAtId`: propext, Quot.sound
  * `Verif.Bodies.C01_erase_brings_nothing`: propext, Classical.choice, Quot.sound
  * `Verif.Bodies.C01_violated`: propext
* **C02** Iterating over O.bodies visits every existing body exactly once, in id order, without touching memory past the end
  * `Verif.Bodies.C02_iteration_partial`: propext, Quot.sound
  * `Verif.Bodies.C02_violated`: propext, Quot.sound
* **C03** Out-of-range body ids are rejected instead of read
  * `Verif.Bodies.C03_getitem`: propext, Quot.sound
  * `Verif.Bodies.C03_exists`: propext, Classical.choice, Quot.sound
  * `Verif.Bodies.C03_inrange_partial`: propext, Classical.choice, Quot.sound
  * `Verif.Bodies.C03_violated`: propext, Quot.sound
* **C04** Clump membership is consistent in both directions
  * `Verif.Bodies.C04_consistent_partial`: propext, Classical.choice, Quot.sound
  * `Verif.Bodies.C04_operations_defined_partial`: propext, Classical.choice, Quot.sound
  * `Verif.Bodies.C04_violated`: propext, Quot.sound
  * `Verif.Bodies.C04_violated_clump`: propext, Quot.sound
* **C05** Erasing a body erases exactly what was asked
  * `Verif.Bodies.C05_erase_free`: propext, Classical.choice, Quot.sound
  * `Verif.Bodies.C05_erase_member`: propext, Classical.choice, Quot.sound
  * `Verif.Bodies.C05_erase_clump_keep`: propext, Classical.choice, Quot.sound
  * `Verif.Bodies.C05_erase_clump_all`: propext, Classical.choice, Quot.sound
  * `Verif.Bodies.C05_erase_gone`: propext, Quot.sound
  * `Verif.Bodies.C05_cases`: propext, Classical.choice, Quot.sound
* **C06** The interaction container is a map keyed by unordered body pairs
  * `Verif.Intr.C06_container_is_pair_map`: propext, Classical.choice, Quot.sound
* **C07** Conditional removal of potential interactions is exact and independent of the thread count
  * `Verif.Intr.C07_bulk_removal_exact`: propext, Classical.choice, Quot.sound
* **C08** eraseNonReal removes all and only the non-real interactions, safely
  * `Verif.Intr.C08_eraseNonReal_partial`: propext, Classical.choice, Quot.sound
  * `Verif.Intr.C08_eraseNonReal_violated`: propext, Classical.choice, Quot.sound
* **C09** A pair that was erased can be inserted again
  * `Verif.Intr.C09_reinsert_partial`: propext, Classical.choice, Quot.sound
  * `Verif.Intr.C09_reinsert_violated`: propext
  * `Verif.Intr.C09_reappended_body_violated`: propext
* **C10** Saving and loading keeps every interaction whose bodies still exist
  * `Verif.Intr.C10_save_load_roundtrip`: propext, Classical.choice, Quot.sound
  * `Verif.Intr.C10_save_twice`: propext, Classical.choice, Quot.sound
  * `Verif.Intr.C10_orphan_in_file_violated`: propext
* **C11** Synchronised force equals the sum of everything added since the last reset
  * `Verif.Forces.C11_sync_sum`: propext, Classical.choice, Quot.sound
  * `Verif.Forces.C11_sync_sum_noperm`: propext, Classical.choice, Quot.sound
* **C12** Forces cannot be read before synchronisation
  * `Verif.Forces.C12_never_stale`: propext, Classical.choice, Quot.sound
  * `Verif.Forces.C12_add_then_read_throws`: propext, Classical.choice, Quot.sound
* **C13** A permanent force stays until it is changed or reset
  * `Verif.Forces.C13_perm_stays_partial`: propext, Classical.choice, Quot.sound
  * `Verif.Forces.C13_violated_other_body`: propext
  * `Verif.Forces.C13_violated_memory`: none
* **C14** Synchronising twice is the same as synchronising once
  * `Verif.Forces.C14_sync_idempotent`: propext, Classical.choice, Quot.sound
  * `Verif.Forces.C14_violated_serial`: propext
  * `Verif.Forces.C14_serial_partial`: propext
* **C15** Concurrent growth of the force storage loses no contribution
  * `Verif.Forces.C15_violated`: propext
  * `Verif.Forces.C15_growth_partial`: propext, Classical.choice, Quot.sound
* **C16** Sub-stepping does not change what a step does
  * `Verif.Step.C16_substepping_same`: propext, Classical.choice, Quot.sound
  * `Verif.Step.C16_same_result`: propext, Classical.choice, Quot.sound
* **C17** Replacing O.engines during a step takes effect at the next step only
  * `Verif.Step.C17_replace_partial`: propext, Classical.choice, Quot.sound
  * `Verif.Step.C17_violated_empty`: propext
  * `Verif.Step.C17_violated_lost`: propext
  * `Verif.Step.C17_violated_restart`: propext
* **C18** An exception inside an engine does not make other engines run twice in one step
  * `Verif.Step.C18_substepping_partial`: propext, Classical.choice, Quot.sound
  * `Verif.Step.C18_violated`: propext, Classical.choice, Quot.sound
* **C19** O.run(n) performs exactly n steps and O.stopAtTime stops
  * `Verif.Step.C19_run_n`: propext, Classical.choice, Quot.sound
  * `Verif.Step.C19_stopAtTime_partial`: propext, Classical.choice, Quot.sound
  * `Verif.Step.C19_violated_stopAtTime`: propext, Classical.choice, Quot.sound
* **C20** Single-argument dispatch picks the functor of the nearest ancestor class
  * `Verif.Dispatch.C20_nearest`: propext, Quot.sound
* **C21** Two-argument dispatch picks the closest pair and reports ambiguity reliably
  * `Verif.Dispatch.C21_first_lookup_partial`: propext, Classical.choice, Quot.sound
  * `Verif.Dispatch.C21_again_partial`: propext, Classical.choice, Quot.sound
  * `Verif.Dispatch.C21_order_partial`: propext, Classical.choice, Quot.sound
  * `Verif.Dispatch.C21_violated_history`: propext, Quot.sound
  * `Verif.Dispatch.C21_violated_silent`: propext, Quot.sound
  * `Verif.Dispatch.C21_violated_repeat`: propext, Quot.sound
  * `Verif.Dispatch.C21_violated_roles`: propext, Quot.sound
  * `Verif.Dispatch.C21_violated_report`: propext, Quot.sound
* **C22** Dispatch depends only on which functors are registered, not on when
  * `Verif.Dispatch.C22_set_partial`: Quot.sound
  * `Verif.Dispatch.C22_set_fresh_partial`: propext, Quot.sound
  * `Verif.Dispatch.C22_violated_add`: propext, Quot.sound
  * `Verif.Dispatch.C22_violated_objects`: propext, Quot.sound
  * `Verif.Dispatch.C22_violated_dropped`: propext, Quot.sound
* **C23** The pair filter of the colliders is symmetric and complete
  * `Verif.Collide.C23_filter_partial`: propext, Classical.choice, Quot.sound
  * `Verif.Collide.C23_violated_null`: propext
* **C24** The sweep keeps each axis list a sorted permutation
  * `Verif.Collide.C24_sorted_permutation`: propext, Classical.choice, Quot.sound
  * `Verif.Collide.C24_run_completes`: propext, Classical.choice, Quot.sound
* **C25** The incremental collider misses no overlap
  * `Verif.Collide.C25_no_overlap_missed`: propext, Classical.choice, Quot.sound
* **C26** The initial sweep finds every overlap
  * `Verif.Collide.C26_initial_sweep`: propext, Classical.choice, Quot.sound
* **C27** The collider creates nothing spurious and keeps nothing obsolete
  * `Verif.Collide.C27_nothing_spurious`: propext, Classical.choice, Quot.sound
  * `Verif.Collide.C27_kept`: propext, Classical.choice, Quot.sound
  * `Verif.Collide.C27_nothing_obsolete_partial`: propext, Classical.choice, Quot.sound
  * `Verif.Collide.C27_violated_deleted`: propext, Classical.choice, Quot.sound
* **C28** The parallel sort never touches memory outside the bounds list
  * `Verif.Collide.C28_parallel_sort_partial`: propext, Classical.choice, Quot.sound
  * `Verif.Collide.C28_ranges_disjoint`: propext, Quot.sound
  * `Verif.Collide.C28_violated_start`: propext, Quot.sound
  * `Verif.Collide.C28_violated_last`: propext
* **C29** Bounds are compared by a strict weak order
  * `Verif.Collide.C29_order_partial`: propext
  * `Verif.Collide.C29_violated_irreflexive`: propext
  * `Verif.Collide.C29_violated_incomparable`: propext
* **C30** Periodic overlap test is exact
  * `Verif.Peri.C30_exact`: propext, Classical.choice, Quot.sound
  * `Verif.Peri.C30_too_large`: propext, Classical.choice, Quot.sound
  * `Verif.Peri.C30_exchange_partial`: propext, Classical.choice, Quot.sound
  * `Verif.Peri.C30_exchange_violated`: propext, Classical.choice, Quot.sound
* **C31** Wrapping into the cell is exact
  * `Verif.Peri.C31_number`: propext, Classical.choice, Quot.sound
  * `Verif.Peri.C31_period`: propext, Classical.choice, Quot.sound
  * `Verif.Peri.C31_collider`: propext, Classical.choice, Quot.sound
  * `Verif.Peri.C31_point`: propext, Classical.choice, Quot.sound
  * `Verif.Peri.C31_sheared`: propext, Classical.choice, Quot.sound
  * `Verif.Peri.C31_sheared_period`: propext, Classical.choice, Quot.sound
* **C32** Skipping the collider is safe
  * `Verif.Stride.C32_safe_partial`: propext, Classical.choice, Quot.sound
  * `Verif.Stride.C32_overlap_partial`: propext, Classical.choice, Quot.sound
  * `Verif.Stride.C32_violated_sheared`: propext, Classical.choice, Quot.sound
* **C33** The grid collider finds every pair of touching spheres
  * `Verif.Grid.C33_found_partial`: propext, Classical.choice, Quot.sound
  * `Verif.Grid.C33_only`: propext, Classical.choice, Quot.sound
  * `Verif.Grid.C33_defined`: propext, Classical.choice, Quot.sound
  * `Verif.Grid.C33_runs`: propext, Classical.choice, Quot.sound
  * `Verif.Grid.C33_violated_origin`: propext, Classical.choice, Quot.sound
* **C34** The reference collider obeys the pair filter and ignores bodies without box
  * `Verif.Grid.C34_exact_partial`: propext, Classical.choice, Quot.sound
  * `Verif.Grid.C34_violated_filter`: propext, Classical.choice, Quot.sound
  * `Verif.Grid.C34_violated_no_box`: propext, Classical.choice, Quot.sound
  * `Verif.Grid.C34_violated_erased`: propext, Classical.choice, Quot.sound
  * `Verif.Grid.C34_violated_stale`: propext, Classical.choice, Quot.sound
* **C35** One pass of the interaction loop takes each interaction through legal states only
  * `Verif.Loop.C35_law`: propext, Classical.choice, Quot.sound
  * `Verif.Loop.C35_law_gets`: propext, Classical.choice, Quot.sound
  * `Verif.Loop.C35_real_means`: propext, Quot.sound
  * `Verif.Loop.C35_real_after`: propext, Classical.choice, Quot.sound
  * `Verif.Loop.C35_dropped`: propext, Classical.choice, Quot.sound
  * `Verif.Loop.C35_stamp`: propext, Classical.choice, Quot.sound
  * `Verif.Loop.C35_callbacks`: propext, Classical.choice, Quot.sound
  * `Verif.Loop.C35_each`: propext, Classical.choice, Quot.sound
* **C36** Swapping an interaction's bodies keeps the physical pair
  * `Verif.Intr.C36_swapOrder`: propext, Quot.sound
  * `Verif.Intr.C36_swap_in_container`: propext
* **C37** Contact forces obey action and reaction
  * `Verif.Mech.C37_contact_point`: propext, Classical.choice, Quot.sound
  * `Verif.Mech.C37_spheres_partial`: propext, Classical.choice, Quot.sound
  * `Verif.Mech.C37_violated_wall`: propext, Classical.choice, Quot.sound
* **C38** Blocked degrees of freedom keep their velocity
  * `Verif.Mech.C38_blocked_partial`: propext, Classical.choice, Quot.sound
  * `Verif.Mech.C38_free`: propext, Classical.choice, Quot.sound
  * `Verif.Mech.C38_violated_member`: propext, Classical.choice, Quot.sound
* **C39** Numerical damping only ever removes energy
  * `Verif.Mech.C39_accel`: propext, Classical.choice, Quot.sound
  * `Verif.Mech.C39_torque`: propext, Classical.choice, Quot.sound
  * `Verif.Mech.C39_factor`: propext, Classical.choice, Quot.sound
* **C40** Resultant on a clump equals the resultant on its members
  * `Verif.Mech.C40_resultant`: propext, Classical.choice, Quot.sound
  * `Verif.Mech.C40_rigid`: propext, Classical.choice, Quot.sound
  * `Verif.Mech.C40_distances`: propext, Classical.choice, Quot.sound
  * `Verif.Mech.C40_relative`: propext, Classical.choice, Quot.sound
  * `Verif.Mech.C40_runs`: propext, Classical.choice, Quot.sound
* **C41** Forming a clump does not move its members
  * `Verif.Mech.C41_placement`: propext, Classical.choice, Quot.sound
  * `Verif.Mech.C41_mass_centre_partial`: propext, Classical.choice, Quot.sound
  * `Verif.Mech.C41_violated_mass`: propext, Classical.choice, Quot.sound
* **C42** Body states survive the exchange between subdomains
  * `Verif.Mpi.C42_roundtrip_partial`: propext, Quot.sound
  * `Verif.Mpi.C42_violated_short`: propext, Quot.sound
* **C43** Bounding boxes survive the exchange between subdomains
  * `Verif.Mpi.C43_bounded_partial`: propext, Quot.sound
  * `Verif.Mpi.C43_violated`: propext, Quot.sound
* **C44** A subdomain's box is the tightest box around its bodies
  * `Verif.Mpi.C44_tightest_partial`: propext, Quot.sound
  * `Verif.Mpi.C44_violated`: propext
* **C45** All processes take the same collision-detection decision
  * `Verif.Mpi.Vote.C45_same_decision`: propext, Classical.choice, Quot.sound
  * `Verif.Mpi.Vote.C45_same_collectives`: propext, Classical.choice, Quot.sound
  * `Verif.Mpi.Vote.C45_progress`: propext, Classical.choice, Quot.sound
* **C46** State exchange messages match
  * `Verif.Mpi.Exchange.C46_no_deadlock`: propext, Classical.choice, Quot.sound
  * `Verif.Mpi.Exchange.C46_no_deadlock_unbuffered`: propext, Classical.choice, Quot.sound
  * `Verif.Mpi.Exchange.C46_matched`: propext, Classical.choice, Quot.sound
  * `Verif.Mpi.Exchange.C46_current`: propext, Quot.sound
  * `Verif.Mpi.Exchange.C46_applied`: propext, Classical.choice, Quot.sound
* **C47** Forces received by the master belong to the current step
  * `Verif.Mpi.Exchange.C47_received`: propext, Classical.choice, Quot.sound
  * `Verif.Mpi.Exchange.C47_current_partial`: propext, Classical.choice, Quot.sound
  * `Verif.Mpi.Exchange.C47_violated`: propext, Classical.choice, Quot.sound
  * `Verif.Mpi.Exchange.C47_violated_unbuffered`: propext, Classical.choice, Quot.sound
* **C48** Merging returns every worker's state to the right body on the master
  * `Verif.Mpi.C48_merge_partial`: propext, Classical.choice, Quot.sound
  * `Verif.Mpi.C48_violated_angMom`: propext, Classical.choice, Quot.sound
  * `Verif.Mpi.C48_violated_bounded`: propext, Classical.choice, Quot.sound
  * `Verif.Mpi.C48_violated_erased`: propext, Quot.sound
* **C49** Tree scatter gives each item to exactly one worker and gather brings all back
  * `Verif.Tree.C49_all_take_part_partial`: propext, Classical.choice, Quot.sound
  * `Verif.Tree.C49_balanced_partial`: propext, Classical.choice, Quot.sound
  * `Verif.Tree.C49_levels_enough_partial`: propext, Classical.choice, Quot.sound
  * `Verif.Tree.C49_violated_power_of_two`: propext, Classical.choice, Quot.sound
  * `Verif.Tree.C49_violated_17`: propext, Classical.choice, Quot.sound
  * `Verif.Tree.C49_violated_few_items`: propext, Classical.choice, Quot.sound
* **C50** O.tags behaves as a dictionary
  * `Verif.Attr.C50_get_partial`: propext, Classical.choice, Quot.sound
  * `Verif.Attr.C50_keys`: propext, Classical.choice, Quot.sound
  * `Verif.Attr.C50_has`: propext, Quot.sound
  * `Verif.Attr.C50_independent`: propext, Classical.choice, Quot.sound
  * `Verif.Attr.C50_violated_key_with_eq`: propext, Classical.choice, Quot.sound
* **C51** Blocked degrees of freedom round-trip through their string form
  * `Verif.Attr.C51_read_after_write`: propext, Quot.sound
  * `Verif.Attr.C51_write_back`: propext, Classical.choice, Quot.sound
  * `Verif.Attr.C51_always_below_64`: propext, Quot.sound
  * `Verif.Attr.C51_letter_is_axis`: propext, Classical.choice, Quot.sound
  * `Verif.Attr.C51_dynamic`: propext, Quot.sound
* **C52** Periodic engines respect period, limit and initial-run settings
  * `Verif.Sched.C52_limit_partial`: propext, Quot.sound
  * `Verif.Sched.C52_no_initial_run_partial`: propext, Classical.choice, Quot.sound
  * `Verif.Sched.C52_violated_zero`: propext, Quot.sound
  * `Verif.Sched.C52_violated_one_run_less`: propext, Classical.choice, Quot.sound
  * `Verif.Sched.C52_violated_initial_run`: none
  * `Verif.Sched.C52_violated_missed`: propext
  * `Verif.Sched.C72_period_between_runs`: propext, Classical.choice, Quot.sound
  * `Verif.Sched.C73_exactly_nDo`: propext, Quot.sound
* **C53** Per-thread accumulators add up
  * `Verif.Accu.C53_scalar`: propext, Classical.choice, Quot.sound
  * `Verif.Accu.C53_slots`: propext, Quot.sound
  * `Verif.Accu.C53_array_partial`: propext, Classical.choice, Quot.sound
  * `Verif.Accu.C53_violated_growth`: propext, Classical.choice, Quot.sound
* **C54** Energy reported by name equals the energy added under that name
  * `Verif.Accu.C54_by_name_partial`: propext, Classical.choice, Quot.sound
  * `Verif.Accu.C54_total_partial`: propext, Classical.choice, Quot.sound
  * `Verif.Accu.C54_interleaving_partial`: propext, Classical.choice, Quot.sound
  * `Verif.Accu.C54_violated_double`: propext
  * `Verif.Accu.C54_violated_clear`: propext
* **C55** Replacing spheres by clumps selects the requested number of spheres
  * `Verif.Replace.C55_replaces_partial`: propext, Classical.choice, Quot.sound
  * `Verif.Replace.C55_refused`: propext, Classical.choice, Quot.sound
  * `Verif.Replace.C55_violated_zero`: propext, Classical.choice, Quot.sound
  * `Verif.Replace.C55_violated_rounding`: propext, Classical.choice, Quot.sound
  * `Verif.Replace.C55_violated_overflow`: propext, Classical.choice, Quot.sound
* **C56** Homogeneous deformation keeps the reference cell
  * `Verif.Peri.C56_reference`: propext, Classical.choice, Quot.sound
  * `Verif.Peri.C56_degenerate`: propext, Classical.choice, Quot.sound
  * `Verif.Peri.C56_history`: propext, Classical.choice, Quot.sound
  * `Verif.Peri.C56_assignment_waits`: propext, Classical.choice, Quot.sound
  * `Verif.Peri.C56_ok_new`: propext, Classical.choice, Quot.sound
* **C57** Emptying the body container leaves a usable scene
  * `Verif.Intr.C57_clear_bodies_partial`: propext
  * `Verif.Intr.C57_clear_bodies_violated`: propext
* **C58** Looking up interactions of missing bodies is safe
  * `Verif.Intr.C58_find_safe`: propext, Classical.choice, Quot.sound
  * `Verif.Intr.C58_has_partial`: propext, Classical.choice, Quot.sound
  * `Verif.Intr.C58_has_violated`: propext
* **C59** Appending bodies gives consecutive ids and disturbs nobody
  * `Verif.Bodies.C01_append`: propext, Classical.choice, Quot.sound
* **C60** Looking up a body by id never reads outside the container
  * `Verif.Bodies.C03_getitem`: propext, Quot.sound
  * `Verif.Bodies.C03_exists`: propext, Classical.choice, Quot.sound
* **C61** Reading a force without synchronisation
  * `Verif.Forces.C61_single_read_partial`: propext, Classical.choice, Quot.sound
  * `Verif.Forces.C61_violated`: propext
* **C62** Unchecked reads of the totals return the right quantity
  * `Verif.Forces.C62_unsynced_partial`: propext, Classical.choice, Quot.sound
  * `Verif.Forces.C62_violated_serial`: propext
* **C63** Prescribed displacement increments are summed and last one step
  * `Verif.Forces.C63_move_rot`: propext, Classical.choice, Quot.sound
* **C64** Functors receive objects of the classes they declare
  * `Verif.Dispatch.C64_typed`: propext, Classical.choice, Quot.sound
* **C65** Dispatching an object of the top-level class is reported
  * `Verif.Dispatch.C65_negative_index_partial`: propext
  * `Verif.Dispatch.C65_violated`: propext, Quot.sound
* **C66** "No functor" is reported exactly when none applies
  * `Verif.Dispatch.C66_none_iff`: propext, Classical.choice, Quot.sound
* **C67** The collider survives changes of the number of bodies and of periodicity
  * `Verif.Collide.C67_restart_partial`: propext, Classical.choice, Quot.sound
  * `Verif.Collide.C67_violated_fewer`: propext, Classical.choice, Quot.sound
  * `Verif.Collide.C67_violated_periodic`: propext, Classical.choice, Quot.sound
* **C68** Changes of masks and boxes at run time are noticed
  * `Verif.Collide.C68_changed_filter_partial`: propext, Classical.choice, Quot.sound
  * `Verif.Collide.C68_violated_mask`: propext, Classical.choice, Quot.sound
* **C69** Touching boxes are treated alike
  * `Verif.Collide.C69_touching_kept_partial`: propext, Classical.choice, Quot.sound
  * `Verif.Collide.C69_violated_history`: propext, Classical.choice, Quot.sound
* **C70** Materials are found under their numbers
  * `Verif.Attr.C70_own_number`: propext, Quot.sound
  * `Verif.Attr.C70_append`: propext, Quot.sound
  * `Verif.Attr.C70_append_list`: propext, Quot.sound
  * `Verif.Attr.C70_index`: propext, Quot.sound
  * `Verif.Attr.C70_label`: propext, Classical.choice, Quot.sound
* **C71** Each place holds a material of that number
  * `Verif.Attr.C71_place_is_number_partial`: propext, Quot.sound
  * `Verif.Attr.C71_violated_twice`: propext
* **C72** Runs of a periodic engine are limited and spaced
  * `Verif.Sched.C72_at_most_nDo`: propext, Quot.sound
  * `Verif.Sched.C72_period_between_runs`: propext, Classical.choice, Quot.sound
* **C73** A periodic engine with an initial run runs exactly nDo times
  * `Verif.Sched.C73_initRun`: propext, Quot.sound
  * `Verif.Sched.C73_exactly_nDo`: propext, Quot.sound
  * `Verif.Sched.C73_firstIterRun`: propext, Quot.sound
* **C74** Threaded vectors hold what was pushed
  * `Verif.Accu.C74_index`: propext, Quot.sound
  * `Verif.Accu.C74_push`: propext, Quot.sound
  * `Verif.Accu.C74_clear`: propext, Quot.sound
* **C75** Bisection neither deadlocks nor loses bodies
  * `Verif.Tree.C75_no_deadlock`: propext, Classical.choice, Quot.sound
  * `Verif.Tree.C75_terminates`: propext, Classical.choice, Quot.sound
  * `Verif.Tree.C75_no_exception`: propext, Classical.choice, Quot.sound
  * `Verif.Tree.C75_each_item_once`: propext, Classical.choice, Quot.sound
  * `Verif.Tree.C75_all_received`: propext, Classical.choice, Quot.sound
  * `Verif.Tree.C75_ends`: propext, Classical.choice, Quot.sound
  * `Verif.Tree.C75_gathered`: propext, Classical.choice, Quot.sound
  * `Verif.Tree.C75_assigned`: propext, Classical.choice, Quot.sound
* **C76** Bisection separates the subdomains
  * `Verif.Tree.C76_split_separates`: propext, Quot.sound
  * `Verif.Tree.C76_parts_separated`: propext, Classical.choice, Quot.sound
* **C77** Looping over O.bodies visits every body once
  * `Verif.Bodies.Iter.C77_loop_partial`: propext, Classical.choice, Quot.sound
  * `Verif.Bodies.Iter.C77_ends`: propext, Classical.choice, Quot.sound
  * `Verif.Bodies.Iter.C77_violated_past_end`: propext, Classical.choice, Quot.sound
* **C78** Orientations stay unit quaternions
  * `Verif.Mech.C78_orientations_unit`: propext, Classical.choice, Quot.sound
* **C79** The step does not depend on the order of bodies
  * `Verif.Mech.C79_order_independent`: propext, Classical.choice, Quot.sound
* **C80** A body without torque rotates freely
  * `Verif.Mech.C80_momentum_partial`: propext, Classical.choice, Quot.sound
  * `Verif.Mech.C80_turn_partial`: propext, Classical.choice, Quot.sound
  * `Verif.Mech.C80_angVel_partial`: propext, Classical.choice, Quot.sound
  * `Verif.Mech.C80_violated_angVel`: propext, Classical.choice, Quot.sound
* **C81** Energy tracking reports the energies of the bodies
  * `Verif.Mech.C81_damping_partial`: propext, Classical.choice, Quot.sound
  * `Verif.Mech.C81_rotational_partial`: propext, Classical.choice, Quot.sound
  * `Verif.Mech.C81_violated`: propext, Classical.choice, Quot.sound
* **C82** A damped step leaves at most the kinetic energy of the undamped step
  * `Verif.Mech.C82_kinetic_partial`: propext, Classical.choice, Quot.sound
  * `Verif.Mech.C82_violated_kinetic`: propext, Classical.choice, Quot.sound
* **C83** A clump has the inertia of its members
  * `Verif.Mech.C83_inertia_partial`: propext, Classical.choice, Quot.sound
  * `Verif.Mech.C83_violated_turned`: propext, Classical.choice, Quot.sound
  * `Verif.Mech.C83_violated_left_handed`: propext, Classical.choice, Quot.sound
  * `Verif.Mech.C83_violated_density`: propext, Classical.choice, Quot.sound
* **C84** A newly formed clump is at rest
  * `Verif.Mech.C84_rest_partial`: propext, Classical.choice, Quot.sound
  * `Verif.Mech.C84_violated`: propext, Classical.choice, Quot.sound
* **C85** Friction never exceeds the Coulomb limit
  * `Verif.Mech.C85_limit`: propext, Classical.choice, Quot.sound
  * `Verif.Mech.C85_separated`: propext, Classical.choice, Quot.sound
* **C86** Sliding only dissipates energy
  * `Verif.Mech.C86_dissipation`: propext, Classical.choice, Quot.sound
* **C87** Rigid motion does not change a contact
  * `Verif.Mech.C87_rigid_partial`: propext, Classical.choice, Quot.sound
  * `Verif.Mech.C87_violated`: propext, Classical.choice, Quot.sound
* **C88** Exchanging the bodies of a contact exchanges the loads
  * `Verif.Mech.C88_step`: propext, Classical.choice, Quot.sound
  * `Verif.Mech.C88_history`: propext, Classical.choice, Quot.sound
* **C89** Sphere-sphere contact geometry
  * `Verif.Mech.C89_spheres`: propext, Classical.choice, Quot.sound
* **C90** Box-sphere contact geometry
  * `Verif.Mech.C90_outside`: propext, Classical.choice, Quot.sound
  * `Verif.Mech.C90_inside_partial`: propext, Classical.choice, Quot.sound
  * `Verif.Mech.C90_violated_periodic`: propext, Classical.choice, Quot.sound
* **C91** Facet-sphere contact geometry
  * `Verif.Mech.C91_facet_partial`: propext, Classical.choice, Quot.sound
  * `Verif.Mech.C91_initial`: propext, Classical.choice, Quot.sound
  * `Verif.Mech.C91_violated`: propext, Classical.choice, Quot.sound
* **C92** New facet vertices take effect
  * `Verif.Mech.C92_created_partial`: propext, Classical.choice, Quot.sound
  * `Verif.Mech.C92_violated`: propext, Classical.choice, Quot.sound
* **C93** Velocity across the period matches the motion of the cell
  * `Verif.Peri.C93_velocity_shift`: propext, Classical.choice, Quot.sound
  * `Verif.Peri.C93_unaffected`: propext, Classical.choice, Quot.sound
  * `Verif.Peri.C93_additive`: propext, Classical.choice, Quot.sound
* **C94** Assigning the size keeps the shape of the cell
  * `Verif.Peri.C94_size`: propext, Classical.choice, Quot.sound
* **C95** Periodic lists of bounds stay consistent
  * `Verif.Peri.C95_lists`: propext, Classical.choice, Quot.sound
* **C96** Periodic collider misses no contact
  * `Verif.Peri.C96_no_miss_partial`: propext, Classical.choice, Quot.sound
  * `Verif.Peri.C96_violated_reinit`: propext, Classical.choice, Quot.sound
  * `Verif.Peri.C96_violated_added`: propext, Classical.choice, Quot.sound
* **C97** A periodic collider run changes interactions as documented
  * `Verif.Peri.C97_run`: propext, Classical.choice, Quot.sound
* **C98** The shift of a potential interaction is current
  * `Verif.Peri.C98_new_shift_partial`: propext, Classical.choice, Quot.sound
  * `Verif.Peri.C98_violated_kept`: propext, Classical.choice, Quot.sound
* **C99** An empty periodic scene can be stepped
  * `Verif.Peri.C99_empty_partial`: propext, Quot.sound
  * `Verif.Peri.C99_violated_empty`: propext, Quot.sound
* **C100** Interactions the collider no longer sees are removed
  * `Verif.Loop.C100_untouched_partial`: propext
  * `Verif.Loop.C100_violated_kept`: propext, Classical.choice, Quot.sound
* **C101** A contact law finds a contact fresh exactly once
  * `Verif.Loop.C101_fresh_partial`: propext, Classical.choice, Quot.sound
  * `Verif.Loop.C101_violated_reset`: propext, Quot.sound
  * `Verif.Loop.C103_fresh`: propext, Classical.choice, Quot.sound
* **C102** Geometry functors get shapes in their own order
  * `Verif.Loop.C102_order_partial`: propext, Classical.choice, Quot.sound
  * `Verif.Loop.C102_no_exchange`: propext, Classical.choice, Quot.sound
  * `Verif.Loop.C102_violated_replaced`: propext, Quot.sound
* **C103** Explicitly created interactions are as the loop would make them
  * `Verif.Loop.C103_nearest_partial`: propext, Classical.choice, Quot.sound
  * `Verif.Loop.C103_violated_below`: propext, Classical.choice, Quot.sound
  * `Verif.Loop.C103_created`: propext
  * `Verif.Loop.C103_fresh`: propext, Classical.choice, Quot.sound
  * `Verif.Loop.C103_violated_unforced`: propext, Quot.sound
  * `Verif.Loop.C103_same_shift_partial`: propext
  * `Verif.Loop.C103_violated_exchanged`: propext, Quot.sound
* **C104** What a collider finds is looked at in the same step
  * `Verif.Grid.C104_quick`: propext, Classical.choice, Quot.sound
  * `Verif.Grid.C104_known_partial`: propext, Classical.choice, Quot.sound
  * `Verif.Grid.C104_violated_new`: propext, Classical.choice, Quot.sound
* **C105** The grid collider runs again when bodies have moved
  * `Verif.Grid.C105_bounded_partial`: propext, Classical.choice, Quot.sound
  * `Verif.Grid.C105_violated_never`: propext, Classical.choice, Quot.sound
  * `Verif.Grid.C105_violated_far`: propext, Classical.choice, Quot.sound
* **C106** Leaving the margin is noticed
  * `Verif.Stride.C106_noticed`: propext, Classical.choice, Quot.sound
* **C107** Bodies moved by a script are noticed
  * `Verif.Stride.C107_next_partial`: propext, Classical.choice, Quot.sound
  * `Verif.Stride.C107_violated`: propext, Classical.choice, Quot.sound
* **C108** Bounding boxes contain the shapes
  * `Verif.Stride.C108_facet`: propext, Classical.choice, Quot.sound
  * `Verif.Stride.C108_box`: propext, Classical.choice, Quot.sound
  * `Verif.Stride.C108_sphere_partial`: propext, Classical.choice, Quot.sound
  * `Verif.Stride.C108_violated_shear`: propext, Classical.choice, Quot.sound
  * `Verif.Stride.C108_violated_factor`: propext, Classical.choice, Quot.sound
* **C109** Skipping the collider is safe for non-spherical bodies
  * `Verif.Stride.C109_translate_partial`: propext, Classical.choice, Quot.sound
  * `Verif.Stride.C109_violated`: propext, Classical.choice, Quot.sound
* **C110** Growth of particles is noticed
  * `Verif.Stride.C110_violated_unnoticed`: propext, Classical.choice, Quot.sound
  * `Verif.Stride.C110_violated`: propext, Classical.choice, Quot.sound
  * `Verif.Stride.C110_margin_partial`: propext, Classical.choice, Quot.sound
* **C111** The collider runs again when the periodic cell has changed
  * `Verif.Stride.C111_fast_partial`: propext, Classical.choice, Quot.sound
  * `Verif.Stride.C111_violated`: propext, Classical.choice, Quot.sound
* **C112** Splitting a scene gives processes matching lists of neighbours and of shared bodies
  * `Verif.Mpi.Split.C112_consistent_partial`: propext, Classical.choice, Quot.sound
  * `Verif.Mpi.Split.C112_mirror`: propext, Classical.choice, Quot.sound
  * `Verif.Mpi.Split.C112_listed`: propext, Classical.choice, Quot.sound
  * `Verif.Mpi.Split.C112_violated`: propext, Classical.choice, Quot.sound
  * `Verif.Mpi.Split.isIntrs_of_run`: propext, Classical.choice, Quot.sound
* **C113** After a split every worker holds the remote bodies its own bodies may touch
  * `Verif.Mpi.Split.C113_present_partial`: propext, Classical.choice, Quot.sound
  * `Verif.Mpi.Split.C113_violated_mask`: propext, Classical.choice, Quot.sound
  * `Verif.Mpi.Split.C113_violated_appended`: propext, Classical.choice, Quot.sound
  * `Verif.Mpi.Split.isIntrs_of_run`: propext, Classical.choice, Quot.sound
* **C114** After a split no contact between bodies of different workers is missed while the collider is not run
  * `Verif.Mpi.Resplit.C114_found_partial`: propext, Classical.choice, Quot.sound
  * `Verif.Mpi.Resplit.C114_violated`: propext, Classical.choice, Quot.sound
* **C115** When a scene is split a worker erases exactly the remote bodies it has no contact with
  * `Verif.Mpi.EraseRemote.C115_kept_partial`: propext, Classical.choice, Quot.sound
  * `Verif.Mpi.EraseRemote.C115_violated_vacant`: propext, Classical.choice, Quot.sound
  * `Verif.Mpi.EraseRemote.C115_violated_clump`: propext, Classical.choice, Quot.sound
* **C116** A whole distributed run of splits, steps and merges never hangs and never mixes up messages
  * `Verif.Mpi.Whole.C116_no_deadlock`: propext, Classical.choice, Quot.sound
  * `Verif.Mpi.Whole.C116_no_deadlock_unbuffered`: propext, Classical.choice, Quot.sound
  * `Verif.Mpi.Whole.C116_split_current`: propext, Classical.choice, Quot.sound
  * `Verif.Mpi.Whole.C116_merge_current`: propext, Classical.choice, Quot.sound
  * `Verif.Mpi.Whole.C116_states_current`: propext, Classical.choice, Quot.sound
* **C117** A table of times and values prescribes one function of time
  * `Verif.Drive.C117_function`: propext, Classical.choice, Quot.sound
  * `Verif.Drive.C117_wrap`: propext, Classical.choice, Quot.sound
  * `Verif.Drive.C117_range`: propext, Classical.choice, Quot.sound
  * `Verif.Drive.C117_jumps_partial`: propext, Classical.choice, Quot.sound
  * `Verif.Drive.C117_violated_history`: propext, Classical.choice, Quot.sound
  * `Verif.Drive.C117_violated_exchanged`: propext, Classical.choice, Quot.sound
  * `Verif.Drive.C117_violated_single`: propext, Classical.choice, Quot.sound
  * `Verif.Drive.C117_violated_short`: propext, Classical.choice, Quot.sound
* **C118** Bodies driven by translation, rotation or helix engines move exactly on the prescribed screw
  * `Verif.Drive.C118_step`: propext, Classical.choice, Quot.sound
  * `Verif.Drive.C118_motion`: propext, Classical.choice, Quot.sound
  * `Verif.Drive.C118_rigid`: propext, Classical.choice, Quot.sound
  * `Verif.Drive.C118_reported`: propext, Classical.choice, Quot.sound
* **C119** A combined kinematic engine gives the sum of the velocities of its parts
  * `Verif.Drive.C119_sum`: propext, Classical.choice, Quot.sound
  * `Verif.Drive.C119_order`: propext, Classical.choice, Quot.sound
  * `Verif.Drive.C119_plus_partial`: propext, Classical.choice, Quot.sound
  * `Verif.Drive.C119_violated_plus`: propext, Classical.choice, Quot.sound
  * `Verif.Drive.C119_violated_right`: propext, Classical.choice, Quot.sound
* **C120** A servo controlled wall never exceeds its maximum velocity
  * `Verif.Drive.C120_bounded_partial`: propext, Classical.choice, Quot.sound
  * `Verif.Drive.C120_violated_twice`: propext, Classical.choice, Quot.sound
* **C121** A servo controlled wall reacts to the force along its axis
  * `Verif.Drive.C121_axis_partial`: propext, Classical.choice, Quot.sound
  * `Verif.Drive.C121_violated_sign`: propext, Classical.choice, Quot.sound
  * `Verif.Drive.C121_violated_oblique`: propext, Classical.choice, Quot.sound
* **C122** A body on a pedal moves on a circle of the given radius
  * `Verif.Drive.C122_circle_partial`: propext, Classical.choice, Quot.sound
  * `Verif.Drive.C122_violated_phase`: propext, Classical.choice, Quot.sound
* **C123** Force engines push exactly the bodies listed
  * `Verif.Drive.C123_force`: propext, Classical.choice, Quot.sound
  * `Verif.Drive.C123_radial`: propext, Classical.choice, Quot.sound
* **C124** Drag engines slow down the spheres listed
  * `Verif.Drive.C124_drag_partial`: propext, Classical.choice, Quot.sound
  * `Verif.Drive.C124_linear_partial`: propext, Classical.choice, Quot.sound
  * `Verif.Drive.C124_violated`: propext, Classical.choice, Quot.sound
* **C125** Gravity as an engine and gravity of the integrator are the same
  * `Verif.Drive.C125_same_partial`: propext, Classical.choice, Quot.sound
  * `Verif.Drive.C125_violated`: propext, Classical.choice, Quot.sound
* **C126** Central and axial gravity attract every body with mass times acceleration
  * `Verif.Drive.C126_axial`: propext, Classical.choice, Quot.sound
  * `Verif.Drive.C126_central_partial`: propext, Classical.choice, Quot.sound
  * `Verif.Drive.C126_violated_missing`: propext, Classical.choice, Quot.sound
  * `Verif.Drive.C126_violated_self`: propext, Classical.choice, Quot.sound
* **C127** Erasing a body does not disturb the engines that list it
  * `Verif.Drive.C127_force_partial`: propext, Classical.choice, Quot.sound
  * `Verif.Drive.C127_kinematic_partial`: propext, Classical.choice, Quot.sound
  * `Verif.Drive.C127_violated`: propext, Classical.choice, Quot.sound
* **C128** The two modes of the step displacer give the same displacement
  * `Verif.Drive.C128_direct`: propext, Classical.choice, Quot.sound
  * `Verif.Drive.C128_velocities`: propext, Classical.choice, Quot.sound
* **C129** The torque engine passes over invalid ids like the force engine
  * `Verif.Drive.C129_torque_partial`: propext, Classical.choice, Quot.sound
  * `Verif.Drive.C129_violated`: propext, Classical.choice, Quot.sound
* **C130** Bodies driven harmonically follow the oscillation prescribed
  * `Verif.Drive.C130_derivative`: propext, Classical.choice, Quot.sound
  * `Verif.Drive.C130_motion`: propext, Classical.choice, Quot.sound
* **C131** Forces from a table follow the table
  * `Verif.Drive.C131_table`: propext, Classical.choice, Quot.sound
* **C132** Random packings have no overlaps
  * `Verif.Pack.C132_box`: propext, Classical.choice, Quot.sound
  * `Verif.Pack.C132_periodic`: propext, Classical.choice, Quot.sound
  * `Verif.Pack.C132_cell_partial`: propext, Classical.choice, Quot.sound
  * `Verif.Pack.C132_violated_sheared`: propext, Classical.choice, Quot.sound
  * `Verif.Pack.C132_violated_self`: propext, Classical.choice, Quot.sound
* **C133** Random packings stay within the box
  * `Verif.Pack.C133_box_partial`: propext, Classical.choice, Quot.sound
  * `Verif.Pack.C133_cell`: propext, Classical.choice, Quot.sound
  * `Verif.Pack.C133_violated_wide`: propext, Classical.choice, Quot.sound
* **C134** Random packings keep what was there and count what they made
  * `Verif.Pack.C134_exact`: propext, Classical.choice, Quot.sound
  * `Verif.Pack.C134_kept_partial`: propext, Classical.choice, Quot.sound
  * `Verif.Pack.C134_number_partial`: propext, Classical.choice, Quot.sound
  * `Verif.Pack.C134_violated_number`: propext, Classical.choice, Quot.sound
  * `Verif.Pack.C134_violated_kept`: propext, Classical.choice, Quot.sound
* **C135** Radii of random packings follow the distribution asked for
  * `Verif.Pack.C135_range`: propext, Classical.choice, Quot.sound
  * `Verif.Pack.C135_by_number`: propext, Classical.choice, Quot.sound
  * `Verif.Pack.C135_by_mass`: propext, Classical.choice, Quot.sound
  * `Verif.Pack.C135_decreasing`: propext, Classical.choice, Quot.sound
* **C136** Size distributions are accepted or refused, never misread
  * `Verif.Pack.C136_number_partial`: propext, Classical.choice, Quot.sound
  * `Verif.Pack.C136_mass_partial`: propext, Classical.choice, Quot.sound
  * `Verif.Pack.C136_violated`: propext, Classical.choice, Quot.sound
* **C137** Seeds make random packings repeatable
  * `Verif.Pack.C137_first_partial`: propext, Classical.choice, Quot.sound
  * `Verif.Pack.C137_violated`: propext, Classical.choice, Quot.sound
* **C138** Random packings attain the porosity asked for
  * `Verif.Pack.C138_porosity`: propext, Classical.choice, Quot.sound
* **C139** Predicates describe the solids they are named after
  * `Verif.Pack.C139_set_partial`: propext, Classical.choice, Quot.sound
  * `Verif.Pack.C139_violated_lefthanded`: propext, Classical.choice, Quot.sound
  * `Verif.Pack.C139_violated_degenerate`: propext, Classical.choice, Quot.sound
* **C140** Boxes of solids enclose them
  * `Verif.Pack.C140_box_partial`: propext, Classical.choice, Quot.sound
  * `Verif.Pack.C140_violated`: propext, Classical.choice, Quot.sound
* **C141** Padding keeps whole balls inside
  * `Verif.Pack.C141_ball_partial`: propext, Classical.choice, Quot.sound
  * `Verif.Pack.C141_exact_partial`: propext, Classical.choice, Quot.sound
  * `Verif.Pack.C141_notch_partial`: propext, Classical.choice, Quot.sound
  * `Verif.Pack.C141_violated_xor`: propext, Classical.choice, Quot.sound
  * `Verif.Pack.C141_violated_ellipsoid`: propext, Classical.choice, Quot.sound
  * `Verif.Pack.C141_violated_hyperboloid`: propext, Classical.choice, Quot.sound
  * `Verif.Pack.C141_violated_notch`: propext, Classical.choice, Quot.sound
* **C142** Regular packings do not overlap and stay in the solid
  * `Verif.Pack.C142_ortho`: propext, Classical.choice, Quot.sound
  * `Verif.Pack.C142_hexa`: propext, Classical.choice, Quot.sound
* **C143** Regular packings leave no place of their grid empty
  * `Verif.Pack.C143_ortho_partial`: propext, Classical.choice, Quot.sound
  * `Verif.Pack.C143_hexa`: propext, Classical.choice, Quot.sound
  * `Verif.Pack.C143_violated`: propext, Classical.choice, Quot.sound
* **C144** Repeating a periodic packing keeps the infinite packing
  * `Verif.Pack.C144_repeat`: propext, Classical.choice, Quot.sound
  * `Verif.Pack.C144_refused`: propext, Classical.choice, Quot.sound
* **C145** Filling a volume
  * `Verif.Pack.C145_fill_partial`: propext, Classical.choice, Quot.sound
  * `Verif.Pack.C145_succeeds`: propext, Classical.choice, Quot.sound
  * `Verif.Pack.C145_violated_dim`: propext, Classical.choice, Quot.sound
  * `Verif.Pack.C145_violated_exception`: propext, Classical.choice, Quot.sound
* **C146** Repeating keeps clumps
  * `Verif.Pack.C146_original_partial`: propext, Classical.choice, Quot.sound
  * `Verif.Pack.C146_standalone_partial`: propext, Classical.choice, Quot.sound
  * `Verif.Pack.C146_violated`: propext, Classical.choice, Quot.sound
* **C147** The box of a packing is exact
  * `Verif.Pack.C147_box`: propext, Classical.choice, Quot.sound
* **C148** Moving, turning and scaling a packing
  * `Verif.Pack.C148_translate`: propext, Classical.choice, Quot.sound
  * `Verif.Pack.C148_rotate_partial`: propext, Classical.choice, Quot.sound
  * `Verif.Pack.C148_scale`: propext, Classical.choice, Quot.sound
  * `Verif.Pack.C148_violated_rotate`: propext, Classical.choice, Quot.sound
* **C149** Clumps of a packing
  * `Verif.Pack.C149_clumps`: propext, Classical.choice, Quot.sound
* **C150** Putting a packing into a simulation and reading it back
  * `Verif.Pack.C150_roundtrip`: propext, Classical.choice, Quot.sound
* **C151** Periodicity of packings is carried along
  * `Verif.Pack.C151_cell_partial`: propext, Classical.choice, Quot.sound
  * `Verif.Pack.C151_kept`: propext, Classical.choice, Quot.sound
  * `Verif.Pack.C151_violated_rotate`: propext, Classical.choice, Quot.sound
  * `Verif.Pack.C151_violated_fromSimulation`: propext, Classical.choice, Quot.sound
  * `Verif.Pack.C151_violated_list`: propext, Classical.choice, Quot.sound
  * `Verif.Pack.C151_violated_clumps`: propext, Classical.choice, Quot.sound
* **C152** Saving and loading a packing
  * `Verif.Pack.C152_roundtrip_partial`: propext, Classical.choice, Quot.sound
  * `Verif.Pack.C152_violated_periodic`: propext, Classical.choice, Quot.sound
  * `Verif.Pack.C152_violated_cell`: propext, Classical.choice, Quot.sound
  * `Verif.Pack.C152_violated_columns`: propext, Classical.choice, Quot.sound
* **C153** Relative density
  * `Verif.Pack.C153_density`: propext, Classical.choice, Quot.sound
* **C154** Particle size distribution
  * `Verif.Pack.C154_psd_partial`: propext, Classical.choice, Quot.sound
  * `Verif.Pack.C154_empty`: propext, Classical.choice, Quot.sound
  * `Verif.Pack.C154_violated_order`: propext, Classical.choice, Quot.sound
* **C155** Filtering a packing by a predicate
  * `Verif.Pack.C155_filter`: propext, Classical.choice, Quot.sound
  * `Verif.Pack.C155_result`: propext, Classical.choice, Quot.sound
* **C156** Random packings of clumps do not overlap
  * `Verif.Pack.C156_apart_partial`: propext, Classical.choice, Quot.sound
  * `Verif.Pack.C156_violated_earlier`: propext, Classical.choice, Quot.sound
  * `Verif.Pack.C156_violated_images`: propext, Classical.choice, Quot.sound
  * `Verif.Pack.C156_violated_flat`: propext, Classical.choice, Quot.sound
* **C157** Random packings of clumps stay in the box
  * `Verif.Pack.C157_inside`: propext, Classical.choice, Quot.sound
* **C158** Random packings of clumps consist of copies of the given clumps
  * `Verif.Pack.C158_copies_partial`: propext, Classical.choice, Quot.sound
  * `Verif.Pack.C158_violated`: propext, Classical.choice, Quot.sound
* **C159** Random packings of clumps read only what is there
  * `Verif.Pack.C159_one_partial`: propext, Classical.choice, Quot.sound
  * `Verif.Pack.C159_balls_partial`: propext, Classical.choice, Quot.sound
  * `Verif.Pack.C159_violated_none`: propext, Classical.choice, Quot.sound
  * `Verif.Pack.C159_violated_beyond`: propext, Classical.choice, Quot.sound
* **C160** It does not matter where given clumps lie
  * `Verif.Pack.C160_centred_partial`: propext, Classical.choice, Quot.sound
  * `Verif.Pack.C160_violated`: propext, Classical.choice, Quot.sound
* **C161** Subdomains tile the box
  * `Verif.Decomp.C161_tiles_partial`: propext, Classical.choice, Quot.sound
  * `Verif.Decomp.C161_violated`: propext, Classical.choice, Quot.sound
* **C162** The automatic decomposition makes as many subdomains as asked for
  * `Verif.Decomp.C162_count_partial`: propext, Classical.choice, Quot.sound
  * `Verif.Decomp.C162_cube_partial`: propext, Classical.choice, Quot.sound
  * `Verif.Decomp.C162_violated_elongated`: propext, Classical.choice, Quot.sound
  * `Verif.Decomp.C162_violated_flat`: propext, Classical.choice, Quot.sound
* **C163** The subdomain found contains the point
  * `Verif.Decomp.C163_find_partial`: propext, Classical.choice, Quot.sound
  * `Verif.Decomp.C163_violated_halves`: propext, Classical.choice, Quot.sound
  * `Verif.Decomp.C163_violated_large`: propext, Classical.choice, Quot.sound
* **C164** Clouds: the worker found is that of the nearest point
  * `Verif.Decomp.C164_nearest_partial`: propext, Classical.choice, Quot.sound
  * `Verif.Decomp.C164_violated`: propext, Classical.choice, Quot.sound
* **C165** Clouds: each point is the most remote of its sample
  * `Verif.Decomp.C165_choice_partial`: propext, Classical.choice, Quot.sound
  * `Verif.Decomp.C165_cloud_partial`: propext, Classical.choice, Quot.sound
  * `Verif.Decomp.C165_violated`: propext, Classical.choice, Quot.sound
  * `Verif.Decomp.C165_violated_none`: propext, Classical.choice, Quot.sound
* **C166** MatchMaker returns the match or the fallback
  * `Verif.Dt.C166_match`: propext, Classical.choice, Quot.sound
* **C167** Contact stiffness does not depend on the order of materials
  * `Verif.Dt.C167_symmetric`: propext, Classical.choice, Quot.sound
  * `Verif.Dt.C167_stiffness_partial`: propext, Classical.choice, Quot.sound
  * `Verif.Dt.C167_violated`: propext, Classical.choice, Quot.sound
* **C168** The time step is the smallest over bodies, clumps included
  * `Verif.Dt.C168_step`: propext, Classical.choice, Quot.sound
  * `Verif.Dt.C168_positive`: propext, Classical.choice, Quot.sound
* **C169** The time step stays below maxDt
  * `Verif.Dt.C169_limit_partial`: propext, Classical.choice, Quot.sound
  * `Verif.Dt.C169_violated`: propext, Classical.choice, Quot.sound
  * `Verif.Dt.C169_violated_negative`: propext, Classical.choice, Quot.sound
* **C170** The time step is stable
  * `Verif.Dt.C170_stable_partial`: propext, Classical.choice, Quot.sound
  * `Verif.Dt.C170_stable_aligned_partial`: propext, Classical.choice, Quot.sound
  * `Verif.Dt.C170_stable_frictionless_partial`: propext, Classical.choice, Quot.sound
  * `Verif.Dt.C170_violated`: propext, Classical.choice, Quot.sound
* **C171** P-wave time step
  * `Verif.Dt.C171_pwave`: propext, Classical.choice, Quot.sound
* **C172** Updates of the time step are memory safe
  * `Verif.Dt.C172_safe_partial`: propext, Classical.choice, Quot.sound
  * `Verif.Dt.C172_violated_switch`: propext, Classical.choice, Quot.sound
  * `Verif.Dt.C172_violated_free`: propext, Classical.choice, Quot.sound
  * `Verif.Dt.C172_violated_scaling`: propext, Classical.choice, Quot.sound
  * `Verif.Dt.C172_violated_interval`: propext
* **C173** Density scaling makes the target step good for each body
  * `Verif.Dt.C173_scaling_partial`: propext, Classical.choice, Quot.sound
  * `Verif.Dt.C173_violated`: propext, Classical.choice, Quot.sound
* **C174** Probing a volume finds each body in it
  * `Verif.Fac.C174_probe_partial`: propext, Classical.choice, Quot.sound
  * `Verif.Fac.C174_violated`: propext, Classical.choice, Quot.sound
* **C175** Spheres made by factories do not overlap
  * `Verif.Fac.C175_clear_partial`: propext, Classical.choice, Quot.sound
  * `Verif.Fac.C175_violated_two`: propext, Classical.choice, Quot.sound
  * `Verif.Fac.C175_violated_unchecked`: propext, Classical.choice, Quot.sound
* **C176** Factories keep their mass flow and limits
  * `Verif.Fac.C176_flow`: propext, Classical.choice, Quot.sound
  * `Verif.Fac.C176_rate`: propext, Classical.choice, Quot.sound
* **C177** Factories count what they make
  * `Verif.Fac.C177_made`: propext, Classical.choice, Quot.sound
  * `Verif.Fac.C177_radius`: propext, Classical.choice, Quot.sound
* **C178** Factories follow the size distribution asked for
  * `Verif.Fac.C178_psd_partial`: propext, Classical.choice, Quot.sound
  * `Verif.Fac.C178_violated_memory`: propext, Classical.choice, Quot.sound
  * `Verif.Fac.C178_violated_percent`: propext, Classical.choice, Quot.sound
* **C179** Factories keep to their region
  * `Verif.Fac.C179_circle`: propext, Classical.choice, Quot.sound
  * `Verif.Fac.C179_box_partial`: propext, Classical.choice, Quot.sound
  * `Verif.Fac.C179_violated`: propext, Classical.choice, Quot.sound
* **C180** DomainLimiter erases what is out of its box
  * `Verif.Fac.C180_limiter`: propext, Classical.choice, Quot.sound
* **C181** Steps of factories end
  * `Verif.Fac.C181_ends_partial`: propext, Classical.choice, Quot.sound
  * `Verif.Fac.C181_violated`: propext, Classical.choice, Quot.sound
* **C182** Flipping the cell keeps the packing
  * `Verif.Meas.C182_given_partial`: propext, Classical.choice, Quot.sound
  * `Verif.Meas.C182_nothing_partial`: propext, Classical.choice, Quot.sound
  * `Verif.Meas.C182_auto_partial`: propext, Classical.choice, Quot.sound
  * `Verif.Meas.C182_violated_degenerate`: propext, Classical.choice, Quot.sound
  * `Verif.Meas.C182_violated_contact`: propext, Classical.choice, Quot.sound
  * `Verif.Meas.C182_violated_diagonal`: propext, Classical.choice, Quot.sound
* **C183** getStress is the mean stress
  * `Verif.Meas.C183_external`: propext, Classical.choice, Quot.sound
  * `Verif.Meas.C183_symmetric`: propext, Classical.choice, Quot.sound
  * `Verif.Meas.C183_turned`: propext, Classical.choice, Quot.sound
  * `Verif.Meas.C183_images`: propext, Classical.choice, Quot.sound
  * `Verif.Meas.C183_volume`: propext, Classical.choice, Quot.sound
* **C184** Stresses of bodies add up to the stress of the assembly
  * `Verif.Meas.C184_average`: propext, Classical.choice, Quot.sound
  * `Verif.Meas.C184_symmetric`: propext, Classical.choice, Quot.sound
* **C185** normalShearStressTensors splits the stress
  * `Verif.Meas.C185_sum_partial`: propext, Classical.choice, Quot.sound
  * `Verif.Meas.C185_split_partial`: propext, Classical.choice, Quot.sound
  * `Verif.Meas.C185_strong_partial`: propext, Classical.choice, Quot.sound
  * `Verif.Meas.C185_violated_sign`: propext, Classical.choice, Quot.sound
  * `Verif.Meas.C185_violated_shear`: propext, Classical.choice, Quot.sound
  * `Verif.Meas.C185_violated_split`: propext, Classical.choice, Quot.sound
* **C186** fabricTensor is the mean of the contact directions
  * `Verif.Meas.C186_tensor_partial`: propext, Classical.choice, Quot.sound
  * `Verif.Meas.C186_split_partial`: propext, Classical.choice, Quot.sound
  * `Verif.Meas.C186_violated_equal`: propext, Classical.choice, Quot.sound
  * `Verif.Meas.C186_violated_empty`: propext, Classical.choice, Quot.sound
* **C187** kineticEnergy is that of the free bodies
  * `Verif.Meas.C187_energy`: propext, Classical.choice, Quot.sound
  * `Verif.Meas.C187_mean_field`: propext, Classical.choice, Quot.sound
  * `Verif.Meas.C187_spin`: propext, Classical.choice, Quot.sound
  * `Verif.Meas.C187_calm`: propext, Classical.choice, Quot.sound
* **C188** momentum and angularMomentum are those of all bodies
  * `Verif.Meas.C188_momentum_partial`: propext, Classical.choice, Quot.sound
  * `Verif.Meas.C188_angular_partial`: propext, Classical.choice, Quot.sound
  * `Verif.Meas.C188_violated_erased`: propext, Classical.choice, Quot.sound
  * `Verif.Meas.C188_violated_clump`: propext, Classical.choice, Quot.sound
  * `Verif.Meas.C188_violated_spin`: propext, Classical.choice, Quot.sound
* **C189** growParticles grows spheres and clumps in place
  * `Verif.Meas.C189_grown_partial`: propext, Classical.choice, Quot.sound
  * `Verif.Meas.C189_contacts_partial`: propext, Classical.choice, Quot.sound
  * `Verif.Meas.C189_density`: propext, Classical.choice, Quot.sound
  * `Verif.Meas.C189_rigid_partial`: propext, Classical.choice, Quot.sound
  * `Verif.Meas.C189_violated_erased`: propext, Classical.choice, Quot.sound
  * `Verif.Meas.C189_violated_rigid`: propext, Classical.choice, Quot.sound
  * `Verif.Meas.C189_violated_stiffness`: propext, Classical.choice, Quot.sound
* **C190** unbalancedForce is zero in equilibrium only
  * `Verif.Meas.C190_ratio_partial`: propext, Classical.choice, Quot.sound
  * `Verif.Meas.C190_violated_nan`: propext, Classical.choice, Quot.sound
  * `Verif.Meas.C190_violated_clump`: propext, Classical.choice, Quot.sound
* **C191** aabbExtrema is the smallest box
  * `Verif.Meas.C191_box`: propext, Classical.choice, Quot.sound
* **C192** Dynamic stresses of bodies and of the assembly agree
  * `Verif.Meas.C192_total_partial`: propext, Classical.choice, Quot.sound
  * `Verif.Meas.C192_violated_sign`: propext, Classical.choice, Quot.sound
  * `Verif.Meas.C192_violated_memory`: propext, Classical.choice, Quot.sound
* **C193** setContactFriction sets bodies and contacts
  * `Verif.Meas.C193_friction_partial`: propext, Classical.choice, Quot.sound
  * `Verif.Meas.C193_violated_shared`: propext, Classical.choice, Quot.sound
  * `Verif.Meas.C193_violated_erased`: propext, Classical.choice, Quot.sound
* **C194** Two steps are never executed at the same time
  * `Verif.Run.C194_alike_partial`: propext, Quot.sound
  * `Verif.Run.C194_no_pause_partial`: propext, Quot.sound
  * `Verif.Run.C194_violated`: propext, Quot.sound
* **C195** O.run(n) makes n steps
  * `Verif.Run.C195_run_and_wait_partial`: propext, Classical.choice, Quot.sound
  * `Verif.Run.C195_never_more_partial`: propext, Classical.choice, Quot.sound
  * `Verif.Run.C195_violated_late`: propext, Quot.sound
  * `Verif.Run.C195_violated_paused`: propext, Quot.sound
* **C196** O.wait() raises when the run has failed
  * `Verif.Run.C196_reported_partial`: propext, Classical.choice, Quot.sound
  * `Verif.Run.C196_on_record_partial`: propext, Classical.choice, Quot.sound
  * `Verif.Run.C196_violated`: propext, Quot.sound
* **C197** Threads do not wait for each other for ever
  * `Verif.Run.C197_no_deadlock_partial`: propext, Classical.choice, Quot.sound
  * `Verif.Run.C197_no_crash_partial`: propext, Quot.sound
  * `Verif.Run.C197_for_ever`: propext, Quot.sound
  * `Verif.Run.C197_violated_reset`: propext, Quot.sound
  * `Verif.Run.C197_violated_inside`: propext, Quot.sound
  * `Verif.Run.C197_violated_single`: propext, Quot.sound
* **C198** The runner is not used after it is freed
  * `Verif.Run.C198_freed_last_partial`: propext, Quot.sound
  * `Verif.Run.C198_violated`: propext, Quot.sound
* **C199** O.wait() returns only between steps
  * `Verif.Run.C199_between_steps_partial`: propext, Quot.sound
  * `Verif.Run.C199_violated`: propext, Quot.sound
* **C200** A distributed run moves bodies as an ordinary run does
  * `Verif.Dist.C200_world_partial`: propext, Classical.choice, Quot.sound
  * `Verif.Dist.C200_as_serial_partial`: propext, Classical.choice, Quot.sound
  * `Verif.Dist.C200_violated_stepper`: propext, Classical.choice, Quot.sound
  * `Verif.Dist.C200_violated_perm`: propext, Classical.choice, Quot.sound
  * `Verif.Dist.C200_violated_state`: propext, Classical.choice, Quot.sound
* **C201** The master knows the whole force on each of its bodies
  * `Verif.Dist.C201_forces_partial`: propext, Classical.choice, Quot.sound
  * `Verif.Dist.C201_violated`: propext, Classical.choice, Quot.sound
* **C202** Merging and splitting again does not change the motion of bodies
  * `Verif.Dist.C202_merged_partial`: propext, Classical.choice, Quot.sound
  * `Verif.Dist.C202_once_partial`: propext, Classical.choice, Quot.sound
  * `Verif.Dist.C202_violated_history`: propext, Classical.choice, Quot.sound
* **C203** Results do not depend on how the collider lists contacts
  * `Verif.Dist.C203_serial`: propext, Classical.choice, Quot.sound
  * `Verif.Dist.C203_lists`: propext, Classical.choice, Quot.sound
* **C204** Cohesive contacts never exceed their strength
  * `Verif.Coh.C204_strength`: propext, Classical.choice, Quot.sound
* **C205** Cohesive contacts below their strength are elastic
  * `Verif.Coh.C205_elastic_partial`: propext, Classical.choice, Quot.sound
  * `Verif.Coh.C205_violated_normal`: propext, Classical.choice, Quot.sound
  * `Verif.Coh.C205_violated_shear`: propext, Classical.choice, Quot.sound
* **C206** Contacts without a bond are frictional contacts
  * `Verif.Coh.C206_history`: propext, Classical.choice, Quot.sound
  * `Verif.Coh.C206_broken`: propext, Classical.choice, Quot.sound
* **C207** The normal force of cohesive contacts is the documented function of distance
  * `Verif.Coh.C207_formula_partial`: propext, Classical.choice, Quot.sound
  * `Verif.Coh.C207_violated`: propext, Classical.choice, Quot.sound
* **C208** When the law gives up a cohesive contact
  * `Verif.Coh.C208_lost_partial`: propext, Classical.choice, Quot.sound
  * `Verif.Coh.C208_violated`: propext, Classical.choice, Quot.sound
* **C209** Sliding of cohesive contacts dissipates energy
  * `Verif.Coh.C209_dissipation_partial`: propext, Classical.choice, Quot.sound
  * `Verif.Coh.C209_violated`: propext, Classical.choice, Quot.sound
* **C210** elasticEnergy() is the energy stored in all contacts
  * `Verif.Coh.C210_energy_partial`: propext, Classical.choice, Quot.sound
  * `Verif.Coh.C210_violated`: propext, Classical.choice, Quot.sound
* **C211** setCohesionNow makes the present contacts cohesive and no later ones
  * `Verif.Coh.C211_now_partial`: propext, Classical.choice, Quot.sound
  * `Verif.Coh.C211_violated_late`: propext, Classical.choice, Quot.sound
  * `Verif.Coh.C211_violated_again`: propext, Classical.choice, Quot.sound
  * `Verif.Coh.C211_bond`: propext, Classical.choice, Quot.sound
  * `Verif.Coh.C211_once`: propext, Classical.choice, Quot.sound
* **C212** Loads of cohesive contacts balance
  * `Verif.Coh.C212_balanced`: propext, Classical.choice, Quot.sound
* **C213** Bending and twisting moments follow the relative rotation since the bond was made
  * `Verif.Coh.C213_angle_partial`: propext, Classical.choice, Quot.sound
  * `Verif.Coh.C213_objective`: propext, Classical.choice, Quot.sound
  * `Verif.Coh.C213_rigid`: propext, Classical.choice, Quot.sound
  * `Verif.Coh.C213_limit`: propext, Classical.choice, Quot.sound
  * `Verif.Coh.C213_broken`: propext, Classical.choice, Quot.sound
  * `Verif.Coh.C213_resists`: propext, Classical.choice, Quot.sound
  * `Verif.Coh.C213_violated`: propext, Classical.choice, Quot.sound
  * `Verif.Coh.C213_elastic_partial`: propext, Classical.choice, Quot.sound
  * `Verif.Coh.C213_sign`: propext, Classical.choice, Quot.sound
* **C214** Parameters of cohesive contacts are the documented ones and do not depend on the order of bodies
  * `Verif.Coh.C214_symmetric`: propext, Classical.choice, Quot.sound
  * `Verif.Coh.C214_documented`: propext, Classical.choice, Quot.sound
  * `Verif.Coh.C214_as_frict`: propext, Classical.choice, Quot.sound
* **C215** Creep relaxes the shear force
  * `Verif.Coh.C215_creep_partial`: propext, Classical.choice, Quot.sound
  * `Verif.Coh.C215_violated`: propext, Classical.choice, Quot.sound
* **C216** Isotropic compression keeps the cell large enough
  * `Verif.Ctl.C216_limits`: propext, Classical.choice, Quot.sound
  * `Verif.Ctl.C216_run`: propext, Classical.choice, Quot.sound
* **C217** keepProportions keeps proportions
  * `Verif.Ctl.C217_proportions`: propext, Classical.choice, Quot.sound
* **C218** The next stress is taken when the packing is at rest at the present one
  * `Verif.Ctl.C218_next_partial`: propext, Classical.choice, Quot.sound
  * `Verif.Ctl.C218_violated`: propext, Classical.choice, Quot.sound
* **C219** After the last stress the cell stays
  * `Verif.Ctl.C219_done_partial`: propext, Classical.choice, Quot.sound
  * `Verif.Ctl.C219_violated`: propext, Classical.choice, Quot.sound
* **C220** PeriIsoCompressor rejects unusable scenes by exceptions
  * `Verif.Ctl.C220_usable_partial`: propext, Classical.choice, Quot.sound
  * `Verif.Ctl.C220_violated`: propext, Classical.choice, Quot.sound
* **C221** PeriTriaxController respects maxStrainRate
  * `Verif.Ctl.C221_rate`: propext, Classical.choice, Quot.sound
* **C222** PeriTriaxController keeps the cell large enough
  * `Verif.Ctl.C222_size_partial`: propext, Classical.choice, Quot.sound
  * `Verif.Ctl.C222_violated`: propext, Classical.choice, Quot.sound
* **C223** Without damping strain goals are reached at once
  * `Verif.Ctl.C223_strain_partial`: propext, Classical.choice, Quot.sound
  * `Verif.Ctl.C223_damped_partial`: propext, Classical.choice, Quot.sound
  * `Verif.Ctl.C223_violated`: propext, Classical.choice, Quot.sound
* **C224** doneHook of PeriTriaxController runs only in the desired state
  * `Verif.Ctl.C224_hook_partial`: propext, Classical.choice, Quot.sound
  * `Verif.Ctl.C224_violated`: propext, Classical.choice, Quot.sound
  * `Verif.Ctl.C224_violated_stale`: propext, Classical.choice, Quot.sound
* **C225** Walls move no faster than max_vel
  * `Verif.Ctl.C225_speed_partial`: propext, Classical.choice, Quot.sound
  * `Verif.Ctl.C225_limits`: propext, Classical.choice, Quot.sound
  * `Verif.Ctl.C225_violated`: propext, Classical.choice, Quot.sound
* **C226** Stress control converges
  * `Verif.Ctl.C226_converges_partial`: propext, Classical.choice, Quot.sound
  * `Verif.Ctl.C226_limit_partial`: propext, Classical.choice, Quot.sound
  * `Verif.Ctl.C226_sense_partial`: propext, Classical.choice, Quot.sound
  * `Verif.Ctl.C226_violated`: propext, Classical.choice, Quot.sound
* **C227** Strain rates approach the goal as documented
  * `Verif.Ctl.C227_rate_partial`: propext, Classical.choice, Quot.sound
  * `Verif.Ctl.C227_violated`: propext, Classical.choice, Quot.sound
  * `Verif.Ctl.C227_violated_moving`: propext, Classical.choice, Quot.sound
* **C228** Stress and strain of a box are those of its contents
  * `Verif.Ctl.C228_stress`: propext, Classical.choice, Quot.sound
  * `Verif.Ctl.C228_volumetric`: propext, Classical.choice, Quot.sound
  * `Verif.Ctl.C228_first`: propext, Classical.choice, Quot.sound
  * `Verif.Ctl.C228_spheres`: propext, Classical.choice, Quot.sound
* **C229** Walls are addressed safely
  * `Verif.Ctl.C229_stress_partial`: propext, Classical.choice, Quot.sound
  * `Verif.Ctl.C229_violated`: propext, Classical.choice, Quot.sound
  * `Verif.Ctl.C229_violated_ids`: none
* **C230** Particles grow by at most maxMultiplier
  * `Verif.Ctl.C230_growth_partial`: propext, Classical.choice, Quot.sound
  * `Verif.Ctl.C230_violated`: propext, Classical.choice, Quot.sound
* **C231** Straining starts smoothly
  * `Verif.Uniax.C231_ramp_partial`: propext, Classical.choice, Quot.sound
  * `Verif.Uniax.C231_violated`: propext, Classical.choice, Quot.sound
  * `Verif.Uniax.C231_violated_late`: propext, Classical.choice, Quot.sound
  * `Verif.Uniax.C231_steps_partial`: propext, Classical.choice, Quot.sound
* **C232** Straining stops at stopStrain
  * `Verif.Uniax.C232_stop_partial`: propext, Classical.choice, Quot.sound
  * `Verif.Uniax.C232_violated_compression`: propext, Classical.choice, Quot.sound
  * `Verif.Uniax.C232_violated_idle`: propext, Classical.choice, Quot.sound
* **C233** Straining is reversed at limitStrain
  * `Verif.Uniax.C233_reported_partial`: propext, Classical.choice, Quot.sound
  * `Verif.Uniax.C233_violated`: propext, Classical.choice, Quot.sound
  * `Verif.Uniax.C233_violated_on`: propext, Classical.choice, Quot.sound
* **C234** A specimen is strained at strainRate
  * `Verif.Uniax.C234_total_partial`: propext, Classical.choice, Quot.sound
  * `Verif.Uniax.C234_violated_asym`: propext, Classical.choice, Quot.sound
  * `Verif.Uniax.C234_violated_moving`: propext, Classical.choice, Quot.sound
* **C235** setSpeeds gives a homogeneous field
  * `Verif.Uniax.C235_homogeneous`: propext, Classical.choice, Quot.sound
* **C236** UniaxialStrainer rejects unusable settings
  * `Verif.Uniax.C236_safe_partial`: propext, Classical.choice, Quot.sound
  * `Verif.Uniax.C236_blocked`: propext, Classical.choice, Quot.sound
  * `Verif.Uniax.C236_violated_empty`: propext, Classical.choice, Quot.sound
  * `Verif.Uniax.C236_violated_again`: propext, Classical.choice, Quot.sound
* **C237** avgStress is the stress in the specimen
  * `Verif.Uniax.C237_stress`: propext, Classical.choice, Quot.sound
* **C238** A smoothed value is an average
  * `Verif.Avg.C238_bounds`: propext, Classical.choice, Quot.sound
  * `Verif.Avg.C238_constant`: propext, Classical.choice, Quot.sound
  * `Verif.Avg.C238_far`: propext, Classical.choice, Quot.sound
* **C239** All points within reach are used
  * `Verif.Avg.C239_row_partial`: propext, Classical.choice, Quot.sound
  * `Verif.Avg.C239_margin_partial`: propext, Classical.choice, Quot.sound
  * `Verif.Avg.C239_violated`: propext, Classical.choice, Quot.sound
  * `Verif.Avg.C239_violated_outside`: propext, Classical.choice, Quot.sound
* **C240** Settings of a GaussAverage take effect
  * `Verif.Avg.C240_threshold_partial`: propext, Classical.choice, Quot.sound
  * `Verif.Avg.C240_violated_stdev`: propext, Classical.choice, Quot.sound
  * `Verif.Avg.C240_violated_area`: propext, Classical.choice, Quot.sound
* **C241** Points of a GaussAverage are in their cells
  * `Verif.Avg.C241_data`: propext, Classical.choice, Quot.sound
  * `Verif.Avg.C241_cells_partial`: propext, Classical.choice, Quot.sound
  * `Verif.Avg.C241_violated_cells`: propext, Classical.choice, Quot.sound
* **C242** Clipping polygons
  * `Verif.Avg.C242_start`: propext, Classical.choice, Quot.sound
  * `Verif.Avg.C242_reverse`: propext, Classical.choice, Quot.sound
  * `Verif.Avg.C242_split`: propext, Classical.choice, Quot.sound
  * `Verif.Avg.C242_triangle`: propext, Classical.choice, Quot.sound
  * `Verif.Avg.C242_fan`: propext, Classical.choice, Quot.sound
  * `Verif.Avg.C242_rectangle`: propext, Classical.choice, Quot.sound
  * `Verif.Avg.C242_clipped`: propext, Classical.choice, Quot.sound
* **C243** Smoothing is independent of the unit of length
  * `Verif.Avg.C243_avg_partial`: propext, Classical.choice, Quot.sound
  * `Verif.Avg.C243_violated_perArea`: propext, Classical.choice, Quot.sound
* **C244** integral integrates piecewise linear functions
  * `Verif.Interp.C244_integral`: propext, Classical.choice, Quot.sound
  * `Verif.Interp.C244_refused`: propext, Classical.choice, Quot.sound
  * `Verif.Interp.C244_nonneg`: propext, Classical.choice, Quot.sound
* **C245** xFractionalFromIntegral inverts the integral
  * `Verif.Interp.C245_found_partial`: propext, Classical.choice, Quot.sound
  * `Verif.Interp.C245_right_partial`: propext, Classical.choice, Quot.sound
  * `Verif.Interp.C245_refused`: propext, Classical.choice, Quot.sound
  * `Verif.Interp.C245_violated_start`: propext, Classical.choice, Quot.sound
  * `Verif.Interp.C245_violated_end`: propext, Classical.choice, Quot.sound
  * `Verif.Interp.C245_violated_range`: propext, Classical.choice, Quot.sound
  * `Verif.Interp.C245_violated_integers`: propext, Classical.choice, Quot.sound
* **C246** xFromIntegral inverts the integral of periodic functions
  * `Verif.Interp.C246_periodic_partial`: propext, Classical.choice, Quot.sound
  * `Verif.Interp.C246_violated`: propext, Classical.choice, Quot.sound
* **C247** sanitizeInterpolation keeps the function
  * `Verif.Interp.C247_padding`: propext, Classical.choice, Quot.sound
  * `Verif.Interp.C247_empty`: propext, Classical.choice, Quot.sound
* **C248** plot data are a table
  * `Verif.Plot.C248_columns`: propext, Quot.sound
  * `Verif.Plot.C248_row`: propext, Classical.choice, Quot.sound
  * `Verif.Plot.C248_added`: propext, Quot.sound
* **C249** images belong to rows
  * `Verif.Plot.C249_row_partial`: propext, Classical.choice, Quot.sound
  * `Verif.Plot.C249_steps_partial`: propext, Classical.choice, Quot.sound
  * `Verif.Plot.C249_violated_before`: propext, Classical.choice, Quot.sound
  * `Verif.Plot.C249_violated_assert`: propext, Classical.choice, Quot.sound
* **C250** reset removes data, plots and labels
  * `Verif.Plot.C250_reset_partial`: none
  * `Verif.Plot.C250_violated`: none
  * `Verif.Plot.C250_violated_stale`: propext, Quot.sound
* **C251** reverseData reverses rows
  * `Verif.Plot.C251_rows_partial`: propext, Quot.sound
  * `Verif.Plot.C251_twice`: propext, Quot.sound
  * `Verif.Plot.C251_violated`: propext, Classical.choice, Quot.sound
* **C252** vectors are recorded by component
  * `Verif.Plot.C252_components_partial`: propext, Classical.choice, Quot.sound
  * `Verif.Plot.C252_refused`: propext, Classical.choice, Quot.sound
  * `Verif.Plot.C252_violated`: propext, Classical.choice, Quot.sound
* **C253** saveDataTxt writes the table
  * `Verif.Plot.C253_rows_partial`: propext, Quot.sound
  * `Verif.Plot.C253_all`: propext, Quot.sound
  * `Verif.Plot.C253_missing`: propext, Quot.sound
  * `Verif.Plot.C253_violated`: propext
* **C254** prescribed paths are followed
  * `Verif.P3d.C254_path_partial`: propext, Classical.choice, Quot.sound
  * `Verif.P3d.C254_goal_partial`: propext, Classical.choice, Quot.sound
  * `Verif.P3d.C254_steps_partial`: propext, Classical.choice, Quot.sound
  * `Verif.P3d.C254_violated_default`: propext, Classical.choice, Quot.sound
  * `Verif.P3d.C254_violated_between`: propext, Classical.choice, Quot.sound
* **C255** strain rates are limited
  * `Verif.P3d.C255_limit_partial`: propext, Classical.choice, Quot.sound
  * `Verif.P3d.C255_violated_record`: propext, Classical.choice, Quot.sound
* **C256** the cell gets the strain prescribed
  * `Verif.P3d.C256_cell`: propext, Classical.choice, Quot.sound
  * `Verif.P3d.C256_symmetric`: propext, Classical.choice, Quot.sound
  * `Verif.P3d.C256_strain_partial`: propext, Classical.choice, Quot.sound
* **C257** the controller stops at the end
  * `Verif.P3d.C257_end_partial`: propext, Classical.choice, Quot.sound
  * `Verif.P3d.C257_violated_hook`: propext, Classical.choice, Quot.sound
* **C258** stresses are driven towards ideal ones
  * `Verif.P3d.C258_predict_partial`: propext, Classical.choice, Quot.sound
  * `Verif.P3d.C258_zero_steps`: propext, Classical.choice, Quot.sound
  * `Verif.P3d.C258_violated_zero`: propext, Classical.choice, Quot.sound
  * `Verif.P3d.C258_violated_estimate`: propext, Classical.choice, Quot.sound
* **C259** viscoelastic normal forces do not attract
  * `Verif.Visc.C259_normal`: propext, Classical.choice, Quot.sound
  * `Verif.Visc.C259_balanced`: propext, Classical.choice, Quot.sound
  * `Verif.Visc.C259_luding`: propext, Classical.choice, Quot.sound
  * `Verif.Visc.C259_luding_damping`: propext, Classical.choice, Quot.sound
* **C260** friction limits the shear force
  * `Verif.Visc.C260_stored_partial`: propext, Classical.choice, Quot.sound
  * `Verif.Visc.C260_luding_partial`: propext, Classical.choice, Quot.sound
  * `Verif.Visc.C260_violated`: propext, Classical.choice, Quot.sound
  * `Verif.Visc.C260_memory`: propext, Classical.choice, Quot.sound
  * `Verif.Visc.C260_memory_luding`: propext, Classical.choice, Quot.sound
* **C261** parameters of a contact from those of its materials
  * `Verif.Visc.C261_swap`: propext, Classical.choice, Quot.sound
  * `Verif.Visc.C261_explicit_partial`: propext, Classical.choice, Quot.sound
  * `Verif.Visc.C261_violated`: propext, Classical.choice, Quot.sound
* **C262** contact time and restitution are those given
  * `Verif.Visc.C262_restitution_partial`: propext, Classical.choice, Quot.sound
  * `Verif.Visc.C262_violated_limit`: propext, Classical.choice, Quot.sound
  * `Verif.Visc.C262_violated_wall`: propext, Classical.choice, Quot.sound
* **C263** rolling resistance
  * `Verif.Visc.C263_opposes_partial`: propext, Classical.choice, Quot.sound
  * `Verif.Visc.C263_violated`: propext, Classical.choice, Quot.sound
* **C264** bodies which move together
  * `Verif.Visc.C264_common_partial`: propext, Classical.choice, Quot.sound
  * `Verif.Visc.C264_violated`: propext, Classical.choice, Quot.sound
* **C265** contacts which are not active
  * `Verif.Visc.C265_kept_partial`: propext, Classical.choice, Quot.sound
  * `Verif.Visc.C265_luding_partial`: propext, Classical.choice, Quot.sound
  * `Verif.Visc.C265_violated`: propext, Classical.choice, Quot.sound
* **C266** Luding's law is stable for all histories
  * `Verif.Visc.C266_history_partial`: propext, Classical.choice, Quot.sound
  * `Verif.Visc.C266_violated_wall`: propext, Classical.choice, Quot.sound
* **C267** the branches of Luding's law
  * `Verif.Visc.C267_force_partial`: propext, Classical.choice, Quot.sound
  * `Verif.Visc.C267_violated_jump`: propext, Classical.choice, Quot.sound
  * `Verif.Visc.C267_violated_below`: propext, Classical.choice, Quot.sound
* **C268** plastic overlap of Luding's law
  * `Verif.Visc.C268_lag_partial`: propext, Classical.choice, Quot.sound
  * `Verif.Visc.C268_violated`: propext, Classical.choice, Quot.sound
* **C269** spheres exported as text are read back
  * `Verif.Text.C269_roundtrip_partial`: propext, Classical.choice, Quot.sound
  * `Verif.Text.C269_violated_material`: propext, Classical.choice, Quot.sound
  * `Verif.Text.C269_violated_digits`: propext, Classical.choice, Quot.sound
* **C270** attributes exported as text are read back
  * `Verif.Text.C270_attrs_partial`: propext, Classical.choice, Quot.sound
  * `Verif.Text.C270_violated_matrix`: propext, Classical.choice, Quot.sound
  * `Verif.Text.C270_violated_missing`: propext, Classical.choice, Quot.sound
  * `Verif.Text.C270_violated_comment`: propext, Classical.choice, Quot.sound
* **C271** lines starting with # are skipped
  * `Verif.Text.C271_skips_partial`: propext, Classical.choice, Quot.sound
  * `Verif.Text.C271_blank`: propext, Classical.choice, Quot.sound
  * `Verif.Text.C271_violated`: propext, Classical.choice, Quot.sound
* **C272** clumps exported as text are read back
  * `Verif.Text.C272_clumps_partial`: propext, Classical.choice, Quot.sound
  * `Verif.Text.C272_violated_million`: propext, Classical.choice, Quot.sound
  * `Verif.Text.C272_violated_count`: propext, Classical.choice, Quot.sound
* **C273** files for LIGGGHTS
  * `Verif.Text.C273_liggghts_partial`: propext, Classical.choice, Quot.sound
  * `Verif.Text.C273_violated_box`: propext, Classical.choice, Quot.sound
  * `Verif.Text.C273_violated_ids`: propext, Classical.choice, Quot.sound
* **C274** wires follow their curve, unload elastically and rupture
  * `Verif.Wire.C274_history_partial`: propext, Classical.choice, Quot.sound
  * `Verif.Wire.C274_rupture`: propext, Classical.choice, Quot.sound
  * `Verif.Wire.C274_violated`: propext, Classical.choice, Quot.sound
* **C275** wires only pull
  * `Verif.Wire.C275_tension`: propext, Classical.choice, Quot.sound
  * `Verif.Wire.C275_pull`: propext, Classical.choice, Quot.sound
  * `Verif.Wire.C275_limit_partial`: propext, Classical.choice, Quot.sound
  * `Verif.Wire.C275_violated`: propext, Classical.choice, Quot.sound
* **C276** rupture is counted and final
  * `Verif.Wire.C276_follows`: propext, Classical.choice, Quot.sound
  * `Verif.Wire.C276_count`: propext, Classical.choice, Quot.sound
  * `Verif.Wire.C276_forever`: propext, Classical.choice, Quot.sound
* **C277** wires from stress-strain curves
  * `Verif.Wire.C277_curve_partial`: propext, Classical.choice, Quot.sound
  * `Verif.Wire.C277_shifted_partial`: propext, Classical.choice, Quot.sound
  * `Verif.Wire.C277_twist_partial`: propext, Classical.choice, Quot.sound
  * `Verif.Wire.C277_area`: propext, Classical.choice, Quot.sound
  * `Verif.Wire.C277_checks`: propext, Classical.choice, Quot.sound
  * `Verif.Wire.C277_choice`: propext, Classical.choice, Quot.sound
  * `Verif.Wire.C277_violated_twist`: propext, Classical.choice, Quot.sound
  * `Verif.Wire.C277_violated_zero`: propext, Classical.choice, Quot.sound
  * `Verif.Wire.C277_violated_late`: propext, Classical.choice, Quot.sound
  * `Verif.Wire.C277_violated_diameter`: propext, Classical.choice, Quot.sound
* **C278** order of the bodies of wires
  * `Verif.Wire.C278_swap_partial`: propext, Classical.choice, Quot.sound
  * `Verif.Wire.C278_violated`: propext, Classical.choice, Quot.sound
* **C279** distorted wires
  * `Verif.Wire.C279_shift_partial`: propext, Classical.choice, Quot.sound
  * `Verif.Wire.C279_violated`: propext, Classical.choice, Quot.sound
* **C280** LawTester follows its path
  * `Verif.Tester.C280_points`: propext, Classical.choice, Quot.sound
  * `Verif.Tester.C280_follows_partial`: propext, Classical.choice, Quot.sound
  * `Verif.Tester.C280_reaches`: propext, Classical.choice, Quot.sound
  * `Verif.Tester.C280_end`: propext, Classical.choice, Quot.sound
  * `Verif.Tester.C280_interaction`: propext, Classical.choice, Quot.sound
  * `Verif.Tester.C280_violated`: propext, Classical.choice, Quot.sound
* **C281** LawTester moves the contact as prescribed
  * `Verif.Tester.C281_contact_partial`: propext, Classical.choice, Quot.sound
  * `Verif.Tester.C281_weight`: propext, Classical.choice, Quot.sound
  * `Verif.Tester.C281_violated_arc`: propext, Classical.choice, Quot.sound
  * `Verif.Tester.C281_violated_weight`: propext, Classical.choice, Quot.sound
* **C282** LawTester rotates the bodies as prescribed
  * `Verif.Tester.C282_rotation_partial`: propext, Classical.choice, Quot.sound
  * `Verif.Tester.C282_violated`: propext, Classical.choice, Quot.sound
* **C283** local axes of a new contact
  * `Verif.Tester.C283_axes`: propext, Classical.choice, Quot.sound
* **C284** hooks of LawTester
  * `Verif.Tester.C284_hooks_partial`: propext, Classical.choice, Quot.sound
  * `Verif.Tester.C284_violated`: propext, Classical.choice, Quot.sound
* **C285** forces of bubbles obey the law
  * `Verif.Bubble.C285_equation`: propext, Classical.choice, Quot.sound
  * `Verif.Bubble.C285_accuracy`: propext, Classical.choice, Quot.sound
  * `Verif.Bubble.C285_history_partial`: propext, Classical.choice, Quot.sound
  * `Verif.Bubble.C285_violated_branch`: propext, Classical.choice, Quot.sound
  * `Verif.Bubble.C285_violated_deep`: propext, Classical.choice, Quot.sound
  * `Verif.Bubble.C285_violated_zero`: propext, Classical.choice, Quot.sound
* **C286** curve of forces of bubbles
  * `Verif.Bubble.C286_junction`: propext, Classical.choice, Quot.sound
  * `Verif.Bubble.C286_monotone_partial`: propext, Classical.choice, Quot.sound
  * `Verif.Bubble.C286_deep`: propext, Classical.choice, Quot.sound
  * `Verif.Bubble.C286_violated`: propext, Classical.choice, Quot.sound
* **C287** parameters of bubbles
  * `Verif.Bubble.C287_fresh_partial`: propext, Classical.choice, Quot.sound
  * `Verif.Bubble.C287_violated_material`: propext, Classical.choice, Quot.sound
  * `Verif.Bubble.C287_violated_change`: propext, Classical.choice, Quot.sound
  * `Verif.Bubble.C287_violated_reload`: propext, Classical.choice, Quot.sound
  * `Verif.Bubble.C287_violated_Dmax`: propext, Classical.choice, Quot.sound
* **C288** loads of bubbles
  * `Verif.Bubble.C288_loads`: propext, Classical.choice, Quot.sound
  * `Verif.Bubble.C288_deleted`: propext, Classical.choice, Quot.sound
  * `Verif.Bubble.C288_positive`: propext, Classical.choice, Quot.sound
* **C289** mortar is elastic until it breaks
  * `Verif.Mortar.C289_lasts`: propext, Classical.choice, Quot.sound
  * `Verif.Mortar.C289_elastic`: propext, Classical.choice, Quot.sound
  * `Verif.Mortar.C289_broken`: propext, Classical.choice, Quot.sound
  * `Verif.Mortar.C289_balanced`: propext, Classical.choice, Quot.sound
* **C290** stresses mortar bears
  * `Verif.Mortar.C290_convex`: propext, Classical.choice, Quot.sound
  * `Verif.Mortar.C290_unload`: propext, Classical.choice, Quot.sound
  * `Verif.Mortar.C290_limits`: propext, Classical.choice, Quot.sound
  * `Verif.Mortar.C290_reached`: propext, Classical.choice, Quot.sound
* **C291** parameters of mortar
  * `Verif.Mortar.C291_swap`: propext, Classical.choice, Quot.sound
  * `Verif.Mortar.C291_strength`: propext, Classical.choice, Quot.sound
  * `Verif.Mortar.C291_stiffness_partial`: propext, Classical.choice, Quot.sound
  * `Verif.Mortar.C291_violated`: propext, Classical.choice, Quot.sound
* **C292** mortar contacts made later do not stick
  * `Verif.Mortar.C292_kept_partial`: propext, Classical.choice, Quot.sound
  * `Verif.Mortar.C292_violated`: propext, Classical.choice, Quot.sound
  * `Verif.Mortar.C292_violated_heals`: propext, Classical.choice, Quot.sound
* **C293** damage of concrete
  * `Verif.Cpm.C293_grows`: propext, Classical.choice, Quot.sound
  * `Verif.Cpm.C293_largest`: propext, Classical.choice, Quot.sound
  * `Verif.Cpm.C293_deleted`: propext, Classical.choice, Quot.sound
  * `Verif.Cpm.C293_range_partial`: propext, Classical.choice, Quot.sound
  * `Verif.Cpm.C293_kept_partial`: propext, Classical.choice, Quot.sound
  * `Verif.Cpm.C293_violated`: propext, Classical.choice, Quot.sound
  * `Verif.Cpm.C293_violated_deleted`: propext, Classical.choice, Quot.sound
  * `Verif.Cpm.C293_violated_never`: propext, Classical.choice, Quot.sound
* **C294** normal stress of concrete
  * `Verif.Cpm.C294_tension`: propext, Classical.choice, Quot.sound
  * `Verif.Cpm.C294_strength`: propext, Classical.choice, Quot.sound
  * `Verif.Cpm.C294_compression`: propext, Classical.choice, Quot.sound
  * `Verif.Cpm.C294_hold_partial`: propext, Classical.choice, Quot.sound
  * `Verif.Cpm.C294_violated_hold`: propext, Classical.choice, Quot.sound
* **C295** shear stress of concrete
  * `Verif.Cpm.C295_yield`: propext, Classical.choice, Quot.sound
  * `Verif.Cpm.C295_elastic_partial`: propext, Classical.choice, Quot.sound
  * `Verif.Cpm.C295_violated`: propext, Classical.choice, Quot.sound
  * `Verif.Cpm.C295_violated_springs`: propext, Classical.choice, Quot.sound
* **C296** setting damage and residual strength
  * `Verif.Cpm.C296_damage_linear`: propext, Classical.choice, Quot.sound
  * `Verif.Cpm.C296_damage_exp_partial`: propext, Classical.choice, Quot.sound
  * `Verif.Cpm.C296_resid_partial`: propext, Classical.choice, Quot.sound
  * `Verif.Cpm.C296_violated_full`: propext, Classical.choice, Quot.sound
  * `Verif.Cpm.C296_violated_resid`: propext, Classical.choice, Quot.sound
* **C297** what the state updater reports
  * `Verif.Cpm.C297_mean`: propext, Classical.choice, Quot.sound
  * `Verif.Cpm.C297_stress`: propext, Classical.choice, Quot.sound
  * `Verif.Cpm.C297_average`: propext, Classical.choice, Quot.sound
  * `Verif.Cpm.C297_max_partial`: propext, Classical.choice, Quot.sound
  * `Verif.Cpm.C297_violated_trace`: propext, Classical.choice, Quot.sound
  * `Verif.Cpm.C297_violated_max`: propext, Classical.choice, Quot.sound
  * `Verif.Cpm.C297_violated_count`: propext, Classical.choice, Quot.sound
* **C298** parameters of concrete contacts
  * `Verif.Cpm.C298_cohesive`: propext, Classical.choice, Quot.sound
  * `Verif.Cpm.C298_shared`: propext, Classical.choice, Quot.sound
  * `Verif.Cpm.C298_swap_partial`: propext, Classical.choice, Quot.sound
  * `Verif.Cpm.C298_rest`: propext, Classical.choice, Quot.sound
  * `Verif.Cpm.C298_fracture`: propext, Classical.choice, Quot.sound
  * `Verif.Cpm.C298_violated`: propext, Classical.choice, Quot.sound
  * `Verif.Cpm.C298_violated_match`: propext, Classical.choice, Quot.sound
* **C299** loads of concrete balance
  * `Verif.Cpm.C299_balanced`: propext, Classical.choice, Quot.sound
  * `Verif.Cpm.C299_periodic_partial`: propext, Classical.choice, Quot.sound
  * `Verif.Cpm.C299_violated`: propext, Classical.choice, Quot.sound
* **C300** normal force of Hertz
  * `Verif.Hertz.C300_potential`: propext, Classical.choice, Quot.sound
  * `Verif.Hertz.C300_push`: propext, Classical.choice, Quot.sound
  * `Verif.Hertz.C300_attraction`: propext, Classical.choice, Quot.sound
  * `Verif.Hertz.C300_energy_partial`: propext, Classical.choice, Quot.sound
  * `Verif.Hertz.C300_violated_energy`: propext, Classical.choice, Quot.sound
* **C301** friction of Hertz and Mindlin
  * `Verif.Hertz.C301_limit_partial`: propext, Classical.choice, Quot.sound
  * `Verif.Hertz.C301_violated_damping`: propext, Classical.choice, Quot.sound
  * `Verif.Hertz.C301_violated_adhesion`: propext, Classical.choice, Quot.sound
* **C302** contacts of Hertz and Mindlin which open
  * `Verif.Hertz.C302_opens_partial`: propext, Classical.choice, Quot.sound
  * `Verif.Hertz.C302_violated`: propext, Classical.choice, Quot.sound
* **C303** parameters of Hertz and Mindlin
  * `Verif.Hertz.C303_swap_partial`: propext, Classical.choice, Quot.sound
  * `Verif.Hertz.C303_viscous`: propext, Classical.choice, Quot.sound
  * `Verif.Hertz.C303_violated_swap`: propext, Classical.choice, Quot.sound
  * `Verif.Hertz.C303_violated_ratio`: propext, Classical.choice, Quot.sound
  * `Verif.Hertz.C303_violated_shear`: propext, Classical.choice, Quot.sound
* **C304** dissipation in contacts of Hertz and Mindlin
  * `Verif.Hertz.C304_damping_partial`: propext, Classical.choice, Quot.sound
  * `Verif.Hertz.C304_violated_friction`: propext, Classical.choice, Quot.sound
* **C305** loads of contacts of Hertz
  * `Verif.Hertz.C305_balanced`: propext, Classical.choice, Quot.sound
  * `Verif.Hertz.C305_linear`: propext, Classical.choice, Quot.sound
  * `Verif.Hertz.C305_bending_partial`: propext, Classical.choice, Quot.sound
  * `Verif.Hertz.C305_violated`: propext, Classical.choice, Quot.sound
  * `Verif.Hertz.C305_linear_loads`: propext, Classical.choice, Quot.sound
* **C306** shear force and displacement
  * `Verif.Hertz.C306_linear_partial`: propext, Classical.choice, Quot.sound
  * `Verif.Hertz.C306_violated_cycle`: propext, Classical.choice, Quot.sound
  * `Verif.Hertz.C306_violated_slip`: propext, Classical.choice, Quot.sound
* **C307** dimensions of spheres
  * `Verif.Handle.C307_box`: propext, Classical.choice, Quot.sound
  * `Verif.Handle.C307_sums`: propext, Classical.choice, Quot.sound
  * `Verif.Handle.C307_order`: propext, Classical.choice, Quot.sound
  * `Verif.Handle.C307_none`: propext, Classical.choice, Quot.sound
* **C308** dimensions of facets
  * `Verif.Handle.C308_box_partial`: propext, Classical.choice, Quot.sound
  * `Verif.Handle.C308_violated`: propext, Classical.choice, Quot.sound
* **C309** moving spheres
  * `Verif.Handle.C309_move_partial`: propext, Classical.choice, Quot.sound
  * `Verif.Handle.C309_similar`: propext, Classical.choice, Quot.sound
  * `Verif.Handle.C309_density`: propext, Classical.choice, Quot.sound
  * `Verif.Handle.C309_box`: propext, Classical.choice, Quot.sound
  * `Verif.Handle.C309_violated`: propext, Classical.choice, Quot.sound
  * `Verif.Handle.C309_violated_twice`: propext, Classical.choice, Quot.sound
  * `Verif.Handle.C309_violated_ori`: propext, Classical.choice, Quot.sound
* **C310** copying spheres
  * `Verif.Handle.C310_copies_partial`: propext, Classical.choice, Quot.sound
  * `Verif.Handle.C310_violated`: propext, Classical.choice, Quot.sound
* **C311** parameters of damped frictional contacts
  * `Verif.FVisc.C311_damping_partial`: propext, Classical.choice, Quot.sound
  * `Verif.FVisc.C311_order_partial`: propext, Classical.choice, Quot.sound
  * `Verif.FVisc.C311_plain_partial`: propext, Classical.choice, Quot.sound
  * `Verif.FVisc.C311_violated_order`: propext, Classical.choice, Quot.sound
  * `Verif.FVisc.C311_violated_fixed`: propext, Classical.choice, Quot.sound
  * `Verif.FVisc.C311_stiffness`: propext, Classical.choice, Quot.sound
* **C312** normal force of damped frictional contacts
  * `Verif.FVisc.C312_force`: propext, Classical.choice, Quot.sound
  * `Verif.FVisc.C312_push_partial`: propext, Classical.choice, Quot.sound
  * `Verif.FVisc.C312_undamped`: propext, Classical.choice, Quot.sound
  * `Verif.FVisc.C312_violated_pull`: propext, Classical.choice, Quot.sound
  * `Verif.FVisc.C312_violated_apart`: propext, Classical.choice, Quot.sound
* **C313** friction of damped frictional contacts
  * `Verif.FVisc.C313_limit`: propext, Classical.choice, Quot.sound
  * `Verif.FVisc.C313_dissipation`: propext, Classical.choice, Quot.sound
  * `Verif.FVisc.C313_traced`: propext, Classical.choice, Quot.sound
  * `Verif.FVisc.C313_tracked`: propext, Classical.choice, Quot.sound
* **C314** balance and energy of damped frictional contacts
  * `Verif.FVisc.C314_balanced`: propext, Classical.choice, Quot.sound
  * `Verif.FVisc.C314_energy_partial`: propext, Classical.choice, Quot.sound
  * `Verif.FVisc.C314_total`: propext, Classical.choice, Quot.sound
  * `Verif.FVisc.C314_violated`: propext, Classical.choice, Quot.sound
* **C315** parameters of inelastic cohesive contacts
  * `Verif.Inel.C315_order`: propext, Classical.choice, Quot.sound
  * `Verif.Inel.C315_values`: propext, Classical.choice, Quot.sound
* **C316** failure of inelastic cohesive contacts
  * `Verif.Inel.C316_final`: propext, Classical.choice, Quot.sound
  * `Verif.Inel.C316_limits`: propext, Classical.choice, Quot.sound
* **C317** normal force of inelastic cohesive contacts
  * `Verif.Inel.C317_elastic_partial`: propext, Classical.choice, Quot.sound
  * `Verif.Inel.C317_yield`: propext, Classical.choice, Quot.sound
  * `Verif.Inel.C317_violated`: propext, Classical.choice, Quot.sound
  * `Verif.Inel.C317_unload`: propext, Classical.choice, Quot.sound
  * `Verif.Inel.C317_equilibrium`: propext, Classical.choice, Quot.sound
* **C318** shear of inelastic cohesive contacts
  * `Verif.Inel.C318_limit_partial`: propext, Classical.choice, Quot.sound
  * `Verif.Inel.C318_friction`: propext, Classical.choice, Quot.sound
  * `Verif.Inel.C318_violated`: propext, Classical.choice, Quot.sound
  * `Verif.Inel.C318_violated_jump`: propext, Classical.choice, Quot.sound
  * `Verif.Inel.C318_stick`: propext, Classical.choice, Quot.sound
* **C319** moments of inelastic cohesive contacts
  * `Verif.Inel.C319_twist_partial`: propext, Classical.choice, Quot.sound
  * `Verif.Inel.C319_bending`: propext, Classical.choice, Quot.sound
  * `Verif.Inel.C319_violated`: propext, Classical.choice, Quot.sound
  * `Verif.Inel.C319_violated_reached`: propext, Classical.choice, Quot.sound
  * `Verif.Inel.C319_twist_limits`: propext, Classical.choice, Quot.sound
  * `Verif.Inel.C319_bending_elastic`: propext, Classical.choice, Quot.sound
* **C320** balance and energy of inelastic cohesive contacts
  * `Verif.Inel.C320_balance`: propext, Classical.choice, Quot.sound
  * `Verif.Inel.C320_loads_partial`: propext, Classical.choice, Quot.sound
  * `Verif.Inel.C320_violated_energy`: propext, Classical.choice, Quot.sound
* **C321** collisions of a fluid on a lattice
  * `Verif.Lbm.C321_defined`: propext, Classical.choice, Quot.sound
  * `Verif.Lbm.C321_mass`: propext, Classical.choice, Quot.sound
  * `Verif.Lbm.C321_momentum`: propext, Classical.choice, Quot.sound
  * `Verif.Lbm.C321_rest`: propext, Classical.choice, Quot.sound
* **C322** borders of a fluid on a lattice
  * `Verif.Lbm.C322_momentum`: propext, Classical.choice, Quot.sound
  * `Verif.Lbm.C322_pressure`: propext, Classical.choice, Quot.sound
  * `Verif.Lbm.C322_inlet`: propext, Classical.choice, Quot.sound
  * `Verif.Lbm.C322_velocity_partial`: propext, Classical.choice, Quot.sound
  * `Verif.Lbm.C322_kept`: propext, Classical.choice, Quot.sound
  * `Verif.Lbm.C322_mass`: propext, Classical.choice, Quot.sound
  * `Verif.Lbm.C322_violated`: propext, Classical.choice, Quot.sound
  * `Verif.Lbm.C322_violated_exit`: propext, Classical.choice, Quot.sound
* **C323** fluid at walls of bodies
  * `Verif.Lbm.C323_mass`: propext, Classical.choice, Quot.sound
  * `Verif.Lbm.C323_rest`: propext, Classical.choice, Quot.sound
  * `Verif.Lbm.C323_moving`: propext, Classical.choice, Quot.sound
  * `Verif.Lbm.C323_equilibrium`: propext, Classical.choice, Quot.sound
  * `Verif.Lbm.C323_force_partial`: propext, Classical.choice, Quot.sound
  * `Verif.Lbm.C323_violated`: propext, Classical.choice, Quot.sound
* **C324** sides of nodes of a lattice
  * `Verif.Lbm.C324_sides_partial`: propext, Classical.choice, Quot.sound
  * `Verif.Lbm.C324_violated`: propext, Quot.sound
* **C325** new obstacle and fluid nodes
  * `Verif.Lbm.C325_counters`: propext, Quot.sound
  * `Verif.Lbm.C325_nodes`: propext
  * `Verif.Lbm.C325_once`: propext
* **C326** stiffnesses of contacts of elastic materials
  * `Verif.Elast.C326_order`: propext, Classical.choice, Quot.sound
  * `Verif.Elast.C326_spheres`: propext, Classical.choice, Quot.sound
  * `Verif.Elast.C326_flat`: propext, Classical.choice, Quot.sound
  * `Verif.Elast.C326_kept`: propext, Classical.choice, Quot.sound
  * `Verif.Elast.C326_plain_partial`: propext, Classical.choice, Quot.sound
  * `Verif.Elast.C326_violated`: propext, Classical.choice, Quot.sound
