{
 "claims": [
  {
   "property": "C01",
   "status": "partial",
   "theorems": [
    "Verif.Bodies.C01_ids_are_slots_partial",
    "Verif.Bodies.C01_append",
    "Verif.Bodies.C01_insertAtId",
    "Verif.Bodies.C01_erase_brings_nothing",
    "Verif.Bodies.C01_violated"
   ],
   "note": "Holds for every history in which insertAtId is not given a body that is stored already; the unchanged code accepts such a body and then two ids lead to it (C01_violated)."
  },
  {
   "property": "C02",
   "status": "partial",
   "theorems": [
    "Verif.Bodies.C02_iteration_partial",
    "Verif.Bodies.C02_violated"
   ],
   "note": "Order and completeness are proved for every container whatever the read behind the last element yields; that read happens in every iteration of every non-empty container (C02_violated)."
  },
  {
   "property": "C03",
   "status": "partial",
   "theorems": [
    "Verif.Bodies.C03_getitem",
    "Verif.Bodies.C03_exists",
    "Verif.Bodies.C03_inrange_partial",
    "Verif.Bodies.C03_violated"
   ],
   "note": "O.bodies[id] and exists are proved safe for every id; insertAtId and erase index outside the storage for every id outside the container (C03_violated)."
  },
  {
   "property": "C04",
   "status": "partial",
   "theorems": [
    "Verif.Bodies.C04_consistent_partial",
    "Verif.Bodies.C04_operations_defined_partial",
    "Verif.Bodies.C04_violated",
    "Verif.Bodies.C04_violated_clump"
   ],
   "note": "Invariant proved for every history in which clump and addToClump are not given clumps; addToClump and clump with the id of a clump break it in the unchanged code (two witnesses)."
  },
  {
   "property": "C05",
   "status": "proved",
   "theorems": [
    "Verif.Bodies.C05_erase_free",
    "Verif.Bodies.C05_erase_member",
    "Verif.Bodies.C05_erase_clump_keep",
    "Verif.Bodies.C05_erase_clump_all",
    "Verif.Bodies.C05_erase_gone",
    "Verif.Bodies.C05_cases"
   ],
   "note": "All cases, for every scene reached by a history as in C04 and every clump size."
  },
  {
   "property": "C06",
   "status": "proved",
   "theorems": [
    "Verif.Intr.C06_container_is_pair_map"
   ],
   "note": "Refinement of the three mutually referencing indices against a table keyed by unordered pairs, for every legal history from the empty scene. Legality: inserted interactions join two distinct existing bodies, looked-up ids are not negative, a list position is passed to erase only for a stored pair."
  },
  {
   "property": "C07",
   "status": "proved",
   "theorems": [
    "Verif.Intr.C07_bulk_removal_exact"
   ],
   "note": "For every state reachable by body and interaction operations (bodies may be deleted), every predicate, every contiguous split. Refilling a deleted slot that is still referred to is excluded (C09), as is O.bodies.clear (C57)."
  },
  {
   "property": "C08",
   "status": "partial",
   "theorems": [
    "Verif.Intr.C08_eraseNonReal_partial",
    "Verif.Intr.C08_eraseNonReal_violated"
   ],
   "note": "The code violates the claim: with a non-real interaction before the last position the loop passes the end of the shortened vector; proved for every such reachable state. The safe case is exact."
  },
  {
   "property": "C09",
   "status": "partial",
   "theorems": [
    "Verif.Intr.C09_reinsert_partial",
    "Verif.Intr.C09_reinsert_violated",
    "Verif.Intr.C09_reappended_body_violated"
   ],
   "note": "Holds when no stale reference to the slot exists; two violating histories are proved."
  },
  {
   "property": "C10",
   "status": "proved",
   "theorems": [
    "Verif.Intr.C10_save_load_roundtrip",
    "Verif.Intr.C10_save_twice",
    "Verif.Intr.C10_orphan_in_file_violated"
   ],
   "note": "Proved for every reachable state. C10_orphan_in_file_violated records what happens for a file written otherwise (an interaction with a missing body)."
  },
  {
   "property": "C100",
   "status": "partial",
   "theorems": [
    "Verif.Loop.C100_untouched_partial",
    "Verif.Loop.C100_violated_kept"
   ],
   "note": "such interactions are not touched, but never removed either: the list of pairs to erase is not read"
  },
  {
   "property": "C101",
   "status": "partial",
   "theorems": [
    "Verif.Loop.C101_fresh_partial",
    "Verif.Loop.C101_violated_reset",
    "Verif.Loop.C103_fresh"
   ],
   "note": "true while the step count only grows; after O.resetTime() an old contact is found fresh again"
  },
  {
   "property": "C102",
   "status": "partial",
   "theorems": [
    "Verif.Loop.C102_order_partial",
    "Verif.Loop.C102_no_exchange",
    "Verif.Loop.C102_violated_replaced"
   ],
   "note": "true while bodies keep the classes of their shapes; a shape replaced by one of another class is passed to the cached functor"
  },
  {
   "property": "C103",
   "status": "partial",
   "theorems": [
    "Verif.Loop.C103_nearest_partial",
    "Verif.Loop.C103_violated_below",
    "Verif.Loop.C103_created",
    "Verif.Loop.C103_fresh",
    "Verif.Loop.C103_violated_unforced",
    "Verif.Loop.C103_same_shift_partial",
    "Verif.Loop.C103_violated_exchanged"
   ],
   "note": "nearest image only when the second body is not more than half a cell below; exchanged bodies get the shift of the wrong sign; without force the functor pointer is null"
  },
  {
   "property": "C104",
   "status": "partial",
   "theorems": [
    "Verif.Grid.C104_quick",
    "Verif.Grid.C104_known_partial",
    "Verif.Grid.C104_violated_new"
   ],
   "note": "true for the quick-sort collider, and for the grid collider on pairs that had an interaction; a pair newly found by the grid collider in one cell is passed over in that step"
  },
  {
   "property": "C105",
   "status": "partial",
   "theorems": [
    "Verif.Grid.C105_bounded_partial",
    "Verif.Grid.C105_violated_never",
    "Verif.Grid.C105_violated_far"
   ],
   "note": "would hold if the integrator recorded the largest speed; it records nothing for bodies without bounding box, so the collider never runs after its first run"
  },
  {
   "property": "C106",
   "status": "proved",
   "theorems": [
    "Verif.Stride.C106_noticed"
   ],
   "note": ""
  },
  {
   "property": "C107",
   "status": "partial",
   "theorems": [
    "Verif.Stride.C107_next_partial",
    "Verif.Stride.C107_violated"
   ],
   "note": "The property is false: the collider uses the maximum recorded by the last integrator run, so the contacts of the next step are looked for with the old boxes (C107_violated). Proved: the collider runs after the next integrator run."
  },
  {
   "property": "C108",
   "status": "partial",
   "theorems": [
    "Verif.Stride.C108_facet",
    "Verif.Stride.C108_box",
    "Verif.Stride.C108_sphere_partial",
    "Verif.Stride.C108_violated_shear",
    "Verif.Stride.C108_violated_factor"
   ],
   "note": "Facets and boxes: proved, and the box is the smallest. Spheres: proved without cell and in cells sheared in one plane at most, with an enlargement factor of at least 1 (or unset). False otherwise (C108_violated_shear, C108_violated_factor)."
  },
  {
   "property": "C109",
   "status": "partial",
   "theorems": [
    "Verif.Stride.C109_translate_partial",
    "Verif.Stride.C109_violated"
   ],
   "note": "False: the displacement of the reference point is compared with the margin, a body turning in place leaves its box unnoticed (C109_violated). Proved for bodies that keep their orientation."
  },
  {
   "property": "C11",
   "status": "proved",
   "theorems": [
    "Verif.Forces.C11_sync_sum",
    "Verif.Forces.C11_sync_sum_noperm"
   ],
   "note": "One call is one step (C15 treats finer interleavings). The out-of-bounds access inside setPermF (C13) is a precondition of C11_sync_sum; C11_sync_sum_noperm needs no such condition."
  },
  {
   "property": "C110",
   "status": "partial",
   "theorems": [
    "Verif.Stride.C110_violated_unnoticed",
    "Verif.Stride.C110_violated",
    "Verif.Stride.C110_margin_partial"
   ],
   "note": "False: growing particles never changes the decision of the collider. Proved: a standalone sphere stays inside its stored box while growth and displacement together are within the margin."
  },
  {
   "property": "C111",
   "status": "partial",
   "theorems": [
    "Verif.Stride.C111_fast_partial",
    "Verif.Stride.C111_violated"
   ],
   "note": "False: with homoDeform=0 a cell shrinking by a tenth per step never makes the collider run (C111_violated, an infinite run). Proved: a change of at least one unit of length per unit of time is noticed."
  },
  {
   "property": "C112",
   "status": "partial",
   "theorems": [
    "Verif.Mpi.Split.C112_consistent_partial",
    "Verif.Mpi.Split.C112_mirror",
    "Verif.Mpi.Split.C112_listed",
    "Verif.Mpi.Split.C112_violated",
    "Verif.Mpi.Split.isIntrs_of_run"
   ],
   "note": "Proved for every scene in which no two subdomain boxes touch exactly; the lists of shared ids always match the ones mirrored. False when boxes of two subdomains touch exactly: whether the collider reports such a pair depends on the order of equal bounds, which may differ between processes, and one worker then waits for a message the other never sends. That the collider supplies the interactions assumed is isIntrs_of_run."
  },
  {
   "property": "C113",
   "status": "partial",
   "theorems": [
    "Verif.Mpi.Split.C113_present_partial",
    "Verif.Mpi.Split.C113_violated_mask",
    "Verif.Mpi.Split.C113_violated_appended",
    "Verif.Mpi.Split.isIntrs_of_run"
   ],
   "note": "Proved for bodies whose mask has the bit of the subdomains, listed in the ids of their subdomain, and strictly overlapping boxes. False for bodies without bit 0 in the mask (never shared) and for bodies appended after the first split (not in the ids of any subdomain)."
  },
  {
   "property": "C114",
   "status": "partial",
   "theorems": [
    "Verif.Mpi.Resplit.C114_found_partial",
    "Verif.Mpi.Resplit.C114_violated"
   ],
   "note": "Proved when the split is made in iteration 0 or with negative targetInterv. False for a re-split later: the boxes of remote bodies are created anew with margin minSweepDistFactor·verletDist only, and two spheres moving towards each other within their margins overlap in neither worker."
  },
  {
   "property": "C115",
   "status": "partial",
   "theorems": [
    "Verif.Mpi.EraseRemote.C115_kept_partial",
    "Verif.Mpi.EraseRemote.C115_violated_vacant",
    "Verif.Mpi.EraseRemote.C115_violated_clump"
   ],
   "note": "Proved for scenes without vacant ids in which every clump has a member that is kept. False otherwise: a vacant id gives an exception (attribute of None), and so does a remote clump visited after all of its members were erased, which erased the clump with them."
  },
  {
   "property": "C116",
   "status": "proved",
   "theorems": [
    "Verif.Mpi.Whole.C116_no_deadlock",
    "Verif.Mpi.Whole.C116_no_deadlock_unbuffered",
    "Verif.Mpi.Whole.C116_split_current",
    "Verif.Mpi.Whole.C116_merge_current",
    "Verif.Mpi.Whole.C116_states_current"
   ],
   "note": "Under the condition that the neighbour lists of each split fit together (C112). Messages of forces to the master are the subject of C47 and are excluded from the claims about what is received; without buffering it is assumed that they are not sent or that the master listens to every worker."
  },
  {
   "property": "C117",
   "status": "partial",
   "theorems": [
    "Verif.Drive.C117_function",
    "Verif.Drive.C117_wrap",
    "Verif.Drive.C117_range",
    "Verif.Drive.C117_jumps_partial",
    "Verif.Drive.C117_violated_history",
    "Verif.Drive.C117_violated_exchanged",
    "Verif.Drive.C117_violated_single",
    "Verif.Drive.C117_violated_short"
   ],
   "note": "Full for strictly increasing times. With repeated times (jumps) readings stay on the curve but depend on history; exchanging the table may give NaN; a table with one time and wrap, or with fewer values than times, is read past its end."
  },
  {
   "property": "C118",
   "status": "proved",
   "theorems": [
    "Verif.Drive.C118_step",
    "Verif.Drive.C118_motion",
    "Verif.Drive.C118_rigid",
    "Verif.Drive.C118_reported"
   ],
   "note": "About each body listed once. C118_violated_twice shows that a body listed twice gets twice the velocity. Exact real arithmetic; no periodic cell."
  },
  {
   "property": "C119",
   "status": "partial",
   "theorems": [
    "Verif.Drive.C119_sum",
    "Verif.Drive.C119_order",
    "Verif.Drive.C119_plus_partial",
    "Verif.Drive.C119_violated_plus",
    "Verif.Drive.C119_violated_right"
   ],
   "note": "The sums hold in full. Adding to a combined engine changes the left operand itself, and a combined engine on the right of + raises."
  },
  {
   "property": "C12",
   "status": "proved",
   "theorems": [
    "Verif.Forces.C12_never_stale",
    "Verif.Forces.C12_add_then_read_throws"
   ],
   "note": "Same precondition on setPermF as C11."
  },
  {
   "property": "C120",
   "status": "partial",
   "theorems": [
    "Verif.Drive.C120_bounded_partial",
    "Verif.Drive.C120_violated_twice"
   ],
   "note": "For bodies listed once; a body listed twice moves at twice the limit."
  },
  {
   "property": "C121",
   "status": "partial",
   "theorems": [
    "Verif.Drive.C121_axis_partial",
    "Verif.Drive.C121_violated_sign",
    "Verif.Drive.C121_violated_oblique"
   ],
   "note": "Holds in size for axes along a coordinate. The direction of the force is lost, and for oblique axes perpendicular forces count."
  },
  {
   "property": "C122",
   "status": "partial",
   "theorems": [
    "Verif.Drive.C122_circle_partial",
    "Verif.Drive.C122_violated_phase"
   ],
   "note": "The circle is right, but the position on it is not the phase `fi` of the engine. Eigen's FromTwoVectors is a parameter assumed to give a unit quaternion taking z to the axis."
  },
  {
   "property": "C123",
   "status": "proved",
   "theorems": [
    "Verif.Drive.C123_force",
    "Verif.Drive.C123_radial"
   ],
   "note": "Axis of unit length for the radial engine. The torque engine is C129."
  },
  {
   "property": "C124",
   "status": "partial",
   "theorems": [
    "Verif.Drive.C124_drag_partial",
    "Verif.Drive.C124_linear_partial",
    "Verif.Drive.C124_violated"
   ],
   "note": "For ids within the body container; an id outside is read before it is checked."
  },
  {
   "property": "C125",
   "status": "partial",
   "theorems": [
    "Verif.Drive.C125_same_partial",
    "Verif.Drive.C125_violated"
   ],
   "note": "For bodies of non-zero mass and clumps that carry the mass of their members with its centre at their position; a clump whose members have masses set by hand falls differently."
  },
  {
   "property": "C126",
   "status": "partial",
   "theorems": [
    "Verif.Drive.C126_axial",
    "Verif.Drive.C126_central_partial",
    "Verif.Drive.C126_violated_missing",
    "Verif.Drive.C126_violated_self"
   ],
   "note": "Axial gravity in full. A missing central body (the default) is dereferenced; a clump as central body attracts its own members and so moves itself."
  },
  {
   "property": "C127",
   "status": "partial",
   "theorems": [
    "Verif.Drive.C127_force_partial",
    "Verif.Drive.C127_kinematic_partial",
    "Verif.Drive.C127_violated"
   ],
   "note": "Holds for force, radial force and drag engines and all kinematic engines; the step displacer always dereferences the erased body."
  },
  {
   "property": "C128",
   "status": "proved",
   "theorems": [
    "Verif.Drive.C128_direct",
    "Verif.Drive.C128_velocities"
   ],
   "note": "About bodies that exist; listed once in the direct mode (C128_violated_twice otherwise). Exact real arithmetic."
  },
  {
   "property": "C129",
   "status": "partial",
   "theorems": [
    "Verif.Drive.C129_torque_partial",
    "Verif.Drive.C129_violated"
   ],
   "note": "For ids that are not negative (torques of ids without body are stored and ignored); negative ids write outside the storage."
  },
  {
   "property": "C13",
   "status": "partial",
   "theorems": [
    "Verif.Forces.C13_perm_stays_partial",
    "Verif.Forces.C13_violated_other_body",
    "Verif.Forces.C13_violated_memory"
   ],
   "note": "The code violates the property: setPermF accesses _maxId[-1] and shrinks the arrays of permanent forces to id+100. Proved when permanent ids are within 100 of each other and the access is survived."
  },
  {
   "property": "C130",
   "status": "proved",
   "theorems": [
    "Verif.Drive.C130_derivative",
    "Verif.Drive.C130_motion"
   ],
   "note": "Exact real arithmetic; no periodic cell."
  },
  {
   "property": "C131",
   "status": "proved",
   "theorems": [
    "Verif.Drive.C131_table"
   ],
   "note": "Without wrap; repeated times are C117."
  },
  {
   "property": "C132",
   "status": "partial",
   "theorems": [
    "Verif.Pack.C132_box",
    "Verif.Pack.C132_periodic",
    "Verif.Pack.C132_cell_partial",
    "Verif.Pack.C132_violated_sheared",
    "Verif.Pack.C132_violated_self"
   ],
   "note": "Proved for boxes, for periodic boxes (images of other spheres) and for cells with perpendicular edges; false in leaning cells and for a sphere and its own images."
  },
  {
   "property": "C133",
   "status": "partial",
   "theorems": [
    "Verif.Pack.C133_box_partial",
    "Verif.Pack.C133_cell",
    "Verif.Pack.C133_violated_wide"
   ],
   "note": "False for spheres wider than the box, which are placed and stick out."
  },
  {
   "property": "C134",
   "status": "partial",
   "theorems": [
    "Verif.Pack.C134_exact",
    "Verif.Pack.C134_kept_partial",
    "Verif.Pack.C134_number_partial",
    "Verif.Pack.C134_violated_number",
    "Verif.Pack.C134_violated_kept"
   ],
   "note": "False for packings with earlier spheres: they are counted as new and deleted by retries."
  },
  {
   "property": "C135",
   "status": "proved",
   "theorems": [
    "Verif.Pack.C135_range",
    "Verif.Pack.C135_by_number",
    "Verif.Pack.C135_by_mass",
    "Verif.Pack.C135_decreasing"
   ],
   "note": "Including the scaling of the sizes."
  },
  {
   "property": "C136",
   "status": "partial",
   "theorems": [
    "Verif.Pack.C136_number_partial",
    "Verif.Pack.C136_mass_partial",
    "Verif.Pack.C136_violated"
   ],
   "note": "Proved for cumulated fractions from 0 to 1 (and increasing positive sizes if by mass); false for fractions that start at 0 but do not end at 1: they are accepted, since the check joins both conditions by and."
  },
  {
   "property": "C137",
   "status": "partial",
   "theorems": [
    "Verif.Pack.C137_first_partial",
    "Verif.Pack.C137_violated"
   ],
   "note": "Only the first call of a process uses its seed: the generator is a static variable."
  },
  {
   "property": "C138",
   "status": "proved",
   "theorems": [
    "Verif.Pack.C138_porosity"
   ],
   "note": "No fuzz, volume not zero."
  },
  {
   "property": "C139",
   "status": "partial",
   "theorems": [
    "Verif.Pack.C139_set_partial",
    "Verif.Pack.C139_violated_lefthanded",
    "Verif.Pack.C139_violated_degenerate"
   ],
   "note": "False for parallelepipeds with left-handed edges (empty) and for cylinders of no height and hyperboloids with a skirt wider than the bases (everything)."
  },
  {
   "property": "C14",
   "status": "partial",
   "theorems": [
    "Verif.Forces.C14_sync_idempotent",
    "Verif.Forces.C14_violated_serial",
    "Verif.Forces.C14_serial_partial"
   ],
   "note": "Holds in the threaded build; the build without threads adds permanent forces at every sync."
  },
  {
   "property": "C140",
   "status": "partial",
   "theorems": [
    "Verif.Pack.C140_box_partial",
    "Verif.Pack.C140_violated"
   ],
   "note": "False for degenerate solids."
  },
  {
   "property": "C141",
   "status": "partial",
   "theorems": [
    "Verif.Pack.C141_ball_partial",
    "Verif.Pack.C141_exact_partial",
    "Verif.Pack.C141_notch_partial",
    "Verif.Pack.C141_violated_xor",
    "Verif.Pack.C141_violated_ellipsoid",
    "Verif.Pack.C141_violated_hyperboloid",
    "Verif.Pack.C141_violated_notch"
   ],
   "note": "Proved for spheres, boxes, parallelepipeds, cylinders and unions, intersections and differences of them, and above the middle of notches; false for symmetric differences, ellipsoids, hyperboloids and below notches."
  },
  {
   "property": "C142",
   "status": "proved",
   "theorems": [
    "Verif.Pack.C142_ortho",
    "Verif.Pack.C142_hexa"
   ],
   "note": "Hexagonal packings: distances of all pairs of the infinite lattice."
  },
  {
   "property": "C143",
   "status": "partial",
   "theorems": [
    "Verif.Pack.C143_ortho_partial",
    "Verif.Pack.C143_hexa",
    "Verif.Pack.C143_violated"
   ],
   "note": "True for hexagonal packings; orthogonal ones leave out spheres touching the upper sides of the box."
  },
  {
   "property": "C144",
   "status": "proved",
   "theorems": [
    "Verif.Pack.C144_repeat",
    "Verif.Pack.C144_refused"
   ],
   "note": ""
  },
  {
   "property": "C145",
   "status": "partial",
   "theorems": [
    "Verif.Pack.C145_fill_partial",
    "Verif.Pack.C145_succeeds",
    "Verif.Pack.C145_violated_dim",
    "Verif.Pack.C145_violated_exception"
   ],
   "note": "True of the cell, not of dim(); without cell, an infinite number is converted to int before the exception."
  },
  {
   "property": "C146",
   "status": "partial",
   "theorems": [
    "Verif.Pack.C146_original_partial",
    "Verif.Pack.C146_standalone_partial",
    "Verif.Pack.C146_violated"
   ],
   "note": "False: copies stand alone."
  },
  {
   "property": "C147",
   "status": "proved",
   "theorems": [
    "Verif.Pack.C147_box"
   ],
   "note": ""
  },
  {
   "property": "C148",
   "status": "partial",
   "theorems": [
    "Verif.Pack.C148_translate",
    "Verif.Pack.C148_rotate_partial",
    "Verif.Pack.C148_scale",
    "Verif.Pack.C148_violated_rotate"
   ],
   "note": "rotate is false for axes that are not of length one, which stretch the packing."
  },
  {
   "property": "C149",
   "status": "proved",
   "theorems": [
    "Verif.Pack.C149_clumps"
   ],
   "note": ""
  },
  {
   "property": "C15",
   "status": "partial",
   "theorems": [
    "Verif.Forces.C15_violated",
    "Verif.Forces.C15_growth_partial"
   ],
   "note": "The code violates the property (unsynchronised read-compare-write of the shared size). Proved for schedules in which this access is indivisible."
  },
  {
   "property": "C150",
   "status": "proved",
   "theorems": [
    "Verif.Pack.C150_roundtrip"
   ],
   "note": "In the absence of bodies in the simulation."
  },
  {
   "property": "C151",
   "status": "partial",
   "theorems": [
    "Verif.Pack.C151_cell_partial",
    "Verif.Pack.C151_kept",
    "Verif.Pack.C151_violated_rotate",
    "Verif.Pack.C151_violated_fromSimulation",
    "Verif.Pack.C151_violated_list",
    "Verif.Pack.C151_violated_clumps"
   ],
   "note": "cellSize and isPeriodic disagree after rotate, fromSimulation without cell, construction from a list and periodic makeClumpCloud."
  },
  {
   "property": "C152",
   "status": "partial",
   "theorems": [
    "Verif.Pack.C152_roundtrip_partial",
    "Verif.Pack.C152_violated_periodic",
    "Verif.Pack.C152_violated_cell",
    "Verif.Pack.C152_violated_columns"
   ],
   "note": "Six digits of the text are not modelled. False for isPeriodic, for a cell left from before, and a mixture of lines with and without clump ids."
  },
  {
   "property": "C153",
   "status": "proved",
   "theorems": [
    "Verif.Pack.C153_density"
   ],
   "note": "Against the Lebesgue measure of the union of balls."
  },
  {
   "property": "C154",
   "status": "partial",
   "theorems": [
    "Verif.Pack.C154_psd_partial",
    "Verif.Pack.C154_empty",
    "Verif.Pack.C154_violated_order"
   ],
   "note": "The order of the two lists is the reverse of the documented one."
  },
  {
   "property": "C155",
   "status": "proved",
   "theorems": [
    "Verif.Pack.C155_filter",
    "Verif.Pack.C155_result"
   ],
   "note": ""
  },
  {
   "property": "C156",
   "status": "partial",
   "theorems": [
    "Verif.Pack.C156_apart_partial",
    "Verif.Pack.C156_violated_earlier",
    "Verif.Pack.C156_violated_images",
    "Verif.Pack.C156_violated_flat"
   ],
   "note": "False for spheres that were there before, images of the clump itself, and flat cells."
  },
  {
   "property": "C157",
   "status": "proved",
   "theorems": [
    "Verif.Pack.C157_inside"
   ],
   "note": ""
  },
  {
   "property": "C158",
   "status": "partial",
   "theorems": [
    "Verif.Pack.C158_copies_partial",
    "Verif.Pack.C158_violated"
   ],
   "note": "Ids start with 0 at each call: a second call merges old and new clumps."
  },
  {
   "property": "C159",
   "status": "partial",
   "theorems": [
    "Verif.Pack.C159_one_partial",
    "Verif.Pack.C159_balls_partial",
    "Verif.Pack.C159_violated_none",
    "Verif.Pack.C159_violated_beyond"
   ],
   "note": "One sphere behind the last is read if clumps come near each other; true for one clump or clumps of one sphere at the origin."
  },
  {
   "property": "C16",
   "status": "proved",
   "theorems": [
    "Verif.Step.C16_substepping_same",
    "Verif.Step.C16_same_result"
   ],
   "note": "All toggling patterns, all behaviours of engines that neither raise nor assign O.engines (those are C17, C18)."
  },
  {
   "property": "C160",
   "status": "partial",
   "theorems": [
    "Verif.Pack.C160_centred_partial",
    "Verif.Pack.C160_violated"
   ],
   "note": "Clumps are moved away from the origin instead of to it; true for those centred there."
  },
  {
   "property": "C161",
   "status": "partial",
   "theorems": [
    "Verif.Decomp.C161_tiles_partial",
    "Verif.Decomp.C161_violated"
   ],
   "note": "False if parts are given for some axes only: there are no subdomains then."
  },
  {
   "property": "C162",
   "status": "partial",
   "theorems": [
    "Verif.Decomp.C162_count_partial",
    "Verif.Decomp.C162_cube_partial",
    "Verif.Decomp.C162_violated_elongated",
    "Verif.Decomp.C162_violated_flat"
   ],
   "note": "True whenever it returns, and it returns for cubes; it never returns for long boxes, and throws for flat ones."
  },
  {
   "property": "C163",
   "status": "partial",
   "theorems": [
    "Verif.Decomp.C163_find_partial",
    "Verif.Decomp.C163_violated_halves",
    "Verif.Decomp.C163_violated_large"
   ],
   "note": "True if no cell was halved and eight times the diagonal is less than ten million."
  },
  {
   "property": "C164",
   "status": "partial",
   "theorems": [
    "Verif.Decomp.C164_nearest_partial",
    "Verif.Decomp.C164_violated"
   ],
   "note": "True if some point of the cloud is nearer than ten million."
  },
  {
   "property": "C165",
   "status": "partial",
   "theorems": [
    "Verif.Decomp.C165_choice_partial",
    "Verif.Decomp.C165_cloud_partial",
    "Verif.Decomp.C165_violated",
    "Verif.Decomp.C165_violated_none"
   ],
   "note": "The sample is emptied before each draw, so only the last point drawn is considered."
  },
  {
   "property": "C166",
   "status": "proved",
   "theorems": [
    "Verif.Dt.C166_match"
   ],
   "note": "Any string that is no algorithm is an exception."
  },
  {
   "property": "C167",
   "status": "partial",
   "theorems": [
    "Verif.Dt.C167_symmetric",
    "Verif.Dt.C167_stiffness_partial",
    "Verif.Dt.C167_violated"
   ],
   "note": "Not a number if both Poisson ratios are zero."
  },
  {
   "property": "C168",
   "status": "proved",
   "theorems": [
    "Verif.Dt.C168_step",
    "Verif.Dt.C168_positive"
   ],
   "note": "For bodies with contacts; C169 covers the rest."
  },
  {
   "property": "C169",
   "status": "partial",
   "theorems": [
    "Verif.Dt.C169_limit_partial",
    "Verif.Dt.C169_violated",
    "Verif.Dt.C169_violated_negative"
   ],
   "note": "True if a moving body is under load; defaultDt is not limited; a negative maxDt makes the step negative."
  },
  {
   "property": "C17",
   "status": "partial",
   "theorems": [
    "Verif.Step.C17_replace_partial",
    "Verif.Step.C17_violated_empty",
    "Verif.Step.C17_violated_lost",
    "Verif.Step.C17_violated_restart"
   ],
   "note": "False in three uses: assigning an empty list inside a step, assigning between steps while an in-step assignment is pending, switching sub-stepping off right after the prologue while an assignment is pending. Proved for all histories avoiding these."
  },
  {
   "property": "C170",
   "status": "partial",
   "theorems": [
    "Verif.Dt.C170_stable_partial",
    "Verif.Dt.C170_stable_aligned_partial",
    "Verif.Dt.C170_stable_frictionless_partial",
    "Verif.Dt.C170_violated"
   ],
   "note": "Proved for safety factors up to 0.4 (0.7 if contacts are along axes, 1 if they are also frictionless); with the default of 0.8 two spheres in contact along a diagonal are unstable."
  },
  {
   "property": "C171",
   "status": "proved",
   "theorems": [
    "Verif.Dt.C171_pwave"
   ],
   "note": "Radii, moduli and masses positive."
  },
  {
   "property": "C172",
   "status": "partial",
   "theorems": [
    "Verif.Dt.C172_safe_partial",
    "Verif.Dt.C172_violated_switch",
    "Verif.Dt.C172_violated_free",
    "Verif.Dt.C172_violated_scaling",
    "Verif.Dt.C172_violated_interval"
   ],
   "note": "True without viscous option and density scaling; four ways to undefined behaviour else."
  },
  {
   "property": "C173",
   "status": "partial",
   "theorems": [
    "Verif.Dt.C173_scaling_partial",
    "Verif.Dt.C173_violated"
   ],
   "note": "True of bodies under load; bodies made since the last update have a scaling of -1 and are accelerated opposite to the force."
  },
  {
   "property": "C174",
   "status": "partial",
   "theorems": [
    "Verif.Fac.C174_probe_partial",
    "Verif.Fac.C174_violated"
   ],
   "note": "True while no body has left its margin; a body that moved further since the last sort is not found."
  },
  {
   "property": "C175",
   "status": "partial",
   "theorems": [
    "Verif.Fac.C175_clear_partial",
    "Verif.Fac.C175_violated_two",
    "Verif.Fac.C175_violated_unchecked"
   ],
   "note": "True of one factory; two factories in a step do not see the spheres of each other; a negative maxAttempt makes spheres at zero unchecked."
  },
  {
   "property": "C176",
   "status": "proved",
   "theorems": [
    "Verif.Fac.C176_flow",
    "Verif.Fac.C176_rate"
   ],
   "note": "One step and any number of steps."
  },
  {
   "property": "C177",
   "status": "proved",
   "theorems": [
    "Verif.Fac.C177_made",
    "Verif.Fac.C177_radius"
   ],
   "note": ""
  },
  {
   "property": "C178",
   "status": "partial",
   "theorems": [
    "Verif.Fac.C178_psd_partial",
    "Verif.Fac.C178_violated_memory",
    "Verif.Fac.C178_violated_percent"
   ],
   "note": "True of distributions that end in one, whatever is read behind the end of PSDcum; the read is undefined behaviour, and in percent only the first size is ever made."
  },
  {
   "property": "C179",
   "status": "partial",
   "theorems": [
    "Verif.Fac.C179_circle",
    "Verif.Fac.C179_box_partial",
    "Verif.Fac.C179_violated"
   ],
   "note": "True of circles; in boxes only of centres."
  },
  {
   "property": "C18",
   "status": "partial",
   "theorems": [
    "Verif.Step.C18_substepping_partial",
    "Verif.Step.C18_violated"
   ],
   "note": "False without sub-stepping: every completed engine runs again (proved for every list and failing position). Proved in sub-stepping mode."
  },
  {
   "property": "C180",
   "status": "proved",
   "theorems": [
    "Verif.Fac.C180_limiter"
   ],
   "note": ""
  },
  {
   "property": "C181",
   "status": "partial",
   "theorems": [
    "Verif.Fac.C181_ends_partial",
    "Verif.Fac.C181_violated"
   ],
   "note": "True if maxParticles is not negative or spheres have mass; without mass and with a negative maxAttempt the step never ends."
  },
  {
   "property": "C182",
   "status": "partial",
   "theorems": [
    "Verif.Meas.C182_given_partial",
    "Verif.Meas.C182_nothing_partial",
    "Verif.Meas.C182_auto_partial",
    "Verif.Meas.C182_violated_degenerate",
    "Verif.Meas.C182_violated_contact",
    "Verif.Meas.C182_violated_diagonal"
   ],
   "note": "True if the flip has determinant one and nothing on the diagonal; the automatic flip of a cell with an obtuse angle throws or puts contacts on the other side."
  },
  {
   "property": "C183",
   "status": "proved",
   "theorems": [
    "Verif.Meas.C183_external",
    "Verif.Meas.C183_symmetric",
    "Verif.Meas.C183_turned",
    "Verif.Meas.C183_images",
    "Verif.Meas.C183_volume"
   ],
   "note": ""
  },
  {
   "property": "C184",
   "status": "proved",
   "theorems": [
    "Verif.Meas.C184_average",
    "Verif.Meas.C184_symmetric"
   ],
   "note": ""
  },
  {
   "property": "C185",
   "status": "partial",
   "theorems": [
    "Verif.Meas.C185_sum_partial",
    "Verif.Meas.C185_split_partial",
    "Verif.Meas.C185_strong_partial",
    "Verif.Meas.C185_violated_sign",
    "Verif.Meas.C185_violated_shear",
    "Verif.Meas.C185_violated_split"
   ],
   "note": "True in equilibrium up to the sign, which is the opposite of the documented one; out of equilibrium the shear part is wrong; without compressionPositive every compressed contact is strong."
  },
  {
   "property": "C186",
   "status": "partial",
   "theorems": [
    "Verif.Meas.C186_tensor_partial",
    "Verif.Meas.C186_split_partial",
    "Verif.Meas.C186_violated_equal",
    "Verif.Meas.C186_violated_empty"
   ],
   "note": "True if no part is empty; otherwise the result is not a number."
  },
  {
   "property": "C187",
   "status": "proved",
   "theorems": [
    "Verif.Meas.C187_energy",
    "Verif.Meas.C187_mean_field",
    "Verif.Meas.C187_spin",
    "Verif.Meas.C187_calm"
   ],
   "note": "Bodies with different principal moments have to be marked as aspherical."
  },
  {
   "property": "C188",
   "status": "partial",
   "theorems": [
    "Verif.Meas.C188_momentum_partial",
    "Verif.Meas.C188_angular_partial",
    "Verif.Meas.C188_violated_erased",
    "Verif.Meas.C188_violated_clump",
    "Verif.Meas.C188_violated_spin"
   ],
   "note": "True without erased bodies and clumps; erased bodies are dereferenced, clumps counted twice, the spin of spheres is left out."
  },
  {
   "property": "C189",
   "status": "partial",
   "theorems": [
    "Verif.Meas.C189_grown_partial",
    "Verif.Meas.C189_contacts_partial",
    "Verif.Meas.C189_density",
    "Verif.Meas.C189_rigid_partial",
    "Verif.Meas.C189_violated_erased",
    "Verif.Meas.C189_violated_rigid",
    "Verif.Meas.C189_violated_stiffness"
   ],
   "note": "True if no body was erased; clumps fall apart if marks of clump and members differ; contacts of bodies that do not grow become stiffer."
  },
  {
   "property": "C19",
   "status": "partial",
   "theorems": [
    "Verif.Step.C19_run_n",
    "Verif.Step.C19_stopAtTime_partial",
    "Verif.Step.C19_violated_stopAtTime"
   ],
   "note": "O.run(n) proved in full. O.stopAtTime compares with ==, so the run does not stop when the time steps over it; proved only for stop times a whole number of steps away."
  },
  {
   "property": "C190",
   "status": "partial",
   "theorems": [
    "Verif.Meas.C190_ratio_partial",
    "Verif.Meas.C190_violated_nan",
    "Verif.Meas.C190_violated_clump"
   ],
   "note": "True without clumps under gravity and with contact forces; a clump held against gravity is reported out of equilibrium, before and after the integrator."
  },
  {
   "property": "C191",
   "status": "proved",
   "theorems": [
    "Verif.Meas.C191_box"
   ],
   "note": ""
  },
  {
   "property": "C192",
   "status": "partial",
   "theorems": [
    "Verif.Meas.C192_total_partial",
    "Verif.Meas.C192_violated_sign",
    "Verif.Meas.C192_violated_memory"
   ],
   "note": "They agree for spheres up to the sign, which the total has the wrong way; other shapes and erased bodies are undefined behaviour."
  },
  {
   "property": "C193",
   "status": "partial",
   "theorems": [
    "Verif.Meas.C193_friction_partial",
    "Verif.Meas.C193_violated_shared",
    "Verif.Meas.C193_violated_erased"
   ],
   "note": "True per material if no body was erased; fixed bodies that share a material with moving ones are changed."
  },
  {
   "property": "C194",
   "status": "partial",
   "theorems": [
    "Verif.Run.C194_alike_partial",
    "Verif.Run.C194_no_pause_partial",
    "Verif.Run.C194_violated"
   ],
   "note": "Background steps exclude each other, steps of O.step() too, and all of them if O.pause is never used; after O.run(); O.pause() a call of O.step() runs beside the last background step."
  },
  {
   "property": "C195",
   "status": "partial",
   "theorems": [
    "Verif.Run.C195_run_and_wait_partial",
    "Verif.Run.C195_never_more_partial",
    "Verif.Run.C195_violated_late",
    "Verif.Run.C195_violated_paused"
   ],
   "note": "Proved for scripts that wait for each run (O.run(n, True)); a request given while an earlier run is ending is forgotten."
  },
  {
   "property": "C196",
   "status": "partial",
   "theorems": [
    "Verif.Run.C196_reported_partial",
    "Verif.Run.C196_on_record_partial",
    "Verif.Run.C196_violated"
   ],
   "note": "True if O.wait() finds the run still going on; a run that has failed before is taken for a success."
  },
  {
   "property": "C197",
   "status": "partial",
   "theorems": [
    "Verif.Run.C197_no_deadlock_partial",
    "Verif.Run.C197_no_crash_partial",
    "Verif.Run.C197_for_ever",
    "Verif.Run.C197_violated_reset",
    "Verif.Run.C197_violated_inside",
    "Verif.Run.C197_violated_single"
   ],
   "note": "Proved for O.run, O.pause, O.wait and O.step from scripts and engines; O.reset() during a run with Python engines, O.load from an engine, and Omega::step() during a run can lock up."
  },
  {
   "property": "C198",
   "status": "partial",
   "theorems": [
    "Verif.Run.C198_freed_last_partial",
    "Verif.Run.C198_violated"
   ],
   "note": "Proved if every started thread has locked its mutex when O.load or O.reset is given; otherwise the new thread uses the freed runner."
  },
  {
   "property": "C199",
   "status": "partial",
   "theorems": [
    "Verif.Run.C199_between_steps_partial",
    "Verif.Run.C199_violated"
   ],
   "note": "True as long as O.pause is not used; after O.pause() O.wait() returns during the last step."
  },
  {
   "property": "C20",
   "status": "proved",
   "theorems": [
    "Verif.Dispatch.C20_nearest"
   ],
   "note": "All hierarchies, registrations and lookup sequences. The functor remembered in the object itself is C22."
  },
  {
   "property": "C200",
   "status": "partial",
   "theorems": [
    "Verif.Dist.C200_world_partial",
    "Verif.Dist.C200_as_serial_partial",
    "Verif.Dist.C200_violated_stepper",
    "Verif.Dist.C200_violated_perm",
    "Verif.Dist.C200_violated_state"
   ],
   "note": "Proved for all laws, integrators, decompositions and numbers of iterations, given the lists of a good split (C112-C115), when the time step is constant, the law depends on position, velocity, angular velocity and orientation only, permanent forces act on bodies of the master only and the master has no contacts with bodies of workers at the split. False with a time stepper (each process has its own time step), with permanent forces on bodies of workers (not sent with the scene), and with laws reading other parts of the state of remote bodies (never sent)."
  },
  {
   "property": "C201",
   "status": "partial",
   "theorems": [
    "Verif.Dist.C201_forces_partial",
    "Verif.Dist.C201_violated"
   ],
   "note": "Same conditions as C200. False when bodies of the master are in contact with bodies of workers before the split, as after some ordinary iterations: the master keeps these contacts, with the positions the bodies of workers had, and their forces count twice."
  },
  {
   "property": "C202",
   "status": "partial",
   "theorems": [
    "Verif.Dist.C202_merged_partial",
    "Verif.Dist.C202_once_partial",
    "Verif.Dist.C202_violated_history"
   ],
   "note": "Proved for every sequence of phases when forces do not depend on the history of contacts and motions not on unsent parts of the state, and for a single merge for all laws of C200. False for laws with history, which all laws with friction are: contacts of workers are not part of a merge, and after the next split their springs start from zero."
  },
  {
   "property": "C203",
   "status": "proved",
   "theorems": [
    "Verif.Dist.C203_serial",
    "Verif.Dist.C203_lists"
   ],
   "note": "Clumps and periodic cells are not modelled."
  },
  {
   "property": "C204",
   "status": "proved",
   "theorems": [
    "Verif.Coh.C204_strength"
   ],
   "note": "For spheres."
  },
  {
   "property": "C205",
   "status": "partial",
   "theorems": [
    "Verif.Coh.C205_elastic_partial",
    "Verif.Coh.C205_violated_normal",
    "Verif.Coh.C205_violated_shear"
   ],
   "note": "Proved for strengths that are not exceeded. False for negative strengths, the default, documented as purely elastic: pressed contacts vanish, and bonds break under the smallest shear."
  },
  {
   "property": "C206",
   "status": "proved",
   "theorems": [
    "Verif.Coh.C206_history",
    "Verif.Coh.C206_broken"
   ],
   "note": "For spheres with positive stiffnesses, non-zero Poisson ratio, no matchmaker for the friction angle, no creep, and no moments at unbonded contacts."
  },
  {
   "property": "C207",
   "status": "partial",
   "theorems": [
    "Verif.Coh.C207_formula_partial",
    "Verif.Coh.C207_violated"
   ],
   "note": "False for contacts that slide under tension: their normal force is set to zero though they are not broken."
  },
  {
   "property": "C208",
   "status": "partial",
   "theorems": [
    "Verif.Coh.C208_lost_partial",
    "Verif.Coh.C208_violated"
   ],
   "note": "Exact condition proved; neverErase is declared by the law and ignored."
  },
  {
   "property": "C209",
   "status": "partial",
   "theorems": [
    "Verif.Coh.C209_dissipation_partial",
    "Verif.Coh.C209_violated"
   ],
   "note": "False when a bond that disables friction breaks: the shear force is raised to the frictional limit."
  },
  {
   "property": "C21",
   "status": "partial",
   "theorems": [
    "Verif.Dispatch.C21_first_lookup_partial",
    "Verif.Dispatch.C21_again_partial",
    "Verif.Dispatch.C21_order_partial",
    "Verif.Dispatch.C21_violated_history",
    "Verif.Dispatch.C21_violated_silent",
    "Verif.Dispatch.C21_violated_repeat",
    "Verif.Dispatch.C21_violated_roles",
    "Verif.Dispatch.C21_violated_report"
   ],
   "note": "Nearest/ambiguous/none proved on a freshly filled matrix; a functor found stays found. False after other lookups (cached copies are taken for registrations), on repetition of an ambiguous lookup, for argument roles with related classes, and (undefined behaviour) when reporting ambiguity in a matrix with more rows than columns."
  },
  {
   "property": "C210",
   "status": "partial",
   "theorems": [
    "Verif.Coh.C210_energy_partial",
    "Verif.Coh.C210_violated"
   ],
   "note": "Proved for stiffnesses other than zero. False for materials with alphaKr=0: zero divided by zero."
  },
  {
   "property": "C211",
   "status": "partial",
   "theorems": [
    "Verif.Coh.C211_now_partial",
    "Verif.Coh.C211_violated_late",
    "Verif.Coh.C211_violated_again",
    "Verif.Coh.C211_bond",
    "Verif.Coh.C211_once"
   ],
   "note": "Proved for a request with none pending in an iteration that has contacts. Without contacts the request waits for the first ones; a second request in the step after the first is swallowed. One thread. Bonding itself (state and reference orientations, own requests of contacts served once) is proved without conditions."
  },
  {
   "property": "C212",
   "status": "proved",
   "theorems": [
    "Verif.Coh.C212_balanced"
   ],
   "note": "For spheres."
  },
  {
   "property": "C213",
   "status": "partial",
   "theorems": [
    "Verif.Coh.C213_angle_partial",
    "Verif.Coh.C213_objective",
    "Verif.Coh.C213_rigid",
    "Verif.Coh.C213_limit",
    "Verif.Coh.C213_broken",
    "Verif.Coh.C213_resists",
    "Verif.Coh.C213_violated",
    "Verif.Coh.C213_elastic_partial",
    "Verif.Coh.C213_sign"
   ],
   "note": "Proved for relative rotations below half a turn; a full turn gives no twist. The form without creep of the twist. Which of its two quaternions writes an orientation does not matter, except at exactly half a turn."
  },
  {
   "property": "C214",
   "status": "proved",
   "theorems": [
    "Verif.Coh.C214_symmetric",
    "Verif.Coh.C214_documented",
    "Verif.Coh.C214_as_frict"
   ],
   "note": "For spheres; strengths from the materials."
  },
  {
   "property": "C215",
   "status": "partial",
   "theorems": [
    "Verif.Coh.C215_creep_partial",
    "Verif.Coh.C215_violated"
   ],
   "note": "Proved up to a time step of twice the viscosity over the stiffness; beyond it the force grows."
  },
  {
   "property": "C216",
   "status": "proved",
   "theorems": [
    "Verif.Ctl.C216_limits",
    "Verif.Ctl.C216_run"
   ],
   "note": ""
  },
  {
   "property": "C217",
   "status": "proved",
   "theorems": [
    "Verif.Ctl.C217_proportions"
   ],
   "note": ""
  },
  {
   "property": "C218",
   "status": "partial",
   "theorems": [
    "Verif.Ctl.C218_next_partial",
    "Verif.Ctl.C218_violated"
   ],
   "note": "Proved in steps that are multiples of globalUpdateInt. In other steps the initial value -1 of the unbalanced force, or an old one, counts as stable."
  },
  {
   "property": "C219",
   "status": "partial",
   "theorems": [
    "Verif.Ctl.C219_done_partial",
    "Verif.Ctl.C219_violated"
   ],
   "note": "The engine does nothing more, but the velocity gradient of the last step stays, and the cell goes on growing or shrinking."
  },
  {
   "property": "C22",
   "status": "partial",
   "theorems": [
    "Verif.Dispatch.C22_set_partial",
    "Verif.Dispatch.C22_set_fresh_partial",
    "Verif.Dispatch.C22_violated_add",
    "Verif.Dispatch.C22_violated_objects",
    "Verif.Dispatch.C22_violated_dropped"
   ],
   "note": "Assigning the functor list is independent of history. False for add() after a lookup, for objects that cache their functor, and for two functors of one class."
  },
  {
   "property": "C220",
   "status": "partial",
   "theorems": [
    "Verif.Ctl.C220_usable_partial",
    "Verif.Ctl.C220_violated"
   ],
   "note": "Proved for periodic scenes with charLen given. Otherwise `throw;` without an exception ends the process, or a missing body is used; globalUpdateInt=0 divides by zero."
  },
  {
   "property": "C221",
   "status": "proved",
   "theorems": [
    "Verif.Ctl.C221_rate"
   ],
   "note": ""
  },
  {
   "property": "C222",
   "status": "partial",
   "theorems": [
    "Verif.Ctl.C222_size_partial",
    "Verif.Ctl.C222_violated"
   ],
   "note": "Proved for edges up to one unit of length; longer ones can shrink below the limit, as a length is used as a strain."
  },
  {
   "property": "C223",
   "status": "partial",
   "theorems": [
    "Verif.Ctl.C223_strain_partial",
    "Verif.Ctl.C223_damped_partial",
    "Verif.Ctl.C223_violated"
   ],
   "note": "Proved for steps that follow no growth; 0.8 of the previous rate is added also with growDamping=0, so a goal reached is left again."
  },
  {
   "property": "C224",
   "status": "partial",
   "theorems": [
    "Verif.Ctl.C224_hook_partial",
    "Verif.Ctl.C224_violated",
    "Verif.Ctl.C224_violated_stale"
   ],
   "note": "Proved for stress goals in steps that are multiples of globUpdate. Elsewhere predicted values are compared; the predicted strain is not the logarithmic one."
  },
  {
   "property": "C225",
   "status": "partial",
   "theorems": [
    "Verif.Ctl.C225_speed_partial",
    "Verif.Ctl.C225_limits",
    "Verif.Ctl.C225_violated"
   ],
   "note": "Proved for stressDamping from 0.8 to 1 (in general with the factor 5(1-stressDamping)); with the default 0.25 walls move up to 3.75 times as fast."
  },
  {
   "property": "C226",
   "status": "partial",
   "theorems": [
    "Verif.Ctl.C226_converges_partial",
    "Verif.Ctl.C226_limit_partial",
    "Verif.Ctl.C226_sense_partial",
    "Verif.Ctl.C226_violated"
   ],
   "note": "Proved, with rate, for ratios of stiffness about 0.011 to 3.59; far stiffer samples make the error double in every step."
  },
  {
   "property": "C227",
   "status": "partial",
   "theorems": [
    "Verif.Ctl.C227_rate_partial",
    "Verif.Ctl.C227_violated",
    "Verif.Ctl.C227_violated_moving"
   ],
   "note": "Proved for both walls active at an unchanged size; half the goal with one wall; with moving walls the rate stays below the goal."
  },
  {
   "property": "C228",
   "status": "proved",
   "theorems": [
    "Verif.Ctl.C228_stress",
    "Verif.Ctl.C228_volumetric",
    "Verif.Ctl.C228_first",
    "Verif.Ctl.C228_spheres"
   ],
   "note": ""
  },
  {
   "property": "C229",
   "status": "partial",
   "theorems": [
    "Verif.Ctl.C229_stress_partial",
    "Verif.Ctl.C229_violated",
    "Verif.Ctl.C229_violated_ids"
   ],
   "note": "Proved for 0 to 5; others read beyond the array, and wall numbers changed after the first step are not used for forces."
  },
  {
   "property": "C23",
   "status": "partial",
   "theorems": [
    "Verif.Collide.C23_filter_partial",
    "Verif.Collide.C23_violated_null"
   ],
   "note": "Exact decision table (mask bits by testBit) and symmetry for existing bodies. A deleted body is read through the null pointer before the test: undefined behaviour."
  },
  {
   "property": "C230",
   "status": "partial",
   "theorems": [
    "Verif.Ctl.C230_growth_partial",
    "Verif.Ctl.C230_violated"
   ],
   "note": "Proved for compressive goals and mean stress; otherwise the growth is unbounded, or not a number."
  },
  {
   "property": "C231",
   "status": "partial",
   "theorems": [
    "Verif.Uniax.C231_ramp_partial",
    "Verif.Uniax.C231_violated",
    "Verif.Uniax.C231_violated_late",
    "Verif.Uniax.C231_steps_partial"
   ],
   "note": "Proved if currentStrainRate is set to 0 and the engine starts at time 0. In a new engine currentStrainRate is not a number, compares false, and the full rate acts at once; the ramp is in the time of the simulation, so an engine started late begins with a multiple of the rate."
  },
  {
   "property": "C232",
   "status": "partial",
   "theorems": [
    "Verif.Uniax.C232_stop_partial",
    "Verif.Uniax.C232_violated_compression",
    "Verif.Uniax.C232_violated_idle"
   ],
   "note": "Proved for positive stopStrain. For a negative one the absolute strain is compared with the negative number, so that the first step compresses to stopStrain at once; the ends keep their velocities in the idle iterations."
  },
  {
   "property": "C233",
   "status": "partial",
   "theorems": [
    "Verif.Uniax.C233_reported_partial",
    "Verif.Uniax.C233_violated",
    "Verif.Uniax.C233_violated_on"
   ],
   "note": "Only the reported rate changes its sign; every run has the same motion as without limitStrain."
  },
  {
   "property": "C234",
   "status": "partial",
   "theorems": [
    "Verif.Uniax.C234_total_partial",
    "Verif.Uniax.C234_violated_asym",
    "Verif.Uniax.C234_violated_moving"
   ],
   "note": "Proved for documented asymmetries and resting unmoved ends. Other asymmetries strain at twice the rate; an unmoved end keeps its initial velocity."
  },
  {
   "property": "C235",
   "status": "proved",
   "theorems": [
    "Verif.Uniax.C235_homogeneous"
   ],
   "note": ""
  },
  {
   "property": "C236",
   "status": "partial",
   "theorems": [
    "Verif.Uniax.C236_safe_partial",
    "Verif.Uniax.C236_blocked",
    "Verif.Uniax.C236_violated_empty",
    "Verif.Uniax.C236_violated_again"
   ],
   "note": "Proved for ids of existing bodies. Without ids memory beyond a list is read; after an exception the next call strains the specimen."
  },
  {
   "property": "C237",
   "status": "proved",
   "theorems": [
    "Verif.Uniax.C237_stress"
   ],
   "note": ""
  },
  {
   "property": "C238",
   "status": "proved",
   "theorems": [
    "Verif.Avg.C238_bounds",
    "Verif.Avg.C238_constant",
    "Verif.Avg.C238_far"
   ],
   "note": ""
  },
  {
   "property": "C239",
   "status": "partial",
   "theorems": [
    "Verif.Avg.C239_row_partial",
    "Verif.Avg.C239_margin_partial",
    "Verif.Avg.C239_violated",
    "Verif.Avg.C239_violated_outside"
   ],
   "note": "Proved for points in the same row of cells and for points nearer by the height of a cell. The filter of cells adds the half height of a cell to the wrong coordinate, so that points in reach in other rows are left out; points kept in border cells although outside of the grid are not found from where they are."
  },
  {
   "property": "C24",
   "status": "proved",
   "theorems": [
    "Verif.Collide.C24_sorted_permutation",
    "Verif.Collide.C24_run_completes"
   ],
   "note": "All histories of runs (initial, incremental, parallel with threads squared at most the number of bodies, sortThenCollide). Shrinking containers are C67."
  },
  {
   "property": "C240",
   "status": "partial",
   "theorems": [
    "Verif.Avg.C240_threshold_partial",
    "Verif.Avg.C240_violated_stdev",
    "Verif.Avg.C240_violated_area"
   ],
   "note": "Proved for avg and relThreshold. stDev leaves the bell curve as it was; the area of avgPerUnitArea is the one of the threshold 3."
  },
  {
   "property": "C241",
   "status": "partial",
   "theorems": [
    "Verif.Avg.C241_data",
    "Verif.Avg.C241_cells_partial",
    "Verif.Avg.C241_violated_cells"
   ],
   "note": "Proved for cells of the grid. Other cells are read outside of the vectors."
  },
  {
   "property": "C242",
   "status": "proved",
   "theorems": [
    "Verif.Avg.C242_start",
    "Verif.Avg.C242_reverse",
    "Verif.Avg.C242_split",
    "Verif.Avg.C242_triangle",
    "Verif.Avg.C242_fan",
    "Verif.Avg.C242_rectangle",
    "Verif.Avg.C242_clipped"
   ],
   "note": ""
  },
  {
   "property": "C243",
   "status": "partial",
   "theorems": [
    "Verif.Avg.C243_avg_partial",
    "Verif.Avg.C243_violated_perArea"
   ],
   "note": "Proved for avg. avgPerUnitArea scales with the third power, the weights being densities of a one-dimensional distribution."
  },
  {
   "property": "C244",
   "status": "proved",
   "theorems": [
    "Verif.Interp.C244_integral",
    "Verif.Interp.C244_refused",
    "Verif.Interp.C244_nonneg"
   ],
   "note": ""
  },
  {
   "property": "C245",
   "status": "partial",
   "theorems": [
    "Verif.Interp.C245_found_partial",
    "Verif.Interp.C245_right_partial",
    "Verif.Interp.C245_refused",
    "Verif.Interp.C245_violated_start",
    "Verif.Interp.C245_violated_end",
    "Verif.Interp.C245_violated_range",
    "Verif.Interp.C245_violated_integers"
   ],
   "note": "Proved for positive values and integrals below the total. An assertion fails at a zero, the total is refused, values before the range are given for negative integrals, slopes of integer coordinates are rounded in Python 2."
  },
  {
   "property": "C246",
   "status": "partial",
   "theorems": [
    "Verif.Interp.C246_periodic_partial",
    "Verif.Interp.C246_violated"
   ],
   "note": "Proved for positive functions on points from zero on. Whole periods are refused for functions that begin with zero."
  },
  {
   "property": "C247",
   "status": "proved",
   "theorems": [
    "Verif.Interp.C247_padding",
    "Verif.Interp.C247_empty"
   ],
   "note": ""
  },
  {
   "property": "C248",
   "status": "proved",
   "theorems": [
    "Verif.Plot.C248_columns",
    "Verif.Plot.C248_row",
    "Verif.Plot.C248_added"
   ],
   "note": "addData without images, or with at least one row before; images without rows are in C249 and C250."
  },
  {
   "property": "C249",
   "status": "partial",
   "theorems": [
    "Verif.Plot.C249_row_partial",
    "Verif.Plot.C249_steps_partial",
    "Verif.Plot.C249_violated_before",
    "Verif.Plot.C249_violated_assert"
   ],
   "note": "Proved for steps which add a row and then images. Images given before the row are one row off, and an assertion depends on the order of a dictionary."
  },
  {
   "property": "C25",
   "status": "proved",
   "theorems": [
    "Verif.Collide.C25_no_overlap_missed"
   ],
   "note": "By induction over all histories of runs, sequential and parallel sort. Hypothesis Settled: no pair becomes collidable without an initial sort (see C68). Overlap by more than a face (see C69)."
  },
  {
   "property": "C250",
   "status": "partial",
   "theorems": [
    "Verif.Plot.C250_reset_partial",
    "Verif.Plot.C250_violated",
    "Verif.Plot.C250_violated_stale"
   ],
   "note": "Labels and images stay; images left add rows without numbers to the next data."
  },
  {
   "property": "C251",
   "status": "partial",
   "theorems": [
    "Verif.Plot.C251_rows_partial",
    "Verif.Plot.C251_twice",
    "Verif.Plot.C251_violated"
   ],
   "note": "Images are not reversed."
  },
  {
   "property": "C252",
   "status": "partial",
   "theorems": [
    "Verif.Plot.C252_components_partial",
    "Verif.Plot.C252_refused",
    "Verif.Plot.C252_violated"
   ],
   "note": "Proved when names of components are not given otherwise; a number given under such a name is lost."
  },
  {
   "property": "C253",
   "status": "partial",
   "theorems": [
    "Verif.Plot.C253_rows_partial",
    "Verif.Plot.C253_all",
    "Verif.Plot.C253_missing",
    "Verif.Plot.C253_violated"
   ],
   "note": "Sets of names, and tables without columns, raise exceptions after the file was opened."
  },
  {
   "property": "C254",
   "status": "partial",
   "theorems": [
    "Verif.P3d.C254_path_partial",
    "Verif.P3d.C254_goal_partial",
    "Verif.P3d.C254_steps_partial",
    "Verif.P3d.C254_violated_default",
    "Verif.P3d.C254_violated_between"
   ],
   "note": "Proved for points at whole numbers of steps while no rate is limited. Default paths with a prescribed strain read beyond their end; points between steps make strains overshoot."
  },
  {
   "property": "C255",
   "status": "partial",
   "theorems": [
    "Verif.P3d.C255_limit_partial",
    "Verif.P3d.C255_violated_record"
   ],
   "note": "The limit is proved in general; when it acts, strain records more than was applied."
  },
  {
   "property": "C256",
   "status": "partial",
   "theorems": [
    "Verif.P3d.C256_cell",
    "Verif.P3d.C256_symmetric",
    "Verif.P3d.C256_strain_partial"
   ],
   "note": "For cells which remain symmetric and positive definite; the polar decomposition is given by its properties."
  },
  {
   "property": "C257",
   "status": "partial",
   "theorems": [
    "Verif.P3d.C257_end_partial",
    "Verif.P3d.C257_violated_hook"
   ],
   "note": "With a hook which lets the engine go on, the second step after the end reads beyond the end of paths."
  },
  {
   "property": "C258",
   "status": "partial",
   "theorems": [
    "Verif.P3d.C258_predict_partial",
    "Verif.P3d.C258_zero_steps",
    "Verif.P3d.C258_violated_zero",
    "Verif.P3d.C258_violated_estimate"
   ],
   "note": "The sign of the correction is proved, not the convergence of stresses. With goals of zero the cell is never deformed, whatever its stress; the first estimate counts stresses twice."
  },
  {
   "property": "C259",
   "status": "proved",
   "theorems": [
    "Verif.Visc.C259_normal",
    "Verif.Visc.C259_balanced",
    "Verif.Visc.C259_luding",
    "Verif.Visc.C259_luding_damping"
   ],
   "note": ""
  },
  {
   "property": "C26",
   "status": "proved",
   "theorems": [
    "Verif.Collide.C26_initial_sweep"
   ],
   "note": "From any prior state, any interactions, any axis."
  },
  {
   "property": "C260",
   "status": "partial",
   "theorems": [
    "Verif.Visc.C260_stored_partial",
    "Verif.Visc.C260_luding_partial",
    "Verif.Visc.C260_violated",
    "Verif.Visc.C260_memory",
    "Verif.Visc.C260_memory_luding"
   ],
   "note": "Proved for the shear force which is kept, and for the whole one of sliding contacts. Contacts which do not slide get the viscous force in addition, without limit."
  },
  {
   "property": "C261",
   "status": "partial",
   "theorems": [
    "Verif.Visc.C261_swap",
    "Verif.Visc.C261_explicit_partial",
    "Verif.Visc.C261_violated"
   ],
   "note": "Symmetry is proved in general; parameters are combined in series, which is half of what is documented."
  },
  {
   "property": "C262",
   "status": "partial",
   "theorems": [
    "Verif.Visc.C262_restitution_partial",
    "Verif.Visc.C262_violated_limit",
    "Verif.Visc.C262_violated_wall"
   ],
   "note": "Proved for the spring and the dashpot; forces are cut off at zero before the end, so that bodies part earlier and faster, and bodies without mass change the contact time."
  },
  {
   "property": "C263",
   "status": "partial",
   "theorems": [
    "Verif.Visc.C263_opposes_partial",
    "Verif.Visc.C263_violated"
   ],
   "note": "The moment opposes rotation but is proportional to its rate, as a result of normalized() is not used."
  },
  {
   "property": "C264",
   "status": "partial",
   "theorems": [
    "Verif.Visc.C264_common_partial",
    "Verif.Visc.C264_violated"
   ],
   "note": "For contacts without rolling resistance; the velocity of the period has the wrong sign in cells which deform."
  },
  {
   "property": "C265",
   "status": "partial",
   "theorems": [
    "Verif.Visc.C265_kept_partial",
    "Verif.Visc.C265_luding_partial",
    "Verif.Visc.C265_violated"
   ],
   "note": "No loads, but the viscoelastic law gives up such contacts."
  },
  {
   "property": "C266",
   "status": "partial",
   "theorems": [
    "Verif.Visc.C266_history_partial",
    "Verif.Visc.C266_violated_wall"
   ],
   "note": "For two spheres. Between a sphere and another shape the limit is zero and the first force is not a number."
  },
  {
   "property": "C267",
   "status": "partial",
   "theorems": [
    "Verif.Visc.C267_force_partial",
    "Verif.Visc.C267_violated_jump",
    "Verif.Visc.C267_violated_below"
   ],
   "note": "Bounds are proved for all histories; beyond the limit the same overlap gives two forces, and adhesion can exceed its limit while overlap does not decrease."
  },
  {
   "property": "C268",
   "status": "partial",
   "theorems": [
    "Verif.Visc.C268_lag_partial",
    "Verif.Visc.C268_violated"
   ],
   "note": "The plastic overlap is that of the law up to an error proportional to the step; loading in one step leaves none."
  },
  {
   "property": "C269",
   "status": "partial",
   "theorems": [
    "Verif.Text.C269_roundtrip_partial",
    "Verif.Text.C269_violated_material",
    "Verif.Text.C269_violated_digits"
   ],
   "note": "Six digits are kept. Spheres without material are not written if the format has one."
  },
  {
   "property": "C27",
   "status": "partial",
   "theorems": [
    "Verif.Collide.C27_nothing_spurious",
    "Verif.Collide.C27_kept",
    "Verif.Collide.C27_nothing_obsolete_partial",
    "Verif.Collide.C27_violated_deleted"
   ],
   "note": "Nothing spurious, real interactions kept: proved. Nothing obsolete: for bodies with boxes; a deleted body keeps its potential interaction because stale boxes are compared."
  },
  {
   "property": "C270",
   "status": "partial",
   "theorems": [
    "Verif.Text.C270_attrs_partial",
    "Verif.Text.C270_violated_matrix",
    "Verif.Text.C270_violated_missing",
    "Verif.Text.C270_violated_comment"
   ],
   "note": "For numbers and vectors which all spheres have, and comments of one line. Matrices are an exception, a missing attribute joins two spheres, and comments of several lines hide the # of the header."
  },
  {
   "property": "C271",
   "status": "partial",
   "theorems": [
    "Verif.Text.C271_skips_partial",
    "Verif.Text.C271_blank",
    "Verif.Text.C271_violated"
   ],
   "note": "For files without #format, which overrides the format given. An empty line is an exception."
  },
  {
   "property": "C272",
   "status": "partial",
   "theorems": [
    "Verif.Text.C272_clumps_partial",
    "Verif.Text.C272_violated_million",
    "Verif.Text.C272_violated_count"
   ],
   "note": "For ids below a million; larger ones can not be read. Clumps of which nothing is written are counted."
  },
  {
   "property": "C273",
   "status": "partial",
   "theorems": [
    "Verif.Text.C273_liggghts_partial",
    "Verif.Text.C273_violated_box",
    "Verif.Text.C273_violated_ids"
   ],
   "note": "All but the upper end of the box on the third axis, and numbers from a million on, which are not distinct."
  },
  {
   "property": "C274",
   "status": "partial",
   "theorems": [
    "Verif.Wire.C274_history_partial",
    "Verif.Wire.C274_rupture",
    "Verif.Wire.C274_violated"
   ],
   "note": "All histories, but for the admissible displacement itself, at which there is neither force nor rupture."
  },
  {
   "property": "C275",
   "status": "partial",
   "theorems": [
    "Verif.Wire.C275_tension",
    "Verif.Wire.C275_pull",
    "Verif.Wire.C275_limit_partial",
    "Verif.Wire.C275_violated"
   ],
   "note": "limitFactor for curves which do not stiffen. Wires whose curve stiffens may pull when shorter than at first."
  },
  {
   "property": "C276",
   "status": "proved",
   "theorems": [
    "Verif.Wire.C276_follows",
    "Verif.Wire.C276_count",
    "Verif.Wire.C276_forever"
   ],
   "note": ""
  },
  {
   "property": "C277",
   "status": "partial",
   "theorems": [
    "Verif.Wire.C277_curve_partial",
    "Verif.Wire.C277_shifted_partial",
    "Verif.Wire.C277_twist_partial",
    "Verif.Wire.C277_area",
    "Verif.Wire.C277_checks",
    "Verif.Wire.C277_choice",
    "Verif.Wire.C277_violated_twist",
    "Verif.Wire.C277_violated_zero",
    "Verif.Wire.C277_violated_late",
    "Verif.Wire.C277_violated_diameter"
   ],
   "note": "Double twists of type 0 need reduced strains beyond the first; curves of double twists may start at the origin, isDoubleTwist set later is not checked, and the section does not follow the diameter."
  },
  {
   "property": "C278",
   "status": "partial",
   "theorems": [
    "Verif.Wire.C278_swap_partial",
    "Verif.Wire.C278_violated"
   ],
   "note": "For one material or different diameters."
  },
  {
   "property": "C279",
   "status": "partial",
   "theorems": [
    "Verif.Wire.C279_shift_partial",
    "Verif.Wire.C279_violated"
   ],
   "note": "Range of the shift. The generator is seeded once per process, later seeds are ignored."
  },
  {
   "property": "C28",
   "status": "partial",
   "theorems": [
    "Verif.Collide.C28_parallel_sort_partial",
    "Verif.Collide.C28_ranges_disjoint",
    "Verif.Collide.C28_violated_start",
    "Verif.Collide.C28_violated_last"
   ],
   "note": "No out-of-range access and same coordinates for lists of at least 2*threads^2 bounds. Out of range for 1000 bodies and 64 threads (every list), and for a short last chunk."
  },
  {
   "property": "C280",
   "status": "partial",
   "theorems": [
    "Verif.Tester.C280_points",
    "Verif.Tester.C280_follows_partial",
    "Verif.Tester.C280_reaches",
    "Verif.Tester.C280_end",
    "Verif.Tester.C280_interaction",
    "Verif.Tester.C280_violated"
   ],
   "note": "C280_follows_partial is the partial result: for not more steps than points; with more of them the path is read past its end."
  },
  {
   "property": "C281",
   "status": "partial",
   "theorems": [
    "Verif.Tester.C281_contact_partial",
    "Verif.Tester.C281_weight",
    "Verif.Tester.C281_violated_arc",
    "Verif.Tester.C281_violated_weight"
   ],
   "note": "For shear by rotation. Shear by displacement brings the bodies closer; idWeight is not ignored with rotations."
  },
  {
   "property": "C282",
   "status": "partial",
   "theorems": [
    "Verif.Tester.C282_rotation_partial",
    "Verif.Tester.C282_violated"
   ],
   "note": "For time steps of 1: the increment of rotation is not divided by the time step."
  },
  {
   "property": "C283",
   "status": "proved",
   "theorems": [
    "Verif.Tester.C283_axes"
   ],
   "note": ""
  },
  {
   "property": "C284",
   "status": "partial",
   "theorems": [
    "Verif.Tester.C284_hooks_partial",
    "Verif.Tester.C284_violated"
   ],
   "note": "Each hook is run once, but one step before its point is reached."
  },
  {
   "property": "C285",
   "status": "partial",
   "theorems": [
    "Verif.Bubble.C285_equation",
    "Verif.Bubble.C285_accuracy",
    "Verif.Bubble.C285_history_partial",
    "Verif.Bubble.C285_violated_branch",
    "Verif.Bubble.C285_violated_deep",
    "Verif.Bubble.C285_violated_zero"
   ],
   "note": "Every force returned satisfies the law with a small excess; it is the small solution when Dmax was never passed. After deep penetration the other solution is found, and for one penetration a new contact gives what is not a number."
  },
  {
   "property": "C286",
   "status": "partial",
   "theorems": [
    "Verif.Bubble.C286_junction",
    "Verif.Bubble.C286_monotone_partial",
    "Verif.Bubble.C286_deep",
    "Verif.Bubble.C286_violated"
   ],
   "note": "For pctMaxForce up to 0.54 (1.47 beyond Dmax); with more the force falls with the penetration."
  },
  {
   "property": "C287",
   "status": "partial",
   "theorems": [
    "Verif.Bubble.C287_fresh_partial",
    "Verif.Bubble.C287_violated_material",
    "Verif.Bubble.C287_violated_change",
    "Verif.Bubble.C287_violated_reload",
    "Verif.Bubble.C287_violated_Dmax"
   ],
   "note": "For fresh contacts only."
  },
  {
   "property": "C288",
   "status": "proved",
   "theorems": [
    "Verif.Bubble.C288_loads",
    "Verif.Bubble.C288_deleted",
    "Verif.Bubble.C288_positive"
   ],
   "note": ""
  },
  {
   "property": "C289",
   "status": "proved",
   "theorems": [
    "Verif.Mortar.C289_lasts",
    "Verif.Mortar.C289_elastic",
    "Verif.Mortar.C289_broken",
    "Verif.Mortar.C289_balanced"
   ],
   "note": ""
  },
  {
   "property": "C29",
   "status": "partial",
   "theorems": [
    "Verif.Collide.C29_order_partial",
    "Verif.Collide.C29_violated_irreflexive",
    "Verif.Collide.C29_violated_incomparable"
   ],
   "note": "Transitive, asymmetric for different bounds. Not irreflexive, incomparability not transitive for bodies of zero width."
  },
  {
   "property": "C290",
   "status": "proved",
   "theorems": [
    "Verif.Mortar.C290_convex",
    "Verif.Mortar.C290_unload",
    "Verif.Mortar.C290_limits",
    "Verif.Mortar.C290_reached"
   ],
   "note": ""
  },
  {
   "property": "C291",
   "status": "partial",
   "theorems": [
    "Verif.Mortar.C291_swap",
    "Verif.Mortar.C291_strength",
    "Verif.Mortar.C291_stiffness_partial",
    "Verif.Mortar.C291_violated"
   ],
   "note": "A body without radius gives no stiffness."
  },
  {
   "property": "C292",
   "status": "partial",
   "theorems": [
    "Verif.Mortar.C292_kept_partial",
    "Verif.Mortar.C292_violated",
    "Verif.Mortar.C292_violated_heals"
   ],
   "note": "Later contacts are as cohesive as earlier ones; only an error is logged."
  },
  {
   "property": "C293",
   "status": "partial",
   "theorems": [
    "Verif.Cpm.C293_grows",
    "Verif.Cpm.C293_largest",
    "Verif.Cpm.C293_deleted",
    "Verif.Cpm.C293_range_partial",
    "Verif.Cpm.C293_kept_partial",
    "Verif.Cpm.C293_violated",
    "Verif.Cpm.C293_violated_deleted",
    "Verif.Cpm.C293_violated_never"
   ],
   "note": "With linear softening damage exceeds one, and contacts are deleted whatever the threshold; contacts which are never damaged report more strength than they had."
  },
  {
   "property": "C294",
   "status": "partial",
   "theorems": [
    "Verif.Cpm.C294_tension",
    "Verif.Cpm.C294_strength",
    "Verif.Cpm.C294_compression",
    "Verif.Cpm.C294_hold_partial",
    "Verif.Cpm.C294_violated_hold"
   ],
   "note": "With plasticity in compression the stress of a contact held still fades in each step."
  },
  {
   "property": "C295",
   "status": "partial",
   "theorems": [
    "Verif.Cpm.C295_yield",
    "Verif.Cpm.C295_elastic_partial",
    "Verif.Cpm.C295_violated",
    "Verif.Cpm.C295_violated_springs"
   ],
   "note": "The plastic shear strain grows by part of the slip."
  },
  {
   "property": "C296",
   "status": "partial",
   "theorems": [
    "Verif.Cpm.C296_damage_linear",
    "Verif.Cpm.C296_damage_exp_partial",
    "Verif.Cpm.C296_resid_partial",
    "Verif.Cpm.C296_violated_full",
    "Verif.Cpm.C296_violated_resid"
   ],
   "note": "Exponential softening: total damage gives an error, residual strengths are accepted with the wrong value."
  },
  {
   "property": "C297",
   "status": "partial",
   "theorems": [
    "Verif.Cpm.C297_mean",
    "Verif.Cpm.C297_stress",
    "Verif.Cpm.C297_average",
    "Verif.Cpm.C297_max_partial",
    "Verif.Cpm.C297_violated_trace",
    "Verif.Cpm.C297_violated_max",
    "Verif.Cpm.C297_violated_count"
   ],
   "note": "The trace is 27 times the damage of existing contacts; the largest damage stays NaN; contacts without cohesion count as broken."
  },
  {
   "property": "C298",
   "status": "partial",
   "theorems": [
    "Verif.Cpm.C298_cohesive",
    "Verif.Cpm.C298_shared",
    "Verif.Cpm.C298_swap_partial",
    "Verif.Cpm.C298_rest",
    "Verif.Cpm.C298_fracture",
    "Verif.Cpm.C298_violated",
    "Verif.Cpm.C298_violated_match"
   ],
   "note": "The damage law is the one of the first body; the modulus of a MatchMaker is ignored for a shared material."
  },
  {
   "property": "C299",
   "status": "partial",
   "theorems": [
    "Verif.Cpm.C299_balanced",
    "Verif.Cpm.C299_periodic_partial",
    "Verif.Cpm.C299_violated"
   ],
   "note": "In periodic scenes moments do not balance if spheres overlapped when bonded."
  },
  {
   "property": "C30",
   "status": "partial",
   "theorems": [
    "Verif.Peri.C30_exact",
    "Verif.Peri.C30_too_large",
    "Verif.Peri.C30_exchange_partial",
    "Verif.Peri.C30_exchange_violated"
   ],
   "note": "Exact for all boxes of the accepted sizes. With exchanged bodies the shift is opposite if the two widths sum to less than the period minus the tolerance; otherwise two different shifts may both bring the boxes together and the reported ones need not be opposite (witness)."
  },
  {
   "property": "C300",
   "status": "partial",
   "theorems": [
    "Verif.Hertz.C300_potential",
    "Verif.Hertz.C300_push",
    "Verif.Hertz.C300_attraction",
    "Verif.Hertz.C300_energy_partial",
    "Verif.Hertz.C300_violated_energy"
   ],
   "note": "The energy is NaN as soon as a contact which does not touch is kept."
  },
  {
   "property": "C301",
   "status": "partial",
   "theorems": [
    "Verif.Hertz.C301_limit_partial",
    "Verif.Hertz.C301_violated_damping",
    "Verif.Hertz.C301_violated_adhesion"
   ],
   "note": "Shear damping is added beyond the limit; with adhesion the sign of the normal force is lost."
  },
  {
   "property": "C302",
   "status": "partial",
   "theorems": [
    "Verif.Hertz.C302_opens_partial",
    "Verif.Hertz.C302_violated"
   ],
   "note": "Kept contacts remember the elastic shear force."
  },
  {
   "property": "C303",
   "status": "partial",
   "theorems": [
    "Verif.Hertz.C303_swap_partial",
    "Verif.Hertz.C303_viscous",
    "Verif.Hertz.C303_violated_swap",
    "Verif.Hertz.C303_violated_ratio",
    "Verif.Hertz.C303_violated_shear"
   ],
   "note": "A plane as second body; the ratio is not the documented one; a shear coefficient of restitution alone is undefined, and ignored otherwise."
  },
  {
   "property": "C304",
   "status": "partial",
   "theorems": [
    "Verif.Hertz.C304_damping_partial",
    "Verif.Hertz.C304_violated_friction"
   ],
   "note": "Friction is reported to give energy back."
  },
  {
   "property": "C305",
   "status": "partial",
   "theorems": [
    "Verif.Hertz.C305_balanced",
    "Verif.Hertz.C305_linear",
    "Verif.Hertz.C305_bending_partial",
    "Verif.Hertz.C305_violated",
    "Verif.Hertz.C305_linear_loads"
   ],
   "note": "No limit of bending without normal force."
  },
  {
   "property": "C306",
   "status": "partial",
   "theorems": [
    "Verif.Hertz.C306_linear_partial",
    "Verif.Hertz.C306_violated_cycle",
    "Verif.Hertz.C306_violated_slip"
   ],
   "note": "Not when the overlap changes; the law with partial slip has no shear force at all."
  },
  {
   "property": "C307",
   "status": "proved",
   "theorems": [
    "Verif.Handle.C307_box",
    "Verif.Handle.C307_sums",
    "Verif.Handle.C307_order",
    "Verif.Handle.C307_none"
   ],
   "note": "Sums are stated for lists of identifiers."
  },
  {
   "property": "C308",
   "status": "partial",
   "theorems": [
    "Verif.Handle.C308_box_partial",
    "Verif.Handle.C308_violated"
   ],
   "note": "For lists of identifiers; another body in the list is an error, even if the mask leaves it out."
  },
  {
   "property": "C309",
   "status": "partial",
   "theorems": [
    "Verif.Handle.C309_move_partial",
    "Verif.Handle.C309_similar",
    "Verif.Handle.C309_density",
    "Verif.Handle.C309_box",
    "Verif.Handle.C309_violated",
    "Verif.Handle.C309_violated_twice",
    "Verif.Handle.C309_violated_ori"
   ],
   "note": "For lists naming no body twice. The centre counts spheres the mask leaves out, a body named twice is changed twice, orientations of spheres are not turned."
  },
  {
   "property": "C31",
   "status": "proved",
   "theorems": [
    "Verif.Peri.C31_number",
    "Verif.Peri.C31_period",
    "Verif.Peri.C31_collider",
    "Verif.Peri.C31_point",
    "Verif.Peri.C31_sheared",
    "Verif.Peri.C31_sheared_period"
   ],
   "note": "The period count must fit a 32-bit int, otherwise the conversion is undefined behaviour in the model."
  },
  {
   "property": "C310",
   "status": "partial",
   "theorems": [
    "Verif.Handle.C310_copies_partial",
    "Verif.Handle.C310_violated"
   ],
   "note": "For lists of identifiers. Velocities, single blocked degrees of freedom and masses set by hand are lost."
  },
  {
   "property": "C311",
   "status": "partial",
   "theorems": [
    "Verif.FVisc.C311_damping_partial",
    "Verif.FVisc.C311_order_partial",
    "Verif.FVisc.C311_plain_partial",
    "Verif.FVisc.C311_violated_order",
    "Verif.FVisc.C311_violated_fixed",
    "Verif.FVisc.C311_stiffness"
   ],
   "note": "Undefined when the viscous body comes before the plain one (the exchange asked for by the dispatcher is ignored) and for two fixed bodies without mass."
  },
  {
   "property": "C312",
   "status": "partial",
   "theorems": [
    "Verif.FVisc.C312_force",
    "Verif.FVisc.C312_push_partial",
    "Verif.FVisc.C312_undamped",
    "Verif.FVisc.C312_violated_pull",
    "Verif.FVisc.C312_violated_apart"
   ],
   "note": "Contacts pull when bodies part fast, and kept contacts of bodies that do not touch still damp."
  },
  {
   "property": "C313",
   "status": "proved",
   "theorems": [
    "Verif.FVisc.C313_limit",
    "Verif.FVisc.C313_dissipation",
    "Verif.FVisc.C313_traced",
    "Verif.FVisc.C313_tracked"
   ],
   "note": ""
  },
  {
   "property": "C314",
   "status": "partial",
   "theorems": [
    "Verif.FVisc.C314_balanced",
    "Verif.FVisc.C314_energy_partial",
    "Verif.FVisc.C314_total",
    "Verif.FVisc.C314_violated"
   ],
   "note": "The energy reported counts the damping force as if it were elastic."
  },
  {
   "property": "C315",
   "status": "proved",
   "theorems": [
    "Verif.Inel.C315_order",
    "Verif.Inel.C315_values"
   ],
   "note": ""
  },
  {
   "property": "C316",
   "status": "proved",
   "theorems": [
    "Verif.Inel.C316_final",
    "Verif.Inel.C316_limits"
   ],
   "note": ""
  },
  {
   "property": "C317",
   "status": "partial",
   "theorems": [
    "Verif.Inel.C317_elastic_partial",
    "Verif.Inel.C317_yield",
    "Verif.Inel.C317_violated",
    "Verif.Inel.C317_unload",
    "Verif.Inel.C317_equilibrium"
   ],
   "note": "After yielding in tension the force jumps to the strength in compression when the contact passes its new equilibrium."
  },
  {
   "property": "C318",
   "status": "partial",
   "theorems": [
    "Verif.Inel.C318_limit_partial",
    "Verif.Inel.C318_friction",
    "Verif.Inel.C318_violated",
    "Verif.Inel.C318_violated_jump",
    "Verif.Inel.C318_stick"
   ],
   "note": "Twist and bending break cohesion but leave the adhesion in shear; breaking under a large normal force raises the shear force."
  },
  {
   "property": "C319",
   "status": "partial",
   "theorems": [
    "Verif.Inel.C319_twist_partial",
    "Verif.Inel.C319_bending",
    "Verif.Inel.C319_violated",
    "Verif.Inel.C319_violated_reached",
    "Verif.Inel.C319_twist_limits",
    "Verif.Inel.C319_bending_elastic"
   ],
   "note": "When shear or twist breaks cohesion the bending moment stays and is applied in every later step."
  },
  {
   "property": "C32",
   "status": "partial",
   "theorems": [
    "Verif.Stride.C32_safe_partial",
    "Verif.Stride.C32_overlap_partial",
    "Verif.Stride.C32_violated_sheared"
   ],
   "note": "In scenes without a cell or with an unsheared cell: every reachable history of integrator runs, collider turns and other events that keep positions and radii. Missing: sheared cells, where the property is false (displacements are measured along the axes of space, boxes along the base vectors of the cell; C32_violated_sheared)."
  },
  {
   "property": "C320",
   "status": "partial",
   "theorems": [
    "Verif.Inel.C320_balance",
    "Verif.Inel.C320_loads_partial",
    "Verif.Inel.C320_violated_energy"
   ],
   "note": "The energy divides by a stiffness that is never set."
  },
  {
   "property": "C321",
   "status": "proved",
   "theorems": [
    "Verif.Lbm.C321_defined",
    "Verif.Lbm.C321_mass",
    "Verif.Lbm.C321_momentum",
    "Verif.Lbm.C321_rest"
   ],
   "note": ""
  },
  {
   "property": "C322",
   "status": "partial",
   "theorems": [
    "Verif.Lbm.C322_momentum",
    "Verif.Lbm.C322_pressure",
    "Verif.Lbm.C322_inlet",
    "Verif.Lbm.C322_velocity_partial",
    "Verif.Lbm.C322_kept",
    "Verif.Lbm.C322_mass",
    "Verif.Lbm.C322_violated",
    "Verif.Lbm.C322_violated_exit"
   ],
   "note": "At corners type -1 leaves a node without density, whose collision is undefined, and the pressure condition ends the program."
  },
  {
   "property": "C323",
   "status": "partial",
   "theorems": [
    "Verif.Lbm.C323_mass",
    "Verif.Lbm.C323_rest",
    "Verif.Lbm.C323_moving",
    "Verif.Lbm.C323_equilibrium",
    "Verif.Lbm.C323_force_partial",
    "Verif.Lbm.C323_violated"
   ],
   "note": "At nodes with five walls or more the velocity of the wall is dropped after the force was counted."
  },
  {
   "property": "C324",
   "status": "partial",
   "theorems": [
    "Verif.Lbm.C324_sides_partial",
    "Verif.Lbm.C324_violated"
   ],
   "note": "On a grid one node wide a node lies on two sides and gets the condition of one."
  },
  {
   "property": "C325",
   "status": "proved",
   "theorems": [
    "Verif.Lbm.C325_counters",
    "Verif.Lbm.C325_nodes",
    "Verif.Lbm.C325_once"
   ],
   "note": "With one thread; with several the counters are incremented without synchronisation."
  },
  {
   "property": "C326",
   "status": "partial",
   "theorems": [
    "Verif.Elast.C326_order",
    "Verif.Elast.C326_spheres",
    "Verif.Elast.C326_flat",
    "Verif.Elast.C326_kept",
    "Verif.Elast.C326_plain_partial",
    "Verif.Elast.C326_violated"
   ],
   "note": "Without radii a contact with shear gets the shear stiffness as its normal one and none in shear."
  },
  {
   "property": "C33",
   "status": "partial",
   "theorems": [
    "Verif.Grid.C33_found_partial",
    "Verif.Grid.C33_only",
    "Verif.Grid.C33_defined",
    "Verif.Grid.C33_runs",
    "Verif.Grid.C33_violated_origin"
   ],
   "note": "true for grids whose origin has equal coordinates; otherwise overlapping spheres inside the grid can be missed: the second coordinate of the origin is subtracted from all three"
  },
  {
   "property": "C34",
   "status": "partial",
   "theorems": [
    "Verif.Grid.C34_exact_partial",
    "Verif.Grid.C34_violated_filter",
    "Verif.Grid.C34_violated_no_box",
    "Verif.Grid.C34_violated_erased",
    "Verif.Grid.C34_violated_stale"
   ],
   "note": "exact when every body exists and has a box, except that the pair filter is never asked; erased bodies and bodies without a box leave stale or unwritten entries in use"
  },
  {
   "property": "C35",
   "status": "proved",
   "theorems": [
    "Verif.Loop.C35_law",
    "Verif.Loop.C35_law_gets",
    "Verif.Loop.C35_real_means",
    "Verif.Loop.C35_real_after",
    "Verif.Loop.C35_dropped",
    "Verif.Loop.C35_stamp",
    "Verif.Loop.C35_callbacks",
    "Verif.Loop.C35_each"
   ],
   "note": "functors are arbitrary functions obeying the contract FnOk; abnormal ends (exception, exit, undefined) are separate outcomes"
  },
  {
   "property": "C36",
   "status": "proved",
   "theorems": [
    "Verif.Intr.C36_swapOrder",
    "Verif.Intr.C36_swap_in_container"
   ],
   "note": ""
  },
  {
   "property": "C37",
   "status": "partial",
   "theorems": [
    "Verif.Mech.C37_contact_point",
    "Verif.Mech.C37_spheres_partial",
    "Verif.Mech.C37_violated_wall"
   ],
   "note": "Holds for every geometry when the law uses the contact point, and for sphere-sphere contacts with every option and periodic shift. With spherical bodies assumed or in periodic scenes, a wall-sphere contact applies an unbalanced moment (witness)."
  },
  {
   "property": "C38",
   "status": "partial",
   "theorems": [
    "Verif.Mech.C38_blocked_partial",
    "Verif.Mech.C38_free",
    "Verif.Mech.C38_violated_member"
   ],
   "note": "Both halves hold for standalone bodies and clumps (first half over any history, any order of the loop). The blocked degrees of freedom of a clump member are ignored: its velocity is overwritten by the clump (witness)."
  },
  {
   "property": "C39",
   "status": "proved",
   "theorems": [
    "Verif.Mech.C39_accel",
    "Verif.Mech.C39_torque",
    "Verif.Mech.C39_factor"
   ],
   "note": ""
  },
  {
   "property": "C40",
   "status": "proved",
   "theorems": [
    "Verif.Mech.C40_resultant",
    "Verif.Mech.C40_rigid",
    "Verif.Mech.C40_distances",
    "Verif.Mech.C40_relative",
    "Verif.Mech.C40_runs"
   ],
   "note": ""
  },
  {
   "property": "C41",
   "status": "partial",
   "theorems": [
    "Verif.Mech.C41_placement",
    "Verif.Mech.C41_mass_centre_partial",
    "Verif.Mech.C41_violated_mass"
   ],
   "note": "Placement holds for every member set, discretisation and eigensolver. Mass and centre hold for members whose spheres have the mass density times volume and do not intersect; the stored mass of a sphere is ignored (witness), and intersecting spheres are integrated on a grid instead."
  },
  {
   "property": "C42",
   "status": "partial",
   "theorems": [
    "Verif.Mpi.C42_roundtrip_partial",
    "Verif.Mpi.C42_violated_short"
   ],
   "note": "Round trip proved for every list of existing bodies. False for messages that are too short: the wrong length is logged and the message is read beyond its end."
  },
  {
   "property": "C43",
   "status": "partial",
   "theorems": [
    "Verif.Mpi.C43_bounded_partial",
    "Verif.Mpi.C43_violated"
   ],
   "note": "Proved for bounded bodies (and for the states of all). False for a body without bound: the receiver creates a bound with both corners at the origin."
  },
  {
   "property": "C44",
   "status": "partial",
   "theorems": [
    "Verif.Mpi.C44_tightest_partial",
    "Verif.Mpi.C44_violated"
   ],
   "note": "Proved unless the first member has been erased, in which case a null pointer is dereferenced."
  },
  {
   "property": "C45",
   "status": "proved",
   "theorems": [
    "Verif.Mpi.Vote.C45_same_decision",
    "Verif.Mpi.Vote.C45_same_collectives",
    "Verif.Mpi.Vote.C45_progress"
   ],
   "note": "Any number of processes, calls and any interleaving; a broadcast in which roots disagree is a distinct outcome, shown unreachable."
  },
  {
   "property": "C46",
   "status": "proved",
   "theorems": [
    "Verif.Mpi.Exchange.C46_no_deadlock",
    "Verif.Mpi.Exchange.C46_no_deadlock_unbuffered",
    "Verif.Mpi.Exchange.C46_matched",
    "Verif.Mpi.Exchange.C46_current",
    "Verif.Mpi.Exchange.C46_applied"
   ],
   "note": "Asynchronous processes, any number of steps, intersection lists changing from step to step. Without buffering by the MPI library the states never hang; the messages of forces may (C47_violated_unbuffered)."
  },
  {
   "property": "C47",
   "status": "partial",
   "theorems": [
    "Verif.Mpi.Exchange.C47_received",
    "Verif.Mpi.Exchange.C47_current_partial",
    "Verif.Mpi.Exchange.C47_violated",
    "Verif.Mpi.Exchange.C47_violated_unbuffered"
   ],
   "note": "False once the set of workers touching the master changes: a worker sends in every step, the master listens only to those touching it, and later receives the old messages. Proved: current if the master has listened to the worker from the beginning; in general which step the forces come from."
  },
  {
   "property": "C48",
   "status": "partial",
   "theorems": [
    "Verif.Mpi.C48_merge_partial",
    "Verif.Mpi.C48_violated_angMom",
    "Verif.Mpi.C48_violated_bounded",
    "Verif.Mpi.C48_violated_erased"
   ],
   "note": "Position, velocity, angular velocity, orientation and bound are returned to the right bodies. False for the angular momentum, for the bounded flag, and (undefined behaviour) when a worker has erased one of its bodies."
  },
  {
   "property": "C49",
   "status": "partial",
   "theorems": [
    "Verif.Tree.C49_all_take_part_partial",
    "Verif.Tree.C49_balanced_partial",
    "Verif.Tree.C49_levels_enough_partial",
    "Verif.Tree.C49_violated_power_of_two",
    "Verif.Tree.C49_violated_17",
    "Verif.Tree.C49_violated_few_items"
   ],
   "note": "Delivery to exactly one worker, matching of sends and gathering are C75 (full). That every worker takes part holds when the number of levels is enough: up to 16 workers and for 32, 64; it is false for 17-20 workers and for every power of two from 128 on (natural logarithm instead of base two). With fewer bodies than workers an IndexError is possible."
  },
  {
   "property": "C50",
   "status": "partial",
   "theorems": [
    "Verif.Attr.C50_get_partial",
    "Verif.Attr.C50_keys",
    "Verif.Attr.C50_has",
    "Verif.Attr.C50_independent",
    "Verif.Attr.C50_violated_key_with_eq"
   ],
   "note": "All histories of assignments, arbitrary values. Reading a key that itself contains = is not rejected and can return part of another value."
  },
  {
   "property": "C51",
   "status": "proved",
   "theorems": [
    "Verif.Attr.C51_read_after_write",
    "Verif.Attr.C51_write_back",
    "Verif.Attr.C51_always_below_64",
    "Verif.Attr.C51_letter_is_axis",
    "Verif.Attr.C51_dynamic"
   ],
   "note": "All strings and all 6-bit patterns; every modelled assignment produces such a pattern."
  },
  {
   "property": "C52",
   "status": "partial",
   "theorems": [
    "Verif.Sched.C52_limit_partial",
    "Verif.Sched.C52_no_initial_run_partial",
    "Verif.Sched.C52_violated_zero",
    "Verif.Sched.C52_violated_one_run_less",
    "Verif.Sched.C52_violated_initial_run",
    "Verif.Sched.C52_violated_missed",
    "Verif.Sched.C72_period_between_runs",
    "Verif.Sched.C73_exactly_nDo"
   ],
   "note": "False as stated: nDo=0 with initRun runs once; a silent first poll is counted so at most nDo-1 runs follow; an engine added late runs at once although initRun=False; a missed firstIterRun means never. The true parts are C72 and C73."
  },
  {
   "property": "C53",
   "status": "partial",
   "theorems": [
    "Verif.Accu.C53_scalar",
    "Verif.Accu.C53_slots",
    "Verif.Accu.C53_array_partial",
    "Verif.Accu.C53_violated_growth"
   ],
   "note": "Scalar accumulator: full. Array accumulator: full for one thread and while it does not outgrow its first cache lines; with two threads or more growing further over-reads the old memory (always)."
  },
  {
   "property": "C54",
   "status": "partial",
   "theorems": [
    "Verif.Accu.C54_by_name_partial",
    "Verif.Accu.C54_total_partial",
    "Verif.Accu.C54_interleaving_partial",
    "Verif.Accu.C54_violated_double",
    "Verif.Accu.C54_violated_clear"
   ],
   "note": "Histories of atomic operations, and all interleavings for a name known before. A new name can be registered twice by two threads; callers keep stale identifiers after clear."
  },
  {
   "property": "C55",
   "status": "partial",
   "theorems": [
    "Verif.Replace.C55_replaces_partial",
    "Verif.Replace.C55_refused",
    "Verif.Replace.C55_violated_zero",
    "Verif.Replace.C55_violated_rounding",
    "Verif.Replace.C55_violated_overflow"
   ],
   "note": "Holds if every template gets at least one sphere, the rounded numbers do not exceed the number of spheres together, and there are at most 46340 spheres. Otherwise: division by zero, null body, integer overflow."
  },
  {
   "property": "C56",
   "status": "proved",
   "theorems": [
    "Verif.Peri.C56_reference",
    "Verif.Peri.C56_degenerate",
    "Verif.Peri.C56_history",
    "Verif.Peri.C56_assignment_waits",
    "Verif.Peri.C56_ok_new"
   ],
   "note": ""
  },
  {
   "property": "C57",
   "status": "partial",
   "theorems": [
    "Verif.Intr.C57_clear_bodies_partial",
    "Verif.Intr.C57_clear_bodies_violated"
   ],
   "note": "The code violates the claim: interactions survive O.bodies.clear() and the single-threaded bulk removal loops for ever. Safe when interactions are cleared first."
  },
  {
   "property": "C58",
   "status": "partial",
   "theorems": [
    "Verif.Intr.C58_find_safe",
    "Verif.Intr.C58_has_partial",
    "Verif.Intr.C58_has_violated"
   ],
   "note": "Item look-up is safe for non-negative ids; has() is not when the lower-id body is deleted, and negative ids read outside the vector."
  },
  {
   "property": "C59",
   "status": "proved",
   "theorems": [
    "Verif.Bodies.C01_append"
   ],
   "note": ""
  },
  {
   "property": "C60",
   "status": "proved",
   "theorems": [
    "Verif.Bodies.C03_getitem",
    "Verif.Bodies.C03_exists"
   ],
   "note": ""
  },
  {
   "property": "C61",
   "status": "partial",
   "theorems": [
    "Verif.Forces.C61_single_read_partial",
    "Verif.Forces.C61_violated"
   ],
   "note": "The permanent array is read without bounds check."
  },
  {
   "property": "C62",
   "status": "partial",
   "theorems": [
    "Verif.Forces.C62_unsynced_partial",
    "Verif.Forces.C62_violated_serial"
   ],
   "note": "The serial getTorqueUnsynced returns the force."
  },
  {
   "property": "C63",
   "status": "proved",
   "theorems": [
    "Verif.Forces.C63_move_rot"
   ],
   "note": ""
  },
  {
   "property": "C64",
   "status": "proved",
   "theorems": [
    "Verif.Dispatch.C64_typed"
   ],
   "note": "All interleavings of registrations and lookups, symmetric and asymmetric dispatchers."
  },
  {
   "property": "C65",
   "status": "partial",
   "theorems": [
    "Verif.Dispatch.C65_negative_index_partial",
    "Verif.Dispatch.C65_violated"
   ],
   "note": "dispFunctor raises; the engine-side lookups read out of bounds in release builds."
  },
  {
   "property": "C66",
   "status": "proved",
   "theorems": [
    "Verif.Dispatch.C66_none_iff"
   ],
   "note": "All interleavings of registrations and lookups."
  },
  {
   "property": "C67",
   "status": "partial",
   "theorems": [
    "Verif.Collide.C67_restart_partial",
    "Verif.Collide.C67_violated_fewer",
    "Verif.Collide.C67_violated_periodic"
   ],
   "note": "Works with more bodies and with none. With fewer (but some) bodies, or when the scene stops being periodic, every run reads outside the emptied lists."
  },
  {
   "property": "C68",
   "status": "partial",
   "theorems": [
    "Verif.Collide.C68_changed_filter_partial",
    "Verif.Collide.C68_violated_mask"
   ],
   "note": "True when an initial sort is asked for; an ordinary run misses the pair."
  },
  {
   "property": "C69",
   "status": "partial",
   "theorems": [
    "Verif.Collide.C69_touching_kept_partial",
    "Verif.Collide.C69_violated_history"
   ],
   "note": "Existing interactions of touching boxes stay; whether there is one depends on the history."
  },
  {
   "property": "C70",
   "status": "proved",
   "theorems": [
    "Verif.Attr.C70_own_number",
    "Verif.Attr.C70_append",
    "Verif.Attr.C70_append_list",
    "Verif.Attr.C70_index",
    "Verif.Attr.C70_label"
   ],
   "note": ""
  },
  {
   "property": "C71",
   "status": "partial",
   "theorems": [
    "Verif.Attr.C71_place_is_number_partial",
    "Verif.Attr.C71_violated_twice"
   ],
   "note": "True if no material is appended twice; a material appended twice has the number of its last place only."
  },
  {
   "property": "C72",
   "status": "proved",
   "theorems": [
    "Verif.Sched.C72_at_most_nDo",
    "Verif.Sched.C72_period_between_runs"
   ],
   "note": ""
  },
  {
   "property": "C73",
   "status": "proved",
   "theorems": [
    "Verif.Sched.C73_initRun",
    "Verif.Sched.C73_exactly_nDo",
    "Verif.Sched.C73_firstIterRun"
   ],
   "note": ""
  },
  {
   "property": "C74",
   "status": "proved",
   "theorems": [
    "Verif.Accu.C74_index",
    "Verif.Accu.C74_push",
    "Verif.Accu.C74_clear"
   ],
   "note": ""
  },
  {
   "property": "C75",
   "status": "proved",
   "theorems": [
    "Verif.Tree.C75_no_deadlock",
    "Verif.Tree.C75_terminates",
    "Verif.Tree.C75_no_exception",
    "Verif.Tree.C75_each_item_once",
    "Verif.Tree.C75_all_received",
    "Verif.Tree.C75_ends",
    "Verif.Tree.C75_gathered",
    "Verif.Tree.C75_assigned"
   ],
   "note": ""
  },
  {
   "property": "C76",
   "status": "proved",
   "theorems": [
    "Verif.Tree.C76_split_separates",
    "Verif.Tree.C76_parts_separated"
   ],
   "note": ""
  },
  {
   "property": "C77",
   "status": "partial",
   "theorems": [
    "Verif.Bodies.Iter.C77_loop_partial",
    "Verif.Bodies.Iter.C77_ends",
    "Verif.Bodies.Iter.C77_violated_past_end"
   ],
   "note": "The result is right whatever the place past the end of the vector contains; but advancing past the last body reads that place, which is undefined behaviour in every complete loop over a non-empty container."
  },
  {
   "property": "C78",
   "status": "proved",
   "theorems": [
    "Verif.Mech.C78_orientations_unit"
   ],
   "note": "Inertia components are assumed non-zero for aspherical bodies (division by zero gives infinities in the code)."
  },
  {
   "property": "C79",
   "status": "proved",
   "theorems": [
    "Verif.Mech.C79_order_independent"
   ],
   "note": "Iterations are atomic in the model; that they touch disjoint bodies is part of the proof (footprint_disjoint)."
  },
  {
   "property": "C80",
   "status": "partial",
   "theorems": [
    "Verif.Mech.C80_momentum_partial",
    "Verif.Mech.C80_turn_partial",
    "Verif.Mech.C80_angVel_partial",
    "Verif.Mech.C80_violated_angVel"
   ],
   "note": "The aspherical integrator turns the angular velocity with the orientation before normalising it: witness."
  },
  {
   "property": "C81",
   "status": "partial",
   "theorems": [
    "Verif.Mech.C81_damping_partial",
    "Verif.Mech.C81_rotational_partial",
    "Verif.Mech.C81_violated"
   ],
   "note": "The inertia tensor is turned by the inverse of the orientation: wrong for turned bodies with unequal moments (witness)."
  },
  {
   "property": "C82",
   "status": "partial",
   "theorems": [
    "Verif.Mech.C82_kinetic_partial",
    "Verif.Mech.C82_violated_kinetic"
   ],
   "note": "False when the velocity reverses within the step (witness)."
  },
  {
   "property": "C83",
   "status": "partial",
   "theorems": [
    "Verif.Mech.C83_inertia_partial",
    "Verif.Mech.C83_violated_turned",
    "Verif.Mech.C83_violated_left_handed",
    "Verif.Mech.C83_violated_density"
   ],
   "note": "Holds for solid, non-intersecting spheres and members that are not turned relative to their principal axes, with right-handed eigenvectors. Turned non-spherical members: transpose used. Left-handed eigenvectors: converted into a quaternion that does not describe them. Intersecting spheres: the own inertia of a grid cell lacks the density."
  },
  {
   "property": "C84",
   "status": "partial",
   "theorems": [
    "Verif.Mech.C84_rest_partial",
    "Verif.Mech.C84_violated"
   ],
   "note": "Velocity and angular velocity are reset; the angular momentum is not, so a clump that was spinning spins up again in the next step."
  },
  {
   "property": "C85",
   "status": "proved",
   "theorems": [
    "Verif.Mech.C85_limit",
    "Verif.Mech.C85_separated"
   ],
   "note": ""
  },
  {
   "property": "C86",
   "status": "proved",
   "theorems": [
    "Verif.Mech.C86_dissipation"
   ],
   "note": ""
  },
  {
   "property": "C87",
   "status": "partial",
   "theorems": [
    "Verif.Mech.C87_rigid_partial",
    "Verif.Mech.C87_violated"
   ],
   "note": "The magnitude never decreases, grows at most by a second-order factor per step, and is exact when the pair does not turn. It grows strictly and tilts out of the contact plane when the pair turns (witness): the turning is linearised."
  },
  {
   "property": "C88",
   "status": "proved",
   "theorems": [
    "Verif.Mech.C88_step",
    "Verif.Mech.C88_history"
   ],
   "note": "Sphere-sphere contacts with the elastic-frictional law; the case of coinciding centres is undefined behaviour in both orders."
  },
  {
   "property": "C89",
   "status": "proved",
   "theorems": [
    "Verif.Mech.C89_spheres"
   ],
   "note": ""
  },
  {
   "property": "C90",
   "status": "partial",
   "theorems": [
    "Verif.Mech.C90_outside",
    "Verif.Mech.C90_inside_partial",
    "Verif.Mech.C90_violated_periodic"
   ],
   "note": "Everything holds except the contact point of a sphere whose centre is inside the box in a periodic scene: it is computed from the position instead of the periodic image (witness, arbitrarily far)."
  },
  {
   "property": "C91",
   "status": "partial",
   "theorems": [
    "Verif.Mech.C91_facet_partial",
    "Verif.Mech.C91_initial",
    "Verif.Mech.C91_violated"
   ],
   "note": "Holds for every facet made by utils.facet from non-collinear points with shrinkFactor zero, in every placement. A centre exactly on the boundary of the triangle divides zero by zero (shown at the vertices)."
  },
  {
   "property": "C92",
   "status": "partial",
   "theorems": [
    "Verif.Mech.C92_created_partial",
    "Verif.Mech.C92_violated"
   ],
   "note": "Creating the facet again works; setNewVerticesOfFacet leaves the cached normals, edge normals and inscribed radius of the old triangle in place (witness)."
  },
  {
   "property": "C93",
   "status": "proved",
   "theorems": [
    "Verif.Peri.C93_velocity_shift",
    "Verif.Peri.C93_unaffected",
    "Verif.Peri.C93_additive"
   ],
   "note": ""
  },
  {
   "property": "C94",
   "status": "proved",
   "theorems": [
    "Verif.Peri.C94_size"
   ],
   "note": ""
  },
  {
   "property": "C95",
   "status": "proved",
   "theorems": [
    "Verif.Peri.C95_lists"
   ],
   "note": "all executions with one initial sort and a fixed number of ids; the run is assumed to complete"
  },
  {
   "property": "C96",
   "status": "partial",
   "theorems": [
    "Verif.Peri.C96_no_miss_partial",
    "Verif.Peri.C96_violated_reinit",
    "Verif.Peri.C96_violated_added"
   ],
   "note": "true with one initial sort and a fixed number of ids; false after repeated initial sorts (periods are lost) and when bodies are added"
  },
  {
   "property": "C97",
   "status": "proved",
   "theorems": [
    "Verif.Peri.C97_run"
   ],
   "note": "for every run of a fresh collider or one reached by such an execution"
  },
  {
   "property": "C98",
   "status": "partial",
   "theorems": [
    "Verif.Peri.C98_new_shift_partial",
    "Verif.Peri.C98_violated_kept"
   ],
   "note": "true for new interactions; a potential interaction that stays keeps its old shift"
  },
  {
   "property": "C99",
   "status": "partial",
   "theorems": [
    "Verif.Peri.C99_empty_partial",
    "Verif.Peri.C99_violated_empty"
   ],
   "note": "true with an initial sort; an ordinary run divides by zero"
  }
 ]
}