{
 "claims": [
  {
   "property": "C01",
   "status": "proved",
   "theorems": [
    "B2.Props.c01_fixture_list_is_sequence"
   ],
   "note": "Refinement of the heap-level singly linked list to List, including the panic on removing a non-member; assumes a node is not pushed while it is in the list."
  },
  {
   "property": "C02",
   "status": "proved",
   "theorems": [
    "B2.Props.c02_double_list_is_sequence",
    "B2.Props.c02_stale_remove_corrupts"
   ],
   "note": "Refinement for valid histories; the second theorem shows that the member precondition is needed (not checked by the code)."
  },
  {
   "property": "C03",
   "status": "proved",
   "theorems": [
    "B2.Props.c03_remove_while_iterating"
   ],
   "note": ""
  },
  {
   "property": "C04",
   "status": "proved",
   "theorems": [
    "B2.Props.c04_stack_is_lifo"
   ],
   "note": ""
  },
  {
   "property": "C05",
   "status": "proved",
   "theorems": [
    "B2.Props.c05_tree_never_panics",
    "B2.Props.c05_tree_well_formed",
    "B2.Props.c05_validate_panics_on_empty_tree"
   ],
   "note": "Statement over every history of public calls (Spec.Hist); arithmetic only through the monotonicity laws RoundLaws, proved for every ordered field. Disagreement: validate() itself panics on an empty tree."
  },
  {
   "property": "C06",
   "status": "proved",
   "theorems": [
    "B2.Props.c06_ids_are_stable"
   ],
   "note": "Statement over every history of public calls (Spec.Hist); arithmetic only through the monotonicity laws RoundLaws, proved for every ordered field. "
  },
  {
   "property": "C07",
   "status": "proved",
   "theorems": [
    "B2.Props.c07_c08_query_exact"
   ],
   "note": "Statement over every history of public calls (Spec.Hist); arithmetic only through the monotonicity laws RoundLaws, proved for every ordered field. "
  },
  {
   "property": "C08",
   "status": "proved",
   "theorems": [
    "B2.Props.c07_c08_query_exact"
   ],
   "note": "Statement over every history of public calls (Spec.Hist); arithmetic only through the monotonicity laws RoundLaws, proved for every ordered field. "
  },
  {
   "property": "C09",
   "status": "proved",
   "theorems": [
    "B2.Props.c09_fat_box_covers"
   ],
   "note": "Statement over every history of public calls (Spec.Hist); arithmetic only through the monotonicity laws RoundLaws, proved for every ordered field. "
  },
  {
   "property": "C10",
   "status": "proved",
   "theorems": [
    "B2.Props.c10_pool_accounting"
   ],
   "note": "Statement over every history of public calls (Spec.Hist); arithmetic only through the monotonicity laws RoundLaws, proved for every ordered field. "
  },
  {
   "property": "C11",
   "status": "proved",
   "theorems": [
    "B2.Props.c11_height_is_real"
   ],
   "note": "Statement over every history of public calls (Spec.Hist); arithmetic only through the monotonicity laws RoundLaws, proved for every ordered field. "
  },
  {
   "property": "C13",
   "status": "proved",
   "theorems": [
    "B2.Props.c13_rebuild_keeps_proxies",
    "B2.Props.c13_rebuild_panics_on_empty_tree"
   ],
   "note": "Statement over every history of public calls (Spec.Hist); arithmetic only through the monotonicity laws RoundLaws, proved for every ordered field. Needs a bounding region of perimeter below B2_MAX_FLOAT, otherwise the code can panic; the empty tree panics."
  },
  {
   "property": "C14",
   "status": "proved",
   "theorems": [
    "B2.Props.c14_shift_commutes_with_query"
   ],
   "note": "Exact arithmetic (any ordered field)."
  },
  {
   "property": "C12",
   "status": "proved",
   "theorems": [
    "B2.Props.c12_ray_cast_exact",
    "B2.Props.c12_full_cast"
   ],
   "note": "Exact arithmetic (any ordered field). Over every history of tree operations; the boxes handed in must not be inverted."
  },
  {
   "property": "C19",
   "status": "proved",
   "theorems": [
    "B2.Props.c19_overlap",
    "B2.Props.c19_contains",
    "B2.Props.c19_combine",
    "B2.Props.c19_is_valid"
   ],
   "note": "Exact arithmetic (any ordered field). "
  },
  {
   "property": "C20",
   "status": "proved",
   "theorems": [
    "B2.Props.c20_hit_is_entry",
    "B2.Props.c20_entry_is_hit"
   ],
   "note": "Exact arithmetic (any ordered field). The normal claim needs a box that is not flat (a flat box can give the opposite normal)."
  },
  {
   "property": "C21",
   "status": "proved",
   "theorems": [
    "B2.Props.c21_clip",
    "B2.Props.c21_clip_ids"
   ],
   "note": "Exact arithmetic (any ordered field). "
  },
  {
   "property": "C22",
   "status": "proved",
   "theorems": [
    "B2.Props.c22_point_states"
   ],
   "note": ""
  },
  {
   "property": "C23",
   "status": "proved",
   "theorems": [
    "B2.Props.c23_filter"
   ],
   "note": ""
  },
  {
   "property": "C24",
   "status": "proved",
   "theorems": [
    "B2.Props.c24_mixing"
   ],
   "note": "Exact arithmetic (any ordered field). Square root through its defining laws, with an instance for the reals."
  },
  {
   "property": "C44",
   "status": "partial",
   "theorems": [
    "B2.Props.c44_clamp",
    "B2.Props.c44_clamp_vec2_partial",
    "B2.Props.c44_clamp_vec2_fails"
   ],
   "note": "b2_clamp: proved. b2_clamp_vec2: false of the code, it never clamps down; c44_clamp_vec2_fails is a witness."
  },
  {
   "property": "C45",
   "status": "proved",
   "theorems": [
    "B2.Props.c45_inverse",
    "B2.Props.c45_composition",
    "B2.Props.c45_isometry",
    "B2.Props.c45_axes_and_matrices",
    "B2.Props.c45_angle_is_unit",
    "B2.Props.c45_default_is_degenerate"
   ],
   "note": "Exact arithmetic (any ordered field). Disagreement: B2Rot::default() is the zero rotation, not the identity."
  },
  {
   "property": "C46",
   "status": "proved",
   "theorems": [
    "B2.Props.c46_solve2",
    "B2.Props.c46_solve22",
    "B2.Props.c46_solve33",
    "B2.Props.c46_sym_inverse33"
   ],
   "note": "Exact arithmetic (any ordered field). "
  },
  {
   "property": "C47",
   "status": "proved",
   "theorems": [
    "B2.Props.c47_interpolation",
    "B2.Props.c47_advance",
    "B2.Props.c47_advance_asserts",
    "B2.Props.c47_normalize"
   ],
   "note": "Exact arithmetic (any ordered field). "
  },
  {
   "property": "C48",
   "status": "proved",
   "theorems": [
    "B2.Props.c48_next_power_of_two",
    "B2.Props.c48_is_power_of_two"
   ],
   "note": "32-bit wrap-around included: for v >= 2^31 the addition overflows."
  },
  {
   "property": "C15",
   "status": "proved",
   "theorems": [
    "B2.Props.c15_c16_c17_update_pairs",
    "B2.Props.c15_no_pair_missed",
    "B2.Props.c15_broad_phase_never_panics"
   ],
   "note": "Statement over every history of create/destroy/move/touch/update/rebuild/shift (Spec.BHist). The history version (no overlapping pair is ever missed) is in exact arithmetic."
  },
  {
   "property": "C16",
   "status": "proved",
   "theorems": [
    "B2.Props.c15_c16_c17_update_pairs"
   ],
   "note": "Statement over every history of create/destroy/move/touch/update/rebuild/shift (Spec.BHist). "
  },
  {
   "property": "C17",
   "status": "proved",
   "theorems": [
    "B2.Props.c15_c16_c17_update_pairs",
    "B2.Props.c17_duplicates_are_possible"
   ],
   "note": "Statement over every history of create/destroy/move/touch/update/rebuild/shift (Spec.BHist). Both halves: at most once under the proviso, and a history with a duplicate without it."
  },
  {
   "property": "C18",
   "status": "proved",
   "theorems": [
    "B2.Props.c18_update_is_idempotent"
   ],
   "note": "Statement over every history of create/destroy/move/touch/update/rebuild/shift (Spec.BHist). "
  },
  {
   "property": "C49",
   "status": "proved",
   "theorems": [
    "B2.Props.c49_contains",
    "B2.Props.c49_tight",
    "B2.Props.c49_total"
   ],
   "note": "Exact arithmetic (any ordered field). Points of a shape: convex hull of the child's vertices expanded by a non-negative radius."
  },
  {
   "property": "C50",
   "status": "partial",
   "theorems": [
    "B2.Props.c50_false",
    "B2.Props.c50_partial",
    "B2.Props.c50_normal",
    "B2.Props.c50_total"
   ],
   "note": "Exact arithmetic (any ordered field). False of the code: the search starts at fraction 0.032 (b2_polygon_shape.rs 240), so entries before that are missed (c50_false). c50_partial proves the claim for the ray from fraction 0.032 on."
  },
  {
   "property": "C51",
   "status": "proved",
   "theorems": [
    "B2.Props.c51_sound",
    "B2.Props.c51_complete"
   ],
   "note": "Exact arithmetic (any ordered field). Completeness needs a ray of squared length at least EPSILON, as the code demands."
  },
  {
   "property": "C52",
   "status": "proved",
   "theorems": [
    "B2.Props.c52_sound",
    "B2.Props.c52_complete"
   ],
   "note": "Exact arithmetic (any ordered field). "
  },
  {
   "property": "C55",
   "status": "proved",
   "theorems": [
    "B2.Props.c55_chain",
    "B2.Props.c55_loop",
    "B2.Props.c55_empty_panics"
   ],
   "note": "Disagreement: get_child_count of a chain without vertices underflows."
  },
  {
   "property": "C59",
   "status": "proved",
   "theorems": [
    "B2.Props.c59_hull",
    "B2.Props.c59_total",
    "B2.Props.c59_validate"
   ],
   "note": "Exact arithmetic (any ordered field). Full correctness of the gift wrapping including termination within the bound."
  },
  {
   "property": "C60",
   "status": "proved",
   "theorems": [
    "B2.Props.c60_polygon_mass",
    "B2.Props.c60_total",
    "B2.Props.c60_centroid",
    "B2.Props.c60_box"
   ],
   "note": "Exact arithmetic (any ordered field). "
  },
  {
   "property": "C56",
   "status": "proved",
   "theorems": [
    "B2.Props.c56_dynamic",
    "B2.Props.c56_other",
    "B2.Props.c56_total"
   ],
   "note": "Exact arithmetic (any ordered field). "
  },
  {
   "property": "C57",
   "status": "proved",
   "theorems": [
    "B2.Props.c57_apply"
   ],
   "note": "Exact arithmetic (any ordered field). "
  },
  {
   "property": "C58",
   "status": "proved",
   "theorems": [
    "B2.Props.c58_step",
    "B2.Props.c58_small"
   ],
   "note": "Exact arithmetic (any ordered field). "
  },
  {
   "property": "C25",
   "status": "proved",
   "theorems": [
    "B2.Props.c25_dispatch",
    "B2.Props.c25_panics",
    "B2.Props.c25_contacts"
   ],
   "note": "Also: every contact of a reachable world carries the routine of its two shapes."
  },
  {
   "property": "C26",
   "status": "proved",
   "theorems": [
    "B2.Props.c26_counts"
   ],
   "note": "Exact arithmetic (any ordered field), every history of calls with a fixed listener; solvers, manifolds and time-of-impact routine are arbitrary functions. Proxy count = number of children of fixtures of enabled bodies."
  },
  {
   "property": "C27",
   "status": "proved",
   "theorems": [
    "B2.Props.c27_graph"
   ],
   "note": "Exact arithmetic (any ordered field), every history of calls with a fixed listener; solvers, manifolds and time-of-impact routine are arbitrary functions. "
  },
  {
   "property": "C28",
   "status": "proved",
   "theorems": [
    "B2.Props.c28_unique",
    "B2.Props.c28_different_bodies"
   ],
   "note": "Exact arithmetic (any ordered field), every history of calls with a fixed listener; solvers, manifolds and time-of-impact routine are arbitrary functions. "
  },
  {
   "property": "C29",
   "status": "proved",
   "theorems": [
    "B2.Props.c29_dynamic"
   ],
   "note": "Exact arithmetic (any ordered field), every history of calls with a fixed listener; solvers, manifolds and time-of-impact routine are arbitrary functions. "
  },
  {
   "property": "C30",
   "status": "proved",
   "theorems": [
    "B2.Props.c30_nothing_dangles",
    "B2.Props.c30_listener",
    "B2.Props.c30_counters",
    "B2.Props.c30_total"
   ],
   "note": "Exact arithmetic (any ordered field), every history of calls with a fixed listener; solvers, manifolds and time-of-impact routine are arbitrary functions. "
  },
  {
   "property": "C31",
   "status": "proved",
   "theorems": [
    "B2.Props.c31_disabled",
    "B2.Props.c31_proxies"
   ],
   "note": "Exact arithmetic (any ordered field), every history of calls with a fixed listener; solvers, manifolds and time-of-impact routine are arbitrary functions. "
  },
  {
   "property": "C32",
   "status": "partial",
   "theorems": [
    "B2.Props.c32_panics",
    "B2.Props.c32_false",
    "B2.Props.c32_partial"
   ],
   "note": "False of the code: set_enabled(true) on an enabled body with a fixture panics (create_proxies asserts there are none). Proved: the panic for every such body, a reachable witness, and the claim for bodies without fixtures."
  },
  {
   "property": "C33",
   "status": "proved",
   "theorems": [
    "B2.Props.c33_static_asleep"
   ],
   "note": "Exact arithmetic (any ordered field), every history of calls with a fixed listener; solvers, manifolds and time-of-impact routine are arbitrary functions. "
  },
  {
   "property": "C34",
   "status": "proved",
   "theorems": [
    "B2.Props.c34_alternate"
   ],
   "note": "Exact arithmetic (any ordered field), every history of calls with a fixed listener; solvers, manifolds and time-of-impact routine are arbitrary functions. "
  },
  {
   "property": "C35",
   "status": "partial",
   "theorems": [
    "B2.Props.c35_panics",
    "B2.Props.c35_false",
    "B2.Props.c35_partial"
   ],
   "note": "False of the code: refilter borrows the fixture it is called on and panics when the fixture has a contact. Proved: the panic in every such case, a reachable witness, and what the call does for a fixture without contacts."
  },
  {
   "property": "C36",
   "status": "proved",
   "theorems": [
    "B2.Props.c36_no_contact",
    "B2.Props.c36_joints_stay"
   ],
   "note": "Exact arithmetic (any ordered field), every history of calls with a fixed listener; solvers, manifolds and time-of-impact routine are arbitrary functions. Proved for all contacts between the joined bodies, awake or not."
  },
  {
   "property": "C39",
   "status": "proved",
   "theorems": [
    "B2.Props.c39_locked",
    "B2.Props.c39_refused"
   ],
   "note": "Exact arithmetic (any ordered field), every history of calls with a fixed listener; solvers, manifolds and time-of-impact routine are arbitrary functions. Filter calls made by the search for new pairs at the very start of step happen before the lock."
  },
  {
   "property": "C38",
   "status": "proved",
   "theorems": [
    "B2.Props.c38_sleep",
    "B2.Props.c38_timer"
   ],
   "note": "Exact arithmetic; every island, every solver outcome and callbacks."
  },
  {
   "property": "C40",
   "status": "proved",
   "theorems": [
    "B2.Props.c40_cleared",
    "B2.Props.c40_kept"
   ],
   "note": "Exact arithmetic (any ordered field), every history of calls with a fixed listener; solvers, manifolds and time-of-impact routine are arbitrary functions. The second half for callbacks that call no body function; forces become zero only where sleeping is allowed by world and body."
  },
  {
   "property": "C41",
   "status": "proved",
   "theorems": [
    "B2.Props.c41_bounded",
    "B2.Props.c41_fuel"
   ],
   "note": "Exact arithmetic (any ordered field), every history of calls with a fixed listener; solvers, manifolds and time-of-impact routine are arbitrary functions. At most nine selections of a contact per step; the number of turns is bounded by nine times the square of the number of fixture children."
  },
  {
   "property": "C43",
   "status": "proved",
   "theorems": [
    "B2.Props.c43_still"
   ],
   "note": "Exact arithmetic (any ordered field), every history of calls with a fixed listener; solvers, manifolds and time-of-impact routine are arbitrary functions. For callbacks that call no body function; also for negative time steps."
  },
  {
   "property": "C61",
   "status": "proved",
   "theorems": [
    "B2.Props.c61_configuration"
   ],
   "note": "Exact arithmetic (any ordered field), every history of calls with a fixed listener; solvers, manifolds and time-of-impact routine are arbitrary functions. For callbacks that call no body function."
  },
  {
   "property": "C37",
   "status": "proved",
   "theorems": [
    "B2.Props.c37_exclusive",
    "B2.Props.c37_cover",
    "B2.Props.c37_linked",
    "B2.Props.c37_reach",
    "B2.Props.c37_total"
   ],
   "note": "Exact arithmetic (any ordered field), every history of calls with a fixed listener; solvers, manifolds and time-of-impact routine are arbitrary functions. Exclusiveness for all callbacks; covering and exactness for post-solve callbacks that change no awake, enabled or sensor flag (a callback that re-enables a contact while islands are being built can change later islands)."
  },
  {
   "property": "C62",
   "status": "proved",
   "theorems": [
    "B2.Props.c62_index"
   ],
   "note": "Exact arithmetic (any ordered field), every history of calls with a fixed listener; solvers, manifolds and time-of-impact routine are arbitrary functions. For post-solve callbacks that change no awake, enabled or sensor flag."
  },
  {
   "property": "C42",
   "status": "partial",
   "theorems": [
    "B2.Props.c42_partial",
    "B2.Props.c42_false"
   ],
   "note": "Exact arithmetic (any ordered field), every history of calls with a fixed listener; solvers, manifolds and time-of-impact routine are arbitrary functions. The claim is false for worlds of more than 64 bodies (the capacity checks of the loop in solve_toi are commented out in the code): c42_false is a witness with 65 bodies. Proved for up to 64 bodies."
  },
  {
   "property": "C63",
   "status": "proved",
   "theorems": [
    "B2.Props.c63_step"
   ],
   "note": "Exact arithmetic (any ordered field), every history of calls with a fixed listener; solvers, manifolds and time-of-impact routine are arbitrary functions. Includes the assertion of the contact solver that every contact of an island has a point (the invariant behind it: a touching contact of solid fixtures has points, and no cached time of impact belongs to a sensor). Narrow phase, time of impact and the numeric solvers are arbitrary functions that do not panic for contacts and islands in good order (NarrowRuns, SolversRun: what the world is proved to ask of them) and give no pulling impulses; C110 is the same for the actual ones. Post-solve callbacks must not enable or disable contacts (PostSolveLinks)."
  },
  {
   "property": "C53",
   "status": "partial",
   "theorems": [
    "B2.Props.c53_total",
    "B2.Props.c53_partial",
    "B2.Props.c53_distance",
    "B2.Props.c53_false"
   ],
   "note": "Exact arithmetic. False as stated: a query that uses up its 20 iterations can report overlap for shapes that are apart (c53_false: a 24-vertex shape). Proved: no panic for all inputs, and the claim whenever fewer than 20 iterations are used."
  },
  {
   "property": "C64",
   "status": "proved",
   "theorems": [
    "B2.Props.c64_exact"
   ],
   "note": "Exact arithmetic, fewer than 20 iterations, as stated."
  },
  {
   "property": "C65",
   "status": "proved",
   "theorems": [
    "B2.Props.c65_radii"
   ],
   "note": "Exact arithmetic with exact square roots."
  },
  {
   "property": "C66",
   "status": "proved",
   "theorems": [
    "B2.Props.c66_total",
    "B2.Props.c66_hit",
    "B2.Props.c66_miss"
   ],
   "note": "Exact arithmetic with exact square roots."
  },
  {
   "property": "C54",
   "status": "proved",
   "theorems": [
    "B2.Props.c54_interval"
   ],
   "note": "Exact arithmetic; all non-empty proxies and all sweeps."
  },
  {
   "property": "C67",
   "status": "proved",
   "theorems": [
    "B2.Props.c67_meaning"
   ],
   "note": "Exact arithmetic. The hypothesis about distance queries is what C64 gives when they need fewer than 20 iterations; it is proved for circles against circles and segments."
  },
  {
   "property": "C68",
   "status": "proved",
   "theorems": [
    "B2.Props.c68_no_tunnelling"
   ],
   "note": "Exact arithmetic; as C67, for motions without rotation."
  },
  {
   "property": "C69",
   "status": "proved",
   "theorems": [
    "B2.Props.c69_contacts_only_push"
   ],
   "note": "Exact arithmetic; what the joints do is any function of the velocities."
  },
  {
   "property": "C70",
   "status": "partial",
   "theorems": [
    "B2.Props.c70_false",
    "B2.Props.c70_friction_partial",
    "B2.Props.c70_friction_law"
   ],
   "note": "False of the code as stated: friction is clamped with the normal impulse from before the normal constraints are solved (c70_false). Proved: the bound by the normal impulse of the previous iteration, and the friction law at the moment friction is solved."
  },
  {
   "property": "C71",
   "status": "proved",
   "theorems": [
    "B2.Props.c71_momentum",
    "B2.Props.c71_angular_momentum"
   ],
   "note": "Exact arithmetic; joints are assumed to conserve them."
  },
  {
   "property": "C72",
   "status": "proved",
   "theorems": [
    "B2.Props.c72_contact_condition"
   ],
   "note": "Exact arithmetic; the second point of a contact is dropped by the solver when it is nearly redundant."
  },
  {
   "property": "C73",
   "status": "proved",
   "theorems": [
    "B2.Props.c73_iterations",
    "B2.Props.c73_energy"
   ],
   "note": "Exact arithmetic; joints are assumed not to add energy."
  },
  {
   "property": "C74",
   "status": "proved",
   "theorems": [
    "B2.Props.c74_centre_of_mass",
    "B2.Props.c74_bounded",
    "B2.Props.c74_rest",
    "B2.Props.c74_no_overshoot"
   ],
   "note": "Exact arithmetic."
  },
  {
   "property": "C75",
   "status": "proved",
   "theorems": [
    "B2.Props.c75_velocity",
    "B2.Props.c75_position",
    "B2.Props.c75_toi"
   ],
   "note": "Joints are assumed not to move the body."
  },
  {
   "property": "C76",
   "status": "proved",
   "theorems": [
    "B2.Props.c76_touching",
    "B2.Props.c76_world"
   ],
   "note": "Exact arithmetic."
  },
  {
   "property": "C77",
   "status": "partial",
   "theorems": [
    "B2.Props.c77_false",
    "B2.Props.c77_complete",
    "B2.Props.c77_sound_partial",
    "B2.Props.c77_world",
    "B2.Props.c77_world_inside"
   ],
   "note": "Touching shapes always have a contact point. The converse is false of the code: in front of the tip of a thin wedge a circle is reported although it does not touch (c77_false), because a centre less than EPSILON above all faces counts as inside. Proved for all other centres."
  },
  {
   "property": "C78",
   "status": "proved",
   "theorems": [
    "B2.Props.c78_two_sided",
    "B2.Props.c78_one_sided",
    "B2.Props.c78_chain",
    "B2.Props.c78_world"
   ],
   "note": "Exact arithmetic."
  },
  {
   "property": "C79",
   "status": "proved",
   "theorems": [
    "B2.Props.c79_sound",
    "B2.Props.c79_world"
   ],
   "note": "Exact arithmetic. Only the second shape (a circle or polygon) must be smaller than MAX_FLT; the transforms are arbitrary."
  },
  {
   "property": "C80",
   "status": "partial",
   "theorems": [
    "B2.Props.c80_false",
    "B2.Props.c80_ids_partial",
    "B2.Props.c80_warm"
   ],
   "note": "False of the code for an edge or chain against a polygon whose face 0 is the reference face: both points can have the same id (c80_false). Proved for all other manifolds, together with what distinct ids mean for warm starting."
  },
  {
   "property": "C81",
   "status": "partial",
   "theorems": [
    "B2.Props.c81_separated_partial",
    "B2.Props.c81_apart_false",
    "B2.Props.c81_overlap_false"
   ],
   "note": "False of the code in both directions: boxes corner to corner are reported a little too far apart (c81_apart_false), and polygons with nearly level neighbouring faces can overlap without a contact point (c81_overlap_false). Proved: polygons that a face keeps apart by more than the radii have no contact point. For boxes the second direction holds (C132)."
  },
  {
   "property": "C82",
   "status": "proved",
   "theorems": [
    "B2.Props.c82_momentum",
    "B2.Props.c82_angular_momentum",
    "B2.Props.c82_total",
    "B2.Props.c82_gear"
   ],
   "note": "Exact arithmetic. Gears: momentum only, for four different bodies."
  },
  {
   "property": "C83",
   "status": "partial",
   "theorems": [
    "B2.Props.c83_reaction_partial",
    "B2.Props.c83_mouse",
    "B2.Props.c83_pulley_false",
    "B2.Props.c83_gear_false",
    "B2.Props.c83_distance_false"
   ],
   "note": "False of the code for pulleys (sign and ratio are missing), for gears (the force on body A is reported, not that on B), and for distance joints without warm starting (limit impulses of the step before are still counted). Proved for all other joints, and for mouse joints the force on B."
  },
  {
   "property": "C84",
   "status": "proved",
   "theorems": [
    "B2.Props.c84_bounds"
   ],
   "note": "Exact arithmetic with exact square roots. Limit impulses of a distance joint must not be negative before the step, which holds for new joints and is kept by the theorem."
  },
  {
   "property": "C85",
   "status": "proved",
   "theorems": [
    "B2.Props.c85_others",
    "B2.Props.c85_mouse_false"
   ],
   "note": "c85_mouse_false is a witness for the exception in the statement: the mouse joint slows a body of infinite moment of inertia."
  },
  {
   "property": "C86",
   "status": "proved",
   "theorems": [
    "B2.Props.c86_settled",
    "B2.Props.c86_wheel_false"
   ],
   "note": "Exact arithmetic. A wheel joint does not normalize the axis it is given, and the claim fails for such an axis (c86_wheel_false); hence unit axes in the quantifier."
  },
  {
   "property": "C87",
   "status": "proved",
   "theorems": [
    "B2.Props.c87_energy",
    "B2.Props.c87_island",
    "B2.Props.c87_distance_false"
   ],
   "note": "Exact arithmetic. c87_distance_false is a witness for the condition on distance joints: without warm starting their limits keep the impulses of the step before, and a slack rope sets bodies at rest in motion."
  },
  {
   "property": "C88",
   "status": "partial",
   "theorems": [
    "B2.Props.c88_friction_partial",
    "B2.Props.c88_false"
   ],
   "note": "False of the code when the impulse is clamped and the anchors are not at the centres of mass: the clamped impulse can add energy (c88_false). Proved for anchors at the centres of mass, and for any anchors in the first iteration."
  },
  {
   "property": "C89",
   "status": "proved",
   "theorems": [
    "B2.Props.c89_coupled",
    "B2.Props.c89_constant",
    "B2.Props.c89_bodies_false",
    "B2.Props.c89_aligned_false"
   ],
   "note": "Exact arithmetic. Witnesses show that the conditions in the quantifier are needed: a gear whose definition names other bodies (c89_bodies_false) and a prismatic joint with anchors off its axis (c89_aligned_false)."
  },
  {
   "property": "C90",
   "status": "proved",
   "theorems": [
    "B2.Props.c90_complete",
    "B2.Props.c90_pending",
    "B2.Props.c90_default_filter_steady",
    "B2.Props.c90_joint_false"
   ],
   "note": "c90_pending is the invariant between steps. c90_joint_false is the witness for the pairs left out: destroying a joint flags existing contacts but does not put proxies in the buffer, so two overlapping bodies stay without a contact until one of them moves far enough."
  },
  {
   "property": "C91",
   "status": "proved",
   "theorems": [
    "B2.Props.c91_pinned",
    "B2.Props.c91_reset",
    "B2.Props.c91_create"
   ],
   "note": "Exact arithmetic, exp and atan2 are parameters."
  },
  {
   "property": "C92",
   "status": "proved",
   "theorems": [
    "B2.Props.c92_momentum",
    "B2.Props.c92_height_false"
   ],
   "note": "Exact arithmetic. c92_height_false is the witness for the condition on the height model: a rope made folded sets itself in motion."
  },
  {
   "property": "C93",
   "status": "proved",
   "theorems": [
    "B2.Props.c93_finite",
    "B2.Props.c93_create",
    "B2.Props.c93_fixed_false",
    "B2.Props.c93_fixed_triangle_false",
    "B2.Props.c93_hertz_false"
   ],
   "note": "The model returns none on a division by zero. The negative theorems show that the conditions are needed: three consecutive fixed vertices (with the default bending model or the triangle model) and XPBD stretching with the default frequency 0 divide by zero in every step."
  },
  {
   "property": "C94",
   "status": "proved",
   "theorems": [
    "B2.Props.c94_rest",
    "B2.Props.c94_triangle_false"
   ],
   "note": "Exact arithmetic with atan2(0, x) = 0 for x > 0. c94_triangle_false: the triangle model moves a straight rope with unequal segments."
  },
  {
   "property": "C95",
   "status": "proved",
   "theorems": [
    "B2.Props.c95_consistent"
   ],
   "note": "Exact arithmetic (any ordered field), every history of calls with a fixed listener; solvers, manifolds and time-of-impact routine are arbitrary functions. "
  },
  {
   "property": "C96",
   "status": "proved",
   "theorems": [
    "B2.Props.c96_bodies",
    "B2.Props.c96_save"
   ],
   "note": "Data format and user data are left out; the parameters of a joint class are one opaque value. Exact arithmetic (any ordered field), every history of calls with a fixed listener; solvers, manifolds and time-of-impact routine are arbitrary functions. "
  },
  {
   "property": "C97",
   "status": "proved",
   "theorems": [
    "B2.Props.c97_mass"
   ],
   "note": "Exact arithmetic. Mass data set with set_mass_data is not saved."
  },
  {
   "property": "C98",
   "status": "partial",
   "theorems": [
    "B2.Props.c98_partial",
    "B2.Props.c98_false"
   ],
   "note": "False of the code: while the fixtures are created the centre of mass moves and reset_mass_data adds w x shift to the velocity, which was already that of the centre of mass (c98_false). c98_partial gives the loaded velocity and shows that it is the saved one if the body does not turn, is not dynamic or has its centre of mass at its origin."
  },
  {
   "property": "C99",
   "status": "partial",
   "theorems": [
    "B2.Props.c99_partial",
    "B2.Props.c99_never",
    "B2.Props.c99_false",
    "B2.Props.c99_twice"
   ],
   "note": "False of the code: bodies are numbered in list order, but loading reverses the list before the numbers are looked up, so a joint is attached to the mirrored bodies; c99_never: in every world with a joint at least one joint is on the wrong bodies. c99_partial says exactly what is loaded; c99_twice: a second round trip puts it right."
  },
  {
   "property": "C100",
   "status": "partial",
   "theorems": [
    "B2.Props.c100_partial",
    "B2.Props.c100_false_damping",
    "B2.Props.c100_false_mouse",
    "B2.Props.c100_false_gear"
   ],
   "note": "False of the code: negative damping set by a setter, a mouse joint beside a gear joint, or a gear joint whose joints end on static bodies after being mirrored (C99). c100_partial: worlds without gear joints, with dampings and densities that are not negative and solid fixtures can be loaded."
  },
  {
   "property": "C101",
   "status": "proved",
   "theorems": [
    "B2.Props.c101_static",
    "B2.Props.c101_static_false"
   ],
   "note": "Post-solve callbacks must not enable or disable contacts. Solvers are arbitrary except for HeavyStay / FreeStay (the statements C75, C79 and C85 prove of the contact solver and the joints). c101_static_false is the witness for the condition on definitions: a static body defined with a velocity drifts when something touches it. Exact arithmetic (any ordered field), every history of calls with a fixed listener; solvers, manifolds and time-of-impact routine are arbitrary functions. "
  },
  {
   "property": "C102",
   "status": "proved",
   "theorems": [
    "B2.Props.c102_kinematic"
   ],
   "note": "Post-solve callbacks must not enable or disable contacts. Solvers are arbitrary except for HeavyStay / FreeStay (the statements C75, C79 and C85 prove of the contact solver and the joints). Exact arithmetic (any ordered field), every history of calls with a fixed listener; solvers, manifolds and time-of-impact routine are arbitrary functions. "
  },
  {
   "property": "C103",
   "status": "proved",
   "theorems": [
    "B2.Props.c103_free"
   ],
   "note": "Post-solve callbacks must not enable or disable contacts. Solvers are arbitrary except for HeavyStay / FreeStay (the statements C75, C79 and C85 prove of the contact solver and the joints). Exact arithmetic (any ordered field), every history of calls with a fixed listener; solvers, manifolds and time-of-impact routine are arbitrary functions. "
  },
  {
   "property": "C104",
   "status": "proved",
   "theorems": [
    "B2.Props.c104_disabled"
   ],
   "note": "Exact arithmetic (any ordered field), every history of calls with a fixed listener; solvers, manifolds and time-of-impact routine are arbitrary functions. "
  },
  {
   "property": "C105",
   "status": "proved",
   "theorems": [
    "B2.Props.c105_boxes"
   ],
   "note": "Post-solve callbacks must not enable or disable contacts. Solvers are arbitrary except for HeavyStay / FreeStay (the statements C75, C79 and C85 prove of the contact solver and the joints). The conditions on kinematic bodies (Spec.Steady) are needed because a kinematic body that is put to sleep while moving, or is slowed to the largest motion per step, has a position its sweep does not describe. Exact arithmetic (any ordered field), every history of calls with a fixed listener; solvers, manifolds and time-of-impact routine are arbitrary functions. "
  },
  {
   "property": "C106",
   "status": "proved",
   "theorems": [
    "B2.Props.c106_query",
    "B2.Props.c106_fat"
   ],
   "note": "Post-solve callbacks must not enable or disable contacts. Solvers are arbitrary except for HeavyStay / FreeStay (the statements C75, C79 and C85 prove of the contact solver and the joints). Exact arithmetic (any ordered field), every history of calls with a fixed listener; solvers, manifolds and time-of-impact routine are arbitrary functions. "
  },
  {
   "property": "C107",
   "status": "proved",
   "theorems": [
    "B2.Props.c107_cast",
    "B2.Props.c107_all",
    "B2.Props.c107_closest",
    "B2.Props.c107_short"
   ],
   "note": "Post-solve callbacks must not enable or disable contacts. Solvers are arbitrary except for HeavyStay / FreeStay (the statements C75, C79 and C85 prove of the contact solver and the joints). What a ray hits is defined by the ray casts of the shapes, which C50-C52 are about. Exact arithmetic (any ordered field), every history of calls with a fixed listener; solvers, manifolds and time-of-impact routine are arbitrary functions. "
  },
  {
   "property": "C108",
   "status": "proved",
   "theorems": [
    "B2.Props.c108_inside",
    "B2.Props.c108_found"
   ],
   "note": "Post-solve callbacks must not enable or disable contacts. Solvers are arbitrary except for HeavyStay / FreeStay (the statements C75, C79 and C85 prove of the contact solver and the joints). Exact arithmetic (any ordered field), every history of calls with a fixed listener; solvers, manifolds and time-of-impact routine are arbitrary functions. "
  },
  {
   "property": "C109",
   "status": "partial",
   "theorems": [
    "B2.Props.c109_false",
    "B2.Props.c109_sub_false",
    "B2.Props.c109_partial"
   ],
   "note": "Proofs/WorldPoints*.lean. False of the code: set_sensor(false) on a fixture whose touching sensor contact is not updated before it enters an island (its dynamic body sleeps and is reached through a joint or another contact) leads to a contact without points in the solver, which asserts; set_sensor(true) between the parts of a sub-stepped step lets solve_toi use the time of impact it has cached for the now-sensor contact. Proved for fixtures without contacts, and for set_sensor(true) after a completed step. Manifolds set by hand must have one or two points and no negative normal impulse."
  },
  {
   "property": "C110",
   "status": "proved",
   "theorems": [
    "B2.Props.c110_steps"
   ],
   "note": "Exact arithmetic (ordered field with exact square root, sine, cosine; over the reals). The routines are those of Model/Engine.lean; user callbacks and joint states are arbitrary functions. Rests on C63 (c63_step) with env_narrowRuns (C79, C53, C54) and env_solversRun (contact solver, joints, islands)."
  },
  {
   "property": "C111",
   "status": "proved",
   "theorems": [
    "B2.Props.c111_static",
    "B2.Props.c111_disabled"
   ],
   "note": "Exact arithmetic (ordered field with exact square root, sine, cosine; over the reals). The routines are those of Model/Engine.lean; user callbacks and joint states are arbitrary functions. C101 and C104 with env_heavyStay and env_toiForward, iterated."
  },
  {
   "property": "C112",
   "status": "proved",
   "theorems": [
    "B2.Props.c112_kinematic",
    "B2.Props.c112_free"
   ],
   "note": "Exact arithmetic (ordered field with exact square root, sine, cosine; over the reals). The routines are those of Model/Engine.lean; user callbacks and joint states are arbitrary functions. C102 and C103 with env_heavyStay, env_freeStay and env_toiForward."
  },
  {
   "property": "C113",
   "status": "proved",
   "theorems": [
    "B2.Props.c113_query",
    "B2.Props.c113_all",
    "B2.Props.c113_closest"
   ],
   "note": "Exact arithmetic (ordered field with exact square root, sine, cosine; over the reals). The routines are those of Model/Engine.lean; user callbacks and joint states are arbitrary functions. C106 and C107 with env_heavyStay and env_toiForward."
  },
  {
   "property": "C114",
   "status": "proved",
   "theorems": [
    "B2.Props.c114_program"
   ],
   "note": "Exact arithmetic (ordered field with exact square root, sine, cosine; over the reals). The routines are those of Model/Engine.lean; user callbacks and joint states are arbitrary functions. Contracts are Call.Valid in Spec/Calls.lean; the assertions of the constructors of particular joint kinds (lengths, ratios) are not among the calls: joint states are arbitrary. Rests on C63/C110 and on an invariant over all fixtures (Sturdy, Proofs/CallTotal.lean)."
  },
  {
   "property": "C115",
   "status": "proved",
   "theorems": [
    "B2.Props.c115_shape"
   ],
   "note": "Exact arithmetic (ordered field with exact square root, sine, cosine; over the reals). The routines are those of Model/Engine.lean; user callbacks and joint states are arbitrary functions. The area condition is the one compute_mass asserts."
  },
  {
   "property": "C116",
   "status": "proved",
   "theorems": [
    "B2.Props.c116_flag",
    "B2.Props.c116_kept",
    "B2.Props.c116_true",
    "B2.Props.c116_meet"
   ],
   "note": "Exact arithmetic (ordered field with exact square root, sine, cosine; over the reals). The routines are those of Model/Engine.lean; user callbacks and joint states are arbitrary functions. Listeners: CallbacksTame, LeavesBodies. 'The collision routine finds points' is exact for circle/circle and two-sided edge/circle (C76, C78), and is never too few for polygon/circle (C77)."
  },
  {
   "property": "C117",
   "status": "proved",
   "theorems": [
    "B2.Props.c117_contact"
   ],
   "note": "Joins C49 (boxes contain shapes), C105 (fat boxes contain boxes) and C90 (overlapping fat boxes have contacts)."
  },
  {
   "property": "C118",
   "status": "proved",
   "theorems": [
    "B2.Props.c118_noticed"
   ],
   "note": "Exact arithmetic (ordered field with exact square root, sine, cosine; over the reals). The routines are those of Model/Engine.lean; user callbacks and joint states are arbitrary functions. Joins C117's argument, C116, and C76, C77, C78. Searched: newContacts is set (by creating fixtures, enabling, set_transform), or the world comes straight from a completed step of positive length; set_type and refiltering do not set the flag (see the findings in DESIGN.md). Polygon/polygon is excluded because the claim is false of the code (C81)."
  },
  {
   "property": "C119",
   "status": "proved",
   "theorems": [
    "B2.Props.c119_momentum",
    "B2.Props.c119_impulse",
    "B2.Props.c119_conserved"
   ],
   "note": "Exact arithmetic (ordered field with exact square root, sine, cosine; over the reals). The routines are those of Model/Engine.lean; user callbacks and joint states are arbitrary functions. Isolated: no contact that transmits forces after the step and no joint leads out of the set. Conditions found necessary: none of the bodies is put to sleep (that zeroes its velocity) or slowed down by the speed limit; the post-solve callback is calm; callbacks do not touch bodies. Asked of the square root: RootBelow, which ElemLaws implies (root_below)."
  },
  {
   "property": "C120",
   "status": "proved",
   "theorems": [
    "B2.Props.c120_centre",
    "B2.Props.c120_straight"
   ],
   "note": "Exact arithmetic (ordered field with exact square root, sine, cosine; over the reals). The routines are those of Model/Engine.lean; user callbacks and joint states are arbitrary functions. Same setting as C119; the speed limit does not matter for c120_centre, and nothing is asked of the square root."
  },
  {
   "property": "C121",
   "status": "proved",
   "theorems": [
    "B2.Props.c121_step",
    "B2.Props.c121_steps"
   ],
   "note": "Holds for every environment: no hypothesis about solvers, joints or callbacks is needed, because none of them is called. Proofs/WorldAsleep.lean. Exact arithmetic (any ordered field), every history of calls with a fixed listener; solvers, manifolds and time-of-impact routine are arbitrary functions. "
  },
  {
   "property": "C122",
   "status": "proved",
   "theorems": [
    "B2.Props.c122_first_order",
    "B2.Props.c122_exact",
    "B2.Props.c122_flag",
    "B2.Props.c122_prismatic_false"
   ],
   "note": "First order: the points move as with the constant velocities that take the bodies to their new places (drift in Spec/JointPos.lean). Left out of c122_first_order: limits of revolute joints between bodies that can turn, wheel and distance joints (they use arms and masses of the velocity phase, which is not first order exact after the bodies have moved). Left out of c122_flag: limits of revolute and wheel joints, gears. c122_prismatic_false is the exception of the statement. Exact arithmetic (any ordered field), every history of calls with a fixed listener; solvers, manifolds and time-of-impact routine are arbitrary functions. "
  },
  {
   "property": "C123",
   "status": "proved",
   "theorems": [
    "B2.Props.c123_no_impact_left",
    "B2.Props.c123_meaning"
   ],
   "note": "c123_no_impact_left is about the whole step of the engine; c123_meaning says with C67 and C68 what the absence of an impact means for bodies that do not turn, if distance queries are good (as they are for circles and segments, small_good). Event times are not claimed to be monotone; non-dynamic bodies follow one course during the step, so for them no bound on the start of the search is needed. Exact arithmetic (any ordered field), every history of calls with a fixed listener; solvers, manifolds and time-of-impact routine are arbitrary functions. "
  },
  {
   "property": "C124",
   "status": "proved",
   "theorems": [
    "B2.Props.c124_reload"
   ],
   "note": "Made (Spec/JointDef.lean): created from any definition, then any sequence of setters and solver calls. Mouse and gear joints have no serializer (mouse) or are saved through other joints (gear). The data format is abstract: a list of named values."
  },
  {
   "property": "C125",
   "status": "partial",
   "theorems": [
    "B2.Props.c125_counted_partial",
    "B2.Props.c125_counted_false"
   ],
   "note": "False of distance joints: six fields are announced and eight are written. Proved for all other classes."
  },
  {
   "property": "C126",
   "status": "proved",
   "theorems": [
    "B2.Props.c126_still"
   ],
   "note": "Exact arithmetic (any ordered field), every history of calls with a fixed listener; solvers, manifolds and time-of-impact routine are arbitrary functions. "
  },
  {
   "property": "C127",
   "status": "proved",
   "theorems": [
    "B2.Props.c127_initialize",
    "B2.Props.c127_axis"
   ],
   "note": "Room (Spec/JointInit.lean): the limits contain 0 and are not almost equal; the points of a distance joint are linear_slop apart. Exact arithmetic (any ordered field), every history of calls with a fixed listener; solvers, manifolds and time-of-impact routine are arbitrary functions. "
  },
  {
   "property": "C128",
   "status": "proved",
   "theorems": [
    "B2.Props.c128_shift_origin"
   ],
   "note": "Joint by joint; the loop of the world over its joint list is not part of the theorem. Exact arithmetic."
  },
  {
   "property": "C129",
   "status": "proved",
   "theorems": [
    "B2.Props.c129_box_points",
    "B2.Props.c129_box_angle_points",
    "B2.Props.c129_box_angle_proper",
    "B2.Props.c129_box_angle_mass",
    "B2.Props.c129_setters"
   ],
   "note": "Exact arithmetic (any ordered field), every history of calls with a fixed listener; solvers, manifolds and time-of-impact routine are arbitrary functions. "
  },
  {
   "property": "C130",
   "status": "proved",
   "theorems": [
    "B2.Props.c130_max_balance",
    "B2.Props.c130_area_ratio"
   ],
   "note": "Balance: also for rounded arithmetic (RoundLaws). Area ratio: exact arithmetic."
  },
  {
   "property": "C131",
   "status": "proved",
   "theorems": [
    "B2.Props.c131_view",
    "B2.Props.c131_questions"
   ],
   "note": "Exact arithmetic. The shift of the joints is C128."
  },
  {
   "property": "C132",
   "status": "proved",
   "theorems": [
    "B2.Props.c132_overlap",
    "B2.Props.c132_box_rectangle",
    "B2.Props.c132_noticed"
   ],
   "note": "Sum of the diagonals below MAX_FLOAT, sum of the radii at least LINEAR_SLOP. Exact arithmetic (any ordered field), every history of calls with a fixed listener; solvers, manifolds and time-of-impact routine are arbitrary functions. "
  },
  {
   "property": "C133",
   "status": "proved",
   "theorems": [
    "B2.Props.c133_edge",
    "B2.Props.c133_noticed",
    "B2.Props.c133_shallow_false"
   ],
   "note": "Sum of the radii at most 0.03, size of the rectangle below MAX_FLOAT, edge longer than EPSILON. c133_shallow_false shows that the depth is needed. Exact arithmetic (any ordered field), every history of calls with a fixed listener; solvers, manifolds and time-of-impact routine are arbitrary functions. "
  },
  {
   "property": "C134",
   "status": "proved",
   "theorems": [
    "B2.Props.c134_draw",
    "B2.Props.c134_boxes",
    "B2.Props.c134_rope",
    "B2.Props.c134_rope_false"
   ],
   "note": "c134_rope_false: the draw of a rope that was never created panics. Exact arithmetic (any ordered field), every history of calls with a fixed listener; solvers, manifolds and time-of-impact routine are arbitrary functions. "
  },
  {
   "property": "C135",
   "status": "proved",
   "theorems": [
    "B2.Props.c135_free",
    "B2.Props.c135_damped",
    "B2.Props.c135_flight",
    "B2.Props.c135_engine"
   ],
   "note": "Post-solve callbacks must not enable or disable contacts. Solvers are arbitrary except for HeavyStay / FreeStay (the statements C75, C79 and C85 prove of the contact solver and the joints). c135_engine: for the engine's own solvers, with joints that stay with their bodies (Seated). Exact arithmetic (any ordered field), every history of calls with a fixed listener; solvers, manifolds and time-of-impact routine are arbitrary functions. "
  },
  {
   "property": "C136",
   "status": "proved",
   "theorems": [
    "B2.Props.c136_together"
   ],
   "note": "Exact arithmetic (ordered field with exact square root, sine, cosine; over the reals). The routines are those of Model/Engine.lean; user callbacks and joint states are arbitrary functions. Same setting as C119 and C120, over any number of steps of one length. Exact arithmetic (any ordered field), every history of calls with a fixed listener; solvers, manifolds and time-of-impact routine are arbitrary functions. "
  },
  {
   "property": "C137",
   "status": "proved",
   "theorems": [
    "B2.Props.c137_bounce",
    "B2.Props.c137_bounce_lawful",
    "B2.Props.c137_rebound"
   ],
   "note": "Exact arithmetic (ordered field with exact square root, sine, cosine; over the reals). The routines are those of Model/Engine.lean; user callbacks and joint states are arbitrary functions. The manifold is one as the narrow phase makes them (Sound), the inverse masses are not negative and one is positive. Exact arithmetic (any ordered field), every history of calls with a fixed listener; solvers, manifolds and time-of-impact routine are arbitrary functions. "
  },
  {
   "property": "C138",
   "status": "proved",
   "theorems": [
    "B2.Props.c138_straight",
    "B2.Props.c138_straight_circle",
    "B2.Props.c138_flat",
    "B2.Props.c138_flat_circle",
    "B2.Props.c138_corner",
    "B2.Props.c138_corner_circle",
    "B2.Props.c138_valley",
    "B2.Props.c138_behind",
    "B2.Props.c138_front_false"
   ],
   "note": "Circles: the centre is farther than EPSILON from the vertices (else the normal is (1, 0)). c138_front_false is the last sentence. Exact arithmetic (any ordered field), every history of calls with a fixed listener; solvers, manifolds and time-of-impact routine are arbitrary functions. "
  },
  {
   "property": "C139",
   "status": "proved",
   "theorems": [
    "B2.Props.c139_energy",
    "B2.Props.c139_step",
    "B2.Props.c139_step_lawful"
   ],
   "note": "Exact arithmetic (ordered field with exact square root, sine, cosine; over the reals). The routines are those of Model/Engine.lean; user callbacks and joint states are arbitrary functions. Continuous physics off. The manifolds are as the narrow phase makes them (Sound), and one body of each contact and joint has a positive inverse mass; joints work on the bodies they were created with (Seated), which leaves out most gears. Of root, sine and cosine only SoftLaws are asked. c139_step also says that the world stays unfed, so steps can be chained. Exact arithmetic (any ordered field), every history of calls with a fixed listener; solvers, manifolds and time-of-impact routine are arbitrary functions. "
  },
  {
   "property": "C140",
   "status": "proved",
   "theorems": [
    "B2.Props.c140_manifold",
    "B2.Props.c140_relative",
    "B2.Props.c140_contact",
    "B2.Props.c140_concentric",
    "B2.Props.c140_point",
    "B2.Props.c140_ray",
    "B2.Props.c140_distance",
    "B2.Props.c140_shapeCast"
   ],
   "note": "c140_concentric is the exception named in the statement. c140_distance is for computations that end before 20 iterations. Exact arithmetic (any ordered field), every history of calls with a fixed listener; solvers, manifolds and time-of-impact routine are arbitrary functions. "
  },
  {
   "property": "C141",
   "status": "proved",
   "theorems": [
    "B2.Props.c141_rest",
    "B2.Props.c141_rest_forever"
   ],
   "note": "Exact arithmetic (ordered field with exact square root, sine, cosine; over the reals). The routines are those of Model/Engine.lean; user callbacks and joint states are arbitrary functions. What lying on the ground is, is the structure BornBy of Spec/Rest.lean; its conditions on the contact are about the manifold the step uses. Exact arithmetic (any ordered field), every history of calls with a fixed listener; solvers, manifolds and time-of-impact routine are arbitrary functions. "
  },
  {
   "property": "C142",
   "status": "proved",
   "theorems": [
    "B2.Props.c142_sleeper",
    "B2.Props.DozeEx.c142_long_false"
   ],
   "note": "Exact arithmetic (ordered field with exact square root, sine, cosine; over the reals). The routines are those of Model/Engine.lean; user callbacks and joint states are arbitrary functions. c142_long_false is the last sentence. "
  },
  {
   "property": "C143",
   "status": "proved",
   "theorems": [
    "B2.Props.c143_awake",
    "B2.Props.c143_timer"
   ],
   "note": "Exact arithmetic (ordered field with exact square root, sine, cosine; over the reals). The routines are those of Model/Engine.lean; user callbacks and joint states are arbitrary functions. "
  },
  {
   "property": "C144",
   "status": "proved",
   "theorems": [
    "B2.Props.c144_call",
    "B2.Props.c144_history"
   ],
   "note": "Exact arithmetic (any ordered field), every history of calls with a fixed listener; solvers, manifolds and time-of-impact routine are arbitrary functions. "
  },
  {
   "property": "C145",
   "status": "proved",
   "theorems": [
    "B2.Props.c145_step"
   ],
   "note": "Exact arithmetic (any ordered field), every history of calls with a fixed listener; solvers, manifolds and time-of-impact routine are arbitrary functions. "
  },
  {
   "property": "C146",
   "status": "partial",
   "theorems": [
    "B2.Props.c146_island_partial",
    "B2.Props.c146_step_partial",
    "B2.Props.c146_toi",
    "B2.Props.MemoryEx.c146_distance_false"
   ],
   "note": "As stated the property is false of the code: a distance joint keeps the impulses of its limits although warm starting is off (c146_distance_false). c146_island_partial proves it for islands in whose distance joints those impulses are zero, for all other joints and all contacts; c146_step_partial proves for whole steps that the solvers may as well be shown no impulses, under the same condition; c146_toi proves this of the continuous phase without conditions. Exact arithmetic (any ordered field)."
  },
  {
   "property": "C147",
   "status": "proved",
   "theorems": [
    "B2.Props.c147_impulse",
    "B2.Props.c147_center",
    "B2.Props.c147_angular"
   ],
   "note": "Exact arithmetic (any ordered field), every history of calls with a fixed listener; solvers, manifolds and time-of-impact routine are arbitrary functions. "
  },
  {
   "property": "C148",
   "status": "proved",
   "theorems": [
    "B2.Props.c148_set"
   ],
   "note": "Exact arithmetic (any ordered field), every history of calls with a fixed listener; solvers, manifolds and time-of-impact routine are arbitrary functions. "
  },
  {
   "property": "C149",
   "status": "partial",
   "theorems": [
    "B2.Props.c149_round_partial",
    "B2.Props.BodyGetEx.c149_round_false",
    "B2.Props.BodyGetEx.c149_massless_false"
   ],
   "note": "As stated the property is false of the code: the call panics on a body with mass off its origin and no inertia, and gives a mass of one to a body without mass. c149_round_partial proves it for bodies with mass that can turn, or that have no inertia and either fixed rotation or their center at the origin. Exact arithmetic (any ordered field)."
  },
  {
   "property": "C150",
   "status": "proved",
   "theorems": [
    "B2.Props.c150_points"
   ],
   "note": "Exact arithmetic (any ordered field), every history of calls with a fixed listener; solvers, manifolds and time-of-impact routine are arbitrary functions. "
  }
 ]
}