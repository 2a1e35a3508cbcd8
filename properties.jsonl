{"id": "C01", "title": "Fixture list behaves as a sequence", "statement": "The list of fixtures of a body, as seen by iterating it, is exactly the sequence obtained by prepending on every insertion and deleting the given element on every removal; removing an element that is not in the list panics instead of corrupting it, and clearing empties it.", "quantifier": "every finite history of push_front / remove / remove_all on one list, every list length, every position of the removed element", "why_tests_cant": "pointer relinking errors depend on the position of the node and on the whole insertion/removal history", "anchors": ["src/b2rs_linked_list.rs: LinkedList::push_front, remove, remove_all, iter"]}
{"id": "C02", "title": "Body/joint/contact lists behave as a sequence", "statement": "The doubly linked lists exposed by the world and by bodies (bodies, joints, contacts, contact edges, joint edges), as seen by iterating them, are exactly the sequence obtained by prepending on insertion and deleting the given member on removal; next/prev links stay mutually consistent.", "quantifier": "every finite history of push_front of absent nodes and remove of member nodes, any length", "why_tests_cant": "prev/next consistency is a history invariant; a test fixes one history", "anchors": ["src/b2rs_double_linked_list.rs: DoubleLinkedList::push_front, remove, iter"]}
{"id": "C03", "title": "Removing the current element while iterating is safe", "statement": "A loop that walks one of these lists and removes the element it has just been handed (as destroy_body, set_type and set_enabled do with contacts) still visits every element that was in the list at the start exactly once, in order, and ends with the removed elements gone.", "quantifier": "every list and every choice of which visited elements are removed", "why_tests_cant": "the set of removed elements is an arbitrary subset chosen at run time", "anchors": ["src/b2rs_double_linked_list.rs: Iter::next, remove", "src/private/dynamics/b2_body.rs: set_type", "src/private/dynamics/b2_world.rs: destroy_body"]}
{"id": "C04", "title": "Growable stack is last-in first-out at every size", "statement": "Pop returns the most recently pushed element that has not been popped yet, count equals the number of such elements, and this is unaffected by spilling from the inline array to the heap; pop on an empty stack panics.", "quantifier": "every history of push/pop, every inline capacity N", "why_tests_cant": "the spill boundary N can be crossed in either direction arbitrarily often", "anchors": ["src/b2_growable_stack.rs: B2growableStack::push, pop, get_count"]}
{"id": "C05", "title": "Dynamic tree stays well formed and never panics", "statement": "Starting from a new tree, after any valid history of proxy creations, destructions and moves, no operation panics or loops forever and the tree satisfies its own validate(): parent/child links agree, every internal node has two children, heights are right, every internal box is the union of its children's boxes, and used nodes plus free nodes account for the whole pool.", "quantifier": "every history of create_proxy/destroy_proxy/move_proxy with live ids, every AABB, every displacement, unbounded pool growth", "why_tests_cant": "insertion position and rotations depend on the entire history of boxes", "anchors": ["src/private/collision/b2_dynamic_tree.rs: create_proxy, destroy_proxy, move_proxy, insert_leaf, remove_leaf, balance, allocate_node, free_node, validate"]}
{"id": "C06", "title": "Proxy ids are stable names for the user's data", "statement": "create_proxy returns an id different from every live proxy id; from then until that proxy is destroyed, get_user_data(id) returns the data it was created with and get_fat_aabb(id) returns the box last stored for it, no matter what is done to other proxies.", "quantifier": "every history of operations on other proxies in between", "why_tests_cant": "tree rotations and node recycling may clobber a leaf only in particular histories", "anchors": ["src/private/collision/b2_dynamic_tree.rs: create_proxy, move_proxy, allocate_node, free_node", "src/b2_dynamic_tree.rs: get_user_data, get_fat_aabb"]}
{"id": "C07", "title": "Tree query reports exactly the overlapping proxies, once each", "statement": "query(aabb) invokes the callback for precisely the live proxies whose fat AABB overlaps aabb, each exactly once, as long as the callback returns true.", "quantifier": "every reachable tree, every query box", "why_tests_cant": "a wrong prune only shows for particular trees and boxes", "anchors": ["src/b2_dynamic_tree.rs: query", "src/b2_collision.rs: b2_test_overlap"]}
{"id": "C08", "title": "Query stops when the callback says so", "statement": "When the callback returns false the query performs no further callback; the callbacks performed are an initial segment of those a never-stopping callback would have received.", "quantifier": "every reachable tree, query box and (stateful) callback", "why_tests_cant": "the callback is arbitrary user code", "anchors": ["src/b2_dynamic_tree.rs: query"]}
{"id": "C09", "title": "Fat AABB always covers the proxy's real AABB", "statement": "After create_proxy and after every move_proxy, whatever it returned, the stored fat AABB contains the tight AABB last passed in; move_proxy returning false left the tree untouched, and returning true marked the proxy as moved.", "quantifier": "every tight AABB, every displacement, every prior fat AABB", "why_tests_cant": "the early-exit test in move_proxy depends on arbitrary real-valued boxes", "anchors": ["src/private/collision/b2_dynamic_tree.rs: create_proxy, move_proxy"]}
{"id": "C10", "title": "Node pool accounting is exact", "statement": "The number of allocated nodes is 0 for an empty tree and 2n-1 for n live proxies; destroyed proxies' nodes are recycled, so capacity never exceeds what the peak number of proxies requires (no leak).", "quantifier": "every history of create/destroy/move", "why_tests_cant": "a leak of one node per some rotation case only shows after long histories", "anchors": ["src/private/collision/b2_dynamic_tree.rs: allocate_node, free_node, insert_leaf, remove_leaf"]}
{"id": "C11", "title": "Reported tree height is the real height", "statement": "get_height equals the true depth of the tree, and compute_height agrees with it.", "quantifier": "every reachable tree", "why_tests_cant": "cached heights go stale only on particular rotation sequences", "anchors": ["src/private/collision/b2_dynamic_tree.rs: get_height, compute_height, balance"]}
{"id": "C12", "title": "Tree ray cast misses no proxy the segment passes through", "statement": "While the callback keeps returning the full max fraction, ray_cast calls it for every live proxy whose fat AABB the segment intersects; a return value of 0 ends the cast immediately and a positive value shortens the segment for later candidates.", "quantifier": "every reachable tree, every non-degenerate segment, every callback", "why_tests_cant": "both pruning tests are real-valued inequalities over all boxes and segments", "anchors": ["src/b2_dynamic_tree.rs: ray_cast"]}
{"id": "C13", "title": "Bottom-up rebuild changes only the shape of the tree", "statement": "rebuild_bottom_up on a non-empty tree whose boxes lie in a region of perimeter below B2_MAX_FLOAT keeps exactly the same proxies with the same ids, boxes, user data and moved flags, produces a well-formed tree, and leaks no node.", "quantifier": "every reachable non-empty tree", "why_tests_cant": "greedy merging order is data dependent", "anchors": ["src/private/collision/b2_dynamic_tree.rs: rebuild_bottom_up"]}
{"id": "C14", "title": "Shifting the origin of the tree commutes with queries", "statement": "After shift_origin(o), querying the box b - o reports the same proxies as querying b did before, and the tree stays well formed.", "quantifier": "every reachable tree, shift vector and query box (exact arithmetic)", "why_tests_cant": "quantifies over all trees, boxes and offsets", "anchors": ["src/private/collision/b2_dynamic_tree.rs: shift_origin"]}
{"id": "C15", "title": "Broad-phase finds every new overlapping pair", "statement": "update_pairs reports every pair of distinct live proxies whose fat AABBs overlap and at least one of which was created, moved (re-inserted) or touched since the previous update_pairs.", "quantifier": "every history of create/destroy/move/touch/update_pairs", "why_tests_cant": "the id-order skip rule is only correct because every moved proxy is in the buffer - a history invariant", "anchors": ["src/b2_broad_phase.rs: create_proxy, move_proxy, touch_proxy, update_pairs", "src/private/collision/b2_broad_phase.rs: query_callback, buffer_move, un_buffer_move"]}
{"id": "C16", "title": "Broad-phase reports no false pair", "statement": "Every pair handed to add_pair by update_pairs consists of the user data of two distinct live proxies whose fat AABBs overlap at that moment; a destroyed proxy is never reported.", "quantifier": "every history of create/destroy/move/touch/update_pairs", "why_tests_cant": "destroyed ids are recycled, so stale buffer entries matter only in particular histories", "anchors": ["src/b2_broad_phase.rs: update_pairs", "src/private/collision/b2_broad_phase.rs: destroy_proxy, un_buffer_move"]}
{"id": "C17", "title": "Broad-phase reports each pair at most once when no proxy is buffered twice", "statement": "If between two updates no proxy was buffered more than once and no proxy was only touched, update_pairs reports each unordered pair at most once; in general (a touched proxy, or a proxy moved twice) duplicates are possible.", "quantifier": "every history", "why_tests_cant": "duplicates depend on the relative order of moves and ids", "anchors": ["src/b2_broad_phase.rs: update_pairs", "src/private/collision/b2_broad_phase.rs: query_callback, touch_proxy"]}
{"id": "C18", "title": "update_pairs is idempotent", "statement": "After update_pairs the move buffer is empty and all moved flags are cleared, so an immediately following update_pairs reports nothing; get_proxy_count equals the number of live proxies.", "quantifier": "every history", "why_tests_cant": "requires knowing that every moved flag belongs to a buffered proxy in every history", "anchors": ["src/b2_broad_phase.rs: update_pairs, get_proxy_count"]}
{"id": "C19", "title": "AABB overlap, containment and union are the geometric ones", "statement": "b2_test_overlap(a,b) holds exactly when the closed boxes share a point, contains(a,b) exactly when every point of b is in a (valid boxes), and combine yields the smallest box containing both.", "quantifier": "all valid boxes", "why_tests_cant": "real-valued inputs; boundary (touching) cases", "anchors": ["src/b2_collision.rs: b2_test_overlap, B2AABB::contains, combine, combine_two"]}
{"id": "C20", "title": "AABB ray cast returns the entry point", "statement": "When B2AABB::ray_cast reports a hit with fraction t, 0 <= t <= max_fraction, the point p1 + t(p2-p1) is on the boundary of the box and no earlier point of the ray is inside; when the ray starts outside and enters the box before max_fraction a hit is reported.", "quantifier": "all boxes and rays whose direction components are zero or at least epsilon (exact arithmetic)", "why_tests_cant": "slab logic over all real inputs", "anchors": ["src/private/collision/b2_collision.rs: b2_aabb_ray_cast"]}
{"id": "C21", "title": "Segment clipping keeps exactly the part behind the plane", "statement": "b2_clip_segment_to_line returns at most 2 points, never overruns the output array, every returned point is a point of the input segment on or behind the plane, and two points are returned whenever the segment crosses or lies behind the plane.", "quantifier": "all segments, planes and offsets (exact arithmetic)", "why_tests_cant": "sign combinations and zero cases over the reals", "anchors": ["src/private/collision/b2_collision.rs: b2_clip_segment_to_line"]}
{"id": "C22", "title": "Point states classify every manifold point", "statement": "b2_get_point_states marks a point of the old manifold persist iff its id occurs in the new one and remove otherwise, a point of the new manifold persist iff its id occurs in the old one and add otherwise, and slots beyond the point count null.", "quantifier": "all pairs of manifolds", "why_tests_cant": "all id coincidence patterns", "anchors": ["src/private/collision/b2_collision.rs: b2_get_point_states"]}
{"id": "C23", "title": "Contact filter rule", "statement": "The default filter is symmetric; equal non-zero group indices decide alone (positive: collide, negative: never), otherwise both mask/category tests must pass.", "quantifier": "all filter data pairs (u16 x u16 x i16 each)", "why_tests_cant": "2^96 combinations", "anchors": ["src/private/dynamics/b2_world_callbacks.rs: should_collide"]}
{"id": "C24", "title": "Material mixing is order independent", "statement": "Restitution, restitution threshold and friction mixing give the same value whichever fixture comes first; restitution picks the larger, threshold the smaller; zero friction on either side gives zero.", "quantifier": "all coefficients", "why_tests_cant": "real-valued inputs", "anchors": ["src/b2_contact.rs: b2_mix_friction, b2_mix_restitution, b2_mix_restitution_threshold"]}
{"id": "C25", "title": "Contact creation dispatch", "statement": "For every pair of shape types for which a collision routine exists (circle/polygon/edge/chain against circle or polygon), creating a contact in either order yields the routine for that pair with the fixtures in the order the routine requires; for the remaining pairs (edge or chain against edge or chain) no contact can be created without panicking.", "quantifier": "all 16 ordered shape-type pairs and all fixtures", "why_tests_cant": "the claim ranges over all fixtures of each type", "anchors": ["src/private/dynamics/b2_contact_registers.rs: add_type, initialize_registers", "src/private/dynamics/b2_contact.rs: b2_contact_create"]}
{"id": "C26", "title": "World counters equal list lengths", "statement": "get_body_count, get_joint_count, get_contact_count and get_proxy_count always equal the numbers of objects reachable from the world, and each object occurs exactly once in its list.", "quantifier": "every history of API calls (create/destroy body, fixture, joint; enable/disable; set type; steps)", "why_tests_cant": "history invariant", "anchors": ["src/private/dynamics/b2_world.rs: create_body, destroy_body, create_joint, destroy_joint", "src/private/dynamics/b2_contact_manager.rs: add_pair, destroy"]}
{"id": "C27", "title": "Contact graph is consistent", "statement": "Every contact is in the world contact list once, in the contact list of each of its two (different) bodies once and in no other body's list; the edge's other body is the opposite body.", "quantifier": "every history of API calls and steps", "why_tests_cant": "history invariant over pointer graph", "anchors": ["src/private/dynamics/b2_contact_manager.rs: add_pair, destroy", "src/b2_contact.rs"]}
{"id": "C28", "title": "At most one contact per pair of fixture children", "statement": "Two different contacts never connect the same two (fixture, child) ends, in either order, and no contact joins two fixtures of the same body.", "quantifier": "every history, including duplicate pairs from the broad-phase", "why_tests_cant": "depends on the interleaving of pair discovery and destruction", "anchors": ["src/private/dynamics/b2_contact_manager.rs: add_pair"]}
{"id": "C29", "title": "Contacts always involve a dynamic body", "statement": "In every contact at least one of the two bodies is dynamic, so the corresponding assertion in the continuous-collision code never fires, even after body types are changed.", "quantifier": "every history including set_type", "why_tests_cant": "depends on all histories of type changes", "anchors": ["src/private/dynamics/b2_body.rs: set_type, should_collide", "src/private/dynamics/b2_world.rs: solve_toi"]}
{"id": "C30", "title": "Destroying a body leaves nothing dangling", "statement": "After destroy_body(b), no joint, contact, fixture proxy or list mentions b; the destruction listener has been told about each of its joints and fixtures exactly once, and counters have decreased accordingly.", "quantifier": "every reachable world and every body in it", "why_tests_cant": "depends on the arbitrary attached graph", "anchors": ["src/private/dynamics/b2_world.rs: destroy_body"]}
{"id": "C31", "title": "Disabled bodies do not collide", "statement": "A disabled body has no broad-phase proxies and no contacts, so the enabled assertion in island building never fires; enabling restores one proxy per fixture child.", "quantifier": "every history", "why_tests_cant": "history invariant", "anchors": ["src/private/dynamics/b2_body.rs: set_enabled, create_fixture, set_type", "src/private/dynamics/b2_fixture.rs: create_proxies, destroy_proxies", "src/private/dynamics/b2_world.rs: solve"]}
{"id": "C32", "title": "Enabling an already enabled body is harmless", "statement": "set_enabled(true) on an enabled body has no effect.", "quantifier": "every reachable world and body", "why_tests_cant": "depends on which fixtures the body has", "anchors": ["src/private/dynamics/b2_body.rs: set_enabled", "src/private/dynamics/b2_fixture.rs: b2_fixture_create_proxies"]}
{"id": "C33", "title": "Static bodies are never awake", "statement": "is_awake is false for every static body at every moment; a static body never seeds an island.", "quantifier": "every history", "why_tests_cant": "history invariant over many entry points", "anchors": ["src/b2_body.rs: set_awake, set_type, apply_*", "src/private/dynamics/b2_body.rs: b2_body constructor, set_type", "src/private/dynamics/b2_world.rs: solve"]}
{"id": "C34", "title": "Begin and end contact callbacks alternate", "statement": "For each contact the listener sees begin_contact and end_contact strictly alternating, starting with begin; when a touching contact is destroyed the end callback is delivered, so every begin is matched.", "quantifier": "every history of updates (discrete and sub-steps), user enable/disable and destructions with a fixed listener", "why_tests_cant": "ranges over all event histories", "anchors": ["src/private/dynamics/b2_contact.rs: b2_contact_update", "src/private/dynamics/b2_contact_manager.rs: destroy"]}
{"id": "C35", "title": "Refiltering a fixture works while it has contacts", "statement": "set_filter_data / refilter on a fixture flags every contact of that fixture for filtering and does not panic.", "quantifier": "every reachable world and fixture", "why_tests_cant": "depends on run-time borrow state of an arbitrary contact graph", "anchors": ["src/private/dynamics/b2_fixture.rs: b2_fixture_refilter, b2_fixture_set_filter_data"]}
{"id": "C36", "title": "Joined bodies without collide_connected have no contact after the next step", "statement": "After a joint with collide_connected=false is created between two bodies, the next collide pass destroys every contact between them whose bodies are awake, and no new one is created while the joint exists.", "quantifier": "every reachable world", "why_tests_cant": "depends on arbitrary contact/joint graph", "anchors": ["src/private/dynamics/b2_world.rs: create_joint", "src/private/dynamics/b2_body.rs: should_collide", "src/private/dynamics/b2_contact_manager.rs: collide, add_pair"]}
{"id": "C37", "title": "Islands partition the awake bodies", "statement": "In one solve, every awake enabled non-static body is put into exactly one island, no contact or joint is put into two islands, and two bodies joined by a touching enabled non-sensor contact (or a joint between enabled bodies), neither static, are in the same island; every body of an island is reachable from its seed.", "quantifier": "every contact/joint graph", "why_tests_cant": "graph search over arbitrary graphs", "anchors": ["src/private/dynamics/b2_world.rs: solve"]}
{"id": "C38", "title": "Bodies fall asleep only together and only when quiet", "statement": "An island is put to sleep only if sleeping is allowed, every non-static body of it permits sleeping, has had speed below tolerance long enough (>= 0.5 s of accumulated quiet time) and the position solver converged; then all its bodies sleep and their velocities are zero.", "quantifier": "every island, every velocity outcome", "why_tests_cant": "ranges over all solver results", "anchors": ["src/private/dynamics/b2_island_private.rs: solve", "src/b2_body.rs: set_awake"]}
{"id": "C39", "title": "World is locked exactly during a step", "statement": "is_locked is true during every callback made by collide/solve and false after step returns; creating or destroying bodies, fixtures or joints while locked is refused (panics) without changing the world.", "quantifier": "every history", "why_tests_cant": "callbacks are arbitrary user code", "anchors": ["src/private/dynamics/b2_world.rs: step, create_body, destroy_body, create_joint, destroy_joint", "src/private/dynamics/b2_body.rs: create_fixture, destroy_fixture, set_type, set_enabled"]}
{"id": "C40", "title": "Forces are cleared after the step", "statement": "With auto-clear on, after step every body has zero force and torque; with it off, step leaves forces as the user applied them except where a body fell asleep.", "quantifier": "every world and step", "why_tests_cant": "ranges over all bodies and histories", "anchors": ["src/private/dynamics/b2_world.rs: step, clear_forces"]}
{"id": "C41", "title": "Continuous-collision sub-stepping terminates", "statement": "The loop of the continuous solver ends: a contact is selected at most a fixed number of times per step, and the number of distinct contacts is bounded by the number of fixture-child pairs.", "quantifier": "every world, every time-of-impact oracle", "why_tests_cant": "termination over arbitrary impact times", "anchors": ["src/private/dynamics/b2_world.rs: solve_toi"]}
{"id": "C42", "title": "Continuous-collision island never overruns its buffers", "statement": "The continuous solver never accesses its fixed-size position/velocity buffers out of range.", "quantifier": "every contact graph", "why_tests_cant": "needs bodies with more than 62 simultaneous touching neighbours", "anchors": ["src/private/dynamics/b2_world.rs: solve_toi", "src/private/dynamics/b2_island.rs: B2island::new, add_body", "src/private/dynamics/b2_island_private.rs: solve_toi"]}
{"id": "C43", "title": "Zero time step moves nothing", "statement": "step(0, ..) never changes any body's position, velocity or sweep (it only updates contacts and clears forces).", "quantifier": "every world", "why_tests_cant": "ranges over all worlds", "anchors": ["src/private/dynamics/b2_world.rs: step"]}
{"id": "C44", "title": "Clamping keeps values in range", "statement": "b2_clamp and b2_clamp_vec2 return a value between low and high (component-wise) whenever low <= high, and return the value unchanged when it is already in range.", "quantifier": "all values and bounds", "why_tests_cant": "real-valued inputs", "anchors": ["src/b2_math.rs: b2_clamp, b2_clamp_vec2"]}
{"id": "C45", "title": "Rotation and transform algebra", "statement": "Inverse rotation/transform undoes rotation/transform, composition of transforms acts as successive application, rotations preserve lengths and dot products.", "quantifier": "all transforms with unit rotation, all vectors (exact arithmetic)", "why_tests_cant": "real-valued identities", "anchors": ["src/b2_math.rs: b2_mul_rot_by_vec2, b2_mul_t_rot_by_vec2, b2_mul_transform_by_vec2, b2_mul_t_transform_by_vec2, b2_mul_transform, b2_mul_t_transform"]}
{"id": "C46", "title": "Linear solvers solve", "statement": "For a non-singular matrix the 2x2 and 3x3 solve functions return x with A x = b and get_inverse functions return the inverse; for a singular matrix they return zero instead of dividing by zero.", "quantifier": "all matrices and right-hand sides (exact arithmetic)", "why_tests_cant": "real-valued identities", "anchors": ["src/b2_math.rs: B2Mat22::solve, get_inverse", "src/private/common/b2_math.rs: solve33, solve22, get_inverse22, get_sym_inverse33"]}
{"id": "C47", "title": "Sweep interpolation", "statement": "A sweep's transform at beta=0 and 1 is the start and end pose; advance(alpha) moves the start to the interpolated pose and leaves the motion over the remaining interval unchanged; normalize changes both angles by the same multiple of a full turn and puts the start angle in [0, 2pi).", "quantifier": "all sweeps with alpha0 < 1 (exact arithmetic)", "why_tests_cant": "real-valued identities", "anchors": ["src/b2_math.rs: B2Sweep::get_transform, advance, normalize"]}
{"id": "C48", "title": "Next power of two", "statement": "b2_next_power_of_two(x) is the smallest power of two strictly greater than x for every x < 2^31, and b2_is_power_of_two recognises exactly the powers of two.", "quantifier": "all u32 values", "why_tests_cant": "2^32 values", "anchors": ["src/b2_math.rs: b2_next_power_of_two, b2_is_power_of_two"]}
{"id": "C49", "title": "Shape AABBs contain their shapes", "statement": "compute_aabb of a circle, edge, chain child or polygon contains every point of the transformed shape (all convex combinations of the vertices, expanded by the radius).", "quantifier": "all shapes, transforms, points of the shape (exact arithmetic)", "why_tests_cant": "uncountably many points and transforms", "anchors": ["src/private/collision/b2_circle_shape.rs: compute_aabb", "src/private/collision/b2_edge_shape.rs", "src/private/collision/b2_chain_shape.rs", "src/private/collision/b2_polygon_shape.rs"]}
{"id": "C50", "title": "Polygon ray cast reports the entry point", "statement": "Casting a ray against a polygon from outside reports a hit exactly when the ray enters the polygon at a fraction in [0, max_fraction], with that fraction.", "quantifier": "all convex polygons and rays (exact arithmetic)", "why_tests_cant": "real-valued inputs", "anchors": ["src/private/collision/b2_polygon_shape.rs: b2_shape_dyn_trait_ray_cast"]}
{"id": "C51", "title": "Circle ray cast reports the entry point", "statement": "A reported hit lies on the circle, has fraction in [0, max_fraction], and no earlier point of the ray is inside the circle; a ray starting outside and reaching the circle before max_fraction is reported.", "quantifier": "all circles and rays (exact arithmetic)", "why_tests_cant": "real-valued inputs", "anchors": ["src/private/collision/b2_circle_shape.rs: ray_cast"]}
{"id": "C52", "title": "Edge ray cast is sound", "statement": "A reported hit lies on the edge segment at fraction in [0, max_fraction], and a one-sided edge is never hit from behind.", "quantifier": "all edges and rays (exact arithmetic)", "why_tests_cant": "real-valued inputs", "anchors": ["src/private/collision/b2_edge_shape.rs: b2_shape_dyn_trait_ray_cast"]}
{"id": "C53", "title": "Distance witnesses belong to the shapes", "statement": "The two points returned by the distance computation are convex combinations of the (transformed) vertices of the respective shapes and the returned distance is the distance between them, hence never less than the true distance; the iteration count never exceeds 20 and vertex indices stay in range.", "quantifier": "all proxies, transforms and valid caches (exact arithmetic)", "why_tests_cant": "iterative algorithm on real inputs", "anchors": ["src/private/collision/b2_distance.rs: b2_distance_fn, b2_simplex_solve2, b2_simplex_solve3, get_witness_points"]}
{"id": "C54", "title": "Time of impact lies in the interval", "statement": "b2_time_of_impact always terminates within its iteration limits and returns a time in [0, t_max] whatever the shapes and motions are; Separated is reported with t = t_max.", "quantifier": "all inputs with t_max >= 0, any separation function (exact arithmetic)", "why_tests_cant": "iterative root finding on real inputs", "anchors": ["src/private/collision/b2_time_of_impact.rs: b2_time_of_impact"]}
{"id": "C55", "title": "Chain children cover the chain with correct neighbours", "statement": "A chain of n vertices has n-1 children, child i is the edge from vertex i to i+1 with ghost vertices i-1 and i+2 (the user's prev/next at the ends; for a loop, cyclically), and every child index accepted by get_child_count is in range.", "quantifier": "all vertex lists", "why_tests_cant": "unbounded lengths and indices", "anchors": ["src/private/collision/b2_chain_shape.rs: create_loop, create_chain, get_child_edge, get_child_count"]}
{"id": "C56", "title": "Mass data of a body is the sum over its fixtures", "statement": "After reset_mass_data a dynamic body's mass is the sum of its fixtures' masses, its local center is the mass-weighted mean, inverse mass times mass is 1 when mass is positive; static and kinematic bodies have zero mass and inverse mass.", "quantifier": "all fixture lists (exact arithmetic)", "why_tests_cant": "unbounded fixture lists", "anchors": ["src/private/dynamics/b2_body.rs: reset_mass_data, set_mass_data"]}
{"id": "C57", "title": "Applying forces and impulses is gated", "statement": "apply_force, apply_torque, apply_linear_impulse and apply_angular_impulse have no effect on non-dynamic bodies and no effect on sleeping bodies unless wake is requested; otherwise they add exactly the given amount.", "quantifier": "all bodies and values", "why_tests_cant": "ranges over all states", "anchors": ["src/b2_body.rs: apply_force, apply_force_to_center, apply_torque, apply_linear_impulse, apply_linear_impulse_to_center, apply_angular_impulse"]}
{"id": "C58", "title": "Per-step motion is bounded", "statement": "In one solve no body's center moves more than B2_MAX_TRANSLATION and no body rotates more than B2_MAX_ROTATION by velocity integration.", "quantifier": "all velocities and time steps (exact arithmetic)", "why_tests_cant": "real-valued inputs", "anchors": ["src/private/dynamics/b2_island_private.rs: solve, solve_toi"]}
{"id": "C59", "title": "Polygon construction yields the convex hull", "statement": "B2polygonShape::set, given 3 to 8 points, welds points closer than half the slop and returns the strictly convex, counter-clockwise hull of the rest: vertices are among the inputs, every kept input lies inside, face normals are the outward unit normals, validate() accepts the result; the wrapping loop never exceeds its bound, and set fails only for fewer than 3 distinct points, collinear points or area at most EPSILON.", "quantifier": "all lists of 3 to 8 points (exact arithmetic)", "why_tests_cant": "gift wrapping depends on real-valued comparisons; degenerate collinear inputs are not enumerable", "anchors": ["src/private/collision/b2_polygon_shape.rs: set, validate"]}
{"id": "C60", "title": "Polygon mass is that of the uniform lamina", "statement": "compute_mass of a polygon gives density times area, the centroid, and the rotational inertia about the shape origin, by the boundary-integral formulas, independently of the reference vertex; the stored centroid is the same center.", "quantifier": "all polygons and densities (exact arithmetic)", "why_tests_cant": "real-valued inputs", "anchors": ["src/private/collision/b2_polygon_shape.rs: compute_mass, compute_centroid"]}
{"id": "C61", "title": "A step does not change what a body is", "statement": "step never changes a body's type, enabled flag, fixtures, mass, inertia, local center, damping, gravity scale, or its bullet, fixed-rotation and sleep-permission flags (unless a callback does).", "quantifier": "every reachable world and every step", "why_tests_cant": "ranges over all histories and solver outcomes", "anchors": ["src/private/dynamics/b2_world.rs: step, solve, solve_toi", "src/private/dynamics/b2_island_private.rs: solve, solve_toi"]}
{"id": "C62", "title": "Islands index the right bodies", "statement": "When an island is handed to the solver, both bodies of each of its contacts and joints are in it, and the island index stored in each body is its position in the island's list, so that the solver reads and writes the entries of the right bodies.", "quantifier": "every reachable world, every contact and joint graph, callbacks after solving that change no awake, enabled or sensor flag", "why_tests_cant": "ranges over all graphs; a wrong index would silently exchange bodies", "anchors": ["src/private/dynamics/b2_world.rs: solve", "src/private/dynamics/b2_island.rs: add_body, add_contact, add_joint"]}
{"id": "C63", "title": "Stepping never panics", "statement": "A step of a world reached by correct calls panics for no time step and no iteration counts, provided the callbacks do not panic, edge and chain shapes are only on bodies that are not dynamic, the world has at most 64 bodies, and neither callbacks nor other calls give a contact a manifold without points or with negative normal impulses or switch fixtures between sensor and solid, post-solve callbacks enable and disable no contact, and every shape is valid and smaller than MAX_FLT. As to sensors, between steps a fixture without contacts may be switched and, after a completed step, any fixture may be made a sensor (see C109).", "quantifier": "every reachable world, every narrow phase and every solver that do not panic when asked about valid shapes and about islands in good order and give no negative normal impulses, every time step (C110 for the actual ones)", "why_tests_cant": "panics sit in assertions and array indexing deep inside the step; ranges over all histories", "anchors": ["src/private/dynamics/b2_world.rs: step, solve, solve_toi", "src/private/dynamics/b2_contact_manager.rs: b2_contact_manager_collide, b2_contact_manager_add_pair", "src/b2_math.rs: B2Sweep::advance"]}
{"id": "C64", "title": "Distance queries are exact", "statement": "If b2_distance_fn uses fewer than 20 iterations, the points it returns are the closest points of the two hulls: no point of the one is closer to a point of the other, unless the returned points are themselves closer than the machine epsilon.", "quantifier": "all proxies whose different vertex differences are at least epsilon apart, all transforms, every cache that fits the proxies (exact arithmetic)", "why_tests_cant": "real-valued inputs and an iterative algorithm: exactness over all convex shapes cannot be sampled", "anchors": ["src/private/collision/b2_distance.rs: b2_distance_fn, solve2, solve3, get_search_direction"]}
{"id": "C65", "title": "Distance queries respect the radii", "statement": "With use_radii, the returned points lie on the rounded outlines: each is the closest point moved by its radius towards the other and the distance is the distance of the hulls less both radii; if the rounded shapes overlap the distance is 0 and both points are the same midpoint.", "quantifier": "all proxies, transforms and caches (exact arithmetic)", "why_tests_cant": "real-valued inputs", "anchors": ["src/private/collision/b2_distance.rs: b2_distance_fn"]}
{"id": "C66", "title": "Shape casts are safe", "statement": "b2_shape_cast does not panic; on a hit the fraction is in [0,1], the shapes are further apart than the target distance at every earlier fraction, and (if it used fewer than 20 iterations) within the target distance plus half a slop at the reported fraction; on a miss they stay further apart than the target distance all the way, or were within it at the start.", "quantifier": "all non-empty proxies, transforms and translations (exact arithmetic)", "why_tests_cant": "tunnelling: the claim is about every intermediate position of the moving shape", "anchors": ["src/private/collision/b2_distance.rs: b2_shape_cast"]}
{"id": "C67", "title": "Impact states mean what they say", "statement": "When b2_time_of_impact reports Separated, the shapes are further apart than the target distance at t_max; when it reports Touching, they are within the target distance plus tolerance at the reported time; when it reports Overlapped, they have a point in common at the beginning of the interval.", "quantifier": "all motions of shapes of at most 256 vertices for which the distance queries finish and are exact (exact arithmetic; proved to be so for circles against circles and segments)", "why_tests_cant": "real-valued motions; root finding", "anchors": ["src/private/collision/b2_time_of_impact.rs: b2_time_of_impact, initialize, find_min_separation, evaluate"]}
{"id": "C68", "title": "Translating shapes do not tunnel", "statement": "If neither shape rotates during the interval, then at every time before the one b2_time_of_impact reports (all times if it reports Separated) the shapes are further apart than the target distance less the tolerance: no contact is skipped.", "quantifier": "all translating motions of such shapes, however fast (exact arithmetic)", "why_tests_cant": "tunnelling is about every intermediate time of every motion", "anchors": ["src/private/collision/b2_time_of_impact.rs: b2_time_of_impact"]}
{"id": "C69", "title": "Contacts only push", "statement": "The velocity solver of an island never panics, and no contact ever pulls: the normal impulses it stores in the manifolds and reports to post_solve are all nonnegative, whatever the friction, restitution, warm starting, number of iterations and of contacts.", "quantifier": "all islands, contacts, masses, positions and velocities, everything the joints may do (exact arithmetic)", "why_tests_cant": "real-valued inputs and iterations; sign of every impulse in every iteration", "anchors": ["src/private/dynamics/b2_contact_solver_private.rs: new, initialize_velocity_constraints, warm_start, solve_velocity_constraints, store_impulses", "src/private/dynamics/b2_island_private.rs: solve"]}
{"id": "C70", "title": "Friction obeys Coulomb's law", "statement": "The friction impulse of a contact point is at most the friction coefficient times its normal impulse; below that bound the bodies do not slide, at the bound friction opposes the sliding.", "quantifier": "all islands, contacts, masses, positions and velocities (exact arithmetic)", "why_tests_cant": "real-valued inputs and iterations", "anchors": ["src/private/dynamics/b2_contact_solver_private.rs: solve_velocity_constraints"]}
{"id": "C71", "title": "Contacts conserve momentum", "statement": "Solving the contacts of an island of bodies of finite mass changes neither the total momentum nor the total angular momentum, whatever the friction, restitution, warm starting and number of iterations.", "quantifier": "all islands, contacts, masses, positions and velocities (exact arithmetic)", "why_tests_cant": "real-valued inputs; sums over any number of bodies", "anchors": ["src/private/dynamics/b2_contact_solver_private.rs: warm_start, solve_velocity_constraints"]}
{"id": "C72", "title": "Solved contacts do not approach", "statement": "After the velocity iterations the contact solved last satisfies the contact condition at each of its points: the bodies separate at least as fast as restitution asks for (not at all, if it asks for nothing), and a point is pushed only if the bodies do not separate faster than that there. The block solver for two points always finds such impulses.", "quantifier": "all islands, contacts, masses, positions and velocities, at least one iteration (exact arithmetic)", "why_tests_cant": "the solution of a linear complementarity problem for all real-valued inputs", "anchors": ["src/private/dynamics/b2_contact_solver_private.rs: initialize_velocity_constraints, solve_velocity_constraints", "src/b2_math.rs: B2Mat22::get_inverse"]}
{"id": "C73", "title": "Contacts do not create energy", "statement": "Without friction, restitution and moving bodies of infinite mass, the velocity iterations over the contacts of an island do not increase its kinetic energy, whatever velocities they start from.", "quantifier": "all islands, contacts, masses, positions and velocities, any number of iterations, with and without the block solver (exact arithmetic)", "why_tests_cant": "real-valued inputs; energy gain could need particular configurations of many contacts", "anchors": ["src/private/dynamics/b2_contact_solver_private.rs: solve_velocity_constraints"]}
{"id": "C74", "title": "Position correction is gentle", "statement": "Correcting overlaps does not panic, keeps the centre of mass of an island of bodies of finite mass, moves a body by at most 0.2 in each coordinate per contact point, and moves nothing and reports success if no contact overlaps by more than the slop. For bodies that do not turn, a single point is corrected by a fifth of the overlap beyond the slop, never beyond it.", "quantifier": "all islands, contacts, masses and positions (exact arithmetic)", "why_tests_cant": "real-valued inputs; sums over any number of bodies", "anchors": ["src/private/dynamics/b2_contact_solver_private.rs: solve_position_constraints, B2positionSolverManifold::initialize", "src/private/collision/b2_collision.rs: b2_world_manifold_initialize"]}
{"id": "C75", "title": "Immovable bodies are not moved", "statement": "The contact solver leaves the velocity of a body of infinite mass and inertia as it is, and its position; it does not turn a body of infinite inertia. At a time of impact, position correction moves only the two bodies of the impact.", "quantifier": "all islands, contacts, masses, positions and velocities (exact arithmetic)", "why_tests_cant": "ranges over all configurations of bodies and contacts", "anchors": ["src/private/dynamics/b2_contact_solver_private.rs: solve_velocity_constraints, solve_position_constraints, solve_toiposition_constraints"]}
{"id": "C76", "title": "Contact of two circles", "statement": "Two circles have a contact point exactly when they touch. Its world normal is the unit vector from the centre of the first to the centre of the second, its separation the distance of the centres less the radii, and its position halfway between the two surfaces.", "quantifier": "all circles with non-negative radii and all transforms; for the world manifold centres more than EPSILON apart (exact arithmetic)", "why_tests_cant": "real-valued inputs", "anchors": ["src/private/collision/b2_collide_circle.rs: b2_collide_circles", "src/private/collision/b2_collision.rs: b2_world_manifold_initialize"]}
{"id": "C77", "title": "Contact of a polygon and a circle", "statement": "A polygon and a circle have a contact point exactly when they touch (skins included). If the centre is outside the polygon, the world normal leads from the nearest point of the polygon to the centre and the separation is the distance less the radii; if it is inside, the normal is that of the face with the least depth.", "quantifier": "all convex polygons made by set or set_as_box, all circles, all transforms (exact arithmetic)", "why_tests_cant": "real-valued inputs; the nearest feature can be any vertex or edge of any convex polygon", "anchors": ["src/private/collision/b2_collide_circle.rs: b2_collide_polygon_and_circle", "src/private/collision/b2_collision.rs: b2_world_manifold_initialize"]}
{"id": "C78", "title": "Contact of an edge or chain and a circle", "statement": "A two-sided edge and a circle have a contact point exactly when they touch. A one-sided edge or a child of a chain has a contact point with a circle only if they touch and the centre is not behind it, and then always unless one of its neighbours is nearer to the centre: a circle cannot slip through where two children meet. The assertion in the function is never violated. Normal and separation are those of the nearest point.", "quantifier": "all edges (degenerate ones too), chains, circles and transforms (exact arithmetic)", "why_tests_cant": "real-valued inputs; the three regions of an edge and the suppression by its neighbours must fit together without gaps", "anchors": ["src/private/collision/b2_collide_edge.rs: b2_collide_edge_and_circle", "src/private/collision/b2_chain_shape.rs: get_child_edge"]}
{"id": "C79", "title": "Every contact manifold is fit for the solver", "statement": "Evaluating the contact of any two shapes (circle, polygon, edge or chain child against circle or polygon) does not panic and gives at most two points, all of them points of one of the shapes that are no more than the sum of the radii in front of the reference plane. The normal is a unit vector leading out of the reference shape, which lies wholly behind its plane. In the world manifold the normal is a unit vector and no separation is positive.", "quantifier": "all pairs of shapes that can have contacts, all transforms; the circle or polygon is smaller than MAX_FLT (exact arithmetic)", "why_tests_cant": "real-valued inputs; the functions have assertions and index arithmetic that depend on signs of real expressions", "anchors": ["src/private/collision/b2_collide_polygon.rs", "src/private/collision/b2_collide_edge.rs", "src/private/collision/b2_collide_circle.rs", "src/private/dynamics/contacts/*.rs: evaluate", "src/private/collision/b2_collision.rs: b2_clip_segment_to_line, b2_world_manifold_initialize"]}
{"id": "C80", "title": "Contact ids are distinct", "statement": "The two points of a manifold have different contact ids, so that warm starting gives each new point the impulses of the old point with its id and no other.", "quantifier": "all pairs of shapes and transforms", "why_tests_cant": "the ids depend on which end is clipped by which side plane, in any of the positions of two shapes", "anchors": ["src/private/collision/b2_collision.rs: b2_clip_segment_to_line", "src/private/collision/b2_collide_polygon.rs: b2_find_incident_edge", "src/private/collision/b2_collide_edge.rs: b2_collide_edge_and_polygon", "src/private/dynamics/b2_contact.rs: b2_contact_update"]}
{"id": "C81", "title": "Contact of two polygons", "statement": "Two polygons have a contact point exactly when they touch (skins included).", "quantifier": "all convex polygons made by set or set_as_box, all transforms (exact arithmetic)", "why_tests_cant": "real-valued inputs; any pair of features can be the nearest", "anchors": ["src/private/collision/b2_collide_polygon.rs: b2_collide_polygons, b2_find_max_separation, b2_find_incident_edge"]}
{"id": "C82", "title": "Joints obey the third law", "statement": "Solving a joint between two bodies of an island never panics and gives the bodies opposite momentum, so the total momentum is unchanged at every call (initialization with warm starting, and each velocity iteration). The total angular momentum is unchanged too if the joint pushes both bodies along the same line, which distance, prismatic and wheel joints always do and the others do while their anchors coincide. A gear conserves the momentum of its four bodies.", "quantifier": "all kinds of joint except mouse and pulley (they act on the world), all states, positions, velocities and masses (exact arithmetic)", "why_tests_cant": "real-valued inputs; ten separately written solvers with their own lever arms", "anchors": ["src/private/dynamics/joints/*.rs: init_velocity_constraints, solve_velocity_constraints"]}
{"id": "C83", "title": "Reaction forces are what the joint did", "statement": "After a step `get_reaction_force(inv_dt)` and `get_reaction_torque(inv_dt)` of a joint are the mean force and torque that it exerted on body B in the step: the momentum of B changed by dt times the force, its angular momentum by dt times the torque and the moment of the force at the anchor; body A got the opposite.", "quantifier": "all joints, states, positions, velocities, masses and numbers of iterations (exact arithmetic)", "why_tests_cant": "the impulses accumulate over warm starting and iterations, each of which could leave something out", "anchors": ["src/joints/*.rs: get_reaction_force, get_reaction_torque", "src/private/dynamics/joints/*.rs"]}
{"id": "C84", "title": "Joints keep to their bounds", "statement": "After a step a motor used no more than its maximal torque or force, a friction or motor joint no more than its maximal force and torque, a mouse joint no more than its maximal force. A disabled motor did nothing, a limit only pushed, and a disabled limit did nothing.", "quantifier": "all joints with bounds that are not negative, all states, positions, velocities and masses, at least one iteration (exact arithmetic)", "why_tests_cant": "real-valued inputs; impulses accumulate over warm starting and iterations", "anchors": ["src/joints/*.rs: get_motor_torque, get_motor_force, get_reaction_force", "src/private/dynamics/joints/*.rs"]}
{"id": "C85", "title": "Joints move only their own movable bodies", "statement": "A joint changes the velocities of the bodies it connects and of no others; a connected body of infinite mass keeps its velocity and one of infinite moment of inertia its angular velocity (except that a mouse joint damps the angular velocity of its body in any case).", "quantifier": "all joints, states, positions, velocities and masses (exact arithmetic)", "why_tests_cant": "ranges over all joints and islands", "anchors": ["src/private/dynamics/joints/*.rs: init_velocity_constraints, solve_velocity_constraints"]}
{"id": "C86", "title": "Joints hold", "statement": "Right after a velocity iteration of a joint its bodies move as the joint asks. Points held together by a revolute or stiff weld joint have the same velocity (a weld also the same angular velocity); a prismatic joint lets body B only slide along the axis and not turn; a wheel does not leave its axis; anchors of a rigid distance joint keep their distance, those of one with limits do not move apart beyond the maximal length within the step; a pulley pays out on one side what it takes in on the other; a friction joint stops the anchor, and a motor joint drives it towards its target, unless the joint reached its maximal force.", "quantifier": "all joints except mouse and gear joints, with axes of unit length, a pulley ratio that is not 0, ropes and distances longer than the slop and maximal forces that are not negligible; all earlier states, positions, velocities, masses and numbers of iterations (exact arithmetic)", "why_tests_cant": "real-valued inputs; the constraint holds only if every effective mass and lever arm is right", "anchors": ["src/private/dynamics/joints/*.rs: init_velocity_constraints, solve_velocity_constraints"]}
{"id": "C87", "title": "Joints that only hold add no energy", "statement": "Without warm starting, the velocity solving of a step adds no kinetic energy through joints that have no motor, no spring and no target (revolute, prismatic, wheel, distance, weld, pulley, gear); nor does it in a whole island of such joints together with contacts without friction and restitution.", "quantifier": "all islands, joints, contacts, positions, velocities, masses and numbers of iterations; prismatic, wheel and gear axes of unit length; limits of distance joints hold no impulse at the start of the step (exact arithmetic)", "why_tests_cant": "an inequality over all states and iteration counts; a blow-up needs special configurations", "anchors": ["src/private/dynamics/b2_island.rs: b2_island_solve", "src/private/dynamics/joints/*.rs: init_velocity_constraints, solve_velocity_constraints"]}
{"id": "C88", "title": "Friction joints only take energy away", "statement": "Every velocity iteration of a friction joint that is not warm started leaves the kinetic energy as it was or lowers it.", "quantifier": "all friction joints, positions, velocities, masses and numbers of iterations (exact arithmetic)", "why_tests_cant": "an inequality over all states; a violation needs a clamped impulse and off-centre anchors", "anchors": ["src/private/dynamics/joints/b2_friction_joint.rs: init_velocity_constraints, solve_velocity_constraints"]}
{"id": "C89", "title": "Gears couple the speeds of their joints", "statement": "After every velocity iteration of a gear joint, get_joint_speed() of its first joint plus the ratio times get_joint_speed() of its second joint is zero; the gear keeps the value that coordinate1 + ratio * coordinate2 had when it was created.", "quantifier": "all gears made of revolute and prismatic joints whose definition names the second bodies of the joints, with aligned prismatic joints of unit axes and at least one movable body at the first joint; all positions, velocities, masses, impulses and numbers of iterations (exact arithmetic)", "why_tests_cant": "four bodies, two kinds of joints on each side, real-valued geometry", "anchors": ["src/private/dynamics/joints/b2_gear_joint.rs: new, init_velocity_constraints, solve_velocity_constraints", "src/private/dynamics/joints/b2_prismatic_joint.rs: get_joint_speed", "src/joints/b2_revolute_joint.rs: get_joint_speed"]}
{"id": "C90", "title": "No contact is missing after a step", "statement": "After step(dt) with dt > 0, any two fixtures' children whose fattened boxes overlap and that may collide (different enabled bodies, at least one dynamic, no joint between the bodies with collide_connected = false, filter agrees) have a contact in the contact list. Left out are pairs of bodies that were parted by destroy_joint of a joint with collide_connected = false.", "quantifier": "all histories of calls before the step, all worlds, all listeners, all user filters that look only at the two fixtures' filter data", "why_tests_cant": "the search only looks at proxies in the move buffer: a missing contact needs a particular order of creating, enabling, moving, retyping, refiltering, sleeping and sub-stepping", "anchors": ["src/private/dynamics/b2_contact_manager.rs: find_new_contacts, add_pair, collide", "src/private/collision/b2_broad_phase.rs: update_pairs", "src/private/dynamics/b2_world.rs: step, solve, solve_toi", "src/private/dynamics/b2_body.rs: set_type, set_enabled, should_collide"]}
{"id": "C91", "title": "Fixed rope vertices stay fixed", "statement": "After every step of a rope a vertex created with mass 0 (or less) is exactly at its defined position relative to the position given to that step; create and reset put every vertex at its defined position without velocity.", "quantifier": "all rope definitions, all tunings and changes of tuning, all histories of create, set_tuning, reset and step, all nonzero time steps, all iteration counts (exact arithmetic)", "why_tests_cant": "ranges over two stretching and seven bending models with arbitrary tuning and iteration counts", "anchors": ["src/private/rope/b2_rope.rs: create, step, reset"]}
{"id": "C92", "title": "Rope constraints exert no net force", "statement": "If all vertices of a rope have mass, a step changes the momentum of the rope only by damping and gravity, and its centre of mass moves with the resulting velocity; the stretching and bending constraints cancel.", "quantifier": "all definitions, tunings, histories, time steps and iteration counts; with the height model, ropes in which no vertex is made on its neighbour or on the next but one (exact arithmetic)", "why_tests_cant": "an equation between sums over all vertices for nine constraint solvers and arbitrary states", "anchors": ["src/private/rope/b2_rope.rs: step, solve_stretch_pbd, solve_stretch_xpbd, solve_bend_*, apply_bend_forces"]}
{"id": "C93", "title": "A rope step never divides by zero", "statement": "A rope can be created from any definition with at least three vertices, and no step of it divides by zero (which would turn its vertices into NaN), however far its vertices have moved and even if some coincide.", "quantifier": "all histories, positive time steps and iteration counts; consecutive vertices made apart, of three consecutive vertices the first or the last with mass, nonzero frequencies for the XPBD models (exact arithmetic)", "why_tests_cant": "a zero denominator needs a particular configuration that is reached only after many steps", "anchors": ["src/private/rope/b2_rope.rs"]}
{"id": "C94", "title": "A straight rope at rest stays at rest", "statement": "A straight rope in its defined place without velocity, without gravity, is left as it is by any number of steps.", "quantifier": "all straight ropes with segments longer than the rounding threshold, all tunings, time steps and iteration counts; segments of equal length for the triangle model (exact arithmetic)", "why_tests_cant": "quantifies over ropes, models and numbers of steps; a constraint with a wrong rest value shows only in special shapes", "anchors": ["src/private/rope/b2_rope.rs"]}
{"id": "C95", "title": "The stored numbers of a body agree", "statement": "A body stores its placement and its mass redundantly: the transform and the sweep (angle, world center, local center), mass and inverse mass, inertia and inverse inertia. Between any two calls of the API they agree for every body of the world: the rotation of the transform is that of the angle; the transform takes the local center to the world center; an inverse mass or inertia is either zero or the inverse of a positive mass or inertia; a body of fixed rotation has inverse inertia zero; and a static or kinematic body has mass, inertia and both inverses zero.", "quantifier": "every history of API calls, every listener (which may call body functions during the step), every outcome of the solvers", "why_tests_cant": "It is an invariant over unbounded sequences of calls that change type, mass, placement and fixtures, and over everything a step may do, including restored sweeps in the continuous solver.", "anchors": ["src/b2_body.rs:974-986", "src/private/dynamics/b2_body.rs:91-153", "src/private/dynamics/b2_body.rs:292-445", "src/private/dynamics/b2_island_private.rs: solve, solve_toi"]}
{"id": "C96", "title": "Loading restores the bodies", "statement": "A world that is serialized and deserialized (feature serde_support) has the same gravity and the same bodies: every body comes back with its type, position, angle, rotation, angular velocity, dampings, gravity scale, flags (enabled, sleeping allowed, bullet, fixed rotation, awake) and its fixtures with their shapes and attributes; the lists are in the reverse order. The loaded world is a well-formed world. Serializing changes nothing but the internal numbers of bodies and joints.", "quantifier": "all reachable worlds, all numbers of bodies and fixtures; the data format is left out (the values written are the values read, in the order written)", "why_tests_cant": "ranges over all worlds; a wrong field or order shows only in worlds where it matters", "anchors": ["src/serialize/serialize_b2_world.rs", "src/serialize/serialize_b2_body.rs", "src/serialize/serialize_b2_fixture.rs"]}
{"id": "C97", "title": "A loaded body has the mass of its fixtures", "statement": "After loading, mass, centre of mass and moment of inertia of a body are those that reset_mass_data would give the saved body.", "quantifier": "all reachable worlds, bodies whose fixtures have densities that are not negative", "why_tests_cant": "fixtures are created one by one in the reverse order and the mass is computed anew each time; equality of the result for all lists of fixtures", "anchors": ["src/serialize/serialize_b2_body.rs", "src/private/dynamics/b2_body.rs: create_fixture, reset_mass_data"]}
{"id": "C98", "title": "Loading restores the linear velocity", "statement": "After loading, every body has the linear velocity it was saved with.", "quantifier": "all reachable worlds and bodies", "why_tests_cant": "shows only for turning bodies whose centre of mass is not at the origin", "anchors": ["src/serialize/serialize_b2_body.rs: get_def", "src/private/dynamics/b2_body.rs: reset_mass_data"]}
{"id": "C99", "title": "Loading restores the joints", "statement": "After loading, every joint (except mouse joints) is there with its class, its parameters and its collide_connected flag and connects the copies of the bodies it connected; a gear joint couples the copies of the joints it coupled.", "quantifier": "all reachable worlds and joints", "why_tests_cant": "bodies and joints are written as numbers: a wrong number shows only in worlds with several bodies that differ", "anchors": ["src/serialize/serialize_b2_world.rs", "src/serialize/serialize_b2_joint.rs", "src/joints/serialize/serialize_b2_gear_joint.rs"]}
{"id": "C100", "title": "What was saved can be loaded", "statement": "Deserializing what was serialized from a world does not panic.", "quantifier": "all reachable worlds", "why_tests_cant": "asserts of the constructors fail only for particular values that setters let through, and indices go out of bounds only with particular joints", "anchors": ["src/serialize/*.rs", "src/joints/serialize/serialize_b2_gear_joint.rs", "src/private/dynamics/b2_body.rs: new"]}
{"id": "C101", "title": "A step does not move static bodies", "statement": "step leaves the position, angle and transform of every static body as they are, and its velocity zero, whatever touches it, is joined to it or hits it at a time of impact.", "quantifier": "all reachable worlds in which sub-stepping was never used for a step and no static body was defined with a velocity, all time steps and iteration counts, all listeners that do not themselves change bodies and whose post-solve callback enables and disables no contact, all solvers that leave bodies of zero inverse mass and inertia alone", "why_tests_cant": "a static body takes part in every island that touches it, is written back after every solver and is moved and restored by the continuous solver; that all of this cancels is a statement about all islands and orders of events", "anchors": ["src/private/dynamics/b2_world.rs: step, solve, solve_toi", "src/private/dynamics/b2_island_private.rs: solve, solve_toi", "src/b2_body.rs"]}
{"id": "C102", "title": "A kinematic body moves exactly with its velocity", "statement": "step(dt) moves the centre of an awake, enabled kinematic body by dt times its velocity and turns it by dt times its angular velocity, and leaves its velocities as they are, whatever it hits. (Excepted are bodies faster than the largest translation or rotation per step, and, if sleeping is allowed, bodies slow enough to fall asleep.)", "quantifier": "all reachable worlds as in C101, all dt > 0 and iteration counts, all listeners that do not themselves change bodies and whose post-solve callback enables and disables no contact, all solvers that leave bodies of zero inverse mass and inertia alone", "why_tests_cant": "a kinematic body can be a member of several islands and of several events of the continuous solver, each of which writes its state", "anchors": ["src/private/dynamics/b2_world.rs: step, solve, solve_toi", "src/private/dynamics/b2_island_private.rs: solve, solve_toi"]}
{"id": "C103", "title": "A free body follows the integration rule", "statement": "step(dt) changes a dynamic, awake, enabled body that has no joints and no contact after the step by the rule: new velocity = (v + dt (gravity scale * gravity + force / mass)) / (1 + dt damping), likewise the angular velocity, and centre and angle advance with the new velocities; the new velocities are kept unless the body falls asleep, which only slow bodies do. What happens elsewhere in the world does not matter.", "quantifier": "all reachable worlds as in C101, all dt > 0 and iteration counts, all listeners that do not themselves change bodies and whose post-solve callback enables and disables no contact, all solvers that leave bodies alone which no contact or joint of the island involves; bodies not faster than the largest translation and rotation per step", "why_tests_cant": "independence of the rest of the world: of other islands, of the order of the body list, of contacts that end in the step and of all events of the continuous solver", "anchors": ["src/private/dynamics/b2_world.rs: step, solve, solve_toi", "src/private/dynamics/b2_island_private.rs: solve"]}
{"id": "C104", "title": "A step leaves disabled bodies alone", "statement": "step does not move, stop or put to sleep a disabled body: its transform, centre, angle and velocities are the same afterwards.", "quantifier": "all reachable worlds as in C101, all time steps and iteration counts, all listeners that do not themselves change bodies and whose post-solve callback enables and disables no contact, all solvers", "why_tests_cant": "disabled bodies keep their joints and can be reached when islands are built; that no path moves them depends on all orders of joints and contacts", "anchors": ["src/private/dynamics/b2_world.rs: step, solve, solve_toi", "src/private/dynamics/b2_body.rs: set_enabled"]}
{"id": "C105", "title": "The broad phase knows where every shape is", "statement": "Between calls, every child of every fixture of an enabled body has a box in the broad phase that covers the child's bounding box at the body's current transform, however the body got there: by set_transform, by steps, by time-of-impact sub-steps, by shift_origin, or by being enabled or given a new type or fixture.", "quantifier": "all worlds reachable with sub-stepping off at steps, no static body defined with a velocity, kinematic bodies never put to sleep by hand, never faster than the largest motion per step and, while sleeping is allowed, not moving more slowly than the sleep tolerances; all listeners that do not themselves change bodies and whose post-solve callback enables and disables no contact, all solvers that leave bodies of zero inverse mass and inertia alone", "why_tests_cant": "a box that is not refreshed is covered anyway until the body has moved further than the margin; only an invariant over all histories shows that none is ever missed", "anchors": ["src/private/dynamics/b2_body.rs: synchronize_fixtures, set_transform", "src/private/dynamics/b2_fixture.rs: synchronize", "src/private/dynamics/b2_world.rs: solve, solve_toi, shift_origin", "src/private/collision/b2_dynamic_tree.rs: move_proxy"]}
{"id": "C106", "title": "query_aabb finds every fixture in the box", "statement": "query_aabb calls the callback with the fixture of each child whose fat box meets the given box, once per child, until the callback answers false; every child of an enabled body whose own bounding box meets the given box is among them, and it never panics.", "quantifier": "for the fat boxes: all reachable worlds; for the bounding boxes: the worlds of C105. All boxes and callbacks", "why_tests_cant": "completeness over all trees and positions: a missed fixture is one the test did not place", "anchors": ["src/private/dynamics/b2_world.rs: query_aabb", "src/b2_broad_phase.rs: query", "src/b2_dynamic_tree.rs: query"]}
{"id": "C107", "title": "ray_cast reports what the ray hits", "statement": "ray_cast of a world, for two different points, reports children that the ray hits (by the ray cast of the shape at the body's transform), with hit point, normal and fraction. A callback that always answers 1 or a negative number is told of every child of an enabled body that is hit, each once. A callback that answers the fraction is last told of a nearest hit, and is told nothing only if nothing is hit. For equal points it panics.", "quantifier": "the worlds of C105 in which no radius is negative and polygons are convex with unit outward normals; all rays and callbacks", "why_tests_cant": "the tree skips boxes and the ray is shortened on the way, in an order that depends on the tree: that nothing nearer is skipped is a statement about all trees and all orders", "anchors": ["src/private/dynamics/b2_world.rs: ray_cast", "src/b2_fixture.rs: ray_cast", "src/b2_dynamic_tree.rs: ray_cast", "src/private/collision/b2_circle_shape.rs", "src/private/collision/b2_polygon_shape.rs", "src/private/collision/b2_edge_shape.rs", "src/private/collision/b2_chain_shape.rs"]}
{"id": "C108", "title": "test_point is exact", "statement": "test_point of a fixture answers true for exactly the points of the closed disc (circles) or of the convex hull of the vertices (polygons), placed at the transform of the body, and never for edges and chains. A query_aabb with a box containing such a point reports the fixture.", "quantifier": "all reachable worlds (for the second sentence: those of C105), all fixtures with a nonnegative radius or a convex polygon with unit outward normals, all points", "why_tests_cant": "boundary points and all rotations", "anchors": ["src/b2_fixture.rs: test_point", "src/private/collision/b2_circle_shape.rs: test_point", "src/private/collision/b2_polygon_shape.rs: test_point"]}
{"id": "C109", "title": "Switching a sensor does not break stepping", "statement": "After set_sensor on a fixture of a world in which stepping does not panic, a step does not panic.", "quantifier": "all reachable worlds, all fixtures, both flags", "why_tests_cant": "the panic is an assertion of the contact solver about contacts that were updated before the switch; it needs a sleeping body or a sub-stepped step", "anchors": ["src/b2_fixture.rs: set_sensor", "src/private/dynamics/b2_fixture.rs: set_sensor", "src/private/dynamics/b2_contact_solver_private.rs: new", "src/private/dynamics/b2_world.rs: solve, solve_toi"]}
{"id": "C110", "title": "The whole engine never panics while stepping", "statement": "Any number of steps, with any time steps and iteration counts, one after the other, runs without a panic: no assertion, index out of range or failed unwrap in collision, contact management, islands, contact solver, joints of all ten kinds, continuous physics or broad phase. The world must have been made by correct calls, hold at most 64 bodies and valid shapes smaller than MAX_FLT, edges and chains only on bodies that are not dynamic, and gears whose ground bodies are their own; callbacks may not panic and may do what C63 allows.", "quantifier": "all reachable worlds, all sequences of steps, all joint states (exact arithmetic)", "why_tests_cant": "C63 leaves the collision routines and solvers open; whether an assertion deep in one of them can fail in some world depends on invariants of the whole engine that no test suite exhausts.", "anchors": ["src/private/dynamics/b2_world.rs", "src/private/dynamics/b2_island.rs", "src/private/dynamics/b2_contact_solver.rs", "src/private/dynamics/joints/*"]}
{"id": "C111", "title": "Scenery stays", "statement": "However many steps are taken, a static body keeps its position, angle and transform and has no velocity, and a disabled body keeps position, angle, transform and velocity, whatever collides with it or is joined to it, with the engine's own solvers.", "quantifier": "all reachable worlds with sub-stepping off, all sequences of steps, all listeners that change no bodies, all joints except gears with foreign ground bodies and mouse joints on bodies without mass", "why_tests_cant": "Drift of scenery shows only after many steps in particular configurations; a test can only sample them.", "anchors": ["src/private/dynamics/b2_world.rs", "src/private/dynamics/b2_island.rs"]}
{"id": "C112", "title": "Bodies move by the law of motion in the whole engine", "statement": "With the engine's own solvers, a kinematic body that is awake and too fast to fall asleep is moved by exactly its velocity times the time step, whatever it hits or holds; and a dynamic body without contacts and joints gets exactly the velocity that gravity, its force, torque and dampings give, and moves by that velocity times the time step.", "quantifier": "all reachable worlds with sub-stepping off, all time steps, all bodies whose motion is below the largest motion per step", "why_tests_cant": "That no other part of the engine (other islands, time-of-impact events, position correction, joints) touches such a body is a statement about all configurations.", "anchors": ["src/private/dynamics/b2_world.rs", "src/private/dynamics/b2_island.rs"]}
{"id": "C113", "title": "Queries and ray casts are exact in the whole engine", "statement": "After any history of calls and steps with the engine's own solvers, an AABB query reports every fixture child whose box meets the given box, none twice, and a ray cast reports exactly the children the ray hits; cutting the ray at each hit ends with a nearest hit.", "quantifier": "all worlds reachable as in C105, all boxes, rays and callbacks (exact arithmetic)", "why_tests_cant": "Misses depend on the state of the broad phase after a long history.", "anchors": ["src/private/dynamics/b2_world.rs", "src/private/collision/b2_dynamic_tree.rs"]}
{"id": "C114", "title": "No correct program panics", "statement": "Take any program: a list of calls, of any length, of the functions of a world, its bodies, fixtures and contacts (creating and destroying bodies, fixtures and joints, changing types, transforms, masses, filters, sensors and all other settings, steps with any time steps, all accessors). If every call respects its contract in the world in which it is made (objects are alive, dampings and densities not negative, shapes valid and not degenerate, joints between two different bodies, mass data with positive inertia about the center, filters changed only without contacts, at most 64 bodies and no edges or chains on dynamic bodies while stepping), then the program runs to its end without a panic.", "quantifier": "all programs, all callbacks that do not panic and do what C63 allows, all joint states (exact arithmetic)", "why_tests_cant": "every call sequence is its own case; that a call's contract, as documented, is all that is needed for this and every later call is a statement about all of them", "anchors": ["src/b2_world.rs", "src/b2_body.rs", "src/b2_fixture.rs", "src/b2_contact.rs", "src/private/dynamics/*"]}
{"id": "C115", "title": "Shapes have mass", "statement": "A valid circle of positive radius, and every valid convex polygon with more area than EPSILON, has mass data for every positive density: compute_mass does not panic, the mass is positive, and the rotational inertia about the center of mass is positive, so the body it is attached to can turn.", "quantifier": "all circles and convex polygons, all positive densities (exact arithmetic)", "why_tests_cant": "the assertions in compute_mass and reset_mass_data are about areas and inertias of arbitrary polygons", "anchors": ["src/private/collision/b2_circle_shape.rs: compute_mass", "src/private/collision/b2_polygon_shape.rs: compute_mass", "src/private/dynamics/b2_body.rs: reset_mass_data"]}
{"id": "C116", "title": "Touching flags tell the truth", "statement": "After a step without time-of-impact events, a contact one of whose bodies was awake and not static says that it touches exactly if its shapes touched at the positions the bodies had when the step began (for sensors: their distance is below ten EPSILON; otherwise: the collision routine finds points), it still exists only if the fattened boxes overlapped, and it is not lost as long as they do and it is not to be filtered again. For a circle and a circle or two-sided edge this means: a contact that says it touches is of shapes that have a common point.", "quantifier": "all reachable worlds, all time steps, all listeners that neither move bodies nor set sensors or manifolds", "why_tests_cant": "A stale flag shows only after a particular history of moving apart, sleeping, sensors being switched and contacts being kept by fat boxes.", "anchors": ["src/private/dynamics/b2_contact.rs: update", "src/private/dynamics/b2_contact_manager.rs: collide"]}
{"id": "C117", "title": "Shapes that meet have a contact", "statement": "After every completed step of positive length, any two children of fixtures that may collide (different enabled bodies, one dynamic, filters agree, no joint in between forbids or has forbidden it) and have a point in common at the positions of their bodies have a contact.", "quantifier": "all worlds reachable by calls and steps as in C105, all shapes with radius not negative", "why_tests_cant": "A missed pair depends on the whole history of the broad phase: buffered moves, fat boxes, enabling and disabling.", "anchors": ["src/private/dynamics/b2_contact_manager.rs", "src/private/collision/b2_broad_phase.rs", "src/private/dynamics/b2_world.rs: step"]}
{"id": "C118", "title": "No collision of a circle goes unnoticed", "statement": "If contacts are looked for when a step begins, or were at the end of the step before, then in a step without time-of-impact events every circle that has a point in common with a circle, polygon or two-sided edge it may collide with, one of the two bodies being awake and not static, has afterwards a contact with it that says that they touch.", "quantifier": "all worlds reachable by calls and steps, all positions and shapes, no sensors", "why_tests_cant": "It joins the broad phase, the contact manager and the collision routines over all histories and positions; tests try some.", "anchors": ["src/private/dynamics/b2_world.rs: step", "src/private/dynamics/b2_contact_manager.rs", "src/private/collision/b2_collide_circle.rs", "src/private/collision/b2_collide_edge.rs"]}
{"id": "C119", "title": "A step keeps momentum", "statement": "Contacts and joints only exchange momentum. If bodies have no touching contacts with other bodies, except with sensors and contacts that the callbacks disabled, and are joined to no others (their own joints being of any kind but pulleys, mouse joints and gears), then their total momentum after a step is what it would be if each of them moved freely under gravity, its applied force and its damping; without damping it changes by the step's time times the sum of weights and forces; without those it does not change at all. This holds whatever collides and however the solvers iterate, as long as none of the bodies falls asleep or reaches the speed limit and continuous physics is off.", "quantifier": "all worlds reachable by calls and steps, all sets of bodies, all time steps and iteration counts, all states of the joints", "why_tests_cant": "It is a statement about sums over arbitrary islands, contacts, joints and iterations; a test sees one scene up to rounding.", "anchors": ["src/private/dynamics/b2_island_private.rs: solve", "src/private/dynamics/b2_contact_solver_private.rs", "src/private/dynamics/joints/*", "src/private/dynamics/b2_world.rs: solve, step"]}
{"id": "C120", "title": "Position correction does not move the center of mass", "statement": "In a step the center of mass of bodies that have to do with each other only (as in C119) moves by exactly the step's time times their momentum after the step divided by their mass: the corrections of overlaps and joint errors shift bodies against each other only. Without gravity, forces and damping the center of mass moves straight on.", "quantifier": "all worlds reachable by calls and steps, all sets of bodies that are awake after the step, all time steps and iteration counts", "why_tests_cant": "Position correction works on overlaps of arbitrary configurations with any number of contacts and joints.", "anchors": ["src/private/dynamics/b2_island_private.rs: solve", "src/private/dynamics/b2_contact_solver_private.rs: solve_position_constraints", "src/private/dynamics/joints/*: solve_position_constraints"]}
{"id": "C121", "title": "A sleeping world stays asleep", "statement": "If no body of a world is awake (static and disabled bodies apart), the last step was completed and no contact waits to be filtered again, then a step, and any number of steps of any lengths, moves no body, changes no velocity, wakes nothing and calls no contact listener, however strong gravity is and whatever the solvers and callbacks would do; all it may call is the user's contact filter.", "quantifier": "for all reachable worlds, all callbacks, solvers and joints, all step lengths and iteration counts, any number of steps", "why_tests_cant": "A test steps one pile for a while. That sleep cannot end by itself depends on every path of the step (contact update, island search, continuous collision, new contacts) skipping what sleeps, for all worlds.", "anchors": ["src/private/dynamics/b2_world.rs 356-531 (solve), 534-901 (solve_toi), 903-959 (step)", "src/private/dynamics/b2_contact_manager.rs 83-171 (collide)"]}
{"id": "C122", "title": "One position iteration of a joint moves its bodies where the joint wants them, and the joint reports truly whether it was satisfied", "statement": "After a joint has been initialized in a step, a call of its position correction (from whatever positions the other constraints have left) moves the bodies so that the joint is satisfied to first order in the movement: anchors of revolute and weld joints meet, a stiff weld and a prismatic joint restore their angle, body B of a prismatic joint comes to the axis and, if it was beyond a limit, to the limit, a pulley restores the length of its rope. For bodies that cannot turn the joint is then satisfied exactly (also distance joints, within their limits, and wheel joints). The call returns true exactly if the joint was satisfied up to the tolerances before. Limits closer to each other than two linear slops are an exception: a prismatic or wheel joint with such limits is pulled to translation 0.", "quantifier": "for all joints, masses, moments of inertia, anchors, axes, positions and angles, and states left by earlier steps; over the reals", "why_tests_cant": "Position correction is Newton's method with a Jacobian and an effective mass for each kind of joint; a wrong sign or arm is hidden by many iterations and shows only as slow convergence or drift. Tests see a joint that looks connected.", "anchors": ["src/private/dynamics/joints/b2_revolute_joint.rs: solve_position_constraints", "src/private/dynamics/joints/b2_weld_joint.rs: solve_position_constraints", "src/private/dynamics/joints/b2_prismatic_joint.rs: solve_position_constraints", "src/private/dynamics/joints/b2_wheel_joint.rs: solve_position_constraints", "src/private/dynamics/joints/b2_distance_joint.rs: solve_position_constraints", "src/private/dynamics/joints/b2_pulley_joint.rs: solve_position_constraints"]}
{"id": "C123", "title": "After a step with continuous collision no watched contact has an impact left", "statement": "After a step of positive length with continuous collision (and without sub-stepping), for every contact that the engine watches for impacts (enabled, at most eight impacts so far, between solid fixtures, of a body that is awake and not static and of a body that is a bullet or not dynamic), a search for the first impact of its two shapes, on the courses that the two bodies have at the end of the step and begun not after the time from which the sweeps of the dynamic ones of them count, found none before the very end of the step. For bodies that do not turn this means that from then on the shapes stay further apart than the distance at which an impact is seen, unless they had a point in common at that time already or the search ran out of iterations: a ball does not end up behind or inside a wall.", "quantifier": "for all reachable worlds whose kinematic bodies move slower than the limits of the integrator, all callbacks that do not change bodies, all joints, solvers and step lengths", "why_tests_cant": "A test fires one bullet at one wall. That nothing is left over needs the whole event loop: a stored time of impact must be forgotten exactly when one of the two bodies is moved back, and every order of impacts between many bodies must end with all of them looked at again.", "anchors": ["src/private/dynamics/b2_world.rs 534-901 (solve_toi)", "src/private/collision/b2_time_of_impact.rs 232-463"]}
{"id": "C124", "title": "A saved joint comes back as the joint it was", "statement": "Any joint except mouse and gear joints, however it was defined, changed by its setters and used by the solver, can be saved with serde, and loading the saved data gives a joint with the same bodies and the same parameters and without stored impulses. In a step it does to the bodies exactly what the saved joint does, if the saved one has no stored impulses or if the step does not use them (warm starting off; distance joints excepted, which keep their limit impulses). It does not matter whether the format keeps the fields in order or keeps their names and returns them in any order.", "quantifier": "for all joint classes with a definition, all definitions, all sequences of setter and solver calls, all orders of fields", "why_tests_cant": "Each class has a hand-written list of fields to write, two hand-written readers and a constructor that normalizes or clamps; a field that is left out, swapped or rounded twice shows only in a joint that uses it. A test saves one world and looks whether it loads.", "anchors": ["src/joints/serialize/*.rs", "src/serialize/serialize_b2_joint.rs", "src/joints/*.rs: get_def, new"]}
{"id": "C125", "title": "A saved joint has as many fields as announced", "statement": "serialize_struct of a joint announces the number of fields that are then written, so that formats that rely on the number (length-prefixed binary formats) can load it.", "quantifier": "for all joints", "why_tests_cant": "JSON ignores the number; a test with JSON passes.", "anchors": ["src/joints/serialize/serialize_b2_distance_joint.rs 10-60"]}
{"id": "C126", "title": "A satisfied joint leaves the bodies alone", "statement": "If the constraint of a joint is satisfied where the bodies are (anchors together, on the axis, within the limits, at its length), it stores no impulses, its motor is off or has speed zero, its spring is at rest length and its bodies have no velocity, then a step does nothing: no call of the velocity solver changes a velocity, the position correction moves nothing and reports that it is done, and no impulse is stored. (Limits at least twice the slop apart; gears left out.)", "quantifier": "for all joint classes but gears, all masses, anchors, positions, angles, steps and numbers of iterations; over the reals", "why_tests_cant": "A wrong sign in a limit or a bias that is not zero at rest gives a joint that creeps; tests with tolerances do not see it.", "anchors": ["src/private/dynamics/joints/*.rs: init_velocity_constraints, solve_velocity_constraints, solve_position_constraints"]}
{"id": "C127", "title": "A joint defined by initialize is satisfied where the bodies are", "statement": "initialize of a joint definition, called with two bodies and one or two points of the world, gives a joint of these bodies whose anchors are at these points (a motor joint: at the position of body B; a mouse joint: at its target), without stored impulses, whose constraint is satisfied (if the limits contain zero and leave room; a distance joint if the points are linear_slop apart) and whose spring is at rest. In the world the axis of a prismatic joint has the direction that was given and that of a wheel joint is the one that was given. So adding the joint to bodies at rest does not move them.", "quantifier": "for all definitions, bodies, positions, angles, centres of mass, points and axes; over the reals", "why_tests_cant": "Tests use bodies at the origin with angle zero, where local and world coordinates agree.", "anchors": ["src/joints/b2_*_joint.rs: initialize, new", "src/private/dynamics/joints/b2_distance_joint.rs 25-40"]}
{"id": "C128", "title": "Joints do not notice that the origin is moved", "statement": "After the origin of the world was moved by shift_origin (which calls shift_origin of every joint) a joint computes the same velocities as it would have computed before, and its position correction makes the positions that it would have made before, seen from the new origin. It panics in the same cases as before.", "quantifier": "for all joints of all classes, positions, velocities, shifts and numbers of iterations", "why_tests_cant": "Only pulley and mouse joints keep world coordinates; tests of shift_origin do not step afterwards, so a class that forgets its ground anchors or target, or shifts a local anchor, looks right.", "anchors": ["src/b2_joint.rs: shift_origin", "src/private/dynamics/joints/b2_pulley_joint.rs: shift_origin", "src/private/dynamics/joints/b2_mouse_joint.rs: shift_origin", "src/private/dynamics/b2_world.rs: shift_origin"]}
{"id": "C129", "title": "Boxes and edges are what was asked for", "statement": "set_as_box(hx, hy) makes a polygon whose test_point says yes exactly for the points at most hx left or right and hy above or below the origin of the body. set_as_box_angle does the same round the given centre along axes turned by the given angle; the result is a proper polygon (strictly convex, counter-clockwise, outward unit normals), its mass is density times 4 hx hy, its centre the given one, and its inertia about the body origin that of the parallel-axis theorem. The setters of edges set the vertices and the sidedness as told and keep the radius.", "quantifier": "for all half-widths, centres, angles, densities, body transforms and points; over the reals", "why_tests_cant": "Tests use boxes at the origin with angle zero, where a wrong order of rotation and translation, or normals that are not turned, do not show.", "anchors": ["src/private/collision/b2_polygon_shape.rs 12-53", "src/private/collision/b2_edge_shape.rs 7-19"]}
{"id": "C130", "title": "The figures that a tree reports about its shape are true", "statement": "After any history of calls get_max_balance does not panic and answers the largest difference in depth between the two subtrees of a node; get_area_ratio answers zero for an empty tree and otherwise the sum of the perimeters of all nodes in the tree, each taken once, divided by the perimeter of the root.", "quantifier": "for all histories of calls of the tree, hence all pool sizes and tree shapes", "why_tests_cant": "Both loops run over the whole pool with the free nodes in it; stale free nodes are rare in tests, and the figures are not compared with a traversal.", "anchors": ["src/private/collision/b2_dynamic_tree.rs 500-520", "src/private/collision/b2_dynamic_tree.rs 636-654"]}
{"id": "C131", "title": "Moving the origin of a world changes the point of view and nothing else", "statement": "World::shift_origin succeeds whenever the world is not locked. Afterwards every body is where it was, seen from the new origin, with the same angle, velocities, forces and flags; the boxes of the broad-phase move along; fixtures, contacts, joints and settings are as before. Queries with the shifted box, ray casts with the shifted ray and point tests with the shifted point give the answers of the original world, call by call.", "quantifier": "for all reachable worlds, new origins, boxes, rays, points and callbacks", "why_tests_cant": "Tests shift an empty or tiny world once; a body list that is walked only in part, a forgotten sweep origin or a tree box that stays behind show only in later queries and steps.", "anchors": ["src/private/dynamics/b2_world.rs: shift_origin", "src/b2_broad_phase.rs 265-270", "src/private/collision/b2_dynamic_tree.rs: shift_origin"]}
{"id": "C132", "title": "Boxes that overlap have a contact point", "statement": "Two boxes made by set_as_box or set_as_box_angle, or any rectangles, that have a point in common get at least one contact point from the collision routine, however they are placed and turned. If they may collide and one of the bodies is awake and not static, then after a step without time-of-impact events in which contacts are looked for their contact says that they touch.", "quantifier": "for all rectangles of bounded size with the usual skins, all transforms, all reachable worlds (exact arithmetic)", "why_tests_cant": "The claim is false for other convex polygons (see C81), so it hangs on the geometry of the clipping: which face is the reference face, which edge is clipped, and the tolerance with which the reference is chosen; the cases form a continuum.", "anchors": ["src/private/collision/b2_collide_polygon.rs: b2_collide_polygons, b2_find_max_separation, b2_find_incident_edge", "src/private/collision/b2_collision.rs: b2_clip_segment_to_line"]}
{"id": "C133", "title": "A box that an edge goes into has a contact point", "statement": "A box and a two-sided edge get at least one contact point from the collision routine, however they are placed and turned, when the edge goes into the box: around some point of the edge a disc with radius LINEAR_SLOP lies in the box. If they may collide and one of the bodies is awake and not static, then after a step without time-of-impact events in which contacts are looked for their contact says that they touch. The depth is needed: a corner just beside the end of an edge can overlap it slightly without a contact point.", "quantifier": "for all two-sided edges, all rectangles of bounded size with the usual skins, all transforms, all reachable worlds (exact arithmetic)", "why_tests_cant": "Whether a contact is missed depends on which axis wins with the tolerances 0.98 and 0.001 and on what clipping leaves; the failing cases (below 0.004 deep at the end of an edge) are too small to be hit by tests.", "anchors": ["src/private/collision/b2_collide_edge.rs: b2_collide_edge_and_polygon, b2_compute_edge_separation, b2_compute_polygon_separation", "src/private/collision/b2_collision.rs: b2_clip_segment_to_line"]}
{"id": "C134", "title": "Debug drawing shows what is there", "statement": "World::debug_draw does not panic for a world whose polygons have at most eight vertices. With the shape flag it paints the fixtures of all bodies and nothing else: each filled circle, polygon, edge or chain lies exactly where the fixture is, in the colour that tells the state of the body (dynamic without mass, disabled, static, kinematic, asleep, awake). With the joint flag every joint is drawn as the segment between its world anchors (a pulley as its two ropes, a mouse joint from its target), with the pair flag every contact as the segment between the centers of the boxes of its two children, with the box flag exactly the fat boxes of the children of enabled bodies, which cover the children, and with the center-of-mass flag the axes of every body at its center of mass. Without a flag nothing of its kind is drawn. A rope in use is drawn as its segments and vertices; the draw of a rope that was never created panics.", "quantifier": "for all reachable worlds, flags and engines; for all ropes in use", "why_tests_cant": "Drawing is checked by eye on the testbed; a chain that lacks its last segment, a box of a moved fixture, a colour test in the wrong order or a panic on a disabled body are only seen by someone who draws that world.", "anchors": ["src/private/dynamics/b2_world.rs: debug_draw, draw_shape", "src/b2_draw.rs", "src/private/dynamics/b2_joint.rs: draw", "src/private/dynamics/joints/*: draw", "src/private/rope/b2_rope.rs: draw"]}
{"id": "C135", "title": "Sensors do not disturb motion, and free bodies fly on parabolas", "statement": "With continuous physics off, a dynamic body that is held by no joint, and all of whose touching contacts after a step are with sensors or were disabled by the callbacks, moves in that step by the rule for free bodies. Over any number of steps of the same length in which this is so, and in which it does not become so fast that it is limited or so slow that it may fall asleep, an undamped body on which no force acts has after n steps the velocity v + n dt g, the place c + n dt v + n(n+1)/2 dt^2 g, its spin, and the angle a + n dt w; a damped one has the velocities of the corresponding geometric series. It stays awake.", "quantifier": "all worlds reachable by calls and steps, all numbers of steps and iterations, all other bodies, contacts and joints in the world", "why_tests_cant": "A test sees one flight of a fixed number of steps, up to rounding; that nothing else in the world matters is a statement about all worlds.", "anchors": ["src/private/dynamics/b2_island_private.rs: solve", "src/private/dynamics/b2_world_private.rs: solve", "src/b2_world.rs: B2world::step", "src/private/dynamics/b2_contact_private.rs: b2_contact_update"]}
{"id": "C136", "title": "Bodies that only meet each other fly as one", "statement": "With continuous physics off, if over n steps of the same length a set of bodies has no touching contacts with other bodies (except with sensors and contacts disabled by callbacks) and no joints leading outside or of the kinds pulley, mouse or gear, then, undamped and without applied forces, their total momentum after the n steps is what it was plus n dt times their weight, and their centre of mass is at C + n dt P/M + n(n+1)/2 dt^2 W/M: collisions among them, their joints and the corrections of positions do not show in the motion of the centre of mass. None of the bodies may fall asleep or reach the speed limit.", "quantifier": "all worlds reachable by calls and steps, all sets of bodies, all numbers of steps and iterations", "why_tests_cant": "It is a statement about sums over arbitrary sets of colliding bodies and runs of any length.", "anchors": ["src/private/dynamics/b2_island_private.rs: solve", "src/private/dynamics/b2_contact_solver_private.rs", "src/private/dynamics/joints/*: solve_velocity_constraints, solve_position_constraints", "src/b2_world.rs: B2world::step"]}
{"id": "C137", "title": "Two bodies that only meet each other obey the law of impact", "statement": "With continuous physics off, block solving on and a listener whose post_solve leaves the world alone, if in a step a touching, enabled, non-sensor contact joins two bodies, neither of which (unless it is static) has another such contact or a joint, then the step obeys Newton's law of impact at the contact's first point: the impulse the contact reports is not negative; the bodies end the step separating, along the contact normal, at least as fast as restitution asks; and exactly that fast if the impulse is not zero. What restitution asks is the mixed restitution times the speed with which the bodies would have met after gravity, forces and damping of this step, if that is above the restitution threshold, and zero otherwise. Neither body may fall asleep or reach the speed limits in the step.", "quantifier": "all worlds reachable by calls and steps, all bodies, shapes, velocities, masses, frictions, numbers of iterations and warm-started impulses, whatever else is in the world", "why_tests_cant": "Unit tests drop one ball on one floor; that warm starting, friction, islands, several iterations and the storing of impulses all leave the law intact for every pair of bodies is a statement about all worlds.", "anchors": ["src/private/dynamics/b2_contact_solver_private.rs: b2_contact_solver, initialize_velocity_constraints, warm_start, solve_velocity_constraints, store_impulses", "src/private/dynamics/b2_island_private.rs: solve", "src/private/dynamics/b2_world.rs: solve", "src/b2_world.rs: B2world::step"]}
{"id": "C138", "title": "Bodies slide over the inner vertices of a chain", "statement": "A contact of a chain that runs straight (ghost vertices included) pushes a circle exactly across the chain, to its front, also over its vertices and ends; it pushes a polygon across the chain up to the tolerance of the smoothing: at most a tenth of the push acts along the chain. At a corner the push is exactly across the edge, or lies between the directions across the edge and across its neighbour (for polygons up to the tolerance, and only if the corner is convex); in a valley a polygon is pushed exactly across the edge. A polygon whose centroid is behind a one-sided edge does not meet it. The push on a polygon need not be to the front: a polygon whose centroid is in front but which reaches farther to the back is pulled through.", "quantifier": "all chains that run straight, all corners, all circles, all convex polygons, all transforms", "why_tests_cant": "Ghost collisions depend on the exact place of the body over the vertex; tests try a few places, and the collision is rare and looks like friction.", "anchors": ["src/private/collision/b2_collide_edge.rs: b2_collide_edge_and_circle, b2_collide_edge_and_polygon", "src/private/collision/b2_chain_shape.rs: get_child_edge", "src/private/collision/b2_collision.rs: b2_world_manifold_initialize"]}
{"id": "C139", "title": "A world that is not fed gains no kinetic energy", "statement": "In a world without gravity, forces and moving bodies of infinite mass, whose joints only hold (they have no motors, springs, targets or friction, and limits of distance joints store no impulses), whose damping is not negative and in which impulses are not applied in advance (warm starting off), steps never add kinetic energy as long as the contacts that are solved have neither friction nor restitution: after any number of steps of any lengths, with any collisions, the sum over all bodies of mass times squared speed plus inertia times squared angular speed is at most what it was.", "quantifier": "all worlds reachable by calls and steps, all numbers and lengths of steps and iterations, all bodies, shapes, collisions and islands, all listeners whose post_solve does nothing", "why_tests_cant": "Energy that appears from nowhere shows as jitter or explosions in rare stacks; tests run a few scenes, the statement is about every scene and every step.", "anchors": ["src/b2_world.rs: B2world::step", "src/private/dynamics/b2_world.rs: solve, step", "src/private/dynamics/b2_island_private.rs: solve", "src/private/dynamics/b2_contact_solver_private.rs: initialize_velocity_constraints, solve_velocity_constraints"]}
{"id": "C140", "title": "Collision does not depend on the point of view", "statement": "Turning and shifting everything by the same rigid motion changes nothing that is found: two shapes touch exactly when they did, with the same manifold (type, local points, local normal, features), so the manifold depends on the placement of one body relative to the other only; the world manifold turns and shifts along with the same separations (except for circles whose centres coincide, whose normal is always (1, 0)); test_point answers the same; ray_cast hits at the same fraction with the normal turned; the distance algorithm returns the same distance, cache and number of iterations and the witness points carried along, provided it ends before its limit of 20 iterations; shape casts return the same fraction with point and normal carried along.", "quantifier": "all shapes of all kinds, all placements, all rigid motions, all points, rays, proxies, caches and translations", "why_tests_cant": "A wrong sign or a forgotten transpose in one of the many changes of frame shows only for some angles of both bodies; tests use axis-aligned or a few fixed placements.", "anchors": ["src/private/dynamics/contacts: evaluate", "src/private/collision/b2_collide_circle.rs", "src/private/collision/b2_collide_polygon.rs", "src/private/collision/b2_collide_edge.rs", "src/private/collision/b2_collision.rs: b2_world_manifold_initialize", "src/private/collision/b2_distance.rs: b2_distance_fn, b2_shape_cast", "src/private/collision/b2_*_shape.rs: test_point, ray_cast"]}
{"id": "C141", "title": "A body that rests on the ground stays at rest, exactly", "statement": "With continuous physics off, block solving on and a listener that does nothing: a dynamic body that has no velocity, and that lies on a static body with a single contact point, straight above it along the contact normal, overlapping it by no more than the linear slop, and which gravity and force pull straight onto it, has no velocity after the step either and is in exactly the same place: centre of mass, angle and transform are unchanged. So it is after any number of steps of any lengths and iteration counts. It neither sinks, creeps, jitters, turns nor rebounds. Required: nothing else touches the body, no torque acts on it, the contact has no tangent speed, it stores no friction impulse at the start, and the speed the pull gives in one step is at most the restitution threshold (or there is no restitution).", "quantifier": "all worlds reachable by calls and steps, all bodies and shapes, all gravities and forces, all numbers and lengths of steps and iterations, all stored normal impulses, whatever else is in the world", "why_tests_cant": "Tests see whether a ball has moved visibly after some steps; that the accumulated impulse, warm starting from any earlier impulse, friction and the position correction leave no drift at all, ever, is a statement about all states and any number of steps.", "anchors": ["src/private/dynamics/b2_contact_solver_private.rs: b2_contact_solver, initialize_velocity_constraints, warm_start, solve_velocity_constraints, store_impulses, solve_position_constraints", "src/private/dynamics/b2_island_private.rs: solve", "src/private/dynamics/b2_world_private.rs: solve", "src/b2_world.rs: B2world::step"]}
{"id": "C142", "title": "A body that sleeps through a step has not moved", "statement": "In a world in which other bodies may be awake, collide and be pulled by joints, with continuous physics on or off: a dynamic or kinematic body that is asleep before a step and asleep after it is in exactly the same place (centre of mass, angle, transform) with exactly the same linear and angular velocity. In other words, whatever moves a sleeping body or changes its velocity leaves it awake. Required: the step is shorter than the half second after which bodies fall asleep, sub-stepping is off, and the listener leaves bodies alone. For longer steps it is false: a body may be woken by a neighbour, moved and put back to sleep within the step.", "quantifier": "all worlds reachable by calls and steps, all bodies, shapes, contacts, joints and islands, all step lengths below half a second, all numbers of iterations", "why_tests_cant": "Users skip sleeping bodies when they synchronise graphics or networks. A body that is moved without being woken needs a particular order of islands and impacts; tests look at a few scenes.", "anchors": ["src/private/dynamics/b2_world_private.rs: solve, solve_toi", "src/private/dynamics/b2_island_private.rs: solve, solve_toi", "src/b2_body.rs: set_awake"]}
{"id": "C143", "title": "A woken body stays awake for half a second", "statement": "After set_awake(true) on a dynamic or kinematic body, the body is awake after each of any number of steps whose lengths add up to less than half a second, whatever it and the rest of the world do. More generally the sleep timer grows by no more than the time simulated, so that a body whose timer is t stays awake for all steps that add up to less than half a second minus t. Required: no call other than steps in between, sub-stepping off, a listener that leaves bodies alone.", "quantifier": "all worlds reachable by calls and steps, all bodies and islands, all sequences of steps of non-negative lengths, with continuous physics on or off", "why_tests_cant": "Falling asleep depends on the smallest timer in the island, and islands merge and split from step to step; the statement is about all such histories.", "anchors": ["src/b2_body.rs: set_awake", "src/private/dynamics/b2_island_private.rs: solve, solve_toi", "src/private/dynamics/b2_world_private.rs: solve, solve_toi"]}
{"id": "C144", "title": "Contacts have the mixed coefficients of their fixtures until one is set", "statement": "A contact that a call or a step creates has the friction sqrt(friction A * friction B), the larger restitution, the smaller restitution threshold and no tangent speed. From then on no call and no step changes them, except the setters of the contact itself: set_friction, set_restitution and set_restitution_threshold of a fixture do not reach contacts that exist, and what was set on a contact stays for as long as the contact lives. So in a world in which nobody sets coefficients all contacts have exactly the mixed coefficients of their fixtures, at any time.", "quantifier": "all worlds reachable by calls and steps, all contacts, fixtures and coefficients, all callbacks that set no coefficients, with continuous physics and sub-stepping on or off", "why_tests_cant": "A coefficient that is reset when a manifold is updated, a contact sleeps or an impact is handled shows as a slope that becomes slippery after a while; tests look at a contact just after it was made.", "anchors": ["src/private/dynamics/b2_contact.rs: B2contact::new, update", "src/b2_contact.rs: b2_mix_friction, b2_mix_restitution, b2_mix_restitution_threshold, set_friction", "src/b2_fixture.rs: set_friction, set_restitution", "src/private/dynamics/b2_world_private.rs: solve, solve_toi"]}
{"id": "C145", "title": "A sleeping heap sleeps on while other things go on elsewhere", "statement": "Take any set of bodies that are asleep and that contacts and joints connect with each other and with static bodies only, none of the contacts waiting to be filtered again. A step leaves each of them exactly as it is: place, velocities, sleep timer, and asleep, whatever the other bodies of the world do, even when they hit the very ground the heap lies on. No fixture was added since the last step; the callbacks call no functions of bodies and switch no sensors; and continuous physics is off, or the last step was completed and the world has no bullets and no kinematic bodies (a bullet or a kinematic body may reach the heap within the step).", "quantifier": "all worlds reachable by calls and steps, all sets of bodies, all shapes, contacts, joints and islands, all solvers and all other callbacks, all step lengths and numbers of iterations", "why_tests_cant": "Users rely on sleep for speed and for piles that do not creep. A search for islands that passes through static bodies, or an impact that wakes more than it hits, wakes heaps far away, and which ones depends on the whole graph of contacts; tests look at single scenes.", "anchors": ["src/private/dynamics/b2_world_private.rs: solve, solve_toi", "src/private/dynamics/b2_island_private.rs: solve, solve_toi", "src/private/dynamics/b2_contact_manager.rs: collide", "src/private/dynamics/b2_contact.rs: update"]}
{"id": "C146", "title": "Without warm starting the solver has no memory", "statement": "With set_warm_starting(false), the velocities and positions that a step computes for an island, and whether it can be solved, do not depend on the impulses that contacts and joints stored in earlier steps, nor on how long the last step was. In the sub-steps of the continuous phase, which never warm start, the same is so whatever the setting.", "quantifier": "all worlds, islands, contacts and joints, all stored impulses, all step lengths and numbers of iterations", "why_tests_cant": "A stored impulse that is not dropped acts only when a limit was reached in an earlier step and is not any more; comparing two histories that differ in nothing else is not something tests do. It is false of the distance joint, whose limit impulses the code does not drop.", "anchors": ["src/private/dynamics/b2_contact_solver_private.rs: b2_contact_solver::new", "src/private/dynamics/b2_island_private.rs: solve, solve_toi", "src/private/dynamics/joints/b2_distance_joint.rs: init_velocity_constraints", "src/private/dynamics/joints/*.rs: init_velocity_constraints"]}
{"id": "C147", "title": "An impulse gives a body its momentum and does its work", "statement": "apply_linear_impulse(j, x, wake) on a dynamic body with mass that is awake (or with wake set) adds j to get_mass times get_linear_velocity. If the body can turn, it adds the moment of j about any point to the angular momentum about that point. If it can turn or is not turning, the kinetic energy grows by j times the mean of what get_linear_velocity_from_world_point(x) gives before and after. Nothing else in the world changes. apply_linear_impulse_to_center is the same at get_world_center; apply_angular_impulse adds to the angular momentum only, and its work is the impulse times the mean of the angular velocities.", "quantifier": "all worlds reachable by calls and steps, all bodies, impulses, points", "why_tests_cant": "The figures are spread over inverse masses, center and spin that many calls update; that they fit together for every body, however it came about, is a statement about all histories.", "anchors": ["src/b2_body.rs: apply_linear_impulse, apply_linear_impulse_to_center, apply_angular_impulse, get_linear_velocity_from_world_point"]}
{"id": "C148", "title": "Mass data are what was set, and setting them does not jolt the body", "statement": "After set_mass_data(m) with m.mass > 0 on a dynamic body, get_mass_data returns the mass and center of m, and its inertia if it is positive and the body may rotate; get_inertia agrees. The velocity that get_linear_velocity_from_world_point gives for any point, the angular velocity and the transform are as before.", "quantifier": "all worlds, dynamic bodies and mass data for which the call does not panic, all points", "why_tests_cant": "The velocity of the center has to be corrected when the center moves; the error shows only for bodies that turn and at points other than the one tested.", "anchors": ["src/private/dynamics/b2_body.rs: set_mass_data", "src/b2_body.rs: get_mass_data, get_inertia, get_linear_velocity_from_world_point"]}
{"id": "C149", "title": "Setting the mass data that were read changes nothing", "statement": "set_mass_data with what get_mass_data has returned does not panic and changes nothing on a dynamic body, but for the place at which it was when the last step began.", "quantifier": "all worlds reachable by calls and steps, all dynamic bodies", "why_tests_cant": "Tests read and write typical data. It is false for a body with mass off its origin and no inertia (panics) and for one without mass (gets a mass of one).", "anchors": ["src/private/dynamics/b2_body.rs: set_mass_data", "src/b2_body.rs: get_mass_data"]}
{"id": "C150", "title": "The points of a body move as those of a rigid body", "statement": "get_local_point undoes get_world_point and the other way round, and the same for vectors; a vector between two points is the difference of the points; get_world_center is where get_local_center is in the world, and its velocity is get_linear_velocity; and the velocities that get_linear_velocity_from_local_point gives for two points do not change their distance.", "quantifier": "all worlds reachable by calls and steps, all bodies, all points", "why_tests_cant": "The transform, the sweep and the angle are stored separately and written in many places; a forgotten update shows only after particular sequences of calls.", "anchors": ["src/b2_body.rs: get_world_point, get_world_vector, get_local_point, get_local_vector, get_linear_velocity_from_local_point"]}
