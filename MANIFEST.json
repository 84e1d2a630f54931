{
 "claims": [
  {
   "property": "C01",
   "status": "partial",
   "theorems": [
    "Blazert.C01_closest_hit_tolerance_partial",
    "Blazert.C01_closest_hit_partial",
    "Blazert.C01_spheres_and_planes_partial"
   ],
   "note": "Exact real arithmetic; meshes, spheres and planes; any build. Excluded: -0.0 direction components and rays in z faces (C23, C24: false), depth > 26 (C11: false), triangles passed so narrowly that the tolerance decides (C02_phantom_hit)."
  },
  {
   "property": "C02",
   "status": "partial",
   "theorems": [
    "Blazert.C02_no_phantom_partial",
    "Blazert.C02_phantom_hit",
    "Blazert.C02_provenance",
    "Blazert.C02_cylinders_partial"
   ],
   "note": "Any arithmetic, all four kinds: the record is what the test of the named primitive produces. Exact real arithmetic, any non-zero direction: genuine hits, for triangles up to the tolerance of the test, and false beyond that (witness C02_phantom_hit in double arithmetic); cylinders except for origins on the lateral surface."
  },
  {
   "property": "C03",
   "status": "partial",
   "theorems": [
    "Blazert.C03_spheres_partial",
    "Blazert.C03_planes_partial",
    "Blazert.C03_meshes_partial",
    "Blazert.C03_phantom",
    "Blazert.C03_negative_zero"
   ],
   "note": "Exact real arithmetic, any options, any std::partition; false for narrowly passed triangles and -0.0 directions (witness theorems)."
  },
  {
   "property": "C04",
   "status": "partial",
   "theorems": [
    "Blazert.C04_any_hit_same_answer_partial",
    "Blazert.C04_any_hit_genuine_partial",
    "Blazert.C04_cylinders_differ",
    "Blazert.C04_rounding_differs"
   ],
   "note": "Exact real arithmetic; without cylinders the truth values agree for every committed scene and non-zero direction; distance genuine up to the triangle tolerance. False with cylinders, and in double arithmetic even for spheres (witnesses)."
  },
  {
   "property": "C05",
   "status": "proved",
   "theorems": [
    "Blazert.C05_traverse_miss_untouched",
    "Blazert.C05_intersect1_miss_untouched"
   ],
   "note": "any arithmetic; BVH traversal and whole scene"
  },
  {
   "property": "C06",
   "status": "partial",
   "theorems": [
    "Blazert.C06_depends_on_stale_rayhit",
    "Blazert.C06_only_prior_distance_matters_partial",
    "Blazert.C06_mesh_only"
   ],
   "note": "False in general: witness theorem in double arithmetic. Proved: only the prior hit_distance matters; mesh-only scenes are fully independent."
  },
  {
   "property": "C07",
   "status": "proved",
   "theorems": [
    "Blazert.C07_ids_sequential",
    "Blazert.C07_ids_distinct"
   ],
   "note": "all call histories"
  },
  {
   "property": "C08",
   "status": "proved",
   "theorems": [
    "Blazert.C08_rejected_add_no_effect"
   ],
   "note": "all call histories"
  },
  {
   "property": "C09",
   "status": "proved",
   "theorems": [
    "Blazert.C09_recommit_changes_no_answer",
    "Blazert.C09_recommit_succeeds"
   ],
   "note": "any number of further commits, any std::partition"
  },
  {
   "property": "C10",
   "status": "proved",
   "theorems": [
    "Blazert.C10_only_stack_overflow_possible",
    "Blazert.C10_no_undefined_behaviour",
    "Blazert.C10_uncommitted_query_is_out_of_bounds"
   ],
   "note": "every committed scene reachable by API calls, any arithmetic with irreflexive <"
  },
  {
   "property": "C11",
   "status": "partial",
   "theorems": [
    "Blazert.C11_stack_overflow",
    "Blazert.C11_thirty_primitives_safe_partial",
    "Blazert.C11_max_depth_26_safe_partial"
   ],
   "note": "False for default options (31 spheres overflow the stack). Proved: safe for up to 30 primitives per kind, and for max_tree_depth <= 26."
  },
  {
   "property": "C12",
   "status": "proved",
   "theorems": [
    "Blazert.C12_each_node_at_most_once",
    "Blazert.C12_queries_terminate"
   ],
   "note": "every build, any arithmetic"
  },
  {
   "property": "C13",
   "status": "proved",
   "theorems": [
    "Blazert.C13_concurrent_queries_do_not_interfere"
   ],
   "note": "any number of queries, any schedule, any arithmetic; one step is one loop iteration of traverse"
  },
  {
   "property": "C14",
   "status": "proved",
   "theorems": [
    "Blazert.C14_every_primitive_in_exactly_one_leaf",
    "Blazert.C14_reachable_tree"
   ],
   "note": "any arithmetic, any collection, any std::partition, any options"
  },
  {
   "property": "C15",
   "status": "proved",
   "theorems": [
    "Blazert.C15_boxes_are_unions",
    "Blazert.C15_boxes_nest"
   ],
   "note": "any ordered field with the special values of IEEE arithmetic, any std::partition, any collection whose boxes are in range"
  },
  {
   "property": "C16",
   "status": "proved",
   "theorems": [
    "Blazert.C16_limits"
   ],
   "note": "any arithmetic, any collection, any std::partition, any options"
  },
  {
   "property": "C17",
   "status": "proved",
   "theorems": [
    "Blazert.C17_statistics_exact"
   ],
   "note": "any arithmetic; bad_splits only bounded"
  },
  {
   "property": "C18",
   "status": "proved",
   "theorems": [
    "Blazert.C18_node_count",
    "Blazert.C18_bound_needs_min_leaf"
   ],
   "note": "any arithmetic"
  },
  {
   "property": "C19",
   "status": "partial",
   "theorems": [
    "Blazert.C19_build_returns_partial",
    "Blazert.C19_build_returns_double_partial",
    "Blazert.C19_build_returns_float_partial",
    "Blazert.C19_build_returns_exact_partial",
    "Blazert.C19_single_leaf",
    "Blazert.C19_commit_returns_partial",
    "Blazert.C19_tiny_boxes",
    "Blazert.C19_huge_boxes",
    "Blazert.C19_zero_bins",
    "Blazert.C19_negative_radius"
   ],
   "note": "Proved for any format with gradual underflow, binary64 and binary32 when box coordinates are equal or differ by a moderate amount; false for tiny and huge boxes, zero bins and negative radii (witness theorems). For whole scenes: exact arithmetic here, with all roundings in C96."
  },
  {
   "property": "C20",
   "status": "partial",
   "theorems": [
    "Blazert.C20_box_test_complete_partial",
    "Blazert.C20_box_test_precise",
    "Blazert.C20_negative_interval_rejected"
   ],
   "note": "Exact arithmetic over the reals. Proved for nonnegative parameters, excluding negative zeros (C23) and rays in a z face (C24); converse proved up to the slack; witness for negative intervals."
  },
  {
   "property": "C21",
   "status": "partial",
   "theorems": [
    "Blazert.C21_box_test_complete_with_rounding_partial",
    "Blazert.C21_double_partial",
    "Blazert.C21_float_partial"
   ],
   "note": "Proved in the standard model of rounding and for bit-accurate binary64/binary32, under the same exclusions as C20 and without overflow/underflow in the box test."
  },
  {
   "property": "C22",
   "status": "partial",
   "theorems": [
    "Blazert.C22_scaling_partial",
    "Blazert.C22_scaled_direction_misses"
   ],
   "note": "False: witness theorem in double arithmetic (direction scaled by 1/2 misses). Proved for directions of length at least 1 and min_hit_distance 0."
  },
  {
   "property": "C23",
   "status": "partial",
   "theorems": [
    "Blazert.C23_negative_zero_blind",
    "Blazert.C23_no_new_hits_partial",
    "Blazert.C23_negative_zero_misses"
   ],
   "note": "False: witness theorem in double arithmetic, and a theorem that a ray with a -0.0 component misses every BVH unless it lies in a face of the root box. Proved: -0.0 never adds a hit nor makes it closer."
  },
  {
   "property": "C24",
   "status": "partial",
   "theorems": [
    "Blazert.C24_xy_faces_partial",
    "Blazert.C24_ray_in_z_face_misses"
   ],
   "note": "False for z faces: witness theorem in double arithmetic. Proved for x and y faces (direction with non-zero z component)."
  },
  {
   "property": "C25",
   "status": "proved",
   "theorems": [
    "Blazert.C25_sphere_exact",
    "Blazert.C25_negative_min"
   ],
   "note": "exact real arithmetic, non-negative min hit distance; witness theorem for what happens with a negative one"
  },
  {
   "property": "C26",
   "status": "proved",
   "theorems": [
    "Blazert.C26_sphere_normal"
   ],
   "note": "exact real arithmetic"
  },
  {
   "property": "C27",
   "status": "proved",
   "theorems": [
    "Blazert.C27_sphere_box"
   ],
   "note": "exact real arithmetic; containment and minimality"
  },
  {
   "property": "C28",
   "status": "proved",
   "theorems": [
    "Blazert.C28_triangle_complete",
    "Blazert.C28_triangle_sound",
    "Blazert.C28_parallel_never_hit",
    "Blazert.C28_tolerance_is_absolute"
   ],
   "note": "exact real arithmetic; a witness theorem shows how large the absolute tolerance can get for small triangles"
  },
  {
   "property": "C29",
   "status": "proved",
   "theorems": [
    "Blazert.C29_uv_barycentric"
   ],
   "note": "exact real arithmetic"
  },
  {
   "property": "C30",
   "status": "proved",
   "theorems": [
    "Blazert.C30_common_point",
    "Blazert.C30_shared_edge"
   ],
   "note": "exact real arithmetic; also for any two triangles with a common point"
  },
  {
   "property": "C31",
   "status": "proved",
   "theorems": [
    "Blazert.C31_triangle_box",
    "Blazert.C31_triangle_center"
   ],
   "note": "box: any arithmetic; center: exact real arithmetic"
  },
  {
   "property": "C32",
   "status": "partial",
   "theorems": [
    "Blazert.C32_unit_normal_partial",
    "Blazert.C32_isolated_face",
    "Blazert.C32_opposite_faces"
   ],
   "note": "Unit length proved where the interpolated normal does not vanish, flat shading proved for isolated faces; false in general (witness: opposite faces give NaN)."
  },
  {
   "property": "C33",
   "status": "proved",
   "theorems": [
    "Blazert.C33_plane_exact"
   ],
   "note": "exact real arithmetic, non-negative min hit distance, rectangles not parallel to the ray"
  },
  {
   "property": "C34",
   "status": "partial",
   "theorems": [
    "Blazert.C34_plane_normal_partial",
    "Blazert.C34_edge_normal_tilted"
   ],
   "note": "Proved for interior hits; false on the edges (witness theorem)."
  },
  {
   "property": "C35",
   "status": "proved",
   "theorems": [
    "Blazert.C35_plane_box"
   ],
   "note": "exact real arithmetic, any matrix"
  },
  {
   "property": "C36",
   "status": "partial",
   "theorems": [
    "Blazert.C36_on_surface_partial",
    "Blazert.C36_false_cap_hit",
    "Blazert.C36_ignores_limits",
    "Blazert.C36_below_min_distance",
    "Blazert.C36_zero_distance"
   ],
   "note": "Exact real arithmetic. Reported points are on the surface unless the origin is on the lateral surface and the ray heads outside, where a theorem shows that the hit is false; the distance limits are ignored (theorem, any arithmetic)."
  },
  {
   "property": "C37",
   "status": "partial",
   "theorems": [
    "Blazert.C37_outside_partial",
    "Blazert.C37_inside_partial",
    "Blazert.C37_cap_level_blind",
    "Blazert.C37_farther_wins",
    "Blazert.C37_one_met_partial",
    "Blazert.C37_some_reported_partial"
   ],
   "note": "Exact real arithmetic. One cylinder: first point for outside origins, exit point for inside origins. Whole scenes: closest hit if the ray meets at most one cylinder, and some hit if the limit is beyond all of them. False for several cylinders (witness in double arithmetic) and for origins at the level of a cap (theorem)."
  },
  {
   "property": "C38",
   "status": "partial",
   "theorems": [
    "Blazert.C38_box_partial",
    "Blazert.C38_box_too_small",
    "Blazert.C38_rotated_cylinder_missed"
   ],
   "note": "Exact real arithmetic: contains the cylinder if the orientation takes axes to axes, and for no other orientation (theorem)."
  },
  {
   "property": "C39",
   "status": "partial",
   "theorems": [
    "Blazert.C39_normal_partial",
    "Blazert.C39_inside_normal_not_rotated"
   ],
   "note": "Exact real arithmetic: outer unit normal, except for inside origins and the lateral surface (witness in double arithmetic)."
  },
  {
   "property": "C40",
   "status": "proved",
   "theorems": [
    "Blazert.C40_sphere_distance"
   ],
   "note": "exact real arithmetic"
  },
  {
   "property": "C41",
   "status": "partial",
   "theorems": [
    "Blazert.C41_plane_distance_partial",
    "Blazert.C41_plane_distance_wrong"
   ],
   "note": "False (three witnesses). Proved where the rectangle is centered on the z axis and the foot of the perpendicular lies in it; with all roundings in C111."
  },
  {
   "property": "C42",
   "status": "proved",
   "theorems": [
    "Blazert.C42_closest_point",
    "Blazert.C42_degenerate_nan"
   ],
   "note": "exact real arithmetic, every non-degenerate triangle"
  },
  {
   "property": "C43",
   "status": "partial",
   "theorems": [
    "Blazert.C43_wrong_point",
    "Blazert.C43_computes_other_triangle",
    "Blazert.C43_second_vertex_origin_partial"
   ],
   "note": "False: a wrong third vertex is used (witness in double arithmetic), and the C++ function returns a point where a number is declared. Proved: which point it computes, and that it is right if the second vertex is the origin."
  },
  {
   "property": "C44",
   "status": "partial",
   "theorems": [
    "Blazert.C44_over_cap_partial",
    "Blazert.C44_axis_partial",
    "Blazert.C44_never_below_partial",
    "Blazert.C44_not_negative_partial",
    "Blazert.C44_terminates",
    "Blazert.C44_overestimate",
    "Blazert.C44_nan",
    "Blazert.C44_minus_one"
   ],
   "note": "Termination proved for any arithmetic that can count to 100. Exact real arithmetic: exact distance over the caps and on the axis, elsewhere never below the distance when a number is returned, never negative; for equal semi-axes see C63, over the caps with all roundings C112. False: overestimate, NaN and -1 (three witnesses in double arithmetic)."
  },
  {
   "property": "C45",
   "status": "proved",
   "theorems": [
    "Blazert.C45_double_bits",
    "Blazert.C45_float_bits",
    "Blazert.C45_value",
    "Blazert.C45_double_model",
    "Blazert.C45_float_model"
   ],
   "note": "all bit patterns of float and double; the model uses the proved description"
  },
  {
   "property": "C46",
   "status": "proved",
   "theorems": [
    "Blazert.C46_stack_is_lifo"
   ],
   "note": "all operation sequences, any capacity"
  },
  {
   "property": "C47",
   "status": "partial",
   "theorems": [
    "Blazert.C47_order_irrelevant_partial",
    "Blazert.C47_cylinder_order_matters"
   ],
   "note": "Exact real arithmetic; exclusions as for C01. False for cylinders (witness)."
  },
  {
   "property": "C48",
   "status": "partial",
   "theorems": [
    "Blazert.C48_more_geometry_partial",
    "Blazert.C48_cylinder_hides_hit"
   ],
   "note": "Exact real arithmetic; exclusions as for C01. False for cylinders (witness)."
  },
  {
   "property": "C49",
   "status": "partial",
   "theorems": [
    "Blazert.C49_max_distance_partial",
    "Blazert.C49_tilted_cylinder_cut"
   ],
   "note": "Exact real arithmetic; exclusions as for C01. False for tilted cylinders (witness)."
  },
  {
   "property": "C50",
   "status": "partial",
   "theorems": [
    "Blazert.C50_closest_partial",
    "Blazert.C50_order_irrelevant_partial",
    "Blazert.C50_false_with_cylinders"
   ],
   "note": "Exact real arithmetic, scenes without cylinders, any calls, order of callbacks and sound culling. False with cylinders (witness in binary32, any behaviour of Embree)."
  },
  {
   "property": "C51",
   "status": "proved",
   "theorems": [
    "Blazert.C51_embree_untouched",
    "Blazert.C51_embree_independent",
    "Blazert.C51_embree_independent_error"
   ],
   "note": "any arithmetic, any behaviour of Embree"
  },
  {
   "property": "C52",
   "status": "partial",
   "theorems": [
    "Blazert.C52_geom_id_never_set",
    "Blazert.C52_false",
    "Blazert.C52_source_partial"
   ],
   "note": "False: geom_id is never set (theorem and witness). Proved: prim_id and the other members come from one geometry of the scene."
  },
  {
   "property": "C53",
   "status": "partial",
   "theorems": [
    "Blazert.C53_second_spheres",
    "Blazert.C53_add_after_commit",
    "Blazert.C53_query_before_commit",
    "Blazert.C53_no_spheres",
    "Blazert.C53_commit_iff_partial",
    "Blazert.C53_queries_partial"
   ],
   "note": "False: a second add of a class leaves a dangling pointer in the scene, queries before commit or after a later add, empty lists (theorems). Proved: which sequences of adds can be committed, and that their queries are safe."
  },
  {
   "property": "C54",
   "status": "partial",
   "theorems": [
    "Blazert.C54_first_sphere_only",
    "Blazert.C54_first_plane_only",
    "Blazert.C54_first_cylinder_only",
    "Blazert.C54_false",
    "Blazert.C54_first_partial"
   ],
   "note": "False: only the first primitive of each call is used (theorems, witness). Proved: that the first one is."
  },
  {
   "property": "C55",
   "status": "partial",
   "theorems": [
    "Blazert.C55_planes",
    "Blazert.C55_spheres_partial",
    "Blazert.C55_sphere_from_inside",
    "Blazert.C55_cylinders_partial",
    "Blazert.C55_cylinder_side_partial",
    "Blazert.C55_cylinder_from_side",
    "Blazert.C55_cylinder_from_cap",
    "Blazert.C55_spheres_float_partial"
   ],
   "note": "Planes: any arithmetic. Spheres: from clearly outside in float with all roundings, from outside in exact real arithmetic. Cylinders: exact real arithmetic, from above, below and inside. False for spheres from inside (theorem for all such rays), for cylinders from the side and from a cap (witnesses in binary32)."
  },
  {
   "property": "C56",
   "status": "partial",
   "theorems": [
    "Blazert.C56_bounds",
    "Blazert.C56_planes",
    "Blazert.C56_sphere_answers",
    "Blazert.C56_spheres_partial",
    "Blazert.C56_cylinders_partial",
    "Blazert.C56_false",
    "Blazert.C56_spheres_float_partial"
   ],
   "note": "Bounds and planes: any arithmetic. Spheres: the answer in any arithmetic, the distance in exact real arithmetic, and up to rounding in float. Cylinders: exact real arithmetic; false in binary32 (witness)."
  },
  {
   "property": "C57",
   "status": "partial",
   "theorems": [
    "Blazert.C57_false",
    "Blazert.C57_wide",
    "Blazert.C57_sse",
    "Blazert.C57_triangle",
    "Blazert.C57_first_partial"
   ],
   "note": "False for every layout of the vector types: the stride is half the size (theorems state what Embree reads instead, for 4, 8 and 16 words). Proved: reading stays within the buffers, the number of vectors and the first one are right."
  },
  {
   "property": "C58",
   "status": "partial",
   "theorems": [
    "Blazert.C58_sphere_distance",
    "Blazert.C58_plane_distance_partial",
    "Blazert.C58_plane_always_zero",
    "Blazert.C58_sphere_float"
   ],
   "note": "Spheres: proved in exact real arithmetic, and in float up to rounding. Planes: always 0, so false for every point that is not on the rectangle (theorem)."
  },
  {
   "property": "C59",
   "status": "partial",
   "theorems": [
    "Blazert.C59_changes",
    "Blazert.C59_spheres",
    "Blazert.C59_planes",
    "Blazert.C59_cylinder_ignores_limits",
    "Blazert.C59_false",
    "Blazert.C59_spheres_float_partial",
    "Blazert.C59_planes_float_partial",
    "Blazert.C59_sphere_false"
   ],
   "note": "Spheres and planes: exact real arithmetic, and in float up to rounding (not exactly: witness in binary32). What may be changed: all classes, any arithmetic. Cylinders ignore the limits (theorem, witness in binary32)."
  },
  {
   "property": "C60",
   "status": "partial",
   "theorems": [
    "Blazert.C60_spheres",
    "Blazert.C60_planes_partial",
    "Blazert.C60_plane_edge",
    "Blazert.C60_cylinders_partial"
   ],
   "note": "Exact real arithmetic. Spheres: proved. Planes: interior hits; false on the edges (witness in binary32). Cylinders: proved unless the origin is on the lateral surface."
  },
  {
   "property": "C61",
   "status": "partial",
   "theorems": [
    "Blazert.C61_by_first_coordinate_partial",
    "Blazert.C61_by_second_coordinate_false",
    "Blazert.C61_stops_at_once"
   ],
   "note": "Exact real arithmetic. Proved for the searches by the first coordinate. False for those by the second coordinate: there it is the derivative for the opposite half, and the search may stop at its first guess (witness in double arithmetic: 1.25 reported, true distance below 0.45)."
  },
  {
   "property": "C62",
   "status": "proved",
   "theorems": [
    "Blazert.C62_newton_step"
   ],
   "note": "Exact real arithmetic, all four instances, strictly between the ends of the half axis, second derivative not zero."
  },
  {
   "property": "C63",
   "status": "proved",
   "theorems": [
    "Blazert.C63_circular"
   ],
   "note": "Exact real arithmetic; isZero assumed to be exact. All 100 iterations are analysed, including the searches with the wrong stop criterion (C61)."
  },
  {
   "property": "C64",
   "status": "proved",
   "theorems": [
    "Blazert.C64_as_if_copied",
    "Blazert.C64_copy_is_history"
   ],
   "note": "any arithmetic, any program"
  },
  {
   "property": "C65",
   "status": "partial",
   "theorems": [
    "Blazert.C65_queries_read_partial",
    "Blazert.C65_numbers_partial",
    "Blazert.C65_extended_before_commit",
    "Blazert.C65_freed",
    "Blazert.C65_moved_is_missed"
   ],
   "note": "False: extending a container before commit, freeing it after commit, and writing to it are proved to be undefined or to lose hits. Proved: what queries read, so that all other changes are harmless, e.g. of all vectors of numbers after commit in scenes without cylinders."
  },
  {
   "property": "C66",
   "status": "proved",
   "theorems": [
    "Blazert.C66_skips_only_rejected",
    "Blazert.C66_intersectors"
   ],
   "note": "any arithmetic; the assumption on the intersector is proved for all four"
  },
  {
   "property": "C67",
   "status": "proved",
   "theorems": [
    "Blazert.C67_nothing_hidden",
    "Blazert.C67_lone_hit",
    "Blazert.C67_double",
    "Blazert.C67_float"
   ],
   "note": "any format with relative errors on the range, binary64, binary32; the situations excluded (see C23, C24) are part of the statement"
  },
  {
   "property": "C68",
   "status": "proved",
   "theorems": [
    "Blazert.C68_direction",
    "Blazert.C68_hit_on_sphere",
    "Blazert.C68_double",
    "Blazert.C68_float"
   ],
   "note": "any format with the rounding laws of Fmt.Rounds (proved for binary64 and binary32), sizes within Scale"
  },
  {
   "property": "C69",
   "status": "proved",
   "theorems": [
    "Blazert.C69_closest",
    "Blazert.C69_double",
    "Blazert.C69_float"
   ],
   "note": "any format with the rounding laws of Fmt.Rounds and Fmt.Relative (proved for binary64 and binary32), sizes within Scale; the box-test exclusions of C67"
  },
  {
   "property": "C70",
   "status": "proved",
   "theorems": [
    "Blazert.C70_cheapest_cut"
   ],
   "note": "any format in which the box from max() to -max() overflows, with all roundings; proved for double and float"
  },
  {
   "property": "C71",
   "status": "partial",
   "theorems": [
    "Blazert.C71_other_split_is_made",
    "Blazert.C71_split_partial"
   ],
   "note": "False: bins are assigned by rounding to n-1 intervals, the cut divides into n (witness in double arithmetic with the default 64 bins: the split made is 25 percent more expensive). Proved in exact arithmetic: at most the primitives of one bin next to the cut change sides, none if the cut is in the middle."
  },
  {
   "property": "C72",
   "status": "partial",
   "theorems": [
    "Blazert.C72_gap",
    "Blazert.C72_fan_partial"
   ],
   "note": "False: the rectangle (0,1,2),(2,3,0) has a gap at its diagonal (witness in double arithmetic, through build and traverse). Proved: no gap between triangles that have their first vertex in common (fans), for the tests of the two triangles; and no gaps at all in small scenes (C74_small)."
  },
  {
   "property": "C73",
   "status": "proved",
   "theorems": [
    "Blazert.C73_hit_on_triangle",
    "Blazert.C73_double",
    "Blazert.C73_float"
   ],
   "note": "any format with the rounding laws of Fmt.Rounds and Fmt.Relative (proved for binary64 and binary32), sizes within Scale3 (double: 2^-100 to 2^100, float: 2^-20 to 2^15)"
  },
  {
   "property": "C74",
   "status": "proved",
   "theorems": [
    "Blazert.C74_closest",
    "Blazert.C74_small",
    "Blazert.C74_double",
    "Blazert.C74_small_double",
    "Blazert.C74_float",
    "Blazert.C74_small_float"
   ],
   "note": "any format with the rounding laws of Fmt.Rounds, Fmt.Relative and Fmt.Saturates (proved for binary64 and binary32), sizes within Scale3; no determinant below 2^-700 (double), 2^-80 (float) unless it is zero (see C75); the box-test exclusions of C67"
  },
  {
   "property": "C75",
   "status": "partial",
   "theorems": [
    "Blazert.C75_dust_hides",
    "Blazert.C75_dust_hides_float",
    "Blazert.C75_finite_partial"
   ],
   "note": "False: a triangle with edges of 2^-520 (float: 2^-66) passes the test for almost every ray and records an infinite distance, so that a hit found before is lost (witnesses through build and traverse). Proved: the distance is finite and hardly larger than the one before if the determinant does not underflow."
  },
  {
   "property": "C76",
   "status": "partial",
   "theorems": [
    "Blazert.C76_address_not_json",
    "Blazert.C76_keys_not_json",
    "Blazert.C76_structure_not_json",
    "Blazert.C76_primitives_partial",
    "Blazert.C76_collections_partial",
    "Blazert.C76_scene_partial"
   ],
   "note": "False for every object: addresses are printed without quotes. Rays, hits, statistics, nodes, trees, Embree planes and cylinders, empty collections: malformed also if any word is accepted as a value. Proved: with words accepted as values, primitives are well-formed, collections and scenes if and only if no collection is empty. Numbers and addresses are whatever the stream prints, without separators."
  },
  {
   "property": "C77",
   "status": "partial",
   "theorems": [
    "Blazert.C77_triangle_ambiguous",
    "Blazert.C77_determined_partial"
   ],
   "note": "False for triangles: a[1] is not printed, c[1] is in its place (theorem for all triangles). Proved for spheres, planes and cylinders."
  },
  {
   "property": "C78",
   "status": "proved",
   "theorems": [
    "Blazert.C78_closest_answer",
    "Blazert.C78_defined",
    "Blazert.C78_hit_found"
   ],
   "note": "Any Scalar with a lawful <; every scene value, committed or not."
  },
  {
   "property": "C79",
   "status": "proved",
   "theorems": [
    "Blazert.C79_limits",
    "Blazert.C79_double",
    "Blazert.C79_float"
   ],
   "note": "All four kinds of geometry, every call history, binary64 and binary32 with special values."
  },
  {
   "property": "C80",
   "status": "proved",
   "theorems": [
    "Blazert.C80_sphere_double",
    "Blazert.C80_mesh_double",
    "Blazert.C80_sphere_float",
    "Blazert.C80_mesh_float",
    "Blazert.C80_cylinder_double",
    "Blazert.C80_cylinder_float",
    "Blazert.C80_plane_double",
    "Blazert.C80_plane_float"
   ],
   "note": "Spheres, rectangles, faces of meshes and cylinders, double and float, as stated."
  },
  {
   "property": "C81",
   "status": "proved",
   "theorems": [
    "Blazert.C81_hit_on_rectangle",
    "Blazert.C81_double",
    "Blazert.C81_float"
   ],
   "note": "any format with the rounding laws of Fmt.Rounds and Fmt.Faithful (proved for binary64 and binary32), sizes within Scale"
  },
  {
   "property": "C82",
   "status": "proved",
   "theorems": [
    "Blazert.C82_closest",
    "Blazert.C82_double",
    "Blazert.C82_float"
   ],
   "note": "any format with the rounding laws of Fmt.Rounds, Fmt.Faithful and Fmt.Relative (proved for binary64 and binary32), sizes within Scale; the box-test exclusions of C67"
  },
  {
   "property": "C83",
   "status": "proved",
   "theorems": [
    "Blazert.C83_double",
    "Blazert.C83_float"
   ],
   "note": "All four kinds of geometry, double and float; for cylinders under the conditions of C89."
  },
  {
   "property": "C84",
   "status": "proved",
   "theorems": [
    "Blazert.C84_any_hit_tests",
    "Blazert.C84_agree",
    "Blazert.C84_intersectors"
   ],
   "note": "any arithmetic; the assumptions on the intersector are proved for all four"
  },
  {
   "property": "C85",
   "status": "proved",
   "theorems": [
    "Blazert.C85_dust_differs",
    "Blazert.C85_same_answer",
    "Blazert.C85_double",
    "Blazert.C85_float",
    "Blazert.C85_default_double",
    "Blazert.C85_default_float",
    "Blazert.C85_all_kinds",
    "Blazert.C85_all_kinds_double",
    "Blazert.C85_all_kinds_float"
   ],
   "note": "any format with the rounding laws of Fmt.Rounds, Fmt.Relative and Fmt.Faithful (proved for binary64 and binary32); C85_all_kinds includes cylinders (monotone rounding); the witness C85_dust_differs shows that tiny triangles have to be excluded."
  },
  {
   "property": "C86",
   "status": "proved",
   "theorems": [
    "Blazert.C86_sphere_normal",
    "Blazert.C86_double",
    "Blazert.C86_float"
   ],
   "note": "any format with the rounding laws of Fmt.Rounds (proved for binary64 and binary32), sizes within Scale"
  },
  {
   "property": "C87",
   "status": "proved",
   "theorems": [
    "Blazert.C87_plane_normal",
    "Blazert.C87_double",
    "Blazert.C87_float"
   ],
   "note": "any format with the rounding laws of Fmt.Rounds and Fmt.Faithful and odd rounding (proved for binary64 and binary32); on the sides the normal is tilted, see C34"
  },
  {
   "property": "C88",
   "status": "proved",
   "theorems": [
    "Blazert.C88_sphere_distance",
    "Blazert.C88_double",
    "Blazert.C88_float"
   ],
   "note": "any format over the rationals with the rounding laws of Fmt.Rounds (proved for binary64 and binary32); the exact distance is a real number"
  },
  {
   "property": "C89",
   "status": "proved",
   "theorems": [
    "Blazert.C89_hit_on_cylinder",
    "Blazert.C89_double",
    "Blazert.C89_float"
   ],
   "note": "any format with the rounding laws of Fmt.Rounds and Fmt.Faithful and odd, ordered rounding (proved for binary64 and binary32), sizes within TubeScale; an origin on the tube between the caps is excluded, see C36"
  },
  {
   "property": "C90",
   "status": "proved",
   "theorems": [
    "Blazert.C90_barycentric",
    "Blazert.C90_double",
    "Blazert.C90_float"
   ],
   "note": "any format with the rounding laws of Fmt.Rounds and Fmt.Relative (proved for binary64 and binary32), sizes within Scale3"
  },
  {
   "property": "C91",
   "status": "proved",
   "theorems": [
    "Blazert.C91_interpolated",
    "Blazert.C91_isolated",
    "Blazert.C91_interpolated_double",
    "Blazert.C91_isolated_double",
    "Blazert.C91_interpolated_float",
    "Blazert.C91_isolated_float"
   ],
   "note": "any format with the rounding laws of Fmt.Rounds and Fmt.Relative (proved for binary64 and binary32); vanishing interpolations excluded, see C32_opposite_faces"
  },
  {
   "property": "C92",
   "status": "proved",
   "theorems": [
    "Blazert.C92_cylinder_normal",
    "Blazert.C92_double",
    "Blazert.C92_float",
    "Blazert.C92_outside"
   ],
   "note": "any format with the rounding laws of Fmt.Rounds and Fmt.Faithful and odd, ordered rounding (proved for binary64 and binary32), sizes within TubeScale; the unturned normal for origins within the solid is the defect C39 and part of the statement"
  },
  {
   "property": "C93",
   "status": "proved",
   "theorems": [
    "Blazert.C93_double",
    "Blazert.C93_float"
   ],
   "note": "binary64 and binary32; the sizes covered are those of C86, C87, C90, C91 and C92"
  },
  {
   "property": "C94",
   "status": "proved",
   "theorems": [
    "Blazert.C94_no_wrap_around",
    "Blazert.C94_default_options",
    "Blazert.C94_children",
    "Blazert.C94_too_many_bins"
   ],
   "note": "any arithmetic; min_leaf_primitives = 0 is not covered (C18: the bound on the number of nodes fails); counters of type size_t are unbounded in the model"
  },
  {
   "property": "C95",
   "status": "proved",
   "theorems": [
    "Blazert.C95_hits_near",
    "Blazert.C95_float"
   ],
   "note": "binary32 and any format that rounds; cylinders and meshes are only named in the statement, nothing is claimed of distance and normal there; rotations orthogonal up to eps"
  },
  {
   "property": "C96",
   "status": "proved",
   "theorems": [
    "Blazert.C96_double",
    "Blazert.C96_float",
    "Blazert.C96_flat_mesh"
   ],
   "note": "binary64 and binary32; the numbers passed are of moderate magnitude (2^-450..2^1000, 2^-35..2^100) and vertices are equal or apart along each axis; C96_flat_mesh shows that the distance between vertices is needed"
  },
  {
   "property": "C97",
   "status": "proved",
   "theorems": [
    "Blazert.C97_leave_sphere",
    "Blazert.C97_leave_rectangle",
    "Blazert.C97_leave_face",
    "Blazert.C97_sphere_double",
    "Blazert.C97_rectangle_double",
    "Blazert.C97_face_double",
    "Blazert.C97_sphere_float",
    "Blazert.C97_rectangle_float",
    "Blazert.C97_face_float",
    "Blazert.C97_zero_limit",
    "Blazert.C97_tube"
   ],
   "note": "spheres, rectangles and faces with a lower limit above the stated bound, binary64 and binary32, all roundings. False for the default lower limit of zero (C97_zero_limit) and for cylinders (C97_tube: the test ignores the lower limit)."
  },
  {
   "property": "C98",
   "status": "proved",
   "theorems": [
    "Blazert.C98_reported",
    "Blazert.C98_closest",
    "Blazert.C98_reported_float",
    "Blazert.C98_closest_float"
   ],
   "note": "any format that rounds, and binary32; spheres and rectangles; Embree is assumed to cull only bounds that the ray, as stored, does not meet, and not to raise the upper limit for meshes (Rtc.Careful)."
  },
  {
   "property": "C99",
   "status": "proved",
   "theorems": [
    "Blazert.C99_as_if_copied",
    "Blazert.C99_copy_is_run"
   ],
   "note": "any arithmetic, layout and Embree; simulation of a scene that copies."
  },
  {
   "property": "C100",
   "status": "partial",
   "theorems": [
    "Blazert.C100_queries_read_partial",
    "Blazert.C100_written_before_commit_partial",
    "Blazert.C100_freed",
    "Blazert.C100_moved_is_missed"
   ],
   "note": "False: freed buffers make queries and the first commit undefined or lose all hits; writing to a center after commit can hide the sphere (float witness). Proved: what queries read, so that all other changes are harmless; and that writing before the commit is the same as having the new values from the start."
  },
  {
   "property": "C101",
   "status": "proved",
   "theorems": [
    "Blazert.C101_hit_needs_ray",
    "Blazert.C101_hit_needs_length",
    "Blazert.C101_double",
    "Blazert.C101_float"
   ],
   "note": "any format in which zero and the tolerance are numbers; double and float."
  },
  {
   "property": "C102",
   "status": "partial",
   "theorems": [
    "Blazert.C102_no_hit_partial",
    "Blazert.C102_distance_partial",
    "Blazert.C102_float_partial",
    "Blazert.C102_cylinder_nan"
   ],
   "note": "False for cylinders: a ray with a tiny direction from inside a tilted cylinder is reported to hit at the distance NaN (float witness). Proved for scenes without cylinders, if Embree finds nothing on meshes for such rays; with cylinders, that every distance reported for such a ray is an infinity or NaN."
  },
  {
   "property": "C103",
   "status": "proved",
   "theorems": [
    "Blazert.C103_hits_on_cylinder",
    "Blazert.C103_float"
   ],
   "note": "any format that rounds monotonically, and float; what is excluded is stated in HitNear."
  },
  {
   "property": "C104",
   "status": "proved",
   "theorems": [
    "Blazert.C104_embree_cylinder_normal",
    "Blazert.C104_float"
   ],
   "note": "any format that rounds monotonically, and float."
  },
  {
   "property": "C105",
   "status": "proved",
   "theorems": [
    "Blazert.C105_entry_found",
    "Blazert.C105_exit_found",
    "Blazert.C105_embree_found",
    "Blazert.C105_embree_occluded",
    "Blazert.C105_embree_reported",
    "Blazert.C105_entry_double",
    "Blazert.C105_exit_double",
    "Blazert.C105_embree_float",
    "Blazert.C105_rim_lost"
   ],
   "note": "for rays that enter clear of the rim, as stated; C105_rim_lost shows that a ray through the rim can be lost. Origins level with a cap are excluded for entries through the tube (C37_cap_level_blind)."
  },
  {
   "property": "C106",
   "status": "proved",
   "theorems": [
    "Blazert.C106_reported",
    "Blazert.C106_double",
    "Blazert.C106_float"
   ],
   "note": "the box has to be met, since boxes of cylinders that are not parallel to the axes can be too small (C38)."
  },
  {
   "property": "C107",
   "status": "proved",
   "theorems": [
    "Blazert.C107_double",
    "Blazert.C107_none_double",
    "Blazert.C107_float",
    "Blazert.C107_none_float",
    "Blazert.C107_embree_float",
    "Blazert.C107_embree_none_float"
   ],
   "note": "double and float; the margins are those of C83, C95 and C103, the origin must not be on a tube. Clear from the origin on, not only from the lower limit: cylinders ignore the lower limit (C36)."
  },
  {
   "property": "C108",
   "status": "proved",
   "theorems": [
    "Blazert.C108_sphere",
    "Blazert.C108_rectangle"
   ],
   "note": "float; Embree is assumed to cull only bounds that the ray, as stored, does not meet (Rtc.Careful); no meshes and no cylinders in the Embree scene."
  },
  {
   "property": "C109",
   "status": "proved",
   "theorems": [
    "Blazert.C109_closest_on_triangle",
    "Blazert.C109_double",
    "Blazert.C109_float"
   ],
   "note": "double and float; that the point is near the closest one is C110 (C42 without rounding)."
  },
  {
   "property": "C110",
   "status": "proved",
   "theorems": [
    "Blazert.C110_closest_best",
    "Blazert.C110_double",
    "Blazert.C110_float"
   ],
   "note": "double and float; squares of the exact distances of the computed point and of points of the triangle are compared."
  },
  {
   "property": "C111",
   "status": "proved",
   "theorems": [
    "Blazert.C111_plane_distance",
    "Blazert.C111_double",
    "Blazert.C111_float"
   ],
   "note": "double and float; which places count as inside is right only for rectangles centered on the z axis (C41)."
  },
  {
   "property": "C112",
   "status": "proved",
   "theorems": [
    "Blazert.C112_over_cap",
    "Blazert.C112_double",
    "Blazert.C112_float"
   ],
   "note": "double and float; elsewhere the result may be wrong (C44)."
  },
  {
   "property": "C113",
   "status": "proved",
   "theorems": [
    "Blazert.C113_not_negative",
    "Blazert.C113_double",
    "Blazert.C113_float"
   ],
   "note": "double and float, and any monotone format."
  },
  {
   "property": "C114",
   "status": "proved",
   "theorems": [
    "Blazert.C114_between_caps",
    "Blazert.C114_double",
    "Blazert.C114_float"
   ],
   "note": "double and float; that the result may be too large or NaN is C44; points over the caps are C112."
  },
  {
   "property": "C115",
   "status": "proved",
   "theorems": [
    "Blazert.C115_never_below",
    "Blazert.C115_double",
    "Blazert.C115_float"
   ],
   "note": "double and float; contains C114 with a larger error, without its conditions on the point; that the result may be too large or NaN is C44."
  },
  {
   "property": "C116",
   "status": "proved",
   "theorems": [
    "Blazert.C116_double",
    "Blazert.C116_float"
   ],
   "note": "double and float; distances measured in the coordinates of the cylinder, as in C115; that the result may be too large or NaN is C44."
  },
  {
   "property": "C117",
   "status": "proved",
   "theorems": [
    "Blazert.C117_double",
    "Blazert.C117_float"
   ],
   "note": "double and float; C116 with distances measured in space; that the result may be too large or NaN is C44."
  },
  {
   "property": "C118",
   "status": "proved",
   "theorems": [
    "Blazert.C118_near_closest",
    "Blazert.C118_double",
    "Blazert.C118_float"
   ],
   "note": "double and float; C110 compares distances, this compares the points."
  },
  {
   "property": "C119",
   "status": "proved",
   "theorems": [
    "Blazert.C119_at_most_cap",
    "Blazert.C119_double",
    "Blazert.C119_float"
   ],
   "note": "double and float; with C115 the result is bounded from both sides there; the result may still be larger than the distance from the tube (C44)."
  },
  {
   "property": "C120",
   "status": "proved",
   "theorems": [
    "Blazert.C120_only_closest",
    "Blazert.C120_vertex_order"
   ],
   "note": "exact arithmetic; C118 is the counterpart with roundings."
  },
  {
   "property": "C121",
   "status": "proved",
   "theorems": [
    "Blazert.C121_lipschitz"
   ],
   "note": "exact arithmetic."
  },
  {
   "property": "C122",
   "status": "proved",
   "theorems": [
    "Blazert.C122_swap",
    "Blazert.C122_double",
    "Blazert.C122_float"
   ],
   "note": "double and float; C120 is the counterpart in exact arithmetic, for all orders."
  }
 ]
}