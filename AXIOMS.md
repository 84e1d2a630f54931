# Axioms each property theorem depends on

Output of `#print axioms` for every theorem named in `MANIFEST.json`.

| theorem | axioms |
|---|---|
| `Blazert.C01_closest_hit_partial` | propext, Classical.choice, Quot.sound |
| `Blazert.C01_closest_hit_tolerance_partial` | propext, Classical.choice, Quot.sound |
| `Blazert.C01_spheres_and_planes_partial` | propext, Classical.choice, Quot.sound |
| `Blazert.C02_cylinders_partial` | propext, Classical.choice, Quot.sound |
| `Blazert.C02_no_phantom_partial` | propext, Classical.choice, Quot.sound |
| `Blazert.C02_phantom_hit` | propext, Classical.choice, Quot.sound |
| `Blazert.C02_provenance` | propext, Classical.choice, Quot.sound |
| `Blazert.C03_meshes_partial` | propext, Classical.choice, Quot.sound |
| `Blazert.C03_negative_zero` | propext, Classical.choice, Quot.sound |
| `Blazert.C03_phantom` | propext, Classical.choice, Quot.sound |
| `Blazert.C03_planes_partial` | propext, Classical.choice, Quot.sound |
| `Blazert.C03_spheres_partial` | propext, Classical.choice, Quot.sound |
| `Blazert.C04_any_hit_genuine_partial` | propext, Classical.choice, Quot.sound |
| `Blazert.C04_any_hit_same_answer_partial` | propext, Classical.choice, Quot.sound |
| `Blazert.C04_cylinders_differ` | propext, Classical.choice, Quot.sound |
| `Blazert.C04_rounding_differs` | propext, Classical.choice, Quot.sound |
| `Blazert.C05_intersect1_miss_untouched` | propext, Classical.choice, Quot.sound |
| `Blazert.C05_traverse_miss_untouched` | propext, Quot.sound |
| `Blazert.C06_depends_on_stale_rayhit` | propext, Classical.choice, Quot.sound |
| `Blazert.C06_mesh_only` | propext, Classical.choice, Quot.sound |
| `Blazert.C06_only_prior_distance_matters_partial` | propext, Classical.choice, Quot.sound |
| `Blazert.C07_ids_distinct` | propext, Classical.choice, Quot.sound |
| `Blazert.C07_ids_sequential` | propext, Quot.sound |
| `Blazert.C08_rejected_add_no_effect` | propext, Classical.choice, Quot.sound |
| `Blazert.C09_recommit_changes_no_answer` | propext, Classical.choice, Quot.sound |
| `Blazert.C09_recommit_succeeds` | propext, Quot.sound |
| `Blazert.C100_freed` | propext, Classical.choice, Quot.sound |
| `Blazert.C100_moved_is_missed` | propext, Classical.choice, Quot.sound |
| `Blazert.C100_queries_read_partial` | propext, Classical.choice, Quot.sound |
| `Blazert.C100_written_before_commit_partial` | propext, Quot.sound |
| `Blazert.C101_double` | propext, Classical.choice, Quot.sound |
| `Blazert.C101_float` | propext, Classical.choice, Quot.sound |
| `Blazert.C101_hit_needs_length` | propext, Classical.choice, Quot.sound |
| `Blazert.C101_hit_needs_ray` | propext, Classical.choice, Quot.sound |
| `Blazert.C102_cylinder_nan` | propext, Classical.choice, Quot.sound |
| `Blazert.C102_distance_partial` | propext, Classical.choice, Quot.sound |
| `Blazert.C102_float_partial` | propext, Classical.choice, Quot.sound |
| `Blazert.C102_no_hit_partial` | propext, Classical.choice, Quot.sound |
| `Blazert.C103_float` | propext, Classical.choice, Quot.sound |
| `Blazert.C103_hits_on_cylinder` | propext, Classical.choice, Quot.sound |
| `Blazert.C104_embree_cylinder_normal` | propext, Classical.choice, Quot.sound |
| `Blazert.C104_float` | propext, Classical.choice, Quot.sound |
| `Blazert.C105_embree_float` | propext, Classical.choice, Quot.sound |
| `Blazert.C105_embree_found` | propext, Classical.choice, Quot.sound |
| `Blazert.C105_embree_occluded` | propext, Classical.choice, Quot.sound |
| `Blazert.C105_embree_reported` | propext, Classical.choice, Quot.sound |
| `Blazert.C105_entry_double` | propext, Classical.choice, Quot.sound |
| `Blazert.C105_entry_found` | propext, Classical.choice, Quot.sound |
| `Blazert.C105_exit_double` | propext, Classical.choice, Quot.sound |
| `Blazert.C105_exit_found` | propext, Classical.choice, Quot.sound |
| `Blazert.C105_rim_lost` | propext, Classical.choice, Quot.sound |
| `Blazert.C106_double` | propext, Classical.choice, Quot.sound |
| `Blazert.C106_float` | propext, Classical.choice, Quot.sound |
| `Blazert.C106_reported` | propext, Classical.choice, Quot.sound |
| `Blazert.C107_double` | propext, Classical.choice, Quot.sound |
| `Blazert.C107_embree_float` | propext, Classical.choice, Quot.sound |
| `Blazert.C107_embree_none_float` | propext, Classical.choice, Quot.sound |
| `Blazert.C107_float` | propext, Classical.choice, Quot.sound |
| `Blazert.C107_none_double` | propext, Classical.choice, Quot.sound |
| `Blazert.C107_none_float` | propext, Classical.choice, Quot.sound |
| `Blazert.C108_rectangle` | propext, Classical.choice, Quot.sound |
| `Blazert.C108_sphere` | propext, Classical.choice, Quot.sound |
| `Blazert.C109_closest_on_triangle` | propext, Classical.choice, Quot.sound |
| `Blazert.C109_double` | propext, Classical.choice, Quot.sound |
| `Blazert.C109_float` | propext, Classical.choice, Quot.sound |
| `Blazert.C10_no_undefined_behaviour` | propext, Classical.choice, Quot.sound |
| `Blazert.C10_only_stack_overflow_possible` | propext, Classical.choice, Quot.sound |
| `Blazert.C10_uncommitted_query_is_out_of_bounds` | propext, Classical.choice, Quot.sound |
| `Blazert.C110_closest_best` | propext, Classical.choice, Quot.sound |
| `Blazert.C110_double` | propext, Classical.choice, Quot.sound |
| `Blazert.C110_float` | propext, Classical.choice, Quot.sound |
| `Blazert.C111_double` | propext, Classical.choice, Quot.sound |
| `Blazert.C111_float` | propext, Classical.choice, Quot.sound |
| `Blazert.C111_plane_distance` | propext, Classical.choice, Quot.sound |
| `Blazert.C112_double` | propext, Classical.choice, Quot.sound |
| `Blazert.C112_float` | propext, Classical.choice, Quot.sound |
| `Blazert.C112_over_cap` | propext, Classical.choice, Quot.sound |
| `Blazert.C113_double` | propext, Classical.choice, Quot.sound |
| `Blazert.C113_float` | propext, Classical.choice, Quot.sound |
| `Blazert.C113_not_negative` | propext, Classical.choice, Quot.sound |
| `Blazert.C114_between_caps` | propext, Classical.choice, Quot.sound |
| `Blazert.C114_double` | propext, Classical.choice, Quot.sound |
| `Blazert.C114_float` | propext, Classical.choice, Quot.sound |
| `Blazert.C115_double` | propext, Classical.choice, Quot.sound |
| `Blazert.C115_float` | propext, Classical.choice, Quot.sound |
| `Blazert.C115_never_below` | propext, Classical.choice, Quot.sound |
| `Blazert.C116_double` | propext, Classical.choice, Quot.sound |
| `Blazert.C116_float` | propext, Classical.choice, Quot.sound |
| `Blazert.C117_double` | propext, Classical.choice, Quot.sound |
| `Blazert.C117_float` | propext, Classical.choice, Quot.sound |
| `Blazert.C118_double` | propext, Classical.choice, Quot.sound |
| `Blazert.C118_float` | propext, Classical.choice, Quot.sound |
| `Blazert.C118_near_closest` | propext, Classical.choice, Quot.sound |
| `Blazert.C119_at_most_cap` | propext, Classical.choice, Quot.sound |
| `Blazert.C119_double` | propext, Classical.choice, Quot.sound |
| `Blazert.C119_float` | propext, Classical.choice, Quot.sound |
| `Blazert.C11_max_depth_26_safe_partial` | propext, Classical.choice, Quot.sound |
| `Blazert.C11_stack_overflow` | propext, Classical.choice, Quot.sound |
| `Blazert.C11_thirty_primitives_safe_partial` | propext, Classical.choice, Quot.sound |
| `Blazert.C120_only_closest` | propext, Classical.choice, Quot.sound |
| `Blazert.C120_vertex_order` | propext, Classical.choice, Quot.sound |
| `Blazert.C121_lipschitz` | propext, Classical.choice, Quot.sound |
| `Blazert.C122_double` | propext, Classical.choice, Quot.sound |
| `Blazert.C122_float` | propext, Classical.choice, Quot.sound |
| `Blazert.C122_swap` | propext, Classical.choice, Quot.sound |
| `Blazert.C12_each_node_at_most_once` | propext, Classical.choice, Quot.sound |
| `Blazert.C12_queries_terminate` | propext, Classical.choice, Quot.sound |
| `Blazert.C13_concurrent_queries_do_not_interfere` | propext, Classical.choice, Quot.sound |
| `Blazert.C14_every_primitive_in_exactly_one_leaf` | propext, Quot.sound |
| `Blazert.C14_reachable_tree` | propext, Quot.sound |
| `Blazert.C15_boxes_are_unions` | propext, Classical.choice, Quot.sound |
| `Blazert.C15_boxes_nest` | propext, Quot.sound |
| `Blazert.C16_limits` | propext, Classical.choice, Quot.sound |
| `Blazert.C17_statistics_exact` | propext, Quot.sound |
| `Blazert.C18_bound_needs_min_leaf` | propext, Classical.choice, Quot.sound |
| `Blazert.C18_node_count` | propext, Quot.sound |
| `Blazert.C19_build_returns_double_partial` | propext, Classical.choice, Quot.sound |
| `Blazert.C19_build_returns_exact_partial` | propext, Classical.choice, Quot.sound |
| `Blazert.C19_build_returns_float_partial` | propext, Classical.choice, Quot.sound |
| `Blazert.C19_build_returns_partial` | propext, Classical.choice, Quot.sound |
| `Blazert.C19_commit_returns_partial` | propext, Classical.choice, Quot.sound |
| `Blazert.C19_huge_boxes` | propext, Classical.choice, Quot.sound |
| `Blazert.C19_negative_radius` | propext, Classical.choice, Quot.sound |
| `Blazert.C19_single_leaf` | propext, Classical.choice, Quot.sound |
| `Blazert.C19_tiny_boxes` | propext, Classical.choice, Quot.sound |
| `Blazert.C19_zero_bins` | propext, Classical.choice, Quot.sound |
| `Blazert.C20_box_test_complete_partial` | propext, Classical.choice, Quot.sound |
| `Blazert.C20_box_test_precise` | propext, Classical.choice, Quot.sound |
| `Blazert.C20_negative_interval_rejected` | propext, Classical.choice, Quot.sound |
| `Blazert.C21_box_test_complete_with_rounding_partial` | propext, Classical.choice, Quot.sound |
| `Blazert.C21_double_partial` | propext, Classical.choice, Quot.sound |
| `Blazert.C21_float_partial` | propext, Classical.choice, Quot.sound |
| `Blazert.C22_scaled_direction_misses` | propext, Classical.choice, Quot.sound |
| `Blazert.C22_scaling_partial` | propext, Classical.choice, Quot.sound |
| `Blazert.C23_negative_zero_blind` | propext, Classical.choice, Quot.sound |
| `Blazert.C23_negative_zero_misses` | propext, Classical.choice, Quot.sound |
| `Blazert.C23_no_new_hits_partial` | propext, Classical.choice, Quot.sound |
| `Blazert.C24_ray_in_z_face_misses` | propext, Classical.choice, Quot.sound |
| `Blazert.C24_xy_faces_partial` | propext, Classical.choice, Quot.sound |
| `Blazert.C25_negative_min` | propext, Classical.choice, Quot.sound |
| `Blazert.C25_sphere_exact` | propext, Classical.choice, Quot.sound |
| `Blazert.C26_sphere_normal` | propext, Classical.choice, Quot.sound |
| `Blazert.C27_sphere_box` | propext, Classical.choice, Quot.sound |
| `Blazert.C28_parallel_never_hit` | propext, Classical.choice, Quot.sound |
| `Blazert.C28_tolerance_is_absolute` | propext, Classical.choice, Quot.sound |
| `Blazert.C28_triangle_complete` | propext, Classical.choice, Quot.sound |
| `Blazert.C28_triangle_sound` | propext, Classical.choice, Quot.sound |
| `Blazert.C29_uv_barycentric` | propext, Classical.choice, Quot.sound |
| `Blazert.C30_common_point` | propext, Classical.choice, Quot.sound |
| `Blazert.C30_shared_edge` | propext, Classical.choice, Quot.sound |
| `Blazert.C31_triangle_box` | propext, Classical.choice, Quot.sound |
| `Blazert.C31_triangle_center` | propext, Classical.choice, Quot.sound |
| `Blazert.C32_isolated_face` | propext, Classical.choice, Quot.sound |
| `Blazert.C32_opposite_faces` | propext, Classical.choice, Quot.sound |
| `Blazert.C32_unit_normal_partial` | propext, Classical.choice, Quot.sound |
| `Blazert.C33_plane_exact` | propext, Classical.choice, Quot.sound |
| `Blazert.C34_edge_normal_tilted` | propext, Classical.choice, Quot.sound |
| `Blazert.C34_plane_normal_partial` | propext, Classical.choice, Quot.sound |
| `Blazert.C35_plane_box` | propext, Classical.choice, Quot.sound |
| `Blazert.C36_below_min_distance` | propext, Classical.choice, Quot.sound |
| `Blazert.C36_false_cap_hit` | propext, Classical.choice, Quot.sound |
| `Blazert.C36_ignores_limits` | propext, Quot.sound |
| `Blazert.C36_on_surface_partial` | propext, Classical.choice, Quot.sound |
| `Blazert.C36_zero_distance` | propext, Classical.choice, Quot.sound |
| `Blazert.C37_cap_level_blind` | propext, Classical.choice, Quot.sound |
| `Blazert.C37_farther_wins` | propext, Classical.choice, Quot.sound |
| `Blazert.C37_inside_partial` | propext, Classical.choice, Quot.sound |
| `Blazert.C37_one_met_partial` | propext, Classical.choice, Quot.sound |
| `Blazert.C37_outside_partial` | propext, Classical.choice, Quot.sound |
| `Blazert.C37_some_reported_partial` | propext, Classical.choice, Quot.sound |
| `Blazert.C38_box_partial` | propext, Classical.choice, Quot.sound |
| `Blazert.C38_box_too_small` | propext, Classical.choice, Quot.sound |
| `Blazert.C38_rotated_cylinder_missed` | propext, Classical.choice, Quot.sound |
| `Blazert.C39_inside_normal_not_rotated` | propext, Classical.choice, Quot.sound |
| `Blazert.C39_normal_partial` | propext, Classical.choice, Quot.sound |
| `Blazert.C40_sphere_distance` | propext, Classical.choice, Quot.sound |
| `Blazert.C41_plane_distance_partial` | propext, Classical.choice, Quot.sound |
| `Blazert.C41_plane_distance_wrong` | propext, Classical.choice, Quot.sound |
| `Blazert.C42_closest_point` | propext, Classical.choice, Quot.sound |
| `Blazert.C42_degenerate_nan` | propext, Classical.choice, Quot.sound |
| `Blazert.C43_computes_other_triangle` | propext, Classical.choice, Quot.sound |
| `Blazert.C43_second_vertex_origin_partial` | propext, Classical.choice, Quot.sound |
| `Blazert.C43_wrong_point` | propext, Classical.choice, Quot.sound |
| `Blazert.C44_axis_partial` | propext, Classical.choice, Quot.sound |
| `Blazert.C44_minus_one` | propext, Classical.choice, Quot.sound |
| `Blazert.C44_nan` | propext, Classical.choice, Quot.sound |
| `Blazert.C44_never_below_partial` | propext, Classical.choice, Quot.sound |
| `Blazert.C44_not_negative_partial` | propext, Classical.choice, Quot.sound |
| `Blazert.C44_over_cap_partial` | propext, Classical.choice, Quot.sound |
| `Blazert.C44_overestimate` | propext, Classical.choice, Quot.sound |
| `Blazert.C44_terminates` | propext, Quot.sound |
| `Blazert.C45_double_bits` | propext, Quot.sound |
| `Blazert.C45_double_model` | propext, Classical.choice, Quot.sound |
| `Blazert.C45_float_bits` | propext, Quot.sound |
| `Blazert.C45_float_model` | propext, Classical.choice, Quot.sound |
| `Blazert.C45_value` | propext, Classical.choice, Quot.sound |
| `Blazert.C46_stack_is_lifo` | propext, Quot.sound |
| `Blazert.C47_cylinder_order_matters` | propext, Classical.choice, Quot.sound |
| `Blazert.C47_order_irrelevant_partial` | propext, Classical.choice, Quot.sound |
| `Blazert.C48_cylinder_hides_hit` | propext, Classical.choice, Quot.sound |
| `Blazert.C48_more_geometry_partial` | propext, Classical.choice, Quot.sound |
| `Blazert.C49_max_distance_partial` | propext, Classical.choice, Quot.sound |
| `Blazert.C49_tilted_cylinder_cut` | propext, Classical.choice, Quot.sound |
| `Blazert.C50_closest_partial` | propext, Classical.choice, Quot.sound |
| `Blazert.C50_false_with_cylinders` | propext, Classical.choice, Quot.sound |
| `Blazert.C50_order_irrelevant_partial` | propext, Classical.choice, Quot.sound |
| `Blazert.C51_embree_independent` | propext, Classical.choice, Quot.sound |
| `Blazert.C51_embree_independent_error` | propext, Classical.choice, Quot.sound |
| `Blazert.C51_embree_untouched` | propext, Classical.choice, Quot.sound |
| `Blazert.C52_false` | propext, Classical.choice, Quot.sound |
| `Blazert.C52_geom_id_never_set` | propext, Classical.choice, Quot.sound |
| `Blazert.C52_source_partial` | propext, Classical.choice, Quot.sound |
| `Blazert.C53_add_after_commit` | propext, Classical.choice, Quot.sound |
| `Blazert.C53_commit_iff_partial` | propext, Classical.choice, Quot.sound |
| `Blazert.C53_no_spheres` | propext, Quot.sound |
| `Blazert.C53_queries_partial` | propext, Classical.choice, Quot.sound |
| `Blazert.C53_query_before_commit` | propext, Classical.choice, Quot.sound |
| `Blazert.C53_second_spheres` | propext, Quot.sound |
| `Blazert.C54_false` | propext, Classical.choice, Quot.sound |
| `Blazert.C54_first_cylinder_only` | propext |
| `Blazert.C54_first_partial` | propext, Classical.choice, Quot.sound |
| `Blazert.C54_first_plane_only` | propext |
| `Blazert.C54_first_sphere_only` | propext |
| `Blazert.C55_cylinder_from_cap` | propext, Classical.choice, Quot.sound |
| `Blazert.C55_cylinder_from_side` | propext, Classical.choice, Quot.sound |
| `Blazert.C55_cylinder_side_partial` | propext, Quot.sound |
| `Blazert.C55_cylinders_partial` | propext, Classical.choice, Quot.sound |
| `Blazert.C55_planes` | propext, Classical.choice, Quot.sound |
| `Blazert.C55_sphere_from_inside` | propext, Classical.choice, Quot.sound |
| `Blazert.C55_spheres_float_partial` | propext, Classical.choice, Quot.sound |
| `Blazert.C55_spheres_partial` | propext, Classical.choice, Quot.sound |
| `Blazert.C56_bounds` | propext, Quot.sound |
| `Blazert.C56_cylinders_partial` | propext, Classical.choice, Quot.sound |
| `Blazert.C56_false` | propext, Classical.choice, Quot.sound |
| `Blazert.C56_planes` | propext, Quot.sound |
| `Blazert.C56_sphere_answers` | propext, Classical.choice, Quot.sound |
| `Blazert.C56_spheres_float_partial` | propext, Classical.choice, Quot.sound |
| `Blazert.C56_spheres_partial` | propext, Classical.choice, Quot.sound |
| `Blazert.C57_false` | propext, Classical.choice, Quot.sound |
| `Blazert.C57_first_partial` | propext, Classical.choice, Quot.sound |
| `Blazert.C57_sse` | propext, Classical.choice, Quot.sound |
| `Blazert.C57_triangle` | propext, Classical.choice, Quot.sound |
| `Blazert.C57_wide` | propext, Classical.choice, Quot.sound |
| `Blazert.C58_plane_always_zero` | propext, Classical.choice, Quot.sound |
| `Blazert.C58_plane_distance_partial` | propext, Classical.choice, Quot.sound |
| `Blazert.C58_sphere_distance` | propext, Classical.choice, Quot.sound |
| `Blazert.C58_sphere_float` | propext, Classical.choice, Quot.sound |
| `Blazert.C59_changes` | propext, Classical.choice, Quot.sound |
| `Blazert.C59_cylinder_ignores_limits` | propext, Classical.choice, Quot.sound |
| `Blazert.C59_false` | propext, Classical.choice, Quot.sound |
| `Blazert.C59_planes` | propext, Classical.choice, Quot.sound |
| `Blazert.C59_planes_float_partial` | propext, Classical.choice, Quot.sound |
| `Blazert.C59_sphere_false` | propext, Classical.choice, Quot.sound |
| `Blazert.C59_spheres` | propext, Classical.choice, Quot.sound |
| `Blazert.C59_spheres_float_partial` | propext, Classical.choice, Quot.sound |
| `Blazert.C60_cylinders_partial` | propext, Classical.choice, Quot.sound |
| `Blazert.C60_plane_edge` | propext, Classical.choice, Quot.sound |
| `Blazert.C60_planes_partial` | propext, Classical.choice, Quot.sound |
| `Blazert.C60_spheres` | propext, Classical.choice, Quot.sound |
| `Blazert.C61_by_first_coordinate_partial` | propext, Classical.choice, Quot.sound |
| `Blazert.C61_by_second_coordinate_false` | propext, Classical.choice, Quot.sound |
| `Blazert.C61_stops_at_once` | propext, Classical.choice, Quot.sound |
| `Blazert.C62_newton_step` | propext, Classical.choice, Quot.sound |
| `Blazert.C63_circular` | propext, Classical.choice, Quot.sound |
| `Blazert.C64_as_if_copied` | propext, Classical.choice, Quot.sound |
| `Blazert.C64_copy_is_history` | propext, Quot.sound |
| `Blazert.C65_extended_before_commit` | propext, Quot.sound |
| `Blazert.C65_freed` | propext, Classical.choice, Quot.sound |
| `Blazert.C65_moved_is_missed` | propext, Classical.choice, Quot.sound |
| `Blazert.C65_numbers_partial` | propext, Classical.choice, Quot.sound |
| `Blazert.C65_queries_read_partial` | propext, Classical.choice, Quot.sound |
| `Blazert.C66_intersectors` | propext, Classical.choice, Quot.sound |
| `Blazert.C66_skips_only_rejected` | propext, Classical.choice, Quot.sound |
| `Blazert.C67_double` | propext, Classical.choice, Quot.sound |
| `Blazert.C67_float` | propext, Classical.choice, Quot.sound |
| `Blazert.C67_lone_hit` | propext, Classical.choice, Quot.sound |
| `Blazert.C67_nothing_hidden` | propext, Classical.choice, Quot.sound |
| `Blazert.C68_direction` | propext, Classical.choice, Quot.sound |
| `Blazert.C68_double` | propext, Classical.choice, Quot.sound |
| `Blazert.C68_float` | propext, Classical.choice, Quot.sound |
| `Blazert.C68_hit_on_sphere` | propext, Classical.choice, Quot.sound |
| `Blazert.C69_closest` | propext, Classical.choice, Quot.sound |
| `Blazert.C69_double` | propext, Classical.choice, Quot.sound |
| `Blazert.C69_float` | propext, Classical.choice, Quot.sound |
| `Blazert.C70_cheapest_cut` | propext, Classical.choice, Quot.sound |
| `Blazert.C71_other_split_is_made` | propext, Classical.choice, Quot.sound |
| `Blazert.C71_split_partial` | propext, Classical.choice, Quot.sound |
| `Blazert.C72_fan_partial` | propext, Classical.choice, Quot.sound |
| `Blazert.C72_gap` | propext, Classical.choice, Quot.sound |
| `Blazert.C73_double` | propext, Classical.choice, Quot.sound |
| `Blazert.C73_float` | propext, Classical.choice, Quot.sound |
| `Blazert.C73_hit_on_triangle` | propext, Classical.choice, Quot.sound |
| `Blazert.C74_closest` | propext, Classical.choice, Quot.sound |
| `Blazert.C74_double` | propext, Classical.choice, Quot.sound |
| `Blazert.C74_float` | propext, Classical.choice, Quot.sound |
| `Blazert.C74_small` | propext, Classical.choice, Quot.sound |
| `Blazert.C74_small_double` | propext, Classical.choice, Quot.sound |
| `Blazert.C74_small_float` | propext, Classical.choice, Quot.sound |
| `Blazert.C75_dust_hides` | propext, Classical.choice, Quot.sound |
| `Blazert.C75_dust_hides_float` | propext, Classical.choice, Quot.sound |
| `Blazert.C75_finite_partial` | propext, Classical.choice, Quot.sound |
| `Blazert.C76_address_not_json` | propext, Classical.choice, Quot.sound |
| `Blazert.C76_collections_partial` | propext, Classical.choice, Quot.sound |
| `Blazert.C76_keys_not_json` | propext, Classical.choice, Quot.sound |
| `Blazert.C76_primitives_partial` | propext, Classical.choice, Quot.sound |
| `Blazert.C76_scene_partial` | propext, Classical.choice, Quot.sound |
| `Blazert.C76_structure_not_json` | propext, Classical.choice, Quot.sound |
| `Blazert.C77_determined_partial` | propext, Classical.choice, Quot.sound |
| `Blazert.C77_triangle_ambiguous` | propext, Classical.choice, Quot.sound |
| `Blazert.C78_closest_answer` | propext, Classical.choice, Quot.sound |
| `Blazert.C78_defined` | propext, Classical.choice, Quot.sound |
| `Blazert.C78_hit_found` | propext, Classical.choice, Quot.sound |
| `Blazert.C79_double` | propext, Classical.choice, Quot.sound |
| `Blazert.C79_float` | propext, Classical.choice, Quot.sound |
| `Blazert.C79_limits` | propext, Classical.choice, Quot.sound |
| `Blazert.C80_cylinder_double` | propext, Classical.choice, Quot.sound |
| `Blazert.C80_cylinder_float` | propext, Classical.choice, Quot.sound |
| `Blazert.C80_mesh_double` | propext, Classical.choice, Quot.sound |
| `Blazert.C80_mesh_float` | propext, Classical.choice, Quot.sound |
| `Blazert.C80_plane_double` | propext, Classical.choice, Quot.sound |
| `Blazert.C80_plane_float` | propext, Classical.choice, Quot.sound |
| `Blazert.C80_sphere_double` | propext, Classical.choice, Quot.sound |
| `Blazert.C80_sphere_float` | propext, Classical.choice, Quot.sound |
| `Blazert.C81_double` | propext, Classical.choice, Quot.sound |
| `Blazert.C81_float` | propext, Classical.choice, Quot.sound |
| `Blazert.C81_hit_on_rectangle` | propext, Classical.choice, Quot.sound |
| `Blazert.C82_closest` | propext, Classical.choice, Quot.sound |
| `Blazert.C82_double` | propext, Classical.choice, Quot.sound |
| `Blazert.C82_float` | propext, Classical.choice, Quot.sound |
| `Blazert.C83_double` | propext, Classical.choice, Quot.sound |
| `Blazert.C83_float` | propext, Classical.choice, Quot.sound |
| `Blazert.C84_agree` | propext, Quot.sound |
| `Blazert.C84_any_hit_tests` | propext, Classical.choice, Quot.sound |
| `Blazert.C84_intersectors` | propext, Classical.choice, Quot.sound |
| `Blazert.C85_all_kinds` | propext, Classical.choice, Quot.sound |
| `Blazert.C85_all_kinds_double` | propext, Classical.choice, Quot.sound |
| `Blazert.C85_all_kinds_float` | propext, Classical.choice, Quot.sound |
| `Blazert.C85_default_double` | propext, Classical.choice, Quot.sound |
| `Blazert.C85_default_float` | propext, Classical.choice, Quot.sound |
| `Blazert.C85_double` | propext, Classical.choice, Quot.sound |
| `Blazert.C85_dust_differs` | propext, Classical.choice, Quot.sound |
| `Blazert.C85_float` | propext, Classical.choice, Quot.sound |
| `Blazert.C85_same_answer` | propext, Classical.choice, Quot.sound |
| `Blazert.C86_double` | propext, Classical.choice, Quot.sound |
| `Blazert.C86_float` | propext, Classical.choice, Quot.sound |
| `Blazert.C86_sphere_normal` | propext, Classical.choice, Quot.sound |
| `Blazert.C87_double` | propext, Classical.choice, Quot.sound |
| `Blazert.C87_float` | propext, Classical.choice, Quot.sound |
| `Blazert.C87_plane_normal` | propext, Classical.choice, Quot.sound |
| `Blazert.C88_double` | propext, Classical.choice, Quot.sound |
| `Blazert.C88_float` | propext, Classical.choice, Quot.sound |
| `Blazert.C88_sphere_distance` | propext, Classical.choice, Quot.sound |
| `Blazert.C89_double` | propext, Classical.choice, Quot.sound |
| `Blazert.C89_float` | propext, Classical.choice, Quot.sound |
| `Blazert.C89_hit_on_cylinder` | propext, Classical.choice, Quot.sound |
| `Blazert.C90_barycentric` | propext, Classical.choice, Quot.sound |
| `Blazert.C90_double` | propext, Classical.choice, Quot.sound |
| `Blazert.C90_float` | propext, Classical.choice, Quot.sound |
| `Blazert.C91_interpolated` | propext, Classical.choice, Quot.sound |
| `Blazert.C91_interpolated_double` | propext, Classical.choice, Quot.sound |
| `Blazert.C91_interpolated_float` | propext, Classical.choice, Quot.sound |
| `Blazert.C91_isolated` | propext, Classical.choice, Quot.sound |
| `Blazert.C91_isolated_double` | propext, Classical.choice, Quot.sound |
| `Blazert.C91_isolated_float` | propext, Classical.choice, Quot.sound |
| `Blazert.C92_cylinder_normal` | propext, Classical.choice, Quot.sound |
| `Blazert.C92_double` | propext, Classical.choice, Quot.sound |
| `Blazert.C92_float` | propext, Classical.choice, Quot.sound |
| `Blazert.C92_outside` | propext, Quot.sound |
| `Blazert.C93_double` | propext, Classical.choice, Quot.sound |
| `Blazert.C93_float` | propext, Classical.choice, Quot.sound |
| `Blazert.C94_children` | propext, Classical.choice, Quot.sound |
| `Blazert.C94_default_options` | propext, Classical.choice, Quot.sound |
| `Blazert.C94_no_wrap_around` | propext, Classical.choice, Quot.sound |
| `Blazert.C94_too_many_bins` | propext, Classical.choice, Quot.sound |
| `Blazert.C95_float` | propext, Classical.choice, Quot.sound |
| `Blazert.C95_hits_near` | propext, Classical.choice, Quot.sound |
| `Blazert.C96_double` | propext, Classical.choice, Quot.sound |
| `Blazert.C96_flat_mesh` | propext, Classical.choice, Quot.sound |
| `Blazert.C96_float` | propext, Classical.choice, Quot.sound |
| `Blazert.C97_face_double` | propext, Classical.choice, Quot.sound |
| `Blazert.C97_face_float` | propext, Classical.choice, Quot.sound |
| `Blazert.C97_leave_face` | propext, Classical.choice, Quot.sound |
| `Blazert.C97_leave_rectangle` | propext, Classical.choice, Quot.sound |
| `Blazert.C97_leave_sphere` | propext, Classical.choice, Quot.sound |
| `Blazert.C97_rectangle_double` | propext, Classical.choice, Quot.sound |
| `Blazert.C97_rectangle_float` | propext, Classical.choice, Quot.sound |
| `Blazert.C97_sphere_double` | propext, Classical.choice, Quot.sound |
| `Blazert.C97_sphere_float` | propext, Classical.choice, Quot.sound |
| `Blazert.C97_tube` | propext, Classical.choice, Quot.sound |
| `Blazert.C97_zero_limit` | propext, Classical.choice, Quot.sound |
| `Blazert.C98_closest` | propext, Classical.choice, Quot.sound |
| `Blazert.C98_closest_float` | propext, Classical.choice, Quot.sound |
| `Blazert.C98_reported` | propext, Classical.choice, Quot.sound |
| `Blazert.C98_reported_float` | propext, Classical.choice, Quot.sound |
| `Blazert.C99_as_if_copied` | propext, Classical.choice, Quot.sound |
| `Blazert.C99_copy_is_run` | propext, Quot.sound |
