'FastNoise.Base64.C01_roundtrip_iff' depends on axioms: [propext, Classical.choice, Quot.sound]
'FastNoise.Base64.C01_roundtrip_partial' depends on axioms: [propext, Classical.choice, Quot.sound]
'FastNoise.Base64.C01_roundtrip_fails' depends on axioms: [propext, Classical.choice, Quot.sound]
'FastNoise.Base64.C01_short_input_ub' depends on axioms: [propext, Classical.choice, Quot.sound]
'FastNoise.Base64.C01_standard_text_accepted' depends on axioms: [propext, Classical.choice, Quot.sound]
'FastNoise.Base64.C02_decode_safe' depends on axioms: [propext, Classical.choice, Quot.sound]
'FastNoise.RT.C03_text_decodes' depends on axioms: [propext, Classical.choice, Quot.sound]
'FastNoise.RT.C03_fixup' depends on axioms: [propext, Classical.choice, Quot.sound]
'FastNoise.RT.C04_roundtrip' depends on axioms: [propext, Classical.choice, Quot.sound]
'FastNoise.RT.C04_linked_constant_lost' depends on axioms: [propext, Classical.choice, Quot.sound]
'FastNoise.RT.C05_generator_matches_partial' depends on axioms: [propext, Classical.choice, Quot.sound]
'FastNoise.RT.C05_shipped_defaults' depends on axioms: [propext, Quot.sound]
'FastNoise.RT.C05_distance_to_point_differs' depends on axioms: [propext, Classical.choice, Quot.sound]
'FastNoise.RT.C05_float_compare' depends on axioms: [propext, Classical.choice, Quot.sound]
'FastNoise.Deser.C06_decode_nodedata_total' depends on axioms: [propext, Classical.choice, Quot.sound]
'FastNoise.Deser.C06_decode_generator_total' depends on axioms: [propext, Classical.choice, Quot.sound]
'FastNoise.Deser.C06_text_total' depends on axioms: [propext, Classical.choice, Quot.sound]
'FastNoise.Demo.C06_demo_trees' depends on axioms: [propext, Classical.choice, Quot.sound]
'FastNoise.Deser.C07_nodedata_acyclic' depends on axioms: [propext, Classical.choice, Quot.sound]
'FastNoise.Deser.C07_generator_acyclic' depends on axioms: [propext, Classical.choice, Quot.sound]
'FastNoise.Deser.C08_sources_typed_partial' depends on axioms: [propext, Classical.choice, Quot.sound]
'FastNoise.Deser.C08_warp_fractal_source' depends on axioms: [propext, Classical.choice, Quot.sound]
'FastNoise.Deser.C08_missing_source' depends on axioms: [propext]
'FastNoise.RT.C09_serialise_total_iff' depends on axioms: [propext, Classical.choice, Quot.sound]
'FastNoise.RT.C09_cycle_diverges' depends on axioms: [propext, Classical.choice, Quot.sound]
'FastNoise.RT.C10_fixup_partial' depends on axioms: [propext, Classical.choice, Quot.sound]
'FastNoise.RT.C10_fixup_harmless' depends on axioms: [propext, Classical.choice, Quot.sound]
'FastNoise.RT.C10_failure_keeps_cycle' depends on axioms: [propext, Classical.choice, Quot.sound]
'FastNoise.RT.C10_null_metadata_ub' depends on axioms: [propext, Classical.choice, Quot.sound]
'FastNoise.MetaVec.C11_lists_exact' depends on axioms: [propext, Classical.choice, Quot.sound]
'FastNoise.MetaVec.C11_shipped' depends on axioms: [propext, Quot.sound]
'FastNoise.MetaVec.C11_reserved_sizes' depends on axioms: [propext, Classical.choice, Quot.sound]
'FastNoise.MetaVec.C11_limit' does not depend on any axioms
'FastNoise.MetaVec.C11_groups_must_be_together' does not depend on any axioms
'FastNoise.MetaVec.C11_members_unambiguous' depends on axioms: [propext]
'FastNoise.MetaVec.C12_getters_partial' depends on axioms: [propext, Classical.choice, Quot.sound]
'FastNoise.MetaVec.C12_id_aliases' depends on axioms: [propext]
'FastNoise.MetaVec.C12_setters' depends on axioms: [propext, Classical.choice, Quot.sound]
'FastNoise.MetaVec.C12_hybrid_null_does_not_revert' depends on axioms: [propext]
'FastNoise.MetaVec.C12_hybrid_float_disconnects' depends on axioms: [propext]
'FastNoise.RefCount.C13_no_use_after_free' depends on axioms: [propext, Classical.choice, Quot.sound]
'FastNoise.RefCount.C13_alive_iff_referenced' depends on axioms: [propext, Classical.choice, Quot.sound]
'FastNoise.RefCount.C13_destroyed_when_last_reference_goes' depends on axioms: [propext, Classical.choice, Quot.sound]
'FastNoise.RefCount.C13_at_most_once' depends on axioms: [propext, Classical.choice, Quot.sound]
'FastNoise.RefCount.C13_use_count' depends on axioms: [propext, Classical.choice, Quot.sound]
'FastNoise.RefCount.C13_quiet_no_leak' depends on axioms: [propext, Classical.choice, Quot.sound]
'FastNoise.RefCount.C13_destruction_terminates' depends on axioms: [propext, Classical.choice, Quot.sound]
'FastNoise.RefCount.C13_cycle_leaks' depends on axioms: [propext, Classical.choice, Quot.sound]
'FastNoise.RefCount.C13_assign_from_own_member_is_use_after_free' depends on axioms: [propext, Classical.choice, Quot.sound]
'FastNoise.Pool.C14_blocks_disjoint_aligned_inside' depends on axioms: [propext, Classical.choice, Quot.sound]
'FastNoise.Pool.C14_allocate_returns_block' depends on axioms: [propext, Classical.choice, Quot.sound]
'FastNoise.Pool.C14_free_finds_its_pool' depends on axioms: [propext, Classical.choice, Quot.sound]
'FastNoise.Pool.C14_free_removes_only_its_block' depends on axioms: [propext, Classical.choice, Quot.sound]
'FastNoise.Pool.C14_no_failure_before_a_pool_is_removed' depends on axioms: [propext, Classical.choice, Quot.sound]
'FastNoise.Pool.C14_serial_calls_never_fail' depends on axioms: [propext, Classical.choice, Quot.sound]
'FastNoise.Pool.C14_use_after_free_race' depends on axioms: [propext, Classical.choice, Quot.sound]
'FastNoise.Pool.C14_oversized_request' depends on axioms: [propext]
'FastNoise.Pool.C14_small_pool_size' depends on axioms: [propext]
'FastNoise.Pool.C14_one_byte_request' depends on axioms: [propext]
'FastNoise.Pool.C14_mutex' depends on axioms: [propext, Quot.sound]
'FastNoise.Grid.C15_C16_grid2D' depends on axioms: [propext, Classical.choice, Quot.sound]
'FastNoise.Grid.C15_C16_grid3D' depends on axioms: [propext, Classical.choice, Quot.sound]
'FastNoise.Grid.C15_C16_grid4D' depends on axioms: [propext, Classical.choice, Quot.sound]
'FastNoise.Grid.C15_width_independent2D' depends on axioms: [propext, Classical.choice, Quot.sound]
'FastNoise.Grid.C15_width_independent3D' depends on axioms: [propext, Classical.choice, Quot.sound]
'FastNoise.Grid.C15_width_independent4D' depends on axioms: [propext, Classical.choice, Quot.sound]
'FastNoise.Grid.C15_single2D' depends on axioms: [propext, Classical.choice, Quot.sound]
'FastNoise.Grid.C15_single3D' depends on axioms: [propext, Classical.choice, Quot.sound]
'FastNoise.Grid.C15_single4D' depends on axioms: [propext, Classical.choice, Quot.sound]
'FastNoise.Grid.C15_C16_grid2D' depends on axioms: [propext, Classical.choice, Quot.sound]
'FastNoise.Grid.C15_C16_grid3D' depends on axioms: [propext, Classical.choice, Quot.sound]
'FastNoise.Grid.C15_C16_grid4D' depends on axioms: [propext, Classical.choice, Quot.sound]
'FastNoise.Grid.C17_positions' depends on axioms: [propext, Classical.choice, Quot.sound]
'FastNoise.Grid.C17_width_independent' depends on axioms: [propext, Classical.choice, Quot.sound]
'FastNoise.Grid.C18_positions' depends on axioms: [propext, Classical.choice, Quot.sound]
'FastNoise.Tile.C18_wraps_partial' depends on axioms: [propext, Classical.choice, Quot.sound]
'FastNoise.Tile.C18_exact_constant_wraps' depends on axioms: [propext, Classical.choice, Quot.sound]
'FastNoise.Tile.C18_seam_not_exact' depends on axioms: [propext, Classical.choice, Quot.sound]
'FastNoise.Tile.C18_equal_spacing' depends on axioms: [propext, Classical.choice, Quot.sound]
'FastNoise.Tile.C18_arc_is_step' depends on axioms: [propext, Classical.choice, Quot.sound]
'FastNoise.Tile.C18_on_circle' depends on axioms: [propext, Classical.choice, Quot.sound]
'FastNoise.Tile.C18_full_turn' depends on axioms: [propext, Classical.choice, Quot.sound]
'FastNoise.Cache.C19_cache_transparent_partial' depends on axioms: [propext, Classical.choice, Quot.sound]
'FastNoise.Cache.C19_not_nested_partial' depends on axioms: [propext, Classical.choice, Quot.sound]
'FastNoise.Cache.C19_nested_caches_wrong' depends on axioms: [propext, Quot.sound]
'FastNoise.Cache.C19_stale_after_change' depends on axioms: [propext, Quot.sound]
'FastNoise.Cache.C19_negative_zero' depends on axioms: [propext, Quot.sound]
'FastNoise.Ipc.C20_implements_mailbox' depends on axioms: [propext, Classical.choice, Quot.sound]
'FastNoise.Ipc.C20_sent_message_is_polled_next' depends on axioms: [propext, Classical.choice, Quot.sound]
'FastNoise.Ipc.C20_only_sent_messages' depends on axioms: [propext, Classical.choice, Quot.sound]
'FastNoise.Ipc.C20_at_most_once' depends on axioms: [propext, Classical.choice, Quot.sound]
'FastNoise.Ipc.C20_never_beyond_buffer' depends on axioms: [propext, Quot.sound]
'FastNoise.Ipc.C20_oversized_refused' depends on axioms: [propext, Quot.sound]
'FastNoise.Ipc.C20_unread_overwritten' depends on axioms: [propext]
'FastNoise.Ipc.C20_send_discards_unread' depends on axioms: [propext]
'FastNoise.Ipc.C20_small_buffer_loses' depends on axioms: [propext]
'FastNoise.Ipc.C20_counter_wraps' depends on axioms: [propext, Classical.choice, Quot.sound]
'FastNoise.Ipc.C20_release_disconnects' depends on axioms: [propext]
'FastNoise.Ipc.C20_torn_read' depends on axioms: [propext]
'FastNoise.Ipc.C20_unterminated_read' depends on axioms: [propext]
'FastNoise.Ipc.C20_uninterrupted_delivery' depends on axioms: [propext, Classical.choice, Quot.sound]
'FastNoise.Queues.C21_fifo_lossless' depends on axioms: [propext, Quot.sound]
'FastNoise.Queues.C21_fifo_with_clear' depends on axioms: [propext, Quot.sound]
'FastNoise.Queues.C21_clear_discards' depends on axioms: [propext, Quot.sound]
'FastNoise.Queues.C21_no_lost_wakeup' depends on axioms: [propext, Classical.choice, Quot.sound]
'FastNoise.Queues.C21_kill' depends on axioms: [propext, Classical.choice, Quot.sound]
'FastNoise.Queues.C21_empty_job_not_built' depends on axioms: [propext, Quot.sound]
'FastNoise.Queues.C22_fifo' depends on axioms: [propext]
'FastNoise.Queues.C22_current_only_partial' depends on axioms: [propext]
'FastNoise.Queues.C22_stale_without_drain' depends on axioms: [propext]
'FastNoise.Queues.C22_version_wraps' depends on axioms: [propext]
'FastNoise.Queues.C22_preview_never_stale' depends on axioms: [propext, Quot.sound]
'FastNoise.Queues.C22_version_ticket' depends on axioms: [propext]
'FastNoise.Queues.C22_current_result_kept' depends on axioms: [propext, Quot.sound]
'FastNoise.Hybrid.C23_last_write_wins' depends on axioms: [propext, Quot.sound]
'FastNoise.Hybrid.C23_inputs_independent' depends on axioms: [propext]
'FastNoise.Hybrid.C23_rejected_iff' depends on axioms: [propext]
'FastNoise.Hybrid.C23_terrace_smoothness' depends on axioms: [propext, Quot.sound]
'FastNoise.Hybrid.C23_level_mismatch_ignored' depends on axioms: [propext]
'FastNoise.Hybrid.C23_api_null_does_not_revert' depends on axioms: [propext]
'FastNoise.Hybrid.C23_api_float_disconnects' depends on axioms: [propext]
'FastNoise.Basic.C24_output_range' depends on axioms: [propext, Classical.choice, Quot.sound]
'FastNoise.Basic.C24_order_independent' depends on axioms: [propext, Classical.choice, Quot.sound]
'FastNoise.Basic.C24_float_loses_max' depends on axioms: [propext]
'FastNoise.Basic.C24_rounding' depends on axioms: [propext, Classical.choice, Quot.sound]
'FastNoise.Hash.C25_axis_injective' depends on axioms: [propext, Quot.sound]
'FastNoise.Hash.C25_seed_injective' depends on axioms: [propext, Quot.sound]
'FastNoise.Hash.C25_seed_bijective' depends on axioms: [propext, Quot.sound]
'FastNoise.Hash.C25_mix_collisions' depends on axioms: [propext, Classical.choice, Quot.sound]
'FastNoise.Hash.C25_mix_nonneg' depends on axioms: [propext, Classical.choice, Quot.sound]
'FastNoise.Hash.C25_octave_seeds_distinct' depends on axioms: [propext, Quot.sound]
'FastNoise.Hash.C25_value_collision' depends on axioms: [propext, Quot.sound]
'FastNoise.Hash.C25_value_zero' depends on axioms: [propext, Quot.sound]
'FastNoise.Gradient.C26_perlin' depends on axioms: [propext, Classical.choice, Quot.sound]
'FastNoise.Gradient.C26_simplex' depends on axioms: [propext, Classical.choice, Quot.sound]
'FastNoise.Gradient.C26_levels_agree' depends on axioms: [propext, Classical.choice, Quot.sound]
'FastNoise.Gradient.C26_low_bits' depends on axioms: [propext, Classical.choice, Quot.sound]
'FastNoise.Gradient.C26_all_selected' depends on axioms: [propext, Classical.choice, Quot.sound]
'FastNoise.Gradient.C26_lengths' depends on axioms: [propext, Classical.choice, Quot.sound]
'FastNoise.Gradient.C26_hash31_needed' depends on axioms: [propext, Classical.choice, Quot.sound]
'FastNoise.Cellular.C27_index_clamped' depends on axioms: [propext, Quot.sound]
'FastNoise.Cellular.C27_value' depends on axioms: [propext, Classical.choice, Quot.sound]
'FastNoise.Cellular.C27_distance' depends on axioms: [propext, Classical.choice, Quot.sound]
'FastNoise.Cellular.C27_distance_combined_partial' depends on axioms: [propext, Classical.choice, Quot.sound]
'FastNoise.Cellular.C27_equal_indices_root_twice' depends on axioms: [propext, Classical.choice, Quot.sound]
'FastNoise.Cellular.C27_zero_distance_nan' depends on axioms: [propext, Classical.choice, Quot.sound]
'FastNoise.Cellular.C27_nan_reachable' depends on axioms: [propext, Classical.choice, Quot.sound]
'FastNoise.Cellular.C27_lookup' depends on axioms: [propext, Classical.choice, Quot.sound]
'FastNoise.Fractal.C28_fbm' depends on axioms: [propext, Classical.choice, Quot.sound]
'FastNoise.Fractal.C28_ridged' depends on axioms: [propext, Classical.choice, Quot.sound]
'FastNoise.Fractal.C28_unweighted' depends on axioms: [propext, Classical.choice, Quot.sound]
'FastNoise.Fractal.C28_one_octave' depends on axioms: [propext, Classical.choice, Quot.sound]
'FastNoise.Fractal.C28_octave_seeds_distinct' depends on axioms: [propext, Classical.choice, Quot.sound]
'FastNoise.Fractal.C28_bounded' depends on axioms: [propext, Classical.choice, Quot.sound]
'FastNoise.Fractal.C28_not_normalised' depends on axioms: [propext, Classical.choice, Quot.sound]
'FastNoise.Fractal.C29_standalone_partial' depends on axioms: [propext, Classical.choice, Quot.sound]
'FastNoise.Fractal.C29_axis_bound' depends on axioms: [propext, Classical.choice, Quot.sound]
'FastNoise.Fractal.C29_euclidean_partial' depends on axioms: [propext, Classical.choice, Quot.sound]
'FastNoise.Fractal.C29_zero_amplitude' depends on axioms: [propext, Classical.choice, Quot.sound]
'FastNoise.Fractal.C29_progressive' depends on axioms: [propext, Classical.choice, Quot.sound]
'FastNoise.Fractal.C29_independent' depends on axioms: [propext, Classical.choice, Quot.sound]
'FastNoise.Fractal.C29_runs_exist' depends on axioms: [propext, Classical.choice, Quot.sound]
'FastNoise.Fractal.C29_run_unique' depends on axioms: [propext, Classical.choice, Quot.sound]
'FastNoise.Fractal.C29_amplitudes' depends on axioms: [propext, Classical.choice, Quot.sound]
'FastNoise.Fractal.C29_total_axis_bound' depends on axioms: [propext, Classical.choice, Quot.sound]
'FastNoise.Fractal.C29_unweighted' depends on axioms: [propext, Classical.choice, Quot.sound]
'FastNoise.Fractal.C29_one_octave' depends on axioms: [propext, Classical.choice, Quot.sound]
'FastNoise.Fractal.C29_exceeds_documented_distance' depends on axioms: [propext, Classical.choice, Quot.sound]
'FastNoise.Fractal.C29_standalone_differs_from_fractal' depends on axioms: [propext, Classical.choice, Quot.sound]
'FastNoise.Fractal.C29_lattice' depends on axioms: [propext, Classical.choice, Quot.sound]
'FastNoise.Fractal.C29_continuous' depends on axioms: [propext, Classical.choice, Quot.sound]
'FastNoise.Modifiers.C30_remap' depends on axioms: [propext, Classical.choice, Quot.sound]
'FastNoise.Modifiers.C30_remap_ends' depends on axioms: [propext, Classical.choice, Quot.sound]
'FastNoise.Modifiers.C30_remap_clamped' depends on axioms: [propext, Classical.choice, Quot.sound]
'FastNoise.Modifiers.C30_remap_clamp_inverted' depends on axioms: [propext, Classical.choice, Quot.sound]
'FastNoise.Modifiers.C30_pingpong' depends on axioms: [propext, Classical.choice, Quot.sound]
'FastNoise.Modifiers.C30_pingpong_reflects_at_zero' depends on axioms: [propext, Classical.choice, Quot.sound]
'FastNoise.Modifiers.C30_terrace' depends on axioms: [propext, Classical.choice, Quot.sound]
'FastNoise.Modifiers.C30_terrace_steps' depends on axioms: [propext, Classical.choice, Quot.sound]
'FastNoise.Modifiers.C30_terrace_smooth_between' depends on axioms: [propext, Classical.choice, Quot.sound]
'FastNoise.Modifiers.C30_terrace_monotone' depends on axioms: [propext, Classical.choice, Quot.sound]
'FastNoise.Modifiers.C30_terrace_lipschitz' depends on axioms: [propext, Classical.choice, Quot.sound]
'FastNoise.Modifiers.C30_fade' depends on axioms: [propext, Classical.choice, Quot.sound]
'FastNoise.Modifiers.C30_fade_between' depends on axioms: [propext, Classical.choice, Quot.sound]
'FastNoise.Modifiers.C30_fade_ends' depends on axioms: [propext, Classical.choice, Quot.sound]
'FastNoise.Modifiers.C30_min_smooth' depends on axioms: [propext, Classical.choice, Quot.sound]
'FastNoise.Modifiers.C30_min_smooth_monotone' depends on axioms: [propext, Classical.choice, Quot.sound]
'FastNoise.Modifiers.C30_max_smooth' depends on axioms: [propext, Classical.choice, Quot.sound]
'FastNoise.Modifiers.C30_signed_sqrt' depends on axioms: [propext, Classical.choice, Quot.sound]
'FastNoise.Modifiers.C30_signed_sqrt_monotone' depends on axioms: [propext, Classical.choice, Quot.sound]
'FastNoise.Modifiers.C30_pow_int' depends on axioms: [propext, Classical.choice, Quot.sound]
'FastNoise.Modifiers.C30_pow_float' depends on axioms: [propext, Classical.choice, Quot.sound]
'FastNoise.Modifiers.C30_pow_float_negative' depends on axioms: [propext, Classical.choice, Quot.sound]
'FastNoise.Modifiers.C30_abs_min_max' depends on axioms: [propext, Classical.choice, Quot.sound]
'FastNoise.Modifiers.C30_operators_inverse' depends on axioms: [propext, Classical.choice, Quot.sound]
'FastNoise.Modifiers.C31_opaque' depends on axioms: [propext, Classical.choice, Quot.sound]
'FastNoise.Modifiers.C31_grey' depends on axioms: [propext, Classical.choice, Quot.sound]
'FastNoise.Modifiers.C31_monotone' depends on axioms: [propext, Classical.choice, Quot.sound]
'FastNoise.Modifiers.C31_inverted' depends on axioms: [propext, Classical.choice, Quot.sound]
'FastNoise.Modifiers.C32_rotate_3d' depends on axioms: [propext, Classical.choice, Quot.sound]
'FastNoise.Modifiers.C32_rotate_2d' depends on axioms: [propext, Classical.choice, Quot.sound]
'FastNoise.Modifiers.C32_rotate_2d_lifted' depends on axioms: [propext, Classical.choice, Quot.sound]
'FastNoise.Modifiers.C32_rotate_4d' depends on axioms: [propext, Classical.choice, Quot.sound]
'FastNoise.Modifiers.C32_rigid' depends on axioms: [propext, Classical.choice, Quot.sound]
'FastNoise.Modifiers.C32_identity' depends on axioms: [propext, Classical.choice, Quot.sound]
'FastNoise.Modifiers.C32_origin' depends on axioms: [propext, Classical.choice, Quot.sound]
'FastNoise.Modifiers.C32_plane_rigid' depends on axioms: [propext, Classical.choice, Quot.sound]
'FastNoise.Modifiers.C32_plane_dims' depends on axioms: [propext, Classical.choice, Quot.sound]
'FastNoise.Modifiers.C32_plane_normal' depends on axioms: [propext, Classical.choice, Quot.sound]
'FastNoise.Modifiers.C32_scale' depends on axioms: [propext, Classical.choice, Quot.sound]
'FastNoise.Modifiers.C32_axis_scale' depends on axioms: [propext, Classical.choice, Quot.sound]
'FastNoise.Modifiers.C32_offset' depends on axioms: [propext, Classical.choice, Quot.sound]
'FastNoise.Modifiers.C32_compose' depends on axioms: [propext, Classical.choice, Quot.sound]
'FastNoise.Modifiers.C32_seed_offset' depends on axioms: [propext, Classical.choice, Quot.sound]
'FastNoise.Modifiers.C32_add_dimension' depends on axioms: [propext, Classical.choice, Quot.sound]
'FastNoise.Modifiers.C32_remove_dimension' depends on axioms: [propext, Classical.choice, Quot.sound]
'FastNoise.Modifiers.C32_add_remove' depends on axioms: [propext, Classical.choice, Quot.sound]
'FastNoise.Names.C33_spaced' depends on axioms: [propext, Quot.sound]
'FastNoise.Names.C33_faithful' depends on axioms: [propext, Classical.choice, Quot.sound]
'FastNoise.Names.C33_distinct' depends on axioms: [propext, Classical.choice, Quot.sound]
'FastNoise.Names.C33_tidy' depends on axioms: [propext, Classical.choice, Quot.sound]
'FastNoise.Names.C33_remove_group_partial' depends on axioms: [propext, Quot.sound]
'FastNoise.Names.C33_remove_leading_group' depends on axioms: [propext, Quot.sound]
'FastNoise.Names.C33_never_empty' depends on axioms: [propext, Quot.sound]
'FastNoise.Names.C33_removes_letter' depends on axioms: [propext, Quot.sound]
'FastNoise.Names.C33_member' depends on axioms: [propext]
'FastNoise.Names.C33_member_defined' depends on axioms: [propext, Quot.sound]
'FastNoise.Names.C33_member_distinct' depends on axioms: [propext, Quot.sound]
'FastNoise.Editor.C34_attr_decodes' depends on axioms: [propext, Classical.choice, Quot.sound]
'FastNoise.Editor.C34_attr_distinct' depends on axioms: [propext, Classical.choice, Quot.sound]
'FastNoise.Editor.C34_free_id' depends on axioms: [propext, Classical.choice, Quot.sound]
'FastNoise.Editor.C34_free_id_terminates' depends on axioms: [propext, Classical.choice, Quot.sound]
'FastNoise.Editor.C34_large_id_collides' depends on axioms: [propext]
'FastNoise.Editor.C35_sound_partial' depends on axioms: [propext, Classical.choice, Quot.sound]
'FastNoise.Editor.C35_no_ub_partial' depends on axioms: [propext, Classical.choice, Quot.sound]
'FastNoise.Editor.C35_terminates_partial' depends on axioms: [propext, Classical.choice, Quot.sound]
'FastNoise.Editor.C35_cycle_repaired' depends on axioms: [propext, Classical.choice, Quot.sound]
'FastNoise.Editor.C35_link_exact' depends on axioms: [propext, Classical.choice, Quot.sound]
'FastNoise.Editor.C35_unlink' depends on axioms: [propext, Classical.choice, Quot.sound]
'FastNoise.Editor.C35_delete' depends on axioms: [propext, Classical.choice, Quot.sound]
'FastNoise.Editor.C35_delete_uaf' depends on axioms: [propext, Classical.choice, Quot.sound]
'FastNoise.Editor.C35_drop_dangling' depends on axioms: [propext, Quot.sound]
'FastNoise.Editor.C35_cycle_recursion' depends on axioms: [propext, Classical.choice, Quot.sound]
'FastNoise.Editor.C35_convert_exact' depends on axioms: [propext, Classical.choice, Quot.sound]
'FastNoise.Editor.C35_warp_slots' depends on axioms: [propext, Classical.choice, Quot.sound]
'FastNoise.Lattice.C36_value_range' depends on axioms: [propext, Classical.choice, Quot.sound]
'FastNoise.Lattice.C36_value_lattice' depends on axioms: [propext, Classical.choice, Quot.sound]
'FastNoise.Lattice.C36_value_continuous' depends on axioms: [propext, Classical.choice, Quot.sound]
'FastNoise.Lattice.C36_perlin_lattice' depends on axioms: [propext, Classical.choice, Quot.sound]
'FastNoise.Lattice.C36_perlin_continuous' depends on axioms: [propext, Classical.choice, Quot.sound]
'FastNoise.Lattice.C36_perlin_range_partial' depends on axioms: [propext, Classical.choice, Quot.sound]
'FastNoise.Lattice.C36_perlin3_leaves_range' depends on axioms: [propext, Classical.choice, Quot.sound]
'FastNoise.Lattice.C36_perlin4_leaves_range' depends on axioms: [propext, Classical.choice, Quot.sound]
'FastNoise.Basic.C37_constant' depends on axioms: [propext, Classical.choice, Quot.sound]
'FastNoise.Basic.C37_white' depends on axioms: [propext, Classical.choice, Quot.sound]
'FastNoise.Basic.C37_white_axis' depends on axioms: [propext, Classical.choice, Quot.sound]
'FastNoise.Basic.C37_white_complement' depends on axioms: [propext, Classical.choice, Quot.sound]
'FastNoise.Basic.C37_checkerboard' depends on axioms: [propext, Classical.choice, Quot.sound]
'FastNoise.Basic.C37_checkerboard_alternates' depends on axioms: [propext, Classical.choice, Quot.sound]
'FastNoise.Basic.C37_checkerboard_tie' depends on axioms: [propext, Classical.choice, Quot.sound]
'FastNoise.Basic.C37_sineWave' depends on axioms: [propext, Classical.choice, Quot.sound]
'FastNoise.Basic.C37_gradient' depends on axioms: [propext, Classical.choice, Quot.sound]
'FastNoise.Basic.C37_distanceToPoint' depends on axioms: [propext, Classical.choice, Quot.sound]
'FastNoise.Basic.C37_distance_zero' depends on axioms: [propext, Classical.choice, Quot.sound]
'FastNoise.Simplex.C38_simplex_sum' depends on axioms: [propext, Classical.choice, Quot.sound]
'FastNoise.Simplex.C38_corners' depends on axioms: [propext, Classical.choice, Quot.sound]
'FastNoise.Grid.C39_semilattice' depends on axioms: [propext]
'FastNoise.Grid.C39_grouping' depends on axioms: [propext, Quot.sound]
'FastNoise.Grid.C39_exact' depends on axioms: [propext, Quot.sound]
'FastNoise.RefCount.C40_no_use_after_free' depends on axioms: [propext, Classical.choice, Quot.sound]
'FastNoise.RefCount.C40_references_keep_alive' depends on axioms: [propext, Classical.choice, Quot.sound]
'FastNoise.RefCount.C40_new_gives_one_reference' depends on axioms: [propext, Classical.choice, Quot.sound]
'FastNoise.RefCount.C40_delete_last_reference_leaks_partial' depends on axioms: [propext, Classical.choice, Quot.sound]
'FastNoise.RefCount.C40_delete_null_partial' depends on axioms: [propext, Classical.choice, Quot.sound]
'FastNoise.Grid.C41_zero_width_hangs' depends on axioms: [propext, Classical.choice, Quot.sound]
'FastNoise.Grid.C41_no_rows_reads_outside' depends on axioms: [propext, Classical.choice, Quot.sound]
'FastNoise.Grid.C41_no_positions_reads_outside' depends on axioms: [propext, Classical.choice, Quot.sound]
'FastNoise.Grid.C41_overflow' depends on axioms: [propext, Classical.choice, Quot.sound]
'FastNoise.Grid.C41_product' depends on axioms: [propext, Classical.choice, Quot.sound]
'FastNoise.Queues.C42_texture_monotone' depends on axioms: [propext, Quot.sound]
'FastNoise.Queues.C42_latest_shown' depends on axioms: [propext, Classical.choice, Quot.sound]
'FastNoise.Cellular.C43_displacement' depends on axioms: [propext, Classical.choice, Quot.sound]
'FastNoise.Cellular.C43_nearest_visited' depends on axioms: [propext, Classical.choice, Quot.sound]
'FastNoise.Cellular.C43_constants_2D_4D' depends on axioms: [propext, Classical.choice, Quot.sound]
'FastNoise.Cellular.C43_constants_3D' depends on axioms: [propext, Classical.choice, Quot.sound]
'FastNoise.Cellular.C43_lookup_nearest_partial' depends on axioms: [propext, Classical.choice, Quot.sound]
'FastNoise.Cellular.C43_feature' depends on axioms: [propext, Classical.choice, Quot.sound]
'FastNoise.Cellular.C43_size_jitter' depends on axioms: [propext, Classical.choice, Quot.sound]
'FastNoise.Simplex.C44_simplex2' depends on axioms: [propext, Classical.choice, Quot.sound]
'FastNoise.Simplex.C44_super2' depends on axioms: [propext, Classical.choice, Quot.sound]
'FastNoise.Simplex.C44_super3' depends on axioms: [propext, Classical.choice, Quot.sound]
'FastNoise.Simplex.C44_continuous' depends on axioms: [propext, Classical.choice, Quot.sound]
'FastNoise.Simplex.C44_simplex_partial' depends on axioms: [propext, Classical.choice, Quot.sound]
'FastNoise.Simplex.C44_super4_partial' depends on axioms: [propext, Classical.choice, Quot.sound]
'FastNoise.Simplex.C44_simplex3_jumps' depends on axioms: [propext, Classical.choice, Quot.sound]
'FastNoise.Simplex.C44_simplex4_jumps' depends on axioms: [propext, Classical.choice, Quot.sound]
'FastNoise.Simplex.C44_super4_jumps' depends on axioms: [propext, Classical.choice, Quot.sound]
'FastNoise.WarpSimplex.C45_contribution' depends on axioms: [propext, Classical.choice, Quot.sound]
'FastNoise.WarpSimplex.C45_turn2' depends on axioms: [propext, Classical.choice, Quot.sound]
'FastNoise.WarpSimplex.C45_turn3' depends on axioms: [propext, Classical.choice, Quot.sound]
'FastNoise.WarpSimplex.C45_contribution4_partial' depends on axioms: [propext, Classical.choice, Quot.sound]
'FastNoise.WarpSimplex.C45_bases4' depends on axioms: [propext, Classical.choice, Quot.sound]
'FastNoise.WarpSimplex.C45_matrix4' depends on axioms: [propext, Classical.choice, Quot.sound]
'FastNoise.WarpSimplex.C45_warp2' depends on axioms: [propext, Classical.choice, Quot.sound]
'FastNoise.WarpSimplex.C45_super3' depends on axioms: [propext, Classical.choice, Quot.sound]
'FastNoise.WarpSimplex.C45_simplex3_partial' depends on axioms: [propext, Classical.choice, Quot.sound]
'FastNoise.WarpSimplex.C45_simplex4_partial' depends on axioms: [propext, Classical.choice, Quot.sound]
'FastNoise.WarpSimplex.C45_super4_partial' depends on axioms: [propext, Classical.choice, Quot.sound]
'FastNoise.WarpSimplex.C45_continuous' depends on axioms: [propext, Classical.choice, Quot.sound]
'FastNoise.WarpSimplex.C45_level_independent' depends on axioms: [propext, Classical.choice, Quot.sound]
'FastNoise.WarpSimplex.C45_zero_amplitude' depends on axioms: [propext, Classical.choice, Quot.sound]
'FastNoise.WarpSimplex.C45_linear' depends on axioms: [propext, Classical.choice, Quot.sound]
'FastNoise.WarpSimplex.C45_axis_scale_zero' depends on axioms: [propext, Classical.choice, Quot.sound]
'FastNoise.WarpSimplex.C45_levels_differ' depends on axioms: [propext, Classical.choice, Quot.sound]
'FastNoise.WarpSimplex.C45_axes_repeat' depends on axioms: [propext, Classical.choice, Quot.sound]
'FastNoise.WarpSimplex.C45_not_a_reflection' depends on axioms: [propext, Classical.choice, Quot.sound]
'FastNoise.WarpSimplex.C45_linear_warps' depends on axioms: [propext, Classical.choice, Quot.sound]
'FastNoise.WarpSimplex.C45_progressive' depends on axioms: [propext, Classical.choice, Quot.sound]
'FastNoise.WarpSimplex.C45_independent' depends on axioms: [propext, Classical.choice, Quot.sound]
'FastNoise.WarpSimplex.C45_runs_exist' depends on axioms: [propext, Classical.choice, Quot.sound]
'FastNoise.WarpSimplex.C45_fractal_seed_partial' depends on axioms: [propext, Classical.choice, Quot.sound]
'FastNoise.Mesh.C46_mesh_wellformed' depends on axioms: [propext, Classical.choice, Quot.sound]
'FastNoise.Mesh.C46_one_quad_per_crossing' depends on axioms: [propext, Classical.choice, Quot.sound]
'FastNoise.Mesh.C46_no_cracks' depends on axioms: [propext, Classical.choice, Quot.sound]
'FastNoise.Mesh.C46_closed' depends on axioms: [propext, Classical.choice, Quot.sound]
'FastNoise.Mesh.C46_vertices' depends on axioms: [propext, Classical.choice, Quot.sound]
'FastNoise.Mesh.C46_plane' depends on axioms: [propext, Classical.choice, Quot.sound]
'FastNoise.Mesh.C46_shading' depends on axioms: [propext, Classical.choice, Quot.sound]
'FastNoise.Mesh.C47_mesh_wellformed' depends on axioms: [propext, Classical.choice, Quot.sound]
'FastNoise.Mesh.C47_one_face_per_exposed' depends on axioms: [propext, Classical.choice, Quot.sound]
'FastNoise.Mesh.C47_no_cracks' depends on axioms: [propext, Classical.choice, Quot.sound]
'FastNoise.Mesh.C47_closed' depends on axioms: [propext, Classical.choice, Quot.sound]
'FastNoise.Mesh.C48_mesh_wellformed' depends on axioms: [propext, Classical.choice, Quot.sound]
'FastNoise.Mesh.C48_one_patch_per_square' depends on axioms: [propext, Classical.choice, Quot.sound]
'FastNoise.Mesh.C48_faces_up' depends on axioms: [propext, Classical.choice, Quot.sound]
'FastNoise.Mesh.C48_no_cracks' depends on axioms: [propext, Classical.choice, Quot.sound]
'FastNoise.Chunks.C49_each_chunk_once' depends on axioms: [propext, Classical.choice, Quot.sound]
'FastNoise.Chunks.C49_shown_current' depends on axioms: [propext, Classical.choice, Quot.sound]
'FastNoise.Chunks.C49_counters' depends on axioms: [propext, Classical.choice, Quot.sound]
'FastNoise.Chunks.C49_range' depends on axioms: [propext, Classical.choice, Quot.sound]
'FastNoise.Chunks.C49_shown_apart' depends on axioms: [propext, Classical.choice, Quot.sound]
'FastNoise.Chunks.C49_request_exact' depends on axioms: [propext, Classical.choice, Quot.sound]
'FastNoise.Chunks.C49_nearest_first' depends on axioms: [propext, Classical.choice, Quot.sound]
'FastNoise.Chunks.C49_coverage' depends on axioms: [propext, Classical.choice, Quot.sound]
'FastNoise.Chunks.C49_progress' depends on axioms: [propext, Classical.choice, Quot.sound]
'FastNoise.Chunks.C49_unload_stable_partial' depends on axioms: [propext, Classical.choice, Quot.sound]
'FastNoise.Chunks.C49_heightmap_reload' depends on axioms: [propext, Classical.choice, Quot.sound]
'FastNoise.Chunks.C49_heightmap_reload_happens' depends on axioms: [propext, Classical.choice, Quot.sound]
'FastNoise.Chunks.C49_view_complete' depends on axioms: [propext, Classical.choice, Quot.sound]
'FastNoise.Chunks.C49_view_complete_blocks' depends on axioms: [propext, Classical.choice, Quot.sound]
'FastNoise.Chunks.C49_view_complete_height' depends on axioms: [propext, Classical.choice, Quot.sound]
'FastNoise.Chunks.C49_queue_limit' depends on axioms: [propext, Classical.choice, Quot.sound]
'FastNoise.Chunks.C49_cut_iff_full' depends on axioms: [propext, Classical.choice, Quot.sound]
'FastNoise.Chunks.C49_range_rate' depends on axioms: [propext, Classical.choice, Quot.sound]
'FastNoise.Editor.C50_restores' depends on axioms: [propext, Classical.choice, Quot.sound]
'FastNoise.Editor.C50_exact' depends on axioms: [propext, Classical.choice, Quot.sound]
'FastNoise.Editor.C50_stable' depends on axioms: [propext, Classical.choice, Quot.sound]
'FastNoise.Editor.C50_any_file_partial' depends on axioms: [propext, Classical.choice, Quot.sound]
'FastNoise.Editor.C50_crash' depends on axioms: [propext, Classical.choice, Quot.sound]
'FastNoise.Editor.C50_small_value_lost' depends on axioms: [propext, Classical.choice, Quot.sound]
'FastNoise.Editor.C50_file_uaf' depends on axioms: [propext, Classical.choice, Quot.sound]
'FastNoise.Editor.C50_same_text' depends on axioms: [propext, Classical.choice, Quot.sound]
'FastNoise.Texture.C51_preview' depends on axioms: [propext, Classical.choice, Quot.sound]
'FastNoise.Texture.C51_preview_same' depends on axioms: [propext, Classical.choice, Quot.sound]
'FastNoise.Texture.C51_export_file' depends on axioms: [propext, Classical.choice, Quot.sound]
'FastNoise.Texture.C51_same_area_partial' depends on axioms: [propext, Classical.choice, Quot.sound]
'FastNoise.Texture.C51_export_moved' depends on axioms: [propext, Classical.choice, Quot.sound]
'FastNoise.Texture.C51_wide_header' depends on axioms: [propext, Classical.choice, Quot.sound]
'FastNoise.Texture.C51_zero_size_hangs' depends on axioms: [propext, Classical.choice, Quot.sound]
'FastNoise.Texture.C51_drag' depends on axioms: [propext, Classical.choice, Quot.sound]
'FastNoise.Texture.C51_zoom' depends on axioms: [propext, Classical.choice, Quot.sound]
'FastNoise.Texture.C51_drag_right' depends on axioms: [propext, Classical.choice, Quot.sound]
'FastNoise.Texture.C52_no_overwrite_partial' depends on axioms: [propext, Classical.choice, Quot.sound]
'FastNoise.Texture.C52_exports_in_a_row' depends on axioms: [propext, Classical.choice, Quot.sound]
'FastNoise.Texture.C52_overwrites' depends on axioms: [propext, Classical.choice, Quot.sound]
'FastNoise.Texture.C52_long_name_crash' depends on axioms: [propext, Classical.choice, Quot.sound]
'FastNoise.Texture.C52_failed_export_blocks' depends on axioms: [propext, Classical.choice, Quot.sound]
'FastNoise.Texture.C52_menu_name' depends on axioms: [propext, Quot.sound]
'FastNoise.Prefs.C53_texture' depends on axioms: [propext, Classical.choice, Quot.sound]
'FastNoise.Prefs.C53_texture_exact' depends on axioms: [propext, Classical.choice, Quot.sound]
'FastNoise.Prefs.C53_texture_again' depends on axioms: [propext, Classical.choice, Quot.sound]
'FastNoise.Prefs.C53_mesh' depends on axioms: [propext, Classical.choice, Quot.sound]
'FastNoise.Prefs.C53_mesh_again' depends on axioms: [propext, Classical.choice, Quot.sound]
'FastNoise.Prefs.C53_graph_undisturbed' depends on axioms: [propext, Classical.choice, Quot.sound]
'FastNoise.Prefs.C53_texture_line' depends on axioms: [propext, Classical.choice, Quot.sound]
'FastNoise.Prefs.C53_mesh_line' depends on axioms: [propext, Classical.choice, Quot.sound]
'FastNoise.Prefs.C53_texture_crash' depends on axioms: [propext, Classical.choice, Quot.sound]
'FastNoise.Prefs.C53_mesh_crash' depends on axioms: [propext, Classical.choice, Quot.sound]
'FastNoise.Prefs.C53_colour_not_shown' depends on axioms: [propext, Classical.choice, Quot.sound]
'FastNoise.Prefs.C53_bad_gen_type' depends on axioms: [propext, Classical.choice, Quot.sound]
'FastNoise.RT.C54_text_iff' depends on axioms: [propext, Classical.choice, Quot.sound]
'FastNoise.RT.C54_reencode' depends on axioms: [propext, Classical.choice, Quot.sound]
'FastNoise.Demo.C54_demo_trees' depends on axioms: [propext, Classical.choice, Quot.sound]
'FastNoise.Editor.C55_current_partial' depends on axioms: [propext, Classical.choice, Quot.sound]
'FastNoise.Editor.C55_copied_partial' depends on axioms: [propext, Classical.choice, Quot.sound]
'FastNoise.Editor.C55_preview_partial' depends on axioms: [propext, Classical.choice, Quot.sound]
'FastNoise.Editor.C55_seen_partial' depends on axioms: [propext, Classical.choice, Quot.sound]
'FastNoise.Editor.C55_same_graph' depends on axioms: [propext, Classical.choice, Quot.sound]
'FastNoise.Editor.C55_received' depends on axioms: [propext, Classical.choice, Quot.sound]
'FastNoise.Editor.C55_click_partial' depends on axioms: [propext, Classical.choice, Quot.sound]
'FastNoise.Editor.C55_cycle_stale' depends on axioms: [propext, Classical.choice, Quot.sound]
'FastNoise.Editor.C55_convert_stale' depends on axioms: [propext, Classical.choice, Quot.sound]
'FastNoise.Editor.C55_clear_keeps_picture' depends on axioms: [propext, Classical.choice, Quot.sound]
'FastNoise.Editor.C56_marked' depends on axioms: [propext, Classical.choice, Quot.sound]
'FastNoise.Editor.C56_nothing_lost' depends on axioms: [propext, Classical.choice, Quot.sound]
'FastNoise.Editor.C56_stays_due' depends on axioms: [propext, Classical.choice, Quot.sound]
'FastNoise.Editor.C56_written' depends on axioms: [propext, Classical.choice, Quot.sound]
'FastNoise.Editor.C56_closed' depends on axioms: [propext, Classical.choice, Quot.sound]
'FastNoise.Editor.C56_dies' depends on axioms: [propext, Classical.choice, Quot.sound]
'FastNoise.Editor.C56_command_line' depends on axioms: [propext, Classical.choice, Quot.sound]
'FastNoise.Editor.C56_deleted_returns' depends on axioms: [propext, Classical.choice, Quot.sound]
'FastNoise.Editor.C56_cleared_returns' depends on axioms: [propext, Classical.choice, Quot.sound]
'FastNoise.Editor.C56_moved_forgotten' depends on axioms: [propext, Classical.choice, Quot.sound]
'FastNoise.Editor.C56_tuned' depends on axioms: [propext, Classical.choice, Quot.sound]
'FastNoise.Editor.C56_moved' depends on axioms: [propext, Classical.choice, Quot.sound]
'FastNoise.CGen.C57_grid2D' depends on axioms: [propext, Classical.choice, Quot.sound]
'FastNoise.CGen.C57_grid3D' depends on axioms: [propext, Classical.choice, Quot.sound]
'FastNoise.CGen.C57_grid4D' depends on axioms: [propext, Classical.choice, Quot.sound]
'FastNoise.CGen.C57_tileable2D' depends on axioms: [propext, Classical.choice, Quot.sound]
'FastNoise.CGen.C57_positions2D' depends on axioms: [propext, Classical.choice, Quot.sound]
'FastNoise.CGen.C57_positions3D' depends on axioms: [propext, Classical.choice, Quot.sound]
'FastNoise.CGen.C57_positions4D' depends on axioms: [propext, Classical.choice, Quot.sound]
'FastNoise.CGen.C57_in_place_wrong' depends on axioms: [propext, Classical.choice, Quot.sound]
'FastNoise.CGen.C57_in_place_depends_on_width' depends on axioms: [propext, Classical.choice, Quot.sound]
'FastNoise.CGen.C57_null' depends on axioms: [propext, Classical.choice, Quot.sound]
'FastNoise.F32.C58_setters_exact' depends on axioms: [propext, Classical.choice, Quot.sound]
'FastNoise.F32.C58_value_range' depends on axioms: [propext, Classical.choice, Quot.sound]
'FastNoise.F32.C58_white_range' depends on axioms: [propext, Classical.choice, Quot.sound]
'FastNoise.F32.C58_checkerboard' depends on axioms: [propext, Classical.choice, Quot.sound]
'FastNoise.F32.C58_range_overshoot' depends on axioms: [propext, Classical.choice, Quot.sound]
'FastNoise.F32.C58_range_any' depends on axioms: [propext, Classical.choice, Quot.sound]
'FastNoise.F32.C58_white_same_at_every_level' depends on axioms: [propext, Classical.choice, Quot.sound]
'FastNoise.F32.C58_white_differs' depends on axioms: [propext, Classical.choice, Quot.sound]
'FastNoise.F32.C58_value_lattice' depends on axioms: [propext, Classical.choice, Quot.sound]
'FastNoise.F32.C58_value_near_exact' depends on axioms: [propext, Classical.choice, Quot.sound]
'FastNoise.F32.C58_scaled_position' depends on axioms: [propext, Classical.choice, Quot.sound]
'FastNoise.F32.C59_grid2D' depends on axioms: [propext, Classical.choice, Quot.sound]
'FastNoise.F32.C59_grid3D' depends on axioms: [propext, Classical.choice, Quot.sound]
'FastNoise.F32.C59_grid4D' depends on axioms: [propext, Classical.choice, Quot.sound]
'FastNoise.F32.C59_positions_exact' depends on axioms: [propext, Classical.choice, Quot.sound]
'FastNoise.F32.C59_positions_monotone' depends on axioms: [propext, Classical.choice, Quot.sound]
'FastNoise.F32.C59_positions_near' depends on axioms: [propext, Classical.choice, Quot.sound]
'FastNoise.F32.C59_pieces2D' depends on axioms: [propext, Classical.choice, Quot.sound]
'FastNoise.F32.C59_pieces3D' depends on axioms: [propext, Classical.choice, Quot.sound]
'FastNoise.F32.C59_pieces4D' depends on axioms: [propext, Classical.choice, Quot.sound]
'FastNoise.F32.C59_tiles_do_not_fit' depends on axioms: [propext, Classical.choice, Quot.sound]
'FastNoise.F32.C59_levels_differ' depends on axioms: [propext, Classical.choice, Quot.sound]
'FastNoise.F32.C59_samples_collapse' depends on axioms: [propext, Classical.choice, Quot.sound]
'FastNoise.Simplex.C60_simplex_range' depends on axioms: [propext, Classical.choice, Quot.sound]
'FastNoise.Simplex.C60_super_range' depends on axioms: [propext, Classical.choice, Quot.sound]
'FastNoise.Simplex.C60_super4_range_partial' depends on axioms: [propext, Classical.choice, Quot.sound]
'FastNoise.Simplex.C60_super4_leaves_range' depends on axioms: [propext, Classical.choice, Quot.sound]
'FastNoise.F32.C61_perlin_near_exact' depends on axioms: [propext, Classical.choice, Quot.sound]
'FastNoise.F32.C61_perlin_levels' depends on axioms: [propext, Classical.choice, Quot.sound]
'FastNoise.F32.C61_value_levels' depends on axioms: [propext, Classical.choice, Quot.sound]
'FastNoise.F32.C61_perlin_range_partial' depends on axioms: [propext, Classical.choice, Quot.sound]
'FastNoise.F32.C61_perlin_lattice' depends on axioms: [propext, Classical.choice, Quot.sound]
'FastNoise.WarpRange.C62_simplex' depends on axioms: [propext, Classical.choice, Quot.sound]
'FastNoise.WarpRange.C62_super' depends on axioms: [propext, Classical.choice, Quot.sound]
'FastNoise.WarpRange.C62_simplex3_outer_partial' depends on axioms: [propext, Classical.choice, Quot.sound]
'FastNoise.WarpRange.C62_super4_outer_partial' depends on axioms: [propext, Classical.choice, Quot.sound]
'FastNoise.WarpRange.C62_orthogonal4_partial' depends on axioms: [propext, Classical.choice, Quot.sound]
'FastNoise.WarpRange.C62_simplex3_exceeds' depends on axioms: [propext, Classical.choice, Quot.sound]
'FastNoise.WarpRange.C62_simplex4_exceeds' depends on axioms: [propext, Classical.choice, Quot.sound]
'FastNoise.F32.C63_operators' depends on axioms: [propext, Classical.choice, Quot.sound]
'FastNoise.F32.C63_subtract_sign' depends on axioms: [propext, Classical.choice, Quot.sound]
'FastNoise.F32.C63_operator_error' depends on axioms: [propext, Classical.choice, Quot.sound]
'FastNoise.F32.C63_operators_monotone' depends on axioms: [propext, Classical.choice, Quot.sound]
'FastNoise.F32.C63_not_inverse' depends on axioms: [propext, Classical.choice, Quot.sound]
'FastNoise.F32.C63_powInt' depends on axioms: [propext, Classical.choice, Quot.sound]
'FastNoise.F32.C63_powInt_error' depends on axioms: [propext, Classical.choice, Quot.sound]
'FastNoise.F32.C63_minSmooth' depends on axioms: [propext, Classical.choice, Quot.sound]
'FastNoise.F32.C63_maxSmooth' depends on axioms: [propext, Classical.choice, Quot.sound]
'FastNoise.F32.C63_fade_start' depends on axioms: [propext, Classical.choice, Quot.sound]
'FastNoise.F32.C63_fade_end_partial' depends on axioms: [propext, Classical.choice, Quot.sound]
'FastNoise.F32.C63_fade_range' depends on axioms: [propext, Classical.choice, Quot.sound]
'FastNoise.F32.C63_fade_quintic_range_partial' depends on axioms: [propext, Classical.choice, Quot.sound]
'FastNoise.F32.C63_fade_monotone' depends on axioms: [propext, Classical.choice, Quot.sound]
'FastNoise.F32.C63_fade_end_misses' depends on axioms: [propext, Classical.choice, Quot.sound]
'FastNoise.F32.C63_fade_quintic_exceeds' depends on axioms: [propext, Classical.choice, Quot.sound]
'FastNoise.F32.C63_remap' depends on axioms: [propext, Classical.choice, Quot.sound]
'FastNoise.F32.C63_remap_error' depends on axioms: [propext, Classical.choice, Quot.sound]
'FastNoise.F32.C63_remap_end_misses' depends on axioms: [propext, Classical.choice, Quot.sound]
'FastNoise.F32.C63_rgba8' depends on axioms: [propext, Classical.choice, Quot.sound]
'FastNoise.F32.C63_terrace' depends on axioms: [propext, Classical.choice, Quot.sound]
'FastNoise.F32.C63_terrace_fraction_exceeds' depends on axioms: [propext, Classical.choice, Quot.sound]
'FastNoise.F32.C63_pingPong_partial' depends on axioms: [propext, Classical.choice, Quot.sound]
'FastNoise.F32.C63_pingPong_negative' depends on axioms: [propext, Classical.choice, Quot.sound]
'FastNoise.F32.C64_one_octave' depends on axioms: [propext, Classical.choice, Quot.sound]
'FastNoise.F32.C64_level_independent' depends on axioms: [propext, Classical.choice, Quot.sound]
'FastNoise.F32.C64_bounded_by_peak' depends on axioms: [propext, Classical.choice, Quot.sound]
'FastNoise.F32.C64_peak' depends on axioms: [propext, Classical.choice, Quot.sound]
'FastNoise.F32.C64_fbm_error' depends on axioms: [propext, Classical.choice, Quot.sound]
'FastNoise.F32.C64_ridged_error' depends on axioms: [propext, Classical.choice, Quot.sound]
'FastNoise.F32.C64_positions' depends on axioms: [propext, Classical.choice, Quot.sound]
'FastNoise.Wiki.C65_build' depends on axioms: [propext, Quot.sound]
'FastNoise.Wiki.C65_build_shipped' depends on axioms: [propext, Quot.sound]
'FastNoise.Wiki.C65_order_needed' depends on axioms: [propext, Quot.sound]
'FastNoise.Wiki.C65_description' depends on axioms: [propext, Classical.choice, Quot.sound]
'FastNoise.Wiki.C65_description_injective' depends on axioms: [propext, Classical.choice, Quot.sound]
'FastNoise.Wiki.C65_pages' depends on axioms: [propext, Classical.choice, Quot.sound]
'FastNoise.Wiki.C65_group_needed' depends on axioms: [propext]
'FastNoise.Wiki.C65_pages_shipped' depends on axioms: [propext, Classical.choice, Quot.sound]
'FastNoise.Wiki.C65_titles_distinct' depends on axioms: [propext, Classical.choice, Quot.sound]
'FastNoise.Wiki.C65_headings_defined' depends on axioms: [propext, Classical.choice, Quot.sound]
'FastNoise.Wiki.C65_headings_distinct_partial' depends on axioms: [propext, Classical.choice, Quot.sound]
'FastNoise.Wiki.C65_same_headings' depends on axioms: [propext, Classical.choice, Quot.sound]
'FastNoise.Wiki.C65_pixel' depends on axioms: [propext, Classical.choice, Quot.sound]
'FastNoise.Wiki.C65_pixel_value' depends on axioms: [propext, Classical.choice, Quot.sound]
'FastNoise.Wiki.C65_pixel_top' depends on axioms: [propext, Classical.choice, Quot.sound]
'FastNoise.Wiki.C65_pixel_top_dark' depends on axioms: [propext, Classical.choice, Quot.sound]
'FastNoise.Wiki.C65_picture' depends on axioms: [propext, Classical.choice, Quot.sound]
'FastNoise.Wiki.C65_defaults_readable' depends on axioms: [propext, Classical.choice, Quot.sound]
'FastNoise.Wiki.C65_command_unterminated' depends on axioms: [propext, Classical.choice, Quot.sound]
'FastNoise.EditorMenu.C66_menu' depends on axioms: [propext, Classical.choice, Quot.sound]
'FastNoise.EditorMenu.C66_every_type' depends on axioms: [propext, Classical.choice, Quot.sound]
'FastNoise.EditorMenu.C66_tests' depends on axioms: [propext, Classical.choice, Quot.sound]
'FastNoise.EditorMenu.C66_no_empty_submenu' depends on axioms: [propext, Classical.choice, Quot.sound]
'FastNoise.EditorMenu.C66_ordered' does not depend on any axioms
'FastNoise.EditorMenu.C66_shipped' depends on axioms: [propext, Classical.choice, Quot.sound]
'FastNoise.EditorMenu.C66_convert_safe' depends on axioms: [propext, Classical.choice, Quot.sound]
'FastNoise.F32.C67_axis_err' depends on axioms: [propext, Classical.choice, Quot.sound]
'FastNoise.F32.C67_levels' depends on axioms: [propext, Classical.choice, Quot.sound]
'FastNoise.F32.C67_zero' depends on axioms: [propext, Classical.choice, Quot.sound]
'FastNoise.F32.C67_zero_amplitude' depends on axioms: [propext, Classical.choice, Quot.sound]
'FastNoise.F32.C67_position' depends on axioms: [propext, Classical.choice, Quot.sound]
'FastNoise.F32.C67_domain_warp' depends on axioms: [propext, Classical.choice, Quot.sound]
'FastNoise.F32.C67_fractal_run' depends on axioms: [propext, Classical.choice, Quot.sound]
'FastNoise.F32.C67_fractal_position' depends on axioms: [propext, Classical.choice, Quot.sound]
'FastNoise.F32.C67_amplitudes' depends on axioms: [propext, Classical.choice, Quot.sound]
'FastNoise.Mesh.C68_blocks' depends on axioms: [propext, Classical.choice, Quot.sound]
'FastNoise.Mesh.C68_heights_partial' depends on axioms: [propext, Classical.choice, Quot.sound]
'FastNoise.Mesh.C68_smooth_partial' depends on axioms: [propext, Classical.choice, Quot.sound]
'FastNoise.Mesh.C68_smooth_vanishes' depends on axioms: [propext, Classical.choice, Quot.sound]
'FastNoise.Mesh.C68_heights_vanish' depends on axioms: [propext, Classical.choice, Quot.sound]
'FastNoise.Mesh.C69_blocks' depends on axioms: [propext, Classical.choice, Quot.sound]
'FastNoise.Mesh.C69_smooth_partial' depends on axioms: [propext, Classical.choice, Quot.sound]
'FastNoise.Mesh.C69_smooth_misses_air' depends on axioms: [propext, Classical.choice, Quot.sound]
'FastNoise.FloatCellular.C70_distances' depends on axioms: [propext, Classical.choice, Quot.sound]
'FastNoise.FloatCellular.C70_value' depends on axioms: [propext, Classical.choice, Quot.sound]
'FastNoise.FloatCellular.C70_lookup' depends on axioms: [propext, Classical.choice, Quot.sound]
'FastNoise.FloatCellular.C70_return' depends on axioms: [propext, Classical.choice, Quot.sound]
'FastNoise.Launch.C71_posix' depends on axioms: [propext, Classical.choice, Quot.sound]
'FastNoise.Launch.C71_windows_partial' depends on axioms: [propext, Classical.choice, Quot.sound]
'FastNoise.Launch.C71_encoded' depends on axioms: [propext, Classical.choice, Quot.sound]
'FastNoise.Launch.C71_which' depends on axioms: [propext, Quot.sound]
'FastNoise.Launch.C71_told_windows' depends on axioms: [propext, Classical.choice, Quot.sound]
'FastNoise.Launch.C71_told_posix_partial' depends on axioms: [propext, Classical.choice, Quot.sound]
'FastNoise.Launch.C71_told_wrong' depends on axioms: [propext, Classical.choice, Quot.sound]
'FastNoise.Launch.C71_windows_space_cut' depends on axioms: [propext, Classical.choice, Quot.sound]
'FastNoise.Camera.C72_view' depends on axioms: [propext, Classical.choice, Quot.sound]
'FastNoise.Camera.C72_heading' depends on axioms: [propext, Classical.choice, Quot.sound]
'FastNoise.Camera.C72_drag' depends on axioms: [propext, Classical.choice, Quot.sound]
'FastNoise.Camera.C72_move' depends on axioms: [propext, Classical.choice, Quot.sound]
'FastNoise.Camera.C72_keys' depends on axioms: [propext, Classical.choice, Quot.sound]
'FastNoise.Camera.C72_held_partial' depends on axioms: [propext, Classical.choice, Quot.sound]
'FastNoise.Camera.C72_stuck' depends on axioms: [propext, Classical.choice, Quot.sound]
'FastNoise.F32.C73_constants' depends on axioms: [propext, Classical.choice, Quot.sound]
'FastNoise.F32.C73_simplex2_near_exact' depends on axioms: [propext, Classical.choice, Quot.sound]
'FastNoise.F32.C73_simplex2_forward' depends on axioms: [propext, Classical.choice, Quot.sound]
'FastNoise.F32.C73_simplex2_levels' depends on axioms: [propext, Classical.choice, Quot.sound]
'FastNoise.F32.C73_simplex2_range' depends on axioms: [propext, Classical.choice, Quot.sound]
'FastNoise.Simplex.C74_simplex2_rate' depends on axioms: [propext, Classical.choice, Quot.sound]
'FastNoise.Simplex.C74_super2_rate' depends on axioms: [propext, Classical.choice, Quot.sound]
'FastNoise.Simplex.C74_super3_rate' depends on axioms: [propext, Classical.choice, Quot.sound]
'FastNoise.Lattice.C75_value_rate' depends on axioms: [propext, Classical.choice, Quot.sound]
'FastNoise.Lattice.C75_perlin_rate' depends on axioms: [propext, Classical.choice, Quot.sound]
'FastNoise.Lattice.C75_value_forward' depends on axioms: [propext, Classical.choice, Quot.sound]
'FastNoise.Lattice.C75_perlin_forward' depends on axioms: [propext, Classical.choice, Quot.sound]
'FastNoise.Rate.C76_sources' depends on axioms: [propext, Classical.choice, Quot.sound]
'FastNoise.Rate.C76_simplex' depends on axioms: [propext, Classical.choice, Quot.sound]
'FastNoise.Rate.C76_blends' depends on axioms: [propext, Classical.choice, Quot.sound]
'FastNoise.Rate.C76_smooth' depends on axioms: [propext, Classical.choice, Quot.sound]
'FastNoise.Rate.C76_fade' depends on axioms: [propext, Classical.choice, Quot.sound]
'FastNoise.Rate.C76_modifiers' depends on axioms: [propext, Classical.choice, Quot.sound]
'FastNoise.Rate.C76_domain' depends on axioms: [propext, Classical.choice, Quot.sound]
'FastNoise.Rate.C76_remove' depends on axioms: [propext, Classical.choice, Quot.sound]
'FastNoise.Rate.C76_offset' depends on axioms: [propext, Classical.choice, Quot.sound]
'FastNoise.Rate.C76_fbm' depends on axioms: [propext, Classical.choice, Quot.sound]
'FastNoise.Rate.C76_ridged' depends on axioms: [propext, Classical.choice, Quot.sound]
'FastNoise.Rate.C76_fbm_weighted' depends on axioms: [propext, Classical.choice, Quot.sound]
'FastNoise.Rate.C76_ridged_weighted' depends on axioms: [propext, Classical.choice, Quot.sound]
'FastNoise.Rate.C76_gradient_warp' depends on axioms: [propext, Classical.choice, Quot.sound]
'FastNoise.Rate.C76_sine' depends on axioms: [propext, Classical.choice, Quot.sound]
'FastNoise.Rate.C76_gradient' depends on axioms: [propext, Classical.choice, Quot.sound]
'FastNoise.Rate.C76_distance' depends on axioms: [propext, Classical.choice, Quot.sound]
'FastNoise.Rate.C76_rotate' depends on axioms: [propext, Classical.choice, Quot.sound]
'FastNoise.Rate.C76_rotate_plane' depends on axioms: [propext, Classical.choice, Quot.sound]
'FastNoise.Rate.C76_warp_independent' depends on axioms: [propext, Classical.choice, Quot.sound]
'FastNoise.Rate.C76_warp_progressive' depends on axioms: [propext, Classical.choice, Quot.sound]
'FastNoise.Cellular.C77_nearest_partial' depends on axioms: [propext, Classical.choice, Quot.sound]
'FastNoise.Cellular.C77_nearest_squared_partial' depends on axioms: [propext, Classical.choice, Quot.sound]
'FastNoise.Cellular.C77_in_range' depends on axioms: [propext, Classical.choice, Quot.sound]
'FastNoise.Cellular.C77_rate_partial' depends on axioms: [propext, Classical.choice, Quot.sound]
'FastNoise.Cellular.C77_rate_squared_partial' depends on axioms: [propext, Classical.choice, Quot.sound]
'FastNoise.Zoom.C78_noises' depends on axioms: [propext, Classical.choice, Quot.sound]
'FastNoise.Zoom.C78_gradient' depends on axioms: [propext, Classical.choice, Quot.sound]
'FastNoise.Zoom.C78_distance' depends on axioms: [propext, Classical.choice, Quot.sound]
'FastNoise.Zoom.C78_cellular' depends on axioms: [propext, Classical.choice, Quot.sound]
'FastNoise.Zoom.C78_values' depends on axioms: [propext, Classical.choice, Quot.sound]
'FastNoise.Zoom.C78_ranges' depends on axioms: [propext, Classical.choice, Quot.sound]
'FastNoise.Zoom.C78_domain' depends on axioms: [propext, Classical.choice, Quot.sound]
'FastNoise.Zoom.C78_fractals' depends on axioms: [propext, Classical.choice, Quot.sound]
'FastNoise.Zoom.C78_proportional' depends on axioms: [propext, Classical.choice, Quot.sound]
'FastNoise.Zoom.C78_warp' depends on axioms: [propext, Classical.choice, Quot.sound]
'FastNoise.Zoom.C78_warp_fractals' depends on axioms: [propext, Classical.choice, Quot.sound]
'FastNoise.Zoom.C78_domainScale' depends on axioms: [propext, Classical.choice, Quot.sound]
'FastNoise.SeedShift.C79_node' depends on axioms: [propext, Classical.choice, Quot.sound]
'FastNoise.SeedShift.C79_one_node' depends on axioms: [propext, Classical.choice, Quot.sound]
'FastNoise.SeedShift.C79_noises' depends on axioms: [propext, Classical.choice, Quot.sound]
'FastNoise.SeedShift.C79_seedless' depends on axioms: [propext, Classical.choice, Quot.sound]
'FastNoise.SeedShift.C79_cellular' depends on axioms: [propext, Classical.choice, Quot.sound]
'FastNoise.SeedShift.C79_values' depends on axioms: [propext, Classical.choice, Quot.sound]
'FastNoise.SeedShift.C79_ranges' depends on axioms: [propext, Classical.choice, Quot.sound]
'FastNoise.SeedShift.C79_domain' depends on axioms: [propext, Classical.choice, Quot.sound]
'FastNoise.SeedShift.C79_fractals' depends on axioms: [propext, Classical.choice, Quot.sound]
'FastNoise.SeedShift.C79_warp_functions' depends on axioms: [propext, Classical.choice, Quot.sound]
'FastNoise.SeedShift.C79_warp_partial' depends on axioms: [propext, Classical.choice, Quot.sound]
'FastNoise.SeedShift.C79_warp_fractals' depends on axioms: [propext, Classical.choice, Quot.sound]
'FastNoise.TreeLaw.C80_fbm' depends on axioms: [propext, Classical.choice, Quot.sound]
'FastNoise.TreeLaw.C80_ridged' depends on axioms: [propext, Classical.choice, Quot.sound]
'FastNoise.TreeLaw.C80_progressive' depends on axioms: [propext, Classical.choice, Quot.sound]
'FastNoise.TreeLaw.C80_neutral' depends on axioms: [propext, Classical.choice, Quot.sound]
'FastNoise.TreeLaw.C80_remap' depends on axioms: [propext, Classical.choice, Quot.sound]
'FastNoise.TreeLaw.C80_domain' depends on axioms: [propext, Classical.choice, Quot.sound]
'FastNoise.TreeLaw.C80_dimensions' depends on axioms: [propext, Classical.choice, Quot.sound]
'FastNoise.TreeLaw.C80_yaw' depends on axioms: [propext, Classical.choice, Quot.sound]
'FastNoise.TreeLaw.C80_blends' depends on axioms: [propext, Classical.choice, Quot.sound] 
