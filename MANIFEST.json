{
 "claims": [
  {
   "property": "C01",
   "status": "partial",
   "theorems": [
    "FastNoise.Base64.C01_roundtrip_iff",
    "FastNoise.Base64.C01_roundtrip_partial",
    "FastNoise.Base64.C01_roundtrip_fails",
    "FastNoise.Base64.C01_short_input_ub",
    "FastNoise.Base64.C01_standard_text_accepted"
   ],
   "note": "Code violates the full claim for long zero runs; exact characterisation proved."
  },
  {
   "property": "C02",
   "status": "proved",
   "theorems": [
    "FastNoise.Base64.C02_decode_safe"
   ],
   "note": ""
  },
  {
   "property": "C03",
   "status": "proved",
   "theorems": [
    "FastNoise.RT.C03_text_decodes",
    "FastNoise.RT.C03_fixup"
   ],
   "note": "fixUp off (acyclic graphs with valid pointers) and on (any graph whose nodes have metadata)"
  },
  {
   "property": "C04",
   "status": "proved",
   "theorems": [
    "FastNoise.RT.C04_roundtrip",
    "FastNoise.RT.C04_linked_constant_lost"
   ],
   "note": "graphs of at most 65536 nodes (16 bit ids of the format)"
  },
  {
   "property": "C05",
   "status": "partial",
   "theorems": [
    "FastNoise.RT.C05_generator_matches_partial",
    "FastNoise.RT.C05_shipped_defaults",
    "FastNoise.RT.C05_distance_to_point_differs",
    "FastNoise.RT.C05_float_compare"
   ],
   "note": "full claim false: DistanceToPoint class default differs from metadata default"
  },
  {
   "property": "C06",
   "status": "proved",
   "theorems": [
    "FastNoise.Deser.C06_decode_nodedata_total",
    "FastNoise.Deser.C06_decode_generator_total",
    "FastNoise.Deser.C06_text_total",
    "FastNoise.Demo.C06_demo_trees"
   ],
   "note": "Every byte vector, every registry; UB, non-termination are distinct outcomes of the model and are excluded. C++ stack exhaustion by deep nesting is not modelled."
  },
  {
   "property": "C07",
   "status": "proved",
   "theorems": [
    "FastNoise.Deser.C07_nodedata_acyclic",
    "FastNoise.Deser.C07_generator_acyclic"
   ],
   "note": ""
  },
  {
   "property": "C08",
   "status": "partial",
   "theorems": [
    "FastNoise.Deser.C08_sources_typed_partial",
    "FastNoise.Deser.C08_warp_fractal_source",
    "FastNoise.Deser.C08_missing_source"
   ],
   "note": "Type correctness is proved for every input; presence of required sources is violated by the code (text DQQ=), proved as C08_missing_source."
  },
  {
   "property": "C09",
   "status": "proved",
   "theorems": [
    "FastNoise.RT.C09_serialise_total_iff",
    "FastNoise.RT.C09_cycle_diverges"
   ],
   "note": "acyclic graphs with valid pointers"
  },
  {
   "property": "C10",
   "status": "partial",
   "theorems": [
    "FastNoise.RT.C10_fixup_partial",
    "FastNoise.RT.C10_fixup_harmless",
    "FastNoise.RT.C10_failure_keeps_cycle",
    "FastNoise.RT.C10_null_metadata_ub"
   ],
   "note": "termination, safety, only-cycle/wrong-kind links removed, acyclic on success; on failure the code can leave cycles and derefs null metadata (witnesses)"
  },
  {
   "property": "C11",
   "status": "proved",
   "theorems": [
    "FastNoise.MetaVec.C11_lists_exact",
    "FastNoise.MetaVec.C11_shipped",
    "FastNoise.MetaVec.C11_reserved_sizes",
    "FastNoise.MetaVec.C11_limit",
    "FastNoise.MetaVec.C11_groups_must_be_together",
    "FastNoise.MetaVec.C11_members_unambiguous"
   ],
   "note": "Shared global metadata arrays; Registrable is checked for the shipped 47 nodes (C11_shipped)."
  },
  {
   "property": "C12",
   "status": "partial",
   "theorems": [
    "FastNoise.MetaVec.C12_getters_partial",
    "FastNoise.MetaVec.C12_id_aliases",
    "FastNoise.MetaVec.C12_setters",
    "FastNoise.MetaVec.C12_hybrid_null_does_not_revert",
    "FastNoise.MetaVec.C12_hybrid_float_disconnects"
   ],
   "note": "Getters are exact for ids reduced to 8 bits: an id outside 0..255 aliases another node instead of failing (C12_id_aliases); header documentation of hybrid setters contradicted (C12_hybrid_*). Setters fully specified."
  },
  {
   "property": "C13",
   "status": "proved",
   "theorems": [
    "FastNoise.RefCount.C13_no_use_after_free",
    "FastNoise.RefCount.C13_alive_iff_referenced",
    "FastNoise.RefCount.C13_destroyed_when_last_reference_goes",
    "FastNoise.RefCount.C13_at_most_once",
    "FastNoise.RefCount.C13_use_count",
    "FastNoise.RefCount.C13_quiet_no_leak",
    "FastNoise.RefCount.C13_destruction_terminates",
    "FastNoise.RefCount.C13_cycle_leaks",
    "FastNoise.RefCount.C13_assign_from_own_member_is_use_after_free"
   ],
   "note": "sequentially consistent interleavings; the relaxed memory orders of the code (no acquire before the destructor) are outside the model. Clients obey the usual rule of no data race on one handle. Witnesses for cycles and for p = p->member."
  },
  {
   "property": "C14",
   "status": "partial",
   "theorems": [
    "FastNoise.Pool.C14_blocks_disjoint_aligned_inside",
    "FastNoise.Pool.C14_allocate_returns_block",
    "FastNoise.Pool.C14_free_finds_its_pool",
    "FastNoise.Pool.C14_free_removes_only_its_block",
    "FastNoise.Pool.C14_no_failure_before_a_pool_is_removed",
    "FastNoise.Pool.C14_serial_calls_never_fail",
    "FastNoise.Pool.C14_use_after_free_race",
    "FastNoise.Pool.C14_oversized_request",
    "FastNoise.Pool.C14_small_pool_size",
    "FastNoise.Pool.C14_one_byte_request",
    "FastNoise.Pool.C14_mutex"
   ],
   "note": "All interleavings: live blocks are disjoint, aligned, inside a live pool; Free identifies the right pool and removes only its block; no failure before the first pool removal, and never for non-overlapping calls. Missing: overlapping calls are not safe once a pool is removed (use-after-free race exhibited); contract on sizes needed (oversized, 1-byte requests and tiny pool sizes fail: witnesses). The mutex is held exactly by the one thread inside the critical section and is always released."
  },
  {
   "property": "C15",
   "status": "proved",
   "theorems": [
    "FastNoise.Grid.C15_C16_grid2D",
    "FastNoise.Grid.C15_C16_grid3D",
    "FastNoise.Grid.C15_C16_grid4D",
    "FastNoise.Grid.C15_width_independent2D",
    "FastNoise.Grid.C15_width_independent3D",
    "FastNoise.Grid.C15_width_independent4D",
    "FastNoise.Grid.C15_single2D",
    "FastNoise.Grid.C15_single3D",
    "FastNoise.Grid.C15_single4D"
   ],
   "note": "All counts >= 1 whose product fits int, all register widths; int32 lane wrap modelled; float ops abstract (bit exact)."
  },
  {
   "property": "C16",
   "status": "proved",
   "theorems": [
    "FastNoise.Grid.C15_C16_grid2D",
    "FastNoise.Grid.C15_C16_grid3D",
    "FastNoise.Grid.C15_C16_grid4D"
   ],
   "note": "Outputs not NaN (linear order)."
  },
  {
   "property": "C17",
   "status": "proved",
   "theorems": [
    "FastNoise.Grid.C17_positions",
    "FastNoise.Grid.C17_width_independent"
   ],
   "note": ""
  },
  {
   "property": "C18",
   "status": "partial",
   "theorems": [
    "FastNoise.Grid.C18_positions",
    "FastNoise.Tile.C18_wraps_partial",
    "FastNoise.Tile.C18_exact_constant_wraps",
    "FastNoise.Tile.C18_seam_not_exact",
    "FastNoise.Tile.C18_equal_spacing",
    "FastNoise.Tile.C18_arc_is_step",
    "FastNoise.Tile.C18_on_circle",
    "FastNoise.Tile.C18_full_turn"
   ],
   "note": "Exact wrap fails because the literal 0.15915493667f is not 1/(2 pi): bounded seam error proved, negation proved. Over the reals."
  },
  {
   "property": "C19",
   "status": "partial",
   "theorems": [
    "FastNoise.Cache.C19_cache_transparent_partial",
    "FastNoise.Cache.C19_not_nested_partial",
    "FastNoise.Cache.C19_nested_caches_wrong",
    "FastNoise.Cache.C19_stale_after_change",
    "FastNoise.Cache.C19_negative_zero"
   ],
   "note": "Transparent for every query history over trees whose caches respect a nesting/level discipline (no cache nested in another cache that is also queried outside) and stable sources; counterexamples (nested shared caches, stale after source change, -0.0 vs 0.0) are proved as theorems since the code violates the full statement."
  },
  {
   "property": "C20",
   "status": "partial",
   "theorems": [
    "FastNoise.Ipc.C20_implements_mailbox",
    "FastNoise.Ipc.C20_sent_message_is_polled_next",
    "FastNoise.Ipc.C20_only_sent_messages",
    "FastNoise.Ipc.C20_at_most_once",
    "FastNoise.Ipc.C20_never_beyond_buffer",
    "FastNoise.Ipc.C20_oversized_refused",
    "FastNoise.Ipc.C20_unread_overwritten",
    "FastNoise.Ipc.C20_send_discards_unread",
    "FastNoise.Ipc.C20_small_buffer_loses",
    "FastNoise.Ipc.C20_counter_wraps",
    "FastNoise.Ipc.C20_release_disconnects",
    "FastNoise.Ipc.C20_torn_read",
    "FastNoise.Ipc.C20_unterminated_read",
    "FastNoise.Ipc.C20_uninterrupted_delivery"
   ],
   "note": "Atomic calls: refinement to a mailbox spec, delivery of the newest message, nothing invented, at most once, oversized refused. All byte-level interleavings: memory safety of poll. Missing: delivery of every message (overwritten, discarded, 256 wrap, small buffer, unlink: witnesses) and intact text for overlapping calls (torn/unterminated read witnesses)."
  },
  {
   "property": "C21",
   "status": "proved",
   "theorems": [
    "FastNoise.Queues.C21_fifo_lossless",
    "FastNoise.Queues.C21_fifo_with_clear",
    "FastNoise.Queues.C21_clear_discards",
    "FastNoise.Queues.C21_no_lost_wakeup",
    "FastNoise.Queues.C21_kill",
    "FastNoise.Queues.C21_empty_job_not_built"
   ],
   "note": "queue model over every interleaving of lock-protected steps; fairness of the OS scheduler not modelled"
  },
  {
   "property": "C22",
   "status": "partial",
   "theorems": [
    "FastNoise.Queues.C22_fifo",
    "FastNoise.Queues.C22_current_only_partial",
    "FastNoise.Queues.C22_stale_without_drain",
    "FastNoise.Queues.C22_version_wraps",
    "FastNoise.Queues.C22_preview_never_stale",
    "FastNoise.Queues.C22_version_ticket",
    "FastNoise.Queues.C22_current_result_kept"
   ],
   "note": "Holds for the preview's own usage (drain before push, fewer than 2^32 regenerations); as a property of the bare queue it is false: witness C22_stale_without_drain (Pop does not check versions, a result of the old version already in the queue is returned) and the version counter wraps (C22_version_wraps)"
  },
  {
   "property": "C23",
   "status": "partial",
   "theorems": [
    "FastNoise.Hybrid.C23_last_write_wins",
    "FastNoise.Hybrid.C23_inputs_independent",
    "FastNoise.Hybrid.C23_rejected_iff",
    "FastNoise.Hybrid.C23_terrace_smoothness",
    "FastNoise.Hybrid.C23_level_mismatch_ignored",
    "FastNoise.Hybrid.C23_api_null_does_not_revert",
    "FastNoise.Hybrid.C23_api_float_disconnects"
   ],
   "note": "Last-write-wins proved for the C++ API with sources of the same SIMD level (null source reverts to last constant); sources of another level are silently ignored in release builds and the C API deviates (null does not revert, float disconnects), each shown as a theorem."
  },
  {
   "property": "C24",
   "status": "proved",
   "theorems": [
    "FastNoise.Basic.C24_output_range",
    "FastNoise.Basic.C24_order_independent",
    "FastNoise.Basic.C24_float_loses_max",
    "FastNoise.Basic.C24_rounding"
   ],
   "note": "Exact arithmetic; C24_float_loses_max shows where 24 bit rounding loses the maximum."
  },
  {
   "property": "C25",
   "status": "proved",
   "theorems": [
    "FastNoise.Hash.C25_axis_injective",
    "FastNoise.Hash.C25_seed_injective",
    "FastNoise.Hash.C25_seed_bijective",
    "FastNoise.Hash.C25_mix_collisions",
    "FastNoise.Hash.C25_mix_nonneg",
    "FastNoise.Hash.C25_octave_seeds_distinct",
    "FastNoise.Hash.C25_value_collision",
    "FastNoise.Hash.C25_value_zero"
   ],
   "note": "Bit-exact 32 bit model."
  },
  {
   "property": "C26",
   "status": "proved",
   "theorems": [
    "FastNoise.Gradient.C26_perlin",
    "FastNoise.Gradient.C26_simplex",
    "FastNoise.Gradient.C26_levels_agree",
    "FastNoise.Gradient.C26_low_bits",
    "FastNoise.Gradient.C26_all_selected",
    "FastNoise.Gradient.C26_lengths",
    "FastNoise.Gradient.C26_hash31_needed"
   ],
   "note": "All compile-time variants of all five functions, bit-exact in the hash, offsets and products over the reals (no rounding)."
  },
  {
   "property": "C27",
   "status": "partial",
   "theorems": [
    "FastNoise.Cellular.C27_index_clamped",
    "FastNoise.Cellular.C27_value",
    "FastNoise.Cellular.C27_distance",
    "FastNoise.Cellular.C27_distance_combined_partial",
    "FastNoise.Cellular.C27_equal_indices_root_twice",
    "FastNoise.Cellular.C27_zero_distance_nan",
    "FastNoise.Cellular.C27_nan_reachable",
    "FastNoise.Cellular.C27_lookup"
   ],
   "note": "Euclidean CellularDistance: root taken twice for equal indices (C27_equal_indices_root_twice), NaN at zero distance (C27_nan_reachable); everything else proved"
  },
  {
   "property": "C28",
   "status": "proved",
   "theorems": [
    "FastNoise.Fractal.C28_fbm",
    "FastNoise.Fractal.C28_ridged",
    "FastNoise.Fractal.C28_unweighted",
    "FastNoise.Fractal.C28_one_octave",
    "FastNoise.Fractal.C28_octave_seeds_distinct",
    "FastNoise.Fractal.C28_bounded",
    "FastNoise.Fractal.C28_not_normalised"
   ],
   "note": "FBm and ridged equal the documented sums for every source, octave count, gain, lacunarity and weighted strength; bounded by the sum of |gain|^i; one octave is the source. Real-valued lanes."
  },
  {
   "property": "C29",
   "status": "partial",
   "theorems": [
    "FastNoise.Fractal.C29_standalone_partial",
    "FastNoise.Fractal.C29_axis_bound",
    "FastNoise.Fractal.C29_euclidean_partial",
    "FastNoise.Fractal.C29_zero_amplitude",
    "FastNoise.Fractal.C29_progressive",
    "FastNoise.Fractal.C29_independent",
    "FastNoise.Fractal.C29_runs_exist",
    "FastNoise.Fractal.C29_run_unique",
    "FastNoise.Fractal.C29_amplitudes",
    "FastNoise.Fractal.C29_total_axis_bound",
    "FastNoise.Fractal.C29_unweighted",
    "FastNoise.Fractal.C29_one_octave",
    "FastNoise.Fractal.C29_exceeds_documented_distance",
    "FastNoise.Fractal.C29_standalone_differs_from_fractal",
    "FastNoise.Fractal.C29_lattice",
    "FastNoise.Fractal.C29_continuous"
   ],
   "note": "Seed passed on unmodified, composition of octaves, per-axis bound and continuity are proved for every input. Two parts are false of the code and refuted: the Euclidean maximum distance (exceeded by sqrt n) and the seed offset, added twice stand-alone. DomainWarpSimplex: see C45."
  },
  {
   "property": "C30",
   "status": "partial",
   "theorems": [
    "FastNoise.Modifiers.C30_remap",
    "FastNoise.Modifiers.C30_remap_ends",
    "FastNoise.Modifiers.C30_remap_clamped",
    "FastNoise.Modifiers.C30_remap_clamp_inverted",
    "FastNoise.Modifiers.C30_pingpong",
    "FastNoise.Modifiers.C30_pingpong_reflects_at_zero",
    "FastNoise.Modifiers.C30_terrace",
    "FastNoise.Modifiers.C30_terrace_steps",
    "FastNoise.Modifiers.C30_terrace_smooth_between",
    "FastNoise.Modifiers.C30_terrace_monotone",
    "FastNoise.Modifiers.C30_terrace_lipschitz",
    "FastNoise.Modifiers.C30_fade",
    "FastNoise.Modifiers.C30_fade_between",
    "FastNoise.Modifiers.C30_fade_ends",
    "FastNoise.Modifiers.C30_min_smooth",
    "FastNoise.Modifiers.C30_min_smooth_monotone",
    "FastNoise.Modifiers.C30_max_smooth",
    "FastNoise.Modifiers.C30_signed_sqrt",
    "FastNoise.Modifiers.C30_signed_sqrt_monotone",
    "FastNoise.Modifiers.C30_pow_int",
    "FastNoise.Modifiers.C30_pow_float",
    "FastNoise.Modifiers.C30_pow_float_negative",
    "FastNoise.Modifiers.C30_abs_min_max",
    "FastNoise.Modifiers.C30_operators_inverse"
   ],
   "note": "Proved for every input and setter history: Remap, PingPong, Terrace, Fade, MinSmooth, MaxSmooth, SignedSquareRoot, PowInt, PowFloat, Abs, Min, Max. Not covered: Modulus (FS::Modulus is in FastSIMD, not in the repository), division by an empty range in Remap, negative Terrace smoothness. False of the code and shown so: PingPong reflects at 0, not at -1; clamped Remap with an inverted to range is constant; PowFloat is not powf for negative values."
  },
  {
   "property": "C31",
   "status": "proved",
   "theorems": [
    "FastNoise.Modifiers.C31_opaque",
    "FastNoise.Modifiers.C31_grey",
    "FastNoise.Modifiers.C31_monotone",
    "FastNoise.Modifiers.C31_inverted"
   ],
   "note": "For every real source value and every min and max, including empty and inverted ranges."
  },
  {
   "property": "C32",
   "status": "proved",
   "theorems": [
    "FastNoise.Modifiers.C32_rotate_3d",
    "FastNoise.Modifiers.C32_rotate_2d",
    "FastNoise.Modifiers.C32_rotate_2d_lifted",
    "FastNoise.Modifiers.C32_rotate_4d",
    "FastNoise.Modifiers.C32_rigid",
    "FastNoise.Modifiers.C32_identity",
    "FastNoise.Modifiers.C32_origin",
    "FastNoise.Modifiers.C32_plane_rigid",
    "FastNoise.Modifiers.C32_plane_dims",
    "FastNoise.Modifiers.C32_plane_normal",
    "FastNoise.Modifiers.C32_scale",
    "FastNoise.Modifiers.C32_axis_scale",
    "FastNoise.Modifiers.C32_offset",
    "FastNoise.Modifiers.C32_compose",
    "FastNoise.Modifiers.C32_seed_offset",
    "FastNoise.Modifiers.C32_add_dimension",
    "FastNoise.Modifiers.C32_remove_dimension",
    "FastNoise.Modifiers.C32_add_remove"
   ],
   "note": "DomainRotate for every setter history; DomainRotatePlane rigid up to the rounding of its two float constants (4e-8); the other position modifiers transform coordinates as documented."
  },
  {
   "property": "C33",
   "status": "partial",
   "theorems": [
    "FastNoise.Names.C33_spaced",
    "FastNoise.Names.C33_faithful",
    "FastNoise.Names.C33_distinct",
    "FastNoise.Names.C33_tidy",
    "FastNoise.Names.C33_remove_group_partial",
    "FastNoise.Names.C33_remove_leading_group",
    "FastNoise.Names.C33_never_empty",
    "FastNoise.Names.C33_removes_letter",
    "FastNoise.Names.C33_member",
    "FastNoise.Names.C33_member_defined",
    "FastNoise.Names.C33_member_distinct"
   ],
   "note": "The group removal erases the group word and whatever single character follows it, not only a separating space: C33_removes_letter is a witness; everything else about the property is proved."
  },
  {
   "property": "C34",
   "status": "proved",
   "theorems": [
    "FastNoise.Editor.C34_attr_decodes",
    "FastNoise.Editor.C34_attr_distinct",
    "FastNoise.Editor.C34_free_id",
    "FastNoise.Editor.C34_free_id_terminates",
    "FastNoise.Editor.C34_large_id_collides"
   ],
   "note": "Ids above 0x7FFFFF from hand-edited settings files collide (C34_large_id_collides)."
  },
  {
   "property": "C35",
   "status": "partial",
   "theorems": [
    "FastNoise.Editor.C35_sound_partial",
    "FastNoise.Editor.C35_no_ub_partial",
    "FastNoise.Editor.C35_terminates_partial",
    "FastNoise.Editor.C35_cycle_repaired",
    "FastNoise.Editor.C35_link_exact",
    "FastNoise.Editor.C35_unlink",
    "FastNoise.Editor.C35_delete",
    "FastNoise.Editor.C35_delete_uaf",
    "FastNoise.Editor.C35_drop_dangling",
    "FastNoise.Editor.C35_cycle_recursion",
    "FastNoise.Editor.C35_convert_exact",
    "FastNoise.Editor.C35_warp_slots"
   ],
   "note": "Sessions start empty or from any settings file (C50). Sound, UB-free and terminating for every session except: deletion of nodes used along two paths (C35_delete_uaf), popups of dropped links with deleted source (C35_drop_dangling), links closing a cycle of incomplete nodes (C35_cycle_recursion); each exclusion is a proved counterexample in the code."
  },
  {
   "property": "C36",
   "status": "partial",
   "theorems": [
    "FastNoise.Lattice.C36_value_range",
    "FastNoise.Lattice.C36_value_lattice",
    "FastNoise.Lattice.C36_value_continuous",
    "FastNoise.Lattice.C36_perlin_lattice",
    "FastNoise.Lattice.C36_perlin_continuous",
    "FastNoise.Lattice.C36_perlin_range_partial",
    "FastNoise.Lattice.C36_perlin3_leaves_range",
    "FastNoise.Lattice.C36_perlin4_leaves_range"
   ],
   "note": "Value noise and 2D Perlin complete; 3D and 4D Perlin really leave the range (counterexamples proved), bounds 1.00002 and 1.148 proved"
  },
  {
   "property": "C37",
   "status": "proved",
   "theorems": [
    "FastNoise.Basic.C37_constant",
    "FastNoise.Basic.C37_white",
    "FastNoise.Basic.C37_white_axis",
    "FastNoise.Basic.C37_white_complement",
    "FastNoise.Basic.C37_checkerboard",
    "FastNoise.Basic.C37_checkerboard_alternates",
    "FastNoise.Basic.C37_checkerboard_tie",
    "FastNoise.Basic.C37_sineWave",
    "FastNoise.Basic.C37_gradient",
    "FastNoise.Basic.C37_distanceToPoint",
    "FastNoise.Basic.C37_distance_zero"
   ],
   "note": "Exact arithmetic. Checkerboard alternation excludes rounding ties (counterexample C37_checkerboard_tie); White bit-exact in seed and position bits."
  },
  {
   "property": "C38",
   "status": "proved",
   "theorems": [
    "FastNoise.Simplex.C38_simplex_sum",
    "FastNoise.Simplex.C38_corners"
   ],
   "note": "Exact real arithmetic. The order of the axes is a permutation for every position including ties, the simplex contains the position, and the sum runs over exactly its n+1 distinct corners (2D, 3D, 4D)."
  },
  {
   "property": "C39",
   "status": "proved",
   "theorems": [
    "FastNoise.Grid.C39_semilattice",
    "FastNoise.Grid.C39_grouping",
    "FastNoise.Grid.C39_exact"
   ],
   "note": "Outputs not NaN (linear order)."
  },
  {
   "property": "C40",
   "status": "partial",
   "theorems": [
    "FastNoise.RefCount.C40_no_use_after_free",
    "FastNoise.RefCount.C40_references_keep_alive",
    "FastNoise.RefCount.C40_new_gives_one_reference",
    "FastNoise.RefCount.C40_delete_last_reference_leaks_partial",
    "FastNoise.RefCount.C40_delete_null_partial"
   ],
   "note": "no use-after-free, exact counting and one reference per fnNew proved; 'nothing leaks' is false of the code: fnDeleteNodeRef never destroys (C40_delete_last_reference_leaks_partial proves the leak for every history); fnDeleteNodeRef( NULL ) is documented as a no-op and dereferences NULL (C40_delete_null_partial)"
  },
  {
   "property": "C41",
   "status": "partial",
   "theorems": [
    "FastNoise.Grid.C41_zero_width_hangs",
    "FastNoise.Grid.C41_no_rows_reads_outside",
    "FastNoise.Grid.C41_no_positions_reads_outside",
    "FastNoise.Grid.C41_overflow",
    "FastNoise.Grid.C41_product"
   ],
   "note": "Violated by the code: witnesses for a hang, out-of-bounds reads and signed overflow, each for all widths."
  },
  {
   "property": "C42",
   "status": "proved",
   "theorems": [
    "FastNoise.Queues.C42_texture_monotone",
    "FastNoise.Queues.C42_latest_shown"
   ],
   "note": "every order of completions"
  },
  {
   "property": "C43",
   "status": "partial",
   "theorems": [
    "FastNoise.Cellular.C43_displacement",
    "FastNoise.Cellular.C43_nearest_visited",
    "FastNoise.Cellular.C43_constants_2D_4D",
    "FastNoise.Cellular.C43_constants_3D",
    "FastNoise.Cellular.C43_lookup_nearest_partial",
    "FastNoise.Cellular.C43_feature",
    "FastNoise.Cellular.C43_size_jitter"
   ],
   "note": "2D and 4D complete; 3D needs grid jitter <= 0.99999 because kJitter3D is rounded up"
  },
  {
   "property": "C44",
   "status": "partial",
   "theorems": [
    "FastNoise.Simplex.C44_simplex2",
    "FastNoise.Simplex.C44_super2",
    "FastNoise.Simplex.C44_super3",
    "FastNoise.Simplex.C44_continuous",
    "FastNoise.Simplex.C44_simplex_partial",
    "FastNoise.Simplex.C44_super4_partial",
    "FastNoise.Simplex.C44_simplex3_jumps",
    "FastNoise.Simplex.C44_simplex4_jumps",
    "FastNoise.Simplex.C44_super4_jumps"
   ],
   "note": "Proved for Simplex 2D, SuperSimplex 2D and 3D. Fails, with proved counterexamples, for Simplex 3D and 4D (falloff radius^2 0.6 exceeds 1/2) and SuperSimplex 4D (grid points at distance^2 0.72..0.8 omitted); there the partial theorems give the radius up to which all points are taken into account."
  },
  {
   "property": "C45",
   "status": "partial",
   "theorems": [
    "FastNoise.WarpSimplex.C45_contribution",
    "FastNoise.WarpSimplex.C45_turn2",
    "FastNoise.WarpSimplex.C45_turn3",
    "FastNoise.WarpSimplex.C45_contribution4_partial",
    "FastNoise.WarpSimplex.C45_bases4",
    "FastNoise.WarpSimplex.C45_matrix4",
    "FastNoise.WarpSimplex.C45_warp2",
    "FastNoise.WarpSimplex.C45_super3",
    "FastNoise.WarpSimplex.C45_simplex3_partial",
    "FastNoise.WarpSimplex.C45_simplex4_partial",
    "FastNoise.WarpSimplex.C45_super4_partial",
    "FastNoise.WarpSimplex.C45_continuous",
    "FastNoise.WarpSimplex.C45_level_independent",
    "FastNoise.WarpSimplex.C45_zero_amplitude",
    "FastNoise.WarpSimplex.C45_linear",
    "FastNoise.WarpSimplex.C45_axis_scale_zero",
    "FastNoise.WarpSimplex.C45_levels_differ",
    "FastNoise.WarpSimplex.C45_axes_repeat",
    "FastNoise.WarpSimplex.C45_not_a_reflection",
    "FastNoise.WarpSimplex.C45_linear_warps",
    "FastNoise.WarpSimplex.C45_progressive",
    "FastNoise.WarpSimplex.C45_independent",
    "FastNoise.WarpSimplex.C45_runs_exist",
    "FastNoise.WarpSimplex.C45_fractal_seed_partial"
   ],
   "note": "Proved: one contribution = falloff x hash-selected matrix x offset on every level (2D, 3D, 4D; all matrices given explicitly, 2D and 3D ones orthogonal up to a factor, 4D: exactly which bases are, per level); whole warp = sum over all grid points, hence continuous (2D both warps, 3D SuperSimplex); level independence without position bound; linearity in the amplitude; composition in fractals. False of the code, with witnesses or weaker statements: 4D default scheme (level dependent, not orthogonal), 3D/4D Simplex and 4D SuperSimplex (grid points between sqrt(1/2) resp. sqrt(18/25) and the falloff radius are skipped, as in C44), 3D Simplex outer product mirroring, seed offset handling."
  },
  {
   "property": "C46",
   "status": "proved",
   "theorems": [
    "FastNoise.Mesh.C46_mesh_wellformed",
    "FastNoise.Mesh.C46_one_quad_per_crossing",
    "FastNoise.Mesh.C46_no_cracks",
    "FastNoise.Mesh.C46_closed",
    "FastNoise.Mesh.C46_vertices",
    "FastNoise.Mesh.C46_plane",
    "FastNoise.Mesh.C46_shading"
   ],
   "note": "Real arithmetic; GL upload not modelled. Table of 256 rows checked in full by kernel evaluation inside the general proof."
  },
  {
   "property": "C47",
   "status": "proved",
   "theorems": [
    "FastNoise.Mesh.C47_mesh_wellformed",
    "FastNoise.Mesh.C47_one_face_per_exposed",
    "FastNoise.Mesh.C47_no_cracks",
    "FastNoise.Mesh.C47_closed"
   ],
   "note": "Exact real arithmetic for the shading. Chunk size is a parameter (128 in the code)."
  },
  {
   "property": "C48",
   "status": "proved",
   "theorems": [
    "FastNoise.Mesh.C48_mesh_wellformed",
    "FastNoise.Mesh.C48_one_patch_per_square",
    "FastNoise.Mesh.C48_faces_up",
    "FastNoise.Mesh.C48_no_cracks"
   ],
   "note": "Exact real arithmetic. Chunk size is a parameter (128 in the code)."
  },
  {
   "property": "C49",
   "status": "partial",
   "theorems": [
    "FastNoise.Chunks.C49_each_chunk_once",
    "FastNoise.Chunks.C49_shown_current",
    "FastNoise.Chunks.C49_counters",
    "FastNoise.Chunks.C49_range",
    "FastNoise.Chunks.C49_shown_apart",
    "FastNoise.Chunks.C49_request_exact",
    "FastNoise.Chunks.C49_nearest_first",
    "FastNoise.Chunks.C49_coverage",
    "FastNoise.Chunks.C49_progress",
    "FastNoise.Chunks.C49_unload_stable_partial",
    "FastNoise.Chunks.C49_heightmap_reload",
    "FastNoise.Chunks.C49_heightmap_reload_happens",
    "FastNoise.Chunks.C49_view_complete",
    "FastNoise.Chunks.C49_view_complete_blocks",
    "FastNoise.Chunks.C49_view_complete_height",
    "FastNoise.Chunks.C49_queue_limit",
    "FastNoise.Chunks.C49_cut_iff_full",
    "FastNoise.Chunks.C49_range_rate"
   ],
   "note": "Stability of unloading holds in the 3D modes only; C49_heightmap_reload_happens is a run of the program that violates it for height maps. Everything else is proved in full. float is modelled by reals and int by integers; timer and triangle-count conditions are free choices of the schedule."
  },
  {
   "property": "C50",
   "status": "partial",
   "theorems": [
    "FastNoise.Editor.C50_restores",
    "FastNoise.Editor.C50_exact",
    "FastNoise.Editor.C50_stable",
    "FastNoise.Editor.C50_any_file_partial",
    "FastNoise.Editor.C50_crash",
    "FastNoise.Editor.C50_small_value_lost",
    "FastNoise.Editor.C50_file_uaf",
    "FastNoise.Editor.C50_same_text"
   ],
   "note": "Float values keep six decimals (exact for typed values and from 16 on): C50_small_value_lost. Any-file safety needs node sections that end their members before the id and ids below 2^23: C50_file_uaf, C34_large_id_collides. ImGui's own storage of the text is not modelled."
  },
  {
   "property": "C51",
   "status": "partial",
   "theorems": [
    "FastNoise.Texture.C51_preview",
    "FastNoise.Texture.C51_preview_same",
    "FastNoise.Texture.C51_export_file",
    "FastNoise.Texture.C51_same_area_partial",
    "FastNoise.Texture.C51_export_moved",
    "FastNoise.Texture.C51_wide_header",
    "FastNoise.Texture.C51_zero_size_hangs",
    "FastNoise.Texture.C51_drag",
    "FastNoise.Texture.C51_zoom",
    "FastNoise.Texture.C51_drag_right"
   ],
   "note": "Exact float arithmetic assumed except in C51_preview_same. Partial: the exported area is that of the preview only for a centre at the origin, k = 1 or the tiled mode (C51_export_moved), sizes up to 65535 (C51_wide_header) and not 0 (C51_zero_size_hangs)."
  },
  {
   "property": "C52",
   "status": "partial",
   "theorems": [
    "FastNoise.Texture.C52_no_overwrite_partial",
    "FastNoise.Texture.C52_exports_in_a_row",
    "FastNoise.Texture.C52_overwrites",
    "FastNoise.Texture.C52_long_name_crash",
    "FastNoise.Texture.C52_failed_export_blocks",
    "FastNoise.Texture.C52_menu_name"
   ],
   "note": "Needs a free name among the first 1023 tried ones and names the file system accepts; the violations outside are proved (C52_overwrites, C52_long_name_crash, C52_failed_export_blocks)."
  },
  {
   "property": "C53",
   "status": "proved",
   "theorems": [
    "FastNoise.Prefs.C53_texture",
    "FastNoise.Prefs.C53_texture_exact",
    "FastNoise.Prefs.C53_texture_again",
    "FastNoise.Prefs.C53_mesh",
    "FastNoise.Prefs.C53_mesh_again",
    "FastNoise.Prefs.C53_graph_undisturbed",
    "FastNoise.Prefs.C53_texture_line",
    "FastNoise.Prefs.C53_mesh_line",
    "FastNoise.Prefs.C53_texture_crash",
    "FastNoise.Prefs.C53_mesh_crash",
    "FastNoise.Prefs.C53_colour_not_shown",
    "FastNoise.Prefs.C53_bad_gen_type"
   ],
   "note": "Colours up to their three sRGB bytes; assumes Magnum's conversion of those bytes to a colour and back is the identity. C53_colour_not_shown and C53_bad_gen_type are defects."
  },
  {
   "property": "C54",
   "status": "proved",
   "theorems": [
    "FastNoise.RT.C54_text_iff",
    "FastNoise.RT.C54_reencode",
    "FastNoise.Demo.C54_demo_trees"
   ],
   "note": "same text iff same design (types, settings, links, sharing); re-encoding is the identity on texts the library writes"
  },
  {
   "property": "C55",
   "status": "partial",
   "theorems": [
    "FastNoise.Editor.C55_current_partial",
    "FastNoise.Editor.C55_copied_partial",
    "FastNoise.Editor.C55_preview_partial",
    "FastNoise.Editor.C55_seen_partial",
    "FastNoise.Editor.C55_same_graph",
    "FastNoise.Editor.C55_received",
    "FastNoise.Editor.C55_click_partial",
    "FastNoise.Editor.C55_cycle_stale",
    "FastNoise.Editor.C55_convert_stale",
    "FastNoise.Editor.C55_clear_keeps_picture"
   ],
   "note": "Missing, because false (shown): sessions with a link closing a cycle or the conversion of a domain warp in use to another kind. Also outside: deletions with two paths between users and drops whose source is gone (undefined behaviour, C35), more than 65536 nodes on screen."
  },
  {
   "property": "C56",
   "status": "proved",
   "theorems": [
    "FastNoise.Editor.C56_marked",
    "FastNoise.Editor.C56_nothing_lost",
    "FastNoise.Editor.C56_stays_due",
    "FastNoise.Editor.C56_written",
    "FastNoise.Editor.C56_closed",
    "FastNoise.Editor.C56_dies",
    "FastNoise.Editor.C56_command_line",
    "FastNoise.Editor.C56_deleted_returns",
    "FastNoise.Editor.C56_cleared_returns",
    "FastNoise.Editor.C56_moved_forgotten",
    "FastNoise.Editor.C56_tuned",
    "FastNoise.Editor.C56_moved"
   ],
   "note": "Stated for what is on screen: deleted nodes may come back and positions may be old (shown: C56_deleted_returns, C56_cleared_returns, C56_moved_forgotten). Timer of ImGui and atomic replacement of the file outside a crash are assumptions on ImGui."
  },
  {
   "property": "C57",
   "status": "proved",
   "theorems": [
    "FastNoise.CGen.C57_grid2D",
    "FastNoise.CGen.C57_grid3D",
    "FastNoise.CGen.C57_grid4D",
    "FastNoise.CGen.C57_tileable2D",
    "FastNoise.CGen.C57_positions2D",
    "FastNoise.CGen.C57_positions3D",
    "FastNoise.CGen.C57_positions4D",
    "FastNoise.CGen.C57_in_place_wrong",
    "FastNoise.CGen.C57_in_place_depends_on_width",
    "FastNoise.CGen.C57_null"
   ],
   "note": "all calls proved for every placement of the arrays; in-place use of a position array proved right for counts that fit the register width and shown wrong otherwise. Outputs assumed not NaN (as C15-C18)."
  },
  {
   "property": "C58",
   "status": "proved",
   "theorems": [
    "FastNoise.F32.C58_setters_exact",
    "FastNoise.F32.C58_value_range",
    "FastNoise.F32.C58_white_range",
    "FastNoise.F32.C58_checkerboard",
    "FastNoise.F32.C58_range_overshoot",
    "FastNoise.F32.C58_range_any",
    "FastNoise.F32.C58_white_same_at_every_level",
    "FastNoise.F32.C58_white_differs",
    "FastNoise.F32.C58_value_lattice",
    "FastNoise.F32.C58_value_near_exact",
    "FastNoise.F32.C58_scaled_position"
   ],
   "note": "Binary32 arithmetic as written (STRICT_FP). The statement carries the exceptions: range kept exactly for limits on a common binary grid, up to one rounding for other limits (witness C58_range_overshoot); White level independent for power-of-two widths (witness C58_white_differs otherwise)."
  },
  {
   "property": "C59",
   "status": "proved",
   "theorems": [
    "FastNoise.F32.C59_grid2D",
    "FastNoise.F32.C59_grid3D",
    "FastNoise.F32.C59_grid4D",
    "FastNoise.F32.C59_positions_exact",
    "FastNoise.F32.C59_positions_monotone",
    "FastNoise.F32.C59_positions_near",
    "FastNoise.F32.C59_pieces2D",
    "FastNoise.F32.C59_pieces3D",
    "FastNoise.F32.C59_pieces4D",
    "FastNoise.F32.C59_tiles_do_not_fit",
    "FastNoise.F32.C59_levels_differ",
    "FastNoise.F32.C59_samples_collapse"
   ],
   "note": "The statement carries the exceptions; witnesses show that pieces, levels and distinct samples are not kept apart off the binary grids. Tileable grids: C18."
  },
  {
   "property": "C60",
   "status": "partial",
   "theorems": [
    "FastNoise.Simplex.C60_simplex_range",
    "FastNoise.Simplex.C60_super_range",
    "FastNoise.Simplex.C60_super4_range_partial",
    "FastNoise.Simplex.C60_super4_leaves_range"
   ],
   "note": "Full for Simplex 2D, 3D, 4D and SuperSimplex 2D, 3D. 4D SuperSimplex: at most 1.0001 of the range; it does exceed 1.00002 (C60_super4_leaves_range). Exact arithmetic."
  },
  {
   "property": "C61",
   "status": "partial",
   "theorems": [
    "FastNoise.F32.C61_perlin_near_exact",
    "FastNoise.F32.C61_perlin_levels",
    "FastNoise.F32.C61_value_levels",
    "FastNoise.F32.C61_perlin_range_partial",
    "FastNoise.F32.C61_perlin_lattice"
   ],
   "note": "Distance from exact arithmetic, agreement of SIMD levels and lattice points complete for every position; the range clause is partial because the exact 3D and 4D noise leaves the range itself (C36_perlin3_leaves_range, C36_perlin4_leaves_range)"
  },
  {
   "property": "C62",
   "status": "partial",
   "theorems": [
    "FastNoise.WarpRange.C62_simplex",
    "FastNoise.WarpRange.C62_super",
    "FastNoise.WarpRange.C62_simplex3_outer_partial",
    "FastNoise.WarpRange.C62_super4_outer_partial",
    "FastNoise.WarpRange.C62_orthogonal4_partial",
    "FastNoise.WarpRange.C62_simplex3_exceeds",
    "FastNoise.WarpRange.C62_simplex4_exceeds"
   ],
   "note": "Proved up to 2 millionths: 2D both schemes, 3D orthogonal scheme (both nodes; Super even half), 3D Super outer, 4D Simplex outer. Partial: 4D Super outer within 1 percent; 4D orthogonal scheme at most 2.53 (Simplex) and 1.35 (Super) amplitudes, 3D Simplex outer at most 1.7321. The code violates the full statement: C62_simplex3_exceeds, C62_simplex4_exceeds. Exact arithmetic."
  },
  {
   "property": "C63",
   "status": "partial",
   "theorems": [
    "FastNoise.F32.C63_operators",
    "FastNoise.F32.C63_subtract_sign",
    "FastNoise.F32.C63_operator_error",
    "FastNoise.F32.C63_operators_monotone",
    "FastNoise.F32.C63_not_inverse",
    "FastNoise.F32.C63_powInt",
    "FastNoise.F32.C63_powInt_error",
    "FastNoise.F32.C63_minSmooth",
    "FastNoise.F32.C63_maxSmooth",
    "FastNoise.F32.C63_fade_start",
    "FastNoise.F32.C63_fade_end_partial",
    "FastNoise.F32.C63_fade_range",
    "FastNoise.F32.C63_fade_quintic_range_partial",
    "FastNoise.F32.C63_fade_monotone",
    "FastNoise.F32.C63_fade_end_misses",
    "FastNoise.F32.C63_fade_quintic_exceeds",
    "FastNoise.F32.C63_remap",
    "FastNoise.F32.C63_remap_error",
    "FastNoise.F32.C63_remap_end_misses",
    "FastNoise.F32.C63_rgba8",
    "FastNoise.F32.C63_terrace",
    "FastNoise.F32.C63_terrace_fraction_exceeds",
    "FastNoise.F32.C63_pingPong_partial",
    "FastNoise.F32.C63_pingPong_negative"
   ],
   "note": "Proved for binary32 arithmetic with and without FMA. Missing because the code violates it: exact end points of Fade and Remap (C63_fade_end_misses, C63_remap_end_misses), quintic Fade within its sources (C63_fade_quintic_exceeds; bounded by 2^-16 relative), Terrace with fractional step count (C63_terrace_fraction_exceeds), PingPong at -2^-149 (C63_pingPong_negative); C30s inverse laws (C63_not_inverse)."
  },
  {
   "property": "C64",
   "status": "proved",
   "theorems": [
    "FastNoise.F32.C64_one_octave",
    "FastNoise.F32.C64_level_independent",
    "FastNoise.F32.C64_bounded_by_peak",
    "FastNoise.F32.C64_peak",
    "FastNoise.F32.C64_fbm_error",
    "FastNoise.F32.C64_ridged_error",
    "FastNoise.F32.C64_positions"
   ],
   "note": "FBm and Ridged over F32: exact cases, level independence, peak bound by parallel induction with the constant source, error bound. The error bounds are for unweighted FBm and Ridged; weighted fractals have the peak bound."
  },
  {
   "property": "C65",
   "status": "partial",
   "theorems": [
    "FastNoise.Wiki.C65_build",
    "FastNoise.Wiki.C65_build_shipped",
    "FastNoise.Wiki.C65_order_needed",
    "FastNoise.Wiki.C65_description",
    "FastNoise.Wiki.C65_description_injective",
    "FastNoise.Wiki.C65_pages",
    "FastNoise.Wiki.C65_group_needed",
    "FastNoise.Wiki.C65_pages_shipped",
    "FastNoise.Wiki.C65_titles_distinct",
    "FastNoise.Wiki.C65_headings_defined",
    "FastNoise.Wiki.C65_headings_distinct_partial",
    "FastNoise.Wiki.C65_same_headings",
    "FastNoise.Wiki.C65_pixel",
    "FastNoise.Wiki.C65_pixel_value",
    "FastNoise.Wiki.C65_pixel_top",
    "FastNoise.Wiki.C65_pixel_top_dark",
    "FastNoise.Wiki.C65_picture",
    "FastNoise.Wiki.C65_defaults_readable",
    "FastNoise.Wiki.C65_command_unterminated"
   ],
   "note": "Everything in the statement is proved; partial because the headings of per-dimension hybrids coincide (C65_same_headings), the highest sample may be one level below white (C65_pixel_top_dark) and the conversion command is malformed (C65_command_unterminated)."
  },
  {
   "property": "C66",
   "status": "proved",
   "theorems": [
    "FastNoise.EditorMenu.C66_menu",
    "FastNoise.EditorMenu.C66_every_type",
    "FastNoise.EditorMenu.C66_tests",
    "FastNoise.EditorMenu.C66_no_empty_submenu",
    "FastNoise.EditorMenu.C66_ordered",
    "FastNoise.EditorMenu.C66_shipped",
    "FastNoise.EditorMenu.C66_convert_safe"
   ],
   "note": "Group names without tab and not empty, as those of the library are (nodes_ok). std::sort: any permutation; for the order, any that sorts by name. Submenus counted as all open."
  },
  {
   "property": "C67",
   "status": "proved",
   "theorems": [
    "FastNoise.F32.C67_axis_err",
    "FastNoise.F32.C67_levels",
    "FastNoise.F32.C67_zero",
    "FastNoise.F32.C67_zero_amplitude",
    "FastNoise.F32.C67_position",
    "FastNoise.F32.C67_domain_warp",
    "FastNoise.F32.C67_fractal_run",
    "FastNoise.F32.C67_fractal_position",
    "FastNoise.F32.C67_amplitudes"
   ],
   "note": "Binary32 without overflow, NaN and signed zero (F32.lean); compare C29 for the exact warp, including that the seed offset of a stand-alone warp is added twice."
  },
  {
   "property": "C68",
   "status": "partial",
   "theorems": [
    "FastNoise.Mesh.C68_blocks",
    "FastNoise.Mesh.C68_heights_partial",
    "FastNoise.Mesh.C68_smooth_partial",
    "FastNoise.Mesh.C68_smooth_vanishes",
    "FastNoise.Mesh.C68_heights_vanish"
   ],
   "note": "Blocks in full; height maps for multipliers that are not negative; smooth meshes with the box enlarged by one unit. Otherwise the code violates the claim: C68_smooth_vanishes, C68_heights_vanish. Magnum rangeFrustum is transcribed."
  },
  {
   "property": "C69",
   "status": "partial",
   "theorems": [
    "FastNoise.Mesh.C69_blocks",
    "FastNoise.Mesh.C69_smooth_partial",
    "FastNoise.Mesh.C69_smooth_misses_air"
   ],
   "note": "Block meshes in full; for smooth meshes what is counted, and a witness that the full claim is violated."
  },
  {
   "property": "C70",
   "status": "proved",
   "theorems": [
    "FastNoise.FloatCellular.C70_distances",
    "FastNoise.FloatCellular.C70_value",
    "FastNoise.FloatCellular.C70_lookup",
    "FastNoise.FloatCellular.C70_return"
   ],
   "note": "binary32 model of CellularValue/Distance/Lookup; size jitter, Minkowski and relaxed square root excluded by hypothesis, as in the statement"
  },
  {
   "property": "C71",
   "status": "partial",
   "theorems": [
    "FastNoise.Launch.C71_posix",
    "FastNoise.Launch.C71_windows_partial",
    "FastNoise.Launch.C71_encoded",
    "FastNoise.Launch.C71_which",
    "FastNoise.Launch.C71_told_windows",
    "FastNoise.Launch.C71_told_posix_partial",
    "FastNoise.Launch.C71_told_wrong",
    "FastNoise.Launch.C71_windows_space_cut"
   ],
   "note": "POSIX hand-over full; Windows only for texts without special characters (all encoded texts are); result value on POSIX wrong if exec fails (C71_told_wrong)"
  },
  {
   "property": "C72",
   "status": "partial",
   "theorems": [
    "FastNoise.Camera.C72_view",
    "FastNoise.Camera.C72_heading",
    "FastNoise.Camera.C72_drag",
    "FastNoise.Camera.C72_move",
    "FastNoise.Camera.C72_keys",
    "FastNoise.Camera.C72_held_partial",
    "FastNoise.Camera.C72_stuck"
   ],
   "note": "view, heading, dragging, moving full (exact arithmetic); held keys only while ImGui takes none of the events (C72_stuck)"
  },
  {
   "property": "C73",
   "status": "proved",
   "theorems": [
    "FastNoise.F32.C73_constants",
    "FastNoise.F32.C73_simplex2_near_exact",
    "FastNoise.F32.C73_simplex2_forward",
    "FastNoise.F32.C73_simplex2_levels",
    "FastNoise.F32.C73_simplex2_range"
   ],
   "note": "Every operation of Simplex::Gen 2D rounds (F32.lean); the result is compared with the exact model of C38 at a nearby position, the same for all SIMD levels, and at the position itself (with C74); range from C60, levels."
  },
  {
   "property": "C74",
   "status": "proved",
   "theorems": [
    "FastNoise.Simplex.C74_simplex2_rate",
    "FastNoise.Simplex.C74_super2_rate",
    "FastNoise.Simplex.C74_super3_rate"
   ],
   "note": "Exact arithmetic (Num.lean)."
  },
  {
   "property": "C75",
   "status": "proved",
   "theorems": [
    "FastNoise.Lattice.C75_value_rate",
    "FastNoise.Lattice.C75_perlin_rate",
    "FastNoise.Lattice.C75_value_forward",
    "FastNoise.Lattice.C75_perlin_forward"
   ],
   "note": "Exact arithmetic for the rates; binary32 for the forward bounds. Distances along the axes."
  },
  {
   "property": "C76",
   "status": "proved",
   "theorems": [
    "FastNoise.Rate.C76_sources",
    "FastNoise.Rate.C76_simplex",
    "FastNoise.Rate.C76_blends",
    "FastNoise.Rate.C76_smooth",
    "FastNoise.Rate.C76_fade",
    "FastNoise.Rate.C76_modifiers",
    "FastNoise.Rate.C76_domain",
    "FastNoise.Rate.C76_remove",
    "FastNoise.Rate.C76_offset",
    "FastNoise.Rate.C76_fbm",
    "FastNoise.Rate.C76_ridged",
    "FastNoise.Rate.C76_fbm_weighted",
    "FastNoise.Rate.C76_ridged_weighted",
    "FastNoise.Rate.C76_gradient_warp",
    "FastNoise.Rate.C76_sine",
    "FastNoise.Rate.C76_gradient",
    "FastNoise.Rate.C76_distance",
    "FastNoise.Rate.C76_rotate",
    "FastNoise.Rate.C76_rotate_plane",
    "FastNoise.Rate.C76_warp_independent",
    "FastNoise.Rate.C76_warp_progressive"
   ],
   "note": "Exact arithmetic; distances along the axes; gain, strengths, smoothness, amplitude constant."
  },
  {
   "property": "C77",
   "status": "partial",
   "theorems": [
    "FastNoise.Cellular.C77_nearest_partial",
    "FastNoise.Cellular.C77_nearest_squared_partial",
    "FastNoise.Cellular.C77_in_range",
    "FastNoise.Cellular.C77_rate_partial",
    "FastNoise.Cellular.C77_rate_squared_partial"
   ],
   "note": "Euclidean metrics, Index0, no size jitter. Missing: in 3D grid jitter of magnitude above 0.99999 for the nearest-point and rate parts (kJitter3D is rounded up, see C43); positions exactly on a feature point, where the Euclidean code returns NaN (C27_nan_reachable)."
  },
  {
   "property": "C78",
   "status": "proved",
   "theorems": [
    "FastNoise.Zoom.C78_noises",
    "FastNoise.Zoom.C78_gradient",
    "FastNoise.Zoom.C78_distance",
    "FastNoise.Zoom.C78_cellular",
    "FastNoise.Zoom.C78_values",
    "FastNoise.Zoom.C78_ranges",
    "FastNoise.Zoom.C78_domain",
    "FastNoise.Zoom.C78_fractals",
    "FastNoise.Zoom.C78_proportional",
    "FastNoise.Zoom.C78_warp",
    "FastNoise.Zoom.C78_warp_fractals",
    "FastNoise.Zoom.C78_domainScale"
   ],
   "note": "Exact arithmetic. White hashes the bits of the position and is not scalable."
  },
  {
   "property": "C79",
   "status": "partial",
   "theorems": [
    "FastNoise.SeedShift.C79_node",
    "FastNoise.SeedShift.C79_one_node",
    "FastNoise.SeedShift.C79_noises",
    "FastNoise.SeedShift.C79_seedless",
    "FastNoise.SeedShift.C79_cellular",
    "FastNoise.SeedShift.C79_values",
    "FastNoise.SeedShift.C79_ranges",
    "FastNoise.SeedShift.C79_domain",
    "FastNoise.SeedShift.C79_fractals",
    "FastNoise.SeedShift.C79_warp_functions",
    "FastNoise.SeedShift.C79_warp_partial",
    "FastNoise.SeedShift.C79_warp_fractals"
   ],
   "note": "Full except for domain warps, where it is false of the code: stand-alone gradient and Simplex warps add their seed offset twice (C79_warp_partial, C29_standalone_differs_from_fractal), and the Super Simplex warp ignores it in fractals."
  },
  {
   "property": "C80",
   "status": "proved",
   "theorems": [
    "FastNoise.TreeLaw.C80_fbm",
    "FastNoise.TreeLaw.C80_ridged",
    "FastNoise.TreeLaw.C80_progressive",
    "FastNoise.TreeLaw.C80_neutral",
    "FastNoise.TreeLaw.C80_remap",
    "FastNoise.TreeLaw.C80_domain",
    "FastNoise.TreeLaw.C80_dimensions",
    "FastNoise.TreeLaw.C80_yaw",
    "FastNoise.TreeLaw.C80_blends"
   ],
   "note": "Exact arithmetic."
  }
 ]
}
