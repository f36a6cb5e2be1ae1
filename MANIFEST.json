{
 "claims": [
  {
   "property": "C01",
   "status": "proved",
   "theorems": [
    "OCG.Props.C01_cache_bytes_exact",
    "OCG.Props.C01_cache_bytes_exact_raw_partial",
    "OCG.Props.C01_raw_counterexample"
   ],
   "note": "Full for every history of requests and capacity changes, which are the only cache calls the library makes. For direct insert calls under a resident key the claim is false (counterexample)."
  },
  {
   "property": "C02",
   "status": "partial",
   "theorems": [
    "OCG.Props.C02_cache_within_capacity_partial",
    "OCG.Props.C02_cache_within_capacity_raw_partial",
    "OCG.Props.C02_counterexample"
   ],
   "note": "Holds while no requested image is larger than the capacity; otherwise false in release builds (counterexample)."
  },
  {
   "property": "C03",
   "status": "proved",
   "theorems": [
    "OCG.Props.C03_lookup_never_wrong",
    "OCG.Props.C03_lookup_after_insert",
    "OCG.Props.C03_lookup_complete",
    "OCG.Props.C03_request"
   ],
   "note": "Every history, both profiles."
  },
  {
   "property": "C04",
   "status": "proved",
   "theorems": [
    "OCG.Props.C04_eviction_is_lru",
    "OCG.Props.C04_eviction_order"
   ],
   "note": "Every history, both profiles."
  },
  {
   "property": "C05",
   "status": "proved",
   "theorems": [
    "OCG.Props.C05_zero_capacity_stores_nothing"
   ],
   "note": ""
  },
  {
   "property": "C06",
   "status": "proved",
   "theorems": [
    "OCG.Props.C06_shrink_fits"
   ],
   "note": "Every state reached by requests and capacity changes."
  },
  {
   "property": "C07",
   "status": "partial",
   "theorems": [
    "OCG.Props.C07_minimal_eviction_partial",
    "OCG.Props.C07_counterexample"
   ],
   "note": "An image that fills the cache exactly also evicts (counterexample)."
  },
  {
   "property": "C08",
   "status": "proved",
   "theorems": [
    "OCG.Props.C08_counters",
    "OCG.Props.C08_lookup_counter_raw"
   ],
   "note": ""
  },
  {
   "property": "C09",
   "status": "partial",
   "theorems": [
    "OCG.Props.C09_no_underflow_partial",
    "OCG.Props.C09_profiles_agree_raw",
    "OCG.Props.C09_counterexample"
   ],
   "note": "Images larger than the capacity panic in debug and wrap in release (counterexample)."
  },
  {
   "property": "C10",
   "status": "proved",
   "theorems": [
    "OCG.Props.C10_combine_covers",
    "OCG.Props.C10_combine_smallest",
    "OCG.Props.C10_combine_least_edges",
    "OCG.Props.C10_combine_laws",
    "OCG.Props.C10_empty_counterexample"
   ],
   "note": "Minimality by edges for all windows, by pixels for non-empty windows; for an empty window the pixel version is false (counterexample)."
  },
  {
   "property": "C11",
   "status": "proved",
   "theorems": [
    "OCG.Props.C11_disjoint_zero",
    "OCG.Props.C11_largest_inside_both",
    "OCG.Props.C11_intersection_exact",
    "OCG.Props.C11_intersection_proper"
   ],
   "note": ""
  },
  {
   "property": "C12",
   "status": "partial",
   "theorems": [
    "OCG.Props.C12_columns",
    "OCG.Props.C12_columns_ordered",
    "OCG.Props.C12_rows_partial",
    "OCG.Props.C12_rows_counterexample"
   ],
   "note": "Columns for all windows; rows for windows of non-negative height below 2^31. Row iteration of a vertically inverted window does not stop (counterexample)."
  },
  {
   "property": "C13",
   "status": "partial",
   "theorems": [
    "OCG.Props.C13_area_partial",
    "OCG.Props.C13_area_release_partial",
    "OCG.Props.C13_counterexample_debug",
    "OCG.Props.C13_counterexample_release"
   ],
   "note": "Holds below 2^31 pixels (release: 2^32); a 65536x65536 window panics in debug and reports 0 in release."
  },
  {
   "property": "C14",
   "status": "partial",
   "theorems": [
    "OCG.Props.C14_index_in_buffer",
    "OCG.Props.C14_index_disjoint",
    "OCG.Props.C14_index_onto",
    "OCG.Props.C14_out_of_range_partial",
    "OCG.Props.C14_counterexample_release"
   ],
   "note": "Bijection for all block sizes whose element count fits i32; -1 for out-of-range coordinates unless a product overflows i32 (counterexample)."
  },
  {
   "property": "C15",
   "status": "proved",
   "theorems": [
    "OCG.Props.C15_xy_of_index",
    "OCG.Props.C15_index_of_xy",
    "OCG.Props.C15_block_index",
    "OCG.Props.C15_block_index_counterexample"
   ],
   "note": "For BlockSize, the only conversion the library uses. The second index type (BlockIndex, only used in unit tests) accepts the right pixels and has the right index, but its column and row are wrong (counterexample)."
  },
  {
   "property": "C16",
   "status": "proved",
   "theorems": [
    "OCG.Props.C16_sub_window_copy"
   ],
   "note": "All four element types; sizes must fit i32."
  },
  {
   "property": "C17",
   "status": "proved",
   "theorems": [
    "OCG.Props.C17_resize_same_type",
    "OCG.Props.C17_resize_other_type"
   ],
   "note": "Sizes must fit i32."
  },
  {
   "property": "C18",
   "status": "proved",
   "theorems": [
    "OCG.Props.C18_convert_keeps_size",
    "OCG.Props.C18_convert_same",
    "OCG.Props.C18_convert_pointwise"
   ],
   "note": ""
  },
  {
   "property": "C67",
   "status": "partial",
   "theorems": [
    "OCG.Props.C67_byte_view_partial",
    "OCG.Props.C67_counterexample"
   ],
   "note": "True for 8-bit images only; false for every other non-empty image."
  },
  {
   "property": "C68",
   "status": "partial",
   "theorems": [
    "OCG.Props.C68_stride_partial",
    "OCG.Props.C68_counterexample"
   ],
   "note": "True for 32-bit float or four-channel images; false for 8-bit RGB."
  },
  {
   "property": "C19",
   "status": "proved",
   "theorems": [
    "OCG.Props.C19_float_hash_injective",
    "OCG.Props.C19_float_value_hash_injective",
    "OCG.Props.C19_decode"
   ],
   "note": "The mantissa, exponent and sign fed to the hasher describe the value (C19_decode). Distinct bit patterns feed distinct items to the hasher; collisions of the hasher itself are outside."
  },
  {
   "property": "C20",
   "status": "partial",
   "theorems": [
    "OCG.Props.C20_expand_partial",
    "OCG.Props.C20_no_hash",
    "OCG.Props.C20_nearest_frame",
    "OCG.Props.C20_double_nearest",
    "OCG.Props.C20_double_whole",
    "OCG.Props.C20_double_special",
    "OCG.Props.C20_counterexample"
   ],
   "note": "Runs of 1 to 9 '#'; longer runs drop the frame number (counterexample)."
  },
  {
   "property": "C21",
   "status": "partial",
   "theorems": [
    "OCG.Props.C21_frames_distinct_partial",
    "OCG.Props.C21_counterexample"
   ],
   "note": "Runs of 1 to 9 '#'; longer runs give the same path for all frames (counterexample)."
  },
  {
   "property": "C22",
   "status": "proved",
   "theorems": [
    "OCG.Props.C22_tris_in_range",
    "OCG.Props.C22_wire_in_range",
    "OCG.Props.C22_border_in_range"
   ],
   "note": "Grids that fit u32."
  },
  {
   "property": "C23",
   "status": "proved",
   "theorems": [
    "OCG.Props.C23_tris_exact",
    "OCG.Props.C23_wire_exact",
    "OCG.Props.C23_border_exact",
    "OCG.Props.C23_positions_exact",
    "OCG.Props.C23_uvs_exact"
   ],
   "note": "Grids that fit u32."
  },
  {
   "property": "C24",
   "status": "proved",
   "theorems": [
    "OCG.Props.C24_triangles_tile"
   ],
   "note": "Grids that fit u32."
  },
  {
   "property": "C25",
   "status": "proved",
   "theorems": [
    "OCG.Props.C25_uvs",
    "OCG.Props.C25_positions",
    "OCG.Props.C25_single_uvs",
    "OCG.Props.C25_single_apart",
    "OCG.Props.C25_single_positions",
    "OCG.Props.C25_counterexample_last"
   ],
   "note": "Proved as stated for real numbers (any ordered field). In IEEE single precision, for up to 2^24 divisions, the same up to 2^-21 for texture coordinates (which never leave the unit square, are exact in the first row and column, and stay apart for up to 2^20 divisions) and up to M/2^19 for positions; the last column need not be exactly 1 (counterexample with 42 columns)."
  },
  {
   "property": "C61",
   "status": "partial",
   "theorems": [
    "OCG.Props.C61_lerp_endpoints",
    "OCG.Props.C61_inverse_lerp",
    "OCG.Props.C61_remap_endpoints",
    "OCG.Props.C61_lerp_between",
    "OCG.Props.C61_single_endpoints",
    "OCG.Props.C61_single_remap",
    "OCG.Props.C61_single_error_partial",
    "OCG.Props.C61_counterexample_between",
    "OCG.Props.C61_counterexample_inverse"
   ],
   "note": "Proved in exact arithmetic. In IEEE arithmetic the ends are hit (C61_single_endpoints, C61_single_remap) and inside the range the error is at most M/2^21 + 2^-148 for ends of magnitude M; there the result may leave the range and inverse_lerp does not undo lerp exactly (counterexamples)."
  },
  {
   "property": "C69",
   "status": "partial",
   "theorems": [
    "OCG.Props.C69_center_partial",
    "OCG.Props.C69_counterexample"
   ],
   "note": "True for a centre of (0, 0); for every other centre the grid is centred at minus the configured centre."
  },
  {
   "property": "C27",
   "status": "proved",
   "theorems": [
    "OCG.Props.C27_unknown_edits",
    "OCG.Props.C27_unknown_queries",
    "OCG.Props.C27_unknown_attributes",
    "OCG.Props.C27_known_by_adding"
   ],
   "note": "Every state and history; generic in the node type."
  },
  {
   "property": "C28",
   "status": "partial",
   "theorems": [
    "OCG.Props.C28_add_partial",
    "OCG.Props.C28_slots",
    "OCG.Props.C28_counterexample",
    "OCG.Props.C28_duplicate_counterexample"
   ],
   "note": "Holds until a node has been removed; adding after a removal panics, and a duplicate identifier is accepted but unreachable (counterexamples)."
  },
  {
   "property": "C29",
   "status": "partial",
   "theorems": [
    "OCG.Props.C29_removed_partial",
    "OCG.Props.C29_counterexample"
   ],
   "note": "Connections disappear and other nodes stay; but the identifier is still reported as existing (counterexample)."
  },
  {
   "property": "C30",
   "status": "partial",
   "theorems": [
    "OCG.Props.C30_connect_sets",
    "OCG.Props.C30_unique_partial",
    "OCG.Props.C30_counterexample"
   ],
   "note": "Uniqueness holds for histories that only reconnect a slot while nothing newer enters another slot of the node; otherwise two sources can share a slot (counterexample)."
  },
  {
   "property": "C31",
   "status": "partial",
   "theorems": [
    "OCG.Props.C31_others_unchanged",
    "OCG.Props.C31_slot_emptied_partial",
    "OCG.Props.C31_counterexample"
   ],
   "note": "Other connections never change; the slot is emptied when nothing newer enters another slot of the node, otherwise it can stay connected (counterexample)."
  },
  {
   "property": "C32",
   "status": "proved",
   "theorems": [
    "OCG.Props.C32_one_per_pair",
    "OCG.Props.C32_moves"
   ],
   "note": "Every history."
  },
  {
   "property": "C33",
   "status": "proved",
   "theorems": [
    "OCG.Props.C33_edits_dirty",
    "OCG.Props.C33_only_execute_cleans"
   ],
   "note": "Every history."
  },
  {
   "property": "C36",
   "status": "proved",
   "theorems": [
    "OCG.Props.C36_upstream_exact"
   ],
   "note": "Every history and every sort that is a sorted permutation."
  },
  {
   "property": "C37",
   "status": "proved",
   "theorems": [
    "OCG.Props.C37_inputs_in_slot_order",
    "OCG.Props.C37_strict"
   ],
   "note": "Every history; strict order when every slot has at most one source."
  },
  {
   "property": "C38",
   "status": "partial",
   "theorems": [
    "OCG.Props.C38_crash_iff",
    "OCG.Props.C38_real_nodes",
    "OCG.Props.C38_no_crash_partial",
    "OCG.Props.C38_inputs_first_partial",
    "OCG.Props.C38_tree_is_leveled",
    "OCG.Props.C38_counterexample"
   ],
   "note": "Exact condition for crashing proved; holds for graphs arranged in levels (trees, balanced diamonds). An acyclic graph with a shortcut panics (counterexample). C38_real_nodes: for the real nodes, which may panic themselves."
  },
  {
   "property": "C39",
   "status": "partial",
   "theorems": [
    "OCG.Props.C39_self_loop_partial",
    "OCG.Props.C39_no_frames_partial",
    "OCG.Props.C39_counterexample"
   ],
   "note": "Self-connections and empty frame lists are fine; every cycle of two or more nodes upstream panics (counterexample for all such graphs)."
  },
  {
   "property": "C40",
   "status": "partial",
   "theorems": [
    "OCG.Props.C40_composition_partial",
    "OCG.Props.C40_recursive_partial",
    "OCG.Props.C40_counterexample"
   ],
   "note": "Holds when the nodes compute functions of their inputs and no shared node gets differing requests that matter to it; otherwise false (counterexample)."
  },
  {
   "property": "C41",
   "status": "proved",
   "theorems": [
    "OCG.Props.C41_status_stored",
    "OCG.Props.C41_success_iff_no_failure",
    "OCG.Props.C41_success_iff_partial"
   ],
   "note": "Every graph, frame list and node behaviour. C41_success_iff_partial additionally describes success in terms of the recursive evaluation, under the conditions of C40."
  },
  {
   "property": "C42",
   "status": "proved",
   "theorems": [
    "OCG.Props.C42_frames_in_order"
   ],
   "note": "Every graph and frame lists; the dirty flag after a failing later frame differs, as stated."
  },
  {
   "property": "C26",
   "status": "partial",
   "theorems": [
    "OCG.Props.C26_mesh_partial",
    "OCG.Props.C26_file_partial",
    "OCG.Props.C26_unwritable",
    "OCG.Props.C26_counterexample"
   ],
   "note": "Holds for every buffer whose indices are below 4294967295; index 4294967295 overflows (counterexample). The file then holds that text whatever it held before and no other file changes (C26_file_partial); a path that cannot be written panics (C26_unwritable)."
  },
  {
   "property": "C60",
   "status": "partial",
   "theorems": [
    "OCG.Props.C60_order_partial",
    "OCG.Props.C60_centre_iff",
    "OCG.Props.C60_inverse",
    "OCG.Props.C60_centre_counterexample",
    "OCG.Props.C60_negative_invert_counterexample"
   ],
   "note": "Order of the steps and inversion hold; the rotation centre is ignored (exact condition and counterexample), and a negative invert switch is not inverted. Exact arithmetic."
  },
  {
   "property": "C62",
   "status": "partial",
   "theorems": [
    "OCG.Props.C62_always_one",
    "OCG.Props.C62_single_always_one",
    "OCG.Props.C62_std",
    "OCG.Props.C62_percent_partial",
    "OCG.Props.C62_counterexample"
   ],
   "note": "False: the factor is 1 whatever is configured (min and max exchanged). Holds exactly for percentages of 100 or more."
  },
  {
   "property": "C66",
   "status": "proved",
   "theorems": [
    "OCG.Props.C66_DataTypeCode",
    "OCG.Props.C66_BakeOption",
    "OCG.Props.C66_MergeImageMode",
    "OCG.Props.C66_LensDistortDirection",
    "OCG.Props.C66_ImageOrientation",
    "OCG.Props.C66_DiskCacheImageType",
    "OCG.Props.C66_CropOnWrite",
    "OCG.Props.C66_JpegChromaSubSampling",
    "OCG.Props.C66_ExrCompression"
   ],
   "note": "All nine conversions, all integers."
  },
  {
   "property": "C70",
   "status": "proved",
   "theorems": [
    "OCG.Props.C70_first_file"
   ],
   "note": "File system, environment and YAML parsing are parameters."
  },
  {
   "property": "C71",
   "status": "partial",
   "theorems": [
    "OCG.Props.C71_to_float_exact",
    "OCG.Props.C71_to_half",
    "OCG.Props.C71_to_integer",
    "OCG.Props.C71_round_trip_u8",
    "OCG.Props.C71_round_trip_u16",
    "OCG.Props.C71_single_u8",
    "OCG.Props.C71_single_u16_partial",
    "OCG.Props.C71_counterexample_rounding",
    "OCG.Props.C100_nearest_u8",
    "OCG.Props.C100_nearest_u16",
    "OCG.Props.C100_u8_float",
    "OCG.Props.C100_u16_float"
   ],
   "note": "Proved in exact arithmetic. In IEEE arithmetic: to float gives the nearest float (C100_nearest_*); to 8 bits gives exactly the highest step that is not brighter (C71_single_u8); to 16 bits up to 1/250 of a step (C71_single_u16_partial), with a float darker than step 1 that becomes step 1 (counterexample); round trips are exact (C100)."
  },
  {
   "property": "C72",
   "status": "partial",
   "theorems": [
    "OCG.Props.C72_translate_partial",
    "OCG.Props.C72_counterexample"
   ],
   "note": "Holds for square windows that start at zero; otherwise the y translation is divided by the width and an offset of the window shifts the image (counterexamples)."
  },
  {
   "property": "C34",
   "status": "proved",
   "theorems": [
    "OCG.Props.C34_set_get",
    "OCG.Props.C34_others_unchanged",
    "OCG.Props.C34_unknown_name",
    "OCG.Props.C34_no_panic"
   ],
   "note": "All ten node types, every kind of value; names compare as strings."
  },
  {
   "property": "C35",
   "status": "proved",
   "theorems": [
    "OCG.Props.C35_exists_iff_supported",
    "OCG.Props.C35_documented",
    "OCG.Props.C35_in_graph"
   ],
   "note": "All ten node types."
  },
  {
   "property": "C43",
   "status": "partial",
   "theorems": [
    "OCG.Props.C43_modes_shrink_partial",
    "OCG.Props.C43_requests_partial",
    "OCG.Props.C43_counterexample_disabled",
    "OCG.Props.C43_counterexample_option"
   ],
   "note": "False for a disabled viewer (requests everything) and for a viewer with an invalid bake option (panics); proved for every other node. C43_requests_partial says bit by bit what is requested from which input."
  },
  {
   "property": "C44",
   "status": "partial",
   "theorems": [
    "OCG.Props.C44_hash_covers_partial",
    "OCG.Props.C44_hash_value_covers_partial",
    "OCG.Props.C44_only_work",
    "OCG.Props.C44_counterexample_direction",
    "OCG.Props.C44_counterexample_path",
    "OCG.Props.C44_counterexample_resample"
   ],
   "note": "False for the lens direction, for file nodes with enable other than 0 and 1, and for resample nodes with different input counts (byte streams coincide); proved otherwise, down to the bytes fed to the hasher."
  },
  {
   "property": "C47",
   "status": "proved",
   "theorems": [
    "OCG.Props.C47_in_order",
    "OCG.Props.C47_stream",
    "OCG.Props.C47_every_pixel",
    "OCG.Props.C47_downstream_after",
    "OCG.Props.C47_grade_appends",
    "OCG.Props.C47_grade_idle",
    "OCG.Props.C47_chain",
    "OCG.Props.C47_bake"
   ],
   "note": "The list is carried out in order with disabled ones skipped; each grade node appends one operation with its own values; baking applies matrix and list. C47_bake is stated for linear float images (other spaces and types only add conversions before and after)."
  },
  {
   "property": "C53",
   "status": "partial",
   "theorems": [
    "OCG.Props.C53_default_identity_partial",
    "OCG.Props.C53_single_partial",
    "OCG.Props.C53_infinite",
    "OCG.Props.C53_counterexample_mix"
   ],
   "note": "Needs powf x 1 = x; 1, 3 and 4 channels; other channel counts panic (C73_other_channels). In IEEE arithmetic a default grade with mix 1 keeps every finite value (-0 may become 0); infinities become NaN (C53_infinite), and with another mix values change (counterexample)."
  },
  {
   "property": "C54",
   "status": "partial",
   "theorems": [
    "OCG.Props.C54_reverse_undoes_partial",
    "OCG.Props.C54_gamma_alone_partial",
    "OCG.Props.C54_reverse_iff",
    "OCG.Props.C54_single_partial",
    "OCG.Props.C54_counterexample_gamma"
   ],
   "note": "False when there is a gamma and a linear part: the reverse ignores gamma (exact condition and counterexample). Holds without gamma, and for gamma alone on values in (0,1). In IEEE arithmetic a grade without gamma and its reverse give every value back up to rounding, with an explicit bound (C54_single_partial)."
  },
  {
   "property": "C55",
   "status": "partial",
   "theorems": [
    "OCG.Props.C55_unprocessed_unchanged_partial",
    "OCG.Props.C55_pixels_independent",
    "OCG.Props.C55_counterexample_nan",
    "OCG.Props.C55_single_partial"
   ],
   "note": "Independence of pixels holds for all float semantics; unprocessed channels are unchanged in exact arithmetic, but a NaN from the unused formula leaks into them (counterexample). In IEEE arithmetic they are unchanged when the unused formula is finite, and NaN otherwise (C55_single_partial)."
  },
  {
   "property": "C57",
   "status": "partial",
   "theorems": [
    "OCG.Props.C57_per_pixel",
    "OCG.Props.C57_identity",
    "OCG.Props.C57_compose",
    "OCG.Props.C57_scale",
    "OCG.Props.C57_single_identity",
    "OCG.Props.C57_single_accuracy",
    "OCG.Props.C57_single_compose",
    "OCG.Props.C57_counterexample_compose"
   ],
   "note": "Per-pixel statement for all float semantics; the algebraic laws in exact arithmetic. In IEEE arithmetic the identity leaves finite pixels unchanged (C57_single_identity), every value is the exact one up to K*M/2^20 for entries up to K and values up to M (C57_single_accuracy), and the product law holds up to rounding with an explicit bound (C57_single_compose), but not exactly (counterexample)."
  },
  {
   "property": "C73",
   "status": "proved",
   "theorems": [
    "OCG.Props.C73_grade_formula",
    "OCG.Props.C73_no_work",
    "OCG.Props.C73_other_channels",
    "OCG.Props.C73_reverse_formula"
   ],
   "note": "All float semantics; the formula of the reversed grade for every gamma in exact arithmetic."
  },
  {
   "property": "C48",
   "status": "partial",
   "theorems": [
    "OCG.Props.C49_positions",
    "OCG.Props.C48_pixels_partial",
    "OCG.Props.C48_pixels_single",
    "OCG.Props.C48_bake_single",
    "OCG.Props.C48_pixels_none",
    "OCG.Props.C48_counterexample_order",
    "OCG.Props.C48_counterexample_direction"
   ],
   "note": "Positions: proved (deformers with a known direction, in order). Pixels: sampled through the deformers' inverses but in list order, so the mapping inverted is the one of the reversed list; equal to C48's mapping with at most one enabled deformer; refuted for two non-commuting transforms. A lens deformer with direction other than 0/1 panics. Exact arithmetic for pixels."
  },
  {
   "property": "C49",
   "status": "proved",
   "theorems": [
    "OCG.Props.C49_positions",
    "OCG.Props.C49_independent",
    "OCG.Props.C49_none"
   ],
   "note": "For deformers with a known direction (others panic, see C48_counterexample_direction). The lens plug-in is an abstract function."
  },
  {
   "property": "C56",
   "status": "partial",
   "theorems": [
    "OCG.Props.C56_source_pixels",
    "OCG.Props.C56_count_mismatch",
    "OCG.Props.C56_nearest",
    "OCG.Props.C56_identity",
    "OCG.Props.C56_empty_source",
    "OCG.Props.C56_counterexample_offset",
    "OCG.Props.C56_counterexample_empty",
    "OCG.Props.C56_single_identity",
    "OCG.Props.C56_single_nearest_partial"
   ],
   "note": "Every output pixel is a source pixel (all floats); nearest pixel in exact arithmetic where the ends of the display window stand for pixel numbers min and max-1; identity remap for images at the origin. In IEEE single floats: the identity remap for images of up to 2^22 pixels in each direction (C56_single_identity), and for other coordinates inside the display window the nearest pixel up to a 2^-19th of the image size (C56_single_nearest_partial). Refuted: images whose data window does not start at 0, and empty images (panic)."
  },
  {
   "property": "C50",
   "status": "partial",
   "theorems": [
    "OCG.Props.C50_crop_partial",
    "OCG.Props.C50_counterexample_black_outside",
    "OCG.Props.C50_counterexample_intersect"
   ],
   "note": "Windows and pixels proved for every image and window without black_outside. With black_outside the crop always panics, and the intersect option is ignored (counterexamples)."
  },
  {
   "property": "C51",
   "status": "partial",
   "theorems": [
    "OCG.Props.C51_pixels",
    "OCG.Props.C51_unknown_mode",
    "OCG.Props.C51_over_without_alpha",
    "OCG.Props.C51_counterexample_one_channel"
   ],
   "note": "Proved for 3 and 4 channel images (all windows, modes, mix values; a missing alpha counts as 0 like a missing pixel). One-channel images panic (counterexample)."
  },
  {
   "property": "C52",
   "status": "partial",
   "theorems": [
    "OCG.Props.C52_mix_zero_partial",
    "OCG.Props.C52_counterexample",
    "OCG.Props.C52_single_partial"
   ],
   "note": "False: mix scales B, so mix 0 gives A (Add, Over) or zero (Multiply). The theorem states exactly when the pixel still equals B's; counterexample given. In exact arithmetic, and for finite single floats (C52_single_partial; for Over with alpha between 0 and 1)."
  },
  {
   "property": "C58",
   "status": "partial",
   "theorems": [
    "OCG.Props.C58_entries",
    "OCG.Props.C58_one_channel",
    "OCG.Props.C58_size",
    "OCG.Props.C58_lattice",
    "OCG.Props.C58_exactly_once",
    "OCG.Props.C58_image",
    "OCG.Props.C58_transform",
    "OCG.Props.C58_single_axis",
    "OCG.Props.C58_single_white",
    "OCG.Props.C58_single_increasing",
    "OCG.Props.C58_single_lattice",
    "OCG.Props.C58_single_size",
    "OCG.Props.C58_counterexample_white",
    "OCG.Props.C58_counterexample_size"
   ],
   "note": "Entries proved for every float semantics, the lattice and the advertised size in exact arithmetic, for n*n*n*3 <= 2^31-1. The colour library is abstract: the lattice is handed to it once. In IEEE arithmetic the entries are within rounding of r/(n-1), strictly increasing, so each lattice colour occurs once, and the size is as advertised up to n = 256 (C58_single_*); white is below 1 for n = 42 and the size is one row too many for n = 413 (counterexamples)."
  },
  {
   "property": "C59",
   "status": "partial",
   "theorems": [
    "OCG.Props.C59_key_partial",
    "OCG.Props.C59_size",
    "OCG.Props.C59_kinds",
    "OCG.Props.C59_counterexample"
   ],
   "note": "Space names are hashed without separator: for source names that do not contain To: the key identifies the request; otherwise two requests can share a key (counterexample). Cube sizes always agree."
  },
  {
   "property": "C74",
   "status": "partial",
   "theorems": [
    "OCG.Props.C74_cached_is_fresh_partial",
    "OCG.Props.C74_counterexample_grade",
    "OCG.Props.C74_counterexample_names"
   ],
   "note": "All call sequences from an empty cache, absent collisions on the streams involved. The two excluded cases are false, not merely missing: source names that contain To: (C74_counterexample_names) and grades whose unused channels give infinities or NaN (C74_counterexample_grade, for every hash function)."
  },
  {
   "property": "C75",
   "status": "proved",
   "theorems": [
    "OCG.Props.C75_ops_lut"
   ],
   "note": "Exact arithmetic, 3 channels, n*n*n*3 <= 2^31-1."
  },
  {
   "property": "C46",
   "status": "partial",
   "theorems": [
    "OCG.Props.C46_pass_through_partial",
    "OCG.Props.C46_counterexample_merge",
    "OCG.Props.C46_counterexample_viewer"
   ],
   "note": "Proved for crop, resample, grade, transform and lens. Refuted for merge: a disabled merge gives the colour bars of a new stream, not B."
  },
  {
   "property": "C63",
   "status": "partial",
   "theorems": [
    "OCG.Props.C63_windows_partial",
    "OCG.Props.C63_offset_iff",
    "OCG.Props.C63_sane_reads",
    "OCG.Props.C63_counterexample"
   ],
   "note": "Sizes and display origin are right for all headers; the offset is right exactly when the file's display window starts at (0,0), since its origin is added instead of subtracted."
  },
  {
   "property": "C64",
   "status": "proved",
   "theorems": [
    "OCG.Props.C64_length",
    "OCG.Props.C64_dimensions",
    "OCG.Props.C64_succeeds",
    "OCG.Props.C64_node",
    "OCG.Props.C64_beyond",
    "OCG.Props.C64_counterexample_beyond"
   ],
   "note": "Rounded down where 2^factor does not give an integer. Products of 2^31 and more are not within the limits; there the conversion is undefined and in practice gives 1 instead of 16384."
  },
  {
   "property": "C65",
   "status": "partial",
   "theorems": [
    "OCG.Props.C65_no_write",
    "OCG.Props.C65_only_write_nodes",
    "OCG.Props.C65_one_job",
    "OCG.Props.C65_answer",
    "OCG.Props.C65_always_valid",
    "OCG.Props.C65_counterexample"
   ],
   "note": "The second half is proved. The first half is false: the status is Valid whatever OpenImageIO answers."
  },
  {
   "property": "C76",
   "status": "partial",
   "theorems": [
    "OCG.Props.C76_read_inside_iff",
    "OCG.Props.C76_counterexample"
   ],
   "note": "Holds exactly for 32 bit floats and for at most four channels; files of bytes or halves with more channels overrun the buffer."
  },
  {
   "property": "C77",
   "status": "partial",
   "theorems": [
    "OCG.Props.C77_channels_iff",
    "OCG.Props.C77_counterexample"
   ],
   "note": "The type is kept; the number of channels exactly for 32 bit floats or four channels."
  },
  {
   "property": "C78",
   "status": "proved",
   "theorems": [
    "OCG.Props.C78_own_fields",
    "OCG.Props.C78_exr",
    "OCG.Props.C78_lower",
    "OCG.Props.C78_other",
    "OCG.Props.C78_levels"
   ],
   "note": "The attributes handed to OpenImageIO; what it does with them is external."
  },
  {
   "property": "C79",
   "status": "partial",
   "theorems": [
    "OCG.Props.C79_color_space_partial",
    "OCG.Props.C79_counterexample"
   ],
   "note": "Colour space: for lower case paths. Refuted for upper case endings, which only the compression settings recognise."
  },
  {
   "property": "C80",
   "status": "partial",
   "theorems": [
    "OCG.Props.C80_round_trip_partial",
    "OCG.Props.C80_shift"
   ],
   "note": "For images whose display window starts at (0,0); otherwise the offset is wrong by twice the origin. The file format is assumed to keep the header."
  },
  {
   "property": "C81",
   "status": "partial",
   "theorems": [
    "OCG.Props.C81_counterexample"
   ],
   "note": "False: write_image always writes the metadata of a new image. What oiio_write_image gets is written faithfully (C80)."
  },
  {
   "property": "C82",
   "status": "proved",
   "theorems": [
    "OCG.Props.C82_transform_appends",
    "OCG.Props.C82_lens_appends"
   ],
   "note": "A lens node panics if the plug-in rejects its values."
  },
  {
   "property": "C83",
   "status": "proved",
   "theorems": [
    "OCG.Props.C83_resets"
   ],
   "note": ""
  },
  {
   "property": "C45",
   "status": "partial",
   "theorems": [
    "OCG.Props.C45_cached_equals_uncached_partial",
    "OCG.Props.C45_warm_equals_cold_partial",
    "OCG.Props.C45_hash_determines_stream",
    "OCG.Props.C45_same_work",
    "OCG.Props.C45_recording",
    "OCG.Props.C45_counterexample_grade",
    "OCG.Props.C45_counterexample_direction",
    "OCG.Props.C45_counterexample_resample",
    "OCG.Props.C45_counterexample_path",
    "OCG.Props.C45_collision",
    "OCG.Props.C45_counterexample_collision"
   ],
   "note": "All graphs and all histories of executions and capacity changes sharing a cache, for computations where the hash identifies the work: no hash collision, one lens direction, file nodes enabled with 0 or 1, nothing waiting in front of crops and baking viewers, one input for viewers and resampling, no failing resampling. False outside: five counterexamples, one of them two file names with default settings that collide under the hash that std uses. The files on disk stay fixed."
  },
  {
   "property": "C84",
   "status": "proved",
   "theorems": [
    "OCG.Props.C84_execution_changes_no_input"
   ],
   "note": ""
  },
  {
   "property": "C85",
   "status": "proved",
   "theorems": [
    "OCG.Props.C85_far_edits"
   ],
   "note": "An edit is away from the executed node if none of the nodes it touches is upstream of it."
  },
  {
   "property": "C86",
   "status": "partial",
   "theorems": [
    "OCG.Props.C86_null",
    "OCG.Props.C86_read",
    "OCG.Props.C86_grade",
    "OCG.Props.C86_grade_idle",
    "OCG.Props.C86_transform",
    "OCG.Props.C86_lens",
    "OCG.Props.C86_crop_partial",
    "OCG.Props.C86_resample_partial",
    "OCG.Props.C86_merge_partial",
    "OCG.Props.C86_viewer_grades",
    "OCG.Props.C86_viewer_all",
    "OCG.Props.C86_viewer_cropped",
    "OCG.Props.C86_viewer_space",
    "OCG.Props.C86_write",
    "OCG.Props.C86_counterexample_crop",
    "OCG.Props.C86_counterexample_merge"
   ],
   "note": "Streams with any colours and any deformers waiting (Appears in Spec/Picture: colours first, then the deformers in the order the code uses, see C48 for that order). A transform or lens node adds its deformer to those waiting; crop, merge, the viewer that bakes everything and write carry them out. A crop needs an input stored in linear light (counterexample: the colour space is kept although the pixels are converted). A merge places its second input by the window it has before its deformers are carried out, so C86_merge_partial needs deformers there to keep the window; a lens never does (counterexample). A viewer may store its picture in any of the four types. Resampling without interpolation picks pixels (Picks in Spec/Resample is what is assumed of OpenImageIO), for pictures in linear light that are floats or have four channels; resampling with interpolation is C143; resampling of other pictures and a crop with black_outside are not covered here. The cache is off; with a cache see C45 and C87."
  },
  {
   "property": "C87",
   "status": "partial",
   "theorems": [
    "OCG.Props.C87_node",
    "OCG.Props.C87_graph_partial",
    "OCG.Props.C87_graph_returns_partial",
    "OCG.Props.C87_file_partial",
    "OCG.Props.C87_cached_partial",
    "OCG.Props.C87_cached_file_partial",
    "OCG.Props.C87_counterexample_viewer"
   ],
   "note": "For the nodes and settings of C86, with the cache switched off, or (C87_cached_*) in any state that a history of regular executions leads to, as in C45. Every graph: an execution that returns has succeeded and shows the picture; graphs arranged in levels always return (see C38 for the others). A viewer that bakes everything does not ask for pixels, so the read node in front of it gives stale pixels (counterexample)."
  },
  {
   "property": "C88",
   "status": "partial",
   "theorems": [
    "OCG.Props.C88_once_per_walk",
    "OCG.Props.C88_count",
    "OCG.Props.C88_real_nodes",
    "OCG.Props.C88_once_partial",
    "OCG.Props.C88_counterexample"
   ],
   "note": "False in general: a node is computed once for every way from it to the executed node, exactly. Hence once if every node is used once; at least 2^k times in a graph of 3k+1 nodes (counterexample for every k)."
  },
  {
   "property": "C89",
   "status": "proved",
   "theorems": [
    "OCG.Props.C89_history",
    "OCG.Props.C89_streams",
    "OCG.Props.C89_deforms",
    "OCG.Props.C89_counterexample"
   ],
   "note": "C89_history gives the plugin's settings after any history of one deformer and its copies; C89_streams that deformers in streams carry the committed settings of their node and survive copying, and that creating them fails exactly for refused settings; C89_deforms that they deform accordingly. C89_counterexample shows why the commit matters outside streams. The plugin's formulas are a parameter."
  },
  {
   "property": "C90",
   "status": "partial",
   "theorems": [
    "OCG.Props.C90_same_hash_partial",
    "OCG.Props.C90_direction",
    "OCG.Props.C90_counterexample"
   ],
   "note": "Proved for deformers with the same direction (byte streams decode uniquely). False in general: the direction of a lens deformer is not hashed (C90_direction), and C90_counterexample gives two deformers hashed alike that move a point to opposite sides."
  },
  {
   "property": "C91",
   "status": "proved",
   "theorems": [
    "OCG.Props.C91_points",
    "OCG.Props.C91_undo"
   ],
   "note": "Exact arithmetic; the plugin's functions are a parameter, for C91_undo assumed to undo each other."
  },
  {
   "property": "C92",
   "status": "partial",
   "theorems": [
    "OCG.Props.C92_smallest",
    "OCG.Props.C92_ieee",
    "OCG.Props.C92_covers_partial",
    "OCG.Props.C92_transforms",
    "OCG.Props.C92_counterexample"
   ],
   "note": "The integer window is the smallest around the box, in exact arithmetic and for all finite IEEE boxes (C92_ieee). Proved for lens deformers, given plugin boxes that contain the deformed points. False for transform deformers: they never move the window (C92_transforms), so a moved image is cut off (C92_counterexample)."
  },
  {
   "property": "C93",
   "status": "partial",
   "theorems": [
    "OCG.Props.C93_warning_iff",
    "OCG.Props.C93_unreadable",
    "OCG.Props.C93_folder",
    "OCG.Props.C93_counterexample_remembered"
   ],
   "note": "C93_warning_iff: the node warns exactly when it is switched off or the path does not exist. False otherwise: an existing file that cannot be read (or has fewer than three channels) gives a Valid node without pixels (C93_unreadable), a folder gives Valid and the stream computed last (C93_folder), and a failed read stays in the cache after the file has become readable (C93_counterexample_remembered)."
  },
  {
   "property": "C94",
   "status": "partial",
   "theorems": [
    "OCG.Props.C94_uncached",
    "OCG.Props.C94_stale",
    "OCG.Props.C94_counterexample"
   ],
   "note": "Proved when no node uses the cache: the execution then equals one without any cache, for every cache and all nodes. False with use_cache = 1, the default: a read node shows what is in the cache whatever the file holds (C94_stale), because the key has only the path; C94_counterexample runs it."
  },
  {
   "property": "C95",
   "status": "partial",
   "theorems": [
    "OCG.Props.C95_always_invalid",
    "OCG.Props.C95_counterexample"
   ],
   "note": "False: the state is set when a stream is created and never again, so it is Invalid after every execution, successful or not (C95_always_invalid, an invariant of all executions). C95_counterexample is a successful execution."
  },
  {
   "property": "C96",
   "status": "partial",
   "theorems": [
    "OCG.Props.C96_slices",
    "OCG.Props.C96_index_partial",
    "OCG.Props.C96_index",
    "OCG.Props.C96_counterexample"
   ],
   "note": "Slices and iteration are proved. Indexing leaves the channels out of the row offset: right only in the first row and with one channel (C96_index_partial); C96_index says what it gives and C96_counterexample is an RGB image."
  },
  {
   "property": "C97",
   "status": "partial",
   "theorems": [
    "OCG.Props.C97_actual",
    "OCG.Props.C97_slice",
    "OCG.Props.C97_neutral",
    "OCG.Props.C97_documented_partial",
    "OCG.Props.C97_hash",
    "OCG.Props.C97_settings",
    "OCG.Props.C97_counterexample_undo",
    "OCG.Props.C97_counterexample_window",
    "OCG.Props.C97_counterexample_degree"
   ],
   "note": "C97_actual gives the formula computed. It is the documented one in the unit window exactly when k2 = 0 (C97_documented_partial); otherwise the radius is in pixels and r^4 counts twice, and backwards does not undo forwards (counterexamples). Neutral settings, hashing and settings are proved."
  },
  {
   "property": "C98",
   "status": "proved",
   "theorems": [
    "OCG.Props.C98_matrix",
    "OCG.Props.C98_vector",
    "OCG.Props.C98_diagonal",
    "OCG.Props.C98_hash",
    "OCG.Props.C98_identity",
    "OCG.Props.C98_vector_identity"
   ],
   "note": "C98_identity in exact arithmetic. The vector called identity is the zero vector (C98_vector_identity)."
  },
  {
   "property": "C99",
   "status": "partial",
   "theorems": [
    "OCG.Props.C99_debug",
    "OCG.Props.C99_fits_partial",
    "OCG.Props.C99_counterexample"
   ],
   "note": "Proved in full for debug builds (C99_debug), and for release builds when the sizes can be computed in 32 bits (C99_fits_partial). In a release build a crop to 65536 times 65536 pixels away from the image succeeds and has no values (C99_counterexample). The colour library is assumed to convert in place."
  },
  {
   "property": "C100",
   "status": "partial",
   "theorems": [
    "OCG.Props.C100_u8_float",
    "OCG.Props.C100_u16_float",
    "OCG.Props.C100_u8_to_u16",
    "OCG.Props.C100_u8_u16",
    "OCG.Props.C100_half_float",
    "OCG.Props.C100_image",
    "OCG.Props.C100_nearest_u8",
    "OCG.Props.C100_nearest_u16",
    "OCG.Props.C100_counterexample"
   ],
   "note": "With IEEE arithmetic (binary32 and binary16, rounding to nearest). Proved for u8 and u16 with f32, u8 with u16, and every half float that is not a NaN. False for u8 with f16: the value 1 comes back as 0 (C100_counterexample)."
  },
  {
   "property": "C101",
   "status": "partial",
   "theorems": [
    "OCG.Props.C101_pages",
    "OCG.Props.C101_close_partial",
    "OCG.Props.C101_counterexample"
   ],
   "note": "In IEEE arithmetic. Exact for memory that is a whole number of 4096-byte pages up to 64 GiB; for other amounts within one part in 2^24 (C101_close_partial); with 64 GiB and three pages the capacity is one page more than the memory (counterexample)."
  },
  {
   "property": "C102",
   "status": "proved",
   "theorems": [
    "OCG.Props.C102_nearest",
    "OCG.Props.C102_whole",
    "OCG.Props.C20_double_nearest",
    "OCG.Props.C20_double_again"
   ],
   "note": "C102_nearest: executions depend on the frames only through their numbers. C102_whole with C20_double_again: whole frames given as integers do the same. The number is a nearest whole number that fits i32 (C20_double_nearest)."
  },
  {
   "property": "C103",
   "status": "partial",
   "theorems": [
    "OCG.Props.C103_pixels_single",
    "OCG.Props.C103_bake_single",
    "OCG.Props.C103_positions_partial",
    "OCG.Props.C103_counterexample_single",
    "OCG.Props.C103_counterexample_window"
   ],
   "note": "Pictures, in IEEE single floats, including the baking: proved for display and data windows with their corner at the origin and up to 2^22 pixels in each direction, given a cosine and sine that are right at zero and an inverse that keeps the unit matrix. Meshes: proved in exact arithmetic for data windows that start at x = 0; in single floats small coordinates are lost (C103_counterexample_single). False for windows that start elsewhere (C103_counterexample_window; see C72)."
  },
  {
   "property": "C104",
   "status": "partial",
   "theorems": [
    "OCG.Props.C104_keeps",
    "OCG.Props.C104_viewer",
    "OCG.Props.C104_viewer_cached",
    "OCG.Props.C104_session",
    "OCG.Props.C104_merge",
    "OCG.Props.C104_counterexample_merge"
   ],
   "note": "Proved for null, grade, lens distortion, transform, crop, resampling and write nodes in every cache state, for viewers without the cache, and for viewers with the cache after any history of regular executions (as in C45). False for merging, which always gives plain metadata (C104_merge, C104_counterexample_merge). That metadata is never made up is proved for all sessions."
  },
  {
   "property": "C105",
   "status": "partial",
   "theorems": [
    "OCG.Props.C105_short",
    "OCG.Props.C105_visible",
    "OCG.Props.C105_block_partial",
    "OCG.Props.C105_collision",
    "OCG.Props.C105_counterexample"
   ],
   "note": "With FxHasher as it is (rustc_hash 1.1.0, 64-bit little-endian). Proved for all names of up to six bytes, and for names of the same length that differ in one block of eight bytes only (or in a last block of up to six bytes). False in general: 58qgto and _t9dexdy have the same identifier, and the second of two such nodes cannot be reached."
  },
  {
   "property": "C106",
   "status": "partial",
   "theorems": [
    "OCG.Props.C106_no_crash_partial",
    "OCG.Props.C106_capacity",
    "OCG.Props.C106_lut",
    "OCG.Props.C106_tidy",
    "OCG.Props.C106_single_floats",
    "OCG.Props.C106_single_luts",
    "OCG.Props.C106_settings_matter"
   ],
   "note": "Limits: 4\u00b7(high\u2212low)\u00b2 < 2\u00b3\u00b9, so pictures of up to 23170 pixels a side. Proved for all node types with the settings of SafeNode, with lookup tables of three channels in between; missing: lens distortion switched on, black outside of a crop (which always panics, C50), unknown numbers for bake options (which panic, C106_settings_matter), reading files with other than 3 or 4 channels. For F32 the assumptions on whole numbers and on table sizes always hold."
  },
  {
   "property": "C107",
   "status": "proved",
   "theorems": [
    "OCG.Props.C107_over",
    "OCG.Props.C107_multiply",
    "OCG.Props.C107_add",
    "OCG.Props.C107_hidden",
    "OCG.Props.C107_seen",
    "OCG.Props.C107_node",
    "OCG.Props.C107_counterexample_add",
    "OCG.Props.C107_counterexample_straight"
   ],
   "note": "In IEEE single precision, no assumption on the mathematics library. For the merge node with the cache off; with the cache on the result is the same or that of an equal hash (C45). Add may give an alpha of 2, and straight (not premultiplied) colours may become brighter than white (counterexamples)."
  },
  {
   "property": "C108",
   "status": "proved",
   "theorems": [
    "OCG.Props.C108_over",
    "OCG.Props.C108_single",
    "OCG.Props.C108_counterexample_mix",
    "OCG.Props.C108_counterexample_rgb",
    "OCG.Props.C108_counterexample_exact"
   ],
   "note": "Exact equality in any ordered field; error bound in IEEE single precision. False for another mix than 1, and if the picture in the middle has no alpha (counterexamples)."
  },
  {
   "property": "C109",
   "status": "proved",
   "theorems": [
    "OCG.Props.C109_order",
    "OCG.Props.C109_strict",
    "OCG.Props.C109_black",
    "OCG.Props.C109_white",
    "OCG.Props.C109_range",
    "OCG.Props.C109_nan",
    "OCG.Props.C109_image",
    "OCG.Props.C109_counterexample_half"
   ],
   "note": "In IEEE arithmetic (binary32 and binary16). Levels of 16 bits do not stay different as half floats, which have fewer values (counterexample)."
  },
  {
   "property": "C110",
   "status": "partial",
   "theorems": [
    "OCG.Props.C110_middle",
    "OCG.Props.C110_inside_partial",
    "OCG.Props.C110_moves_partial",
    "OCG.Props.C110_mirror",
    "OCG.Props.C110_counterexample_inside",
    "OCG.Props.C110_counterexample_moves",
    "OCG.Props.C110_counterexample_far"
   ],
   "note": "For windows whose sums of edges fit 32 bits (otherwise a panic in debug and a wrong centre in release, counterexample). The centre is outside a window of one column at a negative coordinate, and does not move along when the window crosses the origin; exact conditions are proved."
  },
  {
   "property": "C111",
   "status": "partial",
   "theorems": [
    "OCG.Props.C111_new",
    "OCG.Props.C111_new_graph",
    "OCG.Props.C111_edits",
    "OCG.Props.C111_last",
    "OCG.Props.C111_counterexample_bytes"
   ],
   "note": "The levels are right to 1/10000 as floats, but converted to bytes they are 234 and 15 instead of the documented 235 and 16 (counterexample)."
  },
  {
   "property": "C112",
   "status": "partial",
   "theorems": [
    "OCG.Props.C112_type",
    "OCG.Props.C112_defaults",
    "OCG.Props.C112_pass",
    "OCG.Props.C112_write",
    "OCG.Props.C112_transform",
    "OCG.Props.C112_grade_partial",
    "OCG.Props.C112_counterexample_crop",
    "OCG.Props.C112_counterexample_merge"
   ],
   "note": "Null, resample, viewer and write nodes pass on the stream itself, grades the picture for finite values in IEEE arithmetic, transforms add a transform with usual values (C103). New crop nodes have an empty window and give an empty picture, new merge nodes with one input merge it with colour bars (counterexamples). For lens nodes the result depends on the external lens library."
  },
  {
   "property": "C113",
   "status": "partial",
   "theorems": [
    "OCG.Props.C113_decode",
    "OCG.Props.C113_encode",
    "OCG.Props.C113_order",
    "OCG.Props.C113_round_trip_partial",
    "OCG.Props.C113_round_trip_linear_partial",
    "OCG.Props.C113_range",
    "OCG.Props.C113_counterexample_order",
    "OCG.Props.C113_levels",
    "OCG.Props.C113_error",
    "OCG.Props.C113_image_partial",
    "OCG.Props.C113_counterexample_white",
    "OCG.Props.C113_counterexample_alpha",
    "OCG.Props.C113_counterexample_type",
    "OCG.Props.C113_size",
    "OCG.Props.C113_power_small",
    "OCG.Props.C113_counterexample_power"
   ],
   "note": "In exact arithmetic the functions are the standard ones and undo each other except in a small gap between the two thresholds, where encoding steps down (counterexample). In f32 with the published algorithm of fastapprox: order kept, error between -8.1 % and +11 %, sizes kept, every sample the same or one level darker. White becomes 1.08, alpha is converted as well, other image types panic (counterexamples)."
  },
  {
   "property": "C114",
   "status": "partial",
   "theorems": [
    "OCG.Props.C114_restored",
    "OCG.Props.C114_any",
    "OCG.Props.C114_last",
    "OCG.Props.C114_counterexample_overlap",
    "OCG.Props.C114_counterexample_config"
   ],
   "note": "Calls made one after another restore the number, and in all interleavings it is the host's or one that was asked for; the call that finishes last decides. Overlapping calls can leave the host with another number, and the configured number is never used (counterexamples)."
  },
  {
   "property": "C115",
   "status": "proved",
   "theorems": [
    "OCG.Props.C115_deformed_plane"
   ],
   "note": "Exact arithmetic for the grid points; what each deformer does to a point is as in C48 and C60. Rounding of grid points in f32 is C69 and C25."
  },
  {
   "property": "C116",
   "status": "proved",
   "theorems": [
    "OCG.Props.C116_accuracy"
   ],
   "note": "IEEE single arithmetic, rounding to nearest even. Error at most M/2^22 (Add), M/2^21 (Over) and M^2/2^23 (Multiply) plus about 2^-149, where M bounds the values."
  },
  {
   "property": "C117",
   "status": "partial",
   "theorems": [
    "OCG.Props.C117_output",
    "OCG.Props.C117_alike",
    "OCG.Props.C117_again",
    "OCG.Props.C117_cached_partial",
    "OCG.Props.C117_counterexample"
   ],
   "note": "Proved for graphs without viewers that bake everything (and without surplus inputs, disabled viewers or folder names as sources), without the cache, and with the cache for regular executions as in C45. False with a viewer that bakes everything: the picture last shown is graded once more on every execution (C117_counterexample)."
  },
  {
   "property": "C118",
   "status": "proved",
   "theorems": [
    "OCG.Props.C118_positions",
    "OCG.Props.C118_rebuilt",
    "OCG.Props.C118_rebuilt_shown",
    "OCG.Props.C118_shared",
    "OCG.Props.C118_copied",
    "OCG.Props.C118_copied_uncached",
    "OCG.Props.C118_copied_cached"
   ],
   "note": "C118_positions is for any nodes, C118_rebuilt for the nodes of the library, panics included. C118_rebuilt_shown drops the condition that both graphs have the same picture left from before, for graphs that show their files (C117). Slots with several sources are excluded, as there the order is up to the sort. Copies: without the cache, with any cache that no node uses, and with caches used in any regular way before (C45), possibly filled by the other graph."
  },
  {
   "property": "C119",
   "status": "proved",
   "theorems": [
    "OCG.Props.C119_order",
    "OCG.Props.C119_counterexample_negative",
    "OCG.Props.C119_counterexample_strict"
   ],
   "note": "The gamma curve is a library function, so that it rises is a condition on the library (`CurveRises`; true for gamma 1 by the C standard). The order is not strict: rounding may make different values equal (C119_counterexample_strict)."
  },
  {
   "property": "C120",
   "status": "proved",
   "theorems": [
    "OCG.Props.C120_swap",
    "OCG.Props.C120_node",
    "OCG.Props.C120_grouping",
    "OCG.Props.C120_counterexample_mix",
    "OCG.Props.C120_counterexample_grouping"
   ],
   "note": "C120_swap and C120_node in IEEE single floats, all bits (all NaNs count as one). C120_grouping in exact arithmetic; in single floats the grouping shows in the last digit (C120_counterexample_grouping). With another mix the order matters (C120_counterexample_mix)."
  },
  {
   "property": "C121",
   "status": "proved",
   "theorems": [
    "OCG.Props.C121_crop",
    "OCG.Props.C121_twice",
    "OCG.Props.C121_grade",
    "OCG.Props.C121_merge",
    "OCG.Props.C121_grade_nodes",
    "OCG.Props.C121_merge_nodes",
    "OCG.Props.C121_counterexample_outside",
    "OCG.Props.C121_counterexample_infinite"
   ],
   "note": "In IEEE single floats, bit by bit. Where a crop window sticks out of the picture, a grade behind the crop also grades the added black (C121_counterexample_outside). One infinite value makes the other channels of its pixel NaN with every crop (C121_counterexample_infinite), hence the restriction to ordinary numbers."
  },
  {
   "property": "C122",
   "status": "proved",
   "theorems": [
    "OCG.Props.C122_nodes",
    "OCG.Props.C122_downstream",
    "OCG.Props.C122_graph",
    "OCG.Props.C122_rewired",
    "OCG.Props.C122_counterexample_grades",
    "OCG.Props.C122_counterexample_between"
   ],
   "note": "C122_graph exchanges the settings of the two nodes; C122_rewired connects the same nodes the other way round, with C118. That a lens is accepted by the plug-in is assumed, as the node panics otherwise. Two grades cannot be exchanged, and the picture between the two nodes changes (the counterexamples)."
  },
  {
   "property": "C123",
   "status": "proved",
   "theorems": [
    "OCG.Props.C123_node",
    "OCG.Props.C123_idle",
    "OCG.Props.C123_idle_leveled",
    "OCG.Props.C123_graph",
    "OCG.Props.C123_graph_leveled",
    "OCG.Props.C123_uncached",
    "OCG.Props.C123_cached",
    "OCG.Props.C123_bypass",
    "OCG.Props.C123_counterexample_merge",
    "OCG.Props.C123_counterexample_both"
   ],
   "note": "C123_bypass is the case of one node whose input is connected to what it fed. The counterexamples show the limits: a merge that is switched off gives colour bars (C46); leaving out one of two Null nodes can put an input at two depths, so that executing panics (C38); and leaving out both does not work, as a node can feed only one slot of another."
  },
  {
   "property": "C124",
   "status": "partial",
   "theorems": [
    "OCG.Props.C124_render_leveled_partial",
    "OCG.Props.C124_render_partial",
    "OCG.Props.C124_render_cached_partial",
    "OCG.Props.C124_all_there_partial",
    "OCG.Props.C124_counterexample_overwritten",
    "OCG.Props.C124_together",
    "OCG.Props.C124_farm"
   ],
   "note": "The picture of a frame is the one described in C86 and C87, with the nodes and settings covered there. C124_all_there_partial needs one to nine '#' in the name (for more it is false, see C20 and C21); C124_counterexample_overwritten shows that without '#' the last frame replaces the others. C124_together has no such limits."
  },
  {
   "property": "C125",
   "status": "partial",
   "theorems": [
    "OCG.Props.C125_copy_partial",
    "OCG.Props.C125_copy_leveled_partial",
    "OCG.Props.C125_counterexample"
   ],
   "note": "False for pixels with infinite values: baking multiplies with a colour matrix even if there is nothing to do, and infinity times zero makes all other channels NaN (counterexample). Colour conversions of files that are not in linear light are up to OpenImageIO and not covered. The sign of a zero may change."
  },
  {
   "property": "C126",
   "status": "proved",
   "theorems": [
    "OCG.Props.C126_layers",
    "OCG.Props.C126_outside",
    "OCG.Props.C126_node",
    "OCG.Props.C126_counterexample_infinite",
    "OCG.Props.C126_counterexample_rgb",
    "OCG.Props.C126_counterexample_white"
   ],
   "note": "Single floats, with every rounding. The conditions are needed: an infinite value shows through an opaque layer as NaN; a picture without alpha channel counts as transparent and is added; and a white picture without alpha channel takes the alpha of the other away (counterexamples). `C126_node` is for a render with the cache switched off and no lens waiting on the second input, as C86."
  },
  {
   "property": "C127",
   "status": "partial",
   "theorems": [
    "OCG.Props.C127_nodes",
    "OCG.Props.C127_counterexample"
   ],
   "note": "C127_nodes: for the two nodes, for every input whatsoever (nothing is assumed of it) and the cache switched off. False for whole graphs: a viewer that bakes everything does not ask for pixels, so that a read node in front of it gives what was last computed, while the write node gets the file (counterexample, as for C87)."
  },
  {
   "property": "C128",
   "status": "proved",
   "theorems": [
    "OCG.Props.C128_names",
    "OCG.Props.C128_still"
   ],
   "note": "Equality of the whole results, including the cache, the files and panics. Nothing is assumed of the nodes except their file names."
  },
  {
   "property": "C129",
   "status": "partial",
   "theorems": [
    "OCG.Props.C129_ignored",
    "OCG.Props.C129_ignored_op",
    "OCG.Props.C129_range_partial",
    "OCG.Props.C129_counterexample_black",
    "OCG.Props.C129_counterexample_white"
   ],
   "note": "False for the code: the three settings are passed on and never used, so they change no picture (proved for all operations and nodes), and clamped values are out of range (two counterexamples). What holds: grades that do not swap bright and dark and keep black and white in range keep everything between 0 and 1 in range, with single precision rounding."
  },
  {
   "property": "C130",
   "status": "proved",
   "theorems": [
    "OCG.Props.C130_cache",
    "OCG.Props.C130_images",
    "OCG.Props.C130_tables",
    "OCG.Props.C130_planes",
    "OCG.Props.C130_node",
    "OCG.Props.C130_execution",
    "OCG.Props.C130_session",
    "OCG.Props.C130_follows"
   ],
   "note": "Also says which panics the debug build may have in addition. Arithmetic that the model simplifies to exact numbers (named in the comments of the definitions) is the same in both builds by construction."
  },
  {
   "property": "C131",
   "status": "proved",
   "theorems": [
    "OCG.Props.C131_file",
    "OCG.Props.C131_pictures",
    "OCG.Props.C131_execution"
   ],
   "note": "For sources in linear light and graphs in which no transform, lens or resampling is switched on (those move pixels). The pictures of the nodes are those of C87: where no such pictures exist (C87's counterexamples) nothing is said."
  },
  {
   "property": "C132",
   "status": "proved",
   "theorems": [
    "OCG.Props.C132_file",
    "OCG.Props.C132_pictures",
    "OCG.Props.C132_execution"
   ],
   "note": "For graphs in which no transform, lens or resampling is switched on; those place pixels relative to the display window (C56, C72). Nothing is said of display windows, which are read as if they started at the origin (C63). The pictures of the nodes are those of C87."
  },
  {
   "property": "C133",
   "status": "partial",
   "theorems": [
    "OCG.Props.C133_debug",
    "OCG.Props.C133_release_partial",
    "OCG.Props.C133_counterexample"
   ],
   "note": "Proved without conditions for debug builds, which stop at an image larger than the capacity. For release builds proved where a debug build would not stop; otherwise false: an image larger than the capacity is stored (counterexample, cf. C02). Capacities below 2^63 bytes."
  },
  {
   "property": "C134",
   "status": "proved",
   "theorems": [
    "OCG.Props.C134_accuracy",
    "OCG.Props.C134_line",
    "OCG.Props.C134_counterexample"
   ],
   "note": "In IEEE single floats with all rounding. Settings of at most 2^16 with black and white point at least 2^-16 apart; without that the result need not be a number (counterexample). Reversed grades: see C54_single_partial. powf x 1 = x is assumed."
  },
  {
   "property": "C135",
   "status": "partial",
   "theorems": [
    "OCG.Props.C135_restored",
    "OCG.Props.C135_execution",
    "OCG.Props.C135_uncached",
    "OCG.Props.C135_removal_counterexample",
    "OCG.Props.C135_moved_counterexample"
   ],
   "note": "Missing: removing a node cannot be taken back (adding after a removal panics, counterexample), and a connection that was moved to another slot is lost by disconnecting it (counterexample; connecting it to the old slot works). Execution: graphs that show their files; with the same cache, or without nodes that use the cache."
  },
  {
   "property": "C136",
   "status": "proved",
   "theorems": [
    "OCG.Props.C136_file",
    "OCG.Props.C136_pictures",
    "OCG.Props.C136_execution",
    "OCG.Props.C136_counterexample_infinite"
   ],
   "note": "In IEEE single floats, bit by bit, for sources in linear light. All pictures along the way must be made of ordinary numbers (neither infinite nor NaN nor minus zero), because every bake multiplies by the identity colour matrix, which mixes in 0 times the other channels (C136_counterexample_infinite). The pictures of the nodes are those of C87, so resampling is the one without interpolation."
  },
  {
   "property": "C137",
   "status": "proved",
   "theorems": [
    "OCG.Props.C137_transform",
    "OCG.Props.C137_lens",
    "OCG.Props.C137_grade",
    "OCG.Props.C137_brownian"
   ],
   "note": "All names and values. The lens deformer's plug-in handle is not one of the settings (see C89)."
  },
  {
   "property": "C138",
   "status": "proved",
   "theorems": [
    "OCG.Props.C138_written",
    "OCG.Props.C138_rendered",
    "OCG.Props.C138_cached",
    "OCG.Props.C138_shown",
    "OCG.Props.C138_faithful",
    "OCG.Props.C138_local",
    "OCG.Props.C138_channels"
   ],
   "note": "For graphs whose nodes make pictures (C87), with the cache off, or (`C138_cached`) in any state that a history of regular executions leads to, as in C45. `C138_faithful` is for IEEE 754 floats; shorts may be 1/250 of a step too high (C71). `C138_channels` is for pictures of ordinary numbers (C136). The write to disk is OpenImageIO's: the file is what is handed to it."
  },
  {
   "property": "C139",
   "status": "proved",
   "theorems": [
    "OCG.Props.C139_fits",
    "OCG.Props.C139_stops",
    "OCG.Props.C139_reverse",
    "OCG.Props.C139_steps",
    "OCG.Props.C139_undo",
    "OCG.Props.C139_counterexample"
   ],
   "note": "For IEEE 754 single floats; `powf x 1 = x` is assumed of the maths library. `C139_counterexample` shows that a factor of seven is not undone exactly."
  },
  {
   "property": "C140",
   "status": "proved",
   "theorems": [
    "OCG.Props.C140_named",
    "OCG.Props.C140_whole",
    "OCG.Props.C140_streams",
    "OCG.Props.C140_apart",
    "OCG.Props.C140_together",
    "OCG.Props.C140_execute",
    "OCG.Props.C140_output",
    "OCG.Props.C140_luts",
    "OCG.Props.C140_calls",
    "OCG.Props.C140_questions",
    "OCG.Props.C140_new"
   ],
   "note": "For hosts that do not call `get_box` themselves and use one thread (C114 is about threads). Parts may still meet on disk: a file that one part writes and the other reads is not covered, since files are fixed in the model."
  },
  {
   "property": "C141",
   "status": "partial",
   "theorems": [
    "OCG.Props.C141_node",
    "OCG.Props.C141_stored",
    "OCG.Props.C141_grows",
    "OCG.Props.C141_again_partial"
   ],
   "note": "For computations that give the same from the cache: reading with the cache switched on, no colour change or deformer waiting in front of a crop or a baking viewer, no failing resampling. The others are wrong in the code, see the counterexamples of C45. A user relies on the speed; the other side is that a changed file goes unnoticed."
  },
  {
   "property": "C142",
   "status": "proved",
   "theorems": [
    "OCG.Props.C142_room",
    "OCG.Props.C142_history",
    "OCG.Props.C142_more",
    "OCG.Props.C142_sharp"
   ],
   "note": "For a cache that reports its bytes exactly and has every key once (C01), and is not switched off (capacity zero)."
  },
  {
   "property": "C143",
   "status": "partial",
   "theorems": [
    "OCG.Props.C143_interpolated_partial",
    "OCG.Props.C143_fair",
    "OCG.Props.C143_counterexample"
   ],
   "note": "Blends in Spec/Interpolate is what is assumed of OpenImageIO for float images (it succeeds and looks at the pixels of the image only). For grades with gamma the statement is false (counterexample, with a true mean of two pixels). Missing: pixels that are stored as other types, where OpenImageIO also rounds, or not in linear light. The cache is off."
  },
  {
   "property": "C144",
   "status": "proved",
   "theorems": [
    "OCG.Props.C144_pictures",
    "OCG.Props.C144_execution",
    "OCG.Props.C144_counterexample_multiply"
   ],
   "note": "Exact arithmetic (any field with an order as a type; single floats round, see C108 for how much in one merge). The pictures are those of C87 (cache off, linear light), which must exist for all three takes. x to the power 1 is x. A viewer that stores bytes or shorts rounds, and is left out; grades may do anything to alpha."
  },
  {
   "property": "C145",
   "status": "proved",
   "theorems": [
    "OCG.Props.C145_file",
    "OCG.Props.C145_pictures",
    "OCG.Props.C145_execution",
    "OCG.Props.C145_counterexample_opaque",
    "OCG.Props.C145_counterexample_negative"
   ],
   "note": "Single precision with rounding to nearest even; libm's power function is a parameter with the properties of C119. The pictures are those of C87 (cache off, linear light), which must exist for both disks and be Proper (finite, no minus zero, the case in which unstored pixels are what is stored). The two conditions on merges are necessary: both counterexamples are proved."
  },
  {
   "property": "C146",
   "status": "proved",
   "theorems": [
    "OCG.Props.C146_pictures",
    "OCG.Props.C146_execution",
    "OCG.Props.C146_counterexample_dark",
    "OCG.Props.C146_counterexample_multiply"
   ],
   "note": "Single precision with rounding to nearest even; x to the power 1 is x. The pictures are those of C87 (cache off, linear light), which must exist for both takes and be Proper (finite, no minus zero). Sources are compared as they are read. The grades are those with black and white point, lift, gain, offset, gamma and mix at their defaults for colours; alpha may be graded in any way."
  },
  {
   "property": "C147",
   "status": "partial",
   "theorems": [
    "OCG.Props.C147_file_partial",
    "OCG.Props.C147_pictures_partial",
    "OCG.Props.C147_execution_partial",
    "OCG.Props.C147_again",
    "OCG.Props.C147_shift",
    "OCG.Props.C147_counterexample_origin"
   ],
   "note": "OpenImageIO is assumed to give back what was handed to it (`OnDisk`: windows, channels, type, linear colour space, values), and the disk to be otherwise unchanged (`Saved`). Single precision; the pictures are those of C87 (cache off) and Proper (finite, no minus zero). Partial because the display window must start at the origin (otherwise false: `C147_shift`, `C147_counterexample_origin`), no enabled deformer may be waiting at the rendered node (they are baked into the file), and files without floats must have four channels (three are read as four)."
  },
  {
   "property": "C148",
   "status": "proved",
   "theorems": [
    "OCG.Props.C148_node",
    "OCG.Props.C148_pictures",
    "OCG.Props.C148_execution",
    "OCG.Props.C148_leveled",
    "OCG.Props.C148_file",
    "OCG.Props.C148_counterexample_bytes"
   ],
   "note": "Single precision; the pictures of the graph without the onlookers are those of C87, the cache is off. Executing the larger graph is assumed to return, or to be arranged in levels (C148_leveled), as C38 requires. A viewer that bakes everything is not among the onlookers: it does not ask for pixels (C127). A type that does not hold the values loses them (C148_counterexample_bytes)."
  },
  {
   "property": "C149",
   "status": "proved",
   "theorems": [
    "OCG.Props.C149_moved",
    "OCG.Props.C149_only",
    "OCG.Props.C149_order",
    "OCG.Props.C149_back",
    "OCG.Props.C149_node",
    "OCG.Props.C149_written"
   ],
   "note": "Single precision. Translations are given in pixels times the width of the display window, in both directions, because the code divides both by the width (C72). Assumed of the libraries: the cosine and sine of zero are one and zero, and try_inverse inverts a matrix that moves by whole numbers exactly. C149_node and C149_written connect this with the pictures of C87, hence with executions."
  },
  {
   "property": "C150",
   "status": "proved",
   "theorems": [
    "OCG.Props.C150_vertices",
    "OCG.Props.C150_pixels",
    "OCG.Props.C150_counterexample_negative"
   ],
   "note": "Single precision; the same assumptions on the libraries as in C149, and the data window starts at x = 0 (otherwise its offset moves the mesh, see C72). With a negative invert switch the mesh moves one way and the picture the other (C150_counterexample_negative, cf. C60)."
  },
  {
   "property": "C151",
   "status": "proved",
   "theorems": [
    "OCG.Props.C151_turned",
    "OCG.Props.C151_only",
    "OCG.Props.C151_mirror",
    "OCG.Props.C151_twice",
    "OCG.Props.C151_node",
    "OCG.Props.C151_rendered"
   ],
   "note": "Single precision; the cosine and sine of zero are taken to be 1 and 0, and the library is assumed to invert matrices of mirrors and whole moves exactly (InvertsTurns), which examples meet. The picture is that of C87 (CarriedOut). A mirror without the translation leaves the picture outside of its window, all but the first column. C151_node and C151_rendered state it for graphs: the files that an execution writes behind such transform nodes show the rearranged picture; an executed example mirrors a file."
  },
  {
   "property": "C152",
   "status": "proved",
   "theorems": [
    "OCG.Props.C152_node",
    "OCG.Props.C152_execution"
   ],
   "note": "OpenImageIO is assumed to give back what was handed to it (`OnDisk`), and the disk to be otherwise unchanged (`Saved`), as in C147. Single precision; the pictures are those of C87 (cache off). `Storable` asks that the type holds the values and, as in C147, that the display window starts at the origin (see C147_counterexample_origin for why)."
  },
  {
   "property": "C153",
   "status": "proved",
   "theorems": [
    "OCG.Props.C153_merged",
    "OCG.Props.C153_nodes",
    "OCG.Props.C153_written",
    "OCG.Props.C153_rendered"
   ],
   "note": "For pictures in the sense of C86/C87. `C153_merged` covers deformers that change the data window; for nodes the data window of the second input stays, since only then does a merge node show the moved picture (C86_counterexample_merge). Executions with the cache off."
  },
  {
   "property": "C154",
   "status": "partial",
   "theorems": [
    "OCG.Props.C154_vertices",
    "OCG.Props.C154_marks_partial",
    "OCG.Props.C154_counterexample_order"
   ],
   "note": "That the vertex still marks its pixel is proved where the order of the transforms does not matter (a single one, mirrors around the same axis, translations). It fails otherwise, in the code: `apply_deformers_to_pixels` goes through the inverses from the first to the last, and not from the last to the first. `C154_counterexample_order`: one pixel to the right and then mirrored, the picture and the mesh part."
  },
  {
   "property": "C155",
   "status": "proved",
   "theorems": [
    "OCG.Props.C155_joined",
    "OCG.Props.C155_whole",
    "OCG.Props.C155_many",
    "OCG.Props.C155_nodes",
    "OCG.Props.C155_rendered",
    "OCG.Props.C155_counterexample_overlap"
   ],
   "note": "Bit by bit, in IEEE single floats. Adding parts that overlap counts a pixel twice (`C155_counterexample_overlap`), hence the restriction. Crop nodes with `black_outside` switched on are not meant (see C86)."
  },
  {
   "property": "C156",
   "status": "partial",
   "theorems": [
    "OCG.Props.C156_patched",
    "OCG.Props.C156_graded",
    "OCG.Props.C156_nodes",
    "OCG.Props.C156_rendered",
    "OCG.Props.C156_counterexample_crash"
   ],
   "note": "The picture and the nodes are proved without restriction, and every execution that succeeds writes the right file. What is missing is that the execution succeeds: in the graph everyone would build (read, crop, grade, and a merge fed by the grade and the read node) the two ways to the read node differ in length, the merge is computed before the grade, and `execute` panics (`C156_counterexample_crash`, the defect of C38). With null nodes making the two ways equally long it is written right (example beside the theorem)."
  },
  {
   "property": "C157",
   "status": "proved",
   "theorems": [
    "OCG.Props.C157_cropped",
    "OCG.Props.C157_view",
    "OCG.Props.C157_panned",
    "OCG.Props.C157_nodes",
    "OCG.Props.C157_rendered"
   ],
   "note": "In IEEE single floats, with the assumptions of C149 and C151 on the linked libraries: sine and cosine are right at zero, and matrices that mirror and move by whole numbers are inverted exactly. The translations are given in the unit the code uses (C72). Crop nodes with `black_outside` switched on are not meant (see C86)."
  },
  {
   "property": "C158",
   "status": "proved",
   "theorems": [
    "OCG.Props.C158_sheet",
    "OCG.Props.C158_order",
    "OCG.Props.C158_display",
    "OCG.Props.C158_graded",
    "OCG.Props.C158_nodes",
    "OCG.Props.C158_rendered"
   ],
   "note": "Bit by bit, in IEEE single floats. The display window is not the same for all orders: it is that of the last picture (see C155)."
  },
  {
   "property": "C159",
   "status": "proved",
   "theorems": [
    "OCG.Props.C159_file",
    "OCG.Props.C159_rendered",
    "OCG.Props.C159_cached"
   ],
   "note": "The metadata that a file carries besides the window, the channels and the type (see C81, C104) is not compared."
  },
  {
   "property": "C160",
   "status": "proved",
   "theorems": [
    "OCG.Props.C160_node",
    "OCG.Props.C160_pictures",
    "OCG.Props.C160_unique",
    "OCG.Props.C160_rendered"
   ],
   "note": "Pictures of ordinary numbers (finite, no minus zero). What nodes with the cache show is the same (C138_shown, C159_cached)."
  },
  {
   "property": "C161",
   "status": "proved",
   "theorems": [
    "OCG.Props.C161_graded",
    "OCG.Props.C161_baked",
    "OCG.Props.C161_node",
    "OCG.Props.C161_pictures",
    "OCG.Props.C161_rendered",
    "OCG.Props.C161_cached"
   ],
   "note": "Nodes that let deformers wait (transform, lens) and nodes that look at the picture before they are carried out (resample) are not among those behind the exchanged parts; for these see C160, which asks for the same deformers waiting."
  },
  {
   "property": "C162",
   "status": "proved",
   "theorems": [
    "OCG.Props.C162_node",
    "OCG.Props.C162_pictures",
    "OCG.Props.C162_levels",
    "OCG.Props.C162_rendered"
   ],
   "note": "Limits: 4\u00b7(high\u2212low)\u00b2 < 2\u00b3\u00b9. That an execution returns is proved for graphs arranged in levels and assumed otherwise, as the code may crash for others without cycles (C38). Files are written in linear light (C138). By C160_unique there is only one such picture if all pictures are made of ordinary numbers. Deformers that are switched on, resampling, and viewers that crop or leave linear light are not among the nodes."
  }
 ]
}
