import Verif.Props.Again
import Verif.Props.Alike
import Verif.Props.Attrs
import Verif.Props.BBox
import Verif.Props.Bake
import Verif.Props.BakeDeform
import Verif.Props.Bars
import Verif.Props.Blocks
import Verif.Props.Brighter
import Verif.Props.Brownian
import Verif.Props.Builds
import Verif.Props.Built
import Verif.Props.Cache
import Verif.Props.CacheLimit
import Verif.Props.CacheRun
import Verif.Props.Center
import Verif.Props.Channels
import Verif.Props.Clamp
import Verif.Props.Collision
import Verif.Props.ColorOps
import Verif.Props.Commute
import Verif.Props.Compute
import Verif.Props.Config
import Verif.Props.Convert
import Verif.Props.Copy
import Verif.Props.CropEarly
import Verif.Props.Data
import Verif.Props.Decode
import Verif.Props.Defaults
import Verif.Props.Deform
import Verif.Props.DeformHash
import Verif.Props.DeformPixels
import Verif.Props.Enums
import Verif.Props.Exchange
import Verif.Props.Execute
import Verif.Props.Exposure
import Verif.Props.Farm
import Verif.Props.FileSame
import Verif.Props.FileShows
import Verif.Props.Frames
import Verif.Props.GradeError
import Verif.Props.GradeOrder
import Verif.Props.Graph
import Verif.Props.GraphIter
import Verif.Props.Hash
import Verif.Props.Host
import Verif.Props.Idle
import Verif.Props.IeeeColor
import Verif.Props.IeeeConfig
import Verif.Props.IeeeConvert
import Verif.Props.IeeeLut
import Verif.Props.IeeeMerge
import Verif.Props.IeeePlane
import Verif.Props.IeeeRemap
import Verif.Props.IeeeTransform
import Verif.Props.IeeeTypes
import Verif.Props.IeeeWindow
import Verif.Props.Image
import Verif.Props.Interp
import Verif.Props.Interpolate
import Verif.Props.Layers
import Verif.Props.Lens
import Verif.Props.Levels
import Verif.Props.Light
import Verif.Props.Local
import Verif.Props.Locality
import Verif.Props.Lut
import Verif.Props.LutStale
import Verif.Props.MatrixError
import Verif.Props.MergeMoved
import Verif.Props.Mesh
import Verif.Props.MeshPipeline
import Verif.Props.Metadata
import Verif.Props.MetadataCached
import Verif.Props.Moved
import Verif.Props.Names
import Verif.Props.NodeHash
import Verif.Props.Oiio
import Verif.Props.Onlook
import Verif.Props.Over
import Verif.Props.Patch
import Verif.Props.Path
import Verif.Props.Picture
import Verif.Props.PictureCached
import Verif.Props.PictureGraph
import Verif.Props.PictureResample
import Verif.Props.PixelBlock
import Verif.Props.Plane
import Verif.Props.Plugin
import Verif.Props.Precomp
import Verif.Props.PrecompCrop
import Verif.Props.Premultiplied
import Verif.Props.Preview
import Verif.Props.ReadFailure
import Verif.Props.RealNodes
import Verif.Props.Recall
import Verif.Props.Remap
import Verif.Props.Render
import Verif.Props.Replace
import Verif.Props.Rerun
import Verif.Props.ResampleNode
import Verif.Props.ReverseGrade
import Verif.Props.Room
import Verif.Props.Rows
import Verif.Props.Safe
import Verif.Props.Settle
import Verif.Props.SettleCached
import Verif.Props.Sheet
import Verif.Props.Shift
import Verif.Props.ShiftMesh
import Verif.Props.Shown
import Verif.Props.Simple
import Verif.Props.Sized
import Verif.Props.Slots
import Verif.Props.Srgb
import Verif.Props.StillFrames
import Verif.Props.Stops
import Verif.Props.StreamState
import Verif.Props.Threads
import Verif.Props.Tiles
import Verif.Props.Turn
import Verif.Props.TurnFile
import Verif.Props.TurnMesh
import Verif.Props.Undo
import Verif.Props.View
import Verif.Props.Walks
import Verif.Props.Xform
/-
Axioms used by each theorem named in MANIFEST.json (printed during the build).
-/

-- C01
#print axioms OCG.Props.C01_cache_bytes_exact
#print axioms OCG.Props.C01_cache_bytes_exact_raw_partial
#print axioms OCG.Props.C01_raw_counterexample
-- C02
#print axioms OCG.Props.C02_cache_within_capacity_partial
#print axioms OCG.Props.C02_cache_within_capacity_raw_partial
#print axioms OCG.Props.C02_counterexample
-- C03
#print axioms OCG.Props.C03_lookup_never_wrong
#print axioms OCG.Props.C03_lookup_after_insert
#print axioms OCG.Props.C03_lookup_complete
#print axioms OCG.Props.C03_request
-- C04
#print axioms OCG.Props.C04_eviction_is_lru
#print axioms OCG.Props.C04_eviction_order
-- C05
#print axioms OCG.Props.C05_zero_capacity_stores_nothing
-- C06
#print axioms OCG.Props.C06_shrink_fits
-- C07
#print axioms OCG.Props.C07_minimal_eviction_partial
#print axioms OCG.Props.C07_counterexample
-- C08
#print axioms OCG.Props.C08_counters
#print axioms OCG.Props.C08_lookup_counter_raw
-- C09
#print axioms OCG.Props.C09_no_underflow_partial
#print axioms OCG.Props.C09_profiles_agree_raw
#print axioms OCG.Props.C09_counterexample
-- C10
#print axioms OCG.Props.C10_combine_covers
#print axioms OCG.Props.C10_combine_smallest
#print axioms OCG.Props.C10_combine_least_edges
#print axioms OCG.Props.C10_combine_laws
#print axioms OCG.Props.C10_empty_counterexample
-- C11
#print axioms OCG.Props.C11_disjoint_zero
#print axioms OCG.Props.C11_largest_inside_both
#print axioms OCG.Props.C11_intersection_exact
#print axioms OCG.Props.C11_intersection_proper
-- C12
#print axioms OCG.Props.C12_columns
#print axioms OCG.Props.C12_columns_ordered
#print axioms OCG.Props.C12_rows_partial
#print axioms OCG.Props.C12_rows_counterexample
-- C13
#print axioms OCG.Props.C13_area_partial
#print axioms OCG.Props.C13_area_release_partial
#print axioms OCG.Props.C13_counterexample_debug
#print axioms OCG.Props.C13_counterexample_release
-- C14
#print axioms OCG.Props.C14_index_in_buffer
#print axioms OCG.Props.C14_index_disjoint
#print axioms OCG.Props.C14_index_onto
#print axioms OCG.Props.C14_out_of_range_partial
#print axioms OCG.Props.C14_counterexample_release
-- C15
#print axioms OCG.Props.C15_xy_of_index
#print axioms OCG.Props.C15_index_of_xy
#print axioms OCG.Props.C15_block_index
#print axioms OCG.Props.C15_block_index_counterexample
-- C16
#print axioms OCG.Props.C16_sub_window_copy
-- C17
#print axioms OCG.Props.C17_resize_same_type
#print axioms OCG.Props.C17_resize_other_type
-- C18
#print axioms OCG.Props.C18_convert_keeps_size
#print axioms OCG.Props.C18_convert_same
#print axioms OCG.Props.C18_convert_pointwise
-- C67
#print axioms OCG.Props.C67_byte_view_partial
#print axioms OCG.Props.C67_counterexample
-- C68
#print axioms OCG.Props.C68_stride_partial
#print axioms OCG.Props.C68_counterexample
-- C19
#print axioms OCG.Props.C19_float_hash_injective
#print axioms OCG.Props.C19_float_value_hash_injective
#print axioms OCG.Props.C19_decode
-- C20
#print axioms OCG.Props.C20_expand_partial
#print axioms OCG.Props.C20_no_hash
#print axioms OCG.Props.C20_nearest_frame
#print axioms OCG.Props.C20_double_nearest
#print axioms OCG.Props.C20_double_whole
#print axioms OCG.Props.C20_double_special
#print axioms OCG.Props.C20_counterexample
-- C21
#print axioms OCG.Props.C21_frames_distinct_partial
#print axioms OCG.Props.C21_counterexample
-- C22
#print axioms OCG.Props.C22_tris_in_range
#print axioms OCG.Props.C22_wire_in_range
#print axioms OCG.Props.C22_border_in_range
-- C23
#print axioms OCG.Props.C23_tris_exact
#print axioms OCG.Props.C23_wire_exact
#print axioms OCG.Props.C23_border_exact
#print axioms OCG.Props.C23_positions_exact
#print axioms OCG.Props.C23_uvs_exact
-- C24
#print axioms OCG.Props.C24_triangles_tile
-- C25
#print axioms OCG.Props.C25_uvs
#print axioms OCG.Props.C25_positions
#print axioms OCG.Props.C25_single_uvs
#print axioms OCG.Props.C25_single_apart
#print axioms OCG.Props.C25_single_positions
#print axioms OCG.Props.C25_counterexample_last
-- C61
#print axioms OCG.Props.C61_lerp_endpoints
#print axioms OCG.Props.C61_inverse_lerp
#print axioms OCG.Props.C61_remap_endpoints
#print axioms OCG.Props.C61_lerp_between
#print axioms OCG.Props.C61_single_endpoints
#print axioms OCG.Props.C61_single_remap
#print axioms OCG.Props.C61_single_error_partial
#print axioms OCG.Props.C61_counterexample_between
#print axioms OCG.Props.C61_counterexample_inverse
-- C69
#print axioms OCG.Props.C69_center_partial
#print axioms OCG.Props.C69_counterexample
-- C27
#print axioms OCG.Props.C27_unknown_edits
#print axioms OCG.Props.C27_unknown_queries
#print axioms OCG.Props.C27_unknown_attributes
#print axioms OCG.Props.C27_known_by_adding
-- C28
#print axioms OCG.Props.C28_add_partial
#print axioms OCG.Props.C28_slots
#print axioms OCG.Props.C28_counterexample
#print axioms OCG.Props.C28_duplicate_counterexample
-- C29
#print axioms OCG.Props.C29_removed_partial
#print axioms OCG.Props.C29_counterexample
-- C30
#print axioms OCG.Props.C30_connect_sets
#print axioms OCG.Props.C30_unique_partial
#print axioms OCG.Props.C30_counterexample
-- C31
#print axioms OCG.Props.C31_others_unchanged
#print axioms OCG.Props.C31_slot_emptied_partial
#print axioms OCG.Props.C31_counterexample
-- C32
#print axioms OCG.Props.C32_one_per_pair
#print axioms OCG.Props.C32_moves
-- C33
#print axioms OCG.Props.C33_edits_dirty
#print axioms OCG.Props.C33_only_execute_cleans
-- C36
#print axioms OCG.Props.C36_upstream_exact
-- C37
#print axioms OCG.Props.C37_inputs_in_slot_order
#print axioms OCG.Props.C37_strict
-- C38
#print axioms OCG.Props.C38_crash_iff
#print axioms OCG.Props.C38_real_nodes
#print axioms OCG.Props.C38_no_crash_partial
#print axioms OCG.Props.C38_inputs_first_partial
#print axioms OCG.Props.C38_tree_is_leveled
#print axioms OCG.Props.C38_counterexample
-- C39
#print axioms OCG.Props.C39_self_loop_partial
#print axioms OCG.Props.C39_no_frames_partial
#print axioms OCG.Props.C39_counterexample
-- C40
#print axioms OCG.Props.C40_composition_partial
#print axioms OCG.Props.C40_recursive_partial
#print axioms OCG.Props.C40_counterexample
-- C41
#print axioms OCG.Props.C41_status_stored
#print axioms OCG.Props.C41_success_iff_no_failure
#print axioms OCG.Props.C41_success_iff_partial
-- C42
#print axioms OCG.Props.C42_frames_in_order
-- C26
#print axioms OCG.Props.C26_mesh_partial
#print axioms OCG.Props.C26_file_partial
#print axioms OCG.Props.C26_unwritable
#print axioms OCG.Props.C26_counterexample
-- C60
#print axioms OCG.Props.C60_order_partial
#print axioms OCG.Props.C60_centre_iff
#print axioms OCG.Props.C60_inverse
#print axioms OCG.Props.C60_centre_counterexample
#print axioms OCG.Props.C60_negative_invert_counterexample
-- C62
#print axioms OCG.Props.C62_always_one
#print axioms OCG.Props.C62_single_always_one
#print axioms OCG.Props.C62_std
#print axioms OCG.Props.C62_percent_partial
#print axioms OCG.Props.C62_counterexample
-- C66
#print axioms OCG.Props.C66_DataTypeCode
#print axioms OCG.Props.C66_BakeOption
#print axioms OCG.Props.C66_MergeImageMode
#print axioms OCG.Props.C66_LensDistortDirection
#print axioms OCG.Props.C66_ImageOrientation
#print axioms OCG.Props.C66_DiskCacheImageType
#print axioms OCG.Props.C66_CropOnWrite
#print axioms OCG.Props.C66_JpegChromaSubSampling
#print axioms OCG.Props.C66_ExrCompression
-- C70
#print axioms OCG.Props.C70_first_file
-- C71
#print axioms OCG.Props.C71_to_float_exact
#print axioms OCG.Props.C71_to_half
#print axioms OCG.Props.C71_to_integer
#print axioms OCG.Props.C71_round_trip_u8
#print axioms OCG.Props.C71_round_trip_u16
#print axioms OCG.Props.C71_single_u8
#print axioms OCG.Props.C71_single_u16_partial
#print axioms OCG.Props.C71_counterexample_rounding
#print axioms OCG.Props.C100_nearest_u8
#print axioms OCG.Props.C100_nearest_u16
#print axioms OCG.Props.C100_u8_float
#print axioms OCG.Props.C100_u16_float
-- C72
#print axioms OCG.Props.C72_translate_partial
#print axioms OCG.Props.C72_counterexample
-- C34
#print axioms OCG.Props.C34_set_get
#print axioms OCG.Props.C34_others_unchanged
#print axioms OCG.Props.C34_unknown_name
#print axioms OCG.Props.C34_no_panic
-- C35
#print axioms OCG.Props.C35_exists_iff_supported
#print axioms OCG.Props.C35_documented
#print axioms OCG.Props.C35_in_graph
-- C43
#print axioms OCG.Props.C43_modes_shrink_partial
#print axioms OCG.Props.C43_requests_partial
#print axioms OCG.Props.C43_counterexample_disabled
#print axioms OCG.Props.C43_counterexample_option
-- C44
#print axioms OCG.Props.C44_hash_covers_partial
#print axioms OCG.Props.C44_hash_value_covers_partial
#print axioms OCG.Props.C44_only_work
#print axioms OCG.Props.C44_counterexample_direction
#print axioms OCG.Props.C44_counterexample_path
#print axioms OCG.Props.C44_counterexample_resample
-- C47
#print axioms OCG.Props.C47_in_order
#print axioms OCG.Props.C47_stream
#print axioms OCG.Props.C47_every_pixel
#print axioms OCG.Props.C47_downstream_after
#print axioms OCG.Props.C47_grade_appends
#print axioms OCG.Props.C47_grade_idle
#print axioms OCG.Props.C47_chain
#print axioms OCG.Props.C47_bake
-- C53
#print axioms OCG.Props.C53_default_identity_partial
#print axioms OCG.Props.C53_single_partial
#print axioms OCG.Props.C53_infinite
#print axioms OCG.Props.C53_counterexample_mix
-- C54
#print axioms OCG.Props.C54_reverse_undoes_partial
#print axioms OCG.Props.C54_gamma_alone_partial
#print axioms OCG.Props.C54_reverse_iff
#print axioms OCG.Props.C54_single_partial
#print axioms OCG.Props.C54_counterexample_gamma
-- C55
#print axioms OCG.Props.C55_unprocessed_unchanged_partial
#print axioms OCG.Props.C55_pixels_independent
#print axioms OCG.Props.C55_counterexample_nan
#print axioms OCG.Props.C55_single_partial
-- C57
#print axioms OCG.Props.C57_per_pixel
#print axioms OCG.Props.C57_identity
#print axioms OCG.Props.C57_compose
#print axioms OCG.Props.C57_scale
#print axioms OCG.Props.C57_single_identity
#print axioms OCG.Props.C57_single_accuracy
#print axioms OCG.Props.C57_single_compose
#print axioms OCG.Props.C57_counterexample_compose
-- C73
#print axioms OCG.Props.C73_grade_formula
#print axioms OCG.Props.C73_no_work
#print axioms OCG.Props.C73_other_channels
#print axioms OCG.Props.C73_reverse_formula
-- C48
#print axioms OCG.Props.C49_positions
#print axioms OCG.Props.C48_pixels_partial
#print axioms OCG.Props.C48_pixels_single
#print axioms OCG.Props.C48_bake_single
#print axioms OCG.Props.C48_pixels_none
#print axioms OCG.Props.C48_counterexample_order
#print axioms OCG.Props.C48_counterexample_direction
-- C49
#print axioms OCG.Props.C49_positions
#print axioms OCG.Props.C49_independent
#print axioms OCG.Props.C49_none
-- C56
#print axioms OCG.Props.C56_source_pixels
#print axioms OCG.Props.C56_count_mismatch
#print axioms OCG.Props.C56_nearest
#print axioms OCG.Props.C56_identity
#print axioms OCG.Props.C56_empty_source
#print axioms OCG.Props.C56_counterexample_offset
#print axioms OCG.Props.C56_counterexample_empty
#print axioms OCG.Props.C56_single_identity
#print axioms OCG.Props.C56_single_nearest_partial
-- C50
#print axioms OCG.Props.C50_crop_partial
#print axioms OCG.Props.C50_counterexample_black_outside
#print axioms OCG.Props.C50_counterexample_intersect
-- C51
#print axioms OCG.Props.C51_pixels
#print axioms OCG.Props.C51_unknown_mode
#print axioms OCG.Props.C51_over_without_alpha
#print axioms OCG.Props.C51_counterexample_one_channel
-- C52
#print axioms OCG.Props.C52_mix_zero_partial
#print axioms OCG.Props.C52_counterexample
#print axioms OCG.Props.C52_single_partial
-- C58
#print axioms OCG.Props.C58_entries
#print axioms OCG.Props.C58_one_channel
#print axioms OCG.Props.C58_size
#print axioms OCG.Props.C58_lattice
#print axioms OCG.Props.C58_exactly_once
#print axioms OCG.Props.C58_image
#print axioms OCG.Props.C58_transform
#print axioms OCG.Props.C58_single_axis
#print axioms OCG.Props.C58_single_white
#print axioms OCG.Props.C58_single_increasing
#print axioms OCG.Props.C58_single_lattice
#print axioms OCG.Props.C58_single_size
#print axioms OCG.Props.C58_counterexample_white
#print axioms OCG.Props.C58_counterexample_size
-- C59
#print axioms OCG.Props.C59_key_partial
#print axioms OCG.Props.C59_size
#print axioms OCG.Props.C59_kinds
#print axioms OCG.Props.C59_counterexample
-- C74
#print axioms OCG.Props.C74_cached_is_fresh_partial
#print axioms OCG.Props.C74_counterexample_grade
#print axioms OCG.Props.C74_counterexample_names
-- C75
#print axioms OCG.Props.C75_ops_lut
-- C46
#print axioms OCG.Props.C46_pass_through_partial
#print axioms OCG.Props.C46_counterexample_merge
#print axioms OCG.Props.C46_counterexample_viewer
-- C63
#print axioms OCG.Props.C63_windows_partial
#print axioms OCG.Props.C63_offset_iff
#print axioms OCG.Props.C63_sane_reads
#print axioms OCG.Props.C63_counterexample
-- C64
#print axioms OCG.Props.C64_length
#print axioms OCG.Props.C64_dimensions
#print axioms OCG.Props.C64_succeeds
#print axioms OCG.Props.C64_node
#print axioms OCG.Props.C64_beyond
#print axioms OCG.Props.C64_counterexample_beyond
-- C65
#print axioms OCG.Props.C65_no_write
#print axioms OCG.Props.C65_only_write_nodes
#print axioms OCG.Props.C65_one_job
#print axioms OCG.Props.C65_answer
#print axioms OCG.Props.C65_always_valid
#print axioms OCG.Props.C65_counterexample
-- C76
#print axioms OCG.Props.C76_read_inside_iff
#print axioms OCG.Props.C76_counterexample
-- C77
#print axioms OCG.Props.C77_channels_iff
#print axioms OCG.Props.C77_counterexample
-- C78
#print axioms OCG.Props.C78_own_fields
#print axioms OCG.Props.C78_exr
#print axioms OCG.Props.C78_lower
#print axioms OCG.Props.C78_other
#print axioms OCG.Props.C78_levels
-- C79
#print axioms OCG.Props.C79_color_space_partial
#print axioms OCG.Props.C79_counterexample
-- C80
#print axioms OCG.Props.C80_round_trip_partial
#print axioms OCG.Props.C80_shift
-- C81
#print axioms OCG.Props.C81_counterexample
-- C82
#print axioms OCG.Props.C82_transform_appends
#print axioms OCG.Props.C82_lens_appends
-- C83
#print axioms OCG.Props.C83_resets
-- C45
#print axioms OCG.Props.C45_cached_equals_uncached_partial
#print axioms OCG.Props.C45_warm_equals_cold_partial
#print axioms OCG.Props.C45_hash_determines_stream
#print axioms OCG.Props.C45_same_work
#print axioms OCG.Props.C45_recording
#print axioms OCG.Props.C45_counterexample_grade
#print axioms OCG.Props.C45_counterexample_direction
#print axioms OCG.Props.C45_counterexample_resample
#print axioms OCG.Props.C45_counterexample_path
#print axioms OCG.Props.C45_collision
#print axioms OCG.Props.C45_counterexample_collision
-- C84
#print axioms OCG.Props.C84_execution_changes_no_input
-- C85
#print axioms OCG.Props.C85_far_edits
-- C86
#print axioms OCG.Props.C86_null
#print axioms OCG.Props.C86_read
#print axioms OCG.Props.C86_grade
#print axioms OCG.Props.C86_grade_idle
#print axioms OCG.Props.C86_transform
#print axioms OCG.Props.C86_lens
#print axioms OCG.Props.C86_crop_partial
#print axioms OCG.Props.C86_resample_partial
#print axioms OCG.Props.C86_merge_partial
#print axioms OCG.Props.C86_viewer_grades
#print axioms OCG.Props.C86_viewer_all
#print axioms OCG.Props.C86_viewer_cropped
#print axioms OCG.Props.C86_viewer_space
#print axioms OCG.Props.C86_write
#print axioms OCG.Props.C86_counterexample_crop
#print axioms OCG.Props.C86_counterexample_merge
-- C87
#print axioms OCG.Props.C87_node
#print axioms OCG.Props.C87_graph_partial
#print axioms OCG.Props.C87_graph_returns_partial
#print axioms OCG.Props.C87_file_partial
#print axioms OCG.Props.C87_cached_partial
#print axioms OCG.Props.C87_cached_file_partial
#print axioms OCG.Props.C87_counterexample_viewer
-- C88
#print axioms OCG.Props.C88_once_per_walk
#print axioms OCG.Props.C88_count
#print axioms OCG.Props.C88_real_nodes
#print axioms OCG.Props.C88_once_partial
#print axioms OCG.Props.C88_counterexample
-- C89
#print axioms OCG.Props.C89_history
#print axioms OCG.Props.C89_streams
#print axioms OCG.Props.C89_deforms
#print axioms OCG.Props.C89_counterexample
-- C90
#print axioms OCG.Props.C90_same_hash_partial
#print axioms OCG.Props.C90_direction
#print axioms OCG.Props.C90_counterexample
-- C91
#print axioms OCG.Props.C91_points
#print axioms OCG.Props.C91_undo
-- C92
#print axioms OCG.Props.C92_smallest
#print axioms OCG.Props.C92_ieee
#print axioms OCG.Props.C92_covers_partial
#print axioms OCG.Props.C92_transforms
#print axioms OCG.Props.C92_counterexample
-- C93
#print axioms OCG.Props.C93_warning_iff
#print axioms OCG.Props.C93_unreadable
#print axioms OCG.Props.C93_folder
#print axioms OCG.Props.C93_counterexample_remembered
-- C94
#print axioms OCG.Props.C94_uncached
#print axioms OCG.Props.C94_stale
#print axioms OCG.Props.C94_counterexample
-- C95
#print axioms OCG.Props.C95_always_invalid
#print axioms OCG.Props.C95_counterexample
-- C96
#print axioms OCG.Props.C96_slices
#print axioms OCG.Props.C96_index_partial
#print axioms OCG.Props.C96_index
#print axioms OCG.Props.C96_counterexample
-- C97
#print axioms OCG.Props.C97_actual
#print axioms OCG.Props.C97_slice
#print axioms OCG.Props.C97_neutral
#print axioms OCG.Props.C97_documented_partial
#print axioms OCG.Props.C97_hash
#print axioms OCG.Props.C97_settings
#print axioms OCG.Props.C97_counterexample_undo
#print axioms OCG.Props.C97_counterexample_window
#print axioms OCG.Props.C97_counterexample_degree
-- C98
#print axioms OCG.Props.C98_matrix
#print axioms OCG.Props.C98_vector
#print axioms OCG.Props.C98_diagonal
#print axioms OCG.Props.C98_hash
#print axioms OCG.Props.C98_identity
#print axioms OCG.Props.C98_vector_identity
-- C99
#print axioms OCG.Props.C99_debug
#print axioms OCG.Props.C99_fits_partial
#print axioms OCG.Props.C99_counterexample
-- C100
#print axioms OCG.Props.C100_u8_float
#print axioms OCG.Props.C100_u16_float
#print axioms OCG.Props.C100_u8_to_u16
#print axioms OCG.Props.C100_u8_u16
#print axioms OCG.Props.C100_half_float
#print axioms OCG.Props.C100_image
#print axioms OCG.Props.C100_nearest_u8
#print axioms OCG.Props.C100_nearest_u16
#print axioms OCG.Props.C100_counterexample
-- C101
#print axioms OCG.Props.C101_pages
#print axioms OCG.Props.C101_close_partial
#print axioms OCG.Props.C101_counterexample
-- C102
#print axioms OCG.Props.C102_nearest
#print axioms OCG.Props.C102_whole
#print axioms OCG.Props.C20_double_nearest
#print axioms OCG.Props.C20_double_again
-- C103
#print axioms OCG.Props.C103_pixels_single
#print axioms OCG.Props.C103_bake_single
#print axioms OCG.Props.C103_positions_partial
#print axioms OCG.Props.C103_counterexample_single
#print axioms OCG.Props.C103_counterexample_window
-- C104
#print axioms OCG.Props.C104_keeps
#print axioms OCG.Props.C104_viewer
#print axioms OCG.Props.C104_viewer_cached
#print axioms OCG.Props.C104_session
#print axioms OCG.Props.C104_merge
#print axioms OCG.Props.C104_counterexample_merge
-- C105
#print axioms OCG.Props.C105_short
#print axioms OCG.Props.C105_visible
#print axioms OCG.Props.C105_block_partial
#print axioms OCG.Props.C105_collision
#print axioms OCG.Props.C105_counterexample
-- C106
#print axioms OCG.Props.C106_no_crash_partial
#print axioms OCG.Props.C106_capacity
#print axioms OCG.Props.C106_lut
#print axioms OCG.Props.C106_tidy
#print axioms OCG.Props.C106_single_floats
#print axioms OCG.Props.C106_single_luts
#print axioms OCG.Props.C106_settings_matter
-- C107
#print axioms OCG.Props.C107_over
#print axioms OCG.Props.C107_multiply
#print axioms OCG.Props.C107_add
#print axioms OCG.Props.C107_hidden
#print axioms OCG.Props.C107_seen
#print axioms OCG.Props.C107_node
#print axioms OCG.Props.C107_counterexample_add
#print axioms OCG.Props.C107_counterexample_straight
-- C108
#print axioms OCG.Props.C108_over
#print axioms OCG.Props.C108_single
#print axioms OCG.Props.C108_counterexample_mix
#print axioms OCG.Props.C108_counterexample_rgb
#print axioms OCG.Props.C108_counterexample_exact
-- C109
#print axioms OCG.Props.C109_order
#print axioms OCG.Props.C109_strict
#print axioms OCG.Props.C109_black
#print axioms OCG.Props.C109_white
#print axioms OCG.Props.C109_range
#print axioms OCG.Props.C109_nan
#print axioms OCG.Props.C109_image
#print axioms OCG.Props.C109_counterexample_half
-- C110
#print axioms OCG.Props.C110_middle
#print axioms OCG.Props.C110_inside_partial
#print axioms OCG.Props.C110_moves_partial
#print axioms OCG.Props.C110_mirror
#print axioms OCG.Props.C110_counterexample_inside
#print axioms OCG.Props.C110_counterexample_moves
#print axioms OCG.Props.C110_counterexample_far
-- C111
#print axioms OCG.Props.C111_new
#print axioms OCG.Props.C111_new_graph
#print axioms OCG.Props.C111_edits
#print axioms OCG.Props.C111_last
#print axioms OCG.Props.C111_counterexample_bytes
-- C112
#print axioms OCG.Props.C112_type
#print axioms OCG.Props.C112_defaults
#print axioms OCG.Props.C112_pass
#print axioms OCG.Props.C112_write
#print axioms OCG.Props.C112_transform
#print axioms OCG.Props.C112_grade_partial
#print axioms OCG.Props.C112_counterexample_crop
#print axioms OCG.Props.C112_counterexample_merge
-- C113
#print axioms OCG.Props.C113_decode
#print axioms OCG.Props.C113_encode
#print axioms OCG.Props.C113_order
#print axioms OCG.Props.C113_round_trip_partial
#print axioms OCG.Props.C113_round_trip_linear_partial
#print axioms OCG.Props.C113_range
#print axioms OCG.Props.C113_counterexample_order
#print axioms OCG.Props.C113_levels
#print axioms OCG.Props.C113_error
#print axioms OCG.Props.C113_image_partial
#print axioms OCG.Props.C113_counterexample_white
#print axioms OCG.Props.C113_counterexample_alpha
#print axioms OCG.Props.C113_counterexample_type
#print axioms OCG.Props.C113_size
#print axioms OCG.Props.C113_power_small
#print axioms OCG.Props.C113_counterexample_power
-- C114
#print axioms OCG.Props.C114_restored
#print axioms OCG.Props.C114_any
#print axioms OCG.Props.C114_last
#print axioms OCG.Props.C114_counterexample_overlap
#print axioms OCG.Props.C114_counterexample_config
-- C115
#print axioms OCG.Props.C115_deformed_plane
-- C116
#print axioms OCG.Props.C116_accuracy
-- C117
#print axioms OCG.Props.C117_output
#print axioms OCG.Props.C117_alike
#print axioms OCG.Props.C117_again
#print axioms OCG.Props.C117_cached_partial
#print axioms OCG.Props.C117_counterexample
-- C118
#print axioms OCG.Props.C118_positions
#print axioms OCG.Props.C118_rebuilt
#print axioms OCG.Props.C118_rebuilt_shown
#print axioms OCG.Props.C118_shared
#print axioms OCG.Props.C118_copied
#print axioms OCG.Props.C118_copied_uncached
#print axioms OCG.Props.C118_copied_cached
-- C119
#print axioms OCG.Props.C119_order
#print axioms OCG.Props.C119_counterexample_negative
#print axioms OCG.Props.C119_counterexample_strict
-- C120
#print axioms OCG.Props.C120_swap
#print axioms OCG.Props.C120_node
#print axioms OCG.Props.C120_grouping
#print axioms OCG.Props.C120_counterexample_mix
#print axioms OCG.Props.C120_counterexample_grouping
-- C121
#print axioms OCG.Props.C121_crop
#print axioms OCG.Props.C121_twice
#print axioms OCG.Props.C121_grade
#print axioms OCG.Props.C121_merge
#print axioms OCG.Props.C121_grade_nodes
#print axioms OCG.Props.C121_merge_nodes
#print axioms OCG.Props.C121_counterexample_outside
#print axioms OCG.Props.C121_counterexample_infinite
-- C122
#print axioms OCG.Props.C122_nodes
#print axioms OCG.Props.C122_downstream
#print axioms OCG.Props.C122_graph
#print axioms OCG.Props.C122_rewired
#print axioms OCG.Props.C122_counterexample_grades
#print axioms OCG.Props.C122_counterexample_between
-- C123
#print axioms OCG.Props.C123_node
#print axioms OCG.Props.C123_idle
#print axioms OCG.Props.C123_idle_leveled
#print axioms OCG.Props.C123_graph
#print axioms OCG.Props.C123_graph_leveled
#print axioms OCG.Props.C123_uncached
#print axioms OCG.Props.C123_cached
#print axioms OCG.Props.C123_bypass
#print axioms OCG.Props.C123_counterexample_merge
#print axioms OCG.Props.C123_counterexample_both
-- C124
#print axioms OCG.Props.C124_render_leveled_partial
#print axioms OCG.Props.C124_render_partial
#print axioms OCG.Props.C124_render_cached_partial
#print axioms OCG.Props.C124_all_there_partial
#print axioms OCG.Props.C124_counterexample_overwritten
#print axioms OCG.Props.C124_together
#print axioms OCG.Props.C124_farm
-- C125
#print axioms OCG.Props.C125_copy_partial
#print axioms OCG.Props.C125_copy_leveled_partial
#print axioms OCG.Props.C125_counterexample
-- C126
#print axioms OCG.Props.C126_layers
#print axioms OCG.Props.C126_outside
#print axioms OCG.Props.C126_node
#print axioms OCG.Props.C126_counterexample_infinite
#print axioms OCG.Props.C126_counterexample_rgb
#print axioms OCG.Props.C126_counterexample_white
-- C127
#print axioms OCG.Props.C127_nodes
#print axioms OCG.Props.C127_counterexample
-- C128
#print axioms OCG.Props.C128_names
#print axioms OCG.Props.C128_still
-- C129
#print axioms OCG.Props.C129_ignored
#print axioms OCG.Props.C129_ignored_op
#print axioms OCG.Props.C129_range_partial
#print axioms OCG.Props.C129_counterexample_black
#print axioms OCG.Props.C129_counterexample_white
-- C130
#print axioms OCG.Props.C130_cache
#print axioms OCG.Props.C130_images
#print axioms OCG.Props.C130_tables
#print axioms OCG.Props.C130_planes
#print axioms OCG.Props.C130_node
#print axioms OCG.Props.C130_execution
#print axioms OCG.Props.C130_session
#print axioms OCG.Props.C130_follows
-- C131
#print axioms OCG.Props.C131_file
#print axioms OCG.Props.C131_pictures
#print axioms OCG.Props.C131_execution
-- C132
#print axioms OCG.Props.C132_file
#print axioms OCG.Props.C132_pictures
#print axioms OCG.Props.C132_execution
-- C133
#print axioms OCG.Props.C133_debug
#print axioms OCG.Props.C133_release_partial
#print axioms OCG.Props.C133_counterexample
-- C134
#print axioms OCG.Props.C134_accuracy
#print axioms OCG.Props.C134_line
#print axioms OCG.Props.C134_counterexample
-- C135
#print axioms OCG.Props.C135_restored
#print axioms OCG.Props.C135_execution
#print axioms OCG.Props.C135_uncached
#print axioms OCG.Props.C135_removal_counterexample
#print axioms OCG.Props.C135_moved_counterexample
-- C136
#print axioms OCG.Props.C136_file
#print axioms OCG.Props.C136_pictures
#print axioms OCG.Props.C136_execution
#print axioms OCG.Props.C136_counterexample_infinite
-- C137
#print axioms OCG.Props.C137_transform
#print axioms OCG.Props.C137_lens
#print axioms OCG.Props.C137_grade
#print axioms OCG.Props.C137_brownian
-- C138
#print axioms OCG.Props.C138_written
#print axioms OCG.Props.C138_rendered
#print axioms OCG.Props.C138_cached
#print axioms OCG.Props.C138_shown
#print axioms OCG.Props.C138_faithful
#print axioms OCG.Props.C138_local
#print axioms OCG.Props.C138_channels
-- C139
#print axioms OCG.Props.C139_fits
#print axioms OCG.Props.C139_stops
#print axioms OCG.Props.C139_reverse
#print axioms OCG.Props.C139_steps
#print axioms OCG.Props.C139_undo
#print axioms OCG.Props.C139_counterexample
-- C140
#print axioms OCG.Props.C140_named
#print axioms OCG.Props.C140_whole
#print axioms OCG.Props.C140_streams
#print axioms OCG.Props.C140_apart
#print axioms OCG.Props.C140_together
#print axioms OCG.Props.C140_execute
#print axioms OCG.Props.C140_output
#print axioms OCG.Props.C140_luts
#print axioms OCG.Props.C140_calls
#print axioms OCG.Props.C140_questions
#print axioms OCG.Props.C140_new
-- C141
#print axioms OCG.Props.C141_node
#print axioms OCG.Props.C141_stored
#print axioms OCG.Props.C141_grows
#print axioms OCG.Props.C141_again_partial
-- C142
#print axioms OCG.Props.C142_room
#print axioms OCG.Props.C142_history
#print axioms OCG.Props.C142_more
#print axioms OCG.Props.C142_sharp
-- C143
#print axioms OCG.Props.C143_interpolated_partial
#print axioms OCG.Props.C143_fair
#print axioms OCG.Props.C143_counterexample
-- C144
#print axioms OCG.Props.C144_pictures
#print axioms OCG.Props.C144_execution
#print axioms OCG.Props.C144_counterexample_multiply
-- C145
#print axioms OCG.Props.C145_file
#print axioms OCG.Props.C145_pictures
#print axioms OCG.Props.C145_execution
#print axioms OCG.Props.C145_counterexample_opaque
#print axioms OCG.Props.C145_counterexample_negative
-- C146
#print axioms OCG.Props.C146_pictures
#print axioms OCG.Props.C146_execution
#print axioms OCG.Props.C146_counterexample_dark
#print axioms OCG.Props.C146_counterexample_multiply
-- C147
#print axioms OCG.Props.C147_file_partial
#print axioms OCG.Props.C147_pictures_partial
#print axioms OCG.Props.C147_execution_partial
#print axioms OCG.Props.C147_again
#print axioms OCG.Props.C147_shift
#print axioms OCG.Props.C147_counterexample_origin
-- C148
#print axioms OCG.Props.C148_node
#print axioms OCG.Props.C148_pictures
#print axioms OCG.Props.C148_execution
#print axioms OCG.Props.C148_leveled
#print axioms OCG.Props.C148_file
#print axioms OCG.Props.C148_counterexample_bytes
-- C149
#print axioms OCG.Props.C149_moved
#print axioms OCG.Props.C149_only
#print axioms OCG.Props.C149_order
#print axioms OCG.Props.C149_back
#print axioms OCG.Props.C149_node
#print axioms OCG.Props.C149_written
-- C150
#print axioms OCG.Props.C150_vertices
#print axioms OCG.Props.C150_pixels
#print axioms OCG.Props.C150_counterexample_negative
-- C151
#print axioms OCG.Props.C151_turned
#print axioms OCG.Props.C151_only
#print axioms OCG.Props.C151_mirror
#print axioms OCG.Props.C151_twice
#print axioms OCG.Props.C151_node
#print axioms OCG.Props.C151_rendered
-- C152
#print axioms OCG.Props.C152_node
#print axioms OCG.Props.C152_execution
-- C153
#print axioms OCG.Props.C153_merged
#print axioms OCG.Props.C153_nodes
#print axioms OCG.Props.C153_written
#print axioms OCG.Props.C153_rendered
-- C154
#print axioms OCG.Props.C154_vertices
#print axioms OCG.Props.C154_marks_partial
#print axioms OCG.Props.C154_counterexample_order
-- C155
#print axioms OCG.Props.C155_joined
#print axioms OCG.Props.C155_whole
#print axioms OCG.Props.C155_many
#print axioms OCG.Props.C155_nodes
#print axioms OCG.Props.C155_rendered
#print axioms OCG.Props.C155_counterexample_overlap
-- C156
#print axioms OCG.Props.C156_patched
#print axioms OCG.Props.C156_graded
#print axioms OCG.Props.C156_nodes
#print axioms OCG.Props.C156_rendered
#print axioms OCG.Props.C156_counterexample_crash
-- C157
#print axioms OCG.Props.C157_cropped
#print axioms OCG.Props.C157_view
#print axioms OCG.Props.C157_panned
#print axioms OCG.Props.C157_nodes
#print axioms OCG.Props.C157_rendered
-- C158
#print axioms OCG.Props.C158_sheet
#print axioms OCG.Props.C158_order
#print axioms OCG.Props.C158_display
#print axioms OCG.Props.C158_graded
#print axioms OCG.Props.C158_nodes
#print axioms OCG.Props.C158_rendered
-- C159
#print axioms OCG.Props.C159_file
#print axioms OCG.Props.C159_rendered
#print axioms OCG.Props.C159_cached
-- C160
#print axioms OCG.Props.C160_node
#print axioms OCG.Props.C160_pictures
#print axioms OCG.Props.C160_unique
#print axioms OCG.Props.C160_rendered
-- C161
#print axioms OCG.Props.C161_graded
#print axioms OCG.Props.C161_baked
#print axioms OCG.Props.C161_node
#print axioms OCG.Props.C161_pictures
#print axioms OCG.Props.C161_rendered
#print axioms OCG.Props.C161_cached
-- C162
#print axioms OCG.Props.C162_node
#print axioms OCG.Props.C162_pictures
#print axioms OCG.Props.C162_levels
#print axioms OCG.Props.C162_rendered
