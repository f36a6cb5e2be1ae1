{"id": "C01", "title": "Cache byte accounting is exact", "statement": "At every moment the number of bytes the cache reports as used equals the sum of the byte sizes of the images it currently holds.", "quantifier": "every history of graph executions, LUT requests and capacity changes on a cache of any capacity, with images of any size (each looks an image up and inserts it on a miss)", "why_tests_cant": "Accounting drift only shows after particular interleavings of inserts and evictions; a test fixes one finite history.", "anchors": ["src/cache.rs: CacheImpl::insert, get, evict, evict_bytes, evict_all, set_capacity_bytes, used_bytes"]}
{"id": "C02", "title": "Cache never holds more than its capacity", "statement": "After every call, the used byte count is at most the configured capacity.", "quantifier": "every history of cache calls and every image size", "why_tests_cant": "The bound must survive all interleavings of inserts, capacity shrinks and evictions, and every size/capacity ratio.", "anchors": ["src/cache.rs: CacheImpl::insert, set_capacity_bytes, evict_bytes"]}
{"id": "C03", "title": "A cache lookup never returns the wrong image", "statement": "A lookup of a key returns either nothing or exactly the image most recently inserted under that key.", "quantifier": "every history of cache calls and every key", "why_tests_cant": "Must hold for arbitrarily long histories with evictions and re-insertions between the insert and the lookup.", "anchors": ["src/cache.rs: CacheImpl::insert, get, evict"]}
{"id": "C04", "title": "Eviction is least-recently-used", "statement": "Whenever images are evicted, no surviving image was used (inserted or successfully looked up) less recently than an evicted one.", "quantifier": "every history of cache calls", "why_tests_cant": "The order relation ranges over all access patterns.", "anchors": ["src/cache.rs: CacheImpl::evict, get (get_refresh), insert"]}
{"id": "C05", "title": "A zero-capacity cache stores nothing", "statement": "While the capacity is zero, no insert ever stores anything, and every lookup reports a miss.", "quantifier": "every history of calls on a cache created with capacity zero and never given a positive capacity", "why_tests_cant": "It is a statement about all histories.", "anchors": ["src/cache.rs: CacheImpl::new, insert, evict_bytes, set_capacity_bytes; src/cache.cpp: Cache::Cache"]}
{"id": "C06", "title": "Shrinking the capacity makes the cache fit immediately", "statement": "After set_capacity_bytes(v) the capacity reads v and the used bytes do not exceed v; if the used bytes already did not exceed v no image is dropped.", "quantifier": "every reachable cache state and every new capacity", "why_tests_cant": "Depends on all resident sizes and on the old capacity value, which is still in force while evicting.", "anchors": ["src/cache.rs: CacheImpl::set_capacity_bytes, evict_bytes"]}
{"id": "C07", "title": "An insert that fits evicts nothing, and otherwise no more than needed", "statement": "If the image fits into the remaining capacity an insert evicts nothing; otherwise it evicts the shortest least-recently-used prefix that makes room.", "quantifier": "every reachable cache state and every image", "why_tests_cant": "Boundary cases (exact fit) lie on a hypersurface of the size space; minimality is a statement about all alternatives.", "anchors": ["src/cache.rs: CacheImpl::insert, evict_bytes"]}
{"id": "C08", "title": "Cache diagnostics counters agree with the history", "statement": "hits+misses equals the number of lookups, inserts equals the number of successful inserts, and the number of entries equals inserts minus evictions.", "quantifier": "every history of cache calls", "why_tests_cant": "Conservation law over unbounded histories.", "anchors": ["src/cache.rs: CacheImpl::hits, misses, inserts, evictions, len, data_debug_string"]}
{"id": "C09", "title": "Cache arithmetic never underflows", "statement": "No cache call panics, and no unsigned subtraction inside it wraps around.", "quantifier": "every history of cache calls and every image size, in debug (checked) and release (wrapping) builds", "why_tests_cant": "Underflow requires special combinations of sizes, capacity and residency that sampling rarely hits.", "anchors": ["src/cache.rs: CacheImpl::insert (capacity - value), evict (used -= value)"]}
{"id": "C10", "title": "Combining windows gives the smallest window covering both", "statement": "The combined window contains every pixel of both windows, and any window containing both contains it; the operation is commutative, associative and idempotent.", "quantifier": "all pairs/triples of integer windows", "why_tests_cant": "32-bit coordinates in eight dimensions.", "anchors": ["src/bbox/bbox2di.rs: BBox2Di::combine"]}
{"id": "C11", "title": "Window intersection is exactly the common pixels", "statement": "A pixel lies in the intersection window exactly when it lies in both windows, and the intersection never has negative size.", "quantifier": "all pairs of integer windows, including empty and inverted ones, and all pixels", "why_tests_cant": "32-bit coordinates in eight dimensions; touching, disjoint and inverted windows are separate branches.", "anchors": ["src/bbox/bbox2di.rs: BBox2Di::intersection"]}
{"id": "C12", "title": "Iterating a window visits each column and each row exactly once in order", "statement": "Row iteration yields exactly the columns of the window in increasing order without repetition, and rows iteration yields exactly height many rows.", "quantifier": "all windows", "why_tests_cant": "Off-by-one behaviour for every coordinate, including negative coordinates.", "anchors": ["src/bbox/bbox2di/row_iter.rs", "src/bbox/bbox2di/rows_iter.rs", "src/bbox/bbox2di/row.rs"]}
{"id": "C13", "title": "Reported window area is the number of pixels", "statement": "The area of a window equals the number of pixels in it.", "quantifier": "all non-inverted windows", "why_tests_cant": "The 32-bit product can wrap; only a proof delimits exactly when it does not.", "anchors": ["src/bbox/bbox2di.rs: BBox2Di::area, width, height"]}
{"id": "C14", "title": "Pixel addressing is a bijection onto the buffer", "statement": "For every in-range (x, y) the computed element index is within the buffer, distinct pixels/channels get distinct disjoint index ranges, every buffer element belongs to exactly one pixel, and out-of-range coordinates are reported as -1.", "quantifier": "all block sizes and all coordinates", "why_tests_cant": "Quadratic index arithmetic over unbounded dimensions.", "anchors": ["src/pixelblock/blocksize.rs: BlockSize::get_index, get_xy, size", "src/pixelblock/utils.rs: get_pixel_index"]}
{"id": "C15", "title": "Linear index and (x,y) conversions are inverse", "statement": "Converting a linear pixel index to coordinates and back (and vice versa) is the identity.", "quantifier": "all block sizes and all in-range indices", "why_tests_cant": "Division/remainder identities for all sizes.", "anchors": ["src/pixelblock/blocksize.rs: get_xy", "src/pixelblock/pixelblock/index.rs: BlockIndex::column, row, from_xy"]}
{"id": "C16", "title": "Copying a sub-window preserves every pixel", "statement": "A block created from another block through source/destination windows holds, at each destination pixel whose absolute position lies in the source window, exactly the source pixel at that position.", "quantifier": "all source blocks, all pairs of windows", "why_tests_cant": "Holds for every offset, sign combination and overlap shape.", "anchors": ["src/pixelblock/pixelblock.rs: PixelBlock::from_pixel_block"]}
{"id": "C17", "title": "Resizing a pixel buffer gives exactly the requested size", "statement": "After a resize the buffer holds width*height*channels elements of the requested type; if the type is unchanged the existing prefix of the data is kept and any growth is filled with the type's white value.", "quantifier": "all buffers, all target sizes and types", "why_tests_cant": "All combinations of old/new sizes and types.", "anchors": ["src/pixelblock/datablock.rs: DataBlock::data_resize", "src/pixelblock/pixelblock.rs: PixelBlock::data_resize"]}
{"id": "C18", "title": "Pixel type conversion keeps the element count and the image size", "statement": "Converting the element type of a pixel block never changes the number of elements, width, height or channels, and converting to the current type changes nothing.", "quantifier": "all blocks and all target types", "why_tests_cant": "All type pairs and all data lengths.", "anchors": ["src/pixelblock/datablock.rs: convert_into_data_type", "src/pixelblock/pixelblock.rs: convert_into_data_type"]}
{"id": "C19", "title": "Float attribute hashing distinguishes all bit patterns", "statement": "Two float values feed the same data to the hasher only if they have the same bit pattern.", "quantifier": "all pairs of 32-bit float bit patterns", "why_tests_cant": "2^64 pairs.", "anchors": ["src/hashutils.rs: integer_decode_f32, HashableF32"]}
{"id": "C20", "title": "Frame numbers expand into the path faithfully", "statement": "Expanding a path replaces the first run of '#' by the frame number zero-padded to at least the run length, and leaves the rest of the path untouched; a path without '#' is unchanged.", "quantifier": "all paths, all frame numbers", "why_tests_cant": "All strings, all run lengths, all frames including negative ones.", "anchors": ["src/pathutils.rs: find_frame_padding_index_range, create_expanded_string, expand_string"]}
{"id": "C21", "title": "Different frames never share an expanded path", "statement": "For a path containing a '#' run, two different frame numbers expand to two different paths.", "quantifier": "all paths with a '#', all pairs of frames", "why_tests_cant": "Quantifies over pairs of frames and all paths.", "anchors": ["src/pathutils.rs: expand_string"]}
{"id": "C22", "title": "Plane index buffers only reference existing vertices", "statement": "Every index written to the triangle, border-line and wire-line buffers is smaller than the vertex count.", "quantifier": "all division counts of at least two in each axis", "why_tests_cant": "Index arithmetic for unbounded grid sizes.", "anchors": ["src/geom/plane.rs: get_indexes, fill_buffer_index_tris, fill_buffer_index_border_lines, fill_buffer_index_wire_lines"]}
{"id": "C23", "title": "Plane buffer sizes match exactly what the fill functions write", "statement": "A buffer allocated with the advertised size is completely overwritten by the corresponding fill call, which never writes outside it.", "quantifier": "all division counts (at least one per axis) and all buffer contents", "why_tests_cant": "Exactness for all grid sizes.", "anchors": ["src/geom/plane.rs: calc_buffer_size_*, fill_buffer_*"]}
{"id": "C24", "title": "Plane triangles tile the grid", "statement": "Each grid cell is covered by exactly two triangles sharing the cell's diagonal with consistent winding, and no triangle spans two cells.", "quantifier": "all grid sizes and all cells", "why_tests_cant": "All cells of all grids.", "anchors": ["src/geom/plane.rs: fill_buffer_index_tris"]}
{"id": "C25", "title": "Plane vertices and UVs form the advertised grid", "statement": "Vertex (row, col) has UV (col/(dx-1), 1-row/(dy-1)) and a position that interpolates linearly between the plane's corners; corners map to UV corners.", "quantifier": "all grid sizes with at least two divisions, all sizes and centers", "why_tests_cant": "All grids; real-valued statement.", "anchors": ["src/geom/plane.rs: fill_buffer_vertex_positions, fill_buffer_vertex_uvs"]}
{"id": "C26", "title": "Exported mesh is well-formed and one-based", "statement": "The exported OBJ text has one line per vertex, UV and triangle, and each face line references index+1. Exporting replaces the file at the path by that text and touches no other file.", "quantifier": "all buffers", "why_tests_cant": "All buffer lengths and contents.", "anchors": ["src/geom.rs: export_mesh"]}
{"id": "C27", "title": "Operations on unknown nodes change nothing", "statement": "Setting attributes on, connecting, disconnecting or removing a node identifier that was never added leaves the graph (nodes, connections, state) unchanged, and queries report missing/default values.", "quantifier": "all graphs, all identifiers not present", "why_tests_cant": "All graph histories.", "anchors": ["src/graph.rs: remove_node, set_node_attr_*, get_node_attr_*, node_status, connect, disconnect_input"]}
{"id": "C28", "title": "Adding nodes always succeeds and makes them visible", "statement": "Adding a node never panics, returns its index, and afterwards the node exists with its attributes.", "quantifier": "all graph histories", "why_tests_cant": "Depends on all previous add/remove operations.", "anchors": ["src/graph.rs: add_node, node_exists, remove_node"]}
{"id": "C29", "title": "A removed node no longer exists", "statement": "After remove_node(id) returns true, node_exists(id) is false, its attributes are missing, and connecting to it is a harmless no-op.", "quantifier": "all graph histories", "why_tests_cant": "Depends on history.", "anchors": ["src/graph.rs: remove_node, node_exists, connect"]}
{"id": "C30", "title": "Each input slot has at most one source", "statement": "After any history of connect/disconnect/remove calls, each (node, input number) has at most one incoming connection, and connect(src,dst,i) makes src the source of slot i.", "quantifier": "all histories of graph edits", "why_tests_cant": "Requires particular interleavings of connections on other slots.", "anchors": ["src/graph.rs: connect, disconnect_input"]}
{"id": "C31", "title": "Disconnecting an input empties that input and nothing else", "statement": "After disconnect_input(dst, i) no connection into slot i of dst remains and all other connections are unchanged.", "quantifier": "all graphs, nodes and slots", "why_tests_cant": "Depends on edge insertion order.", "anchors": ["src/graph.rs: disconnect_input"]}
{"id": "C32", "title": "A pair of nodes has at most one connection", "statement": "There is never more than one connection from one node to the same other node; connecting the same pair again moves the connection to the new slot.", "quantifier": "all histories of graph edits", "why_tests_cant": "All histories.", "anchors": ["src/graph.rs: connect (update_edge)"]}
{"id": "C33", "title": "Any edit marks the graph dirty", "statement": "After a successful add, remove, connect, effective disconnect or attribute set on a known node, the graph state is Dirty; only a fully successful execute makes it Clean.", "quantifier": "all histories of API calls", "why_tests_cant": "State machine over all histories.", "anchors": ["src/graph.rs: state, add_node, remove_node, connect, disconnect_input, set_node_attr_*, execute"]}
{"id": "C34", "title": "Setting an attribute is read back and affects nothing else", "statement": "After setting an existing attribute of a node to v, reading it gives v, and every other attribute of every node is unchanged; setting an unknown name changes no attribute.", "quantifier": "all node types, attribute names and values, all graphs", "why_tests_cant": "All names times all values times all node types; wrong table rows are easily missed.", "anchors": ["src/graph.rs: set_node_attr_*, get_node_attr_*", "src/node.rs: set_attr_*, get_attr_*", "src/node/*.rs: attr tables"]}
{"id": "C35", "title": "Attribute existence agrees with readability", "statement": "node_attr_exists reports Exists exactly for the names that some typed setter/getter of that node type supports.", "quantifier": "all node types and all names", "why_tests_cant": "All strings.", "anchors": ["src/node/*.rs: attr_exists, get_attr_*, set_attr_*"]}
{"id": "C36", "title": "Upstream search visits exactly the upstream nodes, once each", "statement": "Executing from a node considers that node first, and then every node from which it can be reached through connections, each exactly once, and no others.", "quantifier": "all graphs (including cyclic ones), all start nodes, any order used to break ties", "why_tests_cant": "All graph shapes.", "anchors": ["src/graphiter.rs: UpstreamEvalSearch::new, next", "src/graph.rs: find_all_upstream_nodes"]}
{"id": "C37", "title": "Direct inputs are delivered in input-slot order", "statement": "The inputs given to a node's computation are exactly its distinct connected sources other than itself, ordered by input number.", "quantifier": "all graphs and nodes", "why_tests_cant": "All graph shapes and slot numbers.", "anchors": ["src/graph.rs: find_direct_upstream_nodes", "src/graphiter.rs: next"]}
{"id": "C38", "title": "Executing an acyclic graph never crashes and computes inputs first", "statement": "For any acyclic graph, execute returns a status without panicking, and each node is computed only after all its inputs were computed.", "quantifier": "all acyclic graphs and start nodes", "why_tests_cant": "All DAG shapes.", "anchors": ["src/graph.rs: execute, execute_frame, compute_node_input_stream_data, compute_node_input_hash_values"]}
{"id": "C39", "title": "Executing a cyclic graph fails gracefully", "statement": "If the graph contains a cycle reachable from the executed node, execute still terminates with a status rather than crashing or hanging.", "quantifier": "all graphs", "why_tests_cant": "All graph shapes.", "anchors": ["src/graph.rs: execute_frame"]}
{"id": "C40", "title": "Execution result is the composition of the node functions", "statement": "On success the output stream is the one obtained by recursively applying each node's compute function to the results of its inputs in slot order.", "quantifier": "all graphs on which execution succeeds, all node types", "why_tests_cant": "All graph shapes times node behaviours.", "anchors": ["src/graph.rs: execute_frame, compute_node_output"]}
{"id": "C41", "title": "Execute status reflects the outcome", "statement": "execute returns Error for an unknown start node, Success exactly when every frame computed every node without Error status, and the returned status equals the stored execute status.", "quantifier": "all graphs, frame lists, and node outcomes", "why_tests_cant": "All combinations of node failures and frames.", "anchors": ["src/graph.rs: execute, execute_status, compute_node_output"]}
{"id": "C42", "title": "Frames are executed in order and the output is that of the last frame", "statement": "Executing a list of frames equals executing the frames one by one in order, stopping at the first failing frame.", "quantifier": "all graphs and all frame lists", "why_tests_cant": "All frame list lengths.", "anchors": ["src/graph.rs: execute"]}
{"id": "C43", "title": "Disabled-by-mode requests only shrink upstream", "statement": "The set of work requested from an input never includes work that was not requested from the node itself, and one mode is produced for each input.", "quantifier": "all node types, request modes, attribute values and input counts", "why_tests_cant": "All combinations of modes, types and inputs along arbitrarily long chains.", "anchors": ["src/node/*.rs: validate_inputs", "src/graph.rs: execute_frame", "src/data.rs: NodeComputeMode"]}
{"id": "C44", "title": "Node hash covers everything that affects the result", "statement": "If two node evaluations have the same hash (absent collisions of the underlying hash function) then they have the same node type, the same relevant attribute values for the frame, and inputs with equal hashes.", "quantifier": "all pairs of node evaluations of every node type", "why_tests_cant": "Quantifies over pairs of full attribute blocks.", "anchors": ["src/node/traits.rs: cache_hash", "src/node/*.rs: attr_hash"]}
{"id": "C45", "title": "Cached results equal recomputed results", "statement": "Executing with a warm cache gives the same output stream as executing with an empty cache.", "quantifier": "all graphs, all cache histories (absent hash collisions)", "why_tests_cant": "All histories of previous executions sharing the cache.", "anchors": ["src/node/read_image.rs, crop_image.rs, merge_image.rs, resample_image.rs, viewer.rs: compute; src/cache.rs"]}
{"id": "C46", "title": "A disabled node passes its input through", "statement": "With enable set to 0, crop, resample, grade, transform, lens and merge produce their (first/B) input image unchanged.", "quantifier": "all inputs and all other attribute values", "why_tests_cant": "All attribute values and streams.", "anchors": ["src/node/*.rs: compute"]}
{"id": "C47", "title": "Colour operations apply in graph order and disabled ones are skipped", "statement": "Baking a stream applies exactly its enabled colour operations, in the order the nodes were connected upstream-to-downstream.", "quantifier": "all operation lists and pixel buffers", "why_tests_cant": "All list lengths and operations.", "anchors": ["src/coloroputils.rs: apply_color_ops_to_pixels", "src/node/grade.rs: compute", "src/stream.rs: push_color_op"]}
{"id": "C48", "title": "Deformers apply in order to geometry, and in reverse order inverted to pixels", "statement": "Applying a stream's deformers to positions applies the enabled ones in order, and applying them to pixels is the inverse mapping.", "quantifier": "all deformer lists and buffers", "why_tests_cant": "All list lengths and deformers.", "anchors": ["src/deformutils.rs: apply_deformers_to_positions, apply_deformers_to_pixels"]}
{"id": "C49", "title": "Position deformation touches only x and y of each vertex", "statement": "Applying deformers to a 3-component position buffer changes only the first two components of complete triples, treats each vertex independently, and keeps the buffer length.", "quantifier": "all buffers and deformers", "why_tests_cant": "All buffers.", "anchors": ["src/deformutils.rs: apply_deformers_to_positions", "src/deformer/transform.rs: apply_slice_in_place", "src/deformer/tde4_classic.rs: apply_slice_in_place"]}
{"id": "C50", "title": "Cropping keeps pixels in place", "statement": "After a crop the data window is the requested window (or its intersection with the old data window), each remaining pixel has the value it had at the same absolute position, and newly uncovered pixels are black.", "quantifier": "all images, windows and option combinations", "why_tests_cant": "All window pairs and options.", "anchors": ["src/ops/imagecrop.rs: crop_image_in_place", "src/node/crop_image.rs"]}
{"id": "C51", "title": "Merging covers both images and applies the mode's formula per pixel", "statement": "The merged data window is the smallest window covering both inputs and each pixel is the blend-mode formula applied to the pixels of A and B at that position, missing pixels counting as transparent black.", "quantifier": "all image pairs with any windows and channel counts, all modes and mix values", "why_tests_cant": "All offsets and shapes.", "anchors": ["src/ops/imagemerge.rs: merge, get_pixel_rgba", "src/node/merge_image.rs"]}
{"id": "C52", "title": "Merge mix of zero leaves B unchanged", "statement": "With mix 0 the merged pixels equal B's pixels at each position.", "quantifier": "all images and modes", "why_tests_cant": "All pixel values.", "anchors": ["src/ops/imagemerge.rs: merge"]}
{"id": "C53", "title": "Grade with default settings is the identity", "statement": "A grade with black point 0, white point 1, black 0, white 1, multiply 1, offset 0, gamma 1 does not change any pixel value, forwards or reversed.", "quantifier": "all pixel values and channel counts", "why_tests_cant": "Real-valued statement over all pixels.", "anchors": ["src/ops/colorgrade.rs: grade_single, grade, apply_color_grade_inplace"]}
{"id": "C54", "title": "Reversing a grade undoes it", "statement": "Applying a grade and then the same grade with reverse enabled returns the original pixel values.", "quantifier": "all grade parameters for which the grade is invertible, and all pixel values", "why_tests_cant": "All parameter combinations; real-valued.", "anchors": ["src/ops/colorgrade.rs: grade_single"]}
{"id": "C55", "title": "A grade only touches the channels it is told to process", "statement": "Channels whose process flag is off, and alpha unless requested, are returned unchanged; pixels are processed independently.", "quantifier": "all buffers, channel counts and flags", "why_tests_cant": "All buffers and flags.", "anchors": ["src/ops/colorgrade.rs: apply_color_grade_inplace, grade"]}
{"id": "C56", "title": "Remapping pixels samples only inside the source image", "statement": "Every output pixel of a pixel remap is the value of the source pixel nearest to the requested coordinate (clamped to the image), and no access is out of bounds.", "quantifier": "all images, coordinate buffers and output sizes", "why_tests_cant": "All coordinates.", "anchors": ["src/ops/pixelremap.rs: pixels_remap_coords", "src/pixel.rs: get_pixel_rgb, get_pixel_rgba"]}
{"id": "C57", "title": "Colour matrix application is per-pixel linear", "statement": "Applying a colour matrix multiplies each pixel vector by the matrix; identity leaves pixels unchanged and applying M then N equals applying N*M for RGBA images.", "quantifier": "all matrices and buffers", "why_tests_cant": "Algebraic law for all matrices.", "anchors": ["src/ops/xformcolor.rs: apply_color_matrix_inplace"]}
{"id": "C58", "title": "The identity 3D LUT enumerates the whole cube", "statement": "The identity LUT has the advertised size, and its entry for (r,g,b) is (r,g,b)/(n-1), each lattice colour occurring exactly once.", "quantifier": "all cube sizes of at least two", "why_tests_cant": "All cube sizes and entries.", "anchors": ["src/colorlutimage.rs"]}
{"id": "C59", "title": "LUT cache keys identify the colour transform", "statement": "Two colour-transform LUT requests share a cache entry only if source space, destination space and cube size are all equal.", "quantifier": "all pairs of requests (absent hash collisions)", "why_tests_cant": "All pairs of strings.", "anchors": ["src/colorlutimage.rs: get_color_transform_3dlut"]}
{"id": "C60", "title": "2D transform matrices compose and invert as documented", "statement": "With the SRT order a point is scaled, then rotated about the given centre, then translated; the transform of a non-singular configuration is undone by its inverse.", "quantifier": "all parameters and points", "why_tests_cant": "Real-valued algebraic law.", "anchors": ["src/math/xform.rs: create_transform_2d", "src/deformer/transform.rs: _apply"]}
{"id": "C61", "title": "Interpolation helpers are inverse and hit endpoints", "statement": "lerp hits both endpoints, inverse_lerp undoes lerp on non-degenerate ranges, and remap maps the old range's ends to the new range's ends.", "quantifier": "all ranges and mixes", "why_tests_cant": "Real-valued law.", "anchors": ["src/math/interp.rs: lerp, inverse_lerp, remap"]}
{"id": "C62", "title": "Configured cache percentage is honoured", "statement": "The RAM fraction used for the cache is the configured percentage clamped to the range 0 to 1.", "quantifier": "all configured percentages", "why_tests_cant": "All float values; a clamp with swapped bounds passes any single-point test at that point.", "anchors": ["src/config.rs: ConfigCache::ram_capacity_percent"]}
{"id": "C63", "title": "Reading a file places pixels relative to the display window", "statement": "After reading, the display window starts at (0,0) and the data window has the file's data size and the same offset relative to the display window as in the file.", "quantifier": "all file headers (data origin, display origin, sizes)", "why_tests_cant": "All header values; most test files have display origin zero.", "anchors": ["src/oiio_utils.cpp: oiio_allocate_image"]}
{"id": "C64", "title": "Resampled image dimensions stay within limits", "statement": "The resampled image has width and height between 1 and 16384, equal to the source size times 2^factor when that is within the limits.", "quantifier": "all source sizes and factors", "why_tests_cant": "All sizes and factors.", "anchors": ["src/ops/imageresample.cpp: oiio_image_resample"]}
{"id": "C65", "title": "Writing reports failure", "statement": "A write node whose image could not be written does not report Valid, and a write node never writes when execution of writing is disabled.", "quantifier": "all inputs, paths and I/O outcomes", "why_tests_cant": "Needs all I/O outcomes.", "anchors": ["src/node/write_image.rs: compute", "src/imageio.rs: write_image", "src/imageio.cpp: oiio_write_image"]}
{"id": "C66", "title": "Enumeration codes round-trip", "statement": "Every defined enumeration code converts to the value with that code, and every other integer converts to the Uninitialized/Unknown value.", "quantifier": "all 32-bit integers", "why_tests_cant": "All integers.", "anchors": ["src/cxxbridge.rs: From<i32> impls"]}
{"id": "C67", "title": "The byte view of an image covers the whole image", "statement": "The byte buffer handed out for an image stream has exactly as many bytes as the image data occupies.", "quantifier": "all images of every element type and size", "why_tests_cant": "A test fixes one element type and size; the claim relates the two lengths for all of them.", "anchors": ["src/stream.rs: StreamDataImpl::pixel_buffer", "src/pixelblock/utils.rs: transmute_slice_*"]}
{"id": "C68", "title": "The reported channel stride is the stride of the buffer", "statement": "The number of channels per pixel reported for a channel count and element type is the number of elements between neighbouring pixels in the buffer.", "quantifier": "all channel counts and element types", "why_tests_cant": "Ranges over all combinations.", "anchors": ["src/pixelblock/utils.rs: stride_num_channels", "src/pixelblock/blocksize.rs: get_index"]}
{"id": "C69", "title": "The generated plane is centred at its configured centre", "statement": "The middle between opposite corners of the generated vertex grid is the configured centre.", "quantifier": "all centres, sizes and division counts of at least 2", "why_tests_cant": "A test with the default centre (0, 0) passes; the claim ranges over all centres.", "anchors": ["src/geom/plane.rs: fill_buffer_vertex_positions"]}
{"id": "C70", "title": "The configuration file is the first one on the search path", "statement": "The configuration is loaded from the first directory of OPENCOMPGRAPH_CONFIG_PATH that contains the named file; if no directory contains it the default configuration is used.", "quantifier": "all search paths, file systems and file names", "why_tests_cant": "The search depends on the environment and the file system; no finite set of directory layouts covers all of them.", "anchors": ["src/config.rs: get_config_path, get_config"]}
{"id": "C71", "title": "Converting pixel types keeps the brightness", "statement": "Converting a pixel value to 32-bit float keeps its brightness exactly; converting a brightness in 0..1 to an integer type gives the highest step that is not brighter; 8-bit and 16-bit values survive the way to float and back.", "quantifier": "all pixel types and values (exact arithmetic)", "why_tests_cant": "Floats cannot be enumerated, and sampling a few values does not find a wrong scale factor at the ends of the range.", "anchors": ["src/pixelblock/utils.rs: convert_datablock_enum_to_f32, _f16, _u16, _u8"]}
{"id": "C72", "title": "Translation is relative to the image window", "statement": "A transform with unit scale and no rotation moves every point by translate_x over the window width and translate_y over the window height; a translation of zero moves nothing.", "quantifier": "all translations, windows and points", "why_tests_cant": "Square windows that start at zero hide a mix-up of axes and offsets; the property is about every window.", "anchors": ["src/deformer/transform.rs: _apply"]}
{"id": "C73", "title": "A grade computes its formula for each channel from that channel's settings", "statement": "With something to do and reverse off, a grade replaces every value p of every complete pixel of a 1, 3 or 4 channel buffer by the mix of p and the gamma curve of the straight line given by that channel's black point, white point, lift, gain, multiply and offset; without anything to do it returns the buffer as it was; with any other channel count it panics.", "quantifier": "all buffers, all settings, all float semantics", "why_tests_cant": "Twenty-eight settings feed four channels; tests with equal settings on all channels cannot see two of them exchanged.", "anchors": ["src/ops/colorgrade.rs: grade_single, grade, apply_color_grade_inplace", "src/colorop/colorgrade.rs: apply_slice_in_place"]}
{"id": "C74", "title": "A cached LUT is the LUT that would be computed afresh", "statement": "In every sequence of LUT requests and capacity changes on one cache, each answer is the table that the same request would compute without any cache.", "quantifier": "all sequences of requests, cache capacities and cache states reachable from an empty cache (absent hash collisions)", "why_tests_cant": "The number of cache histories is unbounded, and a wrong key only shows when two particular requests meet in one history.", "anchors": ["src/colorlutimage.rs: get_color_transform_3dlut, get_color_ops_lut", "src/cache.rs: CacheImpl::get, insert, set_capacity_bytes"]}
{"id": "C75", "title": "The LUT of colour operations tabulates the operations", "statement": "Entry (r, g, b) of the LUT generated for a list of colour operations is what the operations make of the lattice colour (r, g, b)/(n-1), in order and with disabled operations skipped.", "quantifier": "all cube sizes of at least 2 that fit 32 bits, all lists of operations (exact arithmetic)", "why_tests_cant": "Ranges over all operation lists and cube sizes.", "anchors": ["src/colorlutimage.rs: generate_color_ops_lut", "src/ops/bake.rs: do_process_colorgrade"]}
{"id": "C76", "title": "Reading a file never writes outside the pixel buffer", "statement": "Every value that is stored while a file is read lies inside the buffer allocated for the image.", "quantifier": "all file headers with at least three channels, all pixel types", "why_tests_cant": "Memory errors depend on the header of the file; only unusual files (many channels, small types) trigger them, and the overrun need not crash.", "anchors": ["src/imageio.cpp: oiio_read_image", "src/oiio_utils.cpp: oiio_allocate_image", "src/pixelblock/utils.rs: stride_num_channels"]}
{"id": "C77", "title": "Resampling keeps the channels and the pixel type", "statement": "The resampled image has the same pixel type and the same number of channels as the source.", "quantifier": "all source images and factors", "why_tests_cant": "All combinations of types and channel counts; common images have four channels, which hides the padding.", "anchors": ["src/ops/imageresample.cpp: oiio_image_resample", "src/oiio_utils.cpp: oiio_allocate_image"]}
{"id": "C78", "title": "Compression settings reach the file they belong to", "statement": "The compression attributes of a written file depend only on the settings for its format; different EXR compressions give different attributes, and the DWA level is passed on unchanged exactly for the DWA compressions.", "quantifier": "all paths and settings", "why_tests_cant": "All paths and combinations of settings; wrong attributes still give readable files.", "anchors": ["src/imageio.cpp: oiio_write_image"]}
{"id": "C79", "title": "The colour space and cropping of a written file follow its format", "statement": "Files that are written as PNG or JPEG get sRGB pixels and other files linear ones; only files without a data window are cropped to the display window automatically.", "quantifier": "all paths", "why_tests_cant": "The format is recognised in two places in two languages; tests use a few lower case names.", "anchors": ["src/node/write_image.rs: do_image_process", "src/imageio.cpp: oiio_write_image"]}
{"id": "C80", "title": "Writing an image and reading it back keeps its windows and metadata", "statement": "An image written with oiio_write_image and read again has the same display window, data window, dimensions and metadata.", "quantifier": "all images whose blocks fill their data windows", "why_tests_cant": "All window positions; files with the display window at the origin hide sign errors.", "anchors": ["src/imageio.cpp: oiio_write_image, oiio_read_image", "src/oiio_utils.cpp: oiio_construct_spec, oiio_allocate_image"]}
{"id": "C81", "title": "Written files carry the metadata of the image", "statement": "The colour space, gamma, aspect and orientation handed to the file are those of the image that is written.", "quantifier": "all images, paths and settings", "why_tests_cant": "Metadata is invisible in pixel comparisons; a statement about all images is needed.", "anchors": ["src/imageio.rs: write_image"]}
{"id": "C82", "title": "Transform and lens nodes hand their settings on", "statement": "An enabled transform or lens node appends exactly one enabled deformer to the deformers of its input; every setting of the deformer that the node has an attribute for equals that attribute, and image, windows and colour operations are unchanged.", "quantifier": "all attribute values and input streams", "why_tests_cant": "Settings are copied one by one by name; a test with default values does not notice one that is missing or exchanged.", "anchors": ["src/node/transform.rs: compute", "src/node/lens_distort.rs: compute", "src/stream.rs: push_deformer"]}
{"id": "C83", "title": "After baking a stream carries exactly what was not baked", "statement": "Baking everything leaves an identity colour matrix, no colour operations and no deformers; baking the grade keeps the deformers; baking the colour space keeps all operations; baking nothing changes nothing.", "quantifier": "all streams, options, colour spaces and pixel types", "why_tests_cant": "An operation that stays on the stream is applied twice later; all streams are quantified over.", "anchors": ["src/ops/bake.rs: do_process, do_process_stream_colorgrade"]}
{"id": "C84", "title": "Executing changes no settings and no connections", "statement": "An execution leaves every identifier, every connection and every attribute of every node as it was, and does not touch the status of nodes that are not upstream of the executed node.", "quantifier": "all reachable graphs, nodes, frames and worlds", "why_tests_cant": "Execution rewrites the node table; a test compares a few attributes of a few nodes after one run.", "anchors": ["src/graph.rs: execute, execute_frame", "src/graph.rs: compute_node_output"]}
{"id": "C85", "title": "Edits elsewhere do not change a result", "statement": "Adding, removing, connecting, disconnecting or editing nodes that are not upstream of the executed node changes neither the status, nor the output, nor the effects of its execution.", "quantifier": "all reachable graphs, all finite sequences of such edits, all frames and worlds", "why_tests_cant": "Quantifies over pairs of graphs; node indices are reused after removals, so unrelated edits could shift what is computed.", "anchors": ["src/graph.rs: add_node, remove_node, connect, disconnect_input, execute"]}
{"id": "C86", "title": "The picture after a node is the node's operation on the pictures before it", "statement": "Take the picture of a stream to be its pixels in linear light with everything waiting in the stream carried out. A read node shows the picture of its file, a grade node the picture with its operation applied to every pixel, a transform or lens node the picture moved by its deformer, a crop node the picture cut out by its window, a resample node the picture scaled by a power of two, a merge node the two pictures blended, a baking viewer the same picture in the colour space and pixel type asked for, and a write node hands that picture, cropped or not, to the file.", "quantifier": "all images with 1, 3 or 4 channels, all attribute values, colour libraries and pixel types", "why_tests_cant": "Pixels, windows, colour space and waiting operations are kept apart in a stream; an operation that is forgotten or applied twice shows only for particular combinations.", "anchors": ["src/node/read_image.rs: compute", "src/node/grade.rs: compute", "src/node/crop_image.rs: compute", "src/node/resample_image.rs: compute", "src/node/merge_image.rs: compute", "src/node/viewer.rs: compute", "src/node/write_image.rs: compute", "src/ops/bake.rs: do_process"]}
{"id": "C87", "title": "The picture of a whole graph is the composition of its nodes", "statement": "If every node upstream of the executed one has a picture, files those of the read nodes and every other node the picture its operation makes of the pictures of its inputs, then executing succeeds and the output shows the picture of the executed node for the last frame; if that node writes files, the last file written holds that picture.", "quantifier": "all reachable graphs of read, null, grade, transform, lens, crop, merge, viewer and write nodes, all settings, frames and files", "why_tests_cant": "A test runs a handful of graphs; the composition must hold for graphs of every size and shape and for stale outputs left from earlier executions.", "anchors": ["src/graph.rs: execute, execute_frame", "src/graph.rs: compute_node_output", "src/node/viewer.rs: validate_inputs"]}
{"id": "C88", "title": "Each node is computed once per frame", "statement": "However many nodes use its output, a node upstream of the executed node is computed exactly once for every frame.", "quantifier": "all reachable graphs, node semantics and frame lists", "why_tests_cant": "The number of computations depends on the shape of the whole graph; it is invisible in the output and can grow exponentially with the number of nodes.", "anchors": ["src/graph.rs: execute_frame (validate loop, compute loop)"]}
{"id": "C89", "title": "A lens deformer in a stream deforms with the settings of its node", "statement": "The settings of a lens deformer reach the lens plugin only when they are committed, and a copy starts a plugin of its own. A deformer that a lens node puts in a stream deforms every point and every box with exactly the settings of that node, however often the stream is copied; settings the plugin refuses make the node panic before any deformer reaches a stream.", "quantifier": "all lens plugins, all attribute values, all histories of setting, committing and copying, all points, boxes and windows", "why_tests_cant": "The settings live twice, in Rust and inside a C++ object; whether the two agree depends on the whole history of the object.", "anchors": ["src/deformer/tde4_classic.rs: set_attr_f32, commit_data, apply_slice_in_place", "src/node/lens_distort.rs: compute", "src/deformer/ldpk_utils.cpp: set_parameter_value_f64, initialize_parameters"]}
{"id": "C90", "title": "Equal deformer hashes mean equal deformations", "statement": "Two deformers that feed the same bytes to the hasher deform alike: they are the same deformer with the same settings, or both are disabled.", "quantifier": "all transform and lens deformers with attribute values that fit their types", "why_tests_cant": "The hash decides whether a cached image is reused; a setting that does not enter it gives stale pixels only when two particular graphs run one after the other.", "anchors": ["src/deformer/transform.rs: Hash", "src/deformer/tde4_classic.rs: Hash"]}
{"id": "C91", "title": "A lens deformer undistorts or distorts as its direction says", "statement": "A lens deformer takes the position of a point in the window, undistorts it (direction 0) or distorts it (direction 1) and puts it back in the window; run backwards it does the opposite. If the plugin's two functions undo each other, running a deformer forwards and backwards gives every point back.", "quantifier": "all lens plugins, deformers, windows with an area and points (exact arithmetic)", "why_tests_cant": "Points are mapped into and out of the window around an opaque C++ call; samples near the centre do not show a swapped direction or edge.", "anchors": ["src/deformer/tde4_classic.rs: _apply, apply_slice_in_place", "src/deformer/ldpk_utils.cpp"]}
{"id": "C92", "title": "The window of a deformed image covers the deformed image", "statement": "Wherever the deformers carry a point of the data window, it lies in the data window of the deformed image, which is rounded outwards to the smallest window that contains the deformed box.", "quantifier": "all deformer lists, windows and points (exact arithmetic)", "why_tests_cant": "A window one pixel too small cuts off a line of the image only for particular sizes and lens settings.", "anchors": ["src/deformutils.rs: apply_deformers_to_pixels", "src/deformer/tde4_classic.rs: apply_bounding_box", "src/deformer.rs: apply_bounding_box"]}
{"id": "C93", "title": "A read node says whether its file could be read", "statement": "A ReadImage node that is asked for pixels warns when the file could not be read, and is Valid only if it shows the file.", "quantifier": "all read nodes, files, frames, caches and histories", "why_tests_cant": "Files may be missing, folders, unreadable, or change between executions; each case goes through a different branch, partly through the cache.", "anchors": ["src/node/read_image.rs: compute", "src/imageio.rs: read_image", "src/imageio.cpp: oiio_read_image"]}
{"id": "C94", "title": "Executing again shows the current files", "statement": "When a file changes on disk, executing the graph again shows the new contents.", "quantifier": "all graphs, files, caches left by any earlier executions, frames", "why_tests_cant": "It takes two executions with a change of the outside world in between, and depends on what the cache kept.", "anchors": ["src/node/read_image.rs: compute", "src/graph.rs: execute", "src/cache.rs: get"]}
{"id": "C95", "title": "The state of a stream tells whether it may be used", "statement": "After a successful execution the state of the output stream is Valid, and Invalid otherwise.", "quantifier": "all graphs, nodes, files, caches and frames", "why_tests_cant": "The state is a field that any of the nodes might or might not set on any of its paths.", "anchors": ["src/stream.rs: state, set_state, new", "src/graph.rs: execute"]}
{"id": "C96", "title": "A row of an image holds its pixels however it is accessed", "statement": "Iterating over the rows of an image visits all rows from top to bottom; a row read as a slice holds the pixels of that row from left to right, and so does a row read by index.", "quantifier": "all image sizes and pixel values", "why_tests_cant": "Strides that agree for one channel or for the first row differ elsewhere.", "anchors": ["src/pixelblock/pixelblock/row.rs: as_slice, index, next", "src/pixelblock/pixelblock.rs: rows"]}
{"id": "C97", "title": "The Brownian deformer follows its documented formula", "statement": "A Brownian deformer moves a point as its documentation says: away from the centre by k1 r^2 + k2 r^4, where r is the distance from the centre in the window; running it backwards undoes it; without coefficients it moves nothing.", "quantifier": "all settings, windows and points (exact arithmetic)", "why_tests_cant": "A formula with a radius in the wrong unit and a doubled power agrees with the right one for many convenient values.", "anchors": ["src/deformer/brownian.rs: _apply, Hash, set_attr_f32, get_attr_f32"]}
{"id": "C98", "title": "Matrices and vectors keep their entries across the language bridge", "statement": "Converting a matrix or vector between the form handed to C++ and the form used for computing keeps every entry in its place; the identity matrix is neutral; equal hash input means equal values.", "quantifier": "all matrices and vectors", "why_tests_cant": "A transposed or swapped entry is invisible in symmetric or diagonal samples.", "anchors": ["src/data/matrix.rs: to_na_matrix, from_na_matrix, identity, from_diagonal, Hash", "src/data/vector4f32.rs: to_na_vector, from_na_vector, Hash", "src/data/vector4i32.rs: to_na_vector, from_na_vector"]}
{"id": "C99", "title": "Images have the pixels they claim to have", "statement": "The output of a graph, the images in the cache, lookup tables and the pixels handed over for writing have exactly one value for every channel of every pixel of their data window, whatever is done with the library.", "quantifier": "all histories of executions of all graphs, capacity changes and lookup tables sharing one cache", "why_tests_cant": "A buffer of the wrong length only shows when somebody reads the missing values; tests look at images of a few known sizes.", "anchors": ["src/pixelblock/pixelblock.rs: from_pixel_block, data_resize", "src/ops/imagecrop.rs: crop_image_in_place", "src/ops/imagemerge.rs: merge", "src/deformutils.rs: apply_deformers_to_pixels", "src/oiio_utils.cpp: oiio_allocate_image"]}
{"id": "C100", "title": "Pixels survive conversion to a wider type and back", "statement": "Converting an image to a pixel type that has at least as many digits and back again gives the same pixels: u8 or u16 to f32 and back, u8 to u16 and back, f16 to f32 and back, u8 to f16 and back.", "quantifier": "all pixel values of the type, all images", "why_tests_cant": "Whether a quotient that was rounded and then multiplied and cut off comes back depends on rounding in every single case; a test with a few values (0, 255) passes for conversions that lose others.", "anchors": ["src/pixelblock/utils.rs: convert_datablock_enum_to_f32, convert_datablock_enum_to_f16, convert_datablock_enum_to_u16, convert_datablock_enum_to_u8", "src/pixelblock/datablock.rs: convert_into_data_type"]}
{"id": "C101", "title": "The configured cache never needs more memory than the machine has", "statement": "The cache capacity in bytes that the configuration gives is at most the memory of the machine, and with a configured share of 100 percent or more it is exactly that memory.", "quantifier": "all configurations, all amounts of memory", "why_tests_cant": "The number of bytes goes through a 32-bit float; whether it comes back depends on its low digits, and a machine running the tests has just one amount of memory.", "anchors": ["src/config.rs: ram_capacity_bytes, cache_ram_capacity_bytes, ram_capacity_percent"]}
{"id": "C102", "title": "Frames count through the nearest whole number", "statement": "Executing a graph at a list of frames does exactly what executing it at the nearest whole frames does: same status, same streams, same cache contents, same files. The overload that takes whole frames agrees with the one that takes doubles.", "quantifier": "all graphs, nodes, worlds and lists of frames", "why_tests_cant": "A test compares a few frames on one graph; that no node anywhere uses the fraction of a frame is a statement about all of them.", "anchors": ["src/graph.cpp: Graph::execute", "src/graph.rs: execute", "src/node/read_image.rs: hash, compute", "src/node/write_image.rs: hash, compute"]}
{"id": "C103", "title": "A transform with default settings changes nothing", "statement": "Executing a transform deformer whose attributes all have their default values leaves every pixel of a picture and every vertex of a mesh exactly where it was, like an execution without the deformer.", "quantifier": "all pictures, meshes, data windows and display windows", "why_tests_cant": "The pixel a picture is sampled at goes through a division, a product, a matrix and a rounding for every pixel; a test with small pictures does not show at which size the wrong neighbour is first picked.", "anchors": ["src/deformer/transform.rs: default, _apply", "src/deformutils.rs: apply_deformers_to_pixels, apply_deformers_to_positions", "src/ops/bake.rs: do_process", "src/math/xform.rs: create_transform_2d"]}
{"id": "C104", "title": "The metadata of a picture stays with it", "statement": "What a file tells about its picture besides the pixels (pixel aspect, orientation, gamma, kind of alpha, dither) is found unchanged in the streams of all nodes that the picture goes through, and no stream, cached image or lookup table ever has metadata that is neither plain nor that of a file.", "quantifier": "all nodes, settings, inputs, cache states, and all sessions of edits, executions and lookup tables", "why_tests_cant": "A picture with square pixels and the usual orientation, as tests use, has the metadata of a new image, so losing it on the way shows nothing.", "anchors": ["src/imagespec.rs: ImageSpec", "src/node/merge_image.rs: compute", "src/node/crop_image.rs: compute", "src/node/viewer.rs: compute, do_viewer_bake", "src/ops/bake.rs: do_process", "src/imageio.cpp: oiio_read_image"]}
{"id": "C105", "title": "Nodes with different names are different nodes", "statement": "Creating nodes with different names gives different nodes: all of them exist afterwards, every query by name answers for the node created with that name, and names that were not used are unknown.", "quantifier": "all lists of node types and names, all names to ask for", "why_tests_cant": "Names become 64-bit hash values without any check for collisions; tests use a few names, and no list of names shows that there are no two that collide.", "anchors": ["src/hashutils.rs: generate_id_from_name, calculate_hash", "src/graph.cpp: create_node", "src/graph.rs: add_node, find_node_index_from_id"]}
{"id": "C106", "title": "Reasonable use never crashes the host application", "statement": "As long as all windows, crop settings and image headers stay within moderate limits, no setting has an unknown number, and the cache is off or has room for one picture, executing any node of any graph without cycles returns; it succeeds unless OpenImageIO fails to resample a picture. This stays true after any number of executions of any graphs that share the cache, and changing the capacity of the cache never crashes.", "quantifier": "all graphs, settings, files, frames, matrices, colours, histories of executions and capacity changes, both builds", "why_tests_cant": "A crash needs one combination of node settings, inputs, window sizes, cache contents and history; the library panics instead of returning errors in many places, and tests visit a handful of combinations.", "anchors": ["src/graph.rs: execute, execute_frame", "src/ops/bake.rs: do_process", "src/ops/imagecrop.rs: crop_image_in_place", "src/ops/imagemerge.rs: merge", "src/cache.rs: insert, set_capacity_bytes", "src/node/read_image.rs: compute", "src/node/merge_image.rs: compute", "src/node/viewer.rs: compute"]}
{"id": "C107", "title": "Merging premultiplied pictures gives a premultiplied picture", "statement": "If no colour of two four-channel pictures is larger than its alpha and every alpha is between 0 and 1, then the same holds for the result of merging them with Over or Multiply and a mix between 0 and 1, in single-precision floats with all rounding. With Over no pixel becomes darker or more transparent than in A, B is hidden where A is opaque, and with mix 1 B is seen unchanged where A is transparent. With Add no colour is larger than alpha.", "quantifier": "all pictures, windows, pixel values and mixes between 0 and 1", "why_tests_cant": "Rounding could push alpha above 1 or a colour above alpha for some of the 2^128 pairs of channel values; the bound only holds because of how rounding at 1 and monotonicity work together.", "anchors": ["src/ops/imagemerge.rs: merge, get_pixel_rgba", "src/node/merge_image.rs: compute"]}
{"id": "C108", "title": "Pictures laid over each other can be grouped in any way", "statement": "For three four-channel pictures, (A over B) over C and A over (B over C) with mix 1 have the same windows, channels and colour space, and the same pixels in exact arithmetic. In single-precision floats the channels of premultiplied pictures differ by at most 15/2^25.", "quantifier": "all pictures, windows and pixel values", "why_tests_cant": "A node graph can be regrouped in unboundedly many ways; whether rounding errors stay bounded cannot be seen from samples.", "anchors": ["src/ops/imagemerge.rs: merge", "src/node/merge_image.rs: compute"]}
{"id": "C109", "title": "Changing the type of pixels keeps the order of brightness", "statement": "Converting pixels between bytes, 16-bit integers, half floats and 32-bit floats, in any direction, never exchanges the order of two values: a value at most as bright stays at most as bright, infinities included. Black stays black, white stays white, and values between them stay between them. Levels of bytes stay different in every type and levels of 16 bits in 32-bit floats. What is not a number becomes black in integer types.", "quantifier": "all pairs of values of all 16 pairs of types", "why_tests_cant": "There are 2^64 pairs of 32-bit floats; overflow to infinity, saturation and two roundings in a row could break the order for any of them.", "anchors": ["src/pixelblock/utils.rs: convert_datablock_enum_to_f32, convert_datablock_enum_to_f16, convert_datablock_enum_to_u16, convert_datablock_enum_to_u8", "src/pixelblock/pixelblock.rs: convert_into_data_type"]}
{"id": "C110", "title": "The centre of a window is in the window and moves with it", "statement": "The centre that a window reports is the middle of its edges up to half a pixel, is a pixel of the window if the window is not empty, moves with the window and is mirrored with it.", "quantifier": "all windows of 32-bit integers and all shifts", "why_tests_cant": "Integer division truncates towards zero, so the result depends on the side of the origin, and the sum of two edges can overflow.", "anchors": ["src/bbox/bbox2di.rs: center"]}
{"id": "C111", "title": "Until something is computed a graph shows the documented colour bars", "statement": "A new graph shows the colour bars that are documented for debugging: four bright and four dark colours with the video levels 235 and 16. Adding, removing, connecting, disconnecting and editing nodes, executing a node that is not there and executing no frames leave the output as it is; any other execution that returns leaves the output of its last computation, also when that one failed.", "quantifier": "all sequences of edits, graphs, node semantics and executions", "why_tests_cant": "Every call could replace the output; which node computed last depends on the graph and on failures.", "anchors": ["src/data.rs: COLOR_BARS", "src/pixelblock/pixelblock.rs: new_color_bars", "src/stream.rs: new", "src/graph.rs: output_stream, add_node, remove_node, connect, disconnect_input, execute"]}
{"id": "C112", "title": "A new node changes nothing until it is set up", "statement": "A node created for a type is of that type, has the usual value of every attribute, and passes on the picture of its input.", "quantifier": "all node types, attributes, reachable graphs and input streams", "why_tests_cant": "Ten node types with up to 38 attributes, and pictures of all kinds with operations and deformers waiting.", "anchors": ["src/node.rs: create_node, create_node_box_with_id", "src/node/*.rs: new, compute"]}
{"id": "C113", "title": "The sRGB conversions follow the standard and undo each other", "statement": "Pixels exchanged with the image crate are decoded and encoded with the sRGB curve of IEC 61966-2-1. The two directions undo each other, keep black, white and the order, and reading an 8-bit image and writing it again gives the same image.", "quantifier": "all values, all samples, all sizes and samples of images, both profiles", "why_tests_cant": "The curve has two parts that have to meet, the power function is an approximation that reads bits as a logarithm, and images have any size.", "anchors": ["src/colorutils.rs: convert_srgb_to_linear, convert_linear_to_srgb", "src/pixelblock/dynimage.rs: from_dynamic_image", "src/imagebuffer.rs: create_image_buffer_rgb_u8, create_image_buffer_rgba_u8"]}
{"id": "C114", "title": "Reading and writing files leaves the number of threads of OpenImageIO alone", "statement": "While a file is read or written the library changes the number of threads of OpenImageIO, a setting the host application shares. Afterwards the number is the one the host had chosen, and each file is handled with the number of threads the configuration asks for.", "quantifier": "all numbers of threads, all sequences and all interleavings of calls from any number of threads of the host", "why_tests_cant": "Which value is restored depends on how calls from several threads of the host interleave; a test sees one interleaving.", "anchors": ["src/imageio.rs: read_image, write_image", "src/imageio.cpp: oiio_get_thread_count, oiio_set_thread_count", "src/node/read_image.rs: compute", "src/node/write_image.rs: do_image_process", "src/config.rs: num_threads"]}
{"id": "C115", "title": "An exported plane shows the grid moved by the deformers of the stream", "statement": "A plane is filled into buffers of the advertised sizes, its positions are moved by a stream and the result is exported as a mesh file. A reader of the file finds one vertex and one texture coordinate per grid point: the vertex is the grid point carried through the enabled deformers in their order in the stream, with height zero; the texture coordinate is that of the grid point before it was moved. There are two faces per cell, and they name the cell's four corners. No step panics.", "quantifier": "all planes whose vertices can be counted in 32 bits with at least two vertices per side, all streams whose enabled lens deformers have a known direction, all previous contents of the buffers, both build profiles", "why_tests_cant": "The result combines four buffers filled by separate code with numbering conventions (rows, columns, components, numbers from one) that must agree for every size of the grid; tests compare only the sizes of the buffers.", "anchors": ["src/geom/plane.rs: fill_buffer_vertex_positions, fill_buffer_vertex_uvs, fill_buffer_index_tris", "src/stream.rs: apply_deformers", "src/deformutils.rs: apply_deformers_to_positions", "src/geom.rs: export_mesh"]}
{"id": "C116", "title": "Merging is as accurate as single floats allow", "statement": "Merging two pictures of single floats gives finite values, and each of them is the exact blend of the two pictures (sum, Over or product with the mix) up to a small multiple of the precision of single floats relative to the largest value in the pictures.", "quantifier": "all pictures with 3 or 4 channels whose values are bounded (below 2^126 for Add and Over, 2^63 for Multiply), all windows, all mixes between 0 and 1, alpha of A between 0 and 1 for Over", "why_tests_cant": "The error of several roundings depends on all bits of all operands, and the worst case is not known in advance; tests compare a few values with a tolerance.", "anchors": ["src/ops/imagemerge.rs: merge"]}
{"id": "C117", "title": "Executing again without changes shows the same picture", "statement": "Executing a node depends on the nodes above it, their settings, their connections and the files, and not on what was executed before: after any executions in between, of any nodes and frames, the same execution gives the same status, the same picture and the same written files as on the fresh graph.", "quantifier": "all graphs reached by editing and executing, all sequences of executions in between (with any files and caches at the time), all frame lists, all outputs left behind", "why_tests_cant": "The graph keeps its last output and hands it to the next computation; whether it leaks into a new picture depends on which node is computed first and what it is asked for, which differs with each graph and setting.", "anchors": ["src/graph.rs: execute, execute_frame, compute_node_output", "src/node/read_image.rs: compute", "src/node/viewer.rs: compute, validate_inputs"]}
{"id": "C118", "title": "It does not matter how a graph was built", "statement": "Two graphs with the same nodes, settings and connections give the same status, the same output, the same written files in the same order and leave the same cache, in whatever order their nodes were added and connected and whatever identifiers they have. Whether two nodes share an input or each have a copy of it does not matter either: without the cache or with caches used in a regular way, and if every node makes a picture of its own or of its inputs, the one graph succeeds with the same output as the other.", "quantifier": "all pairs of graphs reached by editing and executing whose input slots have one source each, all one-to-one or (for copies) one-to-many correspondences of their nodes, all frame lists, all caches (for copies: switched off, used by no node, or used in a regular way before)", "why_tests_cant": "The scheduler works with positions in lists, a queue and hash tables keyed by position; a dependence on insertion order shows only for particular orders of building, of which every graph has a huge number.", "anchors": ["src/graph.rs: execute, execute_frame, find_all_upstream_nodes, find_direct_upstream_nodes, connect, add_node", "src/graphiter.rs: next", "src/node.rs: hash"]}
{"id": "C119", "title": "Grading never swaps bright and dark", "statement": "Colour operations whose settings rise (black point below white point, lift not above gain, multiplication not negative, a rising gamma curve or none, mix between 0 and 1) keep the order of brightness of any two pixels in a channel: what was not brighter before is not brighter after, in single precision arithmetic with all its rounding and overflow, forwards or reversed, for any number of operations, unless a result is not a number.", "quantifier": "all lists of colour operations with rising settings for the channel, all buffers with 1, 3 or 4 channels, all pairs of pixels, all single precision values", "why_tests_cant": "Every step of the formula rounds; whether rounding can turn a small difference around depends on the 2^64 pairs of values and on all settings, and a test tries a handful.", "anchors": ["src/ops/colorgrade.rs: grade_single, grade, apply_color_grade_inplace", "src/colorop/colorgrade.rs: apply_slice_in_place", "src/coloroputils.rs: apply_color_ops_to_pixels"]}
{"id": "C120", "title": "Sums and products of pictures do not depend on the order", "statement": "Exchanging the two inputs of a merge node that adds or multiplies with a mix of 1 gives the same windows with pixels and the same pixels bit by bit; only the display window is always that of the second input. Three pictures that are added or multiplied can be grouped in any way, in exact arithmetic.", "quantifier": "all pictures with the same number of channels (3 or 4), at all positions and sizes, all 32-bit float values including zeros of both signs, infinities and NaN, all nodes with caching off", "why_tests_cant": "The merge treats its inputs unequally: the mix weighs only the second one, windows, channels and metadata are taken from one side. That this never shows in the pixels is a statement about all pairs of floats at all positions, in particular where only one of the pictures has pixels.", "anchors": ["src/ops/imagemerge.rs: merge, get_pixel_rgba", "src/node/merge_image.rs: compute"]}
{"id": "C121", "title": "Cropping early or late shows the same pixels", "statement": "Cutting a window out of a picture of ordinary numbers keeps every pixel bit by bit. Cutting out a window and then a smaller one is the same as cutting out the smaller one. A merge followed by a crop gives the same picture as cropping both inputs and merging them. A grade followed by a crop gives the same picture as the crop followed by the grade, wherever the input has pixels.", "quantifier": "all pictures in linear light whose values are finite and not a negative zero, all windows (also ones that stick out), all merge modes and mixes and all grades with such results, all nodes with caching off", "why_tests_cant": "Users move crops up to save time and expect the same result. Every crop bakes the picture, so the identity colour matrix is multiplied into the pixels once more each time; that this never changes a bit is a statement about all floats, and the positions outside one or both pictures are easily missed.", "anchors": ["src/ops/imagecrop.rs: crop_image_in_place", "src/node/crop_image.rs: do_image_process, compute", "src/ops/imagemerge.rs: merge", "src/ops/xformcolor.rs: apply_color_matrix_inplace"]}
{"id": "C122", "title": "Grading before or after moving does not matter", "statement": "Where a grade node and a transform or lens node stand directly behind one another, exchanging the two changes nothing that can be seen: executing any node behind them has the same status, gives the same image (windows, pixels, operations and deformers that still wait), and writes the same files with the same contents.", "quantifier": "all graphs in which every node makes a picture (no viewer is off or bakes everything, no more inputs than used), all settings of the two nodes (switched on or off, any lens the plug-in accepts), all nodes around them, all lists of frames, caching off", "why_tests_cant": "The two orders give every later node other hashes and other input objects, and the claim is about every graph that can stand behind the two nodes: reads, merges, crops, resamples and writes in any arrangement. A test can only try a few.", "anchors": ["src/node/grade.rs: compute", "src/node/transform.rs: compute", "src/node/lens_distort.rs: compute", "src/graph.rs: execute, execute_frame"]}
{"id": "C123", "title": "Nodes that do nothing can be put in and taken out", "statement": "Null nodes, and crop, resample, grade, transform and lens nodes that are switched off, can be put in or taken out anywhere between a node and its input without changing the picture: of two graphs that differ in such nodes only, if executing a node of the one succeeds and executing the same node of the other returns, then the other succeeds too and gives the same image (windows, pixels, operations and deformers that still wait). If the other graph is arranged in levels, it does return.", "quantifier": "all pairs of graphs built by the API in which every node makes a picture, related node by node up to nodes that do nothing (any number of them, in a row or in different places, in either graph, with shared or copied inputs), all lists of frames, without a cache or with a cache used before in any regular way", "why_tests_cant": "The claim relates two graphs of different shape and any size, where every node behind the change has other hashes, other positions and perhaps another order of computation. A test can compare a few pairs of graphs.", "anchors": ["src/node/null.rs: compute", "src/node/crop_image.rs: compute", "src/node/grade.rs: compute", "src/node/transform.rs: compute", "src/graph.rs: execute, execute_frame"]}
{"id": "C124", "title": "Rendering a range of frames writes the picture of every frame", "statement": "Executing a write node over a list of frames writes one file for every frame, in the order of the list and nothing besides, and the file of a frame holds the picture that the graph makes at that frame, under the path that the frame expands to. If the path numbers its files and the numbers of the frames differ, no file is overwritten: in the end every frame has its picture on disk. Every frame has its own files: rendering the frames of a list together, in parts, in any order, repeatedly or with other copies of the graph writes the same files for each of them.", "quantifier": "all graphs built by the API, all lists of frames of any length, all write nodes with no other active write node upstream, all pictures of the files read (which may differ from frame to frame), without a cache or with a cache used before in any regular way", "why_tests_cant": "The claim is about every frame of a list of any length while the nodes, their hashes and the cache carry over from one frame to the next. A test renders a few frames of a fixed graph.", "anchors": ["src/graph.rs: execute, execute_frame", "src/node/write_image.rs: compute", "src/pathutils.rs: expand_string"]}
{"id": "C125", "title": "Copying a picture keeps every pixel", "statement": "A graph that reads a file in linear light and writes it again, in the same pixel type and without cropping, with nothing but nodes that do nothing in between, writes for every frame a file of the same size and place with exactly the values that were read: bytes and shorts bit by bit, half floats and floats with the same value.", "quantifier": "all graphs built by the API, all files of any size with 3 or 4 channels in any of the four pixel types, all lists of frames, IEEE arithmetic with every rounding", "why_tests_cant": "Every value passes through conversions between four types, a colour conversion and a product of matrices in rounded arithmetic. A test looks at a few values, not at all 2^32 floats in every channel.", "anchors": ["src/node/read_image.rs: compute", "src/node/write_image.rs: compute", "src/ops/bake.rs: do_process", "src/pixelblock/pixelblock.rs: convert_into_data_type"]}
{"id": "C126", "title": "An opaque layer hides what is below it, and empty layers change nothing", "statement": "Where both pictures have finite values, a merged pixel is exactly (not only nearly) that of the first picture if that is opaque and put over the other, whatever the mix; that of the other picture if one of the two is empty there (also because it has no pixels there) and they are added or put over each other; that of the other picture if one is white and they are multiplied; and zero if one is black and they are multiplied.", "quantifier": "all pairs of pictures of any size with 3 or 4 channels, all positions, all finite single floats, all merge nodes with all inputs they can have", "why_tests_cant": "Each value is the result of up to four rounded operations; whether the roundings cancel out exactly must hold for all finite floats, with denormal numbers, zeros of both signs and values beyond 1.", "anchors": ["src/ops/imagemerge.rs: merge, get_pixel_rgba", "src/node/merge_image.rs: compute"]}
{"id": "C127", "title": "A viewer shows what would be written", "statement": "A viewer node and a write node with the same input, set to the same colour space, pixel type and cropping, show and write the same image: the same values, the same data window and the same display window. Showing never fails where writing succeeds.", "quantifier": "all inputs, however broken, with any colours and deformers waiting, all settings that correspond to each other, both build profiles, all libraries", "why_tests_cant": "The two nodes bake, convert and crop in separate code, with separate defaults; a difference shows only for particular combinations of type, colour space, windows and deformers.", "anchors": ["src/node/viewer.rs: do_viewer_bake, compute", "src/node/write_image.rs: do_image_process, compute", "src/imageio.rs: write_image"]}
{"id": "C128", "title": "The frame only matters for file names", "statement": "If the file names of all nodes upstream of the executed one are the same at the frames of one execution as at those of another, the two executions do exactly the same. In particular a graph whose file names have no '#' shows and writes the same at every frame.", "quantifier": "all graphs that can be built, all executions with equally many frames, all states of the cache, both build profiles, all libraries", "why_tests_cant": "Frames are numbers a host chooses freely; that no node looks at them otherwise has to hold for all frames and all nodes.", "anchors": ["src/graph.rs: execute, execute_frame", "src/node/read_image.rs: compute, attr_hash", "src/node/write_image.rs: compute, attr_hash", "src/pathutils.rs: expand_string"]}
{"id": "C129", "title": "Clamped grades stay in range", "statement": "A grade with clamp_black on (the default) leaves no value below 0, one with clamp_white on leaves none above 1, and premult makes a difference for pixels that are partly transparent.", "quantifier": "all grades, all buffers of 1, 3 or 4 channels, all pixel values", "why_tests_cant": "Whether a value is out of range depends on all settings and on the pixel; settings that are stored, hashed and passed on look as if they worked.", "anchors": ["src/colorop/colorgrade.rs: apply_slice_in_place", "src/ops/colorgrade.rs: grade_single", "src/node/grade.rs: compute"]}
{"id": "C130", "title": "A release build does what a debug build does", "statement": "Whatever a user does with a graph and its cache (adding, removing, connecting and editing nodes, executing frames, using the cache), if it goes through in a debug build, the release build ends with the same graph, output, cache contents and written files. Where the builds differ, the debug build has stopped at an arithmetic overflow or an assertion. The same holds for lookup tables, planes, mesh text, cropping and merging.", "quantifier": "all sessions, graphs, images, caches, libraries and numbers", "why_tests_cant": "Debug and release builds contain different arithmetic; tests run in one of them on a few inputs.", "anchors": ["Cargo.toml: profile.release", "src/cache.rs", "src/pixelblock/pixelblock.rs: from_pixel_block", "src/node/resample_image.rs: debug_assert", "src/graph.rs: execute"]}
{"id": "C131", "title": "A change in one part of a source picture changes only that part of the result", "statement": "If two versions of the source files have the same headers and the same pixels in some region of the plane, then executing a graph of reading, grading, cropping, merging, viewing and writing nodes gives results with the same windows, channels and colour space, and with the same pixels in that region, whatever the pixels outside of the region are. Retouching a corner of a plate leaves the rest of the frame alone.", "quantifier": "all graphs whose nodes do not move pixels, regions, pairs of disks, libraries, frames", "why_tests_cant": "The region and the pixels outside of it range over all possibilities; a test compares a few pictures.", "anchors": ["src/ops/bake.rs", "src/ops/imagecrop.rs", "src/ops/imagemerge.rs", "src/colorutils.rs", "src/node/read_image.rs: compute", "src/graph.rs: execute"]}
{"id": "C132", "title": "Where a picture lies does not matter", "statement": "If the images on disk are stored at another position, and the windows of the crop nodes are moved along, then executing the graph gives the same picture, moved: the data window is the old one moved, and every pixel is found at its old place moved. Grading, merging and cropping do the same everywhere in the plane, also at negative coordinates.", "quantifier": "all graphs whose nodes do not move pixels, distances, libraries, frames", "why_tests_cant": "Offsets and coordinates range over all whole numbers; tests mostly use pictures at the origin.", "anchors": ["src/ops/imagecrop.rs", "src/ops/imagemerge.rs", "src/pixelblock/pixelblock.rs", "src/node/crop_image.rs: compute", "src/imageio.cpp: oiio_read_image"]}
{"id": "C133", "title": "Whatever is executed, the cache stays within its memory limit", "statement": "After any executions of any graphs, lookup tables of any size and changes of the capacity in any order, the cache reports exactly the memory that its images take, this is not more than its capacity, and no image is stored twice under one key.", "quantifier": "all graphs, nodes, files, libraries, lookup tables and sequences of calls", "why_tests_cant": "Sequences of executions are unbounded and the images come from every kind of node.", "anchors": ["src/cache.rs: insert, set_capacity_bytes", "src/node/read_image.rs", "src/node/merge_image.rs", "src/node/resample_image.rs", "src/node/crop_image.rs", "src/node/viewer.rs", "src/colorlutimage.rs"]}
{"id": "C134", "title": "Grading is as accurate as single floats allow", "statement": "A grade without gamma gives finite values, and each of them is the mix of the old value with the straight line that takes the black point to the lift and the white point to the gain (times multiply, plus offset), up to a small multiple of the precision of single floats relative to the terms that are added up. With gamma, what goes into the curve is that accurate.", "quantifier": "all images of 1, 3 or 4 channels, all settings of ordinary size with black and white point apart, all mixes between 0 and 1", "why_tests_cant": "Rounding errors depend on every bit of the settings and values; tests compare with a tolerance that is guessed.", "anchors": ["src/ops/colorgrade.rs: grade_single, grade, apply_color_grade_inplace", "src/colorop/colorgrade.rs: apply_slice_in_place"]}
{"id": "C135", "title": "Edits that are taken back leave no trace", "statement": "Setting an attribute and setting it back, connecting a slot and connecting or disconnecting it as it was, disconnecting and reconnecting, and adding and removing a node leave the graph as it was, even with further edits taken back and any executions in between. Executing a node then gives the same status, output and files as if nothing had been edited.", "quantifier": "all graphs, all nested sequences of edits that are taken back, with any executions of any nodes in between", "why_tests_cant": "Undoing composes in unbounded ways, and connections are kept in lists whose order decides what later calls do.", "anchors": ["src/graph.rs: connect, disconnect_input, add_node, remove_node, set_node_attr_*", "src/node/*.rs: set_attr_*"]}
{"id": "C136", "title": "The colour channels of a picture do not leak into each other", "statement": "If two versions of the source files have the same headers and the same values in some of the channels, then executing a graph gives results with the same windows, channels, colour space and waiting deformers, and with the same values in those channels, whatever the values in the other channels are. Alpha must be among those channels if a merge node lays one picture over another. Repainting the red channel of a plate leaves green, blue and alpha of the result alone.", "quantifier": "all graphs with the nodes of C87, sets of channels, pairs of disks, libraries, frames", "why_tests_cant": "The values of the other channels range over all floats; a test compares a few pictures.", "anchors": ["src/ops/bake.rs", "src/ops/imagecrop.rs", "src/ops/imagemerge.rs", "src/ops/colorgrade.rs", "src/colorutils.rs", "src/ops/pixelremap.rs", "src/node/read_image.rs: compute", "src/graph.rs: execute"]}
{"id": "C137", "title": "The settings of deformers and colour operations are independent and complete", "statement": "The transform, lens and Brownian deformers and the grade each have exactly their documented settings, each of one kind. Setting one stores the value and changes no other; setting an unknown one, or one of another kind, changes nothing, and reading it gives zero. Two operations with the same settings are the same.", "quantifier": "all operations, names and values", "why_tests_cant": "Names are arbitrary strings and the pairs of settings are many; a test picks a few names.", "anchors": ["src/deformer/transform.rs: attr_exists, get_attr_i32, set_attr_i32, get_attr_f32, set_attr_f32", "src/deformer/tde4_classic.rs: attr_exists, get_attr_i32, set_attr_i32, get_attr_f32, set_attr_f32", "src/deformer/brownian.rs: attr_exists, get_attr_i32, set_attr_i32, get_attr_f32, set_attr_f32", "src/colorop/colorgrade.rs: attr_exists, get_attr_i32, set_attr_i32, get_attr_f32, set_attr_f32"]}
{"id": "C138", "title": "The values in a written file are the values of the picture", "statement": "A file that is written in linear light (neither PNG nor JPEG) covers the data window of the picture, or its display window if cropped, and holds in each channel of each pixel the value of the picture stored with the type asked for, black outside the picture. Storing keeps floats, rounds to the nearest half, and takes the step below for bytes. Where two disks do not differ, in a region (if no node moves pixels) or in some of the channels, the files written from them do not differ.", "quantifier": "all graphs whose nodes make pictures, frames, disks, types, positions and channels", "why_tests_cant": "Pixels go through baking, cropping, conversion and a copy with index arithmetic; a test compares a few images, usually with a tolerance.", "anchors": ["src/node/write_image.rs: compute", "src/ops/imagecrop.rs: crop_image_in_place", "src/pixelblock/pixelblock.rs: convert_into_data_type", "src/ops/bake.rs: do_process"]}
{"id": "C139", "title": "Changing the exposure by whole stops loses nothing", "statement": "A grade that only multiplies by a power of two multiplies every value of the channels it processes by exactly that power, with no rounding, if the result can be stored; two such changes add up, and the reversed grade gives back every value bit for bit (except the sign of zero). A result can be stored if it does not overflow and is not so dark that it underflows. Other factors lose bits.", "quantifier": "all grades by whole stops, all buffers, all channel counts the grade takes, all finite values", "why_tests_cant": "It depends on the rounding of every intermediate step over all floats; a test with a few values passes for factors that lose bits elsewhere.", "anchors": ["src/ops/colorgrade.rs: grade_single, apply_color_grade_inplace"]}
{"id": "C140", "title": "The objects of a host program do not disturb each other", "statement": "A call changes no graph, cache or stream except those it is given. What is lent to a call (the box inside a cache or a stream) is always back afterwards, so that no object is ever used while it is empty. A stream taken from a graph stays as it is, even if the graph is changed, executed again or deleted. Two parts of a host that share no object get the same answers, objects and files in every interleaving as each part alone, and run through together if each runs through alone.", "quantifier": "all host programs (sequences of calls on any number of graphs, caches and streams), all interleavings", "why_tests_cant": "Interleavings of calls are unboundedly many, and objects that share memory by mistake only show in some of them.", "anchors": ["src/graph.cpp: execute, output_stream", "src/cache.cpp: get_box, set_box", "src/stream.cpp: get_box, set_box", "src/colorlutimage.cpp: get_color_transform_3dlut, get_color_ops_lut"]}
{"id": "C141", "title": "What is in the cache is not computed again", "statement": "A node that uses the cache leaves its image there. Executing only adds to the cache unless something has to be dropped to make room. After executing a graph, and any number of other executions of this or other graphs during which nothing was dropped, executing the graph again gives the same status, the same output and the same files, and takes every image from the cache: no image is missing from it, put into it or dropped from it, and no file is read, so that the result is the same even if the files were changed or can no longer be read.", "quantifier": "all graphs that show their files, all executions before and in between, all changes of the files", "why_tests_cant": "Tests can watch the counters of one cache for a few graphs; that no path through any node type computes or reads again needs a proof over all graphs and histories.", "anchors": ["src/cache.rs: CacheImpl::insert, get", "src/node/read_image.rs: compute", "src/node/merge_image.rs: compute", "src/node/crop_image.rs: compute", "src/node/viewer.rs: compute", "src/node/resample_image.rs: compute"]}
{"id": "C142", "title": "The capacity of the cache does not matter while everything fits", "statement": "If executions drop nothing from the cache, then with any other capacity that is larger than the bytes of the images in the cache at the end, the same executions give the same statuses, outputs and files, and leave the same cache, counters included. In particular more room never changes anything then, and the used bytes after a run tell how much capacity is enough. A capacity of exactly those bytes is not enough.", "quantifier": "all graphs, all histories of executions with any files, all capacities", "why_tests_cant": "The capacity is compared at every insert of every node in every execution; a test tries a few capacities for a few graphs.", "anchors": ["src/cache.rs: CacheImpl::insert, evict_bytes, get", "src/graph.rs: GraphImpl::execute"]}
{"id": "C143", "title": "What an interpolating resample node shows is blended from what its input shows", "statement": "A resample node that interpolates shows the pixels of its input's picture blended by OpenImageIO. Since the node blends the stored pixels and leaves the grades waiting, this needs grades that can be exchanged with blending: in exact arithmetic, blending by weighted means and grades without gamma and not reversed. With a gamma grade waiting the node shows something else than the graded picture resampled.", "quantifier": "all images stored as floats in linear light, all factors, all grades that are fair to the blending", "why_tests_cant": "Whether grading and resampling can be exchanged depends on the values of the grade and of every pixel; a test tries a few.", "anchors": ["src/node/resample_image.rs: compute", "src/ops/imageresample.cpp: oiio_image_resample", "src/colorop/colorgrade.rs"]}
{"id": "C144", "title": "Light adds up", "statement": "In exact arithmetic, a graph of grades that only multiply colours, merges that add or lay over, crops, transforms, lenses, resampling and float viewers treats light like a camera does: if the colours of every source are k times those of a first take plus l times those of a second one, and alpha is the same, then the output is k times the output of the first take plus l times that of the second, pixel by pixel, with the same alpha, windows and deformers waiting. With l = 0 this is exposure: k times the light in all sources is k times the light in the output. A merge that multiplies breaks this.", "quantifier": "all graphs of such nodes, all sources, all factors, all exact fields of numbers", "why_tests_cant": "Linearity is about all pairs of pictures and all factors at once; a test compares a few pictures.", "anchors": ["src/node/merge_image.rs: compute", "src/ops/imagemerge.rs", "src/colorop/colorgrade.rs", "src/graph.rs: execute"]}
{"id": "C145", "title": "Brighter sources never make anything darker", "statement": "In single precision with all its rounding: if no stored colour of any source of a first disk is brighter than that of a second disk (bytes, shorts, half or single floats, linear light), and alpha is the same, then no colour of the output of the first execution is above that of the second one, with the same alpha, windows and deformers waiting. This holds for graphs of grades whose colours rise (C119), merges with a mix that is not negative, crops, transforms, lenses, resampling and viewers of any type, as long as all pictures are made of ordinary finite numbers, layers are at most opaque where the graph has an over, and not below black where it multiplies. With a layer more than opaque, or a colour below black in a multiplication, white sources come out darker than black ones.", "quantifier": "all graphs of such nodes, all pairs of sources, all single precision values", "why_tests_cant": "Monotonicity is about all pairs of pictures, and rounding errors are exactly what could break it; a test compares a few pictures with a tolerance.", "anchors": ["src/node/merge_image.rs: compute", "src/ops/imagemerge.rs", "src/colorop/colorgrade.rs", "src/pixelblock/utils.rs: convert_datablock_enum_to_f32", "src/graph.rs: execute"]}
{"id": "C146", "title": "Exposing all sources by whole stops exposes the result by exactly as many", "statement": "In single precision with all its rounding: if every colour of every source of a second take is that of a first take times two to the k, and alpha is the same, then every colour of the output of the second execution is that of the first times two to the k, to the last bit, with the same alpha, windows and deformers waiting. This holds for graphs of grades that multiply, merges that add or lay over, crops, transforms, lenses, resampling and float viewers, as long as nothing overflows in the brighter take and nothing is below two to the minus sixty in the darker one without being zero (and mixes below two to the minus thirty-six). For pictures so dark that bits are lost, and for products of pictures, it is false.", "quantifier": "all graphs of such nodes, all sources, all numbers of stops, all single precision values", "why_tests_cant": "It says that every rounding in a whole graph is the same in both takes; a test with a tolerance cannot see one bit, and one without sees only its own values.", "anchors": ["src/node/merge_image.rs: compute", "src/ops/imagemerge.rs", "src/ops/colorgrade.rs", "src/colorop/colorgrade.rs", "src/graph.rs: execute"]}
{"id": "C147", "title": "Parts of a graph can be rendered to files and read back", "statement": "If the picture of a node is rendered to files by a write node (one frame or many, in linear light, with a type that holds its values, not cropped), and in the graph, or in a copy of the graph, read nodes for these files stand where the node stood, then executing shows exactly the same picture, bit by bit, with the same windows and the same deformers waiting. Storing with the same type again loses nothing more. For pictures whose display window does not start at the origin it is false: read back, the picture lies elsewhere.", "quantifier": "all graphs and all ways of putting read nodes in, all frames, all pictures of ordinary numbers that the type holds", "why_tests_cant": "It joins writing, reading and the execution of two different graphs; a test renders a few pictures, which have their display window at the origin.", "anchors": ["src/node/write_image.rs: compute", "src/node/read_image.rs: compute", "src/imageio.cpp: oiio_read_image, oiio_write_image", "src/oiio_utils.cpp: oiio_allocate_image", "src/graph.rs: execute"]}
{"id": "C148", "title": "Looking at pictures and saving them on the way changes nothing", "statement": "Viewers (that bake nothing, the colour space or the colours, with a type that holds the values), write nodes (writing or not), crops to the window that is there already and nodes that do nothing can be put anywhere into a graph, in any number: executing shows exactly the same picture as without them, bit by bit, with the same windows and the same deformers waiting, and files written behind them are written for the same picture.", "quantifier": "all graphs and all ways of putting such nodes in, all frames, all pictures of ordinary numbers in linear light (for the baking nodes; otherwise all pictures)", "why_tests_cant": "Viewers and crops bake what they get, so that every value is converted and multiplied once more, and every node behind them has other inputs and other hashes. That nothing ever changes is a statement about all graphs and all numbers.", "anchors": ["src/node/viewer.rs: do_viewer_bake, compute", "src/node/write_image.rs: compute", "src/node/crop_image.rs: compute", "src/graph.rs: execute"]}
{"id": "C149", "title": "Translations by whole pixels move the picture exactly", "statement": "Any number of transform nodes that only translate, by whole pixels of a picture whose data and display window are the same and start at the origin, move the picture by the sum of the translations once they are carried out: every pixel is a copy of exactly one pixel of the original, the one that far to the left and down, or the nearest one at the border if that lies outside. Nothing is blended and no value changes. The order of the translations and how the way is divided do not matter, and going there and back gives the original, without loss at the border. What a write node hands to OpenImageIO is the moved picture.", "quantifier": "all pictures up to 2^22 pixels in each direction including the way, all lists of translations by whole pixels, turned around or not, all single floats", "why_tests_cant": "The coordinates go through a matrix product, an inverse, a division by the width and a rounding, in single floats, for every pixel; an error of half a pixel at one column of one size is enough to lose a column. Every number of columns, every shift and every order would have to be tried.", "anchors": ["src/deformer/transform.rs: _apply", "src/deformutils.rs: apply_deformers_to_pixels", "src/ops/pixelremap.rs: pixels_remap_coords", "src/math/xform.rs: create_transform_2d"]}
{"id": "C150", "title": "Meshes move with the picture", "statement": "Translations by whole pixels that wait in a stream (with an invert switch of 0 or more) move the vertices of a mesh to which the stream is applied by exactly their sum, for every vertex whose coordinates are multiples of a half or of a smaller power of two; the third coordinate stays. A vertex that marks a pixel of the picture marks a pixel with the same values after both have been moved, unless that lies outside of the window.", "quantifier": "all streams with any list of translations by whole pixels, all buffers of vertices on such a grid (up to 2^24 steps including the way), all pictures as in C149, all single floats", "why_tests_cant": "The mesh goes through the matrices and the picture through their inverses, computed by a library, one by one, in single floats. That a marker never drifts from the feature it marks is a statement about all lists of translations, all positions and all sizes.", "anchors": ["src/stream.rs: apply_deformers", "src/deformutils.rs: apply_deformers_to_positions, apply_deformers_to_pixels", "src/deformer/transform.rs: _apply"]}
{"id": "C151", "title": "Mirroring a picture and turning it by half a turn is exact", "statement": "A transform with scales of 1 or -1 and translations by whole pixels rearranges the pixels of a picture exactly, any number of such transforms one after another too: every pixel of the result is one pixel of the original, the one that the mirrors and moves lead back to (the nearest one of the border if that lies outside). With a scale of -1 and a translation by one pixel less than the width the first column becomes the last and no column is lost; mirroring twice gives the original. Files that are written behind transform nodes with these values show the rearranged picture, on every frame.", "quantifier": "all pictures of 3 or 4 channels whose window starts at the origin, all lists of such transforms with either setting of the invert switch (sizes and ways up to 2^22 together), all single floats", "why_tests_cant": "The transforms work on single floats, through matrices that a library inverts, about a pivot at half a pixel. Whether some column of some wide picture is fetched twice, or one is lost after several mirrors, shows only for particular sizes; the statement covers all of them.", "anchors": ["src/deformer/transform.rs: _apply", "src/math/xform.rs: create_transform_2d", "src/deformutils.rs: apply_deformers_to_pixels"]}
{"id": "C152", "title": "Writing a cropped file and reading it again is the same as a crop node", "statement": "If a picture is rendered to files that are cropped on writing (one frame or many, in linear light, with a type that holds its values), then a node that reads these files shows exactly what a crop node set to the display window makes of the picture: the same pixels bit by bit, black where the picture does not reach, and the same windows. Deformers that wait behind the picture are carried out in both. In a graph, or a copy of it, such read nodes can stand in place of the crop node: executing shows the same picture.", "quantifier": "all graphs and all ways of putting such read nodes in, all frames, all pictures of ordinary numbers that the type holds, with any deformers waiting", "why_tests_cant": "Cropping on write and the crop node are two pieces of code, each with its own index arithmetic and its own black; the file goes through a conversion, OpenImageIO and another execution in between. A test compares one picture and one window.", "anchors": ["src/node/write_image.rs: compute", "src/node/crop_image.rs: compute", "src/ops/imagecrop.rs: crop_image_in_place", "src/imageio.cpp: oiio_read_image, oiio_write_image"]}
{"id": "C153", "title": "Moving two layers alike and merging them is merging them and moving the result", "statement": "If two pictures with the same windows have the same transforms and lens distortions waiting, a merge node (add, over or multiply, with any mix) makes exactly what the same merge node makes of the pictures alone with the transforms and distortions put behind it: the same windows and channels and the same values in every pixel, bit by bit. So a user can put one transform behind a merge in place of one before each input, and the same files are written.", "quantifier": "all pictures of 3 or 4 channels with the same windows, all lists of deformers (transforms and lenses, in any order, switched on or off), all merge modes and mixes, all graphs that write the result, all frames; any arithmetic", "why_tests_cant": "Merging and moving are two separate loops, one with clamped positions computed in single precision and one with offsets into two windows. That no rounding, clamping or channel handling gets between them is a statement about every pixel of every pair of pictures.", "anchors": ["src/node/merge_image.rs: compute", "src/ops/imagemerge.rs: merge", "src/deformutils.rs: apply_deformers_to_pixels", "src/ops/pixelremap.rs: pixels_remap_coords"]}
{"id": "C154", "title": "Meshes are mirrored with the picture", "statement": "Transforms that mirror (a scale of -1) and translate by whole pixels and that wait in a stream take every vertex of a mesh, whose coordinates are multiples of a half or of a smaller power of two, exactly where mirroring and moving in order should take it; the third coordinate stays. A vertex on the centre of a pixel comes to the centre of a pixel that, if it is inside the window, shows what the vertex marked before.", "quantifier": "all streams with any list of such transforms (with an invert switch of 0 or more), all buffers of vertices on such a grid (up to 2^24 steps including the way), all pictures as in C151, all single floats", "why_tests_cant": "The mesh goes through the matrices and the picture through their inverses, one by one, in single floats and with a pivot in between. Whether both agree for all lists of transforms, and not only for the one in a test, shows only in a proof: for two transforms whose order matters they do not.", "anchors": ["src/stream.rs: apply_deformers", "src/deformutils.rs: apply_deformers_to_positions, apply_deformers_to_pixels", "src/deformer/transform.rs: _apply"]}
{"id": "C155", "title": "A picture cut into parts and joined again is the picture", "statement": "If two crop nodes behind the same node cut out windows that together cover the picture, and a merge node with a mix of 1 adds the two parts (every pixel in one window only) or lays one over the other (pixels in both windows opaque, alpha between 0 and 1), the joined picture has bit by bit the pixels of the original at every position, and black where the original has none; so has any number of parts added two at a time in any order, if no pixel is in two of them. If the windows lie in the picture and the second crop keeps the format, the windows are those of the original too, and a write node behind writes the original picture.", "quantifier": "all pictures with ordinary numbers (finite, no minus zero), all pairs of windows, all graphs, frames and execution states with the cache switched off, all single floats", "why_tests_cant": "Every pixel goes through two different crops, two colour matrices and a blend with a pixel that is not there; that none of them changes a bit, and that no seam is left or doubled between the windows, holds for all cuts or it is not worth relying on. A test sees a few cuts.", "anchors": ["src/ops/imagecrop.rs: crop_image_in_place", "src/node/crop_image.rs: do_image_process, compute", "src/ops/imagemerge.rs: get_pixel_rgba, merge", "src/node/merge_image.rs: compute"]}
{"id": "C156", "title": "Working on a part of a picture and putting it back changes only that part", "statement": "If a crop node cuts a window out of an opaque picture, a grade node grades the part, and a merge node with a mix of 1 lays the graded part over the picture, the result has in the window bit by bit the pixels the grade node would have made of the whole picture, and everywhere else bit by bit the pixels of the picture. Data window, format and number of channels are those of the picture. A write node behind writes this picture.", "quantifier": "all pictures with ordinary numbers (finite, no minus zero), all windows in the picture, all grades with ordinary and opaque results, all graphs, frames and execution states with the cache switched off, all single floats", "why_tests_cant": "The patched pixels go through a crop, a grade and a blend at every position of the window, the others through a blend with a pixel that is not there; that the border of the window neither leaks nor leaves a seam has to hold for every window and every float. A test sees a few windows, and not the shapes of graph for which the execution fails.", "anchors": ["src/ops/imagemerge.rs: merge", "src/ops/imagecrop.rs: crop_image_in_place", "src/node/merge_image.rs: compute", "src/node/grade.rs: compute", "src/graph.rs: execute_frame"]}
{"id": "C157", "title": "A window in front of a moved or mirrored picture shows what was moved behind it", "statement": "If transform nodes mirror a picture and translate it by whole pixels, and a crop node cuts a window out of the result, the window shows bit by bit the pixels that were moved there; where they come from beyond the border of the picture it repeats the border, and where the window leaves the picture it is black. Moving the picture behind the window is the same as moving the window over the picture the other way. A write node behind writes what the window shows.", "quantifier": "all pictures with ordinary numbers (finite, no minus zero) at the origin with three or four channels, all chains of transforms of this kind, all windows, all graphs, frames and execution states with the cache switched off, all single floats", "why_tests_cant": "The crop has to carry out the waiting transforms first, and in the right order; every pixel goes through the interpolation of the transform at a position computed from the chain, and through the loop of the crop over both windows. That never a neighbouring column is taken, for any chain and window, cannot be seen from examples.", "anchors": ["src/node/crop_image.rs: do_image_process, compute", "src/ops/imagecrop.rs: crop_image_in_place", "src/deformer/transform.rs: _apply", "src/deformutils.rs: apply_deformers_to_pixels", "src/ops/pixelremap.rs: pixels_remap_coords"]}
{"id": "C158", "title": "Pictures put beside each other all show unchanged", "statement": "If any number of pictures with the same channels and ordinary numbers, whose windows do not overlap, are put together by a tree of merge nodes with a mix of 1 that add one to the other or lay one over the other (alpha between 0 and 1), the result has bit by bit the pixels of each picture where that picture lies, black where none lies, and the smallest window that holds all of them. The shape of the tree, the order of the pictures and the choice between adding and laying over make no difference to it. A grade behind it grades each picture as if it were alone. A write node behind writes exactly this.", "quantifier": "all lists of pictures that do not overlap, all trees of merges, all graphs, frames and execution states with the cache switched off, all single floats", "why_tests_cant": "Every pixel of every picture goes through as many blends with pixels that are not there as the tree is deep; that none of them changes a bit or leaks into a neighbour is an induction over the tree. A test lays out a few sheets.", "anchors": ["src/ops/imagemerge.rs: get_pixel_rgba, merge", "src/node/merge_image.rs: compute", "src/bbox/bbox2di.rs: combine"]}
{"id": "C159", "title": "Graphs that show the same picture write the same file", "statement": "If the write nodes of two graphs get pictures that look the same on every frame (windows, channels and pixels), write to the same paths in linear light, store with the same type (not left to the picture) and crop alike, executing the two graphs writes files with the same window, channels, type and, bit by bit, the same buffer. Nothing else matters: not the nodes in front, not the order of the edges, not the build, not what was written before, and not whether one of them takes its images from the cache.", "quantifier": "all pairs of graphs, all frames, builds, edge orders and execution states (one of the two with the cache in any state that regular executions lead to), all float types", "why_tests_cant": "It is what makes it safe to replace a part of a graph by another that shows the same. Comparing the files of a few pairs of graphs tells nothing about the next pair.", "anchors": ["src/node/write_image.rs: compute", "src/imageio.rs: write_image", "src/ops/bake.rs", "src/graph.rs: execute"]}
{"id": "C160", "title": "A part of a graph can be exchanged for another part that shows the same", "statement": "Take two graphs that are the same except for some parts, where the last nodes of the parts that were exchanged show the same picture (windows, channels, colour space, pixels, and the same deformers waiting). Then every pair of corresponding nodes behind them shows the same picture, whatever these nodes are and however they are connected (in particular what a graph without cycles shows is determined), and write nodes write files with the same window, channels, type and buffer. The names of the nodes, their order in the graph, the order of the edges and the build do not matter.", "quantifier": "all pairs of graphs and all ways in which their nodes correspond, all node types that are modelled, all frames and execution states with the cache switched off, all pictures of ordinary numbers in three or four channels", "why_tests_cant": "Users tidy up graphs, and rely on what is behind a part depending on nothing but what the part shows. That is an induction over all graphs that can be behind it. A test can only compare a few.", "anchors": ["src/graph.rs: execute", "src/graph.rs: find_direct_upstream_nodes", "src/node/merge_image.rs: compute", "src/node/crop_image.rs: compute", "src/node/transform.rs: compute", "src/node/write_image.rs: compute"]}
{"id": "C161", "title": "Nodes that do not move a picture do not care what waits, only what shows", "statement": "Transforms and lens distortions are not carried out at once but wait until a node needs the pixels. Take two graphs where the last nodes of parts that were exchanged show the same picture once everything that waits is carried out, though different deformers may wait on different pictures. If all nodes behind them are null, read, grade, crop, merge, viewer or write nodes with the same settings, then every pair of corresponding nodes shows the same once carried out, and write nodes write files with the same window, channels, type and buffer. In particular a grade before a deformer is carried out shows the same as a grade after.", "quantifier": "all pairs of graphs and all ways in which their nodes correspond, all lists of deformers waiting, all pictures with a valid size, over any arithmetic, all frames, all execution states with the cache switched off and all states of the cache that regular executions lead to", "why_tests_cant": "When the deformers are carried out is an optimisation that users must not see. It depends on what follows, so it takes an induction over all graphs and all lists of deformers. A test compares a few.", "anchors": ["src/node/grade.rs: compute", "src/node/crop_image.rs: compute", "src/node/merge_image.rs: compute", "src/node/write_image.rs: compute", "src/ops/imagecrop.rs: do_image_process", "src/ops/bake.rs: do_process", "src/ops/pixelremap.rs: pixels_remap_coords"]}
{"id": "C162", "title": "Every graph of reading, grading, cropping, merging and writing shows a picture", "statement": "Take a graph of null, read, grade, crop, merge, viewer and write nodes (and nodes of other kinds that are switched off), connected with the right number of inputs and without cycles. If its files can be read, its windows lie within moderate limits and there is a writer for the format, then there are pictures that all nodes make of the pictures of their inputs, in linear light and with three or four channels. If the graph is arranged in levels, executing it succeeds and shows such a picture; and whenever executing a write node returns, it has succeeded, and for every frame one file was written, which shows such a picture. So the statements about the pictures of a graph are not empty for these graphs.", "quantifier": "all graphs that can be built, all settings of these nodes, all frames, all execution states with the cache switched off, over any arithmetic", "why_tests_cant": "That every graph has pictures takes an induction over the graph in the order in which its nodes are computed. A test shows it for the graphs that it executes.", "anchors": ["src/graph.rs: execute", "src/node/read_image.rs: compute", "src/node/grade.rs: compute", "src/node/crop_image.rs: compute", "src/node/merge_image.rs: compute", "src/node/write_image.rs: compute"]}
