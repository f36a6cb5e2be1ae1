# Formal model of OpenCompGraph in Lean 4: design

Source of truth: `/repo` (Rust in `src/*.rs`, some C++ in `src/*.cpp`).
The Lean project is `lean/`; `lake build` there checks everything.

## 1. Trusted base

* Lean 4.33.0 kernel, plus Mathlib where it is imported.
* Axioms: only `propext`, `Classical.choice`, `Quot.sound`.
  Every property theorem is listed in `Verif/Axioms.lean` with `#print axioms`.
* No axioms of our own, no `sorry`, no `native_decide`, no `bv_decide`.
* The hand translation from Rust/C++ to Lean (each definition cites the lines).
* The specifications in `Verif/Spec`, which say what the statements mean.

## 2. Layout

| Directory | Content |
|---|---|
| `Verif/Model` | the code, function by function, with file and line citations |
| `Verif/Spec` | small specifications, independent of the model's helpers |
| `Verif/Proofs` | lemmas |
| `Verif/Props` | the property theorems `Cnn_...`, counterexamples and examples |
| `Verif/Axioms.lean`, `Verif.lean` | generated lists |

## 3. Modelling conventions

* `&mut self` methods become functions returning the new value.
* Panics (`panic!`, `assert!`, `unwrap` of `None`, out-of-bounds indexing, debug
  overflow) are error results of type `Panic`. Functions that do not terminate in
  the code (a search over a cycle) get a fuel argument and the result `unfinished`;
  the theorems say how much fuel suffices.
* `Profile` is the build profile: in `debug` integer overflow panics, in `release`
  it wraps. `usize` has 64 bits. `i32` and `u32` are integers with explicit range
  checks. C++ `int` overflow is undefined and modelled as an error.
* 2^64 and 2^63 are behind `opaque` boxes with a defining equation, because
  the kernel otherwise unfolds them in unary. `fitsUsize` decides by the number of binary digits.
* `f32`: `FloatLike F` is the list of operations, without laws. Theorems over any
  `FloatLike F` hold for IEEE floats. Theorems that need algebra are stated for linearly
  ordered fields with `LawfulFloat`-style hypotheses; rounding is then not modelled,
  and the claim's note says "exact arithmetic".
  `FloatBits F` adds injective 32-bit patterns, for hashing. No theorem combines
  `FloatBits` with an ordered field (such a type does not exist).
* `Model/Ieee.lean` is a bit-level model of IEEE 754 binary16, binary32 and binary64 with
  rounding to nearest, ties to even, and an instance of `FloatLike`, so every theorem over
  `FloatLike F` applies to it. `Proofs/Ieee.lean` proves against `Spec/Ieee.lean` (the rational
  value of the bit fields) that `+ - * /` and conversion from integers are correctly rounded.
  Claims "in IEEE arithmetic" are about this model. Simplifications: one canonical NaN; `powf`,
  `sin` and `cos` stay arbitrary functions.
* `fastapprox::faster::pow` (C113) is transcribed from the published algorithm of the crate
  (`Model/FastPow`), which is not in /repo: trusted.
* Examples run on integers modulo 256 (`Proofs/FinFloat.lean`), where `decide +kernel`
  evaluates whole nodes and graphs. Examples only show that hypotheses can be met, and refute.
* Hashing: `Hash` implementations feed bytes to the hasher (little endian, 64-bit `usize`;
  `str` ends with 0xFF; `DefaultHasher` sees the concatenation). The hash function from
  bytes to numbers is a parameter; the examples of C45 use the real one (`Model/SipHash`,
  SipHash-1-3 with zero keys, transcribed from std: trusted), and two file names that it does not
  tell apart refute C45 without the hypothesis. "Absent collisions" is a hypothesis on exactly
  the byte streams that occur. For node names (C105) the function is `FxHasher` itself (`Model/FxHash`),
  transcribed from rustc_hash 1.1.0, which is not in /repo: trusted.
* `sort_unstable_by_key` is an arbitrary function returning a sorted permutation,
  so the theorems hold for every tie-breaking.
* External code is a parameter: OpenImageIO (read, write, resample), OpenColorIO
  conversion, the lens plug-in, `shellexpand`, the file system, `powf`, `sin`/`cos`,
  nalgebra's matrix inverse, float formatting, the YAML parser, the amount of memory.
* `petgraph::StableGraph` is modelled by slots, a free list and a newest-first
  edge list (petgraph 0.5.1: freed node slots are reused last-freed-first, adjacency
  lists are pushed at the head, removing an edge keeps the order).
* `linked_hash_map::LinkedHashMap` is an association list, front = oldest.
* The shared cache and the files handed to the writer are threaded through as a `World`.
  The file system and the colour configuration stay fixed during an execution; a written file does
  not change what is read later.
* The `double` arithmetic of the resampling size is exact.
* Frames are `f64` in the code (data.rs:36) and of the type `F` of the pixel values here; the only
  operation on them is rounding to `i32`, so only the rounded number matters (C102; for `f64` see
  `C20_double_*`). `f64` fields of the lens plug-in share the type as well.

## 4. Not modelled

Logging, timing, debug strings, the cxx bridge glue (the C++ classes themselves are in `Model/Host`), threads (the code is single
threaded apart from OpenImageIO internals; C114 alone considers hosts that call it from several
threads), memory allocation failure, IEEE
rounding where a claim's note says exact arithmetic (see above), the internals of the external libraries.
`imagebuffer.rs`, `dynimage.rs` and `colorutils.rs` belong to the reader that `use_oiio = true`
switches off; no graph execution reaches them. C113 is about them alone.
`logger.rs`, `config.cpp` and `systemmemory.cpp` are not modelled. No Rust code uses the amount of
memory that `systemmemory.cpp` finds out. As far as reading it tells, its Linux branch names the
number `size` (line 52) and then returns `bytes` (line 76), which is not declared there.

## 5. Plan per property

| Property | Model | Proof |
|---|---|---|
| C01-C09 | `Cache`: the whole of `cache.rs` | invariants by induction over operation lists; independent spec (last insert, recency list) |
| C10-C13 | `BBox` | pixel-set spec |
| C14-C18, C67, C68, C71 | `PixelBlock`, generic element type; `Ieee` | index arithmetic, loop invariants; rounding |
| C19 | `Hash` on bit patterns | arithmetic on all naturals below 2^32 |
| C20, C21 | `Path` on byte lists | induction over the string |
| C22-C25, C69 | `Plane`, buffers as lists with explicit writes | loop invariants |
| C26 | `Mesh`; number formatting and which paths can be written are parameters | induction |
| C27-C33 | `StableGraph`, `Graph` | invariants over edit histories (`Reach`) |
| C34, C35, C66 | `Attrs`, `OpAttrs`, `Node`, `Enums` | tables |
| C36, C37 | `GraphIter` | BFS invariant |
| C38-C42 | `Graph` (`execute`), `Spec/Execute` | order invariant; refinement to a recursive evaluation |
| C43, C44 | `NodeHash` | case analysis; unique decoding of the hashed bytes |
| C45 | `Compute` with `Cache`; `Spec/CacheRun` | simulation of a cached by an uncached run; invariant "every entry is what its hash's computation gives" |
| C84, C85 | `Graph`; `FarEdit` in `Spec/Graph` | relation "same on everything upstream" between two graphs, kept by every phase of the execution |
| C86 | `Compute`, `Bake`, `Oiio`, `Deform`; `Spec/Picture`, `Spec/Resample` | each node refines an operation on pictures; a stream appears as its pixels with the colours and then the deformers that wait carried out |
| C87 | `Graph`, `Compute`, `NodeHash`; `Spec/PictureGraph` | a rule for executions (`Proofs/ExecRule`): invariants of single computations hold for whole executions; composition of C86 over layers (a picture and the deformers waiting behind it); with the cache on by the simulation of C45 |
| C88 | `Graph`; `Spec/Walks` | induction over the validate loop: the visited entries are the ways to the executed node (an antichain of suffixes), each once |
| C89 | `Plugin`; `Spec/Plugin` | induction over histories of one deformer |
| C90 | `Deform`, `Hash` | unique decoding of byte streams |
| C91 | `Deform`; `Spec/Lens` | algebra of remapping |
| C92 | `Deform`; `Spec/Lens` | induction over the deformers; laws of rounding |
| C93 | `Compute`; `Spec/ReadFailure` | case analysis; counterexamples |
| C94 | `Compute`, `Graph` | relational rule for executions (`Proofs/Relate`) |
| C95 | `Compute`, `Graph` | invariant of executions (`execute_keeps`) |
| C96 | `PixelBlock` | arithmetic of offsets |
| C97 | `Brownian`; `Spec/Brownian` | algebra; counterexamples |
| C98 | `Data` | case analysis of entries; unique decoding |
| C99 | `Compute`, `Lut`; `Spec/Sized` | invariant of all sessions; counterexample |
| C100 | `Ieee`, `Convert`; `Spec/Ieee` | rounding error analysis in IEEE arithmetic; all 256 values; counterexample |
| C101 | `Config`, `Memory`; `Spec/Ieee` | rounding error analysis in IEEE arithmetic; counterexample |
| C102 | `GraphCpp`, `Graph`, `Nodes`, `Path` | induction over the execution: nodes see a frame through its number; rounding in binary64 |
| C103 | `Deform`, `Xform`, `Remap`, `Bake`, `Ieee` | rounding error analysis: the value that picks a pixel stays within half a pixel; exact arithmetic for meshes; counterexamples |
| C104 | `Compute`, `Bake`, `Oiio` | case analysis over nodes; invariant of all sessions; counterexample |
| C105 | `FxHash`, `Graph`, `Hash` | injectivity of the hash steps, lattice argument for two words; induction over the nodes created; counterexample |
| C106 | `Compute`, `Execute`, `Cache`; `Spec/Safe` | invariant of all reasonable sessions; progress of every node; progress of executions; counterexamples |
| C107 | `Image`, `Ieee`; `Spec/Premultiplied` | monotonicity of rounding; rounding next to 1; counterexamples |
| C108 | `Image`, `Ieee`; `Spec/Premultiplied` | algebra; error analysis; counterexamples |
| C109 | `PixelBlock`, `Ieee`; `Spec/Levels` | monotonicity of rounding with overflow, on signed codes; composition through 32 bit floats |
| C110 | `BBox`; `Spec/BBox` | integer arithmetic; counterexamples |
| C111 | `Stream`, `Graph`, `Ieee`; `Spec/Bars` | rounding error of the two levels; induction over edits, over computed nodes and frames; counterexample |
| C112 | `Node`, `Attrs`, `Compute`; `Spec/Defaults` | table of attributes; C86 and C53 for grades; counterexamples |
| C113 | `ColorUtils`, `FastPow`, `Ieee`; `Spec/Srgb` | real powers compared by fifth and twelfth powers; all 256 samples by kernel computation, lifted to images of all sizes; counterexamples |
| C114 | `Threads`, `Config` | invariant over all interleavings of the statements of the calls; counterexamples |
| C115 | `StreamApply`, `Plane`, `Deform`, `Mesh` | buffers as lists of triples and pairs; combines C22 to C26 and C49 |
| C116 | `Image`, `Ieee` | error analysis of the blend formulas on top of C51 |
| C117 | `Graph`, `Compute` | only the first computation sees the output left behind; an invariant of the validation phase shows that it is asked for pixels |
| C118 | `Graph`, `GraphIter` | simulation along a one-to-one relation of positions through search, hashing, validation and computing; for copies, both executions are solutions of the same equations, compared by induction along the topological order |
| C119 | `grade_single`, `apply_color_ops_to_pixels` on `Ieee` | adding and multiplying by what is not negative is monotone on the codes of IEEE numbers, infinities included; induction over the operations |
| C120 | `mergeImages`, merge node | multiplication by 1 keeps every float, addition and multiplication are commutative bit by bit; C86 for the nodes |
| C121 | `cropImage`, `mergeImages`, `applyColorMatrix`, crop, merge and grade nodes | the identity matrix keeps ordinary floats bit by bit; black merged with black is black; C86 for the nodes |
| C122 | grade, transform and lens nodes, `Graph.execute` | both nodes only add to what waits on the stream; a simulation between the two executions whose relation depends on the position in the graph; with the cache off no node looks at a hash |
| C123 | `Graph.execute`, `computeNull` and the switched-off branches of the nodes | the values of a graph are a function of the nodes and inputs (as for C118); a relation between positions, where a node that does nothing may stand beside its input, is followed up the graph, by induction on the order of computation |
| C124 | `Graph.execute`, `Graph.frameLoop`, `computeWriteImage` | a rule for the loop over the frames that carries what holds before and after every frame (`frame_to`), with the pictures of C87 for every frame; files on disk are the last job for a path |
| C125 | `computeReadImage`, `computeWriteImage`, `PixelBlock.convert`, `bakeDoProcess` | C124 for the picture of the file; the identity matrix of C57 in IEEE arithmetic and the round trips of C100 for the values |
| C126 | `mergeImages`, `computeMergeImage` | C86 gives the merged picture; the rounded operations are exact for 0 and 1 (C116), and storing keeps finite values (C57) |
| C127 | viewer and write nodes, `writeImage`, `cropImage`; `Spec/Preview` | both nodes reduce to the same image-making function; cropping does not look at the metadata |
| C128 | `Graph`, `Compute`, `NodeHash`, `Path`; `Spec/StillFrames` | executions of nodes that do not distinguish two frames are equal (induction over the phases); C20 for the names |
| C129 | `ColorOps`, `Compute`; `Spec/Clamp`, `Spec/GradeOrder` | the settings do not occur in the arithmetic; range of monotone grades from C119 and pixel locality (C47); counterexamples computed |
| C130 | every function with a `Profile`; `Spec/Builds` | a relation between results that is preserved by sequencing, branching and loops, shown function by function (`Proofs/Builds`), then by induction over executions and sessions |
| C131 | `nodeSem`, `Graph.execute`; `Spec/Local`, `Spec/PictureGraph` | the pictures of C87 for both disks, compared node by node along the order of the search |
| C132 | `nodeSem`, `Graph.execute`; `Spec/Moved`, `Spec/PictureGraph` | the pictures of C87 for both graphs, compared node by node along the order of the search |
| C133 | `Compute` (`lookup`), `Lut` (`cached`), `Cache`; `Spec/CacheLimit` | invariant of cache calls (C01, C02), lifted through every node to executions and sessions; C130 for release builds |
| C134 | `ColorOps`, `Ieee`; `Spec/GradeError` | error analysis of each operation, sums of bounds over the rationals |
| C135 | `Graph`, `StableGraph`, `Attrs`; `Spec/Undo` | the lists of connections into each node come back exactly, then renaming |
| C136 | `nodeSem`, `Graph.execute`; `Spec/Channels`, `Spec/PictureGraph` | the pictures of C87 for both disks, compared channel by channel along the order of the search |
| C137 | `OpAttrs`, `Brownian`; `Spec/Blocks` | case analysis over the names |
| C138 | `writeImage` compute, `cropImage`, `convElem`, `Graph.execute`; `Spec/FileShows` | from C87, C124, C131, C136 |
| C139 | `GradeOp.applySlice`, `gradeSingle`; `Spec/Stops` | IEEE rounding is exact on powers of two |
| C140 | `Host`: the C++ classes; `Spec/Host` | two hosts that agree on the objects a call names; induction over programs |
| C141 | `Spec/Recall` | without evictions the cache only grows; induction over the execution with the final cache known |
| C142 | `Spec/Room` | a rule for two executions that differ in the world (`Proofs/Along`): "nothing dropped, fewer bytes than the capacity" is inherited backwards from the end |
| C143 | `Spec/Interpolate` | straight grades are straight lines in every channel, and weighted means commute with these |
| C144 | `Spec/Light` | every node's picture is taken pixel by pixel from its inputs' pictures, or is a sum of them with factors that depend on alpha only; induction along the order of the search |
| C145 | `Spec/Brighter` | rounding to nearest keeps the order (C109), so every operation on values does; picking pixels does; induction along the order of the search |
| C146 | `Spec/Exposure` | rounding a number that is not subnormal, times a power of two, is the rounded number times the power (`Proofs/IeeeScale`); sums are multiples of the smallest number, and exact where they are subnormal; induction along the order of the search |
| C147 | `Spec/Precomp` | a file that shows a picture (C138), read again, is that picture (`IsFile`); the pictures of a graph are pictures of the graph with the read nodes, along the map between the nodes; C87 for both |
| C148 | `Spec/Onlook` | each onlooker makes the picture it is given (`settled_self`: storing ordinary numbers keeps them); the pictures of a graph are pictures of the graph with onlookers, along the map between the nodes; C87 for both |
| C149 | `Spec/Shift` | the matrix of a translation stands for whole numbers, so does the product with a centre; the place looked at is exactly a pixel centre; inside, the rounding of C56 finds that pixel, outside, rounding is monotone; induction over the list of translations |
| C150 | `Spec/Shift` | a row of the matrix times a point on the grid is exact step by step; induction over the translations for the points; C49 for the buffer; C149 for the picture |
| C151 | `Spec/Turn` | as for C149 with signs on the diagonal: the matrix, its inverse and the point are exact step by step; induction over the transforms; the pixel that is fetched as in C149 |
| C152 | `Spec/Precomp` | C138 gives the values in the cropped file; black is stored as zero and a crop leaves ordinary numbers alone, so the file shows the cropped picture; then as for C147 |
| C153 | `Spec/Picture` | where a pixel is fetched from depends on the windows alone and lies inside the picture; a merged pixel depends on nothing but the two pixels (`merged_pixel_of`) |
| C154 | `Spec/TurnMesh` | C150 with signs; a centre goes to a centre, and if the order does not matter going back undoes going ahead (`source_columnOf`) |
| C155 | `Spec/Tiles` | C121 gives the pixels of the parts; adding nothing, nothing below and an opaque pixel over itself change no bit of an ordinary number; C138 for the files |
| C156 | `Spec/Patch` | an opaque pixel over another is the pixel and nothing over a pixel is the other, bit by bit; C121 for the part; C138 for the files; the natural graph is an instance of C38's defect |
| C157 | `Spec/View` | C151 (C149 for translations) gives the moved picture, whose numbers are ordinary again, and C121 what the crop shows of it; C138 for the files |
| C158 | `Spec/Sheet` | induction over the tree: where one of the two pictures has no pixel, the blend changes no bit of an ordinary number; C138 for the files |
| C159 | `Spec/Alike` | a buffer of the right length is determined by its channels at all positions; C138 for both graphs |
| C160 | `Spec/Replace` | induction over the correspondence of the nodes; one node by C136 with all channels, and there is one picture in a file; C159 for the files |
| C161 | `Spec/Settle` | a grade works pixel by pixel, and a deformed pixel is a pixel of the picture; what a picture is carried out to is unique; induction as for C160 |
| C162 | `Spec/Simple` | one node by the totality of grading, cropping and merging; induction over the order of execution, extending the pictures by one rank at a time; C138 for the files |
| C46, C65, C82 | `Compute` | case analysis over nodes |
| C47, C83 | `ColorOps`, `Bake`, `Stream` | induction over operation lists |
| C48, C49, C60, C61, C72 | `Deform`, `DeformTransform`, `Xform`, `Interp` | loop invariants; field identities |
| C50-C52 | `Image` | per-pixel characterisation |
| C53-C55, C57, C73 | `ColorOps`, `Ieee` | field arithmetic; `powf` abstract; what survives rounding |
| C56 | `Remap` | bounds plus per-pixel characterisation |
| C58, C59, C74, C75 | `Lut`, `Ieee` | index arithmetic; unique decoding of keys; cache invariant |
| C62, C70 | `Config` | case analysis over search paths |
| C63, C64, C76-C81 | `Oiio` | integer arithmetic; case analysis |

When the code does not satisfy a property as stated, the full statement stays in
`properties.jsonl`, a concrete counterexample is proved, and the strongest version
that holds is proved (suffix `_partial` where part of the statement is missing).

## 6. Where the code differs from the expected behaviour

All of these are proved, as a counterexample or as part of an equivalence.

* Graph: a removed node keeps its id, so adding it again or connecting to it panics; ids may be
  duplicated; disconnecting an input stops at the first other edge (`take_while`); execution
  order is breadth first, so a graph with a short cut panics; longer cycles panic; a node shared
  by two consumers is computed with the last consumer's request.
* Attributes and hashing: a lens node's direction is not hashed; the path of a ReadImage
  node with `enable` 2 is not hashed; viewer and resample byte streams are ambiguous with several
  inputs; the key of a LUT concatenates names.
* Cache and nodes: a crop or viewer found in the cache keeps the grade on the stream, so it is applied
  twice; a failing resample is Error when computed and Valid when cached; a disabled merge gives colour
  bars; a disabled viewer leaves the last output; a failed write is Valid; so is a read node whose file
  cannot be read, and the failure is cached; for a folder a read node keeps the last output.
* Grades: reverse ignores gamma; two-channel images panic; NaN leaks into unprocessed channels.
* Transforms: the rotation centre is ignored; negative `invert` does not invert; `translate_y`
  uses the width and the window offset shifts; deformers on pixels are applied in the wrong order (so mirrored meshes part from pictures); a
  transform never moves the data window, so moved pixels are cut off.
* Remap: the data-window offset is ignored; empty images panic.
* Crop and merge: `black_outside` always panics; `intersect` is ignored; mix 0 does not give B; RGB Over
  behaves like Add; one-channel merges panic.
* Files: the display-window origin is added instead of subtracted; integer files with more than four
  channels overrun the buffer; resampling changes the channel count of padded types;
  upper-case endings get the wrong colour space; metadata is never written.
* Plane and mesh: the centre is negated; indices overflow for large meshes.
* The Brownian deformer (not used by a node) measures the radius in pixels and doubles r^4.
* Rows read by index leave the channels out of the row offset.
* Streams: the state is Invalid after every execution. With the cache, changed files are not read again.
* Config: the percentage is always 1.
* sRGB with the `image` crate: white becomes 1.08, alpha is converted like a colour, samples lose a
  level on every round trip, and other image types panic.

## 7. Wrong programs

`seeded/LOG.jsonl` lists edits of the model that introduce a realistic bug, and which theorems
then fail. Edits that no theorem caught led to tighter theorems, listed in the same line.
