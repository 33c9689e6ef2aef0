# Formal model of Auburn/FastNoise2 in Lean 4 — design

## Approach

`/verif/lean/Verif/` holds an executable Lean model of FastNoise2, written function by function from
`/repo` (each definition cites file and lines), specification modules, helper lemmas and, in
separate `*Props.lean` files, the property theorems.  The code is never run; the tie to the code is
reading.  Undefined behaviour (reads past the end, null dereference, non-termination) is a distinct
outcome of the model wherever the code can reach it.

* Bytes, hashes, float bit patterns: `UInt8`, `BitVec 32`, `Nat` with explicit wrap where the code wraps.
* Float *arithmetic*: exact arithmetic in an arbitrary linearly ordered field / ℝ (idealisation: rounding,
  NaN and infinities are not modelled unless a theorem says so).
* Threads: interleavings of atomic steps over an explicit state; memory-order effects weaker than
  sequential consistency are not modelled.
* Loops: structural recursion, or fuel with a proof that the fuel suffices.

## Plan per property

| id | model | proof |
|---|---|---|
| C01 | `Base64.lean`: Encode (stateful appendChar with in-place rewrite), Decode (two passes) | run-length invariant + block induction; negation witness for long zero runs |
| C02 | same, decoder over a NUL terminated array with an out-of-bounds outcome | induction over positions |
| C03 | serialiser + Base64 | bound on zero runs in serialised streams |
| C04 | `Serialise.lean`: encoder and decoder over an arena of node data | induction over the tree, reference table invariant |
| C05 | `SmartNode` decoder as an interpreter of setter calls, table of class defaults | simulation of the two decoders; negation witness for DistanceToPoint |
| C06 | both decoders with fuel and out-of-bounds outcome | fuel suffices (bytes strictly consumed), no OOB outcome |
| C07 | same | invariant: children index < own index |
| C08 | same + type table | invariant over decoder; negation witness for absent source list |
| C09 | serialiser | iff by induction |
| C10 | serialiser with fixUp on arbitrary arenas | dependency set grows, measure |
| C11 | `Registry.lean`: push_back on shared arrays | induction over registrations; whole table by kernel evaluation |
| C12 | `CApi.lean` | case analysis on all ints |
| C13 | `RefCount.lean`: interleaving transition system | inductive invariant count = number of holders |
| C14 | `Pool.lean` | inductive invariant over alloc/free steps |
| C15-C18 | `Grid.lean` | loop invariants for AxisReset; write set |
| C19 | `Cache.lean` | invariant on thread-local cache; negation witnesses |
| C20 | `Ipc.lean` | state machine, refinement; negations |
| C21,C22 | `Queues.lean` | refinement to abstract FIFO |
| C23,C24 | `Hybrid.lean`, `Range.lean` | fold induction |
| C25,C26 | `Hash.lean` | BitVec algebra, odd multiplier inverse; bit case analysis |
| C27 | `Cellular.lean` | insertion lemma |
| C28-C32 | `Fractal.lean`, `Warp.lean`, `Modifiers.lean`, `Blends.lean`, `Rotate.lean` | ordered field algebra |
| C33 | `Names.lean` | list induction |
| C34,C35 | `Editor.lean`; sessions may also start from any settings file (`Session.opened`) | bit arithmetic, invariant (soundness, `EditorFit`: domain warp slots) |
| C36-C38 | `Lattice.lean`, `Basic.lean`, `Simplex.lean` | ordered field algebra |
| C43 | `Cellular*.lean` | triangle inequality against the jitter constants; counterexample in 3D by evaluating the hash |
| C45 | `WarpGrad*.lean`, `WarpBasis*.lean`, `WarpSimplex*.lean`, `WarpFractalProps.lean` | contributions as matrices (bit-level index arithmetic), then C44's sums once per axis; witnesses for 4D |
| C44 | `Simplex*.lean` | quadratic form of the A_n lattice, Voronoi cells, finite sums; discontinuity witnesses along a curve |
| C46 | `Mesh.lean`, `DmcTable.lean` (table copied mechanically) | loop invariants give one quad per crossed edge; signed sums over directed edges regrouped by cell faces; the 256 table rows by kernel evaluation |
| C47 | `Bloxel.lean` | loop invariants give one square per exposed face with specified shading; signed sums over directed edges regrouped by lattice edges |
| C48 | `Height.lean` | loop invariants give one patch per lattice square; signed sums over directed edges telescope in x and z |
| C49 | `Chunks.lean` | invariant over all schedules of main thread and workers (counting positions); arithmetic of the stagger and of the search cube; decreasing measure for progress; Cauchy-Schwarz to connect with C46-C48; a run refutes stability of unloading for height maps |
| C50 | `EditorFile.lean` (printf/sscanf on texts, the settings handlers, node construction from a file) | the writer emits sources before users (`Chain`); reading the sections of a chain rebuilds the graph section by section; decimal round trip by error bounds on scaled integers; invariant over every line of any file; case analysis of the cut section |
| C51 | `Texture.lean` (BuildTexture over abstract float operations, the BMP writer) | grid theorems of C16/C18 give each word; the file is decoded by an independent BMP reader, by arithmetic on row strides |
| C52 | `Texture.lean` (name search, disk as a function from names to contents) | induction on the number of taken names; injectivity of the numbered names |
| C53 | `Prefs.lean` (the settings handlers of both previews) on top of the text functions of C50 | each written line read back by the number round trips of C50; keys exclude each other, so any line touches one setting; induction over the sections of other handlers |
| C54 | `SerIso.lean` (no new code: serialiser and decoder of C04) | simulation of two runs of the serialiser under a renaming of nodes gives "same design, same text"; the converse from the exact form of C04's round trip: both designs are isomorphic to the decoded arena |
| C55 | `EditorView.lean` (each operation of C35 with the cached texts, the selection, the active tree, what is sent and what the previews show, in the order the code does it) | projection to C35's graph operations; invariant: every cached text is the current one; renewing walks the users of the changed node, by well-founded induction on the acyclic graph; a node not above the change keeps its text because the serialiser only reads what is reachable |
| C56 | `EditorAutosave.lean` (dirty flag, timer, frame, destructor, file on disk) over `EditorView` and `EditorFile` | invariant: if nothing is due, the file was written for a graph that has every node of the current one unchanged; each operation that leaves the flag clear changes no node; then the load theorems of C50 |
| C57 | `CGen.lean` (the C functions on one shared float memory with pointers and NULL) over `Grid.lean` | the batch theorems C15–C18 on the part of the memory from `noiseOut` on, lifted to the whole memory; for position arrays a new loop invariant: what is still to be read is as it was; counterexample for in-place use |
| C58 | `F32.lean` (binary32: round to nearest even on ℝ, fused or not), `FloatNoise.lean` (Value, White, Checkerboard, ScaleOutput, setters operation by operation) | rounding is monotone and leaves representable numbers alone, so bounds that are floats survive each operation; where a bound is met only up to one rounding (`Lerp`, `InterpHermite`) ties-to-even at a power of two closes it; forward error analysis against C36's exact model; two counterexamples computed exactly |
| C59 | `FloatGrid.lean`: the grid functions of `Grid.lean` with the float operations of `F32.lean` | C15/C16 give the positions as `fma(index, step, offset)`; on binary grids neither rounding changes anything; monotonicity and error from the lemmas of C58; counterexamples computed exactly |
| C60 | `Simplex.lean`, `SimplexSpec.lean`; `RangeCheck.lean` (checker), `RangeCert*.lean` (generated certificates), `SimplexRange*.lean` | the sum of contributions (C38, C44) is bounded by branch and bound: an untrusted search (tools/rangecert) cuts a fundamental region into boxes, the checker bounds tangent plus remainder on each for every combination of gradients; the checker is proved right (`check_sound`) and evaluated by the kernel (`decide +kernel`), then symmetry and rounding of √2, √3, √5 |
| C61 | `FloatPerlin.lean`: `Perlin::Gen`, the gradient functions of both code paths and `InterpQuintic`, operation by operation, over `F32.lean` | every operation adds at most half a unit in the last place of a bound of its result; the errors of gradients, weights and interpolation are propagated axis by axis; at lattice points all weights and offsets round to zero |
| C62 | `WarpSimplex.lean`; `NormCheck.lean` (checker), `NormCert*.lean`, `RangeCertOuter*.lean` (generated certificates), `WarpRange*.lean`, `WarpOuter.lean`, `WarpExceed.lean` | C45 gives the warp vector as sum of falloff × matrix × offset; orthogonal matrices keep lengths, so the sum of `(R-ρ)⁴√ρ` over the grid points is bounded, by a second branch and bound checker (secants for √); outer products are ramps times a fixed vector: the checker of C60 with the gradients of the warp. Counterexamples: near a grid point the others contribute little, so one term decides |
| C63 | `FloatModifiers.lean`: the blends and value modifiers over `F32.lean`; `FS::Reciprocal` an arbitrary function with relative error up to 2^-11 | monotonicity of rounding and representable bounds; sums of floats have relative error 2^-24 even when subnormal; counterexamples by computing the roundings |
| C64 | `FloatFractal.lean`: FBm and Ridged over `F32.lean` | induction over the loop in parallel with the loop on the constant 1 (rounding is monotone); error invariants per octave |
| C65 | `Wiki.lean` (util/WikiGenerator) over `Registry`, `Names`, `Texture` (BMP), `F32` (grey levels) | building: induction over the order of registration, with the depth of the stack as a parameter; pages: invariant of the loop; descriptions: loop invariant; pictures: C51's BMP theorem, monotone rounding |
| C66 | `EditorMenu.lean`: the menu tree as groups addressed by their `groupMap` key, built by the constructor, `CanDraw`, `DrawUI`; `std::sort` any permutation | invariant of the construction: the groups present are exactly the prefixes of group lists, each holding its node types and its subgroups once (keys joined by tabs are injective on names without tab); drawing: induction on depth; for the shipped registry closed computation in the kernel |
| C67 | `FloatWarp.lean`: the gradient warp and the warp fractals over `F32.lean`; `FastLengthSqrt` any function | sum over the corners of the weight errors by induction on the dimension (each axis adds 18/2^25), summation error by induction over the corners, normalisation; fractals: induction over the octaves |
| C68 | `Culling.lean`: box of a chunk, accumulated range, histories of loading and unloading; Magnum's `rangeFrustum` transcribed (not in the repository) | invariant over histories, bounds of the mesh from C46-C48, convexity; witnesses for negative multipliers and smooth meshes |
| C69 | `Levels.lean`: the loops of the two 3D meshes with `minAir`, `maxSolid`, and their accumulation | loop invariants; induction over the arriving chunks |
| C70 | `FloatCellular.lean`: the three cellular generators over `F32.lean`; inverse square root and reciprocal any functions of bounded relative error | error of one axis, then of each metric, then order statistics: the k-th smallest of two lists that are entrywise close are close |
| C71 | `Launch.lean`: `fnEditorIpcStartNodeEditor` (both platforms), the search for the program, the editor's reading of its arguments; file system, `fork`, `execl`, `CreateProcess` are parameters; the cutting of a Windows command line is transcribed from the documentation of the C runtime | case analysis; a word without special characters is cut out whole (induction); alphabet of encoded texts by induction over the encoder, joined with C01 |
| C72 | `Camera.lean`: keys, drags and frames of the preview window; exact arithmetic, Magnum's `lookAt` transcribed | invariant over all event sequences (axes are those of the angles), trigonometry; keys by induction |
| C73 | `FloatSimplex.lean`: `Simplex::Gen` 2D over `F32.lean` | backward error of the skew (the cell and offset the processor finds are exact for a nearby position, also if rounding moves it into another cell), forward error of offsets, falloffs, ramps and `ScaleOutput`; the sum over all grid points (C38) makes the choice of simplex irrelevant; range from C60 |
| C74 | `Simplex.lean`, `SimplexSpec.lean` | the sum over all grid points (C44) along a segment: derivative of each contribution, at most 3, 4, 8 of them not zero anywhere (C44); mean value inequality |
| C75 | `Lattice.value`, `Lattice.perlin` (exact), `F32.value`, `F32.perlin` (binary32) | LatticeLipschitz: an interpolation with Lipschitz weights on a cell is Lipschitz on the cell; cells are glued along one axis, axes by induction on the list; then C58/C61 near-exact theorems composed with it. Proved. |
| C76 | `Modifiers.lean`, `Fractal.lean` (exact arithmetic) | `ChangesAtMost D K source` (a Lipschitz bound along the axes on a set of positions) is carried through each node: triangle inequalities, monotone + translation-equivariant smooth minimum, induction over the octaves with the differences of amplitudes as invariant, LatticeLipschitz for the warp; fractal warps by induction over the octaves on the pair of displaced positions; rotations by C32 (rigid) and √3 ≤ 7/4. Not covered: Divide, powers, Terrace and SignedSquareRoot (not Lipschitz), node-valued smoothness/gain/amplitude. Proved. |
| C77 | `Cellular.cellularDistance` (exact arithmetic) | The head of the sorted list of scanned distances (C27) is the distance to a feature point, and no feature point of the infinite lattice is nearer (C43); the own cell's point is at most √n/2 + displacement ≤ 1 + displacement away; the rate is the triangle inequality through the other position's nearest point. Partial: in 3D grid jitters above 0.99999 in magnitude are excluded as in C43 (not from `C77_in_range`), no size jitter; a sample exactly on a feature point returns NaN (C27_zero_distance_nan), so the theorems speak of the numbers returned. |
| C78 | all generator models (exact arithmetic) | relation `ZoomedBy k` between two sources, and `ScaledBy k` for lengths, carried through every node; loops by induction over the octaves; warps by `Proportional` (displacement linear in the amplitude). Proved. |
| C79 | the same | relation `ShiftedBy o`, carried through every node; only associativity of 32 bit addition and induction over the octaves. False for stand-alone warps and the Super Simplex warp in fractals (named). Partial. |
| C80 | the same | equations between trees; linearity of the octave loop in its amplitude, by induction. Proved. |
| C39,C40 | `MinMax.lean`, `CApi.lean` | algebra, invariants |

## Trusted base

1. **Lean 4.33.0's kernel**, and Mathlib's definitions (ℝ, `Finset.sum`, `ContinuousOn`, ...) used in statements.
2. **Axioms.**  No axiom is declared in this development.  Every theorem depends on a subset of Lean's three standard axioms
   `propext`, `Classical.choice`, `Quot.sound`; `AXIOMS.txt` lists the set for every theorem named in `MANIFEST.json`
   (output of `#print axioms`, regenerate with `./tools_axioms.sh`).
3. **The reading of the C++**: nothing links the model to /repo mechanically; every model definition cites the lines it models.
   The seeded mutations (`seeded/LOG.jsonl`) test the theorems, not the reading.
4. **Idealisations**, each also stated at the definitions concerned:
   * float *arithmetic* is exact arithmetic over ℝ or an ordered field; rounding, NaN and infinities are outside the model except where a
     theorem is about them (`C24_float_loses_max`, `C27_nan_reachable`, bit patterns in White, float bits in the serialiser, `0.15915493667f` in the
     tileable generator, `kJitter*`, `kThird` taken as the exact float constants);
     C58, C59, C61, C63, C64, C67, C70, C73 and the greys of C65 are about binary32 arithmetic as written (`F32.lean`: round to nearest even, subnormals, fused or separate multiply-add; overflow, NaN and
     the sign of zero are not modelled).  The default build passes -ffast-math, which allows the compiler to reorder; `FASTNOISE2_STRICT_FP` does not;
   * FastSIMD is not in the repository: its lane operations are modelled by their documented meaning (`Num.lean`, `Gradient.lean`); every
     compile-time variant chosen by `FeatureFlag` that is written in /repo is modelled (`Gradient.Feat`);
   * threads: sequentially consistent interleavings of the atomic accesses (`RefCount`, `Pool`, `IpcRace`, `Queues`); weak memory is not modelled;
   * allocation never fails; C++ stack depth is unbounded; libraries (STL containers, ImGui, imnodes, Magnum, OS shared memory) are modelled by
     the effect of the calls used.

## What is modelled, and what is not

| code | model | not modelled |
|---|---|---|
| `src/FastNoise/Base64.h` | `Base64.lean`, complete | |
| `src/FastNoise/Metadata.cpp` (serialise, deserialise, fix-up, names, registration) | `Stream`, `Serialise`, `FixUp`, `Deserialise`, `Registry`, `MetaVec`, `Names` | |
| `src/FastNoise/SmartNode.cpp`, `Utility/SmartNode.h` | `RefCount` (handles and counts), `Pool` (allocator) | weak memory orders |
| `src/FastNoise/FastNoise_C.cpp` | `CApi` (metadata, setters), `CApiRef` (references), `CGen` (generation calls) | `fnGetActiveFeatureSet` |
| `Generators/Generator.h`, `Generator.inl` | `Hybrid` (sources, SIMD level), `Grid` (GenUniformGrid, AxisReset, tails, min/max), `FloatGrid` (positions with rounding), `Tile`, `Basic.Range` | virtual dispatch |
| `BasicGenerators`, `Value`, `Perlin`, `Simplex`, `Utils.inl` | `Basic`, `Lattice`, `Simplex`, `Gradient`, `Hash`; `FloatNoise` (Value, White, Checkerboard with rounding), `FloatPerlin` (Perlin with rounding), `FloatSimplex` (2D Simplex with rounding) | rounding in the others |
| `Cellular` | `Cellular`; `FloatCellular` (with rounding) | values of `FS::Pow` (Minkowski); with rounding also size jitter and the relaxed square root |
| `Fractal`, `DomainWarp`, `DomainWarpFractal` | `Fractal`; `FloatFractal` (FBm, Ridged with rounding), `FloatWarp` (DomainWarpGradient and the warp fractals with rounding) | rounding of the simplex warps |
| `DomainWarpSimplex.inl` | `WarpGrad`, `WarpSimplex` | the traversal is shared with `Simplex` (statement for statement the same code) |
| `Blends`, `Modifiers` | `Modifiers`, `Cache` (GeneratorCache), `Rotate*`; `FloatModifiers` (blends, Remap, ConvertRGBA8, Terrace, PingPong with rounding) | `Modulus` (defined in FastSIMD) |
| `tools/NodeEditor/FastNoiseNodeEditor.*` | `Editor` (graph, ids, links, deletion), `EditorFile` (settings file: writing, reading, numbers as text), `EditorView` (cached texts, selection, active tree, previews, trees sent and received), `EditorAutosave` (when the settings file is written), `EditorMenu` (the menus offering node types) | drawing; how ImGui stores the text and cuts it into sections and lines; exponents, hexadecimal numbers and white space accepted by `sscanf`; growing an owned node after its id (counted as undefined) |
| `tools/NodeEditor/util/DemoNodeTrees.inl` | `DemoTrees`: the two texts, written by the real program; model reading and writing give them back byte for byte (C54_demo_trees), which checks node ids, member order, defaults, stream format and Base64 of the model against the program | |
| `tools/NodeEditor/MultiThreadQueues.h`, preview use of it | `Queues` | OpenGL |
| `tools/NodeEditor/MeshNoisePreview.cpp`, `util/DmcTable.inl` | `Mesh` (dual marching cubes), `Bloxel` (blocks), `Height` (height maps), `Chunks` (streaming, restart, unloading), `Culling` (which chunks are drawn), `Levels` (readout) | drawing, shaders; Magnum's frustum test is transcribed from the library |
| `tools/NodeEditor/NoiseTexture.cpp` | `Texture` (BuildTexture, export menu, dragging), `Prefs` (settings handlers, also those of the mesh preview), `Queues` (its worker threads) | drawing, the ImGui widgets; `exists` and opening a file are parameters |
| `util/WikiGenerator/main.cpp` | `Wiki` | descriptions' wording, the files written, ImageMagick |
| `tools/NodeEditorIpc` | `Ipc` (atomic calls), `IpcRace` (byte interleavings), `Launch` (starting the editor) | OS error paths; length limits of command lines; console handles |
| `tools/NodeEditor/NodeEditorApp.cpp` | `Launch` (arguments), `Camera` (keys, pointer, camera) | drawing, the settings window, the Reset State button, the detached window |

## Findings: where the code violates the property a user expects

Each is a proved theorem (name in brackets) unless marked *read*.

* Base64: long zero runs do not round trip (C01); SmartNode decoder default differs for DistanceToPoint (C05); required sources may stay empty (C08).
* Fix-up can leave cycles or dereference null metadata when it fails (C10).
* C API: ids outside 0..255 alias (C12_id_aliases); a null hybrid lookup does not revert, a float setter disconnects the node, against the
  header's documentation (C12_hybrid_*, C23_api_*); fnDeleteNodeRef never destroys (C40), and is no no-op for NULL as documented (C40_delete_null_partial).
* GenPositionArray with an input array as output array is wrong, and differs between SIMD levels, unless count is at most the register width or a
  multiple of it; the documentation does not forbid it (C57_in_place_wrong, C57_in_place_depends_on_width).
* SmartNode: `p = p->member` reads freed memory, cycles leak (C13 witnesses); relaxed decrement (*read*).
* Pool: use-after-free race once a pool is removed; oversized, one-byte requests and tiny pool sizes fail (C14_*).
* Tileable 2D: seam error from a rounded 1/(2π) (C18).  Cache: nested shared caches, changed sources, -0.0 (C19_*).
* IPC: lost, torn, unterminated messages (C20_*).  Bare queue can return stale work (C22_*).  SIMD level mismatch ignored (C23_level_mismatch_ignored).
* Float rounding: with limits whose difference is no float (max 0.001f) White and Value exceed the maximum (C58_range_overshoot); with a range whose width is no power of
  two, White differs between levels with and without FMA (C58_white_differs).  Grids with step 0.1f generated in tiles do not fit together (C59_tiles_do_not_fit); with step
  0.7f Checkerboard differs between levels (C59_levels_differ); beyond 2^24 neighbouring samples coincide (C59_samples_collapse).
* Float rounding of nodes: Fade at Fade Max may return more than either source and Remap at From Max may miss To Max (C63_fade_end_misses, C63_remap_end_misses); quintic Fade
  overshoots its sources (C63_fade_quintic_exceeds); PingPong of the largest negative float is negative (C63_pingPong_negative).
* Wiki generator: four equal headings for per-dimension hybrids (C65_same_headings), unterminated quote in the conversion command, so no pictures on POSIX systems
  (C65_command_unterminated), highest sample not always white (C65_pixel_top_dark).
* Hash: value hash collisions (C25_value_*).  CellularDistance: double root, NaN (C27_*).  kJitter3D too large (C43).
* Domain warp: Euclidean distance exceeds the documented amplitude by √n, seed offset applied twice (C29_*).
* PingPong, clamped inverted Remap, PowFloat/PowInt of odd inputs, Terrace with negative smoothness (C30 notes).
* Names: group removal erases the next character whatever it is (C33_removes_letter).
* Node editor: use after free on deleting shared nodes, dangling drop popup, infinite recursion on cycles of incomplete nodes (C35_*), id collisions (C34_large_id_collides).
* Settings file: constants below a millionth become 0 (C50_small_value_lost); a node section that goes on after its `id=` line writes to a deleted node (C50_file_uaf).
* Perlin 3D leaves [-1,1] by 0.0007 % to 0.002 %, Perlin 4D by 11 % to 14.8 % (C36).  Grid generation hangs or reads out of bounds for empty grids (C41).
* Simplex 3D/4D and SuperSimplex 4D are discontinuous (C44_*_jumps).
* 4D SuperSimplex noise leaves its output range by 0.002 % of half its width (C60_super4_leaves_range); the other Simplex noises do not (C60).
* Simplex domain warps: 3D DomainWarpSimplex with the outer product scheme moves positions by more than 1.35 amplitudes (C62_simplex3_exceeds), 4D with the default scheme by more than 1.3
  (C62_simplex4_exceeds); 3D DomainWarpSuperSimplex with the default scheme never by more than half of the amplitude (C62_super).
* Texture export: relative scaling moves the picture away from the preview (C51_export_moved), sizes of 65536 and more are cut (C51_wide_header), zero hangs (C51_zero_size_hangs);
  the 86th export of one name terminates the program (C52_long_name_crash), a failed one blocks all others (C52_failed_export_blocks).
* A node of the editor keeps offering the text of a tree that is gone after a link that closes a cycle (C55_cycle_stale) and after converting a shared domain warp (C55_convert_stale); Clear All Nodes
  leaves the previews with the deleted tree (C55_clear_keeps_picture).
* Deleting a node that no other node uses, clearing the graph and moving nodes do not mark the settings file as to be written: after a crash those nodes are back (C56_deleted_returns,
  C56_cleared_returns, C56_moved_forgotten).
* After a restart the mesh is drawn white whatever colour was saved (C53_colour_not_shown); an unknown `gen_type` in the file freezes the preview (C53_bad_gen_type).
* Mesh preview: smooth meshes vanish near lower chunk faces (C68_smooth_vanishes), height maps with a negative multiplier vanish in full view (C68_heights_vanish); with smooth meshes
  "Min Air Y" ignores the air above a floor (C69_smooth_misses_air).
* Mesh preview: with height maps viewed from high above, chunks in range are unloaded and requested again every frame (C49_heightmap_reload_happens).
* DomainWarpSimplex: in 4D the default scheme gives three different results on AVX512, AVX2 and below (`0x10 << 27` is negative, so `extraCase` always holds;
  C45_levels_differ; C45_bases4 says which of the twenty bases are orthogonal on which level), and its axis assignment is no permutation (C45_axes_repeat); in 3D the outer product scheme subtracts the whole sum instead of 2/3 of it
  (C45_not_a_reflection); the seed offset counts twice stand-alone, and not at all for SuperSimplex inside a fractal (C45_fractal_seed_partial).
* Starting the editor: on POSIX systems success is reported though the program cannot be executed (C71_told_wrong); on Windows a text with a space is cut (C71_windows_space_cut); there
  `childProcess` has no effect on POSIX, and the failed child runs the parent's exit handlers (*read*).
* Preview camera: a key released while ImGui has the keyboard stays down and the camera moves on (C72_stuck).
