{"id": "C01", "title": "Base64 text round-trips the byte stream", "statement": "Decoding the text produced by encoding a byte vector returns exactly that byte vector (same length, same bytes).", "quantifier": "every byte vector of length >= 2 (every content, every length, every arrangement of zero runs)", "why_tests_cant": "The encoder run-length compresses 'A' characters with a stateful rewrite of its own output; whether a given zero run survives depends on its length and alignment modulo 3 and the set of byte vectors is infinite.", "anchors": ["src/FastNoise/Base64.h: Base64::Encode, Base64::Decode"]}
{"id": "C02", "title": "Decoding arbitrary text is memory safe and total", "statement": "Decoding any NUL-terminated string terminates, never reads past the terminator and never writes outside the output buffer; the two passes agree on the output length.", "quantifier": "every NUL-terminated character string, well formed or hostile", "why_tests_cant": "Hostile strings ('@' as last char, bad count chars, bad padding) are an infinite set; a sanitizer run only samples it.", "anchors": ["src/FastNoise/Base64.h: Base64::Decode"]}
{"id": "C03", "title": "Text made by the serialiser always decodes to the stream it came from", "statement": "For every node tree the serialiser accepts, base64-decoding the returned text yields exactly the byte stream the serialiser built (the zero-run compression never corrupts a real node tree).", "quantifier": "every acyclic node-data graph accepted by the serialiser", "why_tests_cant": "Whether the zero-run defect of the encoder (C01) can be reached depends on every combination of node ids, values and reference ids.", "anchors": ["src/FastNoise/Metadata.cpp: Metadata::SerialiseNodeData, AddToDataStream", "src/FastNoise/Base64.h: Base64::Encode"]}
{"id": "C04", "title": "Node tree serialisation round-trips through DeserialiseNodeData", "statement": "Serialising a node-data tree and deserialising the text gives back a tree with the same node types, the same variable values, the same sources, for each hybrid the same source (or, if it has none, the same value) and the same sharing of nodes referenced more than once.", "quantifier": "every finite acyclic node-data graph of complete nodes with any sharing, any variable bit patterns, any nesting depth, up to the 65536 nodes the format can number", "why_tests_cant": "Node graphs are unbounded in depth and sharing; the node-end run-length coding (flushed at 32) and 16 bit back references only go wrong for particular shapes.", "anchors": ["src/FastNoise/Metadata.cpp: SerialiseNodeDataInternal, DeserialiseNodeDataInternal, MemberLookup"]}
{"id": "C05", "title": "NewFromEncodedNodeTree builds the generator the text describes", "statement": "The generator built from the text of a node-data tree has, member for member, the configuration of the generator obtained by building that node-data tree by hand through the metadata functions.", "quantifier": "every node-data tree of every node type", "why_tests_cant": "Needs agreement of metadata defaults with class defaults for every member, and of two independent decoder implementations for every stream.", "anchors": ["src/FastNoise/Metadata.cpp: DeserialiseSmartNodeInternal, NewFromEncodedNodeTree", "include/FastNoise/Generators/: *.h member defaults and metadata defaults"]}
{"id": "C06", "title": "Deserialising any byte stream terminates and never reads out of bounds", "statement": "Both deserialisers, given any byte vector, terminate and return either nothing or a tree; they never read beyond the vector, never index a missing back reference and never use a metadata id that does not exist.", "quantifier": "every byte vector (valid, truncated, corrupted, hostile) and both decoders", "why_tests_cant": "Input space is all byte strings; recursion depth and index use depend on attacker-controlled bytes.", "anchors": ["src/FastNoise/Metadata.cpp: GetFromDataStream, DeserialiseSmartNodeInternal, DeserialiseNodeDataInternal"]}
{"id": "C07", "title": "Deserialised trees are acyclic", "statement": "In a tree returned by either deserialiser every source of a node was completed before that node, so no node is reachable from itself and generation terminates.", "quantifier": "every byte vector the decoder accepts", "why_tests_cant": "Back references are arbitrary 16 bit numbers in the input; absence of cycles must hold for all of them.", "anchors": ["src/FastNoise/Metadata.cpp: DeserialiseSmartNodeInternal (referenceNodes), DeserialiseNodeDataInternal (nodeDataOut)"]}
{"id": "C08", "title": "Deserialised generators have type-correct, present sources", "statement": "Every generator returned by NewFromEncodedNodeTree has all of its required sources set, each of the required kind (e.g. a domain warp fractal only ever gets a domain warp).", "quantifier": "every byte vector the decoder accepts", "why_tests_cant": "A missing source is a null dereference at generation time; which strings lead there is an infinite set.", "anchors": ["src/FastNoise/Metadata.cpp: DeserialiseSmartNodeInternal"]}
{"id": "C09", "title": "Serialisation reports failure as empty text and only fails for malformed trees", "statement": "SerialiseNodeData returns empty text exactly when some node reached from the root has a missing required source or member lists whose sizes disagree with its metadata; otherwise it returns non-empty text.", "quantifier": "every acyclic node-data graph", "why_tests_cant": "Requires quantifying over all graphs and positions of the defect.", "anchors": ["src/FastNoise/Metadata.cpp: SerialiseNodeData, SerialiseNodeDataInternal"]}
{"id": "C10", "title": "fixUp breaks cycles", "statement": "With fixUp set, serialising any node-data graph, including cyclic ones, terminates, and afterwards the part of the graph reached from the root has no cycle; no link that is not part of a cycle is removed.", "quantifier": "every finite node-data graph, cyclic or not", "why_tests_cant": "Cyclic graphs are an infinite family; non-termination is not observable by a finite test.", "anchors": ["src/FastNoise/Metadata.cpp: SerialiseNodeDataInternal (dependencies, fixUp)"]}
{"id": "C11", "title": "Metadata member lists are exact", "statement": "For every node type, iterating its groups, variables, enum names, sources and hybrids yields exactly the members registered for that node, in registration order, with nothing from another node, even though all lists of one kind share one global array indexed with 8 bit positions.", "quantifier": "every interleaving-free registration sequence that fits the 8 bit limits, in particular the shipped 47 nodes", "why_tests_cant": "Aliasing between lists appears only for particular registration orders and sizes.", "anchors": ["include/FastNoise/Metadata.h: Metadata::Vector", "src/FastNoise/Metadata.cpp: Metadata::Vector<T>::push_back, registration of all nodes"]}
{"id": "C12", "title": "C API validates every id and index", "statement": "Every fnGet*/fnSet* metadata function returns its documented error value when the node id or the member index does not exist, and otherwise returns/sets the member the metadata lists; it never reads outside the metadata arrays.", "quantifier": "every int id and every int index, including negative and huge ones", "why_tests_cant": "2^64 argument pairs; narrowing casts hide at particular values.", "anchors": ["src/FastNoise/FastNoise_C.cpp", "include/FastNoise/Metadata.h: Metadata::GetFromId"]}
{"id": "C13", "title": "A node lives exactly as long as something references it", "statement": "Whatever sequence and interleaving of smart pointer copies, moves, assignments, resets and destructions several threads perform, a node is destroyed exactly once, precisely when its last reference goes away, and never while a reference remains.", "quantifier": "every number of threads, every interleaving of the atomic steps, every program of smart pointer operations", "why_tests_cant": "Interleavings are unbounded; a premature free needs a specific schedule.", "anchors": ["include/FastNoise/Utility/SmartNode.h: SmartNode copy/move constructors and assignments, Release, TryInc, reset, swap, use_count", "include/FastNoise/Generators/Generator.inl: ReferencesFetchAdd", "include/FastNoise/Generators/Generator.h: SetSourceMemberVariable"]}
{"id": "C14", "title": "Pool allocations are disjoint, aligned and inside the pool", "statement": "Any two live blocks handed out by the node pool allocator are disjoint, every block is aligned as requested and lies inside the pool memory, whatever the sequence and interleaving of allocations and frees.", "quantifier": "every sequence/interleaving of allocate and free operations, every size, alignment and base address", "why_tests_cant": "Allocator states are unbounded; overlap appears only for particular histories.", "anchors": ["src/FastNoise/SmartNode.cpp: SmartNodeManagerPool::TryAlloc, SmartNodeManagerPool::Contains, SmartNodeManagerPool::Free, SmartNodeManagerPool::MarkForRemoval, SmartNodeMemoryAllocator::Alloc, SmartNodeMemoryAllocator::Free, SmartNodeMemoryAllocator::RemoveEmptyPool"]}
{"id": "C15", "title": "Uniform grids sample the position they promise", "statement": "GenUniformGrid2D/3D/4D write at output index i the noise of position offset + step * (x,y,z,w) where (x,y,z,w) is the row-major decomposition of i by the counts, at every SIMD width.", "quantifier": "every counts >= 1 whose product fits int, every SIMD register size >= 1", "why_tests_cant": "The index/lane update (AxisReset) is incremental and only approximates div/mod by repeated conditional subtraction; failures appear only for particular count/width combinations.", "anchors": ["include/FastNoise/Generators/Generator.inl: AxisReset, GenUniformGrid2D/3D/4D"]}
{"id": "C16", "title": "Uniform grids write exactly the requested outputs and report the exact min/max", "statement": "A grid call writes every output in [0,total) and nothing else, and the returned min/max are the least and greatest written outputs.", "quantifier": "every total >= 1, every register size, every noise value ordering", "why_tests_cant": "Tail handling depends on total modulo the SIMD width.", "anchors": ["include/FastNoise/Generators/Generator.inl: GenUniformGrid*, StoreRemaining, DoRemaining", "include/FastNoise/Generators/Generator.h: OutputMinMax"]}
{"id": "C17", "title": "Position arrays evaluate every position once per output", "statement": "GenPositionArray2D/3D/4D write out[i] = noise(pos[i]+offset) for each i in [0,count), touch nothing else, read nothing else and report the exact min/max.", "quantifier": "every count >= 1, every register size", "why_tests_cant": "Tail handling with overlapping last vector; depends on count modulo width and count < width.", "anchors": ["include/FastNoise/Generators/Generator.inl: GenPositionArray2D/3D/4D, LoadRemaining, StoreRemaining"]}
{"id": "C18", "title": "Tileable output wraps", "statement": "GenTileable2D samples points of a 4D torus such that output column xSize would equal column 0 and row ySize would equal row 0, and neighbouring columns are equally spaced, so that the image tiles seamlessly.", "quantifier": "every size, step and seed", "why_tests_cant": "Exact periodicity in both axes for every size.", "anchors": ["include/FastNoise/Generators/Generator.inl: GenTileable2D"]}
{"id": "C19", "title": "Inserting a GeneratorCache does not change output", "statement": "Wrapping any source in a GeneratorCache yields the same noise as the source itself, for all sequences of queries on a thread.", "quantifier": "every node tree (any number and nesting of caches) and every query history", "why_tests_cant": "The cache is a thread-local shared by all cache nodes; wrong hits need specific nesting and query histories.", "anchors": ["include/FastNoise/Generators/Modifiers.inl: GeneratorCache::GenT"]}
{"id": "C20", "title": "Node editor IPC delivers messages intact, in order, at most once", "statement": "A message sent by one process is what the other process polls next: same type, same text, delivered once; polling never writes beyond the caller's buffer and never reports a message that was not sent.", "quantifier": "every sequence of sends and polls by the two processes, every message text and buffer length", "why_tests_cant": "The 8 bit wrapping counter and the shared buffer make failures depend on the history length and interleaving.", "anchors": ["tools/NodeEditorIpc/NodeEditorIpc_C.cpp: fnEditorIpcSendSelectedNode, fnEditorIpcSendImportRequest, fnEditorIpcPollMessage"]}
{"id": "C21", "title": "The generate work queue is FIFO, lossless and shuts down", "statement": "Jobs leave the work queue in the order they were pushed, each exactly once, unless cleared; after kill every waiting or later pop returns immediately.", "quantifier": "every interleaving of pushes, pops, clears, kills by any number of threads", "why_tests_cant": "Schedules are unbounded.", "anchors": ["tools/NodeEditor/MultiThreadQueues.h: GenerateQueue"]}
{"id": "C22", "title": "Stale results never reach the consumer", "statement": "After the version of the completion queue is increased no result pushed with an older version is ever popped, and results of the current version are popped in FIFO order, each once.", "quantifier": "every interleaving of pushes, pops and version increments", "why_tests_cant": "Schedules are unbounded.", "anchors": ["tools/NodeEditor/MultiThreadQueues.h: CompleteQueue"]}
{"id": "C23", "title": "Hybrid inputs follow last-write-wins rules", "statement": "After any sequence of constant/source assignments to a hybrid input, the value used for generation is the last assigned non-null source, or the last constant if no source was assigned after it (a null source reverts to the last constant).", "quantifier": "every sequence of assignments", "why_tests_cant": "Sequence space is unbounded.", "anchors": ["include/FastNoise/Generators/Generator.h: HybridSourceT, Generator::SetSourceMemberVariable, GetSourceValue"]}
{"id": "C24", "title": "Output range setters are order independent and honoured", "statement": "After any sequence of SetOutputMin/SetOutputMax calls, native values [-1,1] are mapped affinely onto [last min, last max].", "quantifier": "every sequence of setter calls with real values; every native output in [-1,1]", "why_tests_cant": "Setter updates derived fields incrementally; sequences are unbounded.", "anchors": ["include/FastNoise/Generators/Generator.h: VariableRange", "include/FastNoise/Generators/Utils.inl/Generator.inl ScaleOutput"]}
{"id": "C25", "title": "Lattice hashing loses no information before mixing", "statement": "For a fixed seed, lattice points that differ modulo 2^32 in one axis get different hash keys; for a fixed lattice point different seeds get different hash keys; octave seeds of a fractal are all distinct.", "quantifier": "all 2^32 seeds and all lattice coordinates", "why_tests_cant": "2^32 x 2^32 combinations.", "anchors": ["include/FastNoise/Generators/Utils.inl: Primes, HashPrimes, HashPrimesHB, GetValueCoord"]}
{"id": "C26", "title": "Gradient selection agrees across SIMD levels", "statement": "The gradient dot product functions return the same value on every instruction set variant and depend only on the documented low bits of the hash; every hash selects one of the documented gradient vectors.", "quantifier": "every 32 bit hash and every (fx,fy,fz,fw)", "why_tests_cant": "2^32 hashes x real vectors, with several intrinsics-specific implementations only one of which is run on a given machine.", "anchors": ["include/FastNoise/Generators/Utils.inl: GetGradientDot, GetGradientDotFancy, GetGradientDotCommon etc."]}
{"id": "C27", "title": "Cellular distance keeps the k nearest points", "statement": "CellularDistance combines exactly the index0-th and index1-th smallest distances of the scanned cell points (as the return type says), CellularValue returns the value of a cell whose distance is the idx-th smallest, CellularLookup evaluates its source at a nearest scanned point; index setters are clamped to the array.", "quantifier": "every seed, position (2D, 3D, 4D), metric, jitter, index pair, return type and register garbage", "why_tests_cant": "Insertion network correctness over all orders.", "anchors": ["include/FastNoise/Generators/Cellular.inl: CellularDistance::GenT, CellularValue::GenT", "include/FastNoise/Generators/Cellular.h: SetDistanceIndex0/1, SetValueIndex"]}
{"id": "C28", "title": "Fractals combine octaves as documented and stay bounded", "statement": "A fractal with n octaves equals the sum over octaves i<n of source(seed+i, pos*lacunarity^i) times gain^i (weighted strength 0); FBm is affine in each octave, ridged folds each octave at zero; if the source is within [-1,1] the fractal is within plus or minus the sum of |gain|^i; one octave is the source itself.", "quantifier": "every octave count, gain, lacunarity, weighted strength, source function, position and seed", "why_tests_cant": "Quantifies over all source functions and octave counts.", "anchors": ["include/FastNoise/Generators/Fractal.h, Fractal.inl: FractalFBm, FractalRidged"]}
{"id": "C29", "title": "Domain warp applies seed and amplitude consistently", "statement": "A domain warp displaces the sample position by at most the amplitude, passes the unmodified seed to its source, and the seed offset changes the warp like adding it once to the seed, stand-alone and inside a warp fractal alike; a progressive warp fractal composes the octave warps, an independent one adds displacements computed at the original position.", "quantifier": "every seed, seed offset, position, amplitude and source", "why_tests_cant": "Universal over real inputs and source functions.", "anchors": ["include/FastNoise/Generators/DomainWarp.h, DomainWarp.inl, DomainWarpFractal.inl"]}
{"id": "C30", "title": "Clamping and blending modifiers honour their ranges", "statement": "PingPong, Terrace, Remap with clamping, Fade, MinSmooth/MaxSmooth, Abs, PowInt, SignedSquareRoot, Modulus produce outputs in their documented ranges (e.g. smooth min <= min, fade between its two inputs, remap maps from-range to to-range).", "quantifier": "all real inputs", "why_tests_cant": "Universal over reals.", "anchors": ["include/FastNoise/Generators/Modifiers.inl", "include/FastNoise/Generators/Blends.inl"]}
{"id": "C31", "title": "ConvertRGBA8 packs a grey opaque pixel", "statement": "ConvertRGBA8 outputs a 32 bit pixel whose alpha is 255 and whose three colour channels are equal to the clamped, scaled source, in 0..255, monotone in the source.", "quantifier": "every source value, every min/max", "why_tests_cant": "Universal over values.", "anchors": ["include/FastNoise/Generators/Modifiers.inl: ConvertRGBA8"]}
{"id": "C32", "title": "Domain rotation is rigid", "statement": "DomainRotate maps positions by a rotation: distances from the origin are preserved and zero yaw/pitch/roll is the identity, in 2D (yaw only or lifted) and 3D; offset/scale/axis-scale transform coordinates as documented.", "quantifier": "all angles and positions", "why_tests_cant": "Universal over reals.", "anchors": ["include/FastNoise/Generators/Modifiers.h, Modifiers.inl: DomainRotate, DomainRotatePlane, DomainScale, DomainOffset, DomainAxisScale"]}
{"id": "C33", "title": "Displayed node and member names are faithful", "statement": "The display name of a node is its class name with spaces inserted (removing the spaces gives the name back) and group removal only removes group words; dimension members get an axis prefix.", "quantifier": "every name and group list", "why_tests_cant": "Unbounded strings.", "anchors": ["src/FastNoise/Metadata.cpp: FormatMetadataNodeName, FormatMetadataMemberName"]}
{"id": "C34", "title": "Editor pin ids are unambiguous", "statement": "Node ids and attribute ids used by the node editor decode back to the node and member they were made from and never collide with output pins or each other; a free node id is never in use.", "quantifier": "every node id and attribute index in range, every set of used ids", "why_tests_cant": "Bit packing over all ids.", "anchors": ["tools/NodeEditor/FastNoiseNodeEditor.cpp/.h: Node::GetStartingAttributeId etc., GetFreeNodeId"]}
{"id": "C35", "title": "Editor graphs have no dangling links", "statement": "After any sequence of create, link, unlink and delete operations, every link in the editor graph refers to an existing node.", "quantifier": "every operation sequence", "why_tests_cant": "Unbounded histories.", "anchors": ["tools/NodeEditor/FastNoiseNodeEditor.cpp: DeleteNode, link handling"]}
{"id": "C36", "title": "Lattice noises are bounded, continuous and exact on lattice points", "statement": "Value noise and Perlin noise stay within the configured output range and are continuous functions of the position, in particular across cell borders; Value noise equals the lattice value at lattice points and Perlin noise is the middle of the range there.", "quantifier": "every seed, seed offset, scale, output range and position, 2D, 3D and 4D", "why_tests_cant": "Universal over positions and seeds.", "anchors": ["include/FastNoise/Generators/Value.inl, Perlin.inl, Utils.inl: InterpHermite, InterpQuintic, Lerp"]}
{"id": "C37", "title": "Basic generators follow their definitions", "statement": "Constant ignores position, Checkerboard alternates between adjacent cells, White depends only on seed and the exact position bits, SineWave is bounded and periodic, Gradient is affine.", "quantifier": "every position and seed", "why_tests_cant": "Universal over positions.", "anchors": ["include/FastNoise/Generators/BasicGenerators.inl"]}
{"id": "C38", "title": "4D simplex traversal visits each axis once", "statement": "The rank computation of the simplex noises is a permutation of the axes for every offset, including ties, so the simplex corners are distinct and each step adds one axis.", "quantifier": "every fractional offset vector, including equal coordinates", "why_tests_cant": "Ties and orders over reals.", "anchors": ["include/FastNoise/Generators/Simplex.inl: Simplex::Gen"]}
{"id": "C39", "title": "Min/max merging is a semilattice", "statement": "Merging per-chunk min/max results gives the min/max of the whole in any order and grouping; an empty result is neutral.", "quantifier": "every collection of values and every merge tree", "why_tests_cant": "Unbounded merge trees.", "anchors": ["include/FastNoise/Generators/Generator.h: OutputMinMax"]}
{"id": "C40", "title": "C API handles own exactly one reference", "statement": "Each successful fnNew* gives the caller one reference, released by one fnDeleteNodeRef; source references held by other nodes keep a deleted handle's node alive; after releasing all handles nothing leaks.", "quantifier": "every sequence of C API calls", "why_tests_cant": "Unbounded histories.", "anchors": ["src/FastNoise/FastNoise_C.cpp: fnNewFromMetadata, fnNewFromEncodedNodeTree, fnDeleteNodeRef", "include/FastNoise/Utility/SmartNode.h"]}
{"id": "C41", "title": "Degenerate batch requests are harmless", "statement": "A batch call asking for zero outputs (a count of zero) returns without reading or writing the caller's arrays, and a request whose output count does not fit an int is rejected rather than undefined.", "quantifier": "every batch function, every register width, every combination of counts including zero", "why_tests_cant": "A test on one empty request shows a hang or a silent out-of-bounds read only by luck; the claim ranges over all widths and counts.", "anchors": ["include/FastNoise/Generators/Generator.inl: AxisReset, StoreRemaining, GenUniformGrid2D, GenPositionArray2D"]}
{"id": "C42", "title": "Texture preview never goes back to an older image", "statement": "Whatever the order in which worker threads finish, the sequence of generation numbers of the images the 2D preview shows is strictly increasing: an older request that finishes late is dropped.", "quantifier": "every interleaving of re-generation requests, worker completions and draw calls", "why_tests_cant": "A late completion needs a particular schedule; a test sees a handful of them.", "anchors": ["tools/NodeEditor/NoiseTexture.cpp: NoiseTexture::Draw, NoiseTexture::ReGenerate, NoiseTexture::GenerateLoopThread"]}
{"id": "C43", "title": "Cellular lookup finds the globally nearest feature point", "statement": "With a Euclidean metric, a grid jitter between -1 and 1 and no size jitter, the feature point that CellularLookup uses is a nearest one among the feature points of all cells of the infinite lattice, not only of the scanned neighbourhood.", "quantifier": "every seed, every position whose cells fit in int32, every grid jitter in range, 2D, 3D and 4D", "why_tests_cant": "The bound on the jitter constant is tight: a violation needs an unlikely combination of hashes in cells two apart.", "anchors": ["include/FastNoise/Generators/Cellular.inl: kJitter2D, kJitter3D, kJitter4D, CellularLookup::Gen"]}
{"id": "C44", "title": "Simplex noise has no seams", "statement": "The value of Simplex and SuperSimplex noise at a position is the sum, over all points of the simplex grid, of the point's gradient ramp times a radial falloff that vanishes at a fixed radius: no grid point in reach is left out, whichever cell, corner order or nearest vertex the code works with. Hence the noise is a continuous function of the position.", "quantifier": "every seed, every position up to 2^28 feature sizes, every setting, dimensions 2, 3 and 4, every SIMD level", "why_tests_cant": "A jump across a simplex face is small and sits on a set of measure zero; excluding it needs a geometric argument about all grid points.", "anchors": ["include/FastNoise/Generators/Simplex.inl: Simplex::Gen, SuperSimplex::Gen"]}
{"id": "C45", "title": "Simplex domain warps are seamless vector noise, the same on every machine", "statement": "DomainWarpSimplex and DomainWarpSuperSimplex evaluate their source, with the caller's seed, at the position moved by amplitude times axis scale times a vector noise: the sum, over all points of the simplex grid in reach, of a radial falloff times a matrix applied to the offset from the grid point. The matrix depends on the hash of the grid point only: an outer product of two vectors of the gradient list, or (default) a multiple of an orthogonal matrix. Hence the warp is continuous, proportional to the amplitude, and does not depend on the instruction set; in warp fractals the octaves compose.", "quantifier": "every seed, seed offset, amplitude, axis scale and source, every position up to 2^28 feature sizes, both vectorization schemes, dimensions 2, 3 and 4, every SIMD level", "why_tests_cant": "Differences between the SIMD variants concern single rows of a table picked by a hash of every seed and position; seams sit on sets of measure zero.", "anchors": ["include/FastNoise/Generators/DomainWarpSimplex.inl: ApplyGradientOuterProductVectorProductSimplex, ApplyOrthogonalGradientMatrixVectorProductSimplex, DomainWarpSimplex::Warp, DomainWarpSuperSimplex::Warp", "include/FastNoise/Generators/DomainWarpFractal.inl"]}
{"id": "C46", "title": "The smooth 3D mesh preview is a closed surface", "statement": "With the dual marching cubes mesh type, the node editor shows for every lattice edge between an air point (density above the iso value) and a solid point exactly one quad; it has one corner in each of the four cells around the edge, shares no gap with its neighbours and faces the air. The meshes of neighbouring chunks fit together without cracks: every triangle side from p to q is matched by a side from q to p, in whichever chunk, as soon as the chunks around p are built. Building a chunk never reads outside its arrays and every brightness lies between the ambient value and 1. Every vertex is the mean of points on cell edges where the interpolated density equals the iso value; if the density is affine all vertices lie on its iso plane, and if it is a quadratic polynomial the brightness is that of the exact gradient direction at the vertex.", "quantifier": "every generator, iso value, up axis, chunk size and set of non-overlapping chunks", "why_tests_cant": "The property depends on all 256 rows of a hand-written table in every combination of neighbouring cells and across chunk boundaries.", "anchors": ["tools/NodeEditor/MeshNoisePreview.cpp: BuildDmc3DMesh, DmcGetVertIndex, GridPositions3D", "tools/NodeEditor/util/DmcTable.inl: kDualPointsList"]}
{"id": "C47", "title": "The block mesh preview is a closed surface with one square per exposed voxel face", "statement": "With the block (bloxel) mesh type, the node editor shows for every face between a solid voxel (density at most the iso value) and an air voxel exactly one unit square, made of two triangles that face the air, with corner brightness given by the sun direction, the depth and the solid voxels around the corner (0 to 3 occluders), and nothing else. The meshes of neighbouring chunks fit together without cracks: every triangle side from p to q is matched by a side from q to p as soon as the exposed voxels around p are built. Building a chunk never reads outside its density array, indices are valid and every brightness lies in [0.03, 1].", "quantifier": "every generator, iso value, up axis, chunk size and set of non-overlapping chunks", "why_tests_cant": "It must hold for every voxel pattern, also across chunk borders, where a wrong offset only shows for some neighbourhoods.", "anchors": ["tools/NodeEditor/MeshNoisePreview.cpp: BuildBloxel3DMesh, BloxelAddQuadAO", "tools/NodeEditor/MeshNoisePreview.h"]}
{"id": "C48", "title": "The height map preview is a seamless terrain of the 2D noise", "statement": "With the height map mesh type, the node editor shows for every lattice square exactly two triangles through the points (x, noise(x, z) * multiplier, z) above its corners, seen from above and together covering the square, with one brightness in [0.16, 1] which on a plane is determined by its normal. Neighbouring chunks share their border heights: every triangle side from p to q is matched by one from q to p as soon as the squares around p are built. Building a chunk never reads outside its density array.", "quantifier": "every 2D generator, height multiplier, chunk size and set of non-overlapping chunks", "why_tests_cant": "It must hold for every noise and every chunk border; a wrong row stride or border shows only for particular positions.", "anchors": ["tools/NodeEditor/MeshNoisePreview.cpp: BuildHeightMap2DMesh, GridPositions2D", "tools/NodeEditor/MeshNoisePreview.h: LIGHT_DIR"]}
{"id": "C49", "title": "The mesh preview loads every chunk in range exactly once, nearest first, and ends up complete", "statement": "While the user moves the camera and edits settings, each chunk of the grid is at any time shown, queued, under construction or waiting to be shown at most once, only for the current settings, and the chunk counters never wrap around. A frame requests exactly the missing chunks in the load range whose turn it is, nearest first; with the camera at rest 32 frames cover the whole range, every requested chunk gets shown once the workers are done, and then the surface within the load range minus 113 has no cracks. The load range stays in [192, 3000]. An unloaded chunk is not requested again from the same place (false for height maps viewed from high above).", "quantifier": "every schedule of the main thread and any number of workers, camera path, sequence of restarts (fewer than 2^32) and load range", "why_tests_cant": "Duplicates, stale chunks and holes depend on how worker threads interleave with restarts and on camera positions; there are unboundedly many of both.", "anchors": ["tools/NodeEditor/MeshNoisePreview.cpp: ReGenerate, UpdateChunkQueues, UpdateChunksForPosition, GenerateLoopThread, GetLoadRangeModifier", "tools/NodeEditor/MultiThreadQueues.h"]}
{"id": "C50", "title": "The node editor's graph survives closing, reopening and crashes", "statement": "Closing the node editor and opening it again brings back the same graph: every node with its id, type, variables, links, hybrid constants and position, plus panning, scale, seed, generation type and (with a detached graph) the selected node, whatever order the hash tables iterate in; a second round changes nothing. Numbers come back exactly if they were typed with at most six decimals or are 16 or larger, otherwise within a millionth (small constants are lost). If the program dies while writing the file, at any character, the editor still opens with a sound graph that has every node whose section is complete. Any other file (unknown types, wrong member counts, missing links, duplicate ids, garbage) opens to a sound graph without undefined behaviour (false for sections that go on after their id and for ids of 2^23 and more).", "quantifier": "every graph an editing session can produce, every hash table order, every position, setting and float bit pattern, every crash point in the file, every settings file", "why_tests_cant": "A lost link or a use of a node before it is read back depends on the shape of the graph and on the hash order; the text conversion must round trip for all 2^32 floats; the file can be cut or edited anywhere.", "anchors": ["tools/NodeEditor/FastNoiseNodeEditor.cpp: SetupSettingsHandlers, SerialiseIncludingDependancies, Node::Node, FindNodeFromId, Draw", "include/FastNoise/Metadata.h: GetFromId"]}
{"id": "C51", "title": "The preview and the exported picture show the noise around the chosen centre", "statement": "The texture preview shows the noise around its centre: pixel (x, y) is the opaque grey (-1 black, 1 white, nearest of 256 levels) of the noise value at centre + ((x, y) - size / 2) * scale, in the tiled mode on the torus, on every SIMD level and whatever was drawn before. An export is a correct 8-bit BMP file of the size set in the menu with the same generator, seed and mode, each pixel in its place; with 'match preview area' it shows the area of the preview (false unless the centre is the origin: the centre is multiplied too). Dragging the picture moves it with the mouse, and changing the scale keeps its middle. Sizes of 65536 and more and of zero are not handled.", "quantifier": "every generator, seed, mode, centre, scale, preview and export size, SIMD width and previous contents of the buffer", "why_tests_cant": "A row order, padding or centring error shows only for certain sizes; positions must be right for all centres, scales and sizes, and the file format for all widths modulo 4.", "anchors": ["tools/NodeEditor/NoiseTexture.cpp: BuildTexture, DrawExportMenu, Draw", "include/FastNoise/Generators/Generator.inl: GenUniformGrid2D, GenUniformGrid3D, GenUniformGrid4D, GenTileable2D"]}
{"id": "C52", "title": "Exporting a picture never overwrites a file", "statement": "An export from the node editor writes its image to a new file, named after the text in the menu or else the generator, with a number appended if that name is taken, and changes no other file; exports in a row end up in different files, each with its own image. (False when 1023 names are taken; names grow with each number, so the 86th export of a Simplex node terminates the program; a failed export blocks all later ones.)", "quantifier": "every name, every state of the disk, every number of exports, every image", "why_tests_cant": "Losing a file depends on which names exist on the disk and on how many exports came before.", "anchors": ["tools/NodeEditor/NoiseTexture.cpp: DrawExportMenu"]}
{"id": "C53", "title": "Preview settings survive a restart and a crash while saving", "statement": "After closing and reopening the node editor the texture preview has its scale, seed, generation type, export size, relative scaling and file name back, the mesh preview its triangle limit, scale, iso value, height multiplier, seed, colour, mesh type, axis and switch: integers, texts and switches exactly, floats within a millionth (exactly if typed with six decimals or from 16 on), whatever other sections the file holds and in whatever order; saving again writes the same text, and the graph of the editor is loaded as if the sections of the previews were not there. A line of any text changes at most one setting; if the program dies while writing, at any character, at most one setting is wrong. (The mesh is drawn white after a restart although its colour was loaded; a generation type that does not exist is accepted and freezes the preview.)", "quantifier": "every setting of every field (all bit patterns, all names), every initial state, every file around the sections, every crash point, every line of text", "why_tests_cant": "Keys must not be prefixes of each other in effect, and the text of a number must read back for all 2^32 bit patterns; files can be cut anywhere.", "anchors": ["tools/NodeEditor/NoiseTexture.cpp: SetupSettingsHandlers", "tools/NodeEditor/MeshNoisePreview.cpp: SetupSettingsHandlers, Draw"]}
{"id": "C54", "title": "The encoded text is a canonical name of the tree", "statement": "Two node trees have the same encoded text exactly if they are the same design: same node types, same settings, same links, same sharing of nodes. Where nodes live, in which order they were created and what else is in the graph does not change the text, and no two different designs share one. Decoding a text and encoding the result gives the same text.", "quantifier": "every pair of complete acyclic trees of up to 65536 nodes, with any sharing, any values", "why_tests_cant": "It compares all pairs of trees; two designs colliding in one text, or one design having several, shows only for particular pairs.", "anchors": ["src/FastNoise/Metadata.cpp: Metadata::SerialiseNodeData, SerialiseNodeDataInternal, DeserialiseNodeData", "include/FastNoise/Metadata.h: NodeData"]}
{"id": "C55", "title": "The node editor shows and sends the graph as it is", "statement": "Whatever is added, pasted, linked, unlinked, converted, edited or deleted in the node editor, the text each node offers for copying is the encoded text of the tree below it as it is now: empty exactly if something below is missing, otherwise decoding to that tree. If a node is selected and its tree is complete, that text is the active tree, the one last sent to other programs and the one in the texture and mesh previews: an edit anywhere below the selected node is never missed. What is remembered and shown never influences the graph. A tree received from another program is taken over whole, and nothing is sent back. (False after a link that closes a cycle, and after converting a domain warp in use to another kind: a node then keeps offering a tree that is gone; Clear All Nodes leaves the old picture.)", "quantifier": "every session of user operations from an empty graph, every order of the hash table, every graph with any sharing of nodes up to 65536 nodes on screen, every received text", "why_tests_cant": "Caches are renewed by walking from the changed node to its users while links are repaired on the way; staleness shows only for particular graphs, operation orders and hash orders.", "anchors": ["tools/NodeEditor/FastNoiseNodeEditor.cpp: Node::GeneratePreview, ChangeSelectedNode, SetPreviewGenerator, GetSelectedEncodedNodeTree, DeleteNode, CheckLinks, AddNode, Draw, DoIpcPolling"]}
{"id": "C56", "title": "Work in the node editor is not lost when the program dies", "statement": "Every operation that adds a node, or changes the type, a value or a link of a node on screen, makes a write of the settings file due, and a due write stays due until a frame writes the file, which then is the editor as it is. So whenever no write is due, the file holds every node on screen as it is, and the settings of the node pictures: if the program dies, the next start brings all of it back; also if it dies while writing, the next start has a sound graph. Closing writes the editor as it is. With a tree given on the command line the user's own settings file is never touched. (Deleting a node no other node uses, clearing the graph and moving nodes make no write due: after a crash those nodes are back, or at their old place.)", "quantifier": "every history of operations, frames, timer expiries, opened files and crash points (also inside a write), every iteration order", "why_tests_cant": "It is about every operation in every state of the graph and every point at which the program can die.", "anchors": ["tools/NodeEditor/FastNoiseNodeEditor.cpp: Draw, Node::GeneratePreview, ~FastNoiseNodeEditor, DeleteNode, SetupSettingsHandlers"]}
{"id": "C57", "title": "Generation through the C API fills exactly the arrays it was given", "statement": "With a node handle and arrays of the documented sizes, fnGenUniformGrid2D/3D/4D, fnGenTileable2D and fnGenPositionArray2D/3D/4D write, at the documented index, exactly what fnGenSingle2D/3D/4D returns for that sample position and seed; if outputMinMax is not NULL the two floats there are the least and the greatest of the written values; no other float of the caller's memory changes, wherever the arrays lie in it and whatever the SIMD level. A position array may be the output array itself only if count is at most the register width or a multiple of it; otherwise some outputs are noise of noise and the result depends on the SIMD level.", "quantifier": "every node, seed, register width, counts with product below 2^31, offsets, steps, memory contents and placement of the arrays", "why_tests_cant": "It is about every size, every placement of the arrays (also overlapping) and every register width.", "anchors": ["src/FastNoise/FastNoise_C.cpp: StoreMinMax, fnGenUniformGrid2D/3D/4D, fnGenPositionArray2D/3D/4D, fnGenSingle2D/3D/4D, fnGenTileable2D", "include/FastNoise/FastNoise_C.h", "include/FastNoise/Generators/Generator.inl: GenPositionArray2D/3D/4D, LoadRemaining, StoreRemaining"]}
{"id": "C58", "title": "In float arithmetic Value, White and Checkerboard keep the output range, at every SIMD level", "statement": "When all limits passed to SetOutputMin/SetOutputMax are multiples of a common power of two 2^e with at most 2^22 units (e between -22 and 0; integers, quarters, ...), then with every float operation rounded to binary32, with or without fused multiply-add, Value and White return values between the last minimum and the last maximum and Checkerboard returns exactly one of the two, for every position, scale, seed and dimension. White is the same at every SIMD level if the width of the range is a power of two. Value is, at lattice points of a power-of-two scale, the scaled hash of the point, and everywhere within 2.6e-6 (in 4D, per unit of range bound) of the exact noise at the scaled position the processor computes, which is position/scale up to a relative error of 1.2e-7. For other limits the minimum is kept exactly and the maximum is passed by at most one part in 2^23 of the bound.", "quantifier": "every setter history, position, scale, seed, seed offset, dimension and SIMD level (fused or not)", "why_tests_cant": "The outputs depend on rounding in each of 2^32 seeds times all positions; overshoot by one ulp at one seed in 10^8 is not met by sampling.", "anchors": ["include/FastNoise/Generators/Value.inl: Value::Gen", "include/FastNoise/Generators/BasicGenerators.inl: ScalePositions, ScaleOutput, White::GenT, Checkerboard::GenT", "include/FastNoise/Generators/BasicGenerators.h: SetOutputMin, SetOutputMax, SetScale", "include/FastNoise/Generators/Utils.inl: GetValueCoord, Lerp, InterpHermite", "src/CMakeLists.txt: FASTNOISE2_STRICT_FP"]}
{"id": "C59", "title": "Sample positions of uniform grids in float arithmetic; grids generated in pieces fit together on binary grids", "statement": "With every float operation rounded to binary32, sample (x, y, ...) of GenUniformGrid is the node at offset + index * step exactly, at every register width and SIMD level, when step, offset, extents and positions are multiples of a common power of two with at most 2^24 units; then a grid generated in pieces (each with the offset of its first sample) has exactly the values of the grid generated at once. For any step and offset the positions never go backwards and are within 3*2^-25 of a power of two that bounds them. Off the binary grids pieces do not fit (step 0.1f, tiles of twenty), levels with and without fused multiply-add sample at different positions (Checkerboard can jump from one limit to the other), and far from the origin different samples coincide.", "quantifier": "every grid size with fewer than 2^31 samples, piece, offset, step, node, seed, register width and level", "why_tests_cant": "Seams appear only for particular steps, sizes and processors; absence of seams must hold for every piece of every grid.", "anchors": ["include/FastNoise/Generators/Generator.inl: GenUniformGrid2D, GenUniformGrid3D", "src/CMakeLists.txt: FASTNOISE2_STRICT_FP"]}
{"id": "C60", "title": "Simplex and SuperSimplex noise stay in their output range", "statement": "The value of Simplex noise (2D, 3D, 4D) and of SuperSimplex noise (2D, 3D) lies between the limits last passed to SetOutputMin and SetOutputMax: the constant each overload divides by is at least the greatest sum of contributions that any position and any combination of gradients can reach. 4D SuperSimplex noise leaves the range, by 0.002 percent to 0.01 percent of half its width.", "quantifier": "every seed, seed offset, setter history, scale, SIMD level and position up to 2^28 feature sizes; exact arithmetic", "why_tests_cant": "The maximum is reached only at particular points of cells whose corners happen to have particular gradients, about one cell in a million; sampling found constants, it cannot show that nothing exceeds them.", "anchors": ["include/FastNoise/Generators/Simplex.inl: Simplex::Gen, SuperSimplex::Gen (kBounding)", "include/FastNoise/Generators/BasicGenerators.inl: ScaleOutput", "include/FastNoise/Generators/Utils.inl: GetGradientDotPerlin, GetGradientDotCommon"]}
{"id": "C61", "title": "Perlin noise in float arithmetic: near the exact noise, nearly equal on all processors, zero at lattice points", "statement": "With every float operation rounded to binary32, on every SIMD level, the output of Perlin noise (2D, 3D, 4D) is within 400*n/2^25 (n dimensions; at most 0.00005), in units of a power of two that bounds the output limits, of the exact noise at the scaled position the processor computes; two processors of whatever levels differ by at most twice that for the same scaled position rules (Value noise: (40n+14)/2^25). So it stays in the range of the exact noise up to that error. Where the scaled coordinates are integers the raw noise is exactly 0, for every seed and level.", "quantifier": "every seed, seed offset, scale, position (no bound on magnitude), setter history on a binary grid, SIMD level with or without fused multiply-add", "why_tests_cant": "Rounding errors depend on every bit of the inputs; a test compares a few positions on one processor, the bound must hold for all floats on all code paths.", "anchors": ["include/FastNoise/Generators/Perlin.inl: Perlin::Gen", "include/FastNoise/Generators/Utils.inl: GetGradientDotPerlin, GetGradientDotCommon, InterpQuintic, Lerp", "include/FastNoise/Generators/BasicGenerators.inl: ScaleOutput"]}
{"id": "C62", "title": "Simplex domain warps move a position at most by the warp amplitude", "statement": "A DomainWarpSimplex or DomainWarpSuperSimplex node asks its source for the value at a position whose Euclidean distance from the requested one is at most the warp amplitude (times the largest axis scale): what the description of the amplitude, 'Maximum (euclidean) distance the position can be moved', promises. (Holds, up to two millionths, in 2D for both vectorization schemes and both nodes, in 3D except DomainWarpSimplex with the gradient outer product, and in 4D for DomainWarpSimplex with the outer product; 4D DomainWarpSuperSimplex with outer product: within 1 percent. Fails for 3D DomainWarpSimplex with outer product and 4D DomainWarpSimplex with the default scheme, which are bounded by 1.7321 and 2.53 amplitudes.)", "quantifier": "every seed, seed offset, scale, amplitude source, axis scales, feature level, and every position whose scaled coordinates fit", "why_tests_cant": "The largest displacement is the maximum of a function over all positions in a cell and all combinations of gradients; sampling misses it.", "anchors": ["include/FastNoise/Generators/DomainWarp.h: SetWarpAmplitude, metadata text", "include/FastNoise/Generators/DomainWarpSimplex.inl: DomainWarpSimplex::Warp, DomainWarpSuperSimplex::Warp, kBounding"]}
{"id": "C63", "title": "Blend and modifier nodes keep their contracts in float arithmetic", "statement": "With every operation rounded to binary32, on SIMD levels with and without fused multiply-add: Add, Multiply, Min, Max, MinSmooth and MaxSmooth do not depend on the order of their sources and Subtract only changes sign; neutral elements change nothing, x-x is 0 and x/x is 1, Subtract is 0 only for equal sources; the operators are within half a unit in the last place and monotone; PowInt keeps [-1,1] and has the right parity; MinSmooth never exceeds the smaller source and equals it beyond the smoothness, MaxSmooth mirrors it; Fade gives exactly A up to Fade Min, stays within the power of two bounding its sources (linear, Hermite), is monotone (linear); clamped Remap stays in the target range, Remap gives exactly To Min at From Min, is monotone and within 11 units of precision of the affine map; ConvertRGBA8 gives opaque grey pixels, 0 at Min, 255 at Max, monotone and within half a level; Terrace with whole steps keeps [-1,1]; PingPong stays in [0,1]. (Fails: Fade at Fade Max and Remap at From Max can miss B and To Max, even by overshooting; quintic Fade overshoots; Terrace with fractional step counts leaves [-1,1]; PingPong returns a negative value for the largest negative float.)", "quantifier": "every float value of every source, both FMA variants, every approximate reciprocal", "why_tests_cant": "There are 2^32 values per source and up to five sources; rounding makes contracts fail at isolated inputs.", "anchors": ["include/FastNoise/Generators/Blends.inl", "include/FastNoise/Generators/Modifiers.inl: Remap, ConvertRGBA8, Terrace, PingPong"]}
{"id": "C64", "title": "Fractals stay within their peak and close to the exact octave sum in float arithmetic", "statement": "With every operation rounded to binary32: one octave, or gain 0, returns the source bit for bit; with weighted strength 0 the result is the same on levels with and without fused multiply-add; for a source within [-1,1] and a weighted strength within [0,1] the output of FractalFBm and FractalRidged never exceeds the FBm of the constant 1 with the same gain and octaves, which is at most 2 for gains up to 1/2 and at most the number of octaves for gains up to 1; unweighted FBm differs from the exact sum of its octaves by at most n(n+1+2^k)/2^25 (n+1 octaves, at most 2^k), unweighted FractalRidged from the exact sum of its folded octaves 1 - 2|source| by at most (n+1)/2^25 more; with lacunarity 2 the octave positions are exact.", "quantifier": "every source, seed, position, gain, weighted strength, number of octaves and lacunarity, both FMA variants", "why_tests_cant": "Rounding errors accumulate over octaves and depend on all source values; sampling does not bound them.", "anchors": ["include/FastNoise/Generators/Fractal.inl: FractalFBm::GenT, FractalRidged::GenT"]}
{"id": "C65", "title": "The wiki generator documents every registered node", "statement": "For every node the program builds a generator of that class with every source set to a generator of a class the source accepts, at most two calls deep, because the first domain warp is registered before the nodes that need one (if it were not, the recursion would not end); every node gets a section on exactly one page, that of its first group, in registration order, page files and section titles are distinct; descriptions get a line break mark at each line end and nothing else changes, so different descriptions stay different; the sections read no array out of bounds and float defaults printed with one decimal read back as the default; pictures are correct BMP files whose greys are between 0 and 255, ordered like the samples and within one level of the exact linear map, the lowest sample black.  Violated: hybrid inputs of each dimension share one heading, the highest sample may get level 254, and the shell command that converts a picture has an unterminated quote.", "quantifier": "every list of registered nodes (order and groups), every description, every picture size and sample array, every file and directory name", "why_tests_cant": "Running the program shows the pages of today's registry; termination depends on the order of registration and the rest on every text and every sample value.", "anchors": ["util/WikiGenerator/main.cpp: BuildGenerator, CreateImage, FormatDescription, DoNode, main"]}
{"id": "C66", "title": "The node editor's menus offer every node type that fits, once", "statement": "Whatever node types are registered, in whatever order, with group names that are not empty and contain no tab: the context menu, the menu of a dropped link and \"Convert To\" each offer exactly the node types that pass their test, each once, in the submenus that are its groups (in none when drawn without groups); a submenu is shown exactly if something is offered in it; entries are in name order at every level; \"Convert To\" offers exactly the other node types of the same groups, a dropped link exactly the node types with an input for it.  For the library's nodes no two entries visible together carry the same text, and converting with values kept - decided by comparing member names only - only ever pairs members of the same type, dimension, number of choices and kind of source.", "quantifier": "every list of registered node types with any groups, every order of registration, every test, every sorting function that permutes", "why_tests_cant": "The tree is built incrementally and depends on the order of static registration, which differs between builds and linkers, and on every later added node.", "anchors": ["tools/NodeEditor/FastNoiseNodeEditor.cpp: FastNoiseNodeEditor::FastNoiseNodeEditor (573-605), MetadataMenuGroup::CanDraw, MetadataMenuGroup::DrawUI, MatchingGroup, MatchingMembers", "tools/NodeEditor/FastNoiseNodeEditor.h: MetadataMenuGroup, MetadataMenuItem"]}
{"id": "C67", "title": "Gradient domain warps move positions as promised in float arithmetic", "statement": "With every operation rounded to binary32: per axis DomainWarpGradient's warp differs from the exact one at the same scaled position by at most 220/2^25 (below 6.6e-6) and leaves [-1,1] by no more, so SIMD levels with and without fused multiply-add agree up to twice that; an axis with amplitude 0 or axis scale 0 keeps its bits and a warp of amplitude 0 is its source bit for bit; with an amplitude of at most 2^i and coordinates of at most 2^j the moved position is within (222*2^i + 4*2^j)/2^25 of the exactly moved one; both warp fractals are such steps in sequence (seed + octave, frequency x lacunarity^octave), the errors at most add up, and without weighting a gain within [-1,1] never enlarges the amplitude.", "quantifier": "every seed, position (2 to 4 coordinates), amplitude, axis scale, number of octaves, gain and lacunarity, both FMA variants, any FastLengthSqrt", "why_tests_cant": "Rounding errors depend on every input; sampling does not bound them.", "anchors": ["include/FastNoise/Generators/DomainWarp.inl: DomainWarp::GenT, DomainWarpGradient::Warp", "include/FastNoise/Generators/DomainWarpFractal.inl: GenT"]}
{"id": "C68", "title": "No visible part of the mesh preview is culled", "statement": "Whenever the camera sees a point of a triangle of a loaded chunk, the chunk is drawn, whatever chunks were loaded and unloaded before: the box tested against the view frustum contains the mesh. Block meshes: always. Height maps: for a multiplier that is not negative (with a negative one the box is inside out and chunks in full view vanish). Smooth meshes reach one unit below their box: with the box enlarged by that unit the claim holds, with the box of the code surface near a lower chunk face vanishes.", "quantifier": "every density function, chunk position, history of loading and unloading since the last restart, and every view frustum (any list of planes)", "why_tests_cant": "Quantifies over all camera positions, densities and loading histories; a vanishing chunk needs a particular view.", "anchors": ["tools/NodeEditor/MeshNoisePreview.cpp: MeshNoisePreview::Draw, UpdateChunkQueues, ReGenerate"]}
{"id": "C69", "title": "The Min Air / Max Solid readout of the mesh preview is right", "statement": "After any sequence of chunks has arrived, Min Air Y is the height of the lowest air lattice point of all these chunks and Max Solid Y that of their highest solid one, infinite as long as there is none. True for block meshes. For smooth meshes only air below a solid point and solid below an air point are counted (within one unit), except in uniform chunks: on a flat ground at 5.3 the readout says that air begins at 128.", "quantifier": "every density function, iso value, up axis and sequence of chunks", "why_tests_cant": "Must hold for every density and every order in which the worker threads deliver chunks.", "anchors": ["tools/NodeEditor/MeshNoisePreview.cpp: BuildBloxel3DMesh, BuildDmc3DMesh (minAir, maxSolid), UpdateChunkQueues"]}
{"id": "C70", "title": "Cellular noise stays accurate under float rounding", "statement": "With every operation rounded to binary32, for samples whose scaled coordinates stay below 2^22, no size jitter, grid jitter in [-1,1], any metric except Minkowski and an inverse square root of relative error at most rho: (a) CellularDistance's four distances are ascending and each is within a stated error (under 1e-5 plus 1.5 rho or so for the Euclidean metric, independent of the distance from the origin) of the true i-th smallest distance to the feature points of the neighbouring cells, even where cells tie; each return type combines two such values up to relative rounding, scaled to the output range, for the Euclidean metric with distinct indices and off the feature points; (b) CellularValue returns the value of a cell whose true distance is within twice that error of the requested order statistic, whatever uninitialised memory holds; (c) CellularLookup evaluates its source within the stated error of the true feature point of a cell that is nearest up to twice the error; here the error grows with the distance from the origin (2^(k-25) at coordinates up to 2^k).", "quantifier": "every seed, seed offset, position in 2 to 4 dimensions, feature scale, jitter, index, return type, SIMD level (fused or separate multiply-add) and inverse square root approximation", "why_tests_cant": "All float positions and all approximations of the inverse square root; errors and ties happen at special positions tests do not hit.", "anchors": ["include/FastNoise/Generators/Cellular.inl: CellularValue::GenT, CellularDistance::GenT, GetReturn, CellularLookup::GenT", "include/FastNoise/Utils.inl: CalcDistance"]}
{"id": "C71", "title": "Starting the node editor hands over the tree", "statement": "If fnEditorIpcStartNodeEditor starts an editor, that editor shows exactly the tree given (null or empty: its own saved graph) in the kind of window asked for. True on POSIX systems for every text except the word --detached; on Windows for texts without spaces, tabs, quotes and backslashes; in both for every text written by the encoder, which the editor then decodes to the same bytes. The program started is the one set with fnEditorIpcSetNodeEditorPath, else the first executable of the candidate places; a null or empty path restores the search. The result is true exactly if an editor runs (Windows; POSIX only if the file is executable: otherwise success is reported though nothing was started).", "quantifier": "every text, path, library directory, file system content, and outcome of the process calls", "why_tests_cant": "All texts and all answers of the operating system; tests start one program with one text.", "anchors": ["tools/NodeEditorIpc/NodeEditorIpc_C.cpp: fnEditorIpcStartNodeEditor, fnEditorIpcSetNodeEditorPath, FindNodeEditorBinary", "tools/NodeEditor/NodeEditorApp.cpp: IsDetached, InitialNodeTree", "src/FastNoise/Base64.h: Base64::Encode"]}
{"id": "C72", "title": "The preview camera follows mouse and keys", "statement": "After any sequence of key presses, releases, drags and frames the camera's axes are perpendicular unit vectors in right-handed order, the horizon is level, the picture is never upside down nor straight up or down, and the heading is 0.22 degrees times the total horizontal motion of the drags, however they are divided, without drift from wrapping at 360 degrees; elevation stops at 89 degrees. Dragging does not move the camera. A frame moves it along its own axes as the pressed keys say, 80 units per second (320 with shift), opposite keys cancel. A key counts as pressed exactly while it is held; this fails if ImGui takes the release: then the camera keeps moving.", "quantifier": "every sequence of events, with every answer of ImGui whether it takes them, every motion and frame time", "why_tests_cant": "Unbounded event histories over real-valued motions.", "anchors": ["tools/NodeEditor/NodeEditorApp.cpp: drawEvent, pointerMoveEvent, HandleKeyEvent, keyPressEvent, keyReleaseEvent"]}
{"id": "C73", "title": "2D Simplex noise is accurate in single precision", "statement": "On every SIMD level, with every output range and seed, the value 2D Simplex noise returns in binary32 arithmetic is within 0.00005 (in units of a power of two bounding the range) of the exact Simplex noise at a position that differs from the scaled position by at most 6/2^25 of a power of two bounding its coordinates, in each axis; the position is the same on all levels. Compared with the exact noise at the scaled position itself the error is at most (1640 + 204 d)/2^25, d a power of two bounding the scaled coordinates. Hence two processors agree up to 0.0001, and the output leaves the range set by the user by at most 0.00005, although rounding may pick another simplex.", "quantifier": "every position with scaled coordinates up to 2^27, every scale, seed, seed offset, SIMD level and every sequence of range setters on a common binary grid", "why_tests_cant": "2^64 positions times seeds and levels; the worst errors sit next to cell borders and are not found by sampling.", "anchors": ["include/FastNoise/Generators/Simplex.inl: Simplex::Gen 2D", "include/FastNoise/Generators/BasicGenerators.inl: ScalePositions, ScaleOutput", "include/FastNoise/Generators/Utils.inl: GetGradientDotPerlin"]}
{"id": "C74", "title": "2D Simplex and 2D/3D SuperSimplex noise change at a bounded rate", "statement": "The outputs of 2D Simplex noise at two positions differ by at most 24 half output ranges times their distance in feature sizes; for 2D SuperSimplex noise by at most 19, for 3D SuperSimplex noise by at most 41. (Simplex noise in 3D and 4D and SuperSimplex noise in 4D jump, C44, so nothing of the kind holds for them.)", "quantifier": "every pair of positions within 2^28 feature sizes of the origin, every scale, seed, seed offset and sequence of range setters", "why_tests_cant": "All pairs of positions; the steepest places depend on seeds and cannot be found by sampling.", "anchors": ["include/FastNoise/Generators/Simplex.inl: Simplex::Gen 2D, SuperSimplex::Gen 2D and 3D"]}
{"id": "C75", "title": "Value and Perlin noise change at a bounded rate, and their binary32 outputs stay near the exact noise", "statement": "The outputs of Value noise at two positions differ by at most 3 half output ranges times their distance in feature sizes (distance counted along the axes); for 2D, 3D and 4D Perlin noise by at most 10. Consequently the binary32 output of Value noise at a position at most 2^m feature sizes from the origin is, on every SIMD level, within (7 + 20n + 13n 2^m)/2^25 of the exact noise at that very position (n = number of dimensions, in units of a power of two that bounds the output range), and that of Perlin noise within (400 + 41 * 2^m) n / 2^25.", "quantifier": "every pair of positions whose lattice cells fit in 32 bits, every scale, seed, seed offset, sequence of range setters, number of dimensions; for the binary32 part every SIMD level, every scale up to 2^100, every position up to 2^27 feature sizes away whose scaling does not underflow", "why_tests_cant": "All pairs of positions and all seeds; the steepest places depend on the hashes of neighbouring lattice points.", "anchors": ["include/FastNoise/Generators/Value.inl: Value::Gen", "include/FastNoise/Generators/Perlin.inl: Perlin::Gen", "include/FastNoise/Generators/Utils.inl: InterpHermite, InterpQuintic, Lerp"]}
{"id": "C76", "title": "How the nodes of a tree change its steepness", "statement": "If the sources of a node change by at most K (and K') per unit of distance, counted along the axes, then: Add and Subtract change by at most K + K'; Min, Max, MinSmooth, MaxSmooth and Fade with constant smoothness or position by at most the larger of the two; Multiply of values within [-A, A] and [-B, B] by A K' + B K; Abs by K; PingPong by K times its strength; Remap by K times the ratio of its ranges, clamped or not; DomainScale by K times its factor, DomainAxisScale by K times the largest factor; constant DomainOffset, SeedOffset and RemoveDimension by K; AddDimension and DomainOffset whose offsets change at rate R by K(1 + R) and K(1 + nR); a gradient domain warp of constant amplitude by K(1 + 3n amplitude/scale); an FBm fractal by K times the sum of (gain*lacunarity)^i over its octaves, and with a weighted strength w in [0,1] over a source within [-1,1] by K times the sum of gain^j (lacunarity^j + w/2 (1 + .. + lacunarity^(j-1))); a ridged fractal by at most twice as much; fractal domain warps of a gradient warp with constant amplitude, gain and no weighted strength, Independent by K(1 + 3n amplitude/scale times the sum of (gain*lacunarity)^i), Progressive by K times the product over the octaves of 1 + 3n amplitude/scale (gain*lacunarity)^i; DomainRotate by any angles and DomainRotatePlane by at most 7/4 K. SineWave itself changes by at most half its output range per feature size, Gradient with constant offsets by its largest multiplier, DistanceToPoint with a constant point by 1 (Euclidean, Manhattan and MaxAxis metrics).", "quantifier": "all source nodes, rates, domains of positions, seeds, constants, numbers of octaves and dimensions", "why_tests_cant": "Quantifies over all source nodes and all pairs of positions.", "anchors": ["include/FastNoise/Generators/Blends.inl", "include/FastNoise/Generators/Modifiers.inl", "include/FastNoise/Generators/Fractal.inl", "include/FastNoise/Generators/DomainWarp.inl", "include/FastNoise/Generators/BasicGenerators.inl: SineWave, Gradient, DistanceToPoint", "include/FastNoise/Generators/DomainWarpFractal.inl"]}
{"id": "C77", "title": "CellularDistance is the distance to the nearest feature point, within range and no steeper than the position moves", "statement": "With the Euclidean (or squared Euclidean) metric and no size jitter, the Index0 output of CellularDistance is the (squared) distance, in feature sizes, from the position to the nearest feature point of the whole infinite lattice, mapped so that 0 becomes the output minimum and (1 + largest displacement of a feature point)^2 the output maximum. Every number returned lies in the output range. With a constant grid jitter the Euclidean outputs at two positions differ by at most the output range divided by (1 + largest displacement)^2 per feature size of distance, the squared ones by at most twice the output range divided by 1 + largest displacement.", "quantifier": "every position (pair of positions) up to 2^30 feature sizes from the origin, in 2D, 3D and 4D, every seed, seed offset, scale, grid jitter in [-1, 1], sequence of range setters, SIMD level (fused or relaxed)", "why_tests_cant": "The nearest point is taken over an infinite lattice of hashed points; only 9, 27 or 81 cells are visited. All positions, pairs of positions and seeds.", "anchors": ["include/FastNoise/Generators/Cellular.inl: CellularDistance::Gen, GetReturn", "include/FastNoise/Generators/Cellular.h: CellularDistance"]}
{"id": "C78", "title": "Zooming a whole tree", "statement": "Multiplying by k (not 0) all feature sizes, warp amplitudes, offsets and added coordinates of a tree, and dividing the multipliers of Gradient nodes, shows the same picture magnified by k: the new tree at k times a position gives the value of the old tree at the position, for every seed. So a Domain Scale node of k in front of the new tree gives the old tree back. DistanceToPoint (Euclidean, Manhattan, MaxAxis, k > 0) grows by the factor k. Holds for all sources except White, all cellular nodes (jitters zoomed along), all blends, value and domain modifiers, FBm and Ridged fractals, the three domain warps and both fractal domain warps.", "quantifier": "all trees built from these nodes, factors, settings, seeds, positions and dimensions", "why_tests_cant": "Quantifies over all trees, positions and factors.", "anchors": ["include/FastNoise/Generators/BasicGenerators.h: ScalableGenerator", "include/FastNoise/Generators/BasicGenerators.inl", "include/FastNoise/Generators/Cellular.inl", "include/FastNoise/Generators/Modifiers.inl", "include/FastNoise/Generators/Fractal.inl", "include/FastNoise/Generators/DomainWarp.inl", "include/FastNoise/Generators/DomainWarpSimplex.inl", "include/FastNoise/Generators/DomainWarpFractal.inl"]}
{"id": "C79", "title": "Seeds, seed offsets and Seed Offset nodes agree", "statement": "Generating a tree with seed s + o is the same as generating it with seed s behind a Seed Offset node of o, and the same as adding o to the seed offset of every noise of the tree, wrapping around at 32 bits. Seed Offset nodes in a row add up. Holds for all sources (White, Value, Perlin, Simplex, SuperSimplex, cellular), blends, modifiers, fractals, the gradient and Simplex warp within fractal domain warps. Domain Warp nodes too count their seed offset once.", "quantifier": "all trees, seeds, offsets, positions and dimensions", "why_tests_cant": "Quantifies over all trees and all 2^64 pairs of seed and offset.", "anchors": ["include/FastNoise/Generators/Modifiers.inl: SeedOffset", "include/FastNoise/Generators/BasicGenerators.h: SeededGenerator", "include/FastNoise/Generators/Fractal.inl", "include/FastNoise/Generators/DomainWarp.inl", "include/FastNoise/Generators/DomainWarpFractal.inl", "include/FastNoise/Generators/Cellular.inl"]}
{"id": "C80", "title": "Fractals spelled out in nodes, neutral nodes, nodes that combine", "statement": "These trees give the same value for every seed and position. An FBm or Ridged fractal without weighted strength of n + 1 octaves is its first octave plus gain times the fractal of n octaves behind Seed Offset 1 and Domain Scale lacunarity; a progressive domain warp of n + 1 octaves is one warp of a tree that the remaining octaves, with the size divided by lacunarity and the amplitude times gain, warp further. Add 0, Multiply 1, Subtract 0, Divide 1, Min and Max with itself, Domain Scale 1, Domain Offset 0, Seed Offset 0, one octave, a gradient warp of amplitude 0, Fade at its ends and Remap from a range to itself change nothing; Remap back undoes Remap. Domain Scale nodes in a row multiply, Domain Offset nodes add, both commute up to scaling the offset and distribute over blends; two yaw rotations in 2D add their angles; adding a dimension and removing it changes nothing. Add is commutative and associative, Multiply distributes, Subtract, Max and Abs can be written with Add, Min and Multiply.", "quantifier": "all source nodes, settings, numbers of octaves, seeds and positions", "why_tests_cant": "Equations between functions on an infinite domain, over all sources.", "anchors": ["include/FastNoise/Generators/Fractal.inl", "include/FastNoise/Generators/DomainWarpFractal.inl", "include/FastNoise/Generators/Modifiers.inl", "include/FastNoise/Generators/Blends.inl"]}
