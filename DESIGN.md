# Formal model of mimmo (Lean 4)

This directory holds a machine-checked model of parts of optimad/MIMMO (`/repo`, C++) and
theorems about it.  The C++ is never built or run: the model is a hand transcription, so
every definition cites the file and lines it transcribes.

## Layout

* `properties.jsonl`  – the properties, in terms of the public API.
* `lean/Verif/<Area>/Model.lean`  – transcription of the code (cited), nothing else.
* `lean/Verif/<Area>/Spec.lean`   – the vocabulary of the specification, independent of the model's helpers.
* `lean/Verif/<Area>/Lemmas.lean` – helper lemmas.
* `lean/Verif/<Area>/Props.lean`  – the property theorems `Cnn_…`, each followed by an `example`
  that exhibits a concrete, non-trivial case meeting its hypotheses.
* `MANIFEST.json` – property → status and theorem names.
* `seeded/LOG.jsonl` – mutation-testing log.

Conventions.  Undefined behaviour and non-termination are explicit outcomes of the model
(`Outcome.ub`, fuel exhaustion), never assumed away.  When the code violates a property, the negation
is proved with a concrete witness (theorem name contains `_fails` / `_not_`), and the strongest true
restriction is proved as `…_partial`.

## Trusted base

* Lean 4.33 kernel; axioms used by any theorem are at most `propext`, `Classical.choice`, `Quot.sound`
  (no `sorry`, no added axioms, no `native_decide`, no `bv_decide`).
* The transcription from C++ to Lean (hand made; see the citations).
* The C++ standard library containers behave as documented (vectors are lists, `std::find` is first
  match, map/unordered_map are finite maps; iteration order of unordered containers is an arbitrary
  parameter of the model).
* bitpit is an external dependency, not in `/repo`.  Where the code calls it, its behaviour is a
  parameter or is assumed as documented in the comment at the definition (PiercedVector = finite map
  from ids to values with distinct ids; patch insert/delete; stream `write`/`read` of scalars).
* `double` is modelled by an abstract ordered field (or ℚ) where only order/arithmetics matters, and by ℝ
  in `Verif/Shape` (trigonometric functions); rounding, infinities and NaN are not modelled, except that places
  where the code itself divides 0 by 0 are explicit (`none`).  `int`/`long` are unbounded unless the property is
  about narrowing.

Not modelled at all: MPI communication, file I/O, logging, rendering (VTK), numerical linear algebra,
memory layout, exceptions thrown by allocation.

## Plan per property

| Id | What is modelled | How it is proved |
|----|------------------|------------------|
| C01 | `Chain.addObject` with fuel, on an arbitrary finite graph given by parents/children lists | induction on the acyclic ancestor order: success, order, membership |
| C02 | `Chain.exec` + `checkLoops` producing a trace | trace = chain order; position comparison |
| C03 | same | any cycle has a back edge in any linear order |
| C04 | addObject/deleteObject histories | C01 as invariant over operation lists |
| C05 | same, fuel exhaustion = non-termination | expected false (3-cycle): witness for every fuel; partial for acyclic |
| C06 | same with ids | invariant over histories |
| C07 | `deleteObject`, `exec(int)` | list reasoning |
| C08 | `clone` | induction over the ordered chain: every insertion appends |
| C09 | pin state (port lists, multiplicity counters) | refinement to the list of accepted pins |
| C10 | `addPin`, `checkCompatibility` | case analysis + invariant |
| C11 | `removeAllPins` with deletion by stale index | expected false for repeated links: witness + partial |
| C12 | `removePin` | expected false (counters, wrong link): witnesses + partial |
| C13 | `removePinsIn/Out` loops with fuel | expected false: divergence witness, dangling witness + partial |
| C14 | mandatory-port check | decision logic both directions |
| C15 | block network with arbitrary state transformers, port execution | induction along the chain order |
| C16 | byte encoder/decoder over a universe of types | induction over type codes |
| C17 | map reading | expected false (merge): witness + partial for fresh targets |
| C18 | heap of objects/counters, owners | invariant over operation histories |
| C19 | same with in-flight streams | invariant + witness of the dangling case |
| C20 | PortManager | invariant over histories |
| C21 | Factory | refinement to a function |
| C22 | absorb/flush base attributes | round trip; priorities ≥ 2^31 as witness |
| C23 | absorb/flush connections | round trip through section list |
| C24–C27 | MimmoPiercedVector as id/value list | list/finite map reasoning |
| C28 | setDataLocation, intIsValidLocation | expected false for the predicate; exact result for the setter |
| C29 | weighted means over ℚ | inequality by induction |
| C30–C32 | status flags with version stamps per structure | invariant over histories; witnesses for violations |
| C33–C37 | cells/vertices/PIDs as lists | invariants, list reasoning |
| C38 | checkCellConnCoherence, desumeElement | decision logic, loop analysis |
| C39, C40 | triangulate, degradeDegenerateElements | invariants over the cell loop |
| C41, C42 | graph searches with fuel/termination | loop invariants |
| C43 | dump/restore of header data | round trip |
| C44 | buildPointConnectivity | loop invariant |
| C45 | isClosedLoop | fuel; divergence witness with ghosts |
| C46 | `_apply` | map reasoning |
| C47–C49 | same chain model | witnesses (ring, stale index, id counter of clones) + partial theorems |
| C50 | network execution from any two insertion orders | both runs equal the dependency-ordered evaluation |
| C51–C53 | port creation/registry/factory results | invariants; release-build lookup as witness |
| C54–C57 | MimmoPiercedVector resize/init/checks, gradient interpolation | finite-map reasoning; algebra in an ordered field |
| C58, C59 | id-list conversions, inverse connectivity | loop invariants against set-builder specifications |
| C60 | clone | equality of all observable parts + witnesses for what is lost |
| C61 | triangulate | oriented outline (edge chains) of the pieces sums to that of the cell |
| C62 | toWorldCoord/toLocalCoord of the four shapes over ℝ | polar-angle lemmas; wedge edge plane as witness |
| C63 | setRefSystem (both forms), all setters | invariant over histories of setters; parallel axis as witness |
| C64 | setSpan/setInfLimits with their checks | invariant over histories |
| C65 | isPointIncluded, skd-tree search, simplex tests | soundness for all shapes; completeness for uncut shapes; sector/turned-wedge witnesses |
| C66 | excludeGeometry/excludeCloudPoints id complement | merge loop specification |
| C67 | kd-tree search with bounding box | stack-loop induction; extremes of the box at sampled points; witnesses |
| C68 | accessCellIndex/accessPointIndex, neighbours of a cell | arithmetic, both directions |
| C69 | build, resizeMesh, coordinates of nodes and centres | every state after build; uniform parameters of the shape |
| C70 | locateCellByPoint | for the points of the shape: index of a cell that contains the local point |
| C71 | interpolateCellData/interpolatePointData | equality with a separately stated trilinear interpolation; range; exact at samples |
| C72 | copy constructor, assignment, swap of UStructMesh | field-by-field equality of observable parts; witnesses of what is lost |
| C73 | setters before/after the choice of a shape, replayed by build | induction over lists of setter calls; witnesses |
| C74 | build after setters: what is in force | fixed point of build; witness of a request cut by an earlier shape |
| C75 | Lattice::execute, reduceDimToDOF, resizeMapDof, access functions | numbering loop = rank of the least node of each class, counting over the box |
| C76 | the same | equivalence with coincidence of points where it holds; witnesses for wedges, axes, spheres, sectors |
| C77 | execute, checkFilter and apply of the five transformation blocks on a mesh over ℝ | one loop lemma over the vertices; each value is linear in the filter (bend: only for orthonormal axes, witness otherwise) |
| C78 | the same, two executions with edits between | invariant of the completed filter; witness of a vertex added later |
| C79 | RotationGeometry | Rodrigues' formula characterised by a specification with a unique solution (kept axis part, length, angle and orientation); witness for a non-unit axis |
| C80 | TranslationGeometry | direct; witness for a non-unit axis |
| C81 | ScaleGeometry | direct; sum over the vertices for the mean point |
| C82 | TwistGeometry | the angle as a clamped linear function, then C79's specification; witness for negative angles |
| C83 | BendGeometry | loops = polynomial evaluation; local frame by orthogonality; witnesses |
| C84 | Apply::execute, checkInput | loop lemmas for filter, normals and moves; update succeeds on complete meshes; witnesses for repeated execution, volumes, replaced inputs |
| C85 | annotations in Apply::execute | the list of moved vertices, then C37 for the cells |
| C86 | copy constructors of the blocks | congruence of execute in what the copy keeps; witness for Apply's filter |
| C87 | ApplyFilter::execute, checkInput | as C84 |
| C88 | the three setMesh, clearMesh | composition of the setters, C69; rounding by the floor |
| C89 | FFDLattice: knots, knot intervals, basis functions, node maps, evaluation loops, build and execute over ℝ | loops = Cox-de Boor functions (specification in Basis.lean) = blending functions along each direction; evaluation in weighted coordinates |
| C90 | the same | partition of unity and positivity by induction on the degree |
| C91 | the same with filter | loop lemma over the vertices, as C77 |
| C92 | the same | local support by induction on the degree |
| C93 | the same | value of the blending functions at clamped ends and at nodes of degree one |
| C94 | the same, cylinder and sphere | continuity of the basis functions at simple knots; witness on the sphere |
| C95 | FFDLattice::build | direct, from C88 and the degree limits |
| C96 | setNodalWeight, build | map of collected weights; witnesses for repeated and missing builds |
| C97 | apply on a point | the second evaluator against the first; witness for decreasing dimensions |
| C98 | setDisplacements | direct; witness for short lists |
| C99 | convertDisplToXYZ | linearity of the combination; C62 for round shapes |
| C100 | choice of vertices in apply | C65 and C37; witness of a vertex on a cell across the border |
| C101 | GenericSelection::execute over the mesh model; bitpit's removal of coincident vertices as a relation | loops by induction; C37; update keeps the mesh |
| C102 | extractSelection of the blocks by PID, list and shape | membership of the merged list; C66; witnesses for clouds and lists |
| C103 | SelectionByPID state and calls | invariant over histories relating the state to the set asked; witnesses |
| C104 | SelectionByElementList calls and selection | induction over the calls; C37 |
| C105 | constrainedBoundary, given the border faces of both meshes | membership in the nested loops; witness with a corner |
| C106 | StitchGeometry constructors, addGeometry, execute; any order of the hash map | invariant over the geometries visited: disjoint union under two injections; cleaning as in C101; polyhedra by parsing of records |
| C107 | PID starts, resyncPID, names | separation of the PID ranges by induction; last loop over names decides |
| C108 | ExtractField: extract in its three modes over a world of geometries; interfaces of cells and the proximity search are parameters | specification of the copy loop (C25 lemmas) and of the PID and vertex queries (C35, C37); counterexamples for stale results, proximity ids and clouds |
| C109 | setMode, setTolerance, clear, the two numbers of the XML section | case analysis |
| C110 | ReconstructScalar/Vector::execute with the operations on values as a record (reals, vectors) | invariant of the two nested loops (value and counter of every id), then completion (C25) |
| C111 | addData, removeData as written (swap with the last), setOverlapCriterium, constructor | induction over the sweep with the list split at the iterator |
| C112 | ClipGeometry: clipPlane and execute over the reals; centroids are a parameter, a plane that is not a number keeps nothing | algebra of the test; the patch through C101 |
| C113 | the setters, the flag for an implicit plane, the numbers of the XML section (absolute value for `abs`) | the written point lies on the plane; case analysis of its largest component |
| C114 | nodes, data sets, radii, weights of MRBF; bitpit's evaluation as the sum over active nodes; filter and completion as for the manipulators | invariant of the insertion loop over the vertices; sums as list induction; linearity from the sum |
| C115 | the choice of vertices to treat (compact flag, largest radius against the diagonal) | a vertex not chosen gets zero by completion; a vanishing function gives zero by the sum |
| C116 | four ways to set radii as one type of requests, their setters, the effective list | case analysis on pairs of requests; the effective list by mode |
| C117 | inductive reachability of states by the setters; solver as a parameter with the equation it is meant to solve | invariant (no list of radii while interpolating), then evaluation at a node is a row of the system |
| C118 | initialisation from a geometry: sort by id, radii loop with its index, data sets | sums over a permutation; loop invariant of the radii; counterexamples for each silent drop |
| C119 | apply on the mesh world of the manipulators, with given normals | C46 (apply of displacements); loop over cells and vertices: last write wins but all writes belong to a cell |
| C120 | double loop over nodes, removal of the reported indices | characterisation of the reported set; no close pair is left if closeness is a matching |
| C121 | real functions | exponentials; hyperbolic tangent of Mathlib |
| C122 | copy constructor and clear | the run depends only on what is copied |
| C123 | min/max loops from the largest double, corners from origin and span | fold invariants; distance bounds each coordinate; link to C118 |
| C124 | the section as option values, writing as a rounding function | case analysis over options present |
| C125 | setters and execute of TranslationPoint as a state machine over real vectors | induction over calls (last setting wins); collinearity and length as independent specification |
| C126 | RotationAxes with the same rotation formula as the manipulators (C85) | invariant of call sequences; rotations as `Turned` (specified by inner and cross products), composition by vector identities |
| C127 | AABBox: frame of the axes, minimum/maximum loops over all vertices, origin by inverse frame, raised sides | fold invariants give attained bounds (`Extent`, unique); box by linear algebra |
| C128 | `SpecularPoints`: plane, data, loop over the points, images, final projection (`Mirror.execute`); projection and area are parameters | specification `Reflected` (orthogonal, midpoint on the plane) and `Mirrored`; loop invariant `mirror_loop`; proved for unit normals (`C128_mirrored_partial`), other lengths of coefficients refuted |
| C129 | side and force of `SpecularPoints` | `Beyond` as specification of the side; from the same invariant; default force refuted |
| C130 | settings of `SpecularPoints` as calls; `execute`, `clear`, copy | induction over calls (`mirror_sets`); origin/normal after a plane, an execution or `clear` refuted |
| C131 | `ProjPatchOnSurface` and its parent: settings, copy or target, moved vertices, `update`, trees | `MovedBy`, `TreesAsked` as specification; fold invariant `move_all`, C60 for the copy, freshness of caches for the trees; missing patch refuted |
| C132 | `findSharedPointClosestGlobalCell` on search trees: branch and bound with estimates, then a scan of the candidates; boxes with their least and greatest distances | `IsClosest` as specification; invariant of the stack of nodes; geometry of boxes (`boxes_fit`); cells not asked for refuted |
| C133 | `selectByPatch`, `extractTarget` on search trees | `NearCells` over lists of leaves as specification; induction over the stack of nodes for nested boxes |
| C134 | `isPointInsideSegment/Triangle/Polygon` over the reals | points given by parameters (`along`, `inPlane`), polygons by edges and sides (`Convex`, `LeftOf`); Lagrange identity, areas as barycentric coordinates, induction over the fan |
| C135 | `distancePointPolygon`, distance to a triangle as parameter (`TriDist`, shown to exist by compactness) | minimum over the fan; unit square refutes the closing triangle |
| C136 | serial `distance`, `signedDistance`, `computePseudoNormal`, `projectPoint` with its loop; search, barycentric coordinates, normals as parameters (`Sound`) | closest point and side as specification; one pass of the loop is always the last; small radius and zero normal refuted |
| C137 | `locatePointOnPatch`, `checkPointBelongsToCell` | points of cells (`InCell`) as specification, from C134 |
| C138 | narrow band around a surface, cells and vertices, with and without seeds; distances and neighbours as parameters | specification: inductive reachability (`Reach`), every id once (`IsBand`); loop invariant `Inv`, passes bounded by the number of cells; without seeds from C133 |
| C139 | `ControlDeformMaxDistance`: execute, violation, setters | distance to the undeformed surface (`IsDist`, closest point) as specification; search assumed sound as in C136 |
| C140 | `ControlDeformExtSurface`: growing search radius, sign by the centre, greatest over constraints | specification `SDist`, `PastSurface`, `IsViolation`; induction over passes, points and constraints; 1e-8*1.05^999 > 1e12 |
| C141 | list of constraint files, `extractInfo` | induction on lists of files and characters |
| C142 | `ProjSegmentOnSurface`: points of the segment, projection, curve | points as convex combinations, C136 for the projections, generic lemma on filled meshes (`Verif.Mesh.Fill`) |
| C143 | its XML section; texts of unsigned whole numbers | induction on digits; the written text read back is computed for all whole coordinates |
| C144 | `CreatePointCloud`: raw data, the loop that adds vertices and cells, fields | filled meshes (`Verif.Mesh.Fill`), fold over the values |
| C145 | `Create3DCurve`: lines between points, refinement by a priority queue (parameter: takes out a greatest element), fields | loop invariant: the lines form a chain with parameters, values interpolated, queue = lengths of the lines (`Verif.Create.RefInv`); failures computed |
| C146 | its XML section, with signed numbers | texts of all ints |
| C147 | selection of a field by geometry, name or mapping (SelectField family), on top of the extraction model | first match in a list; invariant of the merge loop: sum and number of the values so far |
| C148 | its list of fields, settings and XML section | induction over sequences of calls; texts of all settings; counterexample for mapping |
| C149 | `ternaryRefine`: fans around the centroids, repetition | induction over the cells with the growth of the mesh as invariant; signed edges for the outline |
| C150 | `redgreenRefine` on all cells: propagation, middles, four triangles | propagation as a run of steps (`Runs`) with an invariant and a measure; splitting by induction, independent of the order of the tags |
| C151 | `redgreenRefine` on some cells | the cut sides are the least set closed under the rule (inductive `Cut`): invariant for soundness, counting of visits for completeness; counterexample with three cells at a side |
| C152 | `smoothing`, real coordinates | each sub-step as a simultaneous move; hull by half-spaces; negation of the documented step |
| C153 | settings, `execute`, XML of RefineGeometry | relation between geometry before and after, determinism, composition of C149, C150, C152; texts of all settings |
| C154 | SurfaceTriangulator over a memory of shared objects; centroids are a parameter | C39 and C60 composed; frame conditions on the memory |
| C155 | SelectionByBoxWithScalar over the world of fields; the ids in the box are a parameter (C102) | C101 and C108 composed; the field through the patch with merged vertices |
| C156 | `Verif/Select/Mapping.lean`: `extractSelection`, the search in files and in objects, `execute`; the proximity search and the reading of files are parameters | membership of the list of the selected cells for any lists (`C156_select`), then the extraction already proved for C101 (`C156_patch`) |
| C157 | the same file: constructors, `add*`/`remove*`/`clear`, `extractInfo`, XML | effect of each call on the map from path to type and on the set of geometries; the last separator of a text; induction on the list of file sections for the map that is read, permutation of it for the round trip |
| C158 | `Verif/Check/Model.lean`: the three checks, their accumulators and lists, the parts of sick cells, the verdict | each accumulator characterised by its comparisons (`vol_loop`, `skew_loop`, `face_loop`, `areas_spec`), the parts by induction on the list of sick cells; the status is the least failing code |
| C159 | the same file: setters, XML, copies | by computation, for all values; the failures are stated for all values too |
| C160 | execute, the two boxes, the choice of the smaller, the adjustment of the axes; the solver is a parameter that returns orthonormal rows for symmetric matrices | specification: right-handed triad, least box along it (extent attained), thickening; proofs by the folds of extrema and by cases of the adjustment |
| C161 | covariance by cells (real arithmetic) and by points; the uninitialised matrix is a parameter | specification: covariance as integrals over triangles (iterated integrals of polynomials), principal directions, maximal spread; negations by concrete cases and for any symmetric matrix |
| C162 | list of geometries, strategy, section | direct proofs against explicit tables |
| C163 | text streams (`getline`, `>>`) and the reading and writing of rows of displacements | induction over the lines of an arbitrary file; a separate grammar of rows and numbers; negations for precision (pigeonhole), templates and bare rows |
| C164 | labels, settings, modes, section of the same block | arithmetic on the fitted labels; tables for the settings; negations for uniqueness, count, template name, empty mode |
| C165 | `IOCloudPoints::read`: lines, keywords, labels, streams, insertion of points and of values | a grammar of lines (`CSays`, `FileSays`) independent of the reader; induction over the lines for both passes; negations for positions, unknown labels, missing values, unset variable |
| C166 | `IOCloudPoints::write`, completion of fields, setters, copy, XML section | the written text satisfies the grammar, then C165; `C25_complete` for the zero values; tables for settings; negations for template, foreign ids, copy, null pointers, empty mode |
| C167 | `ifstreamcsv`/`ofstreamcsv` of numbers, arrays and vectors over the streams of Verif/Io; element types as records of reader and writer | induction over the values with `mid_at`/`last_at`; negations for the last number of a vector and single numbers |
| C168 | `ifstreamcsv`/`ofstreamcsv` of fields, binary form over abstract formats, `getResult`/`setInput` of the blocks for fields | induction over the rows for CSV and binary; `C54_resize_partial` for geometries; negations for names, locations, empty fields |
| C169 | settings, `setInput`/`getResult`, copy, XML of the four blocks | case analysis; file as map from paths to texts; round trip through the section |
| C170 | `computeFVCellGradientStencil` over real 3-vectors: least squares matrix, dropped directions, inverse by cofactors | normal equations; orthogonality for the best fit; determinant zero iff a common normal |
| C171 | gradients at interfaces, border, Neumann and Dirichlet corrections | evaluation of stencils is linear; algebra with unit normals |
| C172 | finite volume Laplacian as a fold over interfaces | invariant of the fold: sum of outgoing fluxes; exchange of sums for conservation |
| C173 | `computeLaplacianStencil` of points: weights by inverse squared distance and diffusivity | sums of positive weights; weighted mean |
| C174 | stencils with band, rows of Dirichlet points, right hand side, steps of PropagateScalarField; the solver as a field that solves the system | row by row equivalence; discrete maximum principle by reachability; uniqueness, then existence by linear algebra in finite dimension |
| C175 | damping by distance and by volume, division by zero explicit | monotonicity of real powers; folds for extrema |
| C176 | distribution of conditions as folds in the order of the sets; the vector of temporary fields with buffer, capacity and pointers | invariants of the folds; induction on additions |
| C177 | setters, section written and read | closed form of what is read back; rounding to six decimals |
| C178 | rows with conditions, guess and correction of a step, plane and reference of slip, coherence | closed form of each row; comparison and uniqueness from C174 for each component; projections over the reals |
| C179 | subdivision, loop over steps, updates of stencils, restored mesh | induction over steps with the rows kept; congruence of stencils outside the mask; counterexamples with four points |
| C180 | extractBoundaryMesh and the lists of border faces, cells and vertices; face tables are a parameter | membership of faces in the list; characterisation of the folds that add vertices and cells |
| C181 | execute, cleanUpBoundaryPatch, checkCoherence of FVGenericSelection | bulk patch through C101; deletion of cells and orphans characterised; counterexamples with five triangles |
| C182 | createInternalBoundaryPatch | border of the patch through C180, then deletion; counterexamples with two quadrilaterals |
| C183 | setters, copies, constructors with shapes and from XML of the FV selection blocks | induction over calls; equalities for all states; concrete runs |
| C184 | CreateSeedsOnSurface: decimation of candidates (grid and random engines), `Seeds/Model.lean` over `EuclideanSpace ℝ (Fin 3)`, loops with fuel | invariant of visited candidates against the specification `Spread`/`Greedy`; exact condition for the end of the loops by a limit argument |
| C185 | the local update of the fast marching, tolerances included | closed form of the minimiser, Cauchy–Schwarz for the least value, convexity for the restriction to the edge; concrete families of triangles for the violations |
| C186 | the fast marching as a transition system (any extraction of a smallest key) | inductive invariants over reachable states; lower bound by convex 1-Lipschitz functions; upper bound by the order of extraction and causality at angles that are not obtuse; decreasing count for the end |
| C187 | farthest-point loop of the level set engine, minimum distance | induction over the loop against `Farthest`, `FromAll`; exact result when exhausted |
| C188 | normalisation of the sensitivity, setters, XML, signature | calculation with least and greatest values; invariant over calls |
| C189 | reader of OBJ files: lines as values, modes of the three inner loops, counters (`Obj/Model.lean`) | invariant `Tied` of the reader against the list of lines before; induction over blocks, objects, file |
| C190 | facets: words, forms, offsets, stale values | same invariant, cells against `cellsOf` |
| C191 | o, g, usemtl, s lines | same invariant, attributes against `last` over the lines of the object |
| C192 | end of `read` | cases on what has been read |
| C193 | writer of OBJ files (`Obj/Write.lean`): points with insertion maps, facets, regrouping | invariant `Wrote`: numbers stand for vertices, kept by later lines; permutations |
| C194 | writer, then reader | the written file is a `NeatFile`; composition of C189-C191 and C193 |
| C195 | keys of materials and groups, `regroupCells` | invariant of the loop; permutation by filters |
| C196 | attributes through writer and reader | invariant between the active keys of the writer and the last lines of the object |
| C197 | `computeAnnotations` (`ObjData/Model.lean`), groups as functions of the cell | reduction to a fold over the names which hold the cell, then one closed form per strategy |
| C198 | `extractPinnedLists`, names as lists of characters, substring as infix | membership; the map of names keeps the first PID |
| C199 | `evalVNormal` with weights, `checkNormalsMagnitude`, order of `execute`, over a real inner product space | triangle inequality; orthogonal normals give length 1/√2 |
| C200 | sections of `ManipulateWFOBJData`; unset variable as a parameter | calculation, words of joined names by induction |
| C201 | `flushData`, `absorbData`, `decodeRawData` (`Vtu/Model.lean`), files as their arrays, printing as a parameter | induction on the cells with the positions in the arrays as invariant; `Nodes` is the specification of the vertices of a cell |
| C202 | as C201, any file | inversion of the loop on the offsets |
| C203 | as C201; accesses out of range and inserted map entries explicit | inversion of the loop; closed counterexamples |
| C204 | as C201; the convention of VTK is specified by `stdOffsets`, `stdEntries` | the induction of C201 with other face entries; closed counterexample with 19 cells |
| C205 | members of the streamer as state | by cases; closed counterexample |
| C206 | as C201 | by cases |
| C207 | as C201, with the counts declared to the library | induction on the cells |
| C208 | `readArguments`: the table of the keys, the search of the first key in an argument, the map of the options, the defaults; the unordered set is a parameter which lists each argument once | a key ends with its only `=`, so it is found in option and value as in the option alone; fold over distinct classes |
| C209 | as C208, two tables and two orders | the map of the options is determined by the set of the arguments |
| C210 | the loop of `read_Dictionary` on the sections, any set of registered classes | induction on the sections from the end |
| C211 | the map from priorities to chains (`Verif.Chain`), filled in any order, and the loop of execution | invariant of the map: ascending, each chain ordered (C01), blocks conserved; the execution is that of the concatenation |
| C212 | as C211 on any network | the weak invariant of chains on cyclic networks; C02, C03 |
| C213 | `Foam/Model.lean`: shapes and reordering of the vertices | reduction to the canonical cell by renaming, then finite check of the numbering (complete: four shapes) |
| C214 | streams of polyhedra | parsing of the stream is inverse to its construction; owner and neighbour |
| C215 | comparison of sorted faces, map of faces | prefixes of sorted lists share their elements; invariant of the loop with inserts |
| C216 | PIDs of the patches, names | induction on consecutive patches with a function-valued state |
| C217 | the static case of `initializeCase` | invariant: the opened case is the one of the directory |
| C218 | the options of IOOFOAM | cases |
| C219 | points through reading, motion, writing | positions in zips |
| C220 | `Foam/Field.lean`: interpolation on vertices, generic ordered field | sums over corners by induction on cells and corners |
| C221 | internal and boundary fields | the loop on PIDs appends a part for each PID; keys of the parts are disjoint |
| C222 | writing (header, points, faces, footer) and reading of Nastran files as lists of lines of characters | fields of eight characters found at their columns; induction on points and faces; the long format never read, polygons shifting labels: violations |
| C223 | the printing of a coordinate cut to the width of the field, and its reading as a rational | digits of a quotient by induction; error bounds over the rationals for both formats; loss of magnitude proved for larger integer parts |
| C224 | the insertion of the letter of the exponent before `std::stod` | last sign found by induction, value of mantissa and exponent for all digits; the letter given twice: violation |
| C225 | the loops of the reading as one recursion on the lines | equal, by induction, to the fold of what each line says by itself, when the last line is ended; otherwise exactly what is lost or added |
| C226 | the export of a mesh: labels, connectivity, shift of the PIDs | from C222 with the explicit shift, its positivity and uniformity |
| C227 | modes, execution with the files as a function, shift of the PIDs on the model of meshes (Verif/Mesh) | fold of the names by induction, distinct PIDs as sets; second shift by zero proved the identity on PIDs and names; violations for null geometry, unlisted PIDs, no maximum |
| C228 | section of options as a table; constructor, absorption and flush option by option | what each key holds after the flush, then what each option does; modes kept by every step; writer and existing block: violations |
| C229 | absorbSectionXML and flushSectionXML of Primitive and Lattice over the meshes of Verif/Grid; texts of numbers are a parameter | invariants of reachable shapes (axes orthogonal within the tolerance, polar limit below the pole): the setters in the order of the reader give the shape back; lower limits of primitives, blocks without shape and missing axes as violations |
| C230 | the same of SelectionByBox, ByCylinder, BySphere over the shapes of Verif/Shape | as C229, with the other treatment of the axes |
| C231 | Module::setField and execute over the fields of Verif/Field | induction on the field |
| C232 | constructors, setters, check and copies of IOOFOAM_Kernel and IOOFOAM over types, interfaces and ids | induction on the calls; sorted lists without repetitions are equal if and only if they have the same members; violations by evaluation |
| C233 | absorbSectionXML and flushSectionXML of SelectionByPID over the streams of Verif/Io and the states of Verif/Select | induction on the texts of numbers; the written list trimmed and read; equal sorted selections by extract_spec of C102 |
| C234 | getZoneConn, getBCElementsConn and the sections of one type of read of IOCGNS | induction on the cells with the output by type; numbers by position for distinct ids; round trip by groups of the number of corners, the swap of wedges being an involution |
| C235 | unpackMixedConns and the sections of a file of IOCGNS | induction on the elements; the shifted types, the lost surface elements and the nodes of higher order as separate theorems |

## Where the code disagrees with the properties

Each is a theorem with `_fails` in its name and a concrete reachable witness; see the notes in MANIFEST.json.
The notes also say which restriction is proved instead.

## Modelled code

* `src/core/`: Chain, BaseManipulation (pins, ports, absorb/flush), portManager, factory, binary_stream, MimmoSharedPointer,
  MimmoPiercedVector, MimmoObject (serial part: editing, PIDs, status flags, lists, conversions, search, cleaning,
  triangulation, dump/restore/clone), BasicShapes, BasicMeshes (UStructMesh), degrees of freedom of Lattice.
* `src/manipulators/MRBF.cpp`, basis functions included: all but the greedy search itself, expert controls of the base class (bitpit::RBF, external) and plotting; `src/utils/RBFBox.cpp`: all but plotting and XML
* `src/utils/SpecularPoints.cpp`, `ProjPatchOnSurface.cpp`, `ProjPrimitivesOnSurfaces.cpp` (without XML and plots), `src/utils/TranslationPoint.cpp`, `src/utils/RotationAxes.cpp`, `src/utils/AABBox.cpp`: all but XML and file output (the corners of the drawn box are modelled)
* `src/core/SkdTreeUtils.cpp`: `selectByPatch`, `extractTarget`, `findSharedPointClosestGlobalCell`, `distance`, `signedDistance`, `projectPoint`, `computePseudoNormal`, `locatePointOnPatch`, `checkPointBelongsToCell`; not the functions for several processes
* `src/core/MimmoCGUtils.cpp`: all functions
* `src/core/MimmoObject.cpp`: boundary mesh and lists of border faces, cells and vertices (2719-2997, Verif/FvSel), narrow band functions (4131-4518), serial
* `src/utils/ControlDeformMaxDistance.cpp`, `src/utils/ControlDeformExtSurface.cpp`: all but XML, logs and the reading of files
* `src/utils/ProjSegmentOnSurface.cpp`: all (texts: whole numbers without sign), serial
* `src/iogeneric/CreatePointCloud.cpp`, `src/iogeneric/Create3DCurve.cpp`: all but the plots, serial (order of vertices and cells in the containers not specified)
* `src/manipulators/`: TranslationGeometry, RotationGeometry, ScaleGeometry, TwistGeometry, BendGeometry, Apply, ApplyFilter
  (vertex normals are a parameter), FFDLattice (whole; plotting and XML excepted).
* `src/geohandlers/RefineGeometry.cpp` (Verif/Refine): all, serial, without the optional mapping and the coarse/refined patches
* `src/geohandlers/SurfaceTriangulator.cpp` (Verif/Triang), `SelectionByBoxWithScalar.cpp` (Verif/Select/WithField.lean): all but plots
* `src/geohandlers/SelectionByMapping.cpp` (Verif/Select/Mapping.lean): the whole file but the panels of options; reading of files (MimmoGeometry) and proximity search are parameters, the order of the unordered map is abstracted by a statement for any order.
* `src/utils/MeshChecker.cpp` (Verif/Check): the whole file but the writing of files and log; quantities of bitpit (volumes, centres, areas, normals, adjacencies, interfaces) and the angle are parameters.
* `src/iogeneric/IOWavefrontOBJ.cpp` (Verif/Obj): `read`, `readObjectData`, `write`, `writeObjectData`, `regroupCells`, `syncListsOnData`; a line is a value (first word and its arguments), numbers are an arbitrary type, digits/words/trim/order of sets are parameters (`Fmt`); not modelled: the cleaning of the mesh after reading, tolerances, the parallel versions, opening of files
* `src/iogeneric/IOWavefrontOBJ.cpp` (Verif/ObjData): `ManipulateWFOBJData` but for the update of the object of the normals and the ports
* `src/core/VTUGridReader.cpp`, `src/core/VTUGridWriterASCII.cpp` (Verif/Vtu): writing and reading of ASCII files but for the XML layout, binary encodings and MPI ranks
* `binaries/mimmo++.cpp` 98-301, 374-398 (Verif/Main): arguments, blocks of the dictionary, chains and execution; not the logger, the parser of the XML file, the optional results
* `src/ioofoam/IOOFOAM.cpp` 121-125, 408-412, 493-533, 566-654, 1032-1083, 1113-1152, 1322-1395, 1586-1660 and `src/ioofoam/openFoamFiles_native.cpp` 129-220, 353-396, 405-476, 522-573, 584-750 (Verif/Foam): serial reading and writing; OpenFOAM itself is what its accessors give; not the ghosts of MPI, the construction of interfaces (bitpit), the copies of the ports
* `src/iogeneric/MimmoGeometry.cpp` 567-620, 1282-1322, 1330-1574, 1585-1713, 1801-1814 and `MimmoGeometry.hpp` 292-330: the Nastran interface
  (`Verif/Nas`).  Not modelled: the cards RBE2 and RBE3, the opening of the files, the rounding of `std::fixed`, and what the lower-case
  exponents, infinities and hexadecimals do in `std::stod`.
* `src/iogeneric/MimmoGeometry.cpp` 50-72, 154-349, 374-377, 455-458, 509-522, 930-948, 968-996, 1003-1271: settings, XML sections, execution and
  reference PID of the reader and writer of geometries (`Verif/Geo`); formats of files, cleaning, trees and MPI are outside this part.
* `src/core/Primitive.cpp`, `src/core/Lattice.cpp`, `src/geohandlers/SelectionByBox.cpp`, `SelectionByCylinder.cpp`, `SelectionBySphere.cpp`: the XML sections; `src/core/Module.cpp`: all but plots (`Verif/Prim`).
* `src/ioofoam/IOOFOAM.cpp`: the constructors, setters, check and copies of the pair of meshes (`Verif/Kern`).
* `src/geohandlers/SelectionByPID.cpp`: the XML section (`Verif/Pids`).
* `src/iocgns/IOCGNS.cpp`: getZoneConn, getBCElementsConn, unpackMixedConns and the unpacking of the sections in read (`Verif/Cgns`); the rest, which calls the CGNS library and MPI, is not modelled.
* `src/utils/CreateSeedsOnSurface.cpp` (Verif/Seeds): all but plots, triangulation, interpolation of the sensitivity, projections and communication; reals for doubles; heap, k-d tree and random generator are relations or parameters; options of sections are numbers
* `src/utils/OBBox.cpp` (Verif/Utils/Obb): the whole file but the writing of files and log and the communication; reals for doubles, the LAPACK solver is a parameter, division by zero and missing vertices end the model (`none`), and the matrix that the code leaves unset is a parameter.
* `src/iogeneric/GenericDispls.cpp` (Verif/Io): the whole file but MPI, ports and log. The C++ streams are external: `Verif/Io/Stream.lean` states the behaviour of `getline` and `>>` for words, characters, whole and floating point numbers in the "C" locale; which number a text denotes and how a number is printed are a parameter (`Fmt`). Files are texts under paths and can always be written.
* `src/iogeneric/IOCloudPoints.cpp` (Verif/Io/Cloud.lean): the whole file but MPI, ports and log, with the same streams and files. Points with negative labels, which bitpit numbers itself, are outside the model (counted with undefined behaviour).
* `src/iogeneric/GenericInput.{cpp,tpp}`, `src/iogeneric/GenericOutput.{cpp,tpp}` (Verif/Csv/Model.lean): CSV readers and writers, binary form of fields, blocks and sections, without MPI, ports and log. Binary formats of single values and bitpit's text format are parameters; a negative id (numbered by bitpit) counts with undefined behaviour.
* `src/propagators/StencilFunctions.cpp` (Verif/Lapl/Stencil.lean): stencils of cells, interfaces and points, over the reals instead of floating point; ghosts and partitions left out. `src/propagators/PropagateField.{hpp,tpp,cpp}` (Verif/Lapl/Propagate.lean): scalar block: conditions, damping, band, system, steps, settings and section; the linear solver is any that solves the system exactly; distances from surfaces are given. Vector block (Verif/Vprop/Model.lean): conditions, slip by plane or reference, steps and updates; the projection on a reference surface is a parameter, periodic points are given; MPI and plots are not modelled.
* `src/geohandlers/`: FVGenericSelection and the settings of FVSelectionByBox, ByCylinder, BySphere (Verif/FvSel; serial part), ClipGeometry (Verif/Select/Clip.lean), ExtractFields and ExtractScalarField (vector, long and string variants have the same text), SelectField with its scalar, vector, long and string variants (Verif/Recon/Choose.lean; plots left out), ReconstructScalar and ReconstructVector (Verif/Recon), GenericSelection (execute, constrainedBoundary), SelectionByPID, SelectionByElementList,
  SelectionByBox/Cylinder/Sphere (extractSelection; their XML in Verif/Prim), StitchGeometry; other XML excepted.
* Not modelled: partitioning and ghost exchange, file readers/writers, bitpit's own structures (patches, trees, RBF, level-set,
  system solvers), the numerical part of the blocks not listed above.

## Mutation testing

`seeded/LOG.jsonl` lists every wrong program tried: the definition edited, the edit, the claim it breaks, the theorems that failed
and the theorems tightened because of a survivor.
