{"id": "C01", "title": "Inserting a block keeps the chain in dependency order", "statement": "If the pin network is acyclic and the chain is currently in dependency order (every block comes before the blocks that receive data from it), then Chain::addObject of a block not yet in the chain terminates, does not return -1, leaves the chain in dependency order, and the chain then holds exactly the old (block, id) pairs plus the new one.", "quantifier": "every acyclic pin network, every correctly ordered chain, every new block and requested id", "why_tests_cant": "The insertion algorithm recursively removes and re-inserts ancestors; the number of networks and insertion orders is unbounded, and tests only cover a handful of small graphs.", "anchors": ["src/core/Chain.cpp: Chain::addObject", "src/core/BaseManipulation.cpp: getParent, getChild"]}
{"id": "C02", "title": "A chain execution runs every block exactly once, after all its suppliers", "statement": "Chain::exec() either throws before any block has run, or calls exec() on every block of the chain exactly once, in chain order, so that each block runs after every block of the chain it receives data from. If a block throws, the blocks already executed are exactly those before it in that order.", "quantifier": "every pin network (cyclic or not), every chain content and order, every pattern of failing blocks", "why_tests_cant": "Requires quantifying over all graphs and all orders; a test observes one trace.", "anchors": ["src/core/Chain.cpp: Chain::exec(bool), Chain::checkLoops"]}
{"id": "C03", "title": "Loops are always detected and nothing runs", "statement": "If the blocks of a chain contain a dependency cycle of any length (including a block linked to itself), Chain::exec() throws and executes no block.", "quantifier": "every chain content, every order of it, every cycle of any length among its blocks", "why_tests_cant": "Cycles of arbitrary length in arbitrary position cannot be enumerated by tests.", "anchors": ["src/core/Chain.cpp: Chain::checkLoops, Chain::exec"]}
{"id": "C04", "title": "A chain built after wiring an acyclic network always executes", "statement": "If all pins are added first and the network is acyclic, then after any sequence of addObject calls (each block once) with interleaved deleteObject calls, exec() does not raise the loop error.", "quantifier": "every acyclic network, every interleaving of addObject and deleteObject calls, in any insertion order", "why_tests_cant": "All n! insertion orders of all DAGs; tests use a few fixed orders.", "anchors": ["src/core/Chain.cpp: addObject, deleteObject, checkLoops"]}
{"id": "C05", "title": "addObject always returns", "statement": "Chain::addObject terminates for every pin network: when the new block closes a dependency loop it returns (with -1 or an index) and the error is reported by exec().", "quantifier": "every pin network, including cyclic ones, and every chain content", "why_tests_cant": "Termination is not observable by testing; only a proof (or a divergence witness) settles it.", "anchors": ["src/core/Chain.cpp: Chain::addObject"]}
{"id": "C06", "title": "Block ids in a chain are unique and stable", "statement": "As long as callers let the chain choose ids, all ids in a chain are pairwise distinct at every moment, ids of blocks already in the chain never change while other blocks are inserted or deleted, and ids are never reused before clear().", "quantifier": "every sequence of addObject/deleteObject calls with automatic ids, every network", "why_tests_cant": "History-dependent property over unbounded operation sequences, with recursive removal and re-insertion inside addObject.", "anchors": ["src/core/Chain.cpp: addObject, deleteObject, getID"]}
{"id": "C07", "title": "Deleting a block removes exactly that block", "statement": "Chain::deleteObject(id) removes exactly the block with that id (nothing if absent), preserves the relative order and ids of all others, and returns true exactly if the block was present and linked to some other block; afterwards exec(id) runs nothing.", "quantifier": "every chain content and id", "why_tests_cant": "All positions / all contents; off-by-one pairing of the two parallel vectors only shows for particular positions.", "anchors": ["src/core/Chain.cpp: deleteObject, exec(int)"]}
{"id": "C08", "title": "Cloning a chain reproduces blocks, ids and order", "statement": "For a chain in dependency order, Chain::clone() yields a chain with the same blocks in the same order with the same ids and the same debug-plot options.", "quantifier": "every dependency-ordered chain over every acyclic network", "why_tests_cant": "clone() re-runs the insertion algorithm, whose result depends on the entire network.", "anchors": ["src/core/Chain.cpp: clone, addObject"]}
{"id": "C09", "title": "Both ends of every connection agree", "statement": "After any sequence of addPin calls, the receivers listed by an output port are exactly the accepted pins leaving it, in order of addition; the senders listed by an input port are exactly the accepted pins entering it; and a block is listed as child (parent) of another exactly when at least one accepted pin goes between them, with multiplicity equal to the number of such pins.", "quantifier": "every set of blocks and ports, every sequence of addPin calls (accepted or refused)", "why_tests_cant": "Four data structures must agree after arbitrarily long histories.", "anchors": ["src/core/MimmoNamespace.cpp: pin::addPin", "src/core/BaseManipulation.cpp: addPinIn, addPinOut, addParent, addChild"]}
{"id": "C10", "title": "A pin is accepted exactly when it is legal", "statement": "addPin returns true exactly when the sender is not backward-only, the receiver is not forward-only, both ports exist, and (unless forced) container and data type of the two ports agree; a refused call changes nothing. Hence no unforced history ever connects ports of different type.", "quantifier": "every pair of blocks, ports, direction kinds, forced flags and every history", "why_tests_cant": "Type-safety invariant over all histories.", "anchors": ["src/core/MimmoNamespace.cpp: pin::addPin, pin::checkCompatibility", "src/core/InOut.cpp: DataType::operator=="]}
{"id": "C11", "title": "removeAllPins cuts every connection between two blocks and nothing else", "statement": "After removeAllPins(S,R) no output port of S lists R, no input port of R lists S, R is no longer a child of S nor S a parent of R, and every other connection is unchanged.", "quantifier": "every network reachable by addPin calls, every pair S,R", "why_tests_cant": "The removal loop deletes by index from a list while iterating over an old copy; only particular multiplicities expose it.", "anchors": ["src/core/MimmoNamespace.cpp: pin::removeAllPins", "src/core/BaseManipulation.cpp: removePinOut, removePinIn, unsetChild, unsetParent", "src/core/InOut.cpp: PortOut::clear(int), PortIn::clear(int)"]}
{"id": "C12", "title": "removePin removes the given pin if present and otherwise does nothing", "statement": "removePin(S,R,o,i): if the pin (S.o -> R.i) exists it is removed, otherwise nothing changes (as documented); all other pins and the parent/child relation of all other connections are unaffected.", "quantifier": "every network reachable by addPin calls, every S,R,o,i", "why_tests_cant": "The defect patterns depend on multiplicities of links between the same two blocks.", "anchors": ["src/core/MimmoNamespace.cpp: pin::removePin", "src/core/BaseManipulation.cpp: removePinOut, removePinIn, unsetChild, unsetParent"]}
{"id": "C13", "title": "Destroying or clearing a block detaches it completely", "statement": "BaseManipulation::clear() (called by the destructor) terminates, and afterwards no other block has a connection to or from the destroyed block, so a later execution never touches it.", "quantifier": "every network reachable by addPin/removePin calls, every block", "why_tests_cant": "Termination of a while loop and absence of dangling pointers over all networks.", "anchors": ["src/core/BaseManipulation.cpp: clear, removePins, removePinsIn, removePinsOut, ~BaseManipulation"]}
{"id": "C14", "title": "Mandatory ports are enforced before a block runs", "statement": "Outside expert mode, exec() throws before execute() exactly when some mandatory input port of family 0 is unlinked or some non-zero family that has mandatory ports has none of them linked; otherwise it proceeds. In expert mode it never throws for this reason.", "quantifier": "every assignment of mandatory flags, families and links to any number of ports", "why_tests_cant": "Combinatorial in ports and families; tests check a few classes.", "anchors": ["src/core/BaseManipulation.cpp: BaseManipulation::exec", "src/core/InOut.cpp: PortIn::isMandatory, getFamily, getLink"]}
{"id": "C15", "title": "Data flow: every linked input holds its supplier's output of the same run when the block runs", "statement": "During one successful Chain::exec() of a chain, at the moment a block runs, every input port with exactly one link (from a block of the chain) holds the value its supplier's output port produced in this same run, regardless of what earlier runs left there; a disabled supplier does not execute but still forwards its current output.", "quantifier": "every network and chain, every block behaviour (arbitrary state-transforming functions), every initial state, any subset of disabled blocks", "why_tests_cant": "Quantifies over all block behaviours, all graphs and all stale initial states.", "anchors": ["src/core/Chain.cpp: exec", "src/core/BaseManipulation.cpp: exec, setBufferIn, readBufferIn", "src/core/InOut.cpp: PortOut::exec"]}
{"id": "C16", "title": "Values survive transport through ports", "statement": "For every port data type built from scalars, strings, arrays, pairs, vectors and maps (nested arbitrarily), writing a value to an output stream and reading it into a fresh value from the resulting bytes gives back the same value and consumes exactly the bytes written, whatever follows.", "quantifier": "every nested container type of the supported kinds and every value of it, every byte suffix", "why_tests_cant": "Infinitely many types, sizes and values; nesting depth unbounded.", "anchors": ["src/common/mimmo_binary_stream.tpp", "src/common/mimmo_binary_stream.cpp"]}
{"id": "C17", "title": "Reading a map from a stream replaces the target", "statement": "Reading a map/unordered_map from a stream leaves the target equal to the map that was written, whatever the target held before (as is the case for vectors and strings).", "quantifier": "every written map, every previous content of the target", "why_tests_cant": "Only a non-empty target with disjoint keys exposes the difference.", "anchors": ["src/common/mimmo_binary_stream.tpp: operator>> for map and unordered_map"]}
{"id": "C18", "title": "Shared geometry is destroyed exactly once, exactly when its last owner goes", "statement": "For any program that creates each owner from a freshly allocated object or from another owner (copy, move, assign, swap, reset, destroy), the object is alive as long as some owner refers to it, is deleted exactly once when the last owner releases it, and is never accessed or deleted afterwards; the reported count equals the number of owners.", "quantifier": "every sequence of owner operations of any length on any number of owners and objects", "why_tests_cant": "Memory-safety invariant over all operation histories including self-assignment and self-move.", "anchors": ["src/core/MimmoSharedPointer.tpp"]}
{"id": "C19", "title": "Passing a shared geometry through a port keeps it alive", "statement": "Streaming a shared pointer out of a live owner and reading it on the receiver side while some other owner is still alive yields a further owner with correct counting; the geometry is not deleted while the receiver holds it. (If the last owner dies between write and read, the read revives a dangling pointer.)", "quantifier": "every interleaving of stream writes, reads and owner operations", "why_tests_cant": "Depends on the interleaving of owner lifetimes with in-flight buffers.", "anchors": ["src/core/MimmoSharedPointer.tpp: operator<<, operator>>, _reset"]}
{"id": "C20", "title": "Port registration is stable and injective", "statement": "After any sequence of port registrations: the id of a port name never changes once given, different names get different ids, ids are exactly 0..n-1, each registered port keeps the container/data type it was first registered with, and re-registering with the same types is a no-op returning the same id.", "quantifier": "every sequence of addPort calls", "why_tests_cant": "History-dependent registry invariant.", "anchors": ["src/common/portManager.hpp: PortManager::addPort, containsPort, getPortData, addContainer/addDataType"]}
{"id": "C21", "title": "The block factory behaves as a map from names to creators", "statement": "After any sequence of addCreator/removeCreator/deleteAll, create(name) uses the creator most recently registered under name and not removed since, and returns null exactly when there is none; registered names listing is exactly the domain.", "quantifier": "every sequence of factory operations", "why_tests_cant": "Refinement to an abstract map over all histories.", "anchors": ["src/common/factory.hpp"]}
{"id": "C22", "title": "Block settings survive an XML flush/absorb round trip", "statement": "Flushing the base settings of a block to XML and absorbing them into a freshly constructed block reproduces priority, apply flag, plot flag, and, when plotting is active, the plot directory.", "quantifier": "every value of the settings (every unsigned priority, every path)", "why_tests_cant": "Value ranges include priorities above INT_MAX and paths with leading/trailing blanks that tests do not try.", "anchors": ["src/core/BaseManipulation.cpp: absorbSectionXML, flushSectionXML"]}
{"id": "C23", "title": "Connections survive an XML flush/absorb round trip", "statement": "Flushing all connections of a set of uniquely named blocks and absorbing the written sections into the same blocks without connections reproduces exactly the same connections (same ports, same multiplicities), and absorb reports failure (throws) exactly when some section with known blocks and registered ports is refused.", "quantifier": "every network over uniquely named blocks, every number of connections", "why_tests_cant": "All networks; names of sections and order matter.", "anchors": ["src/core/IOConnections.cpp: absorbConnections, flushConnections"]}
{"id": "C24", "title": "A field sent through a port arrives unchanged", "statement": "Streaming a field (geometry reference, name, location, id/value pairs) and reading it into any existing field object gives exactly the sent field, whatever the target contained before.", "quantifier": "every field content, every previous content of the target", "why_tests_cant": "Unbounded sizes and previous states.", "anchors": ["src/core/MimmoPiercedVector.tpp: operator<<, operator>>"]}
{"id": "C25", "title": "completeMissingData completes a field without altering existing values", "statement": "On a field whose ids all belong to the geometry entities of its location, completeMissingData returns true, keeps all existing values, and afterwards the field has a value for every geometry entity (the default where none was present) and nothing else; on a field with foreign ids it returns false and changes nothing.", "quantifier": "every geometry id set, every field content, location and default value", "why_tests_cant": "All id subsets; empty/undefined corner cases.", "anchors": ["src/core/MimmoPiercedVector.tpp: completeMissingData, checkDataIdsCoherence, checkDataSizeCoherence"]}
{"id": "C26", "title": "squeezeOutExcept keeps exactly the requested entries", "statement": "After squeezeOutExcept(list) the field contains exactly the entries whose id was present and is in the list, with unchanged values and location/name/geometry, in both keepOrder modes.", "quantifier": "every field, every id list (with ids absent from the field, with repetitions), both modes", "why_tests_cant": "Repetitions and absent ids in arbitrary combinations.", "anchors": ["src/core/MimmoPiercedVector.tpp: squeezeOutExcept"]}
{"id": "C27", "title": "getDataFrom copies the common entries", "statement": "getDataFrom(other, strict) overwrites, for every id common to both fields, the value by other's; strict mode adds no id and non-strict mode adds exactly the other's remaining ids; no other entry changes, and the return value is the number of updated entries.", "quantifier": "every pair of fields, both modes", "why_tests_cant": "All overlaps of id sets.", "anchors": ["src/core/MimmoPiercedVector.tpp: getDataFrom"]}
{"id": "C28", "title": "Field location codes outside the valid range are rejected", "statement": "setDataLocation(int) accepts exactly the codes of the documented locations, and any other integer leaves the field with undefined location; the validity predicate used for that is true exactly for the documented codes.", "quantifier": "every integer code", "why_tests_cant": "Every int value, not just a few.", "anchors": ["src/core/MimmoPiercedVector.tpp: setDataLocation(int), intIsValidLocation"]}
{"id": "C29", "title": "Interpolated cell data stay within the range of the vertex data", "statement": "Each value produced by pointDataToCellData / cellDataToPointData (inverse-distance weights) lies between the minimum and maximum of the values it is computed from, and a constant field is reproduced exactly, whenever all distances are positive.", "quantifier": "every cell, any number of neighbours, all positive distances and exponents, all values", "why_tests_cant": "Universal inequality over real inputs.", "anchors": ["src/core/MimmoPiercedVector.tpp: pointDataToCellData, cellDataToPointData"]}
{"id": "C30", "title": "No derived structure is reported up-to-date when stale", "statement": "After any sequence of mesh edits through the geometry API (addVertex, addConnectedCell, addCell, modifyVertex, triangulate, setUnsyncAll, ...) and (re)builds, a derived structure (kd-tree, skd-tree, adjacencies, interfaces, patch info, bounding box, point connectivity) whose status is reported as SYNC has been computed from the current vertices and cells.", "quantifier": "every sequence of edits, builds, cleans and updates", "why_tests_cant": "A cache-coherence invariant over all histories of nine flags and a dozen operations.", "anchors": ["src/core/MimmoObject.cpp: addVertex, modifyVertex, addConnectedCell, addCell, setUnsyncAll, buildSkdTree, buildKdTree, updateAdjacencies, updateInterfaces, update, resetPatch"]}
{"id": "C31", "title": "update() brings every requested structure up to date", "statement": "After MimmoObject::update() no derived structure is left in the stale (UNSYNC) status; structures never requested (NONE) stay unbuilt, except the bounding box which is always computed.", "quantifier": "every combination of the statuses before the call, every mesh type, empty or not", "why_tests_cant": "All status combinations and mesh kinds including empty meshes and point clouds.", "anchors": ["src/core/MimmoObject.cpp: update, buildKdTree, buildPointConnectivity"]}
{"id": "C32", "title": "Search-tree availability matches the mesh type", "statement": "At every moment of the life of a geometry object, the surface search tree is reported as supported exactly for meshes that are not point clouds, so asking for it never touches a missing tree and never silently does nothing on a surface or volume mesh.", "quantifier": "every constructor and every sequence of reset/resetPatch/restore/edit operations", "why_tests_cant": "Invariant over constructors and histories.", "anchors": ["src/core/MimmoObject.cpp: constructors, reset, resetPatch, isSkdTreeSupported, buildSkdTree"]}
{"id": "C33", "title": "Ids are never silently overwritten", "statement": "addVertex/addConnectedCell with an id already in use return the null id and change nothing; with a free id they add exactly that entity; all existing entities keep their ids, coordinates, connectivity and PID.", "quantifier": "every mesh state reachable by any sequence of insertions and every requested id", "why_tests_cant": "History invariant.", "anchors": ["src/core/MimmoObject.cpp: addVertex, addConnectedCell, addCell"]}
{"id": "C34", "title": "The PID list matches the PIDs of the cells", "statement": "At any moment every PID carried by a cell appears in the mesh's PID list (getPIDTypeList); after resyncPID the list is exactly the set of PIDs in use; a PID marked through setPID/setPIDCell is the one read back.", "quantifier": "every sequence of PID-setting operations and insertions; every long PID value", "why_tests_cant": "Set invariant over histories; integer narrowing only shows for values beyond 32 bits.", "anchors": ["src/core/MimmoObject.cpp: setPID, setPIDCell, resyncPID, getPIDTypeList, addConnectedCell, extractPIDCells"]}
{"id": "C35", "title": "extractPIDCells partitions the mesh", "statement": "For a mesh whose PID list is in order, extracting cells PID by PID returns each cell exactly once over all listed PIDs, and extractPIDSubdivision agrees with it.", "quantifier": "every mesh and PID assignment", "why_tests_cant": "All assignments.", "anchors": ["src/core/MimmoObject.cpp: extractPIDCells, extractPIDSubdivision"]}
{"id": "C36", "title": "Consecutive-id maps are mutually inverse bijections", "statement": "getMapData and getMapDataInv (and getMapCell/getMapCellInv) are mutually inverse between the ids of the mesh and consecutive indices.", "quantifier": "every mesh, every id layout (with holes), with or without ghosts", "why_tests_cant": "All id layouts; the wrong-id lookup only shows when ids are not consecutive.", "anchors": ["src/core/MimmoObject.cpp: getMapData, getMapDataInv, getMapCell, getMapCellInv"]}
{"id": "C37", "title": "Cell/vertex list conversions are exact", "statement": "getVertexFromCellList returns exactly the vertices of the listed cells, without repetition; getCellFromVertexList(strict) returns exactly the cells all of whose vertices are listed, and non-strict exactly those with at least one; hence converting cells to vertices and back (strict) never loses a listed cell.", "quantifier": "every mesh, every list of ids (unknown ids, repetitions)", "why_tests_cant": "All meshes and lists.", "anchors": ["src/core/MimmoObject.cpp: getVertexFromCellList, getCellFromVertexList"]}
{"id": "C38", "title": "Connectivity validation matches element deduction", "statement": "checkCellConnCoherence accepts a connectivity list for an element type exactly when the list has the documented form of that type; whenever desumeElement returns a type different from UNDEFINED the list is coherent with it; every well-formed list for a mesh type is recognised.", "quantifier": "every connectivity list of any length (including polygons/polyhedra) and element type", "why_tests_cant": "Unbounded list lengths and contents.", "anchors": ["src/core/MimmoObject.cpp: checkCellConnCoherence, desumeElement"]}
{"id": "C39", "title": "Triangulation preserves the surface bookkeeping", "statement": "triangulate() leaves a surface mesh with triangles only; triangles that existed are untouched; every quad is replaced by 2 and every n-gon by n triangles with the same PID, with fresh ids that collide with no other; only n-gons introduce vertices (one each), and all original vertices stay.", "quantifier": "every surface mesh of triangles, quads and polygons with arbitrary ids and PIDs", "why_tests_cant": "All meshes and id layouts.", "anchors": ["src/core/MimmoObject.cpp: triangulate"]}
{"id": "C40", "title": "Removing degenerate elements does not damage valid ones", "statement": "degradeDegenerateElements leaves every cell without repeated vertices unchanged; a degenerate cell is replaced by the lower element on its distinct vertices, with the same id and PID, or deleted if none exists. Each side of the replacement joins positions that a side of the cell joined, and cells that shared a vertex still do.", "quantifier": "every mesh with any mixture of element types and repeated vertices", "why_tests_cant": "All element types, in particular polygons.", "anchors": ["src/core/MimmoObject.cpp: degradeDegenerateElements, desumeElement"]}
{"id": "C41", "title": "decomposeLoop splits the mesh into its connected pieces", "statement": "decomposeLoop returns disjoint lists that together contain every cell exactly once, and two cells are in the same list exactly when they are connected through face adjacencies; an empty mesh gives no pieces.", "quantifier": "every mesh adjacency structure (also non-manifold), every size including empty", "why_tests_cant": "Graph search correctness over all graphs.", "anchors": ["src/core/MimmoObject.cpp: decomposeLoop"]}
{"id": "C42", "title": "Narrow-band search returns exactly the band reachable from the seeds", "statement": "getCellsNarrowBandToExtSurfaceWDist returns exactly the cells reachable from the close seeds through a path of neighbouring cells that are all closer than the limit, each with its distance; it terminates. The vertex version behaves likewise, with and without a seed list.", "quantifier": "every mesh, every distance field, limit and seed list", "why_tests_cant": "Graph search over all meshes.", "anchors": ["src/core/MimmoObject.cpp: getCellsNarrowBandToExtSurfaceWDist, getVerticesNarrowBandToExtSurfaceWDist"]}
{"id": "C43", "title": "Dump and restore reproduce the PID information", "statement": "Restoring a dumped geometry into any existing object reproduces mesh type, the PID list with names, and the statuses of adjacencies, interfaces and point connectivity; everything previously stored is lost.", "quantifier": "every dumped object and every target object", "why_tests_cant": "All previous target states.", "anchors": ["src/core/MimmoObject.cpp: dump, restore, reset, resetPatch"]}
{"id": "C44", "title": "Point connectivity is the symmetric edge relation", "statement": "After buildPointConnectivity, two vertices are neighbours exactly when some cell has an edge joining them; the relation is symmetric.", "quantifier": "every mesh of each type", "why_tests_cant": "All meshes.", "anchors": ["src/core/MimmoObject.cpp: buildPointConnectivity, getPointConnectivity"]}
{"id": "C45", "title": "Closed-surface test terminates and is exact", "statement": "isClosedLoop terminates and returns true exactly when no interior cell has a border face.", "quantifier": "every mesh, every assignment of border faces, with or without ghost cells", "why_tests_cant": "Termination in presence of ghost cells; all meshes.", "anchors": ["src/core/MimmoObject.cpp: isClosedLoop"]}
{"id": "C46", "title": "Applying a displacement field moves exactly the vertices it names", "statement": "Applying a displacement field adds to each vertex its displacement if present and leaves all other vertices where they are, whatever other ids the field contains; applying twice adds twice.", "quantifier": "every mesh, every field (partial, with foreign ids)", "why_tests_cant": "All combinations of ids.", "anchors": ["src/core/BaseManipulation.cpp: _apply"]}
{"id": "C47", "title": "Inserting a block never loses a block already in the chain", "statement": "After Chain::addObject returns without refusing the block, every block that was in the chain is still in it, together with the new one, and nothing else.", "quantifier": "every network of connections (also with loops), every chain obtained by insertions and deletions, every new block", "why_tests_cant": "Needs all networks: the loss only shows with a loop through a block behind the insertion point, and then no error is raised.", "anchors": ["src/core/Chain.cpp: Chain::addObject"]}
{"id": "C48", "title": "The index returned by addObject is the position of the block", "statement": "Unless it is -1, the value returned by Chain::addObject is the position of the new block in the execution order.", "quantifier": "every acyclic network, every chain obtained by insertions and deletions, every new block", "why_tests_cant": "The rearrangement recursion matters only for particular combinations of suppliers and receivers.", "anchors": ["src/core/Chain.cpp: Chain::addObject", "src/core/Chain.hpp: addObject"]}
{"id": "C49", "title": "Ids stay unique when a cloned chain is extended", "statement": "In a chain obtained by cloning, blocks inserted afterwards with automatic ids get ids different from all ids in the clone, so that executing or deleting by id addresses one block.", "quantifier": "every chain and every later history of insertions", "why_tests_cant": "History property over unbounded sequences of operations.", "anchors": ["src/core/Chain.cpp: Chain::clone, Chain::addObject, Chain::deleteObject, Chain::exec(int)"]}
{"id": "C50", "title": "The result of a run does not depend on the order in which blocks were inserted", "statement": "For a wired acyclic network where each input port has at most one connection, any two chains holding the same blocks leave every block in the same state after execution, whatever the order in which the blocks were inserted.", "quantifier": "every network, every block behaviour (with setters of different ports of a block that do not interfere), every initial state, every two dependency orders of the same blocks", "why_tests_cant": "Needs all pairs of orders and all behaviours.", "anchors": ["src/core/Chain.cpp: exec, addObject", "src/core/BaseManipulation.cpp: exec", "src/core/InOut.cpp: PortOut::exec"]}
{"id": "C51", "title": "Creating a port succeeds exactly for a new registered name", "statement": "createPortOut/createPortIn return true exactly when the name is registered and the block has no output (respectively input) port of that name yet; an accepted port has the registered container and data type and no other port changes; a refused one changes nothing.", "quantifier": "every registry content, every set of existing ports of the block, every name", "why_tests_cant": "The wrong cases only show with particular combinations of names on both sides.", "anchors": ["src/core/BaseManipulation.tpp: createPortIn, createPortOut"]}
{"id": "C52", "title": "Looking up a port never changes the registry", "statement": "Asking the port registry for the data of a name leaves the set of registered ports, their ids and types as they were, in every build type.", "quantifier": "every registry content, every name, debug and release builds", "why_tests_cant": "Only an unregistered name in a build without assertions shows the insertion.", "anchors": ["src/common/portManager.hpp: getPortData"]}
{"id": "C53", "title": "Registering a block class returns the number of registered classes", "statement": "addCreator returns the current number of registered creators.", "quantifier": "every registry content, every name (new or already registered)", "why_tests_cant": "Universally quantified over histories.", "anchors": ["src/common/factory.hpp: addCreator"]}
{"id": "C54", "title": "Restricting a field to its geometry keeps the field otherwise the same", "statement": "resizeToCoherentDataIds returns a field with the same geometry, location and name, holding exactly the entries whose id is an entity of the geometry at that location, with unchanged values.", "quantifier": "every field, geometry and location", "why_tests_cant": "All contents; tests check sizes on samples.", "anchors": ["src/core/MimmoPiercedVector.tpp: resizeToCoherentDataIds"]}
{"id": "C55", "title": "Initialisation and extraction of field values agree with the geometry", "statement": "initialize(geometry, location, value) gives a field holding the value on every entity of that location and on nothing else, whatever it contained before; getDataAsVector lists the values in the order of the geometry entities; setData numbers the values from 0 and keeps geometry, name and location.", "quantifier": "every geometry, previous field content, value vector", "why_tests_cant": "Ranges over all geometries and contents.", "anchors": ["src/core/MimmoPiercedVector.tpp: initialize, getDataAsVector, setData"]}
{"id": "C56", "title": "Gradient-based cell-to-point reconstruction is exact for linear fields", "statement": "cellDataToPointData with gradients reproduces, at every vertex, a field that is linear in space when it is given the exact cell values and gradients; with the maximum flag the documented simple average of the reconstructed values is returned.", "quantifier": "every mesh, linear field, vertex", "why_tests_cant": "Universal statement over real coefficients and meshes.", "anchors": ["src/core/MimmoPiercedVector.tpp: cellDataToPointData(gradients)"]}
{"id": "C57", "title": "Coherence checks of a field are exact", "statement": "checkDataIdsCoherence is true exactly when a geometry is linked, a location is set, and all ids of the field are entities of the geometry at that location; checkDataSizeCoherence exactly when, in addition to geometry and location, the number of values equals the number of entities.", "quantifier": "every field, geometry, location", "why_tests_cant": "Both directions over all fields, including empty ones and missing geometries.", "anchors": ["src/core/MimmoPiercedVector.tpp: checkDataIdsCoherence, checkDataSizeCoherence"]}
{"id": "C58", "title": "Conversions between cell, vertex and interface lists are exact", "statement": "getInterfaceFromCellList lists, each once, exactly the interfaces whose cells are all in the list or, when all is asked, exactly the interfaces of the listed cells; getInterfaceFromVertexList lists, each once, exactly the interfaces (only border ones if asked) with all (strict) or at least one (not strict) vertex in the list.", "quantifier": "every mesh with interfaces, every list of cells or vertices, strict or not", "why_tests_cant": "Quantified over all meshes, lists and both modes.", "anchors": ["src/core/MimmoObject.cpp: getInterfaceFromCellList, getInterfaceFromVertexList"]}
{"id": "C59", "title": "Inverse connectivity is the inverse relation", "statement": "getInverseConnectivity has an entry for exactly the vertices used by some cell, and the entry names a cell that uses the vertex.", "quantifier": "every mesh, repeated vertices in a connectivity included", "why_tests_cant": "Needs all meshes.", "anchors": ["src/core/MimmoObject.cpp: getInverseConnectivity"]}
{"id": "C60", "title": "A cloned geometry is a faithful copy", "statement": "clone() returns an object with the same type, vertices, cells, PIDs, PID names and tolerance; the search structures that were built on the original are built on the clone, and changing one object afterwards leaves the other as it was.", "quantifier": "every geometry object, every set of built structures", "why_tests_cant": "Quantified over all states of the original.", "anchors": ["src/core/MimmoObject.cpp: clone"]}
{"id": "C61", "title": "Triangulation keeps the oriented outline of each cell", "statement": "The triangles that replace a quad, a pixel or an n-gon in triangulate() have together the oriented boundary of that cell: each side of the cell is a side of exactly one triangle with the same orientation, and interior sides are shared with opposite orientations.", "quantifier": "every surface mesh and every cell", "why_tests_cant": "orientation errors are invisible in counts and areas and depend on the vertex ordering convention of each element type", "anchors": ["src/core/MimmoObject.cpp:4776-4883"]}
{"id": "C62", "title": "Local and world coordinates of a shape are inverse of each other", "statement": "For every elementary shape (cuboid, cylinder, sphere, wedge) with non-zero dimensions, converting a world point to local coordinates and back returns the same point, and converting local coordinates in the documented range to world and back returns the same coordinates.", "quantifier": "every shape type, origin, dimensions, lower limits, reference system accepted by the setters, every point", "why_tests_cant": "Continuum of points, shapes and rotations; wrap-around of angles.", "anchors": ["src/core/BasicShapes.cpp: toWorldCoord, toLocalCoord, inverse"]}
{"id": "C63", "title": "The reference system of a shape stays a valid frame", "statement": "setRefSystem with three non-zero axes orthogonal within tolerance stores them normalised in the given order; with zero or skew axes it changes nothing; with one axis it stores that axis normalised and completes it to an orthonormal right-handed frame. After any sequence of these calls the frame is invertible.", "quantifier": "every axis, every label, every sequence of calls", "why_tests_cant": "All directions, including those parallel to the coordinate axes.", "anchors": ["src/core/BasicShapes.cpp: setRefSystem, inverse"]}
{"id": "C64", "title": "Shape dimensions always stay within the limits of the shape", "statement": "After any sequence of setSpan/setInfLimits/setOrigin/setRefSystem, spans are non-negative, angular spans of cylinders and spheres do not exceed a full turn, and the polar range of a sphere stays within [0,pi]; getSpan returns the span asked for whenever it is within those limits, and lower limits of cuboids and wedges stay zero.", "quantifier": "every sequence of setter calls on every shape type", "why_tests_cant": "Order-dependent clipping over unbounded call sequences.", "anchors": ["src/core/BasicShapes.cpp: setSpan, setInfLimits, checkSpan, checkInfLimits, setScaling"]}
{"id": "C65", "title": "Selection by shape misses no cell", "statement": "includeGeometry on a geometry returns every cell whose vertices all lie in the shape, no cell with a vertex outside the shape (up to the tolerance 1e-12), and each cell once; hence it agrees with the one-by-one search over the patch.", "quantifier": "every shape, mesh and search tree", "why_tests_cant": "All meshes, boxes and relative positions; pruning errors depend on the tree.", "anchors": ["src/core/BasicShapes.cpp: includeGeometry, searchBvTreeMatches, intersectShapeAABBox, isSimplexIncluded, isPointIncluded"]}
{"id": "C66", "title": "excludeGeometry is the complement of includeGeometry", "statement": "For every geometry excludeGeometry returns exactly the cells that includeGeometry does not return, each once, in increasing id order; the same complementarity holds for the versions over a patch and over lists of points.", "quantifier": "every shape and mesh", "why_tests_cant": "All meshes and id layouts.", "anchors": ["src/core/BasicShapes.cpp: excludeGeometry, excludeCloudPoints"]}
{"id": "C67", "title": "Selection of vertices by shape is exact", "statement": "includeCloudPoints on a geometry returns every vertex that lies in the shape and no vertex outside it (up to the tolerance); excludeCloudPoints returns exactly the other vertices.", "quantifier": "every shape, geometry and kd-tree", "why_tests_cant": "All vertex sets, trees, rotations.", "anchors": ["src/core/BasicShapes.cpp: includeCloudPoints, excludeCloudPoints, searchKdTreeMatches, intersectShapePlane, getTempBBox"]}
{"id": "C68", "title": "Numbering of a structured mesh is one-to-one", "statement": "On a structured mesh of any dimensions, the global index of a node (or cell) and its three cartesian indices determine each other: converting either way and back gives the same result, the indices of the nodes are exactly 0..(number of nodes - 1), and the eight vertices listed for a cell are distinct nodes of the mesh, in the documented order.", "quantifier": "every mesh dimension, every node and cell", "why_tests_cant": "All dimensions and indices.", "anchors": ["src/core/BasicMeshes.cpp: accessCellIndex, accessPointIndex, getCellNeighs", "src/core/BasicMeshes.hpp: accessPointIndex"]}
{"id": "C69", "title": "A built mesh covers exactly its shape", "statement": "After build the mesh has at least the requested number of nodes per direction and at least the least number documented for its shape; its nodes are equally spaced in the coordinates of the shape from one end to the other, every node lies in the shape, and every cell centre is the mean of the eight vertices of the cell in those coordinates. Without a shape build reports failure and changes nothing.", "quantifier": "every shape reachable through the setters, every requested dimension (also zero or negative), every node", "why_tests_cant": "Continuum of shapes; all dimensions.", "anchors": ["src/core/BasicMeshes.cpp: build, getLocalPoint, getLocalCCell, getGlobalPoint, getLocalCoords"]}
{"id": "C70", "title": "Locating a point finds the cell that contains it", "statement": "locateCellByPoint returns the indices of an existing cell for every point; for a point inside the shape the cell contains the point.", "quantifier": "every built mesh, every point", "why_tests_cant": "Continuum of points, including those on cell boundaries and outside.", "anchors": ["src/core/BasicMeshes.cpp: locateCellByPoint"]}
{"id": "C71", "title": "Interpolation on a structured mesh is the piecewise trilinear one", "statement": "interpolatePointData and interpolateCellData return, at a point whose coordinates lie between the samples i and i+1 in each direction, the trilinear combination of the eight surrounding data; outside the range of the samples the nearest sample is used. In particular they never leave the range of the data, reproduce the data at the samples, and never read outside the data when these have one value per node (cell). Integer data are rounded to the nearest.", "quantifier": "every built mesh, every point, every data", "why_tests_cant": "Continuum of points and data.", "anchors": ["src/core/BasicMeshes.cpp: interpolateCellData, interpolatePointData"]}
{"id": "C72", "title": "Copying and assigning structured meshes is faithful", "statement": "A copy-constructed mesh, and a mesh assigned from another, are indistinguishable from the original; swapping twice restores both.", "quantifier": "every pair of meshes, with or without shape", "why_tests_cant": "All combinations of states.", "anchors": ["src/core/BasicMeshes.cpp: UStructMesh(const UStructMesh&), operator=, swap"]}
{"id": "C73", "title": "Parameters given before the shape are applied to the shape", "statement": "Origin, dimensions, lower limits and axes given before the type of shape are those of the shape once its type is chosen (within the limits of the shape); choosing another type keeps them; parameters never given take the documented defaults (origin 0, unit dimensions, full angles). The integer code of a type selects the documented type.", "quantifier": "every sequence of setters before setShape, every type", "why_tests_cant": "All parameter values and call orders.", "anchors": ["src/core/BasicMeshes.cpp: setShape, setOrigin, setSpan, setInfLimits, setRefSystem"]}
{"id": "C74", "title": "isBuilt tells whether the nodes agree with the parameters", "statement": "After any sequence of calls, if isBuilt returns true then building again would change nothing: nodes, spacing and dimensions are those of the current parameters.", "quantifier": "every sequence of calls", "why_tests_cant": "Unbounded call sequences.", "anchors": ["src/core/BasicMeshes.cpp: isBuilt, build and all setters"]}
{"id": "C75", "title": "Degrees of freedom of a lattice are numbered without gaps", "statement": "After execute every node of a lattice has a degree of freedom, the degrees of freedom are exactly 0..getNNodes-1, accessGridFromDOF returns a node having the given degree of freedom (the first one), and the lists of coordinates have one entry per degree of freedom.", "quantifier": "every shape type and state, all dimensions", "why_tests_cant": "All dimensions and shapes.", "anchors": ["src/core/Lattice.cpp: build, reduceDimToDOF, resizeMapDof, accessDOFFromGrid, accessGridFromDOF, getGlobalCoords, getLocalCoords"]}
{"id": "C76", "title": "Nodes of a lattice share a degree of freedom exactly when they are the same point", "statement": "Two nodes of an executed lattice have the same degree of freedom if and only if their global positions coincide.", "quantifier": "every shape type and state, all dimensions, all pairs of nodes", "why_tests_cant": "All dimensions and shapes; coincidences on axes, poles and seams.", "anchors": ["src/core/Lattice.cpp: resizeMapDof, reduceDimToDOF"]}
{"id": "C77", "title": "A filter weights the displacements of the transformation blocks", "statement": "TranslationGeometry, RotationGeometry, ScaleGeometry, TwistGeometry and BendGeometry produce one displacement for each vertex of the geometry and for nothing else: the displacement without filter times the filter value of the vertex (0 where the filter has no value). A filter that is not on points, is linked to another geometry or has ids that are not vertices counts as 1 everywhere. apply adds exactly these displacements; without geometry execute fails.", "quantifier": "every geometry, every filter field, every parameter of the block", "why_tests_cant": "All meshes and all filters; real parameters.", "anchors": ["src/manipulators/TranslationGeometry.cpp: execute, checkFilter, apply", "src/manipulators/RotationGeometry.cpp: execute, checkFilter", "src/manipulators/ScaleGeometry.cpp: execute, checkFilter", "src/manipulators/TwistGeometry.cpp: execute, checkFilter", "src/manipulators/BendGeometry.cpp: execute, checkFilter"]}
{"id": "C78", "title": "Without a filter every vertex moves at every execution", "statement": "A transformation block that was given no filter displaces every vertex of the geometry fully at each execution, also when the geometry has been edited, or replaced, between two executions.", "quantifier": "every sequence of executions and edits", "why_tests_cant": "Depends on what an earlier execution left in the block.", "anchors": ["src/manipulators/TranslationGeometry.cpp: checkFilter", "src/manipulators/BendGeometry.cpp: checkFilter"]}
{"id": "C79", "title": "RotationGeometry rotates rigidly", "statement": "After execute and apply without filter, every vertex is the rotation of its old position about the axis by the angle: distances between vertices, distance from the axis and position along the axis are kept, and the angle between old and new radial vectors is the given one, counterclockwise about the direction. The same holds however origin and direction were given.", "quantifier": "every axis, every angle, every geometry", "why_tests_cant": "Continuum of axes, angles and points.", "anchors": ["src/manipulators/RotationGeometry.cpp: execute, setAxis, setDirection, setOrigin, buildPorts"]}
{"id": "C80", "title": "TranslationGeometry moves every vertex by the requested amount", "statement": "After execute and apply without filter all vertices move by one and the same vector, parallel to the given direction, whose length is the given translation, however the direction was given.", "quantifier": "every direction and amount, every geometry", "why_tests_cant": "Continuum of directions.", "anchors": ["src/manipulators/TranslationGeometry.cpp: execute, setDirection, setTranslation, buildPorts"]}
{"id": "C81", "title": "ScaleGeometry scales about its centre", "statement": "After execute and apply without filter, the difference of two vertices is multiplied componentwise by the scaling factors; the origin is the fixed point, or the mean point of the vertices when that option is on, and then the mean point stays where it is.", "quantifier": "every geometry, every factor, origin and option", "why_tests_cant": "Continuum of factors and points.", "anchors": ["src/manipulators/ScaleGeometry.cpp: execute, setScaling, setOrigin, setMeanPoint"]}
{"id": "C82", "title": "TwistGeometry twists proportionally to the distance along the axis", "statement": "After execute and apply without filter, a vertex at signed distance d from the origin along the axis is rotated about the axis by the twist angle times d over the maximum distance, clamped to the twist angle; on the negative side it stays (or, with the symmetric option, turns the opposite way). The twist angle may be negative.", "quantifier": "every axis, angle, distance, option, geometry", "why_tests_cant": "Continuum of parameters and points.", "anchors": ["src/manipulators/TwistGeometry.cpp: execute, setTwist, setMaxDistance, setSym"]}
{"id": "C83", "title": "BendGeometry displaces by the given polynomials", "statement": "After execute and apply without filter, component i of a vertex (in the local system if one was set) is displaced by the sum over j of the polynomials of the given degree and coefficients in coordinate j. Setting a local system through any of the setters or ports makes it effective, and a block with zero polynomials moves nothing.", "quantifier": "every degree matrix, every coefficients, every local system, every geometry", "why_tests_cant": "Continuum of coefficients; all degrees.", "anchors": ["src/manipulators/BendGeometry.cpp: execute, toLocalCoord, toGlobalCoord, setDegree, setCoeffs, setOrigin, setRefSystem, buildPorts"]}
{"id": "C84", "title": "Apply moves every vertex by factor times filter times displacement", "statement": "Executing Apply moves each vertex of its geometry by the scaling factor times the filter value times the displacement given for it (or, with a scalar input, times the scalar along the normal); vertices without displacement or filter value stay; an unusable input moves nothing. The displacement field applied is the output. This holds for every geometry type, at every execution, and for the input set last.", "quantifier": "every mesh, every input, filter and factor, every sequence of executions", "why_tests_cant": "All meshes and fields; state left by earlier executions.", "anchors": ["src/manipulators/Apply.cpp: execute, checkInput, setInput, setScalarInput, setFilter, setScaling"]}
{"id": "C85", "title": "Annotations of Apply list exactly what moved", "statement": "With annotation on, after execute the annotated vertices are exactly those displaced by at least the threshold and the annotated cells exactly those with such a vertex (none for point clouds), each annotated once with its own id, in fields with the given labels linked to the geometry.", "quantifier": "every mesh, displacement, threshold", "why_tests_cant": "All meshes and fields.", "anchors": ["src/manipulators/Apply.cpp: execute, setAnnotation, setAnnotationThreshold"]}
{"id": "C86", "title": "A copy of a manipulation block does what the original does", "statement": "A copy-constructed transformation block or Apply block, executed on the same geometry, produces the same displacements as the original.", "quantifier": "every block in every state", "why_tests_cant": "All states of the block.", "anchors": ["src/manipulators/Apply.cpp: copy constructor", "src/manipulators/TranslationGeometry.cpp: copy constructor", "src/manipulators/BendGeometry.cpp: copy constructor"]}
{"id": "C87", "title": "ApplyFilter returns the filtered field and moves nothing", "statement": "Executing ApplyFilter returns the field factor times filter times displacement on every vertex of the geometry (the given one, else that of the input), for every geometry type and at every execution; unusable input raises an error; geometries are left as they are.", "quantifier": "every mesh, input, filter, factor", "why_tests_cant": "All meshes and fields.", "anchors": ["src/manipulators/ApplyFilter.cpp: execute, checkInput"]}
{"id": "C88", "title": "setMesh builds the mesh asked for", "statement": "Each form of setMesh leaves a built mesh of the type, origin and dimensions asked for (clamped to what the type admits), whatever the object held before: with numbers of nodes, those numbers or the documented least ones; with a spacing, the number of cells of size nearest to the spacing; with a shape, a copy of that shape. clearMesh returns the object to its initial state.", "quantifier": "every previous state, every origin, span, type, dimension, spacing", "why_tests_cant": "All values and previous states.", "anchors": ["src/core/BasicMeshes.cpp: setMesh (three forms), clearMesh"]}
{"id": "C89", "title": "A lattice gives every enclosed vertex the NURBS combination of the node displacements", "statement": "Executing an FFDLattice yields one displacement for each vertex of the geometry. A vertex taken by the lattice gets the rational B-spline combination of the displacements of the nodes, with the degrees, knots and weights that belong to its local coordinates; every other vertex gets zero. A lattice that was not built yet is built first: degrees limited to the number of cells, weight one and displacement zero where none was given.", "quantifier": "every geometry, shape, number of nodes, degrees, weights, displacements and coordinate types", "why_tests_cant": "Continuum of points; all degrees and dimensions; the recursion of the basis functions.", "anchors": ["src/manipulators/FFDLattice.cpp: execute, build, apply, nurbsEvaluator, getTheoreticalKnotInterval, basisITS0, returnDisplacements", "src/core/BasicShapes.cpp: includeGeometry, includeCloudPoints"]}
{"id": "C90", "title": "Lattice displacements stay within those of the nodes", "statement": "With positive weights and global displacements no component of the displacement of a point exceeds the largest, or is below the smallest, of the nodes. If all nodes have the same displacement, every enclosed vertex gets exactly this displacement; if all are zero nothing moves, also with local displacements.", "quantifier": "every shape, degrees, weights, coordinate types and displacements", "why_tests_cant": "Partition of unity and positivity of the basis functions for every degree and knot vector.", "anchors": ["src/manipulators/FFDLattice.cpp: nurbsEvaluator, setKnotsStructure, basisITS0"]}
{"id": "C91", "title": "A filter weights the displacements of a lattice", "statement": "With a filter the displacement of each vertex is the one without filter times the value of the filter there: zero where a usable filter has no value; a filter on cells, on another geometry or with unknown ids counts as one.", "quantifier": "every geometry, lattice and filter", "why_tests_cant": "All meshes and fields.", "anchors": ["src/manipulators/FFDLattice.cpp: execute, checkFilter, setFilter"]}
{"id": "C92", "title": "A node acts only near it", "statement": "Changing the displacement of a node changes the displacements only of points whose knot interval is within degree + 1 nodes of it in every direction (cyclically in periodic directions).", "quantifier": "every node, every point, every degree and dimension", "why_tests_cant": "All nodes, points, degrees.", "anchors": ["src/manipulators/FFDLattice.cpp: nurbsEvaluator, getKnotInterval, getTheoreticalKnotInterval, setMapNodes"]}
{"id": "C93", "title": "Clamped lattices interpolate corners, edges and faces", "statement": "A point at a corner of a lattice with clamped coordinates, or at any node in directions of degree one, gets exactly the displacement of that node. On a face or an edge only the nodes of that face or edge count.", "quantifier": "every lattice, weight and displacement", "why_tests_cant": "All degrees, weights, displacements.", "anchors": ["src/manipulators/FFDLattice.cpp: nurbsEvaluator, setKnotsStructure"]}
{"id": "C94", "title": "Lattices around a full turn are closed", "statement": "On a full cylinder or sphere the deformation has no tear at the seam of the angle: displacements of points that approach the seam from either side tend to the same value.", "quantifier": "every full cylinder and sphere, every displacement of the nodes", "why_tests_cant": "Limits over a continuum.", "anchors": ["src/manipulators/FFDLattice.cpp: setKnotsStructure, setMapNodes, nurbsEvaluator", "src/core/Lattice.cpp: reduceDimToDOF"]}
{"id": "C95", "title": "Degrees in force after a build are those asked for, within the cells available", "statement": "After a build the degree of each direction is the one asked for if it is between one and the number of cells of that direction, otherwise the nearest of these two numbers. Displacements of nodes given before are kept.", "quantifier": "every degree, dimension and previous state", "why_tests_cant": "All integers.", "anchors": ["src/manipulators/FFDLattice.cpp: build, setDegrees, resizeMapDof, setKnotsStructure"]}
{"id": "C96", "title": "Nodal weights are those set", "statement": "The weight of a node set by the user is the one in force from then on, for the node and those that share its degree of freedom, and the weights of other nodes do not change: before and after builds, over any number of builds. Multiplying all weights by a number changes no displacement.", "quantifier": "every node, weight, state of the lattice", "why_tests_cant": "Depends on the history of setters and builds.", "anchors": ["src/manipulators/FFDLattice.cpp: setNodalWeight (both forms), build, resizeMapDof, getWeights"]}
{"id": "C97", "title": "A single point is deformed as a vertex there would be", "statement": "The deformation returned for a single point is the displacement that execute would give to a vertex at that place; zero outside the lattice.", "quantifier": "every point, lattice, dimension", "why_tests_cant": "Two separate pieces of code have to agree on all inputs.", "anchors": ["src/manipulators/FFDLattice.cpp: apply (point), apply (points), nurbsEvaluator (point), nurbsEvaluator (ids)"]}
{"id": "C98", "title": "Displacements of the wrong number do no harm", "statement": "Displacements set with too few entries leave the missing nodes at rest; entries in excess are ignored; at all times.", "quantifier": "every list, every state of the lattice", "why_tests_cant": "All lengths; depends on whether the lattice is built.", "anchors": ["src/manipulators/FFDLattice.cpp: setDisplacements, build, nurbsEvaluator"]}
{"id": "C99", "title": "Local displacements are displacements of the local coordinates", "statement": "With local displacements the combination of the nodes is added to the local coordinates of the point (radius, angle, height, ...), each divided by the scaling of its direction, and the result is taken back to world coordinates. On a cuboid this is the same as global displacements turned by the axes of the cuboid.", "quantifier": "every shape, axes, span, displacement and point", "why_tests_cant": "Continuum of shapes and points.", "anchors": ["src/manipulators/FFDLattice.cpp: convertDisplToXYZ, apply, setDisplGlobal", "src/core/BasicShapes.cpp: toLocalCoord, toWorldCoord"]}
{"id": "C100", "title": "Every vertex in the lattice moves", "statement": "Vertices of a mesh that lie in the shape of the lattice get the displacement of the lattice at their place, all others none.", "quantifier": "every mesh and shape", "why_tests_cant": "All meshes; cells across the border.", "anchors": ["src/manipulators/FFDLattice.cpp: apply", "src/core/BasicShapes.cpp: includeGeometry", "src/core/MimmoObject.cpp: getVertexFromCellList"]}
{"id": "C101", "title": "A selection patch is the selected part of its geometry", "statement": "The patch produced by a selection block has exactly the selected cells, with their ids, types, connectivity and PIDs, and exactly the vertices these cells use, with their ids and coordinates (for point clouds: exactly the selected points). Its PID list and names are those of the selected cells and its tolerance is that of the geometry. Only coincident vertices may be merged, in the cells as well.", "quantifier": "every geometry and every set of selected elements", "why_tests_cant": "All meshes and selections; interplay of copying, cleaning and update.", "anchors": ["src/geohandlers/GenericSelection.cpp: execute", "src/core/MimmoObject.cpp: addVertex, addCell, getVertexFromCellList, setPIDName, cleanGeometry, update"]}
{"id": "C102", "title": "The dual option selects the complement", "statement": "With the dual option a selection block returns exactly the elements it does not return without it: together they make up the geometry, and no element is in both.", "quantifier": "every geometry, selection criterion and kind of selection block", "why_tests_cant": "All meshes and criteria; merging of sorted lists.", "anchors": ["src/geohandlers/SelectionByPID.cpp: extractSelection", "src/geohandlers/SelectionByElementList.cpp: extractSelection", "src/geohandlers/SelectionByBox.cpp: extractSelection", "src/geohandlers/SelectionByCylinder.cpp: extractSelection", "src/geohandlers/SelectionBySphere.cpp: extractSelection", "src/core/BasicShapes.cpp: excludeGeometry, excludeCloudPoints"]}
{"id": "C103", "title": "A selection by PID follows the requests", "statement": "After any sequence of setPID, removePID and executions, the selection holds exactly the cells whose PID is among those asked and not removed since; -1 asks for all, a negative index in removePID withdraws all requests.", "quantifier": "every geometry and every sequence of requests, removals and executions", "why_tests_cant": "Unbounded histories; state kept between executions.", "anchors": ["src/geohandlers/SelectionByPID.cpp: setPID, removePID, setGeometry, syncPIDList, extractSelection"]}
{"id": "C104", "title": "A selection by lists returns the listed elements", "statement": "SelectionByElementList returns the cells of the geometry that were listed and those all of whose vertices were listed, each once (for point clouds: the listed points); unknown ids, empty lists and fields at another location are ignored; with the dual option, the others.", "quantifier": "every geometry and every sequence of raw and annotated lists", "why_tests_cant": "All meshes and lists.", "anchors": ["src/geohandlers/SelectionByElementList.cpp: addAnnotatedCellList, addAnnotatedVertexList, addRawCellList, addRawVertexList, extractSelection"]}
{"id": "C105", "title": "The constrained boundary is where the patch was cut", "statement": "constrainedBoundary returns exactly the vertices on the border of the patch that are not on the border of the mother geometry, each once.", "quantifier": "every geometry and selection", "why_tests_cant": "All meshes; sets of faces of two meshes.", "anchors": ["src/geohandlers/GenericSelection.cpp: constrainedBoundary"]}
{"id": "C106", "title": "A stitched geometry is the union of its parts", "statement": "StitchGeometry takes every geometry added that has the topology asked for, each once. Its result has one vertex for each vertex of these geometries and one cell for each of their cells, with the same coordinates, element types and connectivity (on the new ids); only vertices at nearly the same place are merged, everywhere.", "quantifier": "every set of geometries, every order of visit, every topology", "why_tests_cant": "All sets of meshes; renumbering of vertices and cells across meshes.", "anchors": ["src/geohandlers/StitchGeometry.cpp: StitchGeometry, addGeometry, execute", "src/core/MimmoObject.cpp: addVertex, addConnectedCell, cleanGeometry"]}
{"id": "C107", "title": "Stitching keeps PIDs and their names apart", "statement": "Without re-PID each cell of a stitched geometry keeps its PID. With re-PID two cells have the same PID exactly if they come from the same geometry and had the same PID there. The PID list holds the PIDs in use, and each PID has the name it had in its geometry.", "quantifier": "every set of geometries, PIDs and names", "why_tests_cant": "All sets of PIDs and names over several meshes.", "anchors": ["src/geohandlers/StitchGeometry.cpp: forceRePID, execute", "src/core/MimmoObject.cpp: resyncPID, setPIDName"]}
{"id": "C108", "title": "An extracted field is the source restricted to the target", "statement": "ExtractScalarField, ExtractVectorField, ExtractLongField and ExtractStringField give a field at the location of the source. By ID it lies on the target geometry and holds exactly the source's values at the ids of the target. By PID it lies on the source's geometry and holds exactly the values on the cells (or vertices of cells) whose PID both geometries list. By proximity it lies on the target and gives each target cell close to the source the value of the source there. If nothing can be extracted the result does not show values of an earlier run.", "quantifier": "every source field, target, location and mode", "why_tests_cant": "All pairs of meshes, ids, PIDs and locations, and sequences of runs.", "anchors": ["src/geohandlers/ExtractFields.cpp: execute", "src/geohandlers/ExtractScalarField.cpp: extract, extractID, extractPID, extractMapping"]}
{"id": "C109", "title": "Settings of an extraction block are kept", "statement": "The mode and the tolerance of an extraction block are the last valid ones set (mode 1 to 3, tolerance at least 1e-12), clear() keeps them, and a block written to XML and read again has the same mode and, for the proximity mode, the same tolerance.", "quantifier": "every sequence of settings, every XML section", "why_tests_cant": "All numbers and sections.", "anchors": ["src/geohandlers/ExtractFields.cpp: setMode, setTolerance, absorbSectionXML, flushSectionXML, clear"]}
{"id": "C110", "title": "A reconstructed field combines the values of the sub-patches", "statement": "ReconstructScalar and ReconstructVector give a field that has a value on every vertex (or cell) of the target geometry and on nothing else: zero where no sub-patch has the entity, otherwise the maximum, minimum (vectors by length), sum or average of the values that the sub-patches having the entity give it. The restrictions to the sub-patches are the result on the entities shared with the target, one for each input in order. Earlier runs have no influence.", "quantifier": "every target, every list of inputs, every criterion, every overlap", "why_tests_cant": "All numbers of overlapping patches and all values.", "anchors": ["src/geohandlers/ReconstructScalar.cpp: execute, overlapFields, idsGeoDataLocation", "src/geohandlers/ReconstructVector.cpp: execute, overlapFields", "src/core/MimmoPiercedVector.tpp: completeMissingData"]}
{"id": "C111", "title": "Inputs of a reconstruction can be given and removed", "statement": "addData puts an input behind those given before and refuses null pointers, fields without geometry, fields at another location and, for cells, point clouds. removeData takes away all inputs of a geometry and only those, whatever the list holds, in the order they had. Overlap criteria outside 1 to 4 are ignored.", "quantifier": "every list of inputs, every geometry", "why_tests_cant": "All lists and sequences of additions and removals.", "anchors": ["src/geohandlers/ReconstructScalar.cpp: addData, removeData, setOverlapCriterium, ReconstructScalar"]}
{"id": "C112", "title": "Clipping keeps exactly the cells on one side of the plane", "statement": "ClipGeometry gives the part of the geometry made of the cells (for a point cloud: points) whose centroid p has a p.x + b p.y + c p.z + d > 0, or < 0 with InsideOut, for the plane a x + b y + c z + d = 0 that was set, by coefficients or by a point and a normal of any length; ids, connectivity, PIDs and their names are those of the geometry.", "quantifier": "every mesh, every plane, both sides", "why_tests_cant": "All planes and meshes; real arithmetic.", "anchors": ["src/geohandlers/ClipGeometry.cpp: setClipPlane, clipPlane, execute"]}
{"id": "C113", "title": "The clipping plane in force is the one set last, also after saving", "statement": "The plane that a run of ClipGeometry uses is the one set last by coefficients, or by setOrigin and setNormal; a block written to XML and read again clips in the same way.", "quantifier": "every sequence of settings and runs", "why_tests_cant": "All sequences of settings, runs, saving and loading.", "anchors": ["src/geohandlers/ClipGeometry.cpp: setClipPlane, setOrigin, setNormal, execute, absorbSectionXML, flushSectionXML"]}
{"id": "C114", "title": "Displacements by radial basis functions are the weighted sum of the nodes", "statement": "MRBF with Mode none: after execution, every vertex of the target has one displacement: the sum over the nodes of the displacement of the node times the basis function of the distance from it divided by its support radius, times the filter at the vertex. This holds for vector and scalar displacements. Displacements depend linearly on those of the nodes.", "quantifier": "every geometry, set of nodes, displacements, radii, filter, basis function", "why_tests_cant": "Real-valued inputs, all meshes; sums over any number of nodes.", "anchors": ["src/manipulators/MRBF.cpp: execute, getDisplacements, getScalarDisplacements, setNode, setDisplacements"]}
{"id": "C115", "title": "Compact support confines the displacements to the support radii", "statement": "With compact support, a vertex farther than the support radius from every node does not move. For a basis function that vanishes beyond the support radius the flag does not change the displacements.", "quantifier": "every geometry, node, radius, factor", "why_tests_cant": "Unbounded geometry and real distances.", "anchors": ["src/manipulators/MRBF.cpp: setCompactSupport, setDiagonalFactor, execute"]}
{"id": "C116", "title": "The support radii in force are those asked for last, and never negative", "statement": "A call for a local radius, a real radius, or a list or field of radii replaces what was asked for before. Requests that cannot be used (empty list, interpolation mode) are ignored. Effective support radii are not negative.", "quantifier": "every sequence of requests", "why_tests_cant": "All sequences of calls.", "anchors": ["src/manipulators/MRBF.cpp: setSupportRadiusLocal, setSupportRadiusReal, setVariableSupportRadii, getEffectivelyUsedSupportRadii"]}
{"id": "C117", "title": "Interpolation meets the displacements at the nodes", "statement": "MRBF with Mode whole: all nodes have the same support radius, and a vertex of the target at the position of a node has the displacement of that node (filter 1), if the linear system is solved exactly.", "quantifier": "every state the setters can reach, every geometry", "why_tests_cant": "All call sequences; exact arithmetic.", "anchors": ["src/manipulators/MRBF.cpp: execute, setMode, computeEffectiveSupportRadiusList"]}
{"id": "C118", "title": "Nodes, displacements and radii can be given by fields on a geometry", "statement": "Nodes given by the vertices of a geometry, with displacements and radii by fields on it, give the sum over those vertices with their own displacement (zero if there is none) and radius, whatever the order of the vertices. Fields on another geometry are refused. Lists of displacements or radii can be used as well.", "quantifier": "every geometry of nodes, every field", "why_tests_cant": "All orders of vertices and all partial fields.", "anchors": ["src/manipulators/MRBF.cpp: setNode, setDisplacements, setVariableSupportRadii, initRBFwGeometry, execute"]}
{"id": "C119", "title": "Applying moves each vertex by its displacement", "statement": "apply() adds to each vertex of the geometry its vector displacement, or, on a surface with scalar displacements, its scalar times the normal of the surface at the vertex; nothing else changes. Before any execution it does nothing.", "quantifier": "every geometry, every result", "why_tests_cant": "All meshes and results.", "anchors": ["src/manipulators/MRBF.cpp: apply"]}
{"id": "C120", "title": "Duplicated nodes can be found and removed", "statement": "checkDuplicatedNodes lists nodes closer than the tolerance to another one; removeDuplicatedNodes leaves nodes that are pairwise not close and removes no node that is alone.", "quantifier": "every list of nodes, every tolerance", "why_tests_cant": "All lists and repetitions.", "anchors": ["src/manipulators/MRBF.cpp: checkDuplicatedNodes, removeDuplicatedNodes"]}
{"id": "C121", "title": "Basis functions of mimmo are those documented", "statement": "The heaviside functions with constant k are between 0 and 1, decrease with the distance, are one half at the support radius, and equal 0.5*(1+tanh(k*x)) with x = 1 - distance; the derivative of the sigmoid is 1 at distance 0 and between 0 and 1 elsewhere.", "quantifier": "every distance, every positive constant", "why_tests_cant": "Real functions on an unbounded domain.", "anchors": ["src/manipulators/MRBF.cpp: heaviside10, heaviside50, heaviside100, heaviside1000, dsigmoid", "src/manipulators/MRBF.hpp: MRBFBasisFunction"]}
{"id": "C122", "title": "A copy of MRBF behaves as the original, a cleared one as a new one", "statement": "A copy of MRBF has no results; its execution gives the same displacements and effective radii as that of the original. clear() takes the parameters back to their defaults.", "quantifier": "every state", "why_tests_cant": "All states.", "anchors": ["src/manipulators/MRBF.cpp: MRBF(const MRBF &), clear, execute"]}
{"id": "C123", "title": "The box of a set of nodes holds everything they can move", "statement": "RBFBox gives the smallest box that holds, for each node, the cube of side twice 1.01 times the support radius around it; every point within the support radius of a node is in it, so every vertex moved by MRBF with the same nodes, radius and compact support is in it.", "quantifier": "every cloud of nodes, every radius", "why_tests_cant": "All clouds; real arithmetic.", "anchors": ["src/utils/RBFBox.cpp: execute, setGeometry, setSupportRadius, getAABB", "src/manipulators/MRBF.cpp: execute"]}
{"id": "C124", "title": "The parameters of MRBF survive saving to XML", "statement": "A block made from the XML section another one has written has the same mode, function, kind of support, radii, tolerance and factor, up to the digits written. If a section has several radii, the real one counts, then SupportRadius, then SupportRadiusLocal.", "quantifier": "every parameter the setters can set", "why_tests_cant": "All values.", "anchors": ["src/manipulators/MRBF.cpp: absorbSectionXML, flushSectionXML, MRBF(const bitpit::Config::Section &)"]}
{"id": "C125", "title": "A translated point lies at the set distance along the set direction", "statement": "TranslationPoint, executed after setOrigin, setDirection and setTranslation, gives the point at signed distance alpha from the origin along the direction that was set, whatever the length of that direction; origin and direction stay as set, executing again gives the same point and a copy gives the same point.", "quantifier": "every direction, origin and distance; every sequence of settings and executions", "why_tests_cant": "All real values and all call sequences.", "anchors": ["src/utils/TranslationPoint.cpp: setDirection, setOrigin, setTranslation, execute"]}
{"id": "C126", "title": "Axes rotated about a line form the same system, turned", "statement": "RotationAxes turns the reference system (origin and three axes) by the set angle about the line through the set origin along the set direction: lengths, angles and handedness of the axes and the distance of their origin from the line's origin are unchanged, two rotations about the same line add up, and the opposite angle restores the system; the input axes stay as set.", "quantifier": "every axis, angle and reference system; every sequence of settings and executions", "why_tests_cant": "All real values and all call sequences.", "anchors": ["src/utils/RotationAxes.cpp: constructor, setAxis, setDirection, setRotation, setAxes, setAxesOrigin, execute"]}
{"id": "C127", "title": "The aligned bounding box holds all vertices and is as small as its axes allow", "statement": "AABBox returns, for the list of geometries set, the box aligned with the set axes whose sides are the extents of all vertices along these axes, centred on them (a side smaller than 1e-4 of the mean side is raised to it); every vertex of every geometry lies in it, the order and repetition of geometries do not matter, and executing again changes nothing.", "quantifier": "every list of geometries, every pair of axes that are not parallel", "why_tests_cant": "All meshes and axes.", "anchors": ["src/utils/AABBox.cpp: setGeometry, setGeometries, setAxes, execute, plot"]}
{"id": "C128", "title": "A mirrored cloud holds the original points and their images, with their data", "statement": "SpecularPoints returns a cloud with all points of the input, under their ids and with their scalar and vector data, plus, under new ids, the image through the set plane of each point to mirror: the segment between a point and its image is orthogonal to the plane and has its middle on it, the scalar of the image is that of the point and its vector is the mirrored vector. When a surface with cells is linked all points of the result are projected on it. The input cloud is not changed.", "quantifier": "every cloud, plane, scalar and vector field, side and force setting", "why_tests_cant": "All real coordinates, all clouds and all data.", "anchors": ["src/utils/SpecularPoints.cpp: setPointCloud, setPlane, setScalarData, setVectorData, execute"]}
{"id": "C129", "title": "Only points on the chosen side of the plane are mirrored", "statement": "SpecularPoints mirrors the points beyond the plane on the side its normal points to (on the other side with setInsideOut), and gives no image to points on the plane or on the other side, unless forced; with setForce(true) every point has an image.", "quantifier": "every cloud, plane and side", "why_tests_cant": "All real coordinates; the boundary is a tolerance.", "anchors": ["src/utils/SpecularPoints.cpp: setInsideOut, setForce, execute"]}
{"id": "C130", "title": "The plane given last is the plane of symmetry", "statement": "The plane used by SpecularPoints::execute is the one given last, whether by coefficients, by origin and normal together, or by origin and normal one by one; other settings, previous executions and clear do not matter, and a copy uses the same plane.", "quantifier": "every sequence of settings, executions and clears", "why_tests_cant": "All call sequences.", "anchors": ["src/utils/SpecularPoints.cpp: setPlane, setOrigin, setNormal, execute, clear, copy constructor"]}
{"id": "C131", "title": "A projected patch is the target patch with every vertex on the surface", "statement": "ProjPatchOnSurface::execute gives a mesh with the ids, cells and type of the target, each vertex at the projection of its old position on the linked surface, and the search trees asked for built for it. Working on the target, the target itself is moved and no other mesh changes; otherwise no mesh of the program changes. Executing again on a projected target moves nothing; a missing surface or a missing patch is reported; null meshes, volumes as patch and non-surfaces as reference are ignored.", "quantifier": "every surface, patch, setting and projection", "why_tests_cant": "All meshes and settings.", "anchors": ["src/utils/ProjPatchOnSurface.cpp: setPatch, projection", "src/utils/ProjPrimitivesOnSurfaces.cpp: setGeometry, execute"]}
{"id": "C132", "title": "The closest cell found by a tree search is the closest", "statement": "findSharedPointClosestGlobalCell returns, among the cells asked for that lie within the given distance of the point, one no other is closer than, together with its distance; without any such cell it returns the null id and the largest number.", "quantifier": "every search tree, every point, every maximum distance, every set of cells asked for, every way to break ties", "why_tests_cant": "All trees of any depth; the pruning of branches must be right for all of them.", "anchors": ["src/core/SkdTreeUtils.cpp: findSharedPointClosestGlobalCell"]}
{"id": "C133", "title": "Cells close to a patch are all selected, and only those", "statement": "skdTreeUtils::selectByPatch returns, each once, the cells of the target in the leaves whose box is within the tolerance of the box of some leaf of the selection; hence every cell within the tolerance of the selection is among them, and cells that are farther away are not.", "quantifier": "every pair of search trees, every tolerance", "why_tests_cant": "All pairs of trees of any depth.", "anchors": ["src/core/SkdTreeUtils.cpp: selectByPatch, extractTarget"]}
{"id": "C134", "title": "A point is inside a segment, a triangle or a polygon exactly when it is within the tolerance of it", "statement": "isPointInsideSegment, isPointInsideTriangle and isPointInsidePolygon return true for every point of the element; they return true for a point outside only when it is within the tolerance of the element.", "quantifier": "every point, every segment, triangle and polygon, every tolerance", "why_tests_cant": "All real coordinates; the answer changes on boundaries no sample hits.", "anchors": ["src/core/MimmoCGUtils.cpp: isPointInsideSegment, isPointInsideTriangle, isPointInsidePolygon"]}
{"id": "C135", "title": "The distance from a polygon is that of its closest point", "statement": "mimmoCGUtils::distancePointPolygon returns the distance between the point and the closest point of the polygon.", "quantifier": "every point and every polygon", "why_tests_cant": "All real coordinates and all numbers of vertices.", "anchors": ["src/core/MimmoCGUtils.cpp: distancePointPolygon"]}
{"id": "C136", "title": "Points are projected to the closest point of a surface", "statement": "skdTreeUtils::signedDistance returns the distance from the closest point of the surface, positive on the side the surface normal points to there, and skdTreeUtils::projectPoint returns, for each of the given points, the closest point of the surface, whatever the radius the search starts with.", "quantifier": "every surface, all points, all radii", "why_tests_cant": "All surfaces and points; the sign changes on a set without volume.", "anchors": ["src/core/SkdTreeUtils.cpp: distance, signedDistance, projectPoint, computePseudoNormal"]}
{"id": "C137", "title": "Points of a surface are located on a cell that holds them", "statement": "skdTreeUtils::locatePointOnPatch returns a cell the point belongs to when there is one, and the null id otherwise, also for a surface without cells; checkPointBelongsToCell accepts every point of the cell.", "quantifier": "every surface of segments, triangles and polygons, every point", "why_tests_cant": "All surfaces and points.", "anchors": ["src/core/SkdTreeUtils.cpp: locatePointOnPatch, checkPointBelongsToCell"]}
{"id": "C138", "title": "The narrow band around a surface holds all cells within the distance, and only those", "statement": "getCellsNarrowBandToExtSurface(WDist) and getVerticesNarrowBandToExtSurface(WDist) return, each once and with its distance, the cells (vertices) of the mesh whose distance from the surface is below the threshold; with seeds given, those connected to a seed within the threshold through neighbours within the threshold; the search ends.", "quantifier": "every mesh, every surface, every threshold, every list of seeds", "why_tests_cant": "All meshes of any size: a front advances through neighbours until it is empty.", "anchors": ["src/core/MimmoObject.cpp: getCellsNarrowBandToExtSurfaceWDist, getVerticesNarrowBandToExtSurfaceWDist"]}
{"id": "C139", "title": "The control of the largest displacement measures the true distance from the undeformed surface", "statement": "After execute, ControlDeformMaxDistance::getViolationField holds at each vertex the distance of the displaced vertex from the undeformed surface minus the limit, whatever the displacement; getViolation is positive exactly when some vertex is displaced farther than the limit; displacements not longer than the limit never violate it.", "quantifier": "every surface, every field of displacements, every limit", "why_tests_cant": "The search is limited to a radius that depends on the displacement; no sample shows that it is always large enough.", "anchors": ["src/utils/ControlDeformMaxDistance.cpp: execute, getViolation, setLimitDistance, setDefField"]}
{"id": "C140", "title": "The control against external surfaces detects every vertex beyond or within the tolerance of a constraint", "statement": "After execute, ControlDeformExtSurface::getViolationField holds at each vertex the greatest, over the constraints, of the signed distance by which the displaced vertex is beyond the constraint seen from the centre of the undeformed geometry, plus the tolerance; a vertex within the tolerance of a constraint makes getViolation at least zero; a negative getViolation means that no vertex is beyond or within the tolerance of any constraint.", "quantifier": "every geometry, every field, every set of constraints, every tolerance", "why_tests_cant": "The search radius grows until all points are found; all orders of finding points and all sets of constraints.", "anchors": ["src/utils/ControlDeformExtSurface.cpp: execute, evaluateSignedDistance, getViolation"]}
{"id": "C141", "title": "The constraint files read are those given", "statement": "addConstraintFile, setConstraintFiles, removeConstraintFile and removeConstraintFiles leave exactly the files given and not removed, each with its last format; a path is read from its directory with its name.", "quantifier": "every list of files, every path", "why_tests_cant": "All paths; unusual ones are not in tests.", "anchors": ["src/utils/ControlDeformExtSurface.cpp: addConstraintFile, setConstraintFiles, removeConstraintFile, extractInfo"]}
{"id": "C142", "title": "A segment projected on a surface becomes a chain of the asked number of lines through evenly spaced projections", "statement": "After setGeometry, setSegment and setProjElementTargetNCells(n), execute of ProjSegmentOnSurface gives a curve whose vertices 0..n are the projections on the surface of the n+1 evenly spaced points of the segment, in order from the first end to the second, and whose cells 0..n-1 join consecutive vertices; search trees asked for describe it. Degenerate segments and targets that are not surfaces are ignored.", "quantifier": "every surface, segment, number of cells", "why_tests_cant": "The number of points and cells, and where each goes, for all numbers and segments; the boundary values of the number of cells are not tried in tests.", "anchors": ["src/utils/ProjSegmentOnSurface.cpp: projection, setSegment, clear", "src/utils/ProjPrimitivesOnSurfaces.cpp: execute, setProjElementTargetNCells"]}
{"id": "C143", "title": "The settings of a projected segment written to XML come back when read", "statement": "flushSectionXML of ProjSegmentOnSurface followed by absorbSectionXML on a new block gives the same segment, number of cells and trees; each option read decides its own setting and a missing one leaves it.", "quantifier": "every segment, every number of cells, every section", "why_tests_cant": "Tests read single files; a round trip over all values is not tried.", "anchors": ["src/utils/ProjSegmentOnSurface.cpp: absorbSectionXML, flushSectionXML"]}
{"id": "C144", "title": "A point cloud has exactly the raw points, with their ids and their values", "statement": "execute of CreatePointCloud gives a cloud with a vertex for each raw point, in its place and with its id, and a single-vertex cell with the same id on each; the two fields have a value on every vertex and nowhere else, the given one where there is one and zero elsewhere. Plain lists are numbered from zero; null fields are ignored; nothing of an earlier run is left.", "quantifier": "every set of raw points, scalars and vectors, with any ids", "why_tests_cant": "All ids, also not consecutive, and all mismatches between points and values.", "anchors": ["src/iogeneric/CreatePointCloud.cpp: execute, setRawPoints, setRawScalarField, setRawVectorField, clear"]}
{"id": "C145", "title": "A curve goes through the raw points in order and is refined along itself, longest lines first", "statement": "execute of Create3DCurve gives lines that go through all the raw points in their order, and back to the first for a closed loop; it has as many lines as asked with setNCells, or as needed to join the points if these are more; every vertex added lies on the straight line between two consecutive raw points and its field values are interpolated there; no line is longer than the double of a line obtained by splitting. A run without points only warns; a run does not depend on earlier ones.", "quantifier": "every list of points, closed or not, every number of lines asked, every order in which the queue gives lines of equal length", "why_tests_cant": "Depends on the sequence of splits, which depends on the lengths; the result has to be characterised for all of them.", "anchors": ["src/iogeneric/Create3DCurve.cpp: execute, fillPreliminaryStructure, refineObject, setNCells, setClosedLoop"]}
{"id": "C146", "title": "The settings of a curve written to XML come back when read", "statement": "flushSectionXML of Create3DCurve followed by absorbSectionXML, on any block, gives the same closed-loop flag and the same number of lines; each option read decides its own setting and a missing one leaves it.", "quantifier": "every flag and every int, every section, every receiving block", "why_tests_cant": "Round trip over all values.", "anchors": ["src/iogeneric/Create3DCurve.cpp: absorbSectionXML, flushSectionXML"]}
{"id": "C147", "title": "A field selector gives the first field with the geometry or name asked, or the merge of the values near a target", "statement": "execute of SelectScalarField (and of the vector, long and string selectors) in geometry or name mode gives a whole copy of the first listed field that has the geometry or the name asked for, and an empty field without geometry when there is none; in mapping mode it gives a field on the target that has a value exactly on the entities for which some listed field, coherent with its own geometry and close to the target there, has one: the first of them, as documented. A failed run never shows the result of an earlier one, and running twice gives the same.", "quantifier": "every list of fields, every mode number, every target, every tolerance, every proximity relation", "why_tests_cant": "The overlap of any number of fields on any entity, with refused fields in between, in any order.", "anchors": ["src/geohandlers/SelectField.cpp: execute", "src/geohandlers/SelectScalarField.cpp: mSelect", "src/geohandlers/SelectLongField.cpp: mSelect"]}
{"id": "C148", "title": "A field selector only lists fields it can use, and its XML section restores it", "statement": "After any sequence of calls the fields listed by a selector have a geometry and the location chosen at construction, and the tolerance is at least 1e-12; setting a list keeps the usable ones in order, adding one appends it; clear drops fields, result and geometry and keeps the settings. A block built from the section that another block wrote has its location, its name and its mode; a section with a location out of range is refused.", "quantifier": "every sequence of calls, every section, every block", "why_tests_cant": "Invariant over all call sequences and round trip over all settings.", "anchors": ["src/geohandlers/SelectField.cpp: setTolerance, setMode, absorbSectionXML, flushSectionXML", "src/geohandlers/SelectScalarField.cpp: constructors, setFields, addField, clear, absorbSectionXML, flushSectionXML"]}
{"id": "C149", "title": "Ternary refinement cuts every cell into the fan of its sides around its centre", "statement": "One ternary refinement of a surface with RefineGeometry adds one vertex at the centroid of every cell and replaces every cell by one triangle for each of its sides, made of that side and the new vertex, with the PID of the cell; the outline of triangles, quadrilaterals and polygons is kept. Old vertices keep id and position, the list of PIDs does not change, the result is again a surface in order, and n refinements give 3^(n-1) times the number of sides of the original cells.", "quantifier": "every surface in order, every number of refinements, every assignment of unused ids, every centroid function", "why_tests_cant": "Holds for meshes of any size, mixed element types, any number of repetitions.", "anchors": ["src/geohandlers/RefineGeometry.cpp: ternaryRefine, ternaryRefineCell, execute"]}
{"id": "C150", "title": "Red-green refinement of all triangles cuts each of them in four by the middles of its sides", "statement": "One red-green refinement of a surface of triangles with RefineGeometry ends, adds the middle of every side as a vertex, shared by the cells that share the interface there, and replaces every triangle by the four triangles of its corners and middles, with its PID and orientation. Old vertices keep id and position; the result is again a surface of triangles, so that n refinements give 4^n times as many triangles; the outcome is only one whatever the order in which marked cells are met.", "quantifier": "every surface of triangles, every number of refinements, every order of the hash table, every assignment of unused ids", "why_tests_cant": "Termination and exactness of a propagation with a queue over arbitrary meshes.", "anchors": ["src/geohandlers/RefineGeometry.cpp: redgreenRefine, redRefineCell, execute"]}
{"id": "C151", "title": "Red-green refinement of some cells leaves no hanging vertices", "statement": "Red-green refinement of any set of cells of a surface of triangles, in which at most two cells meet at a side, cuts exactly the sides that have to be: those of the chosen cells and, again and again, the third side of any triangle with two sides cut. Triangles with three cut sides become four, triangles with one become two, all others stay; a cell next to a cut side never spans it.", "quantifier": "every surface of triangles, every set of chosen cells, every order of the hash table", "why_tests_cant": "The set of cut sides is a least fixed point reached by propagation through arbitrary adjacency.", "anchors": ["src/geohandlers/RefineGeometry.cpp: redgreenRefine, redRefineCell, greenRefineCell"]}
{"id": "C152", "title": "Smoothing moves every vertex towards the mean of its neighbours, then back by the negative step", "statement": "Each smoothing step of RefineGeometry moves all vertices at once by 60% of the way to the mean of the vertices they share an edge with, then all at once by the negative coefficient -0.3618 in the same way, as documented to keep sharp edges. Cells, PIDs, ids and vertices without cells do not change; positions never leave the convex hull of the vertices in the positive step.", "quantifier": "every surface, every number of steps, every position of the vertices (real coordinates)", "why_tests_cant": "Statement over all meshes and real positions; the missing negative step is invisible to tests that only run it.", "anchors": ["src/geohandlers/RefineGeometry.cpp: smoothing", "src/geohandlers/RefineGeometry.hpp: class documentation"]}
{"id": "C153", "title": "RefineGeometry refines as often as set, then smooths, and its settings survive XML", "statement": "execute of RefineGeometry does nothing without a geometry, raises an exception on anything but a surface, leaves a surface with other cells than triangles as it is under the red-green method, and otherwise refines all cells as many times as set by the chosen method and then does the smoothing steps set, with one possible outcome. Methods other than 0 and 1 are refused, negative numbers count as 0, clear keeps the settings, and a block that reads the section written by another has its settings.", "quantifier": "every geometry, every setting, every section", "why_tests_cant": "Combination of all settings with all geometries, round trip over all values.", "anchors": ["src/geohandlers/RefineGeometry.cpp: constructors, setRefineType, setRefineSteps, setSmoothingSteps, clear, execute, absorbSectionXML, flushSectionXML, checkTriangulation"]}
{"id": "C154", "title": "The triangulator gives an independent triangulated copy, or triangulates the linked surface itself", "statement": "SurfaceTriangulator without WorkOnTarget leaves the linked surface and every other object as they are and gives a new object: the triangulation of the linked surface, triangles only, every piece with the PID of its cell, the PIDs in use with their names. With WorkOnTarget the linked surface itself becomes its triangulation and no other object changes. Without a geometry, or with a geometry that is no surface, execution stops with an exception and nothing linked is changed. Settings written to XML are read back.", "quantifier": "every surface of triangles, quadrilaterals, pixels and polygons, every other content of the memory, every sequence of settings", "why_tests_cant": "Independence of the copy and exactness of the pieces for meshes of any size.", "anchors": ["src/geohandlers/SurfaceTriangulator.cpp: execute, getGeometry, setGeometry, absorbSectionXML, flushSectionXML"]}
{"id": "C155", "title": "A selection by a box carries the scalar field of the geometry to the selected part", "statement": "SelectionByBoxWithScalar gives the selected part of the linked geometry as a new object and the field that was given, restricted to it: the field belongs to the part, keeps its location, and has the value it had at every selected cell or vertex of the part, and no other value. Fields of other geometries are refused with an exception. The linked geometry does not change.", "quantifier": "every geometry in good order, every selection, every field of the linked geometry", "why_tests_cant": "Holds for all meshes and selections, with merged vertices.", "anchors": ["src/geohandlers/SelectionByBoxWithScalar.cpp: execute, setField, clear", "src/geohandlers/GenericSelection.cpp: execute"]}
{"id": "C156", "title": "A selection by proximity selects the cells near to the given geometries", "statement": "SelectionByMapping selects the cells of the linked geometry that lie within the tolerance of at least one of the external geometries listed, as files or as objects, each cell once; with the dual option it selects exactly the other cells. The result is the part of the linked geometry made of these cells. Without a linked geometry, or when a listed file cannot be read, it ends with an exception.", "quantifier": "every linked geometry in good order, every list of files and objects, every tolerance", "why_tests_cant": "The selected set depends on every listed geometry and on the dual option together; tests show a few lists only.", "anchors": ["src/geohandlers/SelectionByMapping.cpp: extractSelection, getProximity, execute", "src/geohandlers/GenericSelection.cpp: execute"]}
{"id": "C157", "title": "A selection by proximity keeps the settings it was given", "statement": "The list of external files and of external geometries of SelectionByMapping holds what the calls put there: files whose type is allowed by the topology, once per path with the type first given; geometries of an allowed type; removals and clear take away what they name. The topology given at construction decides both the types allowed and the geometry that can be linked. A path to a file is split in its directory, its name and its type. Writing the settings in a section and constructing a block from it gives back topology, dual option, tolerance and files.", "quantifier": "every sequence of calls, every path, every setting and every order of the file sections", "why_tests_cant": "Sequences of calls and sections are unbounded; unit tests try a handful.", "anchors": ["src/geohandlers/SelectionByMapping.cpp: SelectionByMapping, setGeometry, addFile, setFiles, addMappingGeometry, removeFile, removeFiles, removeMappingGeometries, clear, extractInfo, absorbSectionXML, flushSectionXML"]}
{"id": "C158", "title": "The mesh checker reports a mesh as good exactly when every check passes", "statement": "MeshChecker reports a mesh as good exactly when every cell has a volume within the tolerances and is not too small with respect to its neighbours, and, for volume meshes, no interface is too skewed and the valid share of the faces of each cell is large enough. Otherwise the status is the failing check of highest priority, and the cells that fail a check are reported, with their vertices. Each execution judges the mesh linked at that time. Without a geometry it ends with an exception.", "quantifier": "every mesh in order, every tolerance within the range of its indicator, every execution", "why_tests_cant": "Indicators are accumulated over all cells and interfaces; tests cover single meshes executed once.", "anchors": ["src/utils/MeshChecker.cpp: execute, checkMeshQuality, checkVolume, checkSkewness, checkFaceValidity, plotOptionalResults"]}
{"id": "C159", "title": "The mesh checker keeps the tolerances it was given", "statement": "Each tolerance of MeshChecker has its documented default and changes only by its own setter or its own option; angles are given in degrees. Writing the settings in a section and reading them back gives the same tolerances. A copy has the settings, the geometry and the results of the original, and can be used in its place.", "quantifier": "every tolerance, every section", "why_tests_cant": "The units of each tolerance through setters, sections and copies hold for all values.", "anchors": ["src/utils/MeshChecker.cpp: setDefault, setGeometry, set*Tolerance, absorbSectionXML, flushSectionXML, MeshChecker(const MeshChecker&), operator="]}
{"id": "C160", "title": "The oriented bounding box contains the geometries and touches them on each side", "statement": "The axes given by OBBox form a right-handed orthonormal basis. The box along them contains every vertex of every geometry and no face of it can be moved inwards; a direction in which the geometries are flat is thickened symmetrically. If two vertices differ no side is zero. With the aligned strategy the axes are the reference ones; with the minimum volume strategy the box is the smaller of the other two. Without geometries the box is empty. Executing again changes nothing.", "quantifier": "every set of geometries with coordinates of sensible size, every strategy, every solver that gives orthonormal eigenvectors", "why_tests_cant": "The box holds for all vertices and all axes the solver can give.", "anchors": ["src/utils/OBBox.cpp: execute, computeOBB, computeAABB, adjustBasis, eigenVectors"]}
{"id": "C161", "title": "The oriented bounding box lies along the principal axes of the geometries", "statement": "The axes given by OBBox are the principal directions of the geometries, ordered from the largest spread to the smallest: of the surface, by area, for surfaces; of the points for clouds and curves. They do not depend on the order of the geometries, nor on where they are, and the box moves with them.", "quantifier": "every set of geometries, every order in which they are run through, every translation", "why_tests_cant": "It is a statement about integrals over arbitrary surfaces and about memory that is not set.", "anchors": ["src/utils/OBBox.cpp: evaluateElementsCovarianceMatrix, evaluatePointsCovarianceMatrix, assemblyMatrix, get3RepPoints, eigenVectors, adjustBasis"]}
{"id": "C162", "title": "The oriented bounding box keeps the settings it was given", "statement": "Each geometry given to OBBox is listed once, pointers to nothing and volume meshes are refused, and giving a list forgets the earlier ones. The strategy is the last one set; numbers out of range are clamped; the old flag selects between the aligned and the oriented strategy and is overridden by the number in a section. Writing the settings in a section and reading them back gives the same settings; a section of another class gives the initial ones.", "quantifier": "every sequence of geometries, every section", "why_tests_cant": "The rules hold for every combination of options.", "anchors": ["src/utils/OBBox.cpp: setGeometry, setGeometries, setOBBStrategy, setOBBStrategyInt, setForceAABB, isForcedAABB, clearOBBox, absorbSectionXML, flushSectionXML"]}
{"id": "C163", "title": "Displacement files are read row by row and survive a write/read round trip up to the printed precision", "statement": "GenericDispls in read mode returns, for every text file, exactly the rows whose first word is $DISPL, in file order, each with its label and its three numbers, whatever blanks separate the words and whether or not the last line ends with a newline; all other lines are passed over. A list written by the block is read back with the same labels and with the numbers as printed. A missing file raises an exception. Violated in part: numbers are printed with six significant digits, so some displacements change in a round trip; a template is read back, without any sign of it, as zero displacements; a first row with nothing after the keyword makes the block use an unset label, a later one repeats the label of the row before it.", "quantifier": "for all files, rows, blanks, labels in the range of long, displacements and number formats", "why_tests_cant": "Tests read a few well formed files; they cannot cover all spacings, comment lines and missing line ends, nor show that no reading of an unset variable occurs.", "anchors": ["src/iogeneric/GenericDispls.cpp:383-446", "src/iogeneric/GenericDispls.cpp:451-512", "src/iogeneric/GenericDispls.hpp:40-65"]}
{"id": "C164", "title": "Labels, modes and settings of displacement files", "statement": "When GenericDispls writes, every displacement has a label: labels given by the user are kept in order, labels beyond the number of displacements are dropped, missing ones are filled with new positive labels different from each other and from all given ones. Setters of one mode do nothing in the other. Writing changes only the file dir/filename. The XML section written by a block builds a block with the same mode, directory, file name and, in write mode, number and template flag. Violated in part: labels given twice are written twice; setNDispl changes the number although displacements are present, and the number has no effect on the file; a template takes the place of the data file (the name with TEMPLATE_ is not used); an empty IOmode option cannot be absorbed.", "quantifier": "for all labels, displacements, settings, files and XML sections", "why_tests_cant": "Tests use one set of labels and one section; uniqueness and independence of all settings are claims about all of them.", "anchors": ["src/iogeneric/GenericDispls.cpp:168-262", "src/iogeneric/GenericDispls.cpp:282-378", "src/iogeneric/GenericDispls.cpp:451-512"]}
{"id": "C165", "title": "Point cloud files are read as written: points by label, fields at their points", "statement": "IOCloudPoints in read mode builds, from every text file, a cloud with one vertex for each $POINT row, in file order, with the label of the row as id and its three numbers as coordinates, and a scalar and a vector field whose values are those of the $SCALARF and $VECTORF rows, each at the point with the label of the row; points without a row get zero; all other lines are passed over; a missing file raises an exception. Violated in part: the values are stored under the position of the point in the file and not under its id, so that they are at the right point only if the labels are 0, 1, 2, ... in order; a row with an unknown label gives its value to the first point of the file; points without a row have no value at all; a second value for a point raises an exception; a first scalar row without a number makes the block use an unset variable.", "quantifier": "for all files, rows, blanks, labels in the range of long that are not negative, numbers and number formats", "why_tests_cant": "Tests read one file whose labels happen to be 0, 1, 2, ...; they cannot show what happens with other labels, spacings or missing rows.", "anchors": ["src/iogeneric/IOCloudPoints.cpp:383-507", "src/iogeneric/IOCloudPoints.hpp:40-80"]}
{"id": "C166", "title": "Point clouds survive a write/read round trip; settings of the block", "statement": "A cloud with fields that IOCloudPoints writes is read back with the same labels, the coordinates as they are printed, and for every point the value of every nonempty field as it is printed, zero where the field had none. Writing changes only the file dir/filename. Setters of one mode do nothing in the other; a geometry that is not a cloud is ignored; a copy of a block behaves like the original; the XML section written by a block builds a block with the same settings. Violated in part: the values come back at the position of the point and not at its id; a template takes the place of the data file (the name with TEMPLATE_ is not used); a field with a value at an id outside of the cloud is not completed; a copy loses the fields; execution without a geometry and setters given a null pointer use it; an empty IOmode option cannot be absorbed.", "quantifier": "for all clouds, fields, labels in the range of long, number formats, settings, files and XML sections", "why_tests_cant": "A round trip of one cloud with ids 0, 1, 2, ... passes although the values of clouds with other ids move to other points.", "anchors": ["src/iogeneric/IOCloudPoints.cpp:76-98", "src/iogeneric/IOCloudPoints.cpp:156-353", "src/iogeneric/IOCloudPoints.cpp:512-600"]}
{"id": "C167", "title": "Numbers, arrays and vectors in CSV files are read as they were written", "statement": "What GenericOutput writes in CSV mode GenericInput in CSV mode reads back: a number, an array, a vector of numbers, a vector of arrays, with floating point numbers as they are printed; empty vectors as empty vectors; white space before numbers and at the end of the file does not matter. Violated in part: a vector of numbers loses its last value, and a single number leaves the variable unset, because the reader accepts a value only if a separator follows it and the writer puts none after the last.", "quantifier": "for all numbers in the range of their type, number formats, arrays, vectors of any length and white space", "why_tests_cant": "A round trip in a test needs a separator at the end of the file, which the writer never writes; one value says nothing of other lengths.", "anchors": ["src/iogeneric/GenericInput.tpp:33-125", "src/iogeneric/GenericOutput.tpp:33-120", "src/iogeneric/GenericInput.tpp:321-351"]}
{"id": "C168", "title": "Fields in files are read as they were written", "statement": "A field that GenericOutputMPVData writes is read by GenericInputMPVData with the same directory, file and mode: the same name, location, ids in order and values, as CSV table and in binary form; the CSV mode overrides the binary one; only that file is written; a missing file raises an exception; with a geometry exactly the values of its entities are kept. Violated in part: a field without values is written as an empty file and loses name and location; a name of several words loses all values without a sign; a field without a name shifts the rows by one, which gives an empty field or uses an unset variable; CSV takes locations that do not exist; the binary form always loses the name; with a geometry the name becomes the default one and an undefined location loses all values.", "quantifier": "for all fields, names, locations in the range of int, ids in the range of long, number formats, binary formats that read what they write, geometries and files", "why_tests_cant": "Tests write a field with a one-word name and look at its values; they do not compare names, nor try empty fields or names with blanks.", "anchors": ["src/iogeneric/GenericInput.tpp:127-202", "src/iogeneric/GenericInput.tpp:404-513", "src/iogeneric/GenericOutput.tpp:122-148", "src/iogeneric/GenericOutput.tpp:226-275"]}
{"id": "C169", "title": "Generic input and output blocks: values, files, copies and XML sections", "statement": "GenericInput gives the value it was given last or, when it reads a file, the value in the file dir/filename; a missing file raises an exception; GenericOutput writes its value to dir/filename and no other file, and a GenericInput with the same directory, file and mode gives that value; a cleared value is gone; a copy behaves like the original; sections written by these blocks and by the blocks for fields build blocks with the same settings. Violated in part: asked for its value without having one, or after being copied without a file, a block uses a null pointer; after clearInput the value is still given; the directory and file of an input that does not read a file are written to the section but not taken from it.", "quantifier": "for all value types, readers and writers, settings, files and XML sections", "why_tests_cant": "Unit tests set a value and read it once; they cannot show that no history of settings gives another value or that every section is taken up.", "anchors": ["src/iogeneric/GenericInput.cpp:36-258", "src/iogeneric/GenericInput.tpp:207-351", "src/iogeneric/GenericOutput.cpp:34-220", "src/iogeneric/GenericOutput.tpp:168-199", "src/iogeneric/GenericInput.cpp:266-475", "src/iogeneric/GenericOutput.cpp:230-432"]}
{"id": "C170", "title": "The gradient stencil of a cell is the weighted least squares gradient", "statement": "The gradient stencil computed at the centre of a cell from its neighbours gives, for every field, the gradient that fits the differences to the neighbours best in the weighted least squares sense; it is exact for linear fields and zero for constants; it exists unless the neighbours lie in a degenerate position. Violated in part: directions in which all neighbours are offset by less than 1e-12 are dropped, so that on a small mesh the gradient of a linear field loses components; when the neighbours lie in a plane that is not one of the coordinate planes no stencil is defined at all.", "quantifier": "for all cells, positions, neighbours and fields over the reals", "why_tests_cant": "A test compares the gradient on one grid with a tolerance; a grid aligned to the axes never meets the degenerate planes.", "anchors": ["src/propagators/StencilFunctions.cpp:43-113", "src/propagators/StencilFunctions.cpp:149-187"]}
{"id": "C171", "title": "Gradients at interfaces and boundary corrections are consistent", "statement": "The gradient stencil at an interface is along the interface the mean of those of the two cells, and across it the difference of the extrapolated values at two symmetric points on the normal over their distance; it is exact for linear fields; at a border the stencil has zero normal derivative, with the Neumann correction the given one, and with the Dirichlet correction the difference to the given value over the distance.", "quantifier": "for all cells, interfaces with unit normals, stencils and fields over the reals", "why_tests_cant": "One mesh with one field does not show that every combination of cells and normals is consistent.", "anchors": ["src/propagators/StencilFunctions.cpp:308-365", "src/propagators/StencilFunctions.cpp:386-394", "src/propagators/StencilFunctions.cpp:412-418", "src/propagators/StencilFunctions.cpp:448-475"]}
{"id": "C172", "title": "The finite volume Laplacian is the flux balance of each cell and conserves", "statement": "The finite volume Laplacian stencil of a cell evaluates to the sum of the fluxes of the diffused gradient out of the cell over its volume; constants have a zero Laplacian, linear fields as well at cells whose interfaces close; the sum of the Laplacians times the volumes is the flux through the border. Violated in part: stencils are given also at cells of which only some interfaces are listed, where the documentation promises none, and are not zero for linear fields.", "quantifier": "for all meshes, interface stencils, diffusivities and fields over the reals", "why_tests_cant": "Conservation is a statement about all cells and fields at once.", "anchors": ["src/propagators/StencilFunctions.cpp:496-573"]}
{"id": "C173", "title": "The graph Laplacian weighs neighbours by diffusivity over squared distance", "statement": "Exactly the requested points have a graph Laplacian stencil; its weights are −1 for the point and, for the neighbours, positive numbers that sum to 1 in proportion to diffusivity over squared distance; it is zero exactly at a weighted mean, so that constants have a zero Laplacian and maxima and minima cannot be strict. Violated in part: a point without neighbours has no nonzero weight, its value stays undetermined.", "quantifier": "for all points at different positions, positive diffusivities, neighbourhoods and fields over the reals", "why_tests_cant": "A test sees the weights of one mesh; the maximum principle is about all fields.", "anchors": ["src/propagators/StencilFunctions.cpp:594-672"]}
{"id": "C174", "title": "Propagation of a scalar field has exactly one bounded result", "statement": "PropagateScalarField gives the values of the patches at their points, and at every other point the value in balance with its neighbours (weighted by diffusivity over squared distance, relaxed in the narrow band). On a mesh from every point of which a patch can be reached there is exactly one such field; it lies between the smallest and the largest given value, is monotone in the given values, and is constant for equal values; the number of steps has no effect. Violated in part: a relaxation of zero, which the setter takes, leaves points free; without any patch only a warning is given and every constant solves the system.", "quantifier": "for all point sets, neighbourhoods, diffusivities, bands, relaxations in (0,1], conditions and numbers of steps, the solver of the linear system being exact", "why_tests_cant": "Existence, uniqueness and bounds hold over all meshes and conditions; a test runs one mesh with one solver.", "anchors": ["src/propagators/PropagateField.tpp:870-941", "src/propagators/PropagateField.tpp:954-1015", "src/propagators/PropagateField.tpp:1090-1140", "src/propagators/PropagateField.cpp:239-345"]}
{"id": "C175", "title": "Damping of the diffusivity falls from the inner to the outer distance", "statement": "With 0 < inner distance < outer distance and positive decay, damping by distance makes the diffusivity (outer / max distance inner)^decay: largest within the inner distance, falling, 1 at the outer one; damping by volume makes it (1 + (largest − smallest volume)/volume)^share with a share of 1 within the inner distance and 0 at the outer one, so between 1 and that base. Violated in part: the default inner distance 0 divides by zero at every distance; a decay of 0 divides zero by zero beyond the inner distance.", "quantifier": "for all distances, radii, decays and volumes over the reals", "why_tests_cant": "Tests run with one set of distances, always with a positive inner one.", "anchors": ["src/propagators/PropagateField.tpp:739-846"]}
{"id": "C176", "title": "Given values are distributed to exactly the points of the patches", "statement": "The conditions are given at exactly the points of the patches: at a point of patches with fields the value of one of the fields, zero where that field has none; zero at points whose patches have no field; where the fields that cover a point agree, the order of fields and patches does not matter. Violated in part: where patches with different values meet, or two fields belong to one patch, the value depends on the order of an unordered set of pointers; the scalar block keeps pointers into a vector that moves, so that the fields added before become invalid once more are added than its buffer holds (with the usual libraries the second).", "quantifier": "for all patches, fields, orders and growth policies of the library", "why_tests_cant": "The order of the set of pointers depends on addresses and differs between runs; a freed buffer often still holds its contents.", "anchors": ["src/propagators/PropagateField.tpp:632-673", "src/propagators/PropagateField.cpp:138-153", "src/propagators/PropagateField.hpp:118-146"]}
{"id": "C177", "title": "Settings of the propagation blocks are in range and survive XML", "statement": "The setters of the propagation blocks leave tolerance, threshold, band width, relaxation, damping type and number of steps in range and keep values in range; settings written to an XML section and read by a fresh block keep the switches, the type and the number of steps, and every number up to six decimals while its feature is on. Violated in part: numbers have six decimals, so that the default tolerance 1e-12 is read as the smallest normal number; the default thresholds, −1 for scalars and 1e-8 for vectors, are read as that number too; the numbers of features that are off are lost.", "quantifier": "for all settings that the setters can leave", "why_tests_cant": "A test writes round numbers; the default tolerance is never looked at after reading.", "anchors": ["src/propagators/PropagateField.tpp:369-557", "src/propagators/PropagateField.cpp:159-200"]}
{"id": "C178", "title": "One step of vector propagation meets the given, periodic and slip conditions", "statement": "A step of PropagateVectorField gives the displacements of the patches at their points, zero at periodic points without one, and at slip points without either the value that brings the point, moved by a first solution, back onto the slip surface; every other point is in balance with its neighbours. On a mesh from every point of which a condition can be reached there is exactly one such field; without slip each component lies within the given values. With one plane the slip points end on it, and the plane of a flat slip surface is that surface. Violated in part: with forced planar slip a curved surface is replaced by a plane through none of its points; opposite normals cancel and slip points are not corrected; with a reference surface having another number of points than the slip surface the correction reads outside its vector; slip surfaces taken as references at the first execution stay references of later ones; one foreign point in any patch drops all slip and periodic conditions with only a warning.", "quantifier": "for all point sets, neighbourhoods, dampings, bands, conditions, planes, projections and guesses, the solver of the linear systems being exact", "why_tests_cant": "Priority of conditions, uniqueness and bounds hold over all meshes and conditions; a test runs one mesh on which the surfaces are flat and match.", "anchors": ["src/propagators/PropagateField.cpp:663-705", "src/propagators/PropagateField.cpp:856-1078", "src/propagators/PropagateField.cpp:1084-1292"]}
{"id": "C179", "title": "Vector propagation in several steps applies the given displacement and restores the mesh", "statement": "With any positive number of steps the field of PropagateVectorField has at each point of a patch exactly the given displacement, zero at periodic points, and leaves slip points on their plane; the mesh is left at its original positions. Between steps the stencils are recomputed so that they are those of the moved mesh where only points that move beyond the threshold move and the damping near them is unchanged elsewhere. Violated in part: displacements up to the threshold leave all stencils those of the old positions, however large they are against the spacing of the points; where no point moves the stencils keep the old damping.", "quantifier": "for all numbers of steps, point sets, conditions, thresholds and dampings", "why_tests_cant": "An error between steps shows as a slightly different inner field; a test compares boundary values of two or three steps.", "anchors": ["src/propagators/PropagateField.cpp:711-786", "src/propagators/PropagateField.cpp:817-831", "src/propagators/PropagateField.cpp:1193-1271", "src/propagators/PropagateField.tpp:1221-1229"]}
{"id": "C180", "title": "The boundary mesh of a mesh has its border faces, and nothing else", "statement": "The boundary mesh extracted from a volume or surface mesh has one cell for each face (edge) that belongs to one cell only, with the vertices and the PID of that cell, has the vertices of these faces at their coordinates and no other, and has the type that fits (surface for volumes, curve for surfaces); the lists of border faces, cells and vertices agree with it; the border of a set of cells whose faces are all shared is empty. For other types nothing is extracted.", "quantifier": "for all meshes whose faces have at least one vertex, with any face topology in which faces have the vertices of their cells", "why_tests_cant": "Which faces are shared is decided by vertex sets over all pairs of cells; a test looks at one cube or one plane.", "anchors": ["src/core/MimmoObject.cpp:2719-2997"]}
{"id": "C181", "title": "Selections of bulk and boundary take the selected cells of both meshes", "statement": "The bulk patch of the FV selection blocks is exactly the part of the bulk mesh that the engine selects; the boundary patch has exactly the selected cells of the boundary mesh all of whose vertices are in the bulk patch, with their vertices; a warning comes exactly if boundary and bulk do not fit; without a mesh or an engine execution throws. Border faces of the bulk mesh stay border faces of the bulk patch. Violated in part: cells of the boundary patch can be faces of no selected bulk cell, when their vertices belong to different selected cells; PIDs of boundary cells that were taken away stay in the list of PIDs of the patch.", "quantifier": "for all bulk and boundary meshes, engines and face topologies", "why_tests_cant": "A test checks that execution succeeds on a box; the cells between two selected ones appear only on particular meshes.", "anchors": ["src/geohandlers/FVGenericSelection.cpp:223-309", "src/geohandlers/FVGenericSelection.cpp:382-418"]}
{"id": "C182", "title": "The internal boundary closes the bulk patch where the selection cuts", "statement": "The internal boundary of the FV selection blocks consists of border faces of the bulk patch with at least one vertex off the boundary patch; it shares no cell with the boundary patch, and with a region it has no face of the border of the bulk mesh; it is all of the rest of the border if no cut face has all its vertices on the boundary patch. Violated in part: cut faces whose vertices are all on the boundary patch are missing, so that on one layer of cells the internal boundary is empty; with an engine that selects the complement of a region, faces of the original border appear in the internal boundary; the list of PIDs is not updated.", "quantifier": "for all bulk and boundary meshes, engines and face topologies", "why_tests_cant": "Whether bulk patch, boundary patch and internal boundary form a closed set depends on the position of each cut vertex; a test with one box shows one cut.", "anchors": ["src/geohandlers/FVGenericSelection.cpp:316-352"]}
{"id": "C183", "title": "Settings of the selections of bulk and boundary", "statement": "However it is configured or copied, an FV selection block works on the last volume and surface given (on the last surface and curve for topology 2) and ignores meshes of other types; blocks made with a shape select with that shape; topology and option of the complement survive XML; the option of the complement inverts the selection; copies are independent; an empty topology is read as the default. Violated in part: the option of the complement changes nothing; a copy shares its shape with the original; a block made with a sphere selects with the cylinder of the same parameters; an empty topology makes the constructor from XML throw.", "quantifier": "for all sequences of calls, meshes, shapes and sections", "why_tests_cant": "Tests never copy a block, never use the option and never use the constructor with a sphere; the sequences of calls are unbounded.", "anchors": ["src/geohandlers/FVGenericSelection.cpp:38-149", "src/geohandlers/FVSelectionByBox.cpp:47-191", "src/geohandlers/FVSelectionBySphere.cpp:80-90", "src/geohandlers/FVSelectionByCylinder.cpp:80-92"]}
{"id": "C184", "title": "Points chosen from candidates are spread and as many as wanted", "statement": "With the random and the grid engine, the points distributed on a surface are as many as wanted, are candidates, and are pairwise further apart (in the distances modulated by the sensitivity) than the minimum distance reported, while no candidate is much further than that from the points; each point has the best score (mean distance from those before, divided by its evenness) among the candidates that are far enough. Without sensitivity the first is the candidate nearest to the seed and the distances are those in space. Execution always ends. Violated in part: it ends only if there are more distinct candidates than points wanted, so that one or two points with the grid engine hang on every surface; points where the sensitivity is zero all count as one.", "quantifier": "for all candidates, sensitivities, seeds and numbers of points", "why_tests_cant": "Which candidates are left depends on all distances; a run that never ends is not observed by a test, and the tests use one plane.", "anchors": ["src/utils/CreateSeedsOnSurface.cpp:568-976"]}
{"id": "C185", "title": "The distance at a vertex is the least over the opposite edge", "statement": "In the level set engine, the distance that a triangle with two finished vertices gives to the third is the least, over the points of the opposite edge, of the linearly interpolated distance plus the length of the segment to the vertex, or the value it had if that is less. Violated in part: for edges shorter than a thousandth (in whatever unit) only the two ends are considered, so that distances on fine meshes are overestimated; in a gap between two tolerances nothing is updated.", "quantifier": "for all triangles in space and all values that differ by no more than the length of the edge", "why_tests_cant": "The minimum is over a continuum of points; the loss for small triangles depends on the unit of the mesh, and a test uses one.", "anchors": ["src/utils/CreateSeedsOnSurface.cpp:994-1161"]}
{"id": "C186", "title": "The distance field of the level set engine is bounded by distances", "statement": "The march from the starting vertices ends after at most as many steps as vertices, gives a value exactly to the vertices linked to them by edges (all others keep the largest number) and zero to the starting ones; no value is less than the distance in space from a single starting vertex, and in general than any convex function that grows no faster than the distance and is not positive at the starting ones; no value exceeds the length of a way along edges; neighbours of a single starting vertex get their distance.", "quantifier": "for all triangulations, starting vertices and orders of extraction; the upper bound for triangulations without obtuse angles, away from the gap of C185", "why_tests_cant": "The values depend on the order of extraction over the whole mesh; tests compare nothing with a distance.", "anchors": ["src/utils/CreateSeedsOnSurface.cpp:1175-1381"]}
{"id": "C187", "title": "The level set engine takes the farthest vertices", "statement": "The level set engine gives as many points as wanted: distinct vertices, the first one nearest to the seed, each further one a vertex where distance from those before times sensitivity is greatest. Without sensitivity, no vertex is further from the points than two of the points are from each other. The minimum distance reported is the least distance of two points. Violated in part: when no vertex with positive value is left, the vertex with number 0 is taken again and again, or execution fails if there is none; with no points wanted there still is one.", "quantifier": "for all meshes, distances, sensitivities and numbers of points", "why_tests_cant": "The claims are over all choices of points and vertices; running out of vertices happens only on meshes with fewer vertices than points or with zones without sensitivity.", "anchors": ["src/utils/CreateSeedsOnSurface.cpp:442-557"]}
{"id": "C188", "title": "Sensitivity and settings of the distribution of points", "statement": "The sensitivity is scaled to the unit interval keeping its order, with zero at the least and one at the greatest value, and is one everywhere if it does not vary. The number of points is never negative, the engine always one of the three. A fixed random pattern uses the given signature. Settings written to a section and read back are the same. Violated in part: the documented option RandomSignature is never read; with the random engine, the signature is written as the switch that fixes the pattern, so that it is lost and patterns not fixed come back as fixed (or fixed ones with signature 0 as not fixed).", "quantifier": "for all fields, sequences of calls and sections", "why_tests_cant": "Whether a setting survives a round trip depends on all combinations of settings; the tests read no section of this block.", "anchors": ["src/utils/CreateSeedsOnSurface.cpp:245-330", "src/utils/CreateSeedsOnSurface.cpp:1389-1553"]}
{"id": "C189", "title": "The points of an OBJ file are all read, in order", "statement": "Reading an OBJ file gives the vertices, texture coordinates and normals of the v, vt and vn lines, all of them, in the order of the file. Violated in part: only when each object lists its v, vt and vn lines in this order in one block each, directly followed by something that is not an empty line; an empty line after the points stops the reading with an error, comments between the points, normals before textures or points before the first object line lose or mistake points.", "quantifier": "for all files, options and numbers of objects", "why_tests_cant": "The result depends on the order of the lines; the tests read files written by one program.", "anchors": ["src/iogeneric/IOWavefrontOBJ.cpp:1601-1665", "src/iogeneric/IOWavefrontOBJ.cpp:2131-2440"]}
{"id": "C190", "title": "The facets of an OBJ file refer to the right points", "statement": "Every facet line with at least three corners gives one cell, in the order of the file, whose vertices, textures and normals are those the numbers stand for, counted from one over the whole file or, when negative, back from the last point read. Violated in part: facets without textures and normals lose their last corner unless a blank ends the line (quadrilaterals become triangles, triangles disappear); within an object all facets are taken for the form of the first.", "quantifier": "for all files, all facets, positive and negative numbers", "why_tests_cant": "The wrong connectivity is still a valid mesh; it needs a file whose lines end without blanks.", "anchors": ["src/iogeneric/IOWavefrontOBJ.cpp:2328-2399", "src/iogeneric/IOWavefrontOBJ.cpp:2705-2717"]}
{"id": "C191", "title": "The attributes of the facets of an OBJ file are the last ones said", "statement": "A cell read from an OBJ file has the object, the material, the group and the smoothing group that the last o, usemtl, g and s lines before its facet say; groups are dropped on request. Violated in part: material and smoothing group are forgotten at each new object; a material without a name leaves the one before; only the first word of a name is kept; a group called as its object counts as none.", "quantifier": "for all files, all facets", "why_tests_cant": "It needs files where attributes last over objects, or names with blanks.", "anchors": ["src/iogeneric/IOWavefrontOBJ.cpp:2400-2432"]}
{"id": "C192", "title": "OBJ files without textures or normals can be read", "statement": "An OBJ file without texture coordinates or without normals, which are optional in the format, can be read. Violated: reading one follows a null pointer after everything has been read; with both present reading succeeds.", "quantifier": "for all files in the order the class asks for", "why_tests_cant": "The tests read a file which has both.", "anchors": ["src/iogeneric/IOWavefrontOBJ.cpp:1707-1714", "src/iogeneric/IOWavefrontOBJ.cpp:1850-1858"]}
{"id": "C193", "title": "Written OBJ files hold every cell and every vertex once", "statement": "Writing a mesh to an OBJ file writes one facet for every cell of its parts and no others, whose numbers stand for the points, textures and normals of its corners; the points are those of the vertices used, each one once even when parts share it.", "quantifier": "for all meshes, textures, normals, parts, names and orders of the vertices", "why_tests_cant": "The indices depend on all objects written before; shared vertices only show with several parts.", "anchors": ["src/iogeneric/IOWavefrontOBJ.cpp:1864-1963", "src/iogeneric/IOWavefrontOBJ.cpp:2467-2597"]}
{"id": "C194", "title": "An OBJ file which was written can be read again", "statement": "A mesh written to an OBJ file and read again has the same cells, with their corners at the same points up to the digits written, with the same textures and normals, in the same parts. Violated in part: without textures or normals the file cannot be read; textures written with two coordinates come back with a third equal to the second; cells come in another order and with other ids.", "quantifier": "for all meshes with cells of at least three vertices", "why_tests_cant": "A round trip over all meshes, numbers of parts and kinds of data cannot be sampled.", "anchors": ["src/iogeneric/IOWavefrontOBJ.cpp:1601-1963", "src/iogeneric/IOWavefrontOBJ.cpp:2131-2597"]}
{"id": "C195", "title": "The lists of materials and groups number the names in use", "statement": "Each material or group in use has a number and no other name has one, two names never share a number, zero is the empty name and only that, and the number gives back its name; regrouping cells by group and material keeps every cell once.", "quantifier": "for all lists of names and of cells", "why_tests_cant": "The numbers depend on the order in which names appear first.", "anchors": ["src/iogeneric/IOWavefrontOBJ.cpp:75-131", "src/iogeneric/IOWavefrontOBJ.cpp:2606-2628"]}
{"id": "C196", "title": "Groups, materials and smoothing groups survive an OBJ file", "statement": "The group, material and smoothing group of each cell are the same after writing an OBJ file and reading it. Violated in part: groups survive when they are single words other than the name of the object; the second part of a mesh loses material and smoothing group when they are those of the last cell of the first part; a cell without material gets that of the cell before in another group.", "quantifier": "for all meshes; materials and smoothing groups for one part", "why_tests_cant": "It depends on the order in which cells are written, by number of the group and of the material.", "anchors": ["src/iogeneric/IOWavefrontOBJ.cpp:2400-2432", "src/iogeneric/IOWavefrontOBJ.cpp:2510-2628"]}
{"id": "C197", "title": "Annotations name the groups of cells as the strategy says", "statement": "After executing the block which manipulates OBJ data, the group of a cell is the last annotation which holds it (HARD), the old group or else the first annotation (SOFT), the old group and all annotations with blanks in between (GETALL) or without (GETALLNOBLANKS); other cells keep their groups, and executing twice changes nothing more. Violated in part: GETALL adds the names again at each execution; GETALLNOBLANKS leaves out names found inside the group (wing inside wingtip) so that the result depends on the order.", "quantifier": "for all cells, groups and lists of annotations", "why_tests_cant": "Overlapping annotations and repeated executions have too many combinations to sample.", "anchors": ["src/iogeneric/IOWavefrontOBJ.cpp:481-485", "src/iogeneric/IOWavefrontOBJ.cpp:806-860"]}
{"id": "C198", "title": "Pinned lists hold exactly the cells asked for", "statement": "The lists of cells pinned by material, group, smoothing group and object hold exactly the cells with one of the names asked for. Violated in part: a group is also pinned when its name only contains the one asked for, and an empty name pins all; of objects with the same name only one is pinned; without geometry a null pointer is followed after the warning.", "quantifier": "for all data, geometries and names", "why_tests_cant": "It takes names which contain each other, or are repeated.", "anchors": ["src/iogeneric/IOWavefrontOBJ.cpp:984-1052"]}
{"id": "C199", "title": "Normals computed for OBJ data have length one", "statement": "The normals recomputed at the vertices have length one and, with the check of magnitudes on, every nonzero normal has length one after execution. Violated: weighted averages are never longer but are shorter whenever the normals around a vertex differ, zero for opposite ones, and the check comes before the computation; normals which are not recomputed are fixed without changing direction.", "quantifier": "for all weights and normals in any number", "why_tests_cant": "Lengths depend on real numbers; the tests do not look at them.", "anchors": ["src/iogeneric/IOWavefrontOBJ.cpp:764-801", "src/iogeneric/IOWavefrontOBJ.cpp:1064-1127"]}
{"id": "C200", "title": "Settings of the manipulation of OBJ data survive a section", "statement": "Settings written to an XML section and read by another block are the same, and modes read are always valid. Violated in part: the strategy GETALLNOBLANKS comes back as GETALL; an empty list of pinned smoothing groups comes back with a number that was never set; names with blanks come back as several.", "quantifier": "for all settings and sections", "why_tests_cant": "The values read from memory which was not set differ from run to run.", "anchors": ["src/iogeneric/IOWavefrontOBJ.cpp:625-759"]}
{"id": "C201", "title": "A mesh written as ASCII VTU is read back as it was", "statement": "Writing a mesh as an ASCII VTU file and reading the file gives the same cells (ids, types, vertices, PIDs, in the same order), polygons and polyhedra included, and the same vertices with their ids and the coordinates which were printed. Violated in part: vertices which belong to no cell are lost.", "quantifier": "for all meshes with any mixture of cell types and any ids", "why_tests_cant": "Meshes, numberings and mixtures of cells are without number; a test compares one.", "anchors": ["src/core/VTUGridWriterASCII.cpp:60-216", "src/core/VTUGridWriterASCII.cpp:226-307", "src/core/VTUGridReader.cpp:74-342"]}
{"id": "C202", "title": "Vertices and cells read from a VTU file keep the labels and PIDs of the file", "statement": "Of any VTU file which is read, the vertices are the points in order and the cells are as many as the offsets, with the types of the file; the ids are the labels of the file when they are as many as the items and all different and the positions when they are missing or repeated; the PIDs are those of the file, zero when missing.", "quantifier": "for all files which are read", "why_tests_cant": "Files of other programs have any labels, or none.", "anchors": ["src/core/VTUGridReader.cpp:238-255", "src/core/VTUGridReader.cpp:257-341"]}
{"id": "C203", "title": "Cells read from a VTU file only have vertices of the mesh", "statement": "When reading a VTU file succeeds every vertex of every cell is a vertex of the mesh, and a file which is cut short is refused. Violated in part: an index which is not that of a point becomes the id zero without complaint; with fewer types than cells, or offsets beyond the connectivity, memory beyond the end of a vector is read.", "quantifier": "for all files which are read", "why_tests_cant": "It takes damaged files, each damaged in its own way.", "anchors": ["src/core/VTUGridReader.cpp:211-227", "src/core/VTUGridReader.cpp:246-255", "src/core/VTUGridReader.cpp:280-325"]}
{"id": "C204", "title": "Polyhedra of VTU files in the convention of VTK are read", "statement": "A VTU file in the convention of VTK, where cells which are not polyhedra have no face entries and the offset -1, gives the same mesh as the file written by the library. Violated in part: the file is refused when the array of the faces has fewer entries than there are cells, that is when few cells are polyhedra.", "quantifier": "for all meshes", "why_tests_cant": "It takes a mesh with one polyhedron among many other cells.", "anchors": ["src/core/VTUGridReader.cpp:262", "src/core/VTUGridReader.cpp:288-307", "src/core/VTUGridReader.cpp:337-339"]}
{"id": "C205", "title": "What is read from a VTU file does not depend on files read before", "statement": "Reading a VTU file gives the same mesh whatever was read before. Violated in part: a streamer used again keeps the arrays which are not in the new file, so that cells get the PIDs or labels of the file before.", "quantifier": "for all files with every array, and all states of the streamer", "why_tests_cant": "It takes sequences of files with different arrays.", "anchors": ["src/core/VTUGridReader.cpp:74-201", "src/core/VTUGridReader.cpp:466-528"]}
{"id": "C206", "title": "VTU files with unsupported cells or without connectivity are refused", "statement": "Exactly twelve VTK cell types are understood, each as the type of the same name; a file with a cell of another type, or with fewer connectivity entries than cells, is refused.", "quantifier": "for all files", "why_tests_cant": "Types are arbitrary integers at arbitrary positions.", "anchors": ["src/core/VTUGridReader.cpp:97-150", "src/core/VTUGridReader.cpp:211-227"]}
{"id": "C207", "title": "The ASCII VTU files written are well formed", "statement": "In every file written the declared counts are the numbers of entries written, indices refer to written points, offsets never decrease and end with the length of the connectivity, and there is one label for every point and one label and one PID for every cell.", "quantifier": "for all meshes which are written", "why_tests_cant": "Meshes are without number, with isolated vertices, polygons and polyhedra.", "anchors": ["src/core/VTUGridWriterASCII.cpp:60-216", "src/core/VTUGridWriterASCII.cpp:243-297"]}
{"id": "C208", "title": "The executable mimmo++ obeys the options of its help", "statement": "Called with options of its help (long or short spelling, each at most once, a dictionary among them) in any order, mimmo++ runs the dictionary given with the verbosities, the path and the flags given, and the documented defaults for the others. Violated in part: an argument which is no option is taken for the dictionary, and an option name inside a value is taken for the option.", "quantifier": "for all lists of arguments and all orders in which the set of the arguments is visited", "why_tests_cant": "The combinations of options and values are without number, and the visiting order of the set depends on the library.", "anchors": ["binaries/mimmo++.cpp:98-225"]}
{"id": "C209", "title": "What mimmo++ does does not depend on the order of its arguments", "statement": "Permuting the arguments, or changing the implementation of the unordered set which holds them, does not change what mimmo++ does; the help is shown whenever it is asked for. Violated in part: of two values of the same option an unspecified one is chosen.", "quantifier": "for all lists of arguments, all permutations and all visiting orders", "why_tests_cant": "A test sees the one visiting order of its library.", "anchors": ["binaries/mimmo++.cpp:111-115", "binaries/mimmo++.cpp:183-196"]}
{"id": "C210", "title": "Every section of the Blocks of a dictionary gives one block", "statement": "Each section of Blocks with a registered ClassName gives the block of its name; sections of other classes give none. Violated in part: of sections with the same name only the last one gives a block, though the dictionary is read with repeated sections allowed.", "quantifier": "for all dictionaries and all sets of registered classes", "why_tests_cant": "Dictionaries are without number.", "anchors": ["binaries/mimmo++.cpp:239-282", "binaries/mimmo++.cpp:363"]}
{"id": "C211", "title": "The workflow of a dictionary executes every block once, suppliers first", "statement": "On a network without cycles mimmo++ executes every block of the dictionary exactly once, in the order of the priorities and the suppliers before the receivers, up to the first block which fails. Violated in part: a supplier with a lower priority than its receiver is executed after it, without any message.", "quantifier": "for all networks without cycles, all priorities, all visiting orders of the map of the blocks", "why_tests_cant": "The visiting order of the map and the networks are without number.", "anchors": ["binaries/mimmo++.cpp:374-398", "src/core/Chain.cpp:169-240", "src/core/Chain.cpp:283-352"]}
{"id": "C212", "title": "A workflow with a cycle is not executed silently", "statement": "When mimmo++ ends without an error, the blocks it executed of one priority have no cycle, each was executed once and all are of the dictionary. Violated in part: a cycle through blocks of different priorities is executed without an error, and two blocks of the same priority which supply each other lose one of them without an error.", "quantifier": "for all networks, with or without cycles", "why_tests_cant": "Cycles have any length and go through any number of priorities.", "anchors": ["binaries/mimmo++.cpp:374-398", "src/core/Chain.cpp:203-205", "src/core/Chain.cpp:336-352"]}
{"id": "C213", "title": "Cells of OpenFOAM become the same cells of mimmo", "statement": "Hexahedra, tetrahedra, prisms and pyramids of an OpenFOAM mesh are read as bitpit cells of the corresponding type, with the same vertices, the same faces and the same orientation. Violated in part: pyramids are read inside out.", "quantifier": "for all meshes and all cells with these shapes", "why_tests_cant": "The right numbering is right for every cell of every mesh; a test compares some cells, and volumes may be taken in absolute value.", "anchors": ["src/ioofoam/IOOFOAM.cpp:577-654", "src/ioofoam/openFoamFiles_native.cpp:584-630"]}
{"id": "C214", "title": "Other cells of OpenFOAM become polyhedra with outward faces", "statement": "A cell of any other shape is read as a polyhedron which lists all its faces, each with the normal outwards; the two polyhedra of an internal face list it in opposite orders.", "quantifier": "for all meshes with upper triangular ordering, all cells and faces", "why_tests_cant": "Polyhedra with any number of faces and vertices exist.", "anchors": ["src/ioofoam/IOOFOAM.cpp:590-654"]}
{"id": "C215", "title": "Every face of an OpenFOAM mesh is mapped to its interface", "statement": "After the reading, the map of the faces gives for each face of the OpenFOAM mesh the interface of the bitpit mesh with the same vertices, and contains nothing else. Violated in part: an interface with less vertices, all among the first of the face, is taken for it; with a larger one the comparison leaves the face; entries of an earlier reading, or set by the user, are kept.", "quantifier": "for all meshes, all numberings of the vertices and all orders of the interfaces", "why_tests_cant": "The comparison goes wrong only for certain shapes and numberings.", "anchors": ["src/ioofoam/IOOFOAM.cpp:1032-1059"]}
{"id": "C216", "title": "The boundary of an OpenFOAM mesh has one PID for each patch", "statement": "The cells of the boundary mesh on the i-th patch have PID i+1 and the others keep theirs; patches are found by number and by name. Violated in part: a face which is not in the map changes the PID of interface 0; the number one past the last patch is not refused.", "quantifier": "for all patches, all maps of the faces, all PIDs before", "why_tests_cant": "Patches may be empty, of any size and in any number.", "anchors": ["src/ioofoam/IOOFOAM.cpp:1074-1083", "src/ioofoam/openFoamFiles_native.cpp:353-396"]}
{"id": "C217", "title": "A program may work with several OpenFOAM cases", "statement": "A reading gives the mesh of the directory asked for, and a writing goes to it. Violated in part: this holds when a program uses a single directory; the second directory is never opened, readings give the mesh of the first and writings go to the first.", "quantifier": "for all sequences of readings and writings and all contents of the directories", "why_tests_cant": "It is about sequences of executions of several blocks in a process; a test has one.", "anchors": ["src/ioofoam/openFoamFiles_native.cpp:405-476", "src/ioofoam/openFoamFiles_native.cpp:522-573", "src/ioofoam/IOOFOAM.cpp:566-585"]}
{"id": "C218", "title": "The options of the OpenFOAM block are those of its documentation", "statement": "Overwrite and WritePointsOnly are read from the dictionary, and a block saved and loaded has the same options. Violated in part: WritePointsOnly is never read, and sets Overwrite instead; what is saved under its name is the value of Overwrite.", "quantifier": "for all sections of the dictionary and all states of the block", "why_tests_cant": "Combinations of present, absent and empty options have to be tried with both values of each.", "anchors": ["src/ioofoam/IOOFOAM.cpp:408-412", "src/ioofoam/IOOFOAM.cpp:493-533"]}
{"id": "C219", "title": "Points read from an OpenFOAM case and moved are written at their places", "statement": "After reading a case and moving the vertices, the writing puts each moved vertex at the place of the point it came from, and a later reading gives them; a mesh with another number of vertices is refused and the case is left as it is.", "quantifier": "for all cases and all motions", "why_tests_cant": "Motions and meshes are without number.", "anchors": ["src/ioofoam/IOOFOAM.cpp:1113-1152", "src/ioofoam/openFoamFiles_native.cpp:522-573"]}
{"id": "C220", "title": "Fields of faces are interpolated on vertices by weighted averages", "statement": "A vertex gets the average of the values of the cells around it, weighted with the angles: a constant is preserved, and the result is between the least and the greatest of the values. Violated in part: a vertex of no cell gets 0/0.", "quantifier": "for all surface meshes, positive angles and values of an ordered field", "why_tests_cant": "Meshes and fields are without number.", "anchors": ["src/ioofoam/openFoamFiles_native.cpp:637-690", "src/ioofoam/openFoamFiles_native.cpp:697-750"]}
{"id": "C221", "title": "Values of OpenFOAM fields are put on their cells", "statement": "Reading a field puts the i-th internal value on the i-th cell, the k-th value of a patch on the cell of the boundary mesh of its k-th face, zero on the cells of no patch, and exactly one value on each cell. Violated in part: with a field of another class the end of the empty values is dereferenced and the boundary is filled with zeros; vector fields leave cells of no patch without a value; without the (optional) map of the faces all values go to the cell 0.", "quantifier": "for all meshes, patches, maps of the faces, fields and visiting orders of the PIDs", "why_tests_cant": "The set of the PIDs is visited in an unspecified order, and the inputs are without number.", "anchors": ["src/ioofoam/IOOFOAM.cpp:1322-1395", "src/ioofoam/IOOFOAM.cpp:1586-1660", "src/ioofoam/openFoamFiles_native.cpp:129-220"]}
{"id": "C222", "title": "A mesh written in a Nastran file is read back", "statement": "Reading a Nastran file written by the library gives the points with their labels and, for every face, its label, PID and vertices, in the same order, and the coordinates with the decimals which fit in the file. Violated in part: files in the long format are not read (reading throws at the first point); a face which is neither a triangle nor a quadrangle is not written, and the faces after it get the labels and the PIDs of others.", "quantifier": "for all names, points, faces, labels and PIDs below 10^8, and all coordinates whose integer part fits in a field", "why_tests_cant": "The layout in columns depends on the number of digits of every number, in every position.", "anchors": ["src/iogeneric/MimmoGeometry.cpp:1330-1574", "src/iogeneric/MimmoGeometry.cpp:1585-1713"]}
{"id": "C223", "title": "Coordinates in Nastran files are cut, not changed", "statement": "The coordinate read from a written file is never farther from zero than the one written, and differs from it by less than one unit of the last decimal which fits beside sign, integer part and point. Violated in part: when the integer part does not fit in the field its last digits are lost, and the number read is at most a tenth of the one written.", "quantifier": "for all coordinates, in both formats", "why_tests_cant": "The error depends on sign and number of digits; the loss occurs for coordinates of certain sizes only.", "anchors": ["src/iogeneric/MimmoGeometry.hpp:292-330", "src/iogeneric/MimmoGeometry.cpp:1330-1381", "src/iogeneric/MimmoGeometry.cpp:1801-1814"]}
{"id": "C224", "title": "Coordinates of Nastran files are read with their exponents", "statement": "A coordinate given by a mantissa with a point, and possibly a signed exponent, is read as the number it stands for. Violated in part: with the letter E before the exponent, which Nastran admits, the exponent is ignored.", "quantifier": "for all signs, digits and exponents", "why_tests_cant": "Any position of the sign of the exponent, with or without the sign of the mantissa, is possible.", "anchors": ["src/iogeneric/MimmoGeometry.cpp:1801-1814"]}
{"id": "C225", "title": "Nastran files are read line by line", "statement": "Each line of a Nastran file adds its point or its face and nothing else, in the order of the file; lines which are not cards of points or faces are ignored, wherever they are. Violated in part: when the end of the last line is missing, a last card after another card is lost, and a bar, which is not to be read, is read after anything else.", "quantifier": "for all files", "why_tests_cant": "The cards can be in any order, mixed with any other line.", "anchors": ["src/iogeneric/MimmoGeometry.cpp:1585-1713"]}
{"id": "C226", "title": "Exported Nastran labels and PIDs are positive and keep the cells apart", "statement": "In the Nastran file of a mesh the labels of vertices and cells are one more than their ids, the connectivities follow, and the PIDs are all moved by the same amount, so that they are positive and cells have equal PIDs exactly when they had; nothing is added when there are no PIDs 0 and no cells without PID.", "quantifier": "for all meshes of triangles and quadrangles, all ids and PIDs from -1 on", "why_tests_cant": "Sets of PIDs with and without 0 and -1, and their combinations with all meshes, cannot be enumerated.", "anchors": ["src/iogeneric/MimmoGeometry.cpp:567-620"]}
{"id": "C227", "title": "Geometries are read, written and converted with the reference PID added once", "statement": "Executing a reader or a converter gives the geometry in the file for reading with the reference PID added to the PID of every cell, exactly once, the names of the PIDs following; a writer does so with the geometry which is linked; writers and converters write that geometry in the file for writing, readers write nothing; afterwards the reference is zero. A missing file is an error. Violated in part: a writer without geometry uses a null pointer, instead of reporting; cells whose PIDs are not listed keep their PIDs; references above the declared maximum of 30000 are taken.", "quantifier": "for all modes, files, geometries, PIDs, names and references", "why_tests_cant": "Modes, lists of PIDs and names combine without bound; adding twice shows only in conversions with a reference.", "anchors": ["src/iogeneric/MimmoGeometry.cpp:279-299", "src/iogeneric/MimmoGeometry.cpp:455-458", "src/iogeneric/MimmoGeometry.cpp:509-522", "src/iogeneric/MimmoGeometry.cpp:930-948", "src/iogeneric/MimmoGeometry.cpp:968-996"]}
{"id": "C228", "title": "The XML section of a reader or writer of geometries restores it", "statement": "A block created from the section written by another one has the same mode, options, common settings and files. Violated in part: a writer whose file was set by the setters for writing comes back as a writer on the file for reading; the mode in a section is ignored by a block which already exists.", "quantifier": "for all modes, names without blanks at their ends, file types and options; tolerances which are printed exactly", "why_tests_cant": "The sections combine fifteen options and three modes.", "anchors": ["src/iogeneric/MimmoGeometry.cpp:50-72", "src/iogeneric/MimmoGeometry.cpp:1003-1203", "src/iogeneric/MimmoGeometry.cpp:1208-1271"]}
{"id": "C229", "title": "A block holding a shape comes back from the dictionary", "statement": "A lattice or a primitive written into a section of the dictionary and read from it into a new block has the type of shape, the origin, the dimensions, the axes, the lower limits and (for a lattice) the numbers of nodes it had; options that are missing leave the settings as they are. Violated in part: a primitive does not write its lower limits, so that a hollow or rotated sector comes back full or elsewhere; a block without shape comes back with a cube; an axis missing in RefSystem is an exception.", "quantifier": "every shape reachable through the setters, every block, every section", "why_tests_cant": "All shapes and settings; the limits on the dimensions depend on the lower limits and on the order of the setters.", "anchors": ["src/core/Primitive.cpp: absorbSectionXML, flushSectionXML", "src/core/Lattice.cpp: absorbSectionXML, flushSectionXML"]}
{"id": "C230", "title": "A selection by shape comes back from the dictionary", "statement": "A selection by box, cylinder or sphere written into a section and read from it into a new selection of its class has the dual choice, the origin, the dimensions, the axes and the lower limits it had; the axes given in RefSystem are those of the shape, a missing one being the one of the world. Violated in part: one axis given alone, if it is not one of the world, is refused without notice and the axes stay as they were.", "quantifier": "every selection reachable through the setters, every section", "why_tests_cant": "All shapes and settings.", "anchors": ["src/geohandlers/SelectionByBox.cpp: absorbSectionXML, flushSectionXML", "src/geohandlers/SelectionByCylinder.cpp: absorbSectionXML, flushSectionXML", "src/geohandlers/SelectionBySphere.cpp: absorbSectionXML, flushSectionXML"]}
{"id": "C231", "title": "The magnitudes of a vector field", "statement": "The block computing magnitudes gives a scalar field on the geometry and at the location of the vector field, with the same ids in the same order and for each id the length of its vector, whatever it computed before; a field given replaces the earlier one, and giving none leaves it.", "quantifier": "every vector field, every earlier result", "why_tests_cant": "All fields and histories.", "anchors": ["src/core/Module.cpp: setField, execute"]}
{"id": "C232", "title": "The pair of meshes of the blocks for OpenFOAM", "statement": "A block for OpenFOAM built on two meshes is built exactly for a volume with a surface or a surface with a curve, and fails with an error otherwise, a missing mesh included; it holds the last volume or surface given as bulk and the last surface or curve given as boundary, ignoring others; its meshes are coherent exactly if there is a bulk and, with a boundary, the types match, the interfaces are in sync and the cells of the boundary are the border interfaces of the bulk; without a boundary the check makes one; copies keep the settings and take no mesh. Violated in part: one missing mesh is dereferenced rather than reported; the boundary made by the check is thrown away; the copy of the reader and writer of meshes shares the bulk and loses the boundary, so that the copy of an incoherent pair passes the check.", "quantifier": "every pair of meshes, every sequence of calls", "why_tests_cant": "All meshes and all orders of calls.", "anchors": ["src/ioofoam/IOOFOAM.cpp: IOOFOAM_Kernel constructors, setGeometry, setBoundaryGeometry, checkMeshCoherence, IOOFOAM copy constructor"]}
{"id": "C233", "title": "The settings of a selection by PID in the dictionary", "statement": "The PIDs of the dictionary are those asked for: as many as announced, in their order, a negative number counting as none; a selection by PID written in the dictionary and read into a new block on the same geometry makes the same selection, dual or not. Violated in part: if fewer PIDs are listed than announced all the PIDs are selected; a negative number of PIDs ends with an exception; requests made since the last execution are not written.", "quantifier": "every section of the dictionary, every state of the block, every geometry", "why_tests_cant": "All texts and all histories of the block.", "anchors": ["src/geohandlers/SelectionByPID.cpp: absorbSectionXML, flushSectionXML"]}
{"id": "C234", "title": "The elements of a CGNS file written and read back", "statement": "Every cell of the volume is written in the section of its type, in the order of the mesh, with its nodes in the order of CGNS, and every cell of the boundary in that of triangles or quads, with a number that is its position among all of them; cells of types CGNS does not have are left out; a section read back gives the same cells, each with its own vertices in their order. Violated in part: after one cell of a type that is left out all the following cells are left out as well.", "quantifier": "every mesh, every order of its cells, every numbering of its vertices", "why_tests_cant": "All meshes of all types; the round trip concerns every cell.", "anchors": ["src/iocgns/IOCGNS.cpp: getZoneConn, getBCElementsConn, read"]}
{"id": "C235", "title": "Mixed sections and elements of higher order of a CGNS file", "statement": "Every element of a mixed section is read as its type says: volume cells go to the volume, triangles and quads to the boundary, and elements of higher order are read by their corners. Violated: 1 is subtracted from the types as well as from the nodes, so that tetrahedra are taken for quads and a mixed section of tetrahedra gives no cell; the triangles and quads of a mixed section are lost; of an element of higher order only the corners are consumed, the next node being taken for a type, and a section of ten-node tetrahedra gives a cell for every four nodes.", "quantifier": "every list of elements", "why_tests_cant": "Test files have sections of one type of first order.", "anchors": ["src/iocgns/IOCGNS.cpp: read, unpackMixedConns"]}
