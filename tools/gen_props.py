# Generates /verif/properties.jsonl.  Run: python3 tools/gen_props.py
import json
P=[]
def p(title,statement,quant,why,anchors):
    P.append(dict(id=f"C{len(P)+1:02d}",title=title,statement=statement,quantifier=quant,why_tests_cant=why,anchors=anchors))
W="ISD/ISD_MemoryWriteStream.h"; R="ISD/ISD_MemoryReadStream.h"; T="ISD/ISD_Types.h"; TC="ISD/ISD_Types.cpp"
EW="ISD/ISD_EntityWriterTemplates.inl"; ER="ISD/ISD_EntityReaderTemplates.inl"
GW="CodeGenerator/Generators/ISD_EntityWriter.py"; GR="CodeGenerator/Generators/ISD_EntityReader.py"
G="ISD/ISD_DirectedGraph.h"; ET="ISD/ISD_EntityTable.h"
p("Write stream behaves as a byte file",
  "After any sequence of Write and SetPosition calls on a MemoryWriteStream the first GetSize() bytes at GetData() are exactly what a plain byte file would hold: each write overwrites at the position and extends the file, positions past the end extend it with zero bytes, and GetPosition/GetSize agree with that file.",
  "every finite sequence of raw writes and position changes, every start state, every initial reservation size, as long as memory allocation succeeds",
  "op sequences, positions and the points at which the buffer is reallocated are unbounded",
  [W+":MemoryWriteStream::ReserveForSize",W+":Resize",W+":WriteRawData",W+":SetPosition"])
p("Buffer growth is invisible and never out of bounds",
  "Two write streams constructed with different initial allocation sizes and given the same calls expose the same size, position and bytes; no call touches memory outside the stream's allocation.",
  "every pair of initial sizes, every operation sequence, while allocation succeeds",
  "reallocation happens at data dependent points; memory errors are silent",
  [W+":ReserveForSize",W+":Resize",W+":WriteRawData"])
p("A write that fails to allocate leaves the stream safe",
  "If a write or SetPosition throws std::bad_alloc, the bytes already in the stream are intact and every later call on the stream still stays inside its allocation.",
  "every operation sequence and every choice of which allocations fail",
  "needs fault injection at every allocation point of every history",
  [W+":ReserveForSize (DataReservedSize is updated before VirtualAlloc is checked)"])
p("Read stream never leaves its buffer",
  "For any sequence of reads, position changes and flips on a MemoryReadStream the position never exceeds the size, a read of n bytes returns exactly the next min(n, remaining) bytes in order, SetPosition past the end is refused without effect, and Peek/IsEOF agree with the position.",
  "every buffer, every operation sequence with counts that do not overflow u64",
  "op sequences and buffer contents are unbounded",
  [R+":ReadRawData",R+":SetPosition",R+":Peek",R+":IsEOF"])
p("Scalar arrays round trip through the streams",
  "Writing any array of 8/16/32/64 bit integers, floats, doubles, UUIDs or hashes to a write stream and reading the same count back from its bytes, with the same FlipByteOrder setting, returns the same values, the full count, and leaves the read position right after them, whatever surrounds them.",
  "every scalar type, every array length and content, both flip settings, every prefix and suffix",
  "value domain up to 2^64 per element and unbounded lengths",
  [W+":WriteValues",R+":ReadValues",T+":swap_byte_order"])
p("Byte order on the wire",
  "With FlipByteOrder off a k-byte scalar is stored least significant byte first (x64 host), with it on most significant byte first; a reader whose flip setting differs from the writer's gets exactly the byte-reversed value.",
  "every scalar width, value and count, all four flip combinations",
  "2^64 values; endianness bugs hide in palindromic samples",
  [W+":WriteValues",R+":ReadValues",T+":swap_byte_order"])
p("UUIDs and hashes are stored in printed order on every machine",
  "The 16 bytes written for a uuid are its hex digits in printed order and the 32 bytes of a hash are its digest bytes in order, regardless of the FlipByteOrder setting, and both read back unchanged under any combination of settings.",
  "every uuid, every hash, every array of them, both flip settings on each side",
  "2^128 / 2^256 values",
  [W+":Write(const uuid*)",W+":Write(const hash*)",R+":Read(uuid*)",R+":Read(hash*)",T+":bigendian_from_value"])
p("Big-endian helpers are inverse and byte swapping is an involution",
  "value_from_bigendian undoes bigendian_from_value and conversely for u16/u32/u64, the first byte is the most significant one, and swap_byte_order applied twice restores any array.",
  "every value of each width, every byte pattern, every array length",
  "2^64 values per function",
  [T+":value_from_bigendian",T+":bigendian_from_value",T+":swap_byte_order",T+":swap_bytes"])
p("Hex printing is faithful",
  "value_to_hex_string yields two lower-case hex digits per byte, most significant first, so that parsing the digits gives the value back; distinct values print differently; a uuid prints in the 8-4-4-4-12 form with 36 characters.",
  "every u8/u16/u32/u64/uuid/hash value and every byte buffer",
  "unbounded buffers, 2^128 uuids",
  [TC+":bytes_to_hex_string",TC+":value_to_hex_string"])
p("Single values round trip under their key",
  "For every supported data type (bool, all ints, floats, vectors, matrices, quaternions, uuid, hash, entity_ref, package_ref, string), EntityWriter::Write(key, v) returns true and EntityReader::Read(key) on the produced bytes returns true and the same v, and reading continues right after the value.",
  "all 54 data types, every value, every key of length <= 40, both byte orders, every prefix and suffix of the stream",
  "value and key spaces are unbounded",
  [EW+":write_single_value",ER+":read_single_item",GW,GR])
p("Optional values keep the difference between absent and present",
  "Writing optional_value<T> and reading it back gives an equal optional_value: an absent value stays absent, a present value (including zero or the empty string) stays present; reading an absent value as a mandatory T is refused.",
  "all data types, absent and every present value, every key of length <= 40",
  "unbounded values",
  [EW+":write_single_value",ER+":read_single_item",GR,"ISD/ISD_optional_value.h"])
p("Vectors round trip",
  "Writing std::vector<T> or optional_vector<T> and reading it back gives the same sequence (or the same absence), for every element type.",
  "all data types, every length and content, every key of length <= 40, both byte orders",
  "unbounded lengths",
  [EW+":write_array",ER+":read_array",EW+":write_array_metadata_and_index",ER+":read_array_metadata_and_index","ISD/ISD_optional_vector.h"])
p("Indexed vectors round trip with their index",
  "Writing idx_vector<T> or optional_idx_vector<T> and reading it back restores both the values and the 32 bit index; an indexed array is refused by a reader that expects no index and vice versa.",
  "all data types, all values and index lists of any length",
  "unbounded lengths",
  [EW+":write_array_metadata_and_index",ER+":read_array_metadata_and_index","ISD/ISD_idx_vector.h","ISD/ISD_optional_idx_vector.h"])
p("Strings are binary safe",
  "A string or array of strings of any content, including empty strings and embedded zero bytes, round trips exactly, and the empty string is distinguished from an absent string.",
  "every byte sequence, every list of byte sequences",
  "unbounded content",
  [EW+":write_single_value<VT_String>",ER+":read_single_item<VT_String>",EW+":write_array<VT_Array_String>",ER+":read_array<VT_Array_String>"])
p("Boolean arrays pack eight to a byte without loss",
  "A vector<bool> of n elements is stored in ceil(n/8) payload bytes, element i in bit i%8 of byte i/8, unused bits zero, and reads back unchanged.",
  "every boolean list of every length",
  "2^n contents; off-by-one at the byte boundary",
  [EW+":write_array<VT_Array_Bool>",ER+":read_array<VT_Array_Bool>"])
p("Blocks are self delimiting",
  "Every block the writer emits can be skipped knowing only the documented layout: for type bytes below 0x40 the second byte, for others the following u64, is exactly the number of bytes that remain in the block.",
  "every writer call with every value, section content and key",
  "size fields are back-patched; contents unbounded",
  [EW+":begin_write_large_block",EW+":end_write_large_block",EW+":write_single_value",T+" (layout note lines 63-86)"])
p("Wrong type or wrong key is refused",
  "Reading a value written under key k and value type t with a different key or a different value type returns false.",
  "every written value, every pair of keys of length <= 40, every pair of value types",
  "all pairs of types, keys and values",
  [ER+":begin_read_large_block",ER+":read_single_item",ER+":read_array"])
p("A truncated stream is never accepted",
  "If the stream is cut anywhere inside a written value, reading that value with the original key and type does not succeed.",
  "every value of every type and container and every cut point strictly before its end",
  "crash points times values",
  [ER+":begin_read_large_block",ER+":read_single_item",ER+":read_array",R+":ReadRawData"])
p("Reading hostile bytes is memory safe",
  "On arbitrary bytes EntityReader::Read never writes outside the destination, whatever the stream contains (it returns true, returns false, or throws an allocation exception).",
  "every byte sequence, position, flip setting, key of length <= 40 and destination type",
  "adversarial inputs; a heap overflow need not crash",
  [ER+":read_array (line 399-404: resize by item_count / value_count then read item_count values)",ER+":read_single_item"])
p("A successful read consumes exactly the declared block",
  "Whenever Read returns true on arbitrary bytes, the position afterwards is the position implied by the block's own size field and is not past the end of the stream.",
  "every byte sequence, type, container, key, flip setting",
  "arbitrary inputs including sizes that wrap around 2^64",
  [ER+":end_read_large_block",ER+":read_single_item",ER+":read_array"])
p("Section trees round trip",
  "Any tree of named values, nested sections, null sections and arrays of (possibly null) sections written through the section calls is read back identically through the matching section calls.",
  "every finite tree (any depth, width, array size), every key of length <= 40",
  "unbounded depth and width",
  [EW+":BeginWriteSection",EW+":EndWriteSection",EW+":BeginWriteSectionsArray",EW+":BeginWriteSectionInArray",ER+":BeginReadSection",ER+":BeginReadSectionsArray",ER+":BeginReadSectionInArray"])
p("Writer rejects out-of-protocol section calls",
  "While a subsection is open, opening another is refused; ending with a pointer that is not the open subsection, starting array elements out of order or beyond the array size, and ending an array before all its elements were started are refused; every refused call leaves stream and writer unchanged.",
  "every writer state and every argument",
  "call histories are unbounded",
  [EW+":BeginWriteSection",EW+":EndWriteSection",EW+":BeginWriteSectionInArray",EW+":EndWriteSectionsArray"])
p("Reader rejects out-of-protocol section calls",
  "While a subsection is open, opening another is refused; wrong reader pointers, out-of-order or out-of-range element indices are refused without moving the stream; EndReadSection and EndReadSectionsArray succeed only at the declared end.",
  "every reader state, stream and argument",
  "call histories are unbounded",
  [ER+":BeginReadSection",ER+":EndReadSection",ER+":BeginReadSectionInArray",ER+":EndReadSectionInArray",ER+":EndReadSectionsArray"])
p("Ending a section that was never begun is refused",
  "Calling an End... section function on a writer or reader with no open section (the null pointer returned by a failed Begin) returns false and has no effect.",
  "every writer/reader state without an open subsection, every argument",
  "depends on call history",
  [EW+":EndWriteSection",EW+":EndWriteSectionInArray",EW+":EndWriteSectionsArray",ER+":EndReadSection",ER+":EndReadSectionsArray"])
p("thread_safe_map is linearizable",
  "For every schedule of any number of threads calling find, insert and erase, there is one total order of the completed calls, consistent with real time, in which every returned value is that of a plain map (insert never overwrites, erase returns 0 or 1, find returns the value or a default).",
  "every number of threads, every program per thread, every interleaving of lock, access and unlock steps",
  "schedules cannot be enumerated by tests",
  ["ISD/ISD_thread_safe_map.h:find,insert,erase"])
p("Optional containers obey value semantics",
  "optional_value, optional_vector, idx_vector and optional_idx_vector compare equal exactly when both are absent or both present with equal contents; != is the negation of ==; copies are equal to and independent of the source; set/reset/has_value agree; a moved-from optional is absent.",
  "every operation sequence and content",
  "unbounded histories",
  ["ISD/ISD_optional_value.h","ISD/ISD_optional_vector.h","ISD/ISD_idx_vector.h","ISD/ISD_optional_idx_vector.h"])
p("Graph edges behave as a set",
  "After any sequence of InsertEdge and Clear, HasEdge(a,b) is true exactly when (a,b) was inserted after the last Clear, independent of order and repetition.",
  "every operation sequence, every totally ordered node type",
  "unbounded histories",
  [G+":InsertEdge",G+":HasEdge",G+":MF::Clear"])
p("GetSuccessors enumerates exactly the successors",
  "GetSuccessors(n) enumerates every b with edge (n,b), each once, and nothing else.",
  "every graph and node, including the extreme node values",
  "boundary value of the node type",
  [G+":GetSuccessors (lower_bound with sup excludes successor == sup)"])
p("Graph equality and copying are by content",
  "Equals is true exactly when both graphs have the same roots and the same edges, however they were built; DeepCopy from another graph makes the destination equal to the source, from null makes it empty, and self copy changes nothing.",
  "every pair of graphs",
  "unbounded graphs and histories",
  [G+":MF::Equals",G+":MF::DeepCopy"])
p("Acyclic validation is exact",
  "Validation of an Acyclic graph reports a cycle if and only if the edges contain a directed cycle (self loops included), and it terminates on every graph.",
  "every finite graph",
  "all graphs; algorithmic correctness of the iterative DFS",
  [G+":MF::ValidateNoCycles"])
p("Rooted validation is exact",
  "Validation of a Rooted graph reports one unreachable-node error for exactly each node with incoming edges that cannot be reached from the Roots set, and terminates on every graph.",
  "every finite graph and roots set",
  "all graphs",
  [G+":MF::ValidateRooted"])
p("A graph validates without errors exactly when it meets its declared flags",
  "Validate adds no error iff: (SingleRoot) exactly one node has outgoing but no incoming edges; (Rooted) Roots contains exactly such nodes plus isolated ones, every node with incoming edges is reachable from Roots, and with SingleRoot the set has one element; (Acyclic) there is no cycle. Validate always returns true.",
  "every graph, roots set and flag combination",
  "all graphs",
  [G+":MF::Validate"])
p("Graphs round trip",
  "Writing a DirectedGraph and reading it into any graph object restores the same roots and edges.",
  "every graph over every node type that can be serialized, every previous content of the destination",
  "unbounded graphs",
  [G+":MF::Write",G+":MF::Read"])
p("Entity tables compare as finite maps",
  "EntityTable::Equals is true exactly when both tables have the same keys and, per key, both values are null or both are equal, independent of insertion order or hash iteration order.",
  "every pair of tables in every iteration order, any value equality",
  "iteration orders and histories unbounded",
  [ET+":MF::Equals"])
p("Copying an entity table preserves it",
  "Assigning or copy-constructing an EntityTable gives a table equal to the source, also when source and destination are the same object.",
  "every table, including self assignment",
  "aliasing",
  [ET+":MF::DeepCopy (Clear before copying)",ET+":operator="])
p("Entity tables round trip, null entries included",
  "Writing an EntityTable and reading it into any table yields a table equal to the original, keeping null entries null, for every iteration order of the hash map and every entity type that itself round trips to a non-empty block.",
  "every table, iteration order, previous destination content",
  "unbounded tables",
  [ET+":MF::Write",ET+":MF::Read"])
p("Entity table validation counts are exact",
  "Validate reports exactly one NullNotAllowed error for a zero key (unless ZeroKeys), one for each null entity (unless NullEntities), plus the errors of each entity.",
  "every table, flag combination and iteration order",
  "unbounded tables",
  [ET+":MF::Validate"])
p("Dynamic type lookup is exact and terminates",
  "Initialize(dataType, containerType) succeeds exactly for the 54 x 6 registered combinations, resolves to that very combination, and every other pair of integers is refused without looping.",
  "every pair of integers",
  "2^32 or more pairs; open addressing probe sequences",
  ["CodeGenerator/Generators/ISD_DynamicTypes.py:AllocatorHashTable","CodeGenerator/Generators/ISD_DynamicTypes.py:_findTypeClass","CodeGenerator/Generators/ISD_DataTypes.py:data_type_index"])
p("Varying copies compare equal",
  "A copy of a Varying compares equal to the original, and assigning a Varying to itself keeps its value.",
  "every Varying state including uninitialized, and aliasing",
  "state and aliasing combinations",
  ["ISD/ISD_Varying.cpp:MF::DeepCopy","ISD/ISD_Varying.cpp:MF::Equals"])
p("Varying round trips with its type",
  "Writing an initialized Varying of any registered type and reading it back restores the type, container and value; an uninitialized one is refused by Write.",
  "all 324 type combinations and all values",
  "unbounded values",
  ["ISD/ISD_Varying.cpp:MF::Write","ISD/ISD_Varying.cpp:MF::Read"])
p("Generated entities round trip",
  "Every generated entity (Node, NodeGeometry, AttributeLayer, SceneLayer, Scene, Mesh, TestEntity) written with MF::Write and read with MF::Read into a fresh object equals the original.",
  "every entity value of every generated type (and every schema over the same field kinds)",
  "unbounded nested data",
  ["CodeGenerator/Generators/EntityGenerator.py:ImplementWriterCall","CodeGenerator/Generators/EntityGenerator.py:ImplementReaderCall","CodeGenerator/Entities"])
p("Entity reading detects a section that was not fully consumed",
  "MF::Read of a generated entity returns true only if every nested section ended exactly where its header said.",
  "every byte stream",
  "adversarial inputs",
  ["CodeGenerator/Generators/EntityGenerator.py:ImplementReaderCall (result of EndReadSection is ignored)"])
p("Reading replaces the destination",
  "A successful Read of a vector or indexed vector leaves the destination holding exactly the stored elements, whatever it held before.",
  "every type, every previous destination content",
  "previous state times stream content",
  [GR+" (override types emplace_back without clearing)"])
p("Indexed vector validation is exact",
  "IndexedVector::Validate reports one InvalidValue error per index entry that is negative or not below min(number of values, 2^31-1), plus one InvalidCount error if there are more than 2^31-1 values.",
  "every values length and index list",
  "sizes beyond 2^31 cannot be tested",
  ["ISD/ISD_IndexedVector.h:MF::Validate"])
p("Validator accumulates and clears",
  "After any sequence of reports GetErrorCount is the number of reports (mod 2^32) since the last ClearErrorCount and GetErrorIds the union of their ids; after ClearErrorCount no error is visible.",
  "every sequence of reports and clears",
  "unbounded histories",
  ["ISD/ISD_EntityValidator.h:ReportError,ClearErrorCount,GetErrorIds"])
p("SHA256 digest does not depend on how data is split",
  "Feeding data to SHA256 in any number of Update calls of any length (including lengths above INT_MAX) yields the digest of the concatenation.",
  "every split of every byte string, for every incremental hash core",
  "lengths above 2 GB and all splits",
  ["ISD/ISD_SHA256.cpp:SHA256::Update"])
p("The loader accepts a file only if its digest matches",
  "LoadThreadProcedure returns Ok exactly when the file opens, can be read, is at least 32 bytes long and its last 32 bytes are the SHA256 of the rest, however the OS splits the reads; otherwise it returns the matching error status.",
  "every file content, every sequence of partial ReadFile results",
  "OS read schedules and contents",
  ["ISD/ISD.cpp:LoadThreadProcedure"])
p("Packet header check bounds the payload",
  "PacketSerializer::FromMemoryStream returns Ok only if the magic is ISD and the declared data size fits in the rest of the stream; it sets byte flipping exactly when the file's byte order differs from the host's.",
  "every byte stream and initial stream state",
  "2^64 declared sizes",
  ["ISD/ISD_PacketSerializer.cpp:FromMemoryStream (position + DataSize can wrap)"])
p("UUID and hash ordering is a strict total order consistent with equality and hashing",
  "operator< on uuid, hash, entity_ref and package_ref is irreflexive, transitive and total with respect to ==, the inf/sup constants bound it, and equal values have equal std::hash.",
  "every pair and triple of values",
  "2^128 values",
  ["CodeGenerator/InlinedCode/uuid_hash_header.inl","CodeGenerator/InlinedCode/ISD_entity_ref.inl","CodeGenerator/InlinedCode/ISD_package_ref.inl"])
p("Entity copy, clear and equality laws",
  "For generated entities, Equals is an equivalence that holds exactly for equal contents, DeepCopy from another object makes them equal, DeepCopy from null equals Clear, and a cleared object equals a default constructed one.",
  "every entity value and schema over the supported field kinds",
  "unbounded nested data",
  ["CodeGenerator/Generators/EntityGenerator.py:ImplementDeepCopyCall","CodeGenerator/Generators/EntityGenerator.py:ImplementEqualsCall","CodeGenerator/Generators/EntityGenerator.py:ImplementClearCall"])
p("An array of sections is only closed by its own End call, after all its elements",
  "Once BeginWriteSectionsArray(n) succeeded, the array stays open until all n elements were started and EndWriteSectionsArray is called; EndWriteSection on it is refused.",
  "every writer state, array size and key",
  "every array size and history",
  ["ISD/ISD_EntityWriterTemplates.inl:EndWriteSection","ISD/ISD_EntityWriterTemplates.inl:EndWriteSectionsArray"])
p("Whatever a read accepts is a block of the documented format",
  "Whenever Read returns true on arbitrary bytes (and did not end at the very end of the stream), the consumed bytes are a block of the documented layout that holds exactly the value delivered to the caller.",
  "every byte sequence, position, type, container, key of length <= 40, flip setting",
  "arbitrary inputs; tests only see bytes produced by the writer",
  ["ISD/ISD_EntityReaderTemplates.inl:read_single_item","ISD/ISD_EntityReaderTemplates.inl:read_array","ISD/ISD_Types.h:63-143"])
p("Table insert and index only dereference entries that exist",
  "EntityTable::Insert(key) on a key that is absent adds a default entity and changes nothing else, on a key that has an entity returns that entity and changes nothing; it dereferences null exactly when the key is there with a null entity. operator[](key) is safe exactly when the key has an entity.",
  "every table, key and iteration order of the hash map",
  "every table content, including null entries that only Read or Entries() create",
  ["ISD/ISD_EntityTable.h:operator[],Insert"])
p("Entity validation without errors means every part is valid",
  "MF::Validate of a managed object returns true without reporting any error exactly when every part of it meets its documented condition (index ranges, graph shape, non-null and non-zero entries, initialised values), through any nesting of tables and entities.",
  "every entity value and schema over the supported field kinds, every iteration order of the hash maps",
  "unbounded nested data",
  ["CodeGenerator/Generators/EntityGenerator.py:ImplementValidatorCall","ISD/ISD_EntityTable.h:Validate","ISD/ISD_IndexedVector.h:Validate"])
p("EntityLoader::Initialize succeeds at most once",
  "Initialize returns Ok exactly when the loader has no path yet and the argument names a plain directory, and then stores its full path; every other call changes nothing and returns EAlreadyInitialized or EParam. Over any sequence of calls at most one returns Ok.",
  "every sequence of Initialize calls and every answer of the operating system",
  "unbounded call histories and OS answers",
  ["ISD/ISD.cpp:EntityLoader::Initialize"])
p("Varying variables behave as values",
  "In every program that declares, copies, moves, assigns, initialises, clears, compares, reads and destroys Varying variables, no pointer is used that is null, dangling or to an object of another type, every result is the one plain values would give, and every variable ends up holding what it would hold then; also when allocations fail and when reads fail. (Self assignment, by copy or move, empties the variable.)",
  "every list of statements on any number of variables, every pattern of failing allocations, every behaviour of the allocator, every input of Read",
  "unbounded programs, failing allocations and addresses",
  ["ISD/ISD_Varying.cpp","ISD/ISD_Varying.h:Data","CodeGenerator/Generators/ISD_DynamicTypes.py"])
p("Varying objects own their data exclusively and leak only by move assignment",
  "At every point of every such program each heap object belongs to exactly one variable, or was abandoned by a move assignment to a variable that held it; the number of abandoned objects is the number of such move assignments. A program without move assignments leaves nothing on the heap once its variables are destroyed.",
  "every list of statements on any number of variables, every pattern of failing allocations, every behaviour of the allocator, every input of Read",
  "unbounded programs, failing allocations and addresses",
  ["ISD/ISD_Varying.cpp:operator=","ISD/ISD_Varying.cpp:Deinitialize","ISD/ISD_Varying.cpp:SetType"])
p("Reading a whole object from hostile bytes is safe",
  "Reading any bytes into a graph, table, indexed vector, Varying or generated entity ends normally or with an exception, never touches memory outside its objects, leaves the stream on the same bytes with its cursor in range, and if Read returns true the object has the invariants of its class (distinct table keys, sorted duplicate-free sets, initialised values).",
  "every byte sequence, start position, reader state, destination object, pattern of failing allocations, and every nesting of the supported classes",
  "arbitrary hostile inputs at every nesting",
  ["ISD/ISD_EntityTable.h:Read","ISD/ISD_DirectedGraph.h:Read","ISD/ISD_IndexedVector.h:Read","ISD/ISD_Varying.cpp:Read","CodeGenerator/Generators/EntityGenerator.py:ImplementReaderCall"])
p("Whatever a read accepts can be stored and read back",
  "If Read of an object returned true, whatever bytes it read, then Write of that object succeeds and reading the result gives an object with the same contents.",
  "every byte sequence accepted by Read, every supported class",
  "arbitrary accepted inputs, not only those produced by Write",
  ["ISD/ISD_EntityTable.h:Read,Write","CodeGenerator/Generators/EntityGenerator.py"])
p("Reads never ask for more memory than a multiple of the stream",
  "A Read call, of a value or a whole object, never asks the allocator for more than four times the number of bytes in the stream, whatever counts the stream declares: a read that is accepted with any allocator is accepted with the same result by one that refuses every larger request.",
  "every byte sequence, position, key, type, container, class and allocator",
  "arbitrary hostile counts and allocators",
  ["ISD/ISD_EntityReaderTemplates.inl:read_array","ISD/ISD_EntityReaderTemplates.inl:read_array_metadata_and_index","ISD/ISD_EntityReaderTemplates.inl:read_single_item"])
p("Different contents are stored as different bytes",
  "Every object is written as one block of bytes that does not depend on the stream, the writer or what was written before; objects with different contents have different blocks, and no object's block is the beginning of another's. The same for single values under a key.",
  "every pair of objects of every supported class, every stream and writer, every bytes that follow",
  "pairs of unbounded objects",
  ["ISD/ISD_EntityWriterTemplates.inl","ISD/ISD_EntityReaderTemplates.inl","CodeGenerator/Generators/EntityGenerator.py"])
p("The stored form is canonical",
  "Objects with the same contents are stored as the same bytes; in particular an object that was read back is written again as the bytes it was read from (so hashes of files are stable).",
  "every pair of objects with the same contents of every supported class",
  "pairs of unbounded objects, unspecified iteration order of maps",
  ["ISD/ISD_EntityTable.h:Write","ISD/ISD_DirectedGraph.h:Write","CodeGenerator/Generators/EntityGenerator.py"])
p("A failed read leaves a usable object",
  "When Read of an object returns false or throws, wherever in the block that happens, the object it was reading into still has the invariants of its class: it can be cleared, copied, compared, validated and read into again. After Clear, or straight away, reading the block of another object gives exactly that object.",
  "every sequence of copies, clears, successful and failed reads of any bytes, every class, every pattern of failing allocations",
  "every history and every place a read can fail",
  ["ISD/ISD_EntityTable.h:Read","ISD/ISD_DirectedGraph.h:Read","ISD/ISD_Varying.cpp:Read","CodeGenerator/Generators/EntityGenerator.py:ImplementReaderCall","CodeGenerator/Generators/ISD_EntityReader.py"])
p("Write accepts exactly the objects that can be read back",
  "Write of any object ends normally and returns true exactly when every Varying inside it, at any depth, is initialised; when it returns true the bytes it added read back as an object with the same contents, and whatever it returns, the bytes that were in the stream before are unchanged.",
  "every object of every supported class, every stream and idle writer with room",
  "unbounded nested objects; the uninitialised value can be anywhere",
  ["ISD/ISD_Varying.cpp:Write","ISD/ISD_EntityTable.h:Write","CodeGenerator/Generators/EntityGenerator.py:ImplementWriterCall"])
p("Validated objects survive storage",
  "An object for which Validate reports no errors can be written, and what is written reads back as an object with the same contents for which Validate reports no errors either. Objects with the same contents get the same verdict.",
  "every object of every supported class, every stream, reader and writer",
  "unbounded nested objects",
  ["ISD/ISD_EntityTable.h:Validate","ISD/ISD_DirectedGraph.h:Validate","ISD/ISD_IndexedVector.h:Validate","ISD/ISD_Varying.cpp:Validate"])
p("A writer never touches what was written before it",
  "Whatever calls are made on a writer with nothing open and on the writers of the sections it opens, in whatever order and with whatever arguments, accepted, refused or ended by a failed allocation, the bytes that were in front of the stream position are unchanged, the stream stays in order and nothing undefined happens (calls through a null pointer aside). Once a writer has closed everything it opened, what it wrote is final in the same way.",
  "every history of calls, every nesting, every argument, every pattern of failing allocations",
  "every history",
  ["ISD/ISD_EntityWriterTemplates.inl:BeginWriteSection","ISD/ISD_EntityWriterTemplates.inl:EndWriteSection","ISD/ISD_EntityWriterTemplates.inl:BeginWriteSectionInArray","ISD/ISD_EntityWriterTemplates.inl:EndWriteSectionInArray","ISD/ISD_EntityWriterTemplates.inl:end_write_large_block","ISD/ISD_MemoryWriteStream.h:SetPosition"])
p("A reader is safe under every history of calls",
  "On any bytes, whatever calls are made on a reader and on the readers of the sections it opens, in whatever order and with whatever arguments, accepted, refused or ended by a failed allocation: every call returns or throws without undefined behaviour, the bytes are unchanged, and the position never moves back and never leaves the bytes.",
  "every byte string, every history of calls, every nesting, every argument, every pattern of failing allocations",
  "every history on hostile bytes",
  ["ISD/ISD_EntityReaderTemplates.inl:BeginReadSection","ISD/ISD_EntityReaderTemplates.inl:EndReadSection","ISD/ISD_EntityReaderTemplates.inl:BeginReadSectionsArray","ISD/ISD_EntityReaderTemplates.inl:BeginReadSectionInArray","ISD/ISD_EntityReaderTemplates.inl:EndReadSectionsArray"])
p("A section that was begun and ended was consumed exactly",
  "On any bytes: when BeginReadSection returned a section and, after any calls that did not close it, EndReadSection accepts, then the bytes passed since Begin are exactly one section block of the documented format with that key, and every call in between stayed inside its contents. The same for arrays of sections, where moreover every element was begun once, in order.",
  "every byte string, every history of calls between Begin and End",
  "every history on hostile bytes",
  ["ISD/ISD_EntityReaderTemplates.inl:BeginReadSection","ISD/ISD_EntityReaderTemplates.inl:EndReadSection","ISD/ISD_EntityReaderTemplates.inl:BeginReadSectionsArray","ISD/ISD_EntityReaderTemplates.inl:EndReadSectionsArray"])
p("Objects are stored in the documented layout",
  "The bytes Write appends for an object are exactly its documented layout and nothing else: an entity is the blocks of its variables in the order of declaration, under their names, objects as sections; a table is its keys followed by an array of sections in the same order; a graph is its roots and edges in ascending order; likewise indexed vectors and Varying. For each entity of the repository the layout is written out in full.",
  "every object of every supported class, every stream and idle writer with room, both byte orders",
  "unbounded nested objects; a round trip test cannot see a layout that changed on both sides",
  ["ISD/ISD_EntityTable.h:Write","ISD/ISD_DirectedGraph.h:Write","ISD/ISD_IndexedVector.h:Write","ISD/ISD_Varying.cpp:Write","CodeGenerator/Generators/EntityGenerator.py:ImplementWriterCall","CodeGenerator/Entities"])
p("Sequences of values and objects round trip",
  "Any sequence of named values and objects written one after the other to a stream, behind whatever it holds, is stored as the sequence of their blocks, and reading them one after the other, into any destinations, gives all of them back in order and stops right behind the last, whatever follows.",
  "every list of values of every data type and container and of objects of every supported class, every stream, reader and writer",
  "unbounded sequences",
  ["CodeGenerator/Generators/ISD_EntityWriter.py:EntityWriter","CodeGenerator/Generators/ISD_EntityReader.py:EntityReader"])
p("A table is a finite map under every history of calls",
  "Under every sequence of Insert, operator[] (each followed by any change to the object returned), Entries().emplace, assignment to Entries()[key], Entries().erase, Clear and copies, a table behaves as a finite map from keys to objects or null: the objects named are the ones last put there, other keys are untouched, Size() is the number of keys and iteration visits each key once. Dereferencing is undefined behaviour exactly for operator[] of an absent key or a null, and Insert under a key holding a null. Assigning a table to itself empties it.",
  "every history of calls, every key and object class, every iteration order of the map",
  "every history",
  ["ISD/ISD_EntityTable.h:Insert","ISD/ISD_EntityTable.h:operator[]","ISD/ISD_EntityTable.h:Entries","ISD/ISD_EntityTable.h:DeepCopy","ISD/ISD_EntityTable.h:Clear"])
p("Null sections are told from sections with contents",
  "On any bytes: BeginReadSection and BeginReadSectionsArray report success with a null pointer only if the caller allowed null and, unless the data ends there, the bytes are exactly the block of a null section (array); they report success with a pointer only for a block that is not null. BeginReadSectionInArray refuses a null element when the caller gave no place to report it, and else reports exactly whether the element has data. The block of a null section is always refused where null is not allowed.",
  "every byte string, position, reader state, key, flag combination and pattern of failing allocations",
  "every byte string",
  ["ISD/ISD_EntityReaderTemplates.inl:BeginReadSection","ISD/ISD_EntityReaderTemplates.inl:BeginReadSectionsArray","ISD/ISD_EntityReaderTemplates.inl:BeginReadSectionInArray","ISD/ISD_EntityReaderTemplates.inl:end_read_empty_large_block"])
p("The stored types are the documented types",
  "The types that can be stored are exactly the documented ones, each with its documented value code, array code and size: writing a value appends its code, its size with the key, exactly that many bytes and the key; writing a vector appends its array code and exactly that many bytes per element. Types with the same code and size are the same type, except a reference and what it refers by; a present value or array of one type, read as any other type under its key, is refused.",
  "every documented type, every value and vector, every pair of types and containers, every stream, both byte orders",
  "unbounded values; a round trip test cannot see a code or size changed on both sides",
  ["ISD/ISD_Types.h:ValueType","CodeGenerator/CodeGeneratorHelpers.py:base_types"])
p("A stored entity file loads and gives the entity back",
  "An object written to an empty stream with Write returning true, put in the file of its id followed by the hash of those bytes, is loaded: every run of the loader in which no system call fails returns Ok however the reads are split, and reading the stream it sets up into any object of the class gives back the contents written and consumes all of the data. A file of which the data were changed is refused unless the change kept the hash, a file of which the stored hash was changed is refused.",
  "every object of every supported class, every path, id, split of the reads, destination object, every change to the data or the hash",
  "every object and every schedule of partial reads",
  ["ISD/ISD.cpp:LoadThreadProcedure","ISD/ISD_SHA256.cpp:GetDigest","ISD/ISD_MemoryReadStream.h:MemoryReadStream"])
p("An entity in a packet reads back in the byte order of the packet",
  "If a stream that does not flip holds a packet header that declares its byte order, two ids, and an entity stored in that byte order, then FromMemoryStream returns Ok, leaves the stream at the entity in that byte order, and reading it gives its contents, whatever the version, other flags, unused bytes and ids are and whatever surrounds the packet.",
  "every object of every supported class, both byte orders, every version, flags, padding, ids, surrounding bytes",
  "unbounded objects, both byte orders",
  ["ISD/ISD_PacketSerializer.cpp:FromMemoryStream"])
p("A graph is a set of roots and a set of edges under every history of calls",
  "Under every sequence of InsertEdge, insertions into, erasures from and clears of Edges() and Roots(), Clear, DeepCopy (also of null or of the graph itself) and assignments, a graph shows exactly a set of roots and a set of directed edges: HasEdge and find tell membership, and iteration visits each member once, in ascending order. Histories that lead to the same sets give graphs that compare equal, are stored as the same bytes and are validated alike; graphs that compare equal have the same sets.",
  "every history of calls, every node type, every pair of histories",
  "every history",
  ["ISD/ISD_DirectedGraph.h:InsertEdge","ISD/ISD_DirectedGraph.h:Edges","ISD/ISD_DirectedGraph.h:Roots","ISD/ISD_DirectedGraph.h:MF::Clear","ISD/ISD_DirectedGraph.h:MF::DeepCopy","ISD/ISD_DirectedGraph.h:MF::Equals","ISD/ISD_DirectedGraph.h:MF::Write"])
p("Concurrent loads do not interfere",
  "In every interleaving of calls on an EntityLoader, its load threads and changes to files that nobody has open: every AsyncLoadEntity that returns Ok starts exactly one load, of the id it was called with under the path the loader had at that time; each load that ends did what a single load does on the files as they were at some time during the run, and returned Ok only if the file of its id was data followed by their hash; no load writes outside its buffer or waits for another; the path never changes once set.",
  "every interleaving of calls, threads and file changes, every number of loads",
  "every schedule",
  ["ISD/ISD.cpp:AsyncLoadEntity","ISD/ISD.cpp:LoadThreadProcedure","ISD/ISD.cpp:Initialize","ISD/ISD.cpp:IsEntityLoaded","ISD/ISD.cpp:GetLoadedEntity"])
p("References cannot be forged",
  "Whatever a program does with entity_ref objects (default construction, copies, moves, also of an object onto itself, make_ref, reading), every reference it holds is null, the value of _inf() or _sup(), a value that a make_ref of this program returned, or a value read from a stream. make_ref never returns null: it throws, and leaves its destination as it was, exactly if the system gives no uuid or the zero uuid. An object that was moved from is null, and a reference that is only handed on by moves is held by one object at a time.",
  "every history of calls on any number of objects, every answer of the system",
  "every history",
  ["CodeGenerator/InlinedCode/ISD_entity_ref.inl:entity_ref","ISD/ISD_Types.cpp:make_ref"])
p("Streams own their memory",
  "A program may hold any number of MemoryWriteStreams; as long as it does not copy them, each behaves as if it were alone: under every history of constructions, destructions, writes (also of bytes that another stream shows through GetData), position and byte order changes, every stream shows the size, position and bytes of a plain byte file that had the calls on this stream alone, and a call on one stream never changes another. Whatever allocations fail, no two streams share a buffer, no buffer is released twice or used after its release, a constructor that throws leaves nothing behind, and when all streams are destroyed all memory has been given back. Writing a stream's own bytes to itself works exactly as long as its buffer need not grow.",
  "every history of calls on any number of streams, every pattern of failing allocations, every choice of addresses by the system",
  "every history, every allocator",
  ["ISD/ISD_MemoryWriteStream.h:MemoryWriteStream","ISD/ISD_MemoryWriteStream.h:ReserveForSize","ISD/ISD_MemoryWriteStream.h:FreeAllocation","ISD/ISD_MemoryWriteStream.h:WriteRawData","ISD/ISD_MemoryWriteStream.h:GetData"])
p("Every block of the documented format is read, whoever wrote it",
  "Let the bytes at the cursor be a block of the documented format of some type, container and key, in any of the forms the format allows: any non-zero byte as true, anything in the unused bits of a bool array and the unused flags, any item size where it has no meaning. Then Read with that type, container and key returns true, delivers the value of the block and leaves the cursor right behind it, whatever surrounds the block. A Read that returns true before the end of the stream has read such a block. No bytes are a block of two values, and no two blocks of different length start at the same place.",
  "every type, container, key, value, form of the block, surrounding bytes, destination value, both byte orders",
  "the writer of this library produces one form only, so round trips never try the others",
  ["ISD/ISD_EntityReaderTemplates.inl:Read","ISD/ISD_EntityReaderTemplates.inl:read_array_metadata_and_index","ISD/ISD_EntityReaderTemplates.inl:read_array","CodeGenerator/Generators/ISD_EntityReader.py:Read"])
p("Every object in the documented format is read, whoever wrote it",
  "Let the bytes at the cursor stand for an object of a managed class in the documented format: values in any form the format allows, the roots and edges of a graph in any order and any number of times, the entries of a table in any order, sections that declare their size. Then Read into any object of that class returns true, the object has those contents and the cursor is right behind the bytes, whatever surrounds them. What Write stores is in this format, and no bytes stand for two different objects or begin with two stored objects of different length. A Read that returns true before the end of the stream has gone over bytes that stand for the object it leaves, except that the declared size of the last section of an entity may have been wrong.",
  "every managed class of the repository and every class built the same way, every object, every form of its bytes, surrounding bytes, previous contents of the destination, both byte orders",
  "the writer of this library produces one form only, so round trips never try the others; unbounded objects",
  ["ISD/ISD_DirectedGraph.h:MF::Read","ISD/ISD_EntityTable.h:MF::Read","ISD/ISD_Varying.cpp:MF::Read","ISD/ISD_IndexedVector.h:MF::Read","CodeGenerator/Generators/EntityGenerator.py:ImplementReaderCall","ISD/ISD_EntityReaderTemplates.inl:BeginReadSection"])
p("A read stream over a write stream's memory shows the stream until its buffer moves",
  "Make a MemoryReadStream over GetData() and GetSize() of a MemoryWriteStream and go on using the write stream and others. As long as the write stream exists and GetData() returns the same pointer, every Read and Peek through the read stream gives the bytes the write stream has at that time, cut at the size it had when the read stream was made, whatever calls were made in between. GetData() keeps its value while the write stream has no more bytes than it was constructed for, or has not grown since. When a call changes GetData() or destroys the stream, the old memory is released and reading a byte through the read stream is undefined behaviour; later it may show the bytes of another stream.",
  "every history of calls on any number of streams before and after, every position and count, every allocator",
  "whether a dangling read goes wrong depends on the allocator; every history",
  ["ISD/ISD_MemoryReadStream.h:ReadRawData","ISD/ISD_MemoryReadStream.h:Peek","ISD/ISD_MemoryWriteStream.h:GetData","ISD/ISD_MemoryWriteStream.h:ReserveForSize"])
p("What a read does depends on the bytes only, not on uninitialised memory",
  "Whether Read, BeginReadSection and BeginReadSectionsArray succeed, what they deliver and where they leave the cursor is a function of the bytes of the stream, the key, the type and the destination; it does not depend on what happens to be in the memory that the reader has not initialised. The same holds for reading whole objects.",
  "every byte string, position, type, container, key, managed class, destination, and every content of the uninitialised memory",
  "tests run with whatever the stack holds; every content of uninitialised memory must be considered",
  ["ISD/ISD_EntityReaderTemplates.inl:begin_read_large_block","ISD/ISD_EntityReaderTemplates.inl:read_single_item","ISD/ISD_EntityReaderTemplates.inl:BeginReadSection","ISD/ISD_EntityReaderTemplates.inl:BeginReadSectionsArray"])
p("Debug and release builds do the same",
  "With _DEBUG defined the library throws where one of its sanity checks fails. These checks guard against mistakes of the library and of its callers only: every program that uses EntityWriter and EntityReader with the data types of the library and names of at most EntityMaxKeyLength bytes does the same in both builds. It writes the same bytes, and on any bytes it reads the same values, refuses the same, and throws the same. The checks in the graph validation never fail. A longer name throws in the debug build before anything is written.",
  "every program over the writer and the reader, every state of them, every byte string, every managed class",
  "unit tests run in one build; every program and every byte string",
  ["ISD/ISD_Types.h:ISDSanityCheckCoreDebugMacro","ISD/ISD_EntityWriterTemplates.inl:begin_write_large_block","ISD/ISD_EntityWriterTemplates.inl:write_single_item","ISD/ISD_EntityReaderTemplates.inl:read_single_item","ISD/ISD_EntityReaderTemplates.inl:read_array_metadata_and_index","ISD/ISD_DirectedGraph.h:ValidateNoCycles"])
p("The code generator's files are right after every run, even after an interrupted one, and are touched only when they change",
  "On Windows, from any state of the files and whatever earlier run of the generator was interrupted at whatever point, a run leaves every generated file with exactly its lines and touches no other file; a file that already holds its lines is not touched at all, so a second run changes nothing. Code inlined from other files carries no line ends of its own into the lines, whatever line ends it is stored with.",
  "every set of files with different names, every lines without carriage returns, every previous contents of the disk, every point of interruption, including inside a write",
  "crash points times contents; tests do not interrupt the generator",
  ["CodeGenerator/CodeGeneratorHelpers.py:write_lines_to_file","CodeGenerator/CodeGeneratorHelpers.py:inline_file","CodeGenerator/CodeGenerator.py","CodeGenerator/Entities/__init__.py"])
p("SHA256 objects do not disturb each other and free what they hold",
  "In a program with any number of SHA256 objects that are made, given data, asked for digests and destroyed in any order, none of them copied, every call is well defined, the first digest of an object is the hash of exactly the data this object was given, and memory is held for the existing objects only, so none is left when they are destroyed. (Copies are not values: they share the data and free it twice.)",
  "every history of any number of objects, every data, every placement of the memory",
  "every history and every reuse of freed memory; a double free is often silent",
  ["ISD/ISD_SHA256.cpp:SHA256::SHA256","ISD/ISD_SHA256.cpp:SHA256::~SHA256","ISD/ISD_SHA256.cpp:SHA256::Update","ISD/ISD_SHA256.cpp:SHA256::GetDigest","ISD/ISD_SHA256.h:SHA256"])
p("A copy that runs out of memory throws and leaves a usable destination",
  "When DeepCopy of one managed object over another runs out of memory, std::bad_alloc reaches the caller and the destination is still an object of its class: it can be cleared, compared, validated, read into and copied to, and copying again with enough memory gives exactly what the source holds. Of an entity the variables before the failing one have the new contents and those behind it the old ones; a table keeps none of its old entries and has copies of some but not all entries of the source; a graph is unchanged or has the new roots with its old edges.",
  "every managed class, every destination and source, every allocation that fails",
  "every allocation of every copy must be made to fail; unbounded objects and nesting",
  ["ISD/ISD_DirectedGraph.h:MF::DeepCopy","ISD/ISD_EntityTable.h:MF::DeepCopy","ISD/ISD_IndexedVector.h:MF::DeepCopy","ISD/ISD_Varying.cpp:MF::DeepCopy","ISD/ISD_Varying.cpp:MF::SetType","ISD/ISD_idx_vector.h:idx_vector","ISD/ISD_optional_vector.h:optional_vector","CodeGenerator/Generators/EntityGenerator.py:DeepCopy"])
p("Tables own their objects, and references to entries stay valid",
  "A reference that Insert or operator[] of an EntityTable has returned stays a valid reference to the object of that entry, whatever else is inserted into, erased from, or done to this and other tables, until that entry itself is erased, replaced or cleared, or its table is assigned to or destroyed; moving a table moves its entries, so the references then are references into the table it was moved to. The object keeps its value unless it is changed through such a reference. A copied table has its own objects: no change of one shows in the other. No object leaks or is deleted twice: every object belongs to exactly one entry of one table, and when all tables are destroyed no object is left.",
  "all programs that define, fill, index, change, erase from, clear, copy, move and destroy any number of tables, in any order, all keys, all objects of the managed classes, all iteration orders of the map, all addresses the allocator may return",
  "a history is unbounded; a leak, a double delete or a dangling reference has no observable effect in most runs",
  ["ISD/ISD_EntityTable.h:EntityTable","ISD/ISD_EntityTable.h:Insert","ISD/ISD_EntityTable.h:operator[]","ISD/ISD_EntityTable.h:MF::Clear","ISD/ISD_EntityTable.h:MF::DeepCopy"])
p("The code generated for an entity does what its description says",
  "For every valid description of an entity (a list of variables with types, names and flags, and of template declarations), the header and source file that the generator writes compile to a class that has exactly the described variables, in order and with their default values, and whose Clear, DeepCopy, Equals, Write, Read, Validate, copy constructor, assignment and comparison operators do for every variable what they must: none is left out, used twice or confused with another, Write and Read use the variable's name as key and the same order, every failure is returned, and sections are opened and closed around managed variables. So an object of the generated class that is written is read back as an equal object.",
  "every description with any number of variables of every base type, container flag and managed class, all objects, streams, readers, writers and allocation outcomes",
  "descriptions are unbounded; a test exercises the generated code of the few entities that exist",
  ["CodeGenerator/Generators/EntityGenerator.py:CreateEntityHeader","CodeGenerator/Generators/EntityGenerator.py:CreateEntitySource","CodeGenerator/Generators/EntityGenerator.py:ImplementReaderCall","CodeGenerator/Generators/EntityGenerator.py:ImplementWriterCall","CodeGenerator/Entities/__init__.py:Variable","CodeGenerator/Entities/__init__.py:Template"])
p("Validating a graph takes bounded time and memory",
  "Validate of a graph with E edges and R roots always returns, cyclic or not: its search for cycles makes at most 5E+1 turns of its loops, looks in each at no more edges than one node has (so at most E(5E+1) times at edges in all) and never holds more than E+1 nodes on its stack; its search for unreachable nodes makes at most R+E+1 turns, looks at each edge at most once and never holds more than R+E nodes. The search for cycles is not linear in the size of the graph: some acyclic graphs with 3n+3 edges make it look at edges n*n times.",
  "all graphs over all node types, also those read from hostile files; all n",
  "graphs are unbounded and a test cannot show that no graph makes the validation hang or grow",
  ["ISD/ISD_DirectedGraph.h:ValidateNoCycles","ISD/ISD_DirectedGraph.h:ValidateRooted","ISD/ISD_DirectedGraph.h:Validate"])
p("An entity stored by one class is read by another only if the classes agree",
  "If an entity is stored in a file and Read of another entity class, or of another version of the class, is called where it begins, then Read returns true only if the two classes agree variable by variable: same names, types of the same family, single value or vector alike, the same width and number of scalars for values that are there, and no absent value for a variable that must be there; a class with more variables refuses a file that ends with the entity. A new version of a class that only drops variables at the end and makes variables optional (or no longer optional, if they are there) reads what the old one stored, with the same contents. Two exceptions are part of the claim: names of numbers that are proper suffixes of each other (see the property on wrong types and keys), and variables behind the last managed one, because the result of EndReadSection is ignored.",
  "all pairs of entity classes with any number of variables of all base types, containers and managed classes, all stored objects, all bytes before and behind them, both byte orders",
  "pairs of classes and files are unbounded; a test can only show that some pairs are refused",
  ["CodeGenerator/Generators/EntityGenerator.py:ImplementReaderCall","ISD/ISD_EntityReaderTemplates.inl:BeginReadSection","ISD/ISD_EntityReaderTemplates.inl:EndReadSection","CodeGenerator/Generators/ISD_EntityReader.py:ISD_EntityReader_cpp","CodeGenerator/Generators/ISD_EntityWriter.py:ISD_EntityWriter_cpp"])
p("Every generated overload of Write and Read stores and restores its type",
  "The two source files that the generator writes for EntityWriter and EntityReader define, for every container of every data type, exactly one overload of Write and one of Read, and nothing for any other type. Each of these functions, run as it is written, uses the value type code and the routine of its own type, passes on every failure, treats an absent optional as absent and an index as index, and for a type stored through another type (entity_ref, package_ref) converts every item: so Write appends the documented block of the value, and Read of the same type gives back the same value and stops behind the block.",
  "all 54 data types with all 6 containers, all values of any length, all keys, all streams, all previous contents of the destination, all allocation outcomes while reading",
  "648 functions are generated from templates; a test that covers all of them still covers only some values",
  ["CodeGenerator/Generators/ISD_EntityWriter.py:ISD_EntityWriter_cpp","CodeGenerator/Generators/ISD_EntityReader.py:ISD_EntityReader_cpp","CodeGenerator/CodeGeneratorHelpers.py:base_types","ISD/ISD_EntityWriterTemplates.inl:write_single_value","ISD/ISD_EntityReaderTemplates.inl:read_array","ISD/ISD_optional_vector.h:set"])
p("The limits of every data type are its limits",
  "data_type_information<T>::inf and ::sup are defined for every data type (sup not for string, where no greatest value exists) and bound it: no component of any value of T is below that of inf or above that of sup under the type's own <, with the single exception of minus and plus infinity in the floating point types; ::zero has only zero components and is what a variable holds after Clear. The header declares exactly one data_type_information for each documented type, with the members the source defines, and value_count times the size of the value type is the documented size.",
  "all 54 data types and all of their values",
  "the types have up to 2^1024 values",
  ["CodeGenerator/Generators/ISD_DataTypes.py:print_type_information_header","CodeGenerator/Generators/ISD_DataTypes.py:print_type_information_source","CodeGenerator/Generators/ISD_DataTypes.py:ISD_DataTypes_h","CodeGenerator/Generators/ISD_DataTypes.py:ISD_DataTypes_cpp","CodeGenerator/InlinedCode/uuid_hash_header.inl","CodeGenerator/InlinedCode/ISD_entity_ref.inl","CodeGenerator/InlinedCode/ISD_package_ref.inl"])
p("The generated functions for types chosen at run time do what the type asks for",
  "The source file that the generator writes for dynamic_types is a well-formed text, with one class and one object for each of the 54 data types with each of the 6 containers, all with different names. Its functions, run as they are written: new_type(data type, container) makes an object of exactly that C++ type with its default value, or throws when there is no memory, and gives a null pointer and false for numbers that name no type; delete_type, clear, copy and equals act on objects of that type as delete, T(), = and == of that type do; write and read store and load the object exactly as EntityWriter::Write and EntityReader::Read of that type would. Null pointers and numbers that name no type are refused with false and nothing changes. The search in the hash table of the text ends for every pair of int values.",
  "all pairs of int values as data type and container type, all pointers, all values of the objects, all memories, all allocation outcomes, all keys, all streams",
  "324 generated classes are reached through a hash table filled by the generator; a test covers some pairs of numbers and some values",
  ["CodeGenerator/Generators/ISD_DynamicTypes.py:ISD_DynamicTypes_cpp","CodeGenerator/Generators/ISD_DynamicTypes.py:AllocatorHashTable","CodeGenerator/CodeGeneratorHelpers.py:container_types"])
p("The compile-time information on every type is right, and clearing works for every type",
  "combined_type_information<T>, as the generated header declares it, exists exactly for the 54 data types and each of the 5 container templates over them, with T's data type, the documented number of the data type and the documented number of the container; two different types never have the same two numbers. clear_combined_type<T> is defined for each of them and leaves an object without contents whatever it held: the zero of a data type, an empty optional, a vector without elements; this is also what new_type makes for the two numbers. So Varying::Initialize<T>() and SetType<T>() give an object of type T, and IsA tells the types apart.",
  "all C++ types made of a data type name and a container, all values of the objects, all previous contents of a Varying",
  "324 specialisations and 324 functions are generated from templates; a wrong number in one of them makes a Varying read memory as another type",
  ["CodeGenerator/Generators/ISD_CombinedTypes.py:ISD_CombinedTypes_h","CodeGenerator/Generators/ISD_CombinedTypes.py:ISD_CombinedTypes_cpp","CodeGenerator/Generators/ISD_DataTypes.py:data_type_index","ISD/ISD_Types.h:container_type_index","ISD/ISD_Varying.h:Varying::Initialize"])
p("What the writer and the reader declare is what they define",
  "The two headers that the generator writes for EntityWriter and EntityReader declare a specialisation of Write and of Read for every container of every data type, each once, with a value of just that type as its last parameter, and no other; these are exactly the specialisations that the two source files define. So a call with a container of a data type compiles, links and stores or loads just that type, and a call with any other type does not compile. A new writer or reader, with the initial values the headers give its members, has no open section and no sections array.",
  "all C++ types made of a name and a container template (or none), all values, keys and streams, all addresses and positions of new objects",
  "648 declarations and 648 definitions are generated by separate loops; a program in which one is missing or has the wrong parameter still compiles until that type is used",
  ["CodeGenerator/Generators/ISD_EntityWriter.py:ISD_EntityWriter_h","CodeGenerator/Generators/ISD_EntityReader.py:ISD_EntityReader_h","CodeGenerator/Generators/ISD_EntityWriter.py:ISD_EntityWriter_cpp","CodeGenerator/Generators/ISD_EntityReader.py:ISD_EntityReader_cpp"])
p("A Varying whose contents cannot be copied loses nothing",
  "When there is memory for a new object but not for a copy of its contents (a string or vector), copying a Varying throws and nothing is lost: a failed construction makes no variable, a failed assignment leaves the destination with the type of the source and some contents of that type, all other variables are as before, every later call does what it should, and when all variables are gone no memory is left.",
  "all programs of calls on any number of Varying variables with such failures at any copies, all contents left by a failed assignment, all allocators and allocation outcomes",
  "the failures can come at any copy, and a lost object is not observable from a test without a special allocator",
  ["ISD/ISD_Varying.cpp:Varying::Varying","ISD/ISD_Varying.cpp:Varying::operator=","ISD/ISD_Varying.cpp:MF::DeepCopy","CodeGenerator/Generators/ISD_DynamicTypes.py:Copy"])
with open("/verif/properties.jsonl","w") as f:
    for x in P: f.write(json.dumps(x)+"\n")
print(len(P))
