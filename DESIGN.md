# Formal model of Cooolrik/ISD in Lean 4: design

`/repo` is read as text only; nothing in it is built or run. All proofs live in `/verif/lean` (`lake build` there). Properties are listed in
`properties.jsonl`, their status and theorem names in `MANIFEST.json`, the axioms of every claimed theorem in `AXIOMS.md`, the wrong programs
the theorems were tried on in `seeded/LOG.jsonl`.

## 1. Structure

* `Verif/Model` — the program, function by function; every definition cites the file and lines it models and says where it simplifies.
* `Verif/Spec` — what the theorems compare the program with, written without looking at the model's helpers: a plain byte file (`File`), the
  byte layout of values and blocks (`Format`), trees of sections and their bytes (`Tree`), which byte strings are blocks (`Accept`), which byte
  strings are stored objects (`Foreign`), the
  interface of a managed class with what copying/clearing/equality mean (`Managed`), the contents of the repository's entities (`Entities`),
  histories of a concurrent map (`ThreadMap`).
* `Verif/Proofs` — lemmas. `Verif/Props` — the theorems `Cnn_…`, one file per area, each with concrete cases that meet the hypotheses.

### Model modules

| module | models | repo source |
|---|---|---|
| Basic | bytes, u64 arithmetic with explicit wrap, little-endian object images, program outcomes (ok / throw / undefined behaviour) | ISD_Types.h |
| Endian | big-endian helpers, `swap_byte_order`, hex printing | ISD_Types.h 150-238, ISD_Types.cpp |
| WriteStream | `MemoryWriteStream`, with the whole allocation as memory, allocation failures chosen by an oracle | ISD_MemoryWriteStream.h |
| ReadStream | `MemoryReadStream` | ISD_MemoryReadStream.h |
| DataTypes | the 54 data types, value representation, containers | CodeGeneratorHelpers.py, ISD_DataTypes.py |
| Writer / Reader | `EntityWriter` / `EntityReader`: block templates, the typed overloads, the section calls | ISD_EntityWriterTemplates.inl, ISD_EntityReaderTemplates.inl, Generators/ISD_EntityWriter.py, ISD_EntityReader.py |
| Containers | `optional_value` (with heap cells), `optional_vector`, `idx_vector`, `optional_idx_vector`: copy, move, set, reset, compare | ISD_optional_*.h, ISD_idx_vector.h |
| Graph | `DirectedGraph`: edges, successors, DFS/BFS as step machines, validation; `EntityValidator` | ISD_DirectedGraph.h, ISD_EntityValidator.h |
| Order | comparison, bounds and hashing of uuid, hash, entity_ref, package_ref | InlinedCode/uuid_hash_header.inl, ISD_entity_ref.inl, ISD_package_ref.inl |
| Dynamic | the perfect-hash-like table of 324 type classes with linear probing | Generators/ISD_DynamicTypes.py |
| Managed | the nested class `MF` of graphs, tables, indexed vectors, Varying and generated entities | ISD_DirectedGraph.h, ISD_EntityTable.h, ISD_IndexedVector.h, ISD_Varying.cpp, Generators/EntityGenerator.py |
| Entities | the generated entities | CodeGenerator/Entities |
| ThreadMap | `thread_safe_map` as small steps of any number of threads | ISD_thread_safe_map.h |
| Sha | `SHA256` around the external hash library | ISD_SHA256.cpp |
| Loader | `EntityLoader::Initialize`, the load thread procedure, file names | ISD.cpp (ISD_EntityLoader.cpp is an older copy that is not part of the project file) |
| Refs | all `entity_ref` objects of a program, `make_ref` | ISD_entity_ref.inl, ISD_Types.cpp 114-126 |
| StreamHeap | all write streams of a program with their buffers on one heap; `VirtualAlloc`, `VirtualFree`, the implicit copies | ISD_MemoryWriteStream.h |
| Loads | `EntityLoader` with its concurrent load threads, `AsyncLoadEntity`, `IsEntityLoaded`, `GetLoadedEntity` | ISD.cpp 45-182, ISD.h |
| Generator, Descriptions | The text that the code generator writes for an entity, line by line; the descriptions in the repository | EntityGenerator.py, Entities/__init__.py 1-85, Entities/*/*.py |
| GenFiles | files written by the code generator | CodeGeneratorHelpers.py 129-173, CodeGenerator.py, Entities/__init__.py 90-97 |
| ShaHeap | SHA256 objects and their memory | ISD_SHA256.h, ISD_SHA256.cpp |
| TableHeap | Tables that own objects by address; references, copies, moves | ISD_EntityTable.h |
| Debug | the entity writer and reader with the checks of debug builds | ISD_Types.h 24-30, ISD_EntityWriterTemplates.inl, ISD_EntityReaderTemplates.inl |
| Views | read streams over the buffers of write streams | ISD_MemoryReadStream.h, ISD_MemoryWriteStream.h |
| Overloads | the text of the generated ISD_EntityWriter.cpp and ISD_EntityReader.cpp | Generators/ISD_EntityWriter.py 82-239, Generators/ISD_EntityReader.py 84-294, CodeGeneratorHelpers.py 27-67 |
| Limits | `data_type_information`: the printed rows, the constants and the initialisers of `zero`, `inf`, `sup` | Generators/ISD_DataTypes.py 11-26, 59-90, 163-203, 232-301, ISD_entity_ref.inl, ISD_package_ref.inl |
| DynText | the text of the generated ISD_DynamicTypes.cpp | Generators/ISD_DynamicTypes.py 38-230, CodeGeneratorHelpers.py 69-74, 113-117 |
| CombText | the text of the generated ISD_CombinedTypes.h and ISD_CombinedTypes.cpp, and the enumerations data_type_index and container_type_index | Generators/ISD_CombinedTypes.py 6-73, Generators/ISD_DataTypes.py 137-146, ISD_Types.h 147-155 |
| HeadText | the text of the generated ISD_EntityWriter.h and ISD_EntityReader.h | Generators/ISD_EntityWriter.py 6-80, Generators/ISD_EntityReader.py 6-82 |
| GraphCost | the work of the searches of a graph's validation | ISD_DirectedGraph.h 234-352 |
| TableCalls / GraphCalls | the public calls of tables and graphs as histories on objects | ISD_EntityTable.h, ISD_DirectedGraph.h |
| Packet | `PacketSerializer::FromMemoryStream` | ISD_PacketSerializer.cpp |
| VaryingHeap | `Varying` objects as pointers to heap objects, whole programs on variables | ISD_Varying.cpp, ISD_Varying.h, Generators/ISD_DynamicTypes.py |
| VaryingFail | copies of `Varying` of which the contents cannot be copied, programs with any number of them | ISD_Varying.cpp 13-26, 114-133 |

### Modelling decisions

* Host is x64 Windows: little endian, 64 bit `size_t`/`u64`. u64 additions that the code does not guard are modelled as `(a+b) % 2^64`.
* Release build: the sanity-check macros expand to nothing. A key of more than 40 bytes then overflows `read_key[40]` in the reader, which the
  model shows as undefined behaviour; theorems about reading assume keys of at most 40 bytes (what the debug build checks).
* Scalars are bit patterns of k bytes (k = 1,2,4,8); floats and signed integers are their bit patterns. Float *equality* is IEEE-754 on the
  patterns (NaN differs from everything, +0 equals -0).
* Undefined behaviour (access outside an allocation, null dereference, access through the wrong type) is the distinct outcome `ub`; C++
  exceptions are the outcome `throw`, which keeps the state reached, so that what happens after a caught exception can be stated.
* Allocation (`VirtualAlloc`, `std::vector::resize`) is decided by an oracle, universally quantified.
* Uninitialised stack bytes (the 40 byte key buffer in the reader, the magic of the packet reader) are universally quantified parameters.
* Objects that C++ addresses by pointer (sub-writers and sub-readers) carry an address so that calls with a wrong pointer can be stated.
* `std::set` is a strictly sorted list; `std::unordered_map` is a list in *some* iteration order, and where an insertion lands is a universally
  quantified policy. Validation and searches over them are relations or step machines, so termination is a theorem, not an assumption.
* Operating system calls (open, read, size) are nondeterministic inputs of relations.
* Sizes: a theorem about writing assumes that the stream ends below 2^60 bytes, so that u64 arithmetic in the writer does not wrap.

## 2. Plan per property: what is modelled, how it is proved

* C01, C02: refinement of the write stream to a plain byte file (`Spec.File`), induction over the list of operations; two streams refine the same file.
* C03 (partial): the code violates it (`ReserveForSize` updates `DataReservedSize` before the allocation can throw): negation by a
  concrete history, plus: contents are intact right after the throw, everything holds up to the first failure, and for
  histories that go on after failures (`Held`, `goOn`) the exact condition per call: unsafe exactly when a piece ends in the gap (`Gap`).
* C04: invariant + exact result of every operation, induction over the operation list.
* C05, C06, C07: codec lemmas over `Appends`/`Consumes` for each scalar kind.
* C08, C09: arithmetic on digit lists.
* C10-C15: a pure encoder from values to bytes (`Spec.Format`); the writer appends exactly it; the reader consumes exactly it, whatever surrounds it.
* C16: the pure encoder satisfies the skip rule; combined with "the writer appends exactly the encoding", also for section trees.
* C17 (partial): all pairs of type, container, key, value; false for small blocks (three counterexamples), proved when neither key is a
  proper suffix of the other, and for all large blocks. `C17_small_exact` and `C17_large_exact` (Props/Exact) say exactly, as equivalences, which read of which written block is accepted.
* C18 (partial): reader on every proper prefix; false for the empty key. `C18_exact` (Props/Exact) says exactly which cuts are accepted.
* C19 (partial): weakest-precondition rules (`Wp`) for the reader on arbitrary bytes; false for types with several components per item (heap
  overrun when the stored count is not a multiple): negation by a concrete stream; proved for everything else, and for those types when
  the count is a multiple.
* C20, C52: the same rules; C52 says in addition that the consumed bytes are a block of the documented layout holding the delivered value.
* C21: mutual structural induction over section trees for writer and reader.
* C22, C23: case analysis over every writer / reader state.
* C24 (partial): false (null dereference; `EndWriteSectionInArray` overwrites the start of the stream): negation by witness, proved for the calls
  that do refuse, and the exact condition for the null pointer in every state (`C24_null_exact`).
* C25: small-step interleaving semantics; the linearisation point is the critical section; invariant by induction over the schedule; plus
  absence of deadlock and a bound on the number of steps.
* C26: case analysis; heap cells for `optional_value` so that sharing and leaks are visible.
* C27-C33: sorted list lemmas; DFS and BFS as step machines with invariants and termination measure, for every reachable state.
  C28 (partial) is false for the successor equal to `sup`: negation + proof for all others.
* C34-C37, C53: list/permutation reasoning for every iteration order. C35 (partial) is false on self assignment.
* C38: linear probing lemma + kernel evaluation over the complete finite table of 324 entries; all other pairs of 32 bit numbers by the lemma.
* C39 (partial): false (uninitialised, self assignment, NaN): negation + proof for the rest.
* C40, C41: composition of the codec lemmas through an interface (`IsClass`) closed under tables and entities of any nesting.
* C42 (partial): false for the last managed variable (result of EndReadSection ignored in generated code): negation + exact statement for the rest.
* C43 (partial): false for arrays of entity_ref/package_ref, which append: negation + proof for exactly the other types.
* C44, C45, C46, C47, C48, C49, C50, C54, C55: direct models. C45 (ids survive Clear), C48 (size wraps), C50 (Varying, NaN) are false as stated:
  negation + partial.
* C51 (partial): histories of arbitrary calls on a writer (`Props/Protocol`), invariant; false for EndWriteSection.
* C56, C57: `Model/VaryingHeap` puts the objects on a heap with addresses chosen by an arbitrary allocator that may fail; a representation relation
  (each pointer is to a live object of the registered type, no sharing, every live object owned or lost) is preserved by every statement, so runs
  refine `Spec/VaryingHeap` (values, no pointers).
* C58 (partial), C59: weakest preconditions for readers on arbitrary bytes (`RWp` in `Proofs/HostileEntity`), by induction over the classes. C58 is
  false for arrays of vectors (C19), hence for `Mesh`: negation + proof for all other classes and for all bytes with right counts. C59 needs no such
  condition: the same induction with undefined behaviour allowed (`U`) shows what a read that returned true has made.
* C60 (partial): two runs of the same read with different allocators, compared step by step (`Follows` in `Proofs/Memory`), lifted to all classes by
  induction. False for refused reads (negation proved), proved for accepted ones.
* C61: from the round trip (reading a common prefix gives both objects). C62 (partial): induction over the classes without tables; false for tables (the sizes are the same for all classes: the keys are permuted)
  (negation proved).
* C63 (partial): a second model of every `Read` that works on the object in place (`readInPlace`), simulated step by step against `read`
  (`InPlaceSim` in `Proofs/InPlace`), by induction over the classes. Reading again without `Clear` is false for vectors of references (negation proved).
* C64: `RefusesT` (Proofs/Refuse), the counterpart of `AppendsT` for objects with an uninitialised Varying inside, by induction over the classes.
  C65: validity implies storability and depends only on the contents, by induction over the classes.
* C66: `Keep`/`KeepW` (Proofs/AppendOnly): an invariant of writer and stream (every noted position lies behind the first n bytes), for every routine,
  however it ends.
* C67, C68: the effect of each call on the reader (`Effect`) and a weakest precondition for arbitrary bytes (`RWp`), by induction over nesting and history.
- **C69** `Spec/Layout.lean` writes the bytes of every class and of each entity of the repository out of the blocks of `Spec/Format.lean`, without
  the programs and without `ClassSpec.nodes`; `StoredAs` (C61) says that Write appends exactly these bytes. Proved from `write_ok` by
  unfolding the trees. Found missing by mutation p050 (two variables of an entity under one name round trip all the same).
- **C70** Lists of `Item`s (values and objects); induction with `AppendsT.andThen` for writing and `Has.append` for reading.
- **C71** `TableCall.runAll` (Model/TableCalls.lean) against `MapStep`, a finite map `K → Option (Option V)` written without tables; induction over
  the history. Changes to an object through a returned reference are any function. Copies of objects have the same contents (`rel .exact`).
- **C72** Arbitrary bytes, as C67: the head of the block is read (`beginLarge_wp`), and determinism of the head of a written null block
  (`beginReadLarge_has`) excludes a pointer. Spec: `ReportsNull` and the blocks `Spec.sect fl key []`, `Spec.sectArray fl key none none`,
  `Spec.element fl []`.
- **C73** Spec: `Spec.typeTable` (Spec/TypeTable.lean), the documentation of ISD_Types.h as plain numbers. The table is compared with the model's
  types by evaluation of the whole (finite) table in the kernel; what is written is then C10/C12 for all values, and refusal is C17.
- **C74** Model: `Loader.SetsUp`, the runs that reach line 134 with the stream set up there. Composes C64 (what was written), C47 (every finished run)
  and C63 (`ReadsBack`).
- **C75** Spec: `packetBytes`. Composes C48 (the header) and C63 (`ReadsBack`).
- **C76** Model: `GraphCalls`. Spec: `NodeSets.step`, a set of roots and a set of edges, and `Shows`. By induction over the history; equality and storing follow from C29.
- **C77** Model: `Loads`, a small-step interleaving of calls, threads and file changes. Invariant per thread (`Explained`): its state is reached by a single
  load on files seen during the run; conversely a single load is replayed by steps of one thread. Assumes that assigning the path to raw memory works
  (finding 14).
- **C78** Model: `Refs`, the objects of type `entity_ref` of a program (variables and the statics behind `_inf()`, `_sup()`) under the public members of the
  class. Invariants over histories: provenance of every value; injectivity of the holders if nothing is copied and all values made or read differ.
- **C79** Model: `StreamHeap`, the stream objects with pointers into a heap of blocks. A simulation (`Tracks`) shows that each routine does on the heap what
  `Model.WriteStream` does on a value, and keeps the ownership of all others (`Owned`, `OthersKept`); histories follow by induction, with C01 for the contents.
- **C80** Model: as C10 and C52. `Spec.TypedBlock` is the documented format as a relation. C52 shows that what is accepted is such a block; the converse goes through
  the reading routines once more with a header of which only the meaningful bits are known (`Proofs/LooseBlocks`). Together: a block is accepted exactly if it is in the
  format, and the format is unambiguous.
- **C81** Model: as C58 and C63. `Spec/Foreign` gives the format of whole objects as a relation between objects and bytes, over the same classes as `IsClass`. One direction is
  an induction over the derivation (`Proofs/ForeignReads`: each reading routine consumes what stands there), the other an induction over the class (`Proofs/ForeignSound`: what
  a successful read went over). The one looseness, the size of the last section, is a flag of the relation, with `longSection` as the case that needs it.
- **C82** Model: `Model/Views`, read streams with pointers into the heap of C79. Every call on a write stream either leaves its pointer or takes its size past what was reserved (an
  invariant of each routine); with C79 the bytes behind an unchanged pointer are those of the file of the stream. For a moved buffer: by C79 nobody owns the old block. Any history of reads, `Peek`s and `SetPosition`s on the read stream does what it does on a file (C82_view_histories).
- **C83** The key buffer is a parameter of the reader (`REnv.junkKey`). Relational proof (`Proofs/Indep`): two runs that differ in it alone go through the same states, unless a
  key is cut off by the end of the stream; from there on the cursor stays at the end, one of the two refuses, and — if nothing that may be absent is stored in a large block — both
  do. The relation is closed under sequencing, so it is shown once per routine and by induction over classes. False in general, with counterexamples.
- **C84** Model: `Model/Debug`, the routines with their checks. Programs are trees of calls that may depend on all results (`Spec/Programs`). Writing: each check follows from the
  number of bytes the routine has moved. Reading: a relation between the two runs, the same or the debug run throws and the release run does not accept, closed under sequencing
  (a release run that has gone past the end of its block ends in a refusal, since no routine moves the cursor back). Induction over programs and over classes.
- **C85** Model: `Model/GenFiles`, the disk as a function from paths to files, `write_lines_to_file` with every disk it goes through (a text is stored in any portions). One file by cases
  on what is found; runs by induction over the files; crash points are members of the trace, from each of which a run is proved to repair everything. False outside Windows (`chmod` takes the
  right to read) and with carriage returns in lines.
- **C86** Model: `Model/ShaHeap`, contexts by address and objects with pointers, including the copy constructor and assignment of the compiler and a failing `malloc`. Invariant: every
  object owns one context, fed with its data (pieces of C46), and no other context exists. Histories by induction. Copies, assignments and failed allocations are shown to go wrong.
- **C87** Model: the relations `copyFails` and `constructFails` of each class in `Model/Managed` (how a copy can end when an allocation fails, with the program terminated where the exception
  would leave a `noexcept` function). Well-formedness of what is left by induction over the classes, using the laws of C50 for the parts that were copied; the second copy is C50 again.
- **C88** Model: `Model/TableHeap`, a heap of objects by address and any number of tables of keys and pointers, with `Insert`, `operator[]`, access through `Entries()`, `Clear`, copies, moves,
  destruction and changes through references; deleting or using what is not an object is undefined, the allocator may return any free address. Invariant: an address is in use exactly when one
  entry of one table points to it (`Sound`). Specification: `Effect` (each call as a change of the finite maps of the tables) and `Drops` (the calls that end an entry), in `Spec/TableHeap`.
  Proof: the invariant with loose objects (`Own`) through each step, induction over the loop of `DeepCopy` and over histories; `C88_call` also shows that possible calls return.
  Counterexample: using a reference after its entry was erased (`C88_dangling`).
- **C89** Model: `Model/Generator`, the lists of lines that `CreateEntityHeader` and `CreateEntitySource` make from a description. Spec: `Spec/Cpp`, a lexer, a parser and a meaning for the
  part of C++ that generated files use (the meaning of `EntityWriter`, `EntityReader` and the library's classes is that of the model); `Spec/Generator`, the variables that a description asks for.
  The functions of a compiled class are found from its text alone. Proof: tokens of every kind of line (`CppLex`), parsing by induction over the variables (`CppParse`, `CppSource`,
  `CppHeader`), execution of the parsed functions by induction over the variables, with a lens for the rest of the object (`CppExec`, `CppExecIO`), assembly (`CppClass`).
  `C89_generated_class`: the class is `entityMF` of the described variables; `C89_generated_round_trip` end to end; `C89_repository` for the seven entities of the repository.
  Outside `Valid`: `C89_false_for_stray_flags`. Preprocessor lines and name lookup outside the class are not modelled.
- **C90** Model: `Model/GraphCost` counts, turn by turn of the searches of `Model/Graph`, the edges looked at and the nodes held. By a potential: three for each edge the outer loop has not
  taken, two for each edge of an unvisited node and for each unvisited node on the stack, one for each visited node on the stack; every turn lowers it. That taking a node from the stack pushes
  nothing follows from an invariant (children of visited nodes are visited or above them). `C90_false_linear` simulates the search on a family of graphs for every n.
- **C91** Model: `entityMF` of two unrelated lists of variables. By induction over both lists at once: C17 and C20 give each base variable and the place behind it, the head of a large block each
  section (`head_on_section`), and the place behind a section is known because a section that was left open makes the next `BeginReadSection` fail (`open_no_managed`). `StoredIn` says that the
  bytes come from `Write`. The other direction (`C91_compatible_classes_read`) from C41: the bytes of the shorter class are a prefix.
- **C92** Model: `Model/Overloads`, the lines of the two generated files (taken over from the generator by a script). Specification: `Spec/Overloads`, a parser and a meaning for the C++ in them
  that do not refer to the generator; the function templates called there mean what `Model/Writer` and `Model/Reader` say. Proof: the tokens of every line for any names (`Proofs/OverLex`), the
  24 templates parsed for any names (`OverParse`), run for any type (`OverExec`), and the generator's table compared with `allTypes`. Reading needs that a routine that must not find an empty
  block never reports one (`NeverEmpty`). Then C10-C13 apply to the text.
- **C93** Model: `Model/Limits`, the rows and constants that ISD_DataTypes.py prints and the values its initialisers construct (`FLT_MAX` and `DBL_MAX` by their IEEE bits). Specification: `Spec/Limits`, a value as a
  list of parts and the C++ `<` of parts by type name (two's complement, IEEE 754, bytes), plain numbers only. Proof: the 54 rows are evaluated by the kernel to one bound part each, and each bound is compared with an
  arbitrary part by arithmetic. Exact: minus infinity is the only part below `inf`, plus infinity the only one above `sup`.
- **C94** Model: `Model/DynText`, the lines of ISD_DynamicTypes.cpp (taken over from the generator by a script), the table from `Model/Dynamic`. Specification: `Spec/DynText`, a parser and a meaning for the C++ in
  them: classes with virtual methods, a table of pointers to objects by name, the search, conditions, calls, casts of `void*`, over the heap of `Model/VaryingHeap` with a writer and a reader. Proof: the text is
  lexed line by line with the names as holes (a name is only required to be an identifier), parsed by induction over the classes and the table, each name in the table is resolved to the one object with that name,
  the search is the one of C38, and each function is run statement by statement. The statements are for the documented numbers of a type (`Spec.Numbers`, by `TypeId` and `ContainerId`) and for all others;
  `C94_as_varying_uses_it` gives equality with the functions of the heap model everywhere, undefined behaviour included, so C56 and C57 speak of this text.
- **C95** Model: `Model/CombText`, the lines of the two files and of the two enumerations (taken over from the generator by a script). Specification: `Spec/CombText`, a parser and a meaning: a
  specialisation must be there exactly once, enumerators are looked up in the text of the enumerations, and `clear()`, `reset()` and the assignment of zero exist only for the containers that have them.
  `C95_information`, `C95_nothing_else`, `C95_told_apart` on the header; `C95_clear` on the source file, against `Spec.Cleared`; `C95_clear_is_new` and `C95_set_type` for `new_type` and `SetType<T>`;
  `C95_as_type_uses_it` and `C95_as_clear_uses_it` show that what the specification of C94 takes for granted about these two files is what they do.
- **C96** Model: `Model/HeadText`, the lines of the two headers (taken over from the generator by a script). Specification: `Spec/HeadText`, a comment stripper, a parser and a meaning: which
  specialisations of `Write` and `Read` are declared, with which argument, and with which values the members of a new object begin. `C96_declared_iff_defined`: exactly those that the source files
  define (C92); `C96_write`, `C96_read`: a call compiles, links and does what the model does; `C96_other_types_do_not_compile`; `C96_new_objects`: the state with which the model of a writer and a reader
  starts is the one these headers give. The other methods of the classes are part of the expected text (`Frame`); their definitions are those of the models Writer and Reader.
- **C97** Model: `Model/VaryingFail`, the copy constructor and the copy assignment of `Model/VaryingHeap` with an assignment of the contents that throws and leaves any object of the type. Specification:
  `Spec/VaryingFail`, variables as values, and the count of abandoned objects (`leak`). The representation relation of C56 and C57, one more case per failing statement. False for the copy constructor.

## 3. Trusted base

* Lean's kernel (Lean 4.33.0). Axioms: only `propext`, `Classical.choice`, `Quot.sound`; `AXIOMS.md` lists them per theorem. No axioms of our
  own, no compiled evaluation: finite tables are evaluated by the kernel (`decide +kernel`).
* Mathlib is hardly used (no Mathlib tactic or lemma is trusted: everything is checked by the kernel).
* The reading of the C++ and Python into the model. Each definition cites its lines; nothing checks this mechanically.
* Standard library behaviour that the model takes for granted: `std::set` keeps its elements strictly sorted by `<`; `std::unordered_map` holds each
  key once and iterates in some order; `std::vector`/`std::string` hold what was put in; `std::mutex` gives mutual exclusion; `new T()` of the base
  types gives zero; `memcmp`, `memcpy` as documented; glm `==` is the conjunction of the component comparisons and `value_ptr` the array of
  components.
* SHA-256 itself: `Dependencies/librock_sha256` is an empty submodule in the repository. It is a parameter with the assumption that feeding pieces of
  1..INT_MAX bytes hashes their concatenation (`Sha.Computes`).

### Modelled

Everything in the table of section 1. In particular all of ISD_MemoryWriteStream.h, ISD_MemoryReadStream.h, ISD_EntityWriterTemplates.inl,
ISD_EntityReaderTemplates.inl, the typed Read/Write overloads of all 324 combinations of data type and container, ISD_DirectedGraph.h (except `Print`-like
output), ISD_EntityTable.h, ISD_IndexedVector.h, ISD_Varying.cpp, the `MF` classes of the generated entities, ISD_thread_safe_map.h, ISD_EntityValidator.h,
ISD_SHA256.cpp, ISD.cpp (the loader; ISD_EntityLoader.cpp is an older copy of it that does not compile), ISD_PacketSerializer.cpp.

### Not modelled

* Log output (ISD_Log.h), the debug-only sanity checks, `ISD_TestNode.h`, the tests and test helpers.
* The text that the generator writes for entities is modelled and given a meaning (C89), for the part of C++ that it uses: without the preprocessor and without name lookup outside the
  class. For the dynamic types and for the generated overloads of Read and Write the model follows the templates in the generator; C94, C95 and C92 show that this is what the generated text means. The text of ISD_EntityWriter.h and ISD_EntityReader.h is modelled in the same way (C96). The two special members that move are not modelled.
* What exactly a failed read of a base value leaves in its variable (arbitrary in the model, C63); the value of out-parameters of failed section calls.
* Failures of `new` for small objects (nodes, subsections); failures of containers while reading a value are modelled;
  failures of temporaries while writing (the packed bits of a bool vector, the ids of a vector of references) are not.
* The contents of the packet after the header (the code stops there), path conversion by the operating system beyond what `Loader` states; `widen` is the identity on ASCII.
* Timing, fairness of the mutex (C25 proves absence of deadlock, not starvation freedom).

## 4. Findings (places where the code does not do what a user would expect; each is a theorem or is stated beside one)

1. `MemoryWriteStream`: after a `bad_alloc` the stream believes it reserved the memory; the next write leaves the allocation (C03).
2. Small blocks have no key length: a value read with another width can be accepted when keys are suffixes of each other (C17).
3. With the empty key a truncated optional or value can be accepted (C18); string reads accept a size field truncated at the end of the stream.
4. `read_array` of types with several scalars per item overruns the destination when the stored count is not a multiple (C19).
5. `EndWriteSection(nullptr)` and the other End calls dereference null when nothing is open (C24); `EndWriteSection` closes an open array (C51).
6. A section with an empty body cannot be told from a null section.
7. `GetSuccessors` misses the successor equal to the `sup` constant (C28); `HasEdge` uses the undeclared `pair_type`; float node types have
   `inf = -FLT_MAX`, which is not the lower bound.
8. `EntityTable`, `IndexedVector` and `Varying` lose their contents on self assignment (C35, C39, C50), so `Scene = Scene` loses all layers.
9. `EntityTable::Insert` and `operator[]` dereference null for null entries (C53); the const `operator[]` would not compile.
10. Generated `Read` ignores the result of `EndReadSection` (C42); optional managed variables would not compile.
11. Vectors of `entity_ref`/`package_ref` append to the destination when read (C43).
12. `ClearErrorCount` keeps the error ids; the count wraps at 2^32 (C45).
13. `Varying`: two uninitialised objects compare unequal, `Clear` keeps the type, move assignment leaks the held object and self-move loses it (C57), a failed `SetType` leaves the type set with null data.
14. Loader: handle leak on every error after open, endless loop on 0-byte reads, `bad_alloc` escapes instead of `ECantAllocate`, a `wstring` is
    assigned in malloc'ed memory in `AsyncLoadEntity`, directories with extra attributes are rejected, `dir_name` is unused (C47, C55).
15. Packet: position + size wraps, a flipping stream stays flipped, short streams compare an uninitialised magic (C48).
16. `optional_value` self-move keeps the value, `optional_vector` self-move becomes absent, `entity_ref`/`package_ref` self-move becomes null (C26, C49).
17. Reading a hostile `Mesh` file writes behind the end of a vector (C58_false_for_Mesh; consequence of 4).
18. The room left in a block is computed as `end - position` in unsigned arithmetic; with a block size that ends inside the block's own header it
    wraps, so the count checks pass and the reader asks for up to 2^63 bytes for a 29 byte file (C60_false_for_refused_reads).
19. Tables are stored in the iteration order of `unordered_map`: equal tables can be stored as different bytes, so hashes of stored entities are not
    hashes of their contents (C62_false_for_tables).
20. Retrying a read into an object whose first read failed duplicates the references of a `vector<entity_ref>` variable (C63_false_for_reference_vectors).
21. A writer without an open array accepts `EndWriteSectionInArray( nullptr, 2^64-1 )` and overwrites the first eight bytes of the stream
    (C66_false_for_last_index).
22. A refused `BeginReadSectionsArray` can leave the number of elements behind; `BeginReadSectionInArray( nullptr, 0 )` is then accepted with no array
    open (C67_element_without_array).
23. A loader that was never initialised accepts `AsyncLoadEntity` and loads from the root directory; nothing that was loaded can ever be obtained:
    `IsEntityLoaded` and `GetLoadedEntity` always give false and null with status `Ok` (C77_nothing_is_ever_loaded).
24. `entity_ref::_inf()` and `_sup()` return non-const references to statics: moving out of `_sup()` makes it null for the rest of the program
    (C78_sup_can_be_lost; the constants `entity_ref_inf`, `entity_ref_sup` are not affected).
25. `MemoryWriteStream` has implicit copies that share the buffer: the copy writes to released memory, and its destructor releases a buffer that may by then belong to
    another stream (C79_copy_dangles, C79_copy_frees_another).
26. `Write( (u8*)stream.GetData(), n )` on the same stream reads released memory if the buffer grows (C79_append_self, C79_append_self_fails).
27. A `MemoryReadStream` over `GetData()` of a write stream dangles as soon as the write stream grows; it may then show the bytes of another stream (C82_demo).
28. `begin_read_large_block` does not check how many bytes of the key it has read into its uninitialised array: a file that is cut off in front of the name of its last, optional,
    variable is accepted if the array happens to hold that name, for example from the previous read (C83_false_for_optionals).
29. Debug builds throw on files that release builds refuse: an indexed array whose declared size ends inside its header trips the check in `read_array_metadata_and_index`, an
    optional value without a name at the end of the file the one in `read_single_item` (C84_false_in_general). Hostile files can thus raise exceptions in debug builds only.
30. `write_lines_to_file` makes a file that it replaces writable for its owner with a mode that takes the right to read; outside Windows a run that is interrupted there makes every later run
    fail at this file (C85_false_elsewhere). The old file is removed before the new one is written (C85_file_is_missing_for_a_moment), and a file whose run was interrupted just before the last
    `chmod` stays writable. `Variable.__init__` calls `sys.exit` without importing `sys`.
31. `SHA256` can be copied and assigned although it owns its context by a raw pointer: a copy frees it twice (C86_copies_free_twice), data given to a copy changes the digest of the original
    (C86_copies_share), an assignment leaks (C86_assignment_leaks); the result of `malloc` is not checked (C86_failed_malloc).
32. The copy constructors of `optional_value`, `idx_vector` and `optional_idx_vector` allocate and are `noexcept`. `EntityTable::MF::DeepCopy` calls the one of `IndexedVector`, so copying a
    `Mesh` terminates the program when memory runs out there (C87_false_Mesh) instead of throwing. A copy constructor of `Varying` that throws leaks its object (no destructor runs). A copy of
    a graph that runs out of memory can leave the new roots with the old edges (C87_false_rules).
33. A variable that is described as `indexed` but not as `vector` is declared without a container and without `= {}`: a new object has an undefined value there (C89_false_for_stray_flags).
    A variable of a managed class can only have one of the template types of its own description, because `Write` and `Read` call `Entity::Type::MF`.
34. The search for cycles looks at the edges of a node again each time the node is taken from the stack, and pushes a node once for every parent that is visited before it: a graph file with
    3n+3 edges can make `Validate` do n² work (C90_false_linear). With each node's edges looked at only when it is first visited it would be linear.
35. Nothing in a stored entity names its class: `AttributeLayer::MF::Read` returns true on every stored `Node`, `TestEntity` or `SceneLayer`, since they all begin with a string `Name` and nothing
    checks that a file has been read to its end (C91_AttributeLayer_reads_a_Node). Classes that do differ in a variable refuse each other (C91).
36. `inf` and `sup` are documented as the minimum and maximum *possible* value; for `float`, `double` and the types made of them they are the least and greatest finite values: minus infinity is below `inf`
    and plus infinity above `sup` (C93). `DirectedGraph` looks for the edges of a node between `inf` and `sup`, so a graph over `double` would not see edges to an infinite node.
37. `Varying`: the copy constructor loses the object it has made when its contents cannot be copied: `DeepCopy` throws inside the constructor, so no destructor runs (C97_copy_constructor_leaks).
