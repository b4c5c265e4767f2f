# Formal model of jbcoe/value_types in Lean 4: design

Source modelled: `/repo` at the pinned commit. Model, specification and proofs: `/verif/lean/Verif`.
Property list: `/verif/properties.jsonl`. Claim table: `/verif/MANIFEST.json`.
Log of wrong programs tried against the theorems: `/verif/seeded/LOG.jsonl`.

Layout: `Verif/*.lean` is the model (and three files with concrete data, `Demo`, `NDemo`, `PNDemo`);
`Verif/Spec/*.lean` is the specification; `Verif/Proofs/*.lean` are lemmas; `Verif/Props/*.lean` state the properties
(theorem `Cxx_…` belongs to property `Cxx`), with examples beside them that show that the hypotheses can be met.

## 1. The model

**Machine (`Machine.lean`).** A computation is a total function from a machine state to a result
`ok value state | threw exception state | terminated | ub kind | diverged`. Undefined behaviour, `std::terminate`
and running out of recursion fuel are distinct outcomes, so "no UB" is a statement about the result.
The state holds

* `hs`: every object of type indirect/polymorphic, by location: `none` (no object alive there) or its two data
  members (pointer, allocator);
* `heap`: every allocated block, with the memory resource it came from and its contents (raw, or a live object);
* `trace`: every allocator call and every construction/assignment/destruction of an owned object, in order;
* an environment chosen by an adversary for each call: whether an allocation throws, which free address it
  returns, and a choice number passed to every operation of `T` (which decides whether and how it throws).

All theorems quantify over all environments, so over all throw points and all address choices.

**Owned type (`Types.lean`).** `TSpec` is an arbitrary record: result or exception of construction from arguments, copy,
move (including what a move leaves in the source, with or without a throw), assignments (including what a throwing
assignment leaves behind), and the traits the code queries. Nothing is assumed about it. The functions of `indirect` are
written against `TOps`, operations on objects in the machine; `TSpec` gives one such record and recursive nodes another.

**Allocator.** `ATraits`: `operator==`, the memory resource of an allocator, the propagation/equality traits,
`select_on_container_copy_construction`, default construction. The only law assumed ("sound") is the
Cpp17Allocator requirement that allocators that compare equal (or `is_always_equal` ones) can free each other's
storage. Reflexivity of `==` is an explicit extra hypothesis where it is needed, because the repository's own tests
use an irreflexive allocator.

**Code.** One Lean definition per C++ function; each cites the lines it models and states its simplifications.

| file | models |
|------|--------|
| `Indirect.lean`, `IndirectOps.lean` | indirect.h: constructors, destructor, assignments, swap, observers; the public calls |
| `Indirect14.lean` | indirect_cxx14.h |
| `Polymorphic.lean`, `PolymorphicOps.lean` | polymorphic.h: control block, constructors, assignments, swap, observers |
| `Polymorphic14.lean` | polymorphic_cxx14.h |
| `Compare.lean` | comparison operators, `std::hash`, `synth_three_way` of indirect.h and indirect_cxx14.h; the operators of the owned type are computations that may throw |
| `Overload.lean` | constraints and overload resolution of the forwarding constructors and assignments |
| `Tracking.lean` | tracking_allocator.h and tagged_allocator.h |
| `Composite.lean` | classes with any number of indirect or polymorphic members and compiler-generated special members (README, `Composite` examples, compile_checks) |
| `Variant.lean` | `std::variant` of one ordinary and any number of indirect or polymorphic alternatives (compile_checks/*_in_variant.cc): [variant.ctor], [variant.assign], emplace |
| `Vector.lean` | `std::vector` and `std::pmr::vector` of indirect or polymorphic (indirect_test.cc, polymorphic_test.cc, benchmarks): element functions of [vector], reallocation by `move_if_noexcept` |
| `Optional.lean` | `std::optional` of indirect or polymorphic (indirect_test.cc, polymorphic_test.cc), and variables of the contained type: [optional.ctor], [optional.assign], [optional.swap], reset, emplace, value |
| `Maps.lean` | `std::map` and `std::unordered_map` with mapped values of type indirect or polymorphic (indirect_test.cc, polymorphic_test.cc), and variables of the mapped type: nodes, emplace, try_emplace, insert_or_assign, erase, clear, at, copies, moves, swap, merge |
| `Consteval.lean` | the `consteval` functions of compile_checks/indirect_consteval.cc and compile_checks/polymorphic_consteval.cc, as programs with local variables |
| `Headers.lean` | feature_check.h and the directives of the four headers: guards, conditions, macros, which names they define and use; the preprocessor |
| `Incomplete.lean` | which questions about types the declarations of the four headers ask, in which order, and what their definitions need; translation units; exploration/wrapper.h and traits_and_concepts.cc |
| `Source.lean` | what kind of expression each function gives to the owned type's constructors, and overload resolution among these |
| `Mixed.lean` | comparisons of operands of all nesting depths: which operator overload resolution selects, and what its body does |
| `Fancy.lean` | indirect.h once more, with a pointer type that is a parameter and every pointer object a function makes, copies and reads; what the four headers need of pointers |
| `Sets.lean` | programs: `find`, `insert` and `erase` of search trees and hash tables whose keys are `indirect` objects |
| `Layout.lean` | class layout of the Itanium C++ ABI, and the members and bases of the owners and of the blocks of `polymorphic` |
| `Explicit.lean` | copy initialization, initialization and assignment from braces: which constructor is selected and whether it may be |
| `Subobject.lean` | polymorphic.h and polymorphic_cxx14.h once more, with base class subobjects: `u_` and the `T` in it have places of their own in the control block, `p_` points to the `T` (polymorphic.h:82, :343-361, polymorphic_cxx14.h:137, :417-435) |
| `Looking.lean` | owned types whose functions depend on all owners, and destructors that come back to their owner (client code; the functions of the headers are those of the four models) |
| `Containers14.lean` | the types of the C++14 headers as members, alternatives and elements, for `Composite.lean`, `Variant.lean` and `Vector.lean` |
| `Node.lean`, `NodeProg.lean` | a class with any number of `optional<indirect<Node>>` members, and programs on trees of such nodes |
| `PolyNode.lean` | the same with `polymorphic` members |
| `NodeCompare.lean` | defaulted comparison and hash of such nodes |
| `Fine.lean`, `IndirectFine.lean`, `PolymorphicFine.lean` | indirect.h and polymorphic.h once more, as programs of single memory accesses (shown to be the functions of `Indirect.lean` and `Polymorphic.lean` if run without interruption) |
| `Indirect14Fine.lean`, `Polymorphic14Fine.lean` | the same for indirect_cxx14.h and polymorphic_cxx14.h |
| `Query.lean`, `QueryFine.lean` | comparisons and hashes of `Compare.lean` as calls of threads, and as programs of single memory accesses |
| `Wrapper.lean` | exploration/wrapper.h |
| `Constraints.lean` | the constraints of the constructor and assignment templates of the four headers, from traits |
| `Mandates.lean` | the static assertions and the expressions in the definitions of the members that are not templates, and of the control blocks, from traits |
| `Noexcept.lean` | the `noexcept` specifications of the public functions of the four headers, from the traits of the allocator |
| `Benchmark.lean` | benchmarks/indirect_benchmark.cc and polymorphic_benchmark.cc: `clone`, the statements on raw pointers and on `std::unique_ptr`, `std::accumulate` |
| `Members.lean` | exploration/incomplete_types.h and .cc: `UniquePtrMember`, `VariantWrapperMember` (the defaulted members of `WrapperMember` and `ConstrainedWrapperMember` are `Wrapper.lean`; those of the classes with vectors are not modelled) |
| `Concurrent.lean` | any number of threads that interleave such accesses |
| `Synced.lean` | such threads, where any thread may begin any call at any time |
| `Access.lean` | which overload of `operator*` and `operator->` is called, and what kind of expression the call is; chains of accesses |
| `Deduction.lean` | deduction guides of indirect.h and indirect_cxx14.h, and the implicit ones |
| `Node14.lean`, `PolyNode14.lean` | `Node.lean`, `NodeProg.lean` and `PolyNode.lean` with the functions of the C++14 headers |
| `Client.lean` | programs that branch on results and exceptions; insertion sort; swap by three moves (client code, no counterpart in /repo) |
| `Block.lean` | programs with local variables, destroyed at the end of their blocks (client code; compile_checks/*_consteval.cc and the tests are such programs) |
| `Aware.lean` | owned types whose constructors are passed the allocator with which `construct` is called (uses-allocator construction: indirect.h:447, indirect_cxx14.h:559, polymorphic.h:80, polymorphic_cxx14.h:135) |
| `Counting.lean` | allocators with members `construct` and `destroy` that construct and destroy and record it (indirect.h:447, :457, polymorphic.h:80, :89, :101, :112, :137 and the C++14 headers) |

**Histories.** `Op` is the set of public calls. `run` executes a list of (call, environment) pairs on any number of
objects; a call that throws leaves the state it left and the program goes on. `Legal` is the documented precondition
of each call (objects alive, not valueless where `operator*` is used, swap with equal or propagating allocators),
stated on the abstract state only. `Reach` are the states of all histories of legal calls.

## 2. The specification

`Verif/Spec/*.lean`. For histories: an abstract object is an allocator and an optional value (`Box`, for polymorphic with
a type tag, `PBox`); there is no heap, no pointer and no resource. The step relation gives, call by call, the effect
stated in DRAFT.md. It is short and does not use the model's functions. Further files: counting of trace events
(`Trace`, `Effects`, `Table`), comparison of optional values and laws of orders (`Compare`), trees and what statements do
to trees (`Tree`, `World`, `NodeRun`, `PolyTree`, `NodeCompare`), footprints and interleavings (`Footprint`, `Threads`, `Concurrent`, `Synced`), histories with the C++14 headers (`Indirect14`, `Polymorphic14`, `Careful14`, `CarefulAware`, `Node14`),
counters (`Tracking`), classes of members (`Composite`), programs (`Client`, `Block`), owned types that use the allocator (`Aware`), nesting of destructors (`Depth`), what headers provide (`Headers`), questions about incomplete types (`Incomplete`), how owned objects are copied (`Source`), the ends of nested operands (`Mixed`), results up to the representation of pointers (`Fancy`), what the keys of a set are (`Sets`), what sizes mean (`Layout`), which initializers hold an owner (`Explicit`), what owned objects see of owners (`Looking`), exceptions (`Passing`), related values (`Opaque`), states without offsets (`Subobject`), values of the classes of exploration (`Members`), the Constraints and Mandates paragraphs and the `noexcept` specifications of the paper (`Constraints`, `Mandates`, `Noexcept`), and the statements on `indirect` that the benchmarks compare with (`Benchmark`).

## 3. How the properties are proved

1. Invariant: every live handle with a non-null pointer points to a live object in a block from its allocator's
   resource; no two handles share a block; every block has an owner.
2. Refinement: from an invariant state, each legal call is not UB, preserves the invariant, and commutes with the
   abstraction map onto the specification. Induction over histories gives C01-C04, C06, C18, C19, C23.
3. Call-by-call theorems (C05, C07-C17, C20-C22, C52, C54) about exact effects: addresses, traces, allocators, throws.
4. Trace balance: every primitive keeps "allocations = deallocations + live blocks" per address and resource (C03).
5. `polymorphic` (C31-C40, C53): the machine of `polymorphic` maps to that of `indirect` by a function `view` that
   forgets the dynamic types; every call commutes with it, so theorems transfer.
6. C++14 headers: `indirect_cxx14.h` (C30, C51) by equality of computations; `polymorphic_cxx14.h` (C41-C43, C55) by
   equality with a corrected program plus exact conditions for the differences.
7. Recursive nodes (C44, C45, C58-C60): the same functions of `indirect` with the node's generated special members as
   `T`, by induction on trees; a state is described by a forest of trees (`World`), and every statement by what it does
   to trees. For `polymorphic` members (`*_polymorphic_*`) a simulation with the nodes of `indirect`.
8. Comparison (C24-C29, C61): an object is seen through `valueless_after_move()` and `*`; dereferencing a valueless
   object is UB in the model, so a result `ok` says it was not done.
9. C46: assignments from a part of the assigned tree, characterised exactly, with witnesses of UB.

| id | what is modelled | how it is proved |
|----|------------------|------------------|
| C01 | Indirect.lean, all calls, histories | refinement + induction on histories |
| C02 | same | invariant |
| C03 | same, plus trace | invariant + trace balance for every primitive |
| C04 | arena of blocks and of deallocate calls | invariant + trace balance per (resource, address) |
| C05 | copy constructor | exact-effect theorem |
| C06 | all calls | frame corollary of refinement, induction on histories |
| C07 | allocator-extended copy | exact-effect theorem |
| C08 | move constructor | exact-effect theorem (trace unchanged) |
| C09 | allocator-extended move | exact-effect theorem; paper's postcondition refuted by witness, partial |
| C10, C11 | copy assignment | exact-effect theorem, both outcomes |
| C12, C13 | move assignment | exact-effect theorem; paper's postcondition refuted by witness, partial |
| C14 | self operations | state equality |
| C15 | swap | exact-effect theorem, involution |
| C16 | noexcept wrapper | exact characterisation of termination; refuted by witness, partial |
| C17 | forwarding assignment | exact-effect theorem |
| C18 | all calls | corollary of refinement per call |
| C19 | all constructors | exact-effect theorem |
| C20 | observers, write through reference | iff theorem |
| C21 | destructor | exact trace |
| C22 | all calls | exact counts of allocate/deallocate from the trace; ordering |
| C23 | all calls | refinement, induction on histories |
| C24-C28 | Compare.lean | evaluation for arbitrary (also throwing) operators of the values, algebraic laws |
| C29 | cxx14 operators | equality with spec and with C++20 |
| C30 | Indirect14.lean | equality of computations, induction on histories |
| C31-C40 | Polymorphic.lean | as for indirect, by simulation |
| C41, C42 | Polymorphic14.lean | refuted by witness; exact condition proved; C41 for any allocator and histories without the one call that goes wrong (`Careful14`), and that call goes wrong (`C41_careful_needed`) |
| C43 | Polymorphic14.lean | equality of computations where it holds; by induction on careful histories for any allocator |
| C44, C45 | recursive nodes | induction on trees / fuel |
| C46 | recursive nodes | exact characterisation; witnesses of UB, partial |
| C47 | memberwise special members | induction on the member list |
| C48 | TrackingAllocator instance | trace counting, arithmetic modulo 2^32; refuted by witness, partial |
| C49 | value categories of argument types, constraint logic | case analysis over all argument types; refuted for the C++14 header, partial |
| C50 | interleavings of histories, shared read-only objects | frame + induction; call granularity |
| C51 | Indirect14.lean, histories | transfer by C30 |
| C52 | value constructors | exact-effect theorems |
| C53 | polymorphic, all calls | exact counts from the trace |
| C54 | addresses of owned objects | exact-effect theorems, induction on histories |
| C55 | Polymorphic14.lean, histories | equality with the corrected program; also for careful histories with any allocator |
| C56 | all calls | footprint: equality of the rest of the state, read-independence |
| C57 | pairs of calls | commutation from footprints |
| C58-C60 | NodeProg.lean, PolyNode.lean | forests, induction on histories |
| C61 | NodeCompare.lean | induction on trees |
| C62 | all calls, all events | writes-only logic over the primitives (Proofs/Only.lean) |
| C63 | variants over the `Holder` interface of C47 | laws of holders; invariant over histories; witness for allocators that are not always equal |
| C64 | vectors over `Holder`, elements in buffers | rules of element functions (`Spec.Follows`), loop lemmas by induction on the number of elements, invariant over histories; with addresses by refining the rules (`Rules.placed`); witnesses for allocators that are not always equal |
| C65 | `Spec.allocAfter`: a table on allocators only | the value specification projected to allocators (`step_alloc`), by cases; histories by induction; corollaries for `TrackingAllocator` and `TaggedAllocator` |
| C66 | threads whose steps are single memory accesses (`Concurrent.lean`) | every thread runs in a private part of the memory, and sees there what it would see alone: simulation of the shared memory by the private ones, frame logic for programs (`Proofs/Within.lean`); number of accesses of every call (`Proofs/Progress.lean`); witness of a race without the hypothesis; C++14 headers by comparison of the programs (`Proofs/Fine14.lean`) |
| C67 | wrappers (`Wrapper.lean`) on the same machine | without assignments a wrapper program is a program with never valueless `indirect` objects and `std::allocator`; every assignment between different objects is refuted; partial |
| C68 | threads whose calls are members, operators and hashes (`Query.lean`) | instance of the argument of C66: comparisons evaluate as on values (`query_replies`), stay in the memory they may read, and have boundedly many accesses; readers by induction on what they have seen |
| C69 | threads that begin any call at any time, as long as running calls do not conflict (`Synced.lean`) | invariant: the memory is divided among the running calls and the objects that no running call changes; a call takes its operands out of the rest when it begins and is put back when it ends (`Proofs/Synced.lean`, `Join`); its effect on values is that of the specification at its end, because calls are local and change only what they may; witness of a race for conflicting calls |
| C70 | overload resolution among the accessors (`Access.lean`) | case analysis of one access, induction on the length of the chain |
| C71 | guides, implicit guides and the copy deduction candidate as patterns on types, with the ranking of candidates (`Deduction.lean`) | for each form of argument, which candidates fit and which is best (`guide_best`) |
| C72 | recursive classes with the functions of the C++14 headers | equality of computations by induction on depth (`Proofs/Node14.lean`), then C44, C45, C58-C60; witness that the condition on the allocator-extended move constructor is needed |
| C73 | programs as trees of calls that branch on results and exceptions (`Client.lean`) | induction on the program, from the refinement of single calls (`VApi`) |
| C74 | insertion sort with `<=>` (C++14: `<`) and `swap` as a program of C73, the three moves of a generic swap for all four types | the sort on lists by induction, C73 and that these calls are silent; chain of C08, C12, C21; for unequal allocators the calls on values (`Proofs/Exchange.lean`), with a witness that a value can be lost |
| C75 | programs with declarations and exceptions (`Block.lean`), translated to programs of C73 | induction on the program: calls change who is alive as `Life` says; the rules on the text imply every precondition when allocators are interchangeable; with C06, C32 nothing is left |
| C76 | constructors of owned types take the allocator that `construct` is called with (`TOps`, `POps`); `aware` owned types use it in any way | a call of an object in a given state does what it does with the owned type fixed to one allocator (`Spec.home`), by cases on the call; then the refinement for fixed owned types; own memory by induction on histories; polymorphic_cxx14.h partial, violated with the bug of C41, proved for any allocator and histories without the one call that goes wrong (`CarefulAware`) |
| C77 | owned types whose constructors and destructors are called through an allocator that records (`counting`, `countingP`) | simulation of the computations without records, with the invariant that the records fit the heap; then the life of each block of storage (`Spec.slotAt`) and, by induction on the trace, the counts; control blocks of polymorphic partial: violated, what happens instead is proved for all states (C77_polymorphic_blocks); polymorphic_cxx14.h also for any allocator and careful histories (`CarefulAware`) |
| C78 | threads that lock and unlock shared mutexes between calls, with programs that may loop (`Locking.lean`; not code of the repository) and a proof outline per thread (`Spec/Locking.lean`) | invariant over the schedule: the events so far are synchronised (C69), mutexes are locked as they may be, and in every state that the ended calls lead to serially all outlines and invariants hold (`Proofs/Locking.lean`); calls change nothing that another thread may use, by the frame of the specification; example with any number of readers for all four headers; witness without locks |
| C79 | optionals (rules of the standard) over the `Holder` interface of C47, and the friend `swap` of the headers (`Optional.lean`) | laws of holders and of `swap`, shown for all four headers; invariant over histories: the flag of an optional says whether an object lives in it (`Proofs/Optional.lean`) |
| C80 | maps (rules of the standard, nodes) over the `Holder` interface of C47 (`Maps.lean`) | laws of holders, `Follows` of C64, shown for all four headers; invariant over histories: keys of a map are distinct, every node belongs to exactly one key of one map, and an object lives in a node exactly if the node belongs to a map (`Proofs/Maps.lean`); references: the same laws for holders whose values include addresses (`Proofs/MapsLaws.lean`) |
| C81 | programs with local variables (`Block.lean`); the functions of compile_checks (`Consteval.lean`) | C75 and the refinement of C73; with steady operations every legal call returns and ignores the environment (`Proofs/Constant.lean`); an environment with storage exists, since a trace occupies finitely many blocks. That the members are declared `constexpr`, and that a compiler can evaluate placement by `std::construct_at`, is not modelled |
| C82 | the preprocessor and the texts of the headers (`Headers.lean`) | for all sequences of includes by induction, with what each guard guarantees as invariant (`Proofs/Headers.lean`, `Proofs/HeadersOrigin.lean`); false in part: see finding 14 |
| C83 | the same, with the compiler as a parameter | by the same induction; XYZ_HAS_STD_MEMORY_RESOURCE: see finding 15 |
| C84 | the recursive nodes of C44, with the bound on nested calls as a parameter; the nesting of destructors read off the trace (`Spec/Depth.lean`) | by induction on the tree: with a bound below the height the first member that is too deep is reached with its tree intact and does not return (`Proofs/NodeDepth.lean`); with the height, C44, C45, C58, C61 |
| C85 | a tree of questions about types per expression, with the evaluation order of constraints (`Incomplete.lean`); a question about an incomplete class has no answer | the tree for copies and moves contains no question about the owned type (`Settled`); results are monotone in what is known; translation units by induction on their parts; C++14 violations of assignment and default construction proved for every argument |
| C86 | the expressions written in the headers as chains of accesses of C70, and the owned type's constructors with the ranking of C49 (`Source.lean`) | by cases on places, for all overload sets; where the source is not const: exactly the types for which it makes no difference |
| C87 | candidates, their conversions and the ranking between them, bodies of the operators on nested operands, a plain type's operators a parameter (`Mixed.lean`) | induction on the depths of both operands; derived classes and unordered values: witnesses of the violation, and exactly what equality of derived objects is |
| C88 | `indirect` with pointers whose representation depends on their place, and the list of pointer operations of each header (`Fancy.lean`) | simulation, function by function: forgetting representations turns each function into that of `Indirect.lean`; C01, C02, C03 and C23 carry over; witnesses for the headers that need plain pointers |
| C89 | the operations of `std::set` and `std::unordered_set` as programs of C73, for any tree and any number of buckets (`Sets.lean`) | the operations on values by induction on trees and lists, C73 to carry them into memory, and an invariant of all programs with a set; balancing, rehashing and the memory of nodes are not modelled |
| C90 | a layout algorithm for classes with empty bases and `[[no_unique_address]]` members, the owners as classes of it (`Layout.lean`) | invariant of the algorithm, arithmetic of padding; partial: an empty `final` allocator costs room in the C++14 headers (`C90_violation_cxx14_final`) |
| C91 | overload resolution for lists of initializers, and which constructors are `explicit` (`Explicit.lean`) | case analysis of the selected constructor, for every list; partial: the C++14 headers make owners from some braces (`C91_violation_cxx14_*`) |
| C92 | owned types that look at owners (`Looking.lean`) | every function of the models does the same with a type that looks and with one that is given what the specification says it sees; the owners at each call are tracked through the function; induction on the nesting for destructors that come back |
| C93 | no model of its own: the four headers with arbitrary owned types | one congruence lemma per function: a relation on computations that the primitives, sequencing, `catch (...) { ...; throw; }` and noexcept respect is respected by every function; instances: the same with exceptions renamed, throws only `E`, a return is the same with throwing made undefined, a return refused no allocation, equality (destructors within noexcept) |
| C94 | no model of its own: the four headers with arbitrary owned types, two at a time | a logical relation: states alike when they differ only in related contents of storage; one lemma per primitive and per function of the headers, as for C93 but between states of two types (`Proofs/Opaque.lean`); then induction on the history. Invariants are the relation "equal, and satisfies it". `AlikeT` asks the same of the destructor as of the other functions; results of `operator==`, `<=>` and hash are not calls of `Op` and are not covered here |
| C95 | `Subobject.lean`: for any placement of `u_` in control blocks and of `T` in every `U`, virtual base classes included; converting `U*` to `T*` for a virtual base class is undefined unless a `U` is alive, using a pointer that is not to the `T` of its block is undefined | a relation between these states and those without offsets, for every function of the headers (`Proofs/Subobject.lean`; same script as C94 with a relation that depends on the address); it is forgetting offsets and `Placed`, that all pointers are right (`alike_iff`). The rest follows from C31, C32, C36-C38, C55. Simplifications: exactly one `T` per `U` (ambiguous bases are excluded by `derived_from`); functions of `U` are called with the address of the control block |
| C96 | `UniquePtrMember` (`Members.lean`) on the machine of C67 | every step is a step with wrappers, or a swap of never valueless `indirect` objects with `std::allocator` |
| C97 | `VariantWrapperMember` (`Members.lean`): wrappers and the rules of `std::variant` for alternatives that cannot be moved without exceptions | an invariant (exactly the objects that hold a wrapper have one), every step makes at most one step with wrappers (C67); partial: every assignment between different objects that hold wrappers is refuted, and a throwing assignment may leave an `int` valueless |
| C98 | the constraints of every template (`Constraints.lean`), concepts defined from traits as in [concepts], traits arbitrary | case analysis on the templates, equivalence with the paper's constraints and exactly what the code asks for in addition; partial: nine differences are refuted with concrete types |
| C99 | what each member needs of the owned type (`Mandates.lean`): its static assertions, and the expressions in branches that are instantiated | case analysis on the members; equivalence with the paper's mandates and what the code asks for in addition; partial: moves of types with deleted move constructors, move assignment of types that cannot be copied, and in-place assignment for types with deleted move assignment are refuted |
| C100 | the `noexcept` specifications as a table (`Noexcept.lean`) beside the machines, in which `noexcept` ends the program if an exception gets out | equivalence of the tables with the paper's; declared functions do not throw by the structure of the functions (C93); returning from C01, C08, C16 and C31, C36, C39; partial: the move constructors of three headers and `==` lack the `noexcept` of the paper, and move assignment between unequal propagating allocators ends the program |
| C101 | the benchmarks' statements with `new`, `clone`, `delete` and `std::unique_ptr` on the machine of `indirect` (`Benchmark.lean`); an iteration of a copy loop as a list of calls | equality of each statement's outcome with that of `indirect` in reachable states, then induction over programs; the cost of an iteration by induction over the elements from C05, C21, C22 and C33, C38, C53, and the sum from C20 and C38. The pointer versions of polymorphic_benchmark.cc (virtual `clone`) are those statements for the owned type whose values are pairs of a dynamic type and a value (`PSpec.owned`); compared with `polymorphic` by the simulation of C31 |
| C22, C48, C50, C54, C56, C57, C62 (indirect_cxx14.h); C38, C53 (polymorphic_cxx14.h) | the machines of the C++14 headers (`Indirect14.lean`, `Polymorphic14.lean`) | from the theorems for the C++20 headers, since the calls are equal (`Indirect14.call_eq`) or equal when careful (`Polymorphic14.careful_call`): `Props/Transfer14.lean` |

## 4. Trusted base

* Lean's kernel. No axioms of our own, no `sorry`, no `native_decide`, no `bv_decide`. The axioms used are among
  `propext`, `Classical.choice`, `Quot.sound`; section 6 lists them for every theorem of the manifest.
* `decide` and `decide +kernel` occur only in examples and in witnesses (a property refuted by a concrete program).
* The reading of the C++ code recorded in the comments of the model, and the rules of C++ it relies on: order of
  construction and destruction of members, lifetimes, overload resolution as restated in `Overload.lean`, defaulted
  special members and comparisons, `std::optional`, `std::variant`, `std::vector`, `std::map` and `std::unordered_map`.

Modelled: everything in indirect.h, indirect_cxx14.h, polymorphic.h, polymorphic_cxx14.h that runs, for arbitrary `T`,
allocators and histories; tracking_allocator.h and tagged_allocator.h; exploration/wrapper.h and the classes of exploration/incomplete_types.h that do not use vectors; feature_check.h and the other directives (C82, C83); the composite, variant, optional, vector, map and recursive classes of README.md,
compile_checks and the tests; the statements of the benchmarks (C101).

Not modelled: templates beyond the stated constraint logic, constant evaluation beyond what C81 says, object
representation, ABIs other than Itanium's (and of that only sizes and offsets, C90), compilation errors (`static_assert`, `Mandates`) beyond C85 and C88, allocators with fancy pointers beyond C88 or with
throwing copy/compare, `construct` and `destroy` customised beyond passing an allocator on (C76) and recording calls (C77), pmr aliases (they
are instances), the benchmarks beyond C101 (time, `DoNotOptimize`, the storage of the vectors and arrays). Interleavings inside calls (C66) are those of single memory accesses in
sequentially consistent memory, which C++ guarantees for programs without data races; the accesses of one operation of
`T` are those of reading and writing one object. Clients synchronise by mutexes (C78) or in any
other way (joins, atomics), of which C69 assumes the outcome, that calls which conflict do not overlap.

## 5. Findings (where code and paper or code and property disagree)

1. Paper [indirect.ctor], [indirect.assign], same for polymorphic: "other is valueless" after allocator-extended move
   and move assignment. False of the code for unequal allocators: the source keeps its moved-from object (C09, C12, C36).
2. Move assignment is noexcept if POCMA, but with POCMA and unequal allocators it allocates and move-constructs, so
   an exception there terminates the program (indirect and polymorphic, both headers: C16, C39, C55).
   The paper's "if an exception is thrown there are no effects" is also false of a throwing move construction, which may
   change the source (C13).
3. polymorphic_cxx14.h:336 tests propagate_on_container_copy_assignment where is_always_equal is meant: the
   allocator-extended move takes storage from an unequal allocator (C41). Vectors that pass their allocator on to their elements run into it
   (`C64_polymorphic14_scoped_violated`).
4. polymorphic_cxx14.h:240 creates a control block of T, not U, in the initializer-list constructor (C42).
5. polymorphic_cxx14.h's move constructor is unconditionally noexcept and can allocate when operator== of the allocator
   is irreflexive (C55).
6. indirect_cxx14.h operator=(U&&) does not strip references in its constraint, so a non-const lvalue (or volatile)
   indirect& can select it (C49). In both headers an object of a class derived from indirect is forwarded to `T`'s
   constructor rather than copied if `T` is constructible from it.
7. Recursive types: `x = std::move(x->child)` destroys `other` while resetting it; `x = x->child` is safe for polymorphic,
   but for indirect it can destroy its source while the nodes are assigned memberwise. C46 says exactly which assignments from a part are safe, for indirect and polymorphic.
8. exploration/wrapper.h: the implicit copy assignment copies the pointer, so after any assignment between different
   objects one `T` is deleted twice and another never (C67). Its `operator==` accesses a private member of a different
   class if the types differ, and then does not compile.
9. TrackingAllocator::allocate increments its counter before the allocation that can throw, so a failed allocation is
   counted (C48).
10. The paper declares the move constructors of indirect and polymorphic noexcept; indirect.h:137, indirect_cxx14.h:233
   and polymorphic.h:195 say noexcept(is_always_equal), although they never throw for an allocator with reflexive ==.
   So for other allocators a variant assignment goes through emplace and can leave the variant valueless (C63), and
   vectors copy on reallocation.
11. For the same reason, with allocators that are not always equal, `push_back(std::move(y))` that has to grow the vector
   copies the other elements after `y` was moved: their allocators become select_on_container_copy_construction of what
   they were, their owned objects are replaced, and if a copy throws `y` has lost its value (C64).
12. Control blocks of polymorphic are constructed with `allocator_traits::construct` (polymorphic.h:89, :101 and :137,
   polymorphic_cxx14.h:144, :156 and :184), but `destroy` (polymorphic.h:110-114, polymorphic_cxx14.h:165-169) only destroys the
   owned object in them before it deallocates: an allocator that pairs `construct` with `destroy` sees a control block
   constructed for every owned object and none destroyed (C77).
13. `std::swap` called by name (three moves) with unequal allocators that do not propagate allocates; if the second
   allocation or move throws, the first object has lost its value (C74_swap_by_moves_loses_value). `swap` found by
   argument-dependent lookup does not allow such allocators.
14. indirect.h and indirect_cxx14.h have the same guard, and so have polymorphic.h and polymorphic_cxx14.h: of two versions only the first
   has an effect, and names that only the other has (`xyz::in_place_t`, `xyz::in_place_type_t`) are missing. The versions define
   different class templates with the same name, so they cannot be used in different translation units of one program (C82).
   polymorphic.h uses `std::remove_cvref_t` without `<type_traits>`; indirect.h and indirect_cxx14.h use `std::size_t` without
   `<cstddef>`.
15. feature_check.h:75 looks at `__cplusplus` only, where the other conditions also accept `_MSVC_LANG`: with Microsoft's compiler and
   without `/Zc:__cplusplus`, XYZ_HAS_STD_MEMORY_RESOURCE is not defined although `<memory_resource>` is there (C83).
16. indirect_cxx14.h:303-307 evaluates the constraints of `operator=(U&&)` together, so `std::is_copy_assignable<indirect<T>>` asks about
   `T` and is undefined while `T` is incomplete (`C85_assign_violation`); the constraint of the default constructors of polymorphic_cxx14.h:199-212
   does the same (`C85_default_violation`). In indirect.h copies of `indirect<T>` with `T` incomplete work only with compilers that implement CWG 2369,
   because of `indirect(in_place_t, Us&&...)` (`C85_construct_relies_on_order`).
17. `clone` of the control blocks is not const, and indirect's copy assignment writes `*other.p_` where the copy constructor writes `*other`: the owned
   object of a const owner is given to the owned type as `T&`. A type with `T(T&)` may modify its source, and one with an unconstrained `T(U&&)` is not
   copied by its copy constructor (`C86_violation`, `C86_violation_const`). The models of the other properties call the copy constructor
   there; they apply to types for which it makes no difference (`C86_copies_partial`).
18. Classes derived from `indirect`: two objects of such classes cannot be compared, since the operators that take a plain value on either side are better
    matches than the one for two `indirect`s and ambiguous with each other (`C87_derived_violation`, both headers; compilers may accept a C++20 candidate and its own
    reversal with a warning). A valueless object of a derived class is
    greater than a valueless `indirect`, even than itself seen as one (`C87_derived_valueless_violation`). And where the owned types have no `<=>` with each other,
    `synth_three_way` takes values that are not ordered for equivalent: for an `indirect<indirect<double>>` `x` that holds NaN, `x <= 1.0` is true, though for an
    `indirect<double>` it is false (`C87_unordered_violation`).
19. Only indirect.h works with allocators whose pointers are not plain. indirect_cxx14.h keeps the result of `allocate` in a `T*` and destroys through one
    (`C88_cxx14_exactly`); both headers of `polymorphic` give the pointer to `allocator_traits::construct` as it is, return it as a `control_block*` and deallocate
    `this` (`C88_polymorphic_exactly`). DRAFT.md defines `pointer` as the allocator's for both types (`C88_violation`).
20. In the C++14 headers an empty allocator class that is `final` makes owners bigger than a pointer: `empty_base_optimization` does not derive from it and keeps a
    member that is not `[[no_unique_address]]` (`C90_violation_cxx14_final`). In the C++20 headers it costs nothing (`C90_free`).
21. In the C++14 headers most constructors are not `explicit`: `owner y = {};`, `owner y = {std::allocator_arg, a};`, `owner y = {std::allocator_arg, a, tag, xs...};` and, with
    indirect_cxx14.h, `indirect<T> y = {xyz::in_place_t{}, {xs...}};` compile and allocate (`C91_violation_cxx14_empty`, `_in_place`, `_list`). DRAFT.md:602-612 rules that out, and
    the C++20 headers reject it (`C91_braces_only_owners`).
22. DRAFT.md declares `operator=(U&&)` of `indirect` and `polymorphic(U&&)` with the default `U = T`, so that `y = {xs...}` assigns and `polymorphic<T> y({xs...})` constructs a `T`. The headers
    have no default there, and both are rejected (`C91_violation_assign_braces`, `C91_violation_braces_value`). With indirect_cxx14.h `y = {}` compiles, but makes an owner with a new
    allocator and moves it to `y` (`C91_assign_braces_cxx14`).

23. `reset` destroys the owned object before it clears the pointer (indirect.h:437-441, indirect_cxx14.h:549-553, polymorphic.h:396-401, polymorphic_cxx14.h:466-471), where `std::unique_ptr::reset` clears the pointer first. So a destructor of `T` sees its owner refer to the dying object (`C92_referred_*`), `valueless_after_move()` is false, and a destructor that assigns to its own owner destroys the object twice (`C92_reentry_*`). DRAFT.md does not say in which order this is done; it has no precondition either.

24. exploration/incomplete_types.h: `VariantWrapperMember` (like `WrapperMember`, finding on C67) has an implicit copy assignment operator; between objects that hold wrappers it shares the pointer, and the
    destructors delete it twice (`C97_assignment_shares`, `C97_assignment_violated`). Since `wrapper` has no move constructor, assigning a wrapper to an object that holds an `int` destroys the `int` first, and is
    left valueless by an exception (`C97_strong_guarantee_violated`).

25. The constraints differ from the paper's (C98). indirect.h and polymorphic.h use concepts where the paper has traits, and so reject types with throwing destructors, explicit copy constructors, or assignment operators
    that do not return `T&`. polymorphic.h lacks `is_constructible_v<UU, U>` and accepts volatile arguments it cannot copy; it and the C++14 headers ask for `initializer_list<I>` but pass an lvalue.
    indirect_cxx14.h's `indirect(U&&)` accepts a `T` only, so `indirect<std::string>("abc")` is an error; polymorphic_cxx14.h accepts private bases and `in_place_type<const U>`; `U&&` alone is accepted by both if `A`
    has no default constructor.

26. The members need other things of `T` than the paper's mandates (C99). By the paper a moved `indirect` hands over a pointer and needs nothing of `T`; indirect.h asserts `move_constructible<T>`, and indirect_cxx14.h
    compiles the construction from an rvalue even if the allocators are always equal, so that an `indirect<T>` with `T`'s move constructor deleted (a mutex) cannot be moved (`C99_move_violated`). The mandate of
    move assignment is `is_copy_constructible_t` [sic], which the code does not ask for (`C99_move_only_violated`). indirect.h:242 asks `assignable_from<T&, T>` where the assignment is from `const T&`: with a deleted move
    assignment operator the owned object is replaced instead of assigned (`C99_in_place_violated`); and as this is not `if constexpr`, the branch for types that cannot be assigned is never reached by them: the other branch does
    not compile (`C99_not_assignable`). polymorphic_cxx14.h accepts a class with a deleted move constructor and then fails to compile its control block (`C99_block_violated`).

27. The paper declares the move constructors `noexcept` without a condition; indirect.h, indirect_cxx14.h and polymorphic.h do so only if the allocator is always equal, although the constructor never throws
    (`C100_declared_violated`, `C100_kept_indirect_partial`). A `std::vector` of them copies instead of moving when it grows (C64). Also `==` lacks the `noexcept(noexcept(*lhs == *rhs))` of the paper, which would be true (`C100_equal_indirect`).

## 6. Axioms

<!-- axioms: generated from #print axioms -->

**none** (15): C44_structurally_equal, C49_assign_cxx14_violated, C70_one_access, C70_access_compiles, C70_rvalues_propagate, C70_polymorphic_gives_lvalues, C70_pointers_do_not_propagate, C85_default_partial, C86_handed_on, C86_source_constant_exactly, C86_violation, C86_violation_const, C88_compiles_partial, C88_violation, C100_equal_indirect_cxx14

**propext** (76): C01_histories_reach, C02_engaged_iff_owns, C09_source_not_always_valueless, C12_source_not_always_valueless, C13_effects_despite_exception, C14_self_move_assign, C14_self_swap_legal, C20_same_object, C20_get_allocator, C22_at_most_one, C27_three_way, C27_from_less, C27_from_less_throws, C27_value, C27_weak_order, C31_histories_reach, C37_self_move_assign, C38_arrow, C43_ilist, C67_equal, C67_assignment_violated, C70_const_exactly, C70_const_propagates, C70_only_observers, C70_all_members, C70_lvalues_stay, C71_from_indirect, C74_swap_by_moves_loses_value, C80_self, C81_one_value, C81_int, C81_answers, C82_missing_includes, C85_soft_questions, C86_indirect, C86_moves, C88_cxx14_exactly, C88_cxx14_uses, C88_polymorphic_uses, C88_polymorphic_exactly, C91_violation_cxx14_empty, C91_violation_cxx14_in_place, C91_assign_braces_cxx14, C91_violation_braces_value, C93_never_indirect, C93_never_polymorphic, C93_never_polymorphic_cxx14, C96_equal, C97_assignment_violated, C98_throwing_destructor_violated, C98_void_assignment_violated, C98_explicit_copy_violated, C98_volatile_violated, C98_list_violated, C98_conversion_violated, C98_private_base_violated, C98_const_type_violated, C98_allocator_violated, C99_ordinary, C99_indirect_cxx14_partial, C99_polymorphic_cxx14_partial, C99_in_place_cxx14, C99_move_violated, C99_move_only_violated, C99_in_place_violated, C99_block_violated, C99_not_assignable, C100_declared_indirect_partial, C100_declared_indirect_cxx14_partial, C100_declared_polymorphic_partial, C100_declared_polymorphic_cxx14, C100_declared_violated, C100_enforced_indirect, C100_enforced_polymorphic, C100_enforced_polymorphic_cxx14, C100_equal_indirect

**propext, Quot.sound** (244): C03_trace_follows_protocol, C05_copy_throws, C05_copy_outcome, C07_copy_throws, C07_copy_outcome, C08_move_transfers, C08_move_transfers_alwaysEqual, C09_moveA_transfers, C10_in_place, C11_assignment_threw, C14_self_copy_assign, C15_friend_swap, C15_swap_undefined, C16_noexcept_violated, C17_engaged_arg, C17_engaged_copy, C17_engaged_move, C30_same_call, C30_same_history, C30_any_type, C30_only_copy_assignment, C37_self_copy_assign, C37_friend_swap, C37_swap_undefined, C39_noexcept_violated, C41_violated, C43_other_calls, C43_alloc_move, C43_same_history, C44_source_unchanged, C45_lifecycle, C46_witness_move, C46_witness_copy, C46_polymorphic_witness_move, C46_polymorphic_witness_copy, C48_equal_iff_same_counters, C48_violated, C49_construct, C49_construct_with_allocator, C49_assign, C49_construct_cxx14, C49_construct_polymorphic, C49_assign_polymorphic, C49_tag_is_not_a_value, C49_value_is_forwarded, C49_value_is_assigned, C49_derived_is_forwarded, C49_assign_cxx14_partial, C54_call_keeps_reference, C54_cxx14_call_keeps_reference, C55_noexcept_needs_reflexivity, C61_equal, C61_equivalence, C61_three_way, C61_lexicographic, C61_order, C61_consistent, C61_hash, C61_throws, C66_uninterrupted, C66_sharing_matters, C66_polymorphic_uninterrupted, C66_indirect14_uninterrupted, C66_polymorphic14_uninterrupted, C67_self_assignment, C68_uninterrupted, C68_cxx14_uninterrupted, C69_own_results, C69_idle_threads, C69_conflicts_matter, C70_rvalues_exactly, C70_const_exactly_all, C71_from_value, C71_from_derived, C71_with_allocator_from_value, C71_with_allocator_from_indirect, C71_with_other_allocator, C71_with_allocator_from_derived, C71_well_formed, C72_same_statement, C72_same_program, C72_same_states, C72_lifecycle, C72_polymorphic_same_statement, C72_polymorphic_states, C72_polymorphic_same_states, C72_polymorphic_condition_needed, C77_polymorphic_violated, C77_polymorphic14_violated, C78_locks_matter, C79_no_undefined_behaviour, C79_default, C79_in_place, C79_from_value, C79_copy, C79_move, C79_destroy, C79_reset, C79_emplace, C79_assign_copy, C79_assign_move, C79_assign_self, C79_assign_value, C79_swap, C79_swap_self, C79_value, C79_bad_optional_access, C79_independent, C79_variables, C80_no_undefined_behaviour, C80_default, C80_emplace_new, C80_emplace_existing, C80_try_emplace_new, C80_try_emplace_existing, C80_insert_or_assign_new, C80_insert_or_assign_existing, C80_erase, C80_clear, C80_copy, C80_move, C80_assign_copy, C80_assign_move, C80_swap, C80_merge, C80_at, C80_at_missing, C80_independent, C80_leaves_alone, C80_variables, C82_no_redefinition, C83_language_macros, C83_memory_resource_partial, C83_memory_resource_missed, C84_hash, C84_equal, C85_construct, C85_construct_with_allocator, C85_assign_partial, C85_default_with_allocator_partial, C85_member_construct, C85_member_assign_partial, C85_member_exactly, C85_stable, C85_remembering, C85_unit_stable, C85_complete_construct, C85_complete_construct_with_allocator, C85_complete_assign, C85_complete_construct14, C85_complete_assign14, C85_polymorphic_from, C85_polymorphic_from14, C85_value_needs_complete, C85_polymorphic_unit, C85_assign_violation, C85_default_violation, C85_construct_relies_on_order, C85_wrappers, C86_expected, C86_copies_partial, C86_copies_exactly, C87_cxx14, C87_equality, C87_three_way_partial, C87_three_way_same_type, C87_operators_partial, C87_operators_same_type, C87_agree, C87_order, C87_compiles, C87_compiled, C87_derived_violation, C87_derived_valueless_violation, C87_derived_exactly, C87_unordered_violation, C88_same_call, C88_same_history, C88_pointer_type_not_observable, C90_free, C90_padded, C90_sum, C90_cxx14_same_partial, C90_violation_cxx14_final, C90_polymorphic, C90_members, C91_copy_init_how, C91_same, C91_derived_differs, C91_braces_owners, C91_braces_only_owners, C91_braces_single, C91_braces_cxx14_partial, C91_violation_cxx14_list, C91_braces_value, C92_indirect, C92_indirect_cxx14, C92_polymorphic, C92_polymorphic_cxx14, C92_reentry_indirect, C92_reentry_polymorphic, C93_unchanged_indirect, C93_unchanged_indirect_cxx14, C93_only_indirect, C93_only_indirect_cxx14, C93_none_lost_indirect, C93_none_lost_indirect_cxx14, C93_memory_indirect, C93_memory_indirect_cxx14, C93_destructor_indirect, C93_destructor_indirect_cxx14, C93_never_indirect_cxx14, C93_unchanged_polymorphic, C93_unchanged_polymorphic_cxx14, C93_only_polymorphic, C93_only_polymorphic_cxx14, C93_none_lost_polymorphic, C93_none_lost_polymorphic_cxx14, C93_memory_polymorphic, C93_memory_polymorphic_cxx14, C93_destructor_polymorphic, C93_destructor_polymorphic_cxx14, C94_indirect, C94_indirect_cxx14, C94_history_indirect, C94_history_indirect_cxx14, C94_invariant_indirect, C94_invariant_indirect_cxx14, C94_polymorphic, C94_polymorphic_cxx14, C94_history_polymorphic, C94_history_polymorphic_cxx14, C94_invariant_polymorphic, C94_invariant_polymorphic_cxx14, C95_same_polymorphic, C95_same_polymorphic_cxx14, C95_objects, C95_history_polymorphic, C95_history_polymorphic_cxx14, C95_layout_polymorphic, C95_layout_polymorphic_cxx14, C97_equal, C100_enforced_indirect_cxx14, C100_not_more

**propext, Classical.choice, Quot.sound** (706): C01_history_no_undefined_behaviour, C01_call_no_undefined_behaviour, C02_exclusive_ownership, C03_allocated_iff_owned, C03_owned_balance, C03_unowned_balance, C03_no_leak, C04_deallocate_matches_allocate, C04_storage_of_own_allocator, C05_copy_engaged, C05_copy_valueless, C06_call_independent, C06_history_independent, C07_copy_engaged, C07_copy_valueless, C09_moveA_unequal_partial, C09_moveA_valueless, C09_moveA_throws, C10_from_valueless, C10_copy, C10_copy_assignment, C11_strong, C11_copy_assignment_throws, C12_from_valueless, C12_equal_allocators, C12_unequal_allocators_partial, C13_move_assignment_throws_partial, C14_self_swap, C14_self_friend_swap, C15_swap, C15_swap_twice, C16_terminates_iff, C16_noexcept_kept_partial, C17_valueless_arg, C17_valueless_copy, C17_valueless_move, C17_engaged_afterwards, C18_constructed_engaged, C18_becomes_valueless, C18_exceptions, C19_failed_construction, C20_deref, C20_arrow, C20_valueless, C20_write, C21_destroy_engaged, C21_destroy_valueless, C22_cost, C22_cost_of_exception, C22_new_before_old, C22_cxx14_cost, C22_cxx14_cost_of_exception, C23_history_is_value_history, C23_call_is_value_call, C24_equal, C24_equal_mixed_types, C24_equal_exact, C24_equivalence, C25_three_way, C25_three_way_mixed_types, C25_three_way_exact, C25_order, C25_operators, C25_consistent_with_equal, C26_with_value, C26_with_value_exact, C26_same_as_engaged, C26_reversed, C28_hash, C28_equal_hash, C29_operators, C29_operators_exact, C29_negations, C29_mirrors, C29_same_as_cxx20, C29_mixed_left, C29_mixed_right, C29_mixed_exact, C29_mixed_same_as_cxx20, C31_history_no_undefined_behaviour, C31_call_no_undefined_behaviour, C31_control_blocks_complete, C32_exclusive_ownership, C32_allocated_iff_owned, C32_trace_follows_protocol, C32_owned_balance, C32_unowned_balance, C32_no_leak, C32_deallocate_matches_allocate, C32_storage_of_own_allocator, C33_copyA_engaged, C33_copy_engaged, C33_copyA_valueless, C33_copy_valueless, C33_copyA_outcome, C33_copyA_throws, C33_call_independent, C33_history_independent, C34_construct_args, C34_construct_copy, C34_construct_move, C34_failed_construction, C35_from_valueless, C35_copy_assignment, C35_strong, C36_move_transfers, C36_move_transfers_alwaysEqual, C36_moveA_transfers, C36_moveA_unequal, C36_moveA_valueless, C36_assign_from_valueless, C36_assign_equal, C36_assign_unequal, C36_assign_throws, C36_moveA_throws, C37_self_swap, C37_swap, C38_deref, C38_same_object, C38_valueless, C38_write, C38_call_keeps_reference, C38_call_keeps_type, C38_reference_valid, C38_history_keeps_value, C38_destroy_engaged, C38_careful_reference_valid, C38_careful_history_keeps_value, C39_terminates_iff, C39_noexcept_kept_partial, C40_history_is_value_history, C40_call_is_value_call, C41_careful_storage_of_own_allocator_partial, C41_careful_needed, C41_storage_of_own_allocator_partial, C41_steals_foreign_storage, C42_creates_base, C42_violated, C42_creates_requested_partial, C43_careful_history, C43_careful_call, C44_deep_copy, C44_deep_copy_with_allocator, C44_polymorphic_deep_copy, C44_polymorphic_deep_copy_with_allocator, C45_destroy, C45_exactly_once, C45_partial_copy_undone, C45_no_leak, C45_polymorphic_destroy, C45_polymorphic_exactly_once, C45_polymorphic_lifecycle, C45_polymorphic_partial_copy_undone, C45_polymorphic_no_leak, C46_move_from_part_undefined, C46_move_from_part_never_completes, C46_move_from_part_partial, C46_copy_from_part_partial, C46_copy_from_last_members, C46_copy_from_part_replaced, C46_copy_from_part_undefined, C46_copy_from_part_never_completes, C46_polymorphic_move_from_part_undefined, C46_polymorphic_move_from_part_never_completes, C46_polymorphic_move_from_part_partial, C46_polymorphic_copy_from_part, C46_polymorphic_copy_from_part_never_completes, C47_indirect_members, C47_indirect14_members, C47_polymorphic_members, C47_no_undefined_behaviour, C47_all_members_or_none, C47_make, C47_copy, C47_move, C47_assign_copy, C47_assign_move, C47_assign_self, C47_destroy, C47_independent, C47_indirect_storage, C47_indirect_copy_throws, C47_indirect_no_leak, C47_polymorphic_storage, C47_polymorphic_copy_throws, C47_polymorphic_no_leak, C47_polymorphic14_members, C47_indirect14_storage, C47_indirect14_no_leak, C47_polymorphic14_storage, C47_polymorphic14_no_leak, C48_engaged_finite, C48_counters, C48_counters_partial, C48_all_destroyed, C48_engaged_finite_polymorphic, C48_counters_polymorphic, C48_counters_polymorphic_partial, C48_cxx14_counters, C50_threads_do_not_interfere, C50_thread_could_be_alone, C50_polymorphic_threads_do_not_interfere, C50_polymorphic_thread_could_be_alone, C50_cxx14_thread_could_be_alone, C51_no_undefined_behaviour, C51_exclusive_ownership, C51_no_leak, C51_deallocate_matches_allocate, C51_call_is_value_call, C52_construct_args, C52_construct_copy, C52_construct_move, C53_cost, C53_cost_of_exception, C53_new_before_old, C53_careful_cost, C53_careful_cost_of_exception, C54_reference_valid, C54_call_keeps_value, C54_history_keeps_value, C54_cxx14_reference_valid, C54_cxx14_history_keeps_value, C55_careful_no_undefined_behaviour, C55_careful_exclusive_ownership, C55_careful_no_leak, C55_careful_value_history, C55_no_undefined_behaviour, C55_exclusive_ownership, C55_no_leak, C55_deallocate_matches_allocate, C55_call_is_value_call, C55_terminates_iff, C56_touches_only_operands, C56_polymorphic_touches_only_operands, C56_cxx14_touches_only_operands, C57_calls_commute, C57_polymorphic_calls_commute, C57_cxx14_calls_commute, C58_statements, C58_polymorphic_statements, C58_polymorphic_copy_assignment, C59_apart_unchanged, C59_polymorphic_apart_unchanged, C60_trees, C60_no_sharing, C60_allocated_iff_owned, C60_determined, C60_polymorphic_trees, C60_polymorphic_no_sharing, C60_polymorphic_allocated_iff_owned, C60_polymorphic_determined, C61_copy_equal, C62_writes_only, C62_const_operand, C62_polymorphic_writes_only, C62_polymorphic_const_operand, C62_cxx14_writes_only, C62_cxx14_const_operand, C63_indirect14_never_valueless_partial, C63_polymorphic14_never_valueless, C63_indirect14_storage, C63_indirect14_no_leak, C63_polymorphic14_storage, C63_polymorphic14_no_leak, C63_no_undefined_behaviour, C63_make, C63_copy, C63_move, C63_assign_copy, C63_assign_move, C63_assign_self, C63_emplace, C63_destroy, C63_independent, C63_never_valueless_partial, C63_indirect_never_valueless_partial, C63_polymorphic_never_valueless_partial, C63_indirect_storage, C63_indirect_no_leak, C63_polymorphic_storage, C63_polymorphic_no_leak, C63_assignment_can_leave_valueless, C64_elements_polymorphic14, C64_elements_indirect14_scoped, C64_indirect14_no_leak, C64_polymorphic14_no_leak, C64_polymorphic14_growth_keeps_objects, C64_polymorphic14_reserve_keeps_objects, C64_indirect14_growth_keeps_objects, C64_scoped_indirect14_allocator, C64_polymorphic14_scoped_violated, C64_elements_indirect, C64_elements_indirect14, C64_elements_polymorphic, C64_elements_indirect_scoped, C64_elements_polymorphic_scoped, C64_no_undefined_behaviour, C64_emplace_back, C64_push_back_copy, C64_push_back_move, C64_pop_back, C64_reserve, C64_erase, C64_empty, C64_copy, C64_move, C64_assign_copy, C64_assign_self, C64_assign_move, C64_swap, C64_destroy, C64_modify, C64_variables, C64_indirect_no_leak, C64_polymorphic_no_leak, C64_growth_keeps_objects, C64_reserve_keeps_objects, C64_erase_keeps_objects, C64_polymorphic_growth_keeps_objects, C64_polymorphic_reserve_keeps_objects, C64_polymorphic_erase_keeps_objects, C64_scoped_indirect_allocator, C64_scoped_polymorphic_allocator, C64_growth_can_change_allocators, C64_push_back_move_can_lose_source, C65_indirect_call, C65_indirect14_call, C65_polymorphic_call, C65_polymorphic14_call, C65_indirect_history, C65_indirect_fixed, C65_indirect_origin, C65_polymorphic_history, C65_polymorphic_fixed, C65_polymorphic_origin, C65_indirect14_history, C65_indirect14_fixed, C65_polymorphic14_history, C65_polymorphic14_fixed, C65_tracking_counters, C65_tagged_tag, C66_no_undefined_behaviour, C66_no_data_race, C66_threads_run_as_if_alone, C66_shared_objects_stay, C66_terminates_only_as_alone, C66_nothing_leaks, C66_wait_free, C66_polymorphic_no_undefined_behaviour, C66_polymorphic_no_data_race, C66_polymorphic_threads_run_as_if_alone, C66_polymorphic_shared_objects_stay, C66_polymorphic_terminates_only_as_alone, C66_polymorphic_nothing_leaks, C66_polymorphic_wait_free, C66_indirect14_no_undefined_behaviour, C66_indirect14_no_data_race, C66_indirect14_threads_run_as_if_alone, C66_indirect14_shared_objects_stay, C66_indirect14_terminates_only_as_alone, C66_indirect14_nothing_leaks, C66_indirect14_wait_free, C66_polymorphic14_no_undefined_behaviour, C66_polymorphic14_no_data_race, C66_polymorphic14_threads_run_as_if_alone, C66_polymorphic14_shared_objects_stay, C66_polymorphic14_terminates_only_as_alone, C66_polymorphic14_nothing_leaks, C66_polymorphic14_wait_free, C67_no_undefined_behaviour_partial, C67_values_partial, C67_always_a_value_partial, C67_exclusive_ownership_partial, C67_no_leak_partial, C67_assignment_shares, C68_no_undefined_behaviour, C68_no_data_race, C68_threads_run_as_if_alone, C68_shared_objects_stay, C68_terminates_only_as_alone, C68_nothing_leaks, C68_wait_free, C68_readers, C68_cxx14_no_undefined_behaviour, C68_cxx14_no_data_race, C68_cxx14_threads_run_as_if_alone, C68_cxx14_shared_objects_stay, C68_cxx14_terminates_only_as_alone, C68_cxx14_nothing_leaks, C68_cxx14_wait_free, C68_cxx14_readers, C69_no_undefined_behaviour, C69_no_data_race, C69_as_if_one_after_the_other, C69_terminates_only_as_serially, C69_nothing_leaks, C69_serial_reasoning, C69_polymorphic_no_undefined_behaviour, C69_polymorphic_no_data_race, C69_polymorphic_as_if_one_after_the_other, C69_polymorphic_terminates_only_as_serially, C69_polymorphic_nothing_leaks, C69_polymorphic_serial_reasoning, C69_indirect14_no_undefined_behaviour, C69_indirect14_no_data_race, C69_indirect14_as_if_one_after_the_other, C69_indirect14_terminates_only_as_serially, C69_indirect14_nothing_leaks, C69_indirect14_serial_reasoning, C69_polymorphic14_no_undefined_behaviour, C69_polymorphic14_no_data_race, C69_polymorphic14_as_if_one_after_the_other, C69_polymorphic14_terminates_only_as_serially, C69_polymorphic14_nothing_leaks, C69_polymorphic14_serial_reasoning, C72_trees, C72_no_sharing, C72_allocated_iff_owned, C72_determined, C72_statements, C72_apart_unchanged, C72_deep_copy, C72_deep_copy_with_allocator, C72_destroy, C72_exactly_once, C72_partial_copy_undone, C72_no_leak, C72_polymorphic_trees, C72_polymorphic_no_sharing, C72_polymorphic_allocated_iff_owned, C72_polymorphic_determined, C72_polymorphic_statements, C72_polymorphic_copy_assignment, C72_polymorphic_apart_unchanged, C72_polymorphic_deep_copy, C72_polymorphic_deep_copy_with_allocator, C72_polymorphic_destroy, C72_polymorphic_exactly_once, C72_polymorphic_lifecycle, C72_polymorphic_partial_copy_undone, C72_polymorphic_no_leak, C73_as_on_values, C73_no_undefined_behaviour, C73_addresses_do_not_matter, C73_nothing_leaks, C73_cxx14_as_on_values, C73_cxx14_no_undefined_behaviour, C73_cxx14_addresses_do_not_matter, C73_cxx14_nothing_leaks, C73_polymorphic_as_on_values, C73_polymorphic_no_undefined_behaviour, C73_polymorphic_addresses_do_not_matter, C73_polymorphic_nothing_leaks, C73_polymorphic14_as_on_values, C73_polymorphic14_no_undefined_behaviour, C73_polymorphic14_addresses_do_not_matter, C73_polymorphic14_nothing_leaks, C74_swap_by_moves_unequal, C74_cxx14_swap_by_moves_unequal, C74_polymorphic_swap_by_moves_unequal, C74_polymorphic14_swap_by_moves_unequal, C74_sorts, C74_whatever_comparisons_do, C74_cxx14_sorts, C74_cxx14_whatever_comparisons_do, C74_swap_by_moves, C74_swap_by_moves_is_swap, C74_cxx14_swap_by_moves, C74_polymorphic_swap_by_moves, C74_polymorphic14_swap_by_moves, C75_locals_end, C75_nothing_left, C75_rules_suffice, C75_safe_programs, C75_cxx14_locals_end, C75_cxx14_nothing_left, C75_cxx14_rules_suffice, C75_cxx14_safe_programs, C75_polymorphic_locals_end, C75_polymorphic_nothing_left, C75_polymorphic_rules_suffice, C75_polymorphic_safe_programs, C75_polymorphic14_locals_end, C75_polymorphic14_nothing_left, C75_polymorphic14_rules_suffice, C75_polymorphic14_safe_programs, C76_calls, C76_own_memory, C76_nothing_left, C76_cxx14_calls, C76_cxx14_own_memory, C76_cxx14_nothing_left, C76_polymorphic_calls, C76_polymorphic_own_memory, C76_polymorphic_nothing_left, C76_polymorphic14_calls_partial, C76_polymorphic14_own_memory_partial, C76_polymorphic14_nothing_left_partial, C76_polymorphic14_violated, C76_careful_calls_partial, C76_careful_own_memory_partial, C76_careful_nothing_left_partial, C77_careful_calls_partial, C77_careful_paired_partial, C77_careful_counts_partial, C77_careful_balanced_partial, C77_calls, C77_paired, C77_counts, C77_balanced, C77_cxx14_calls, C77_cxx14_paired, C77_cxx14_counts, C77_cxx14_balanced, C77_polymorphic_calls, C77_polymorphic_paired_partial, C77_polymorphic_counts_partial, C77_polymorphic_balanced_partial, C77_polymorphic_blocks, C77_polymorphic14_calls_partial, C77_polymorphic14_paired_partial, C77_polymorphic14_counts_partial, C77_polymorphic14_balanced_partial, C77_polymorphic14_blocks_partial, C78_no_undefined_behaviour, C78_no_data_race, C78_as_if_one_after_the_other, C78_terminates_only_as_serially, C78_nothing_leaks, C78_mutual_exclusion, C78_polymorphic_no_undefined_behaviour, C78_polymorphic_no_data_race, C78_polymorphic_as_if_one_after_the_other, C78_polymorphic_terminates_only_as_serially, C78_polymorphic_nothing_leaks, C78_indirect14_no_undefined_behaviour, C78_indirect14_no_data_race, C78_indirect14_as_if_one_after_the_other, C78_indirect14_terminates_only_as_serially, C78_indirect14_nothing_leaks, C78_polymorphic14_no_undefined_behaviour, C78_polymorphic14_no_data_race, C78_polymorphic14_as_if_one_after_the_other, C78_polymorphic14_terminates_only_as_serially, C78_polymorphic14_nothing_leaks, C79_swaps_indirect, C79_swaps_indirect14, C79_swaps_polymorphic, C79_swaps_polymorphic14, C79_indirect_storage, C79_indirect_no_leak, C79_indirect14_storage, C79_indirect14_no_leak, C79_polymorphic_storage, C79_polymorphic_no_leak, C79_polymorphic14_storage, C79_polymorphic14_no_leak, C80_indirect_storage, C80_indirect_no_leak, C80_indirect14_storage, C80_indirect14_no_leak, C80_polymorphic_storage, C80_polymorphic_no_leak, C80_polymorphic14_storage, C80_polymorphic14_no_leak, C80_indirect_references, C80_indirect14_references, C80_polymorphic_references, C80_polymorphic14_references, C80_indirect_scoped, C80_indirect14_scoped, C80_polymorphic_scoped, C80_indirect_scoped_no_leak, C80_polymorphic_scoped_no_leak, C81_constant, C81_value, C81_polymorphic_constant, C81_polymorphic_value, C81_static_assertions, C81_static_assertion_hash, C81_polymorphic_static_assertions, C82_declared_before_use_partial, C82_declared_before_use_with_includes, C82_provides_partial, C82_hidden_by_other_version, C82_first_indirect, C82_first_polymorphic, C82_one_definition_partial, C82_versions_clash, C83_deduction_guides, C84_destroy, C84_destructors_nested, C84_copy, C84_copy_with_allocator, C84_move_swap, C84_unbounded, C84_cxx14_destroy, C84_cxx14_copy, C84_polymorphic_destroy, C84_polymorphic_copy, C84_polymorphic_cxx14_destroy, C84_polymorphic_cxx14_copy, C85_indirect_unit, C85_indirect_unit14_partial, C87_equivalence, C88_no_undefined_behaviour, C88_history_is_value_history, C88_allocated_iff_owned, C89_keys_sorted, C89_valueless_key, C89_find, C89_insert, C89_erase, C89_whatever_comparisons_do, C89_hash_keys, C89_hash_find, C89_hash_insert, C89_hash_erase, C89_hash_whatever_comparisons_do, C89_cxx14_keys_sorted, C89_cxx14_valueless_key, C89_cxx14_find, C89_cxx14_insert, C89_cxx14_erase, C89_cxx14_whatever_comparisons_do, C89_cxx14_hash_keys, C89_cxx14_hash_find, C89_cxx14_hash_insert, C89_cxx14_hash_erase, C89_cxx14_hash_whatever_comparisons_do, C90_class, C90_owner, C90_cxx14_owner, C90_block, C91_copy_init, C91_assign_braces, C91_violation_assign_braces, C92_referred_indirect, C92_referred_indirect_cxx14, C92_referred_polymorphic, C92_referred_polymorphic_cxx14, C95_safe_polymorphic, C95_safe_polymorphic_cxx14, C95_refers_polymorphic, C95_refers_polymorphic_cxx14, C95_distinct_polymorphic, C95_distinct_polymorphic_cxx14, C95_kept_polymorphic, C95_kept_polymorphic_cxx14, C95_moved_polymorphic, C95_moved_polymorphic_cxx14, C95_assigned_polymorphic, C95_assigned_polymorphic_cxx14, C95_swapped_polymorphic, C95_swapped_polymorphic_cxx14, C95_copied_polymorphic, C95_copied_polymorphic_cxx14, C96_no_undefined_behaviour, C96_values, C96_always_a_value, C96_exclusive_ownership, C96_no_leak, C97_no_undefined_behaviour_partial, C97_values_partial, C97_always_a_value_partial, C97_exclusive_ownership_partial, C97_no_leak_partial, C97_assignment_shares, C97_strong_guarantee_violated, C98_indirect_partial, C98_indirect_cxx14_partial, C98_value_indirect_cxx14_partial, C98_polymorphic_partial, C98_polymorphic_cxx14_partial, C98_body_indirect, C98_body_polymorphic_partial, C99_default_indirect_partial, C99_copy_indirect_partial, C99_move_indirect_partial, C99_polymorphic_partial, C99_block, C99_block_cxx14_partial, C99_in_place_partial, C100_kept_careful_partial, C100_kept_indirect_partial, C100_kept_indirect_cxx14_partial, C100_kept_polymorphic_partial, C100_kept_polymorphic_cxx14_partial, C101_raw_statement, C101_unique_statement, C101_raw_history, C101_unique_history, C101_indirect_iteration, C101_raw_iteration, C101_unique_iteration, C101_polymorphic_iteration, C101_polymorphic_statement, C101_polymorphic_unique_statement, C101_polymorphic_history, C101_indirect_accumulate, C101_polymorphic_accumulate, C101_raw_accumulate, C101_unique_accumulate, C101_indirect_iteration_ends, C101_polymorphic_iteration_ends, C101_raw_iteration_ends
