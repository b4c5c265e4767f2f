{"id": "C01", "title": "indirect: no undefined behaviour in any legal history", "statement": "A program that only calls the public operations of indirect (constructors, copy/move, allocator-extended forms, assignments, swap, observers, destructor) within their documented preconditions never dereferences null, never touches an object outside its lifetime, never frees storage twice, never frees storage holding a live T and never returns storage to an allocator it did not come from, whatever throws along the way.", "quantifier": "every owned type, every sound allocator (any propagation traits), every finite history of calls on any number of objects, every choice of which allocations and T operations throw, every address the allocator picks", "why_tests_cant": "histories, throw points and allocator trait combinations are unbounded; sanitizer runs only sample them", "anchors": ["indirect.h: indirect (all members)", "indirect.h: construct_from", "indirect.h: destroy_with", "indirect.h: reset"]}
{"id": "C02", "title": "indirect: exclusive ownership", "statement": "At every point of every legal history, two different live indirect objects never own the same T object: &*x == &*y implies x and y are the same indirect.", "quantifier": "every legal history, every throw schedule, every pair of live objects", "why_tests_cant": "aliasing can be produced by any interleaving of moves, swaps and assignments; tests check a few addresses", "anchors": ["indirect.h: indirect(indirect&&)", "indirect.h: operator=(indirect&&)", "indirect.h: swap"]}
{"id": "C03", "title": "indirect: nothing leaks and nothing is destroyed twice", "statement": "At every point of every legal history each allocated, not yet freed block is owned by exactly one live indirect; each block was allocated once more than freed iff it is owned, each T in it constructed once more than destroyed; once every indirect has been destroyed every allocation has been freed exactly once and every constructed T destroyed exactly once.", "quantifier": "every legal history including histories with exceptions at any point", "why_tests_cant": "leaks on exception paths need every throw point of every history", "anchors": ["indirect.h: construct_from", "indirect.h: reset", "indirect.h: ~indirect"]}
{"id": "C04", "title": "indirect: storage goes back to the resource it came from", "statement": "Every deallocation performed by indirect uses an allocator whose memory resource is the one that the storage was allocated from, including after allocator propagation on copy assignment, move assignment and swap and after allocator-extended moves.", "quantifier": "every legal history, every allocator whose operator== only equates allocators sharing a resource (stateful, propagating, never-equal and always-equal allocators)", "why_tests_cant": "needs all combinations of propagation traits, equality outcomes and histories", "anchors": ["indirect.h: operator=(const indirect&)", "indirect.h: operator=(indirect&&)", "indirect.h: swap", "indirect.h: destroy_with"]}
{"id": "C05", "title": "indirect: copy construction is a deep copy", "statement": "indirect x(y) gives x a T copy-constructed from *y in freshly allocated storage using select_on_container_copy_construction of y's allocator, leaves y (value, allocator, address of its T) unchanged, and makes x valueless exactly when y is; with a throwing allocation or copy no object x exists and nothing has changed.", "quantifier": "every owned type, value, allocator and reachable state, every throw outcome", "why_tests_cant": "must hold for every T, every state and every failure point", "anchors": ["indirect.h: indirect(const indirect&)", "indirect.h: indirect(allocator_arg_t, const A&, const indirect&)"]}
{"id": "C06", "title": "indirect: values are independent", "statement": "No operation changes the value, valueless state or allocator of an indirect that is not one of its operands; hence after a copy no history that does not mention one of the two copies can change it.", "quantifier": "every legal history and every object not named by it", "why_tests_cant": "independence quantifies over all later histories", "anchors": ["indirect.h: indirect (all members)"]}
{"id": "C07", "title": "indirect: allocator-extended copy", "statement": "indirect x(allocator_arg, a, y) has allocator a, owns a copy of *y allocated from a's resource (or is valueless iff y is), and leaves y unchanged.", "quantifier": "every allocator argument a, source state, owned type and throw outcome", "why_tests_cant": "all allocator/state combinations", "anchors": ["indirect.h: indirect(allocator_arg_t, const A&, const indirect&)"]}
{"id": "C08", "title": "indirect: move construction transfers ownership", "statement": "With an allocator whose operator== is reflexive, indirect x(std::move(y)) never throws, performs no allocation and no operation on T, makes &*x the former &*y, leaves y valueless with its allocator, and gives x a copy of y's allocator; moving from a valueless y gives a valueless x.", "quantifier": "every owned type (even with throwing moves), value, allocator state and throw schedule", "why_tests_cant": "must hold for every T and state; the absence of T operations cannot be seen for all T by testing", "anchors": ["indirect.h: indirect(indirect&&)", "indirect.h: indirect(allocator_arg_t, const A&, indirect&&)"]}
{"id": "C09", "title": "indirect: allocator-extended move", "statement": "indirect x(allocator_arg, a, std::move(y)) has allocator a; if a is always-equal or a == y's allocator it takes over y's T without any T operation and y becomes valueless; otherwise x owns a T move-constructed from *y in storage of a. The paper (DRAFT.md [indirect.ctor] p14) additionally promises that y is then valueless.", "quantifier": "every allocator a, source state, owned type, throw outcome", "why_tests_cant": "all allocator equality outcomes x states x failure points; the paper's postcondition is contradicted by one branch", "anchors": ["indirect.h: indirect(allocator_arg_t, const A&, indirect&&)", "DRAFT.md:974-987"]}
{"id": "C10", "title": "indirect: copy assignment gives the source's value", "statement": "After x = y returns (x, y distinct) x is valueless iff y is; otherwise *x is the result of T's copy assignment when both are engaged with equal allocators (keeping x's T at its address) and a T copy-constructed from *y otherwise; y is unchanged; x's allocator becomes y's iff it propagates on copy assignment; the call returns x.", "quantifier": "every pair of reachable states, allocators, traits and owned types", "why_tests_cant": "all state/trait combinations", "anchors": ["indirect.h: operator=(const indirect&)"]}
{"id": "C11", "title": "indirect: exception guarantee of copy assignment", "statement": "If x = y throws, y is unchanged and whether x is valueless is unchanged; if the exception came from an allocation or from T's copy constructor nothing at all is changed; only if T's own copy assignment threw may *x differ, and then it is what that assignment left behind.", "quantifier": "every reachable state and every throw point", "why_tests_cant": "every throw point in every state", "anchors": ["indirect.h: operator=(const indirect&)", "DRAFT.md:1109-1114"]}
{"id": "C12", "title": "indirect: move assignment transfers the value", "statement": "After x = std::move(y) returns (x, y distinct) x is valueless iff y was; if the allocators compare equal x owns exactly y's former T object (same address, no T operation, no allocation) and y is valueless; otherwise x owns a T move-constructed from *y; x's allocator becomes y's iff it propagates on move assignment. The paper ([indirect.assign] p7) additionally promises that y is valueless.", "quantifier": "every pair of reachable states, allocators, traits and owned types", "why_tests_cant": "all state/trait combinations; the paper's postcondition is contradicted by one branch", "anchors": ["indirect.h: operator=(indirect&&)", "DRAFT.md:1117-1144"]}
{"id": "C13", "title": "indirect: exception guarantee of move assignment", "statement": "If x = std::move(y) throws, x is unchanged and y still owns its T; nothing at all is changed if the allocation threw, and if T's move constructor threw *y is exactly what that constructor left behind.", "quantifier": "every reachable state and every throw point", "why_tests_cant": "every throw point in every state", "anchors": ["indirect.h: operator=(indirect&&)", "DRAFT.md:1144"]}
{"id": "C14", "title": "indirect: self-assignment and self-swap do nothing", "statement": "x = x, x = std::move(x) and x.swap(x) never throw, never touch the heap or T, and leave every object unchanged.", "quantifier": "every reachable state, allocators with any (even irreflexive for assignment) operator==", "why_tests_cant": "all states and allocators", "anchors": ["indirect.h: operator=(const indirect&)", "indirect.h: operator=(indirect&&)", "indirect.h: swap"]}
{"id": "C15", "title": "indirect: swap exchanges states in O(1)", "statement": "When allocators propagate on swap or compare equal, swap(x, y) exchanges the owned objects (by address, including valueless states), exchanges allocators iff they propagate, performs no T operation, no allocation and cannot throw, touches no other object, and swapping twice restores the original state; when they neither propagate nor compare equal the call is undefined behaviour.", "quantifier": "every pair of reachable states and allocator traits", "why_tests_cant": "all states and trait combinations", "anchors": ["indirect.h: swap(indirect&)", "indirect.h: swap(indirect&, indirect&)"]}
{"id": "C16", "title": "indirect: noexcept promises are kept", "statement": "No operation declared noexcept ever lets an exception escape, i.e. no legal call terminates the program.", "quantifier": "every operation, reachable state, allocator trait combination and throw point", "why_tests_cant": "termination happens only at particular throw points with particular traits", "anchors": ["indirect.h: operator=(indirect&&) noexcept(...)", "indirect.h: indirect(indirect&&) noexcept(...)", "indirect.h: swap noexcept(...)"]}
{"id": "C17", "title": "indirect: perfect-forwarding assignment", "statement": "x = u, for u not an indirect, assigns u to *x in place when x is engaged (same address, no allocation) and otherwise constructs a T from u with x's own allocator; x is engaged afterwards, keeps its allocator, and if anything throws x's valueless state is unchanged.", "quantifier": "every argument, state, owned type, throw point", "why_tests_cant": "all states and throw points", "anchors": ["indirect.h: operator=(U&&)"]}
{"id": "C18", "title": "indirect: valueless only through moved-from sources", "statement": "An indirect is engaged right after any construction that is not a copy or move of another indirect, and an engaged indirect becomes valueless only by being the source of a move construction or move assignment, by being assigned from a valueless indirect, or by being swapped with a valueless one; no exception ever makes an object valueless.", "quantifier": "every legal call in every reachable state, every throw point", "why_tests_cant": "a history invariant over all transitions", "anchors": ["indirect.h: valueless_after_move", "indirect.h: reset"]}
{"id": "C19", "title": "indirect: failed construction leaves nothing behind", "statement": "If a constructor of indirect throws, no new indirect exists, any storage it obtained was returned to the same resource, no T remains constructed, and every other object is unchanged (except a T being moved from, which is as T's move constructor left it).", "quantifier": "every constructor, state and throw point", "why_tests_cant": "every throw point", "anchors": ["indirect.h: construct_from"]}
{"id": "C20", "title": "indirect: observers", "statement": "operator* and operator-> are defined exactly when the object is live and engaged and then refer to the owned T with its current value; valueless_after_move and get_allocator report the current state; no observer modifies anything; writing through operator* changes that object's value and nothing else.", "quantifier": "every state, any history before the observation", "why_tests_cant": "all states", "anchors": ["indirect.h: operator*", "indirect.h: operator->", "indirect.h: valueless_after_move", "indirect.h: get_allocator"]}
{"id": "C21", "title": "indirect: destruction", "statement": "Destroying x destroys its T exactly once and then returns its storage, in that order; destroying a valueless x does neither; no other object is affected and destruction never throws.", "quantifier": "every reachable state", "why_tests_cant": "all states", "anchors": ["indirect.h: ~indirect", "indirect.h: reset", "indirect.h: destroy_with"]}
{"id": "C22", "title": "indirect: exact allocation cost of every operation", "statement": "Each operation calls allocate and deallocate exactly as often as documented: one allocation per value construction or engaged copy, none for moves with equal allocators, swap, observers and engaged copy assignment with equal allocators; assignments that construct allocate and construct the new object completely before destroying the old one.", "quantifier": "every operation in every reachable state, with or without exceptions", "why_tests_cant": "counts must hold in every state and failure path", "anchors": ["indirect.h: construct_from", "indirect.h: operator=", "tracking_allocator.h"]}
{"id": "C23", "title": "indirect behaves like a plain optional value", "statement": "Every legal history of indirect operations produces exactly the results (observations, returned references, thrown exceptions) and final values of the same history run on plain value cells, each holding an allocator and an optional value, with no heap at all.", "quantifier": "every legal history on any number of objects, every throw schedule", "why_tests_cant": "refinement over unbounded histories", "anchors": ["indirect.h: indirect (all members)"]}
{"id": "C24", "title": "indirect: equality is an equivalence that separates valueless", "statement": "x == y iff both are valueless or both are engaged and *x == *y; it never dereferences a valueless object; if T's == is an equivalence relation so is indirect's. If the comparison of the owned values throws, the exception reaches the caller and neither object has changed; it is called only if both are engaged.", "quantifier": "all values, all comparison functions on T and U", "why_tests_cant": "all value pairs/triples and user-defined operators", "anchors": ["indirect.h: operator==(const indirect&, const indirect<U,AA>&)"]}
{"id": "C25", "title": "indirect: three-way comparison is a lawful order with valueless least", "statement": "x <=> y never dereferences a valueless object, a valueless object is equivalent to a valueless one and less than an engaged one, otherwise it is the comparison of the owned values; <, >, <=, >= and == derived from it are consistent and inherit reflexivity, antisymmetry, transitivity and totality from T's. If the comparison of the owned values throws, the exception reaches the caller and neither object has changed; it is called only if both are engaged.", "quantifier": "all values, all comparison categories of T", "why_tests_cant": "all triples and user-defined orders", "anchors": ["indirect.h: operator<=>(const indirect&, const indirect<U,AA>&)"]}
{"id": "C26", "title": "indirect: comparison with a plain value", "statement": "Comparing an indirect with a non-indirect u: never equal and always less when valueless, otherwise the comparison of *x with u; reversed forms agree; comparing with u agrees with comparing with an engaged indirect holding u.", "quantifier": "all values and comparison functions", "why_tests_cant": "all values", "anchors": ["indirect.h: operator==(const indirect&, const U&)", "indirect.h: operator<=>(const indirect&, const U&)"]}
{"id": "C27", "title": "synthesized three-way comparison", "statement": "For types without <=> the synthesized comparison is less iff t<u, greater iff not t<u and u<t, and equivalent otherwise; if < is a strict weak order the result is a lawful weak ordering with (a<=>b) the reverse of (b<=>a); for types with <=> it is that operator.", "quantifier": "all types with a < operator, all values", "why_tests_cant": "all strict weak orders", "anchors": ["indirect.h: detail::synth_three_way"]}
{"id": "C28", "title": "hash is consistent with equality", "statement": "Engaged indirects hash as their value, valueless ones hash to one fixed value; indirects that compare equal hash equal whenever that is true of T; hashing never dereferences a valueless object. What the hash of the value does, throwing included, is what happens.", "quantifier": "all values and hash functions", "why_tests_cant": "all values", "anchors": ["indirect.h: std::hash<indirect>", "indirect_cxx14.h: std::hash<indirect>"]}
{"id": "C29", "title": "C++14 comparison operators are mutually consistent and agree with C++20", "statement": "The six C++14 operators between indirects and the twelve mixed operators with plain values never dereference a valueless object, are mutually consistent (!= negates ==, > mirrors <, <= mirrors >=, <= negates > when T's do), and give the same answers as the C++20 operators. Whatever the operators of the values do, throwing included, is what happens, and they are called only for engaged objects.", "quantifier": "all values, all comparison functions on T", "why_tests_cant": "18 operators over all values and orders", "anchors": ["indirect_cxx14.h: operator==, !=, <, >, <=, >="]}
{"id": "C30", "title": "C++14 indirect is equivalent to C++20 indirect", "statement": "For every owned type whose assignability traits agree, every legal history behaves identically (results, values, allocations, exceptions) with indirect_cxx14.h and with indirect.h.", "quantifier": "all legal histories, allocators, throw schedules", "why_tests_cant": "equivalence over all histories", "anchors": ["indirect_cxx14.h: indirect (all members)", "indirect.h: indirect (all members)"]}
{"id": "C31", "title": "polymorphic: no undefined behaviour in any legal history", "statement": "As C01 for polymorphic, including virtual dispatch through the control block and access through the stored object pointer.", "quantifier": "every hierarchy of owned types, every sound allocator, every legal history, every throw schedule, every address choice", "why_tests_cant": "unbounded histories and throw points", "anchors": ["polymorphic.h: polymorphic (all members)", "polymorphic.h: control_block", "polymorphic.h: direct_control_block"]}
{"id": "C32", "title": "polymorphic: exclusive ownership, no leaks, right resource", "statement": "As C02-C04 for polymorphic: control blocks are owned by exactly one live polymorphic, freed exactly once to the resource they came from, and every owned object constructed is destroyed exactly once.", "quantifier": "every legal history with exceptions anywhere", "why_tests_cant": "unbounded histories and throw points", "anchors": ["polymorphic.h: create_control_block", "polymorphic.h: direct_control_block::destroy", "polymorphic.h: reset"]}
{"id": "C33", "title": "polymorphic: copies preserve the dynamic type (no slicing)", "statement": "A copy-constructed or copy-assigned polymorphic owns an object of exactly the dynamic type of the source's object, produced by that type's copy constructor; the source is unchanged; later changes to either do not affect the other.", "quantifier": "every derived type, value, state", "why_tests_cant": "all types in an open hierarchy and all states", "anchors": ["polymorphic.h: direct_control_block::clone", "polymorphic.h: polymorphic(const polymorphic&)", "polymorphic.h: operator=(const polymorphic&)"]}
{"id": "C34", "title": "polymorphic: construction creates an object of the requested type", "statement": "Each value constructor (default, from U&&, in_place_type<U>, in_place_type<U> with initializer list, with or without allocator) makes the polymorphic own an object of type exactly U (T for default construction) built from exactly the given arguments with the given allocator; on a throw nothing is left behind.", "quantifier": "every U derived from T, every argument list, allocator and throw point", "why_tests_cant": "all types and arguments", "anchors": ["polymorphic.h: polymorphic constructors", "polymorphic.h: create_control_block"]}
{"id": "C35", "title": "polymorphic: strong exception guarantee of copy assignment", "statement": "If x = y throws, no object has changed in any way; on success x owns a fresh copy of y's object with y's dynamic type, and x's old object is destroyed only after the new one is complete; x's allocator becomes y's iff it propagates.", "quantifier": "all states, traits, throw points", "why_tests_cant": "every throw point in every state", "anchors": ["polymorphic.h: operator=(const polymorphic&)"]}
{"id": "C36", "title": "polymorphic: moves transfer ownership", "statement": "Move construction (reflexive allocator ==) and allocator-extended move or move assignment with equal allocators transfer the very same object (same address, no T operation, no allocation, no throw) and leave the source valueless; with unequal allocators a new object of the same dynamic type is move-constructed and the source keeps the moved-from object; a throw leaves the target unchanged.", "quantifier": "all states, allocators, traits, throw points", "why_tests_cant": "all states and allocator outcomes", "anchors": ["polymorphic.h: polymorphic(polymorphic&&)", "polymorphic.h: polymorphic(allocator_arg_t, const A&, polymorphic&&)", "polymorphic.h: operator=(polymorphic&&)", "polymorphic.h: direct_control_block::move"]}
{"id": "C37", "title": "polymorphic: swap, self-assignment, self-swap", "statement": "As C14 and C15 for polymorphic.", "quantifier": "all states and allocator traits", "why_tests_cant": "all states", "anchors": ["polymorphic.h: swap", "polymorphic.h: operator="]}
{"id": "C38", "title": "polymorphic: access goes to the owned object", "statement": "operator* and operator-> on an engaged polymorphic refer to the object owned by it, alive and of the type it was constructed with, and this reference stays valid and unchanged until the object is assigned to, moved from, swapped or destroyed; on a valueless object the access is undefined behaviour.", "quantifier": "every reachable state and every later history not touching the object", "why_tests_cant": "reference stability quantifies over histories", "anchors": ["polymorphic.h: operator*", "polymorphic.h: operator->", "polymorphic.h: control_block::p_"]}
{"id": "C39", "title": "polymorphic: noexcept promises are kept", "statement": "No operation of polymorphic declared noexcept lets an exception escape.", "quantifier": "all operations, states, traits, throw points", "why_tests_cant": "only at particular throw points with particular traits", "anchors": ["polymorphic.h: operator=(polymorphic&&) noexcept(...)", "polymorphic_cxx14.h: polymorphic(polymorphic&&) noexcept"]}
{"id": "C40", "title": "polymorphic behaves like a plain optional value with a type tag", "statement": "As C23 for polymorphic: every legal history gives the results of the same history on cells holding an allocator and an optional (dynamic type, value).", "quantifier": "every legal history, every throw schedule", "why_tests_cant": "refinement over unbounded histories", "anchors": ["polymorphic.h: polymorphic (all members)"]}
{"id": "C41", "title": "C++14 polymorphic: allocator-extended move is safe", "statement": "polymorphic_cxx14's allocator-extended move constructor never ends up owning storage that its allocator cannot free.", "quantifier": "all allocators (any propagation traits), states", "why_tests_cant": "only visible with a particular trait combination and unequal allocators", "anchors": ["polymorphic_cxx14.h: polymorphic(allocator_arg_t, const A&, polymorphic&&)"]}
{"id": "C42", "title": "C++14 polymorphic: in_place_type<U> with an initializer list creates a U", "statement": "polymorphic_cxx14's initializer-list constructors make the object own a U.", "quantifier": "all U derived from T, all argument lists", "why_tests_cant": "all types", "anchors": ["polymorphic_cxx14.h: polymorphic(allocator_arg_t, const A&, in_place_type_t<U>, initializer_list<I>, Ts&&...)"]}
{"id": "C43", "title": "C++14 polymorphic is equivalent to C++20 polymorphic", "statement": "For allocators that do not propagate on copy assignment (or whose propagation agrees with is_always_equal) and histories without initializer-list construction, every legal history behaves identically with both headers.", "quantifier": "all such histories, allocators and throw schedules", "why_tests_cant": "equivalence over all histories", "anchors": ["polymorphic_cxx14.h: polymorphic (all members)", "polymorphic.h: polymorphic (all members)"]}
{"id": "C44", "title": "recursive values: deep copy", "statement": "For a node type holding a payload and any number of optional<indirect<Node>> (or optional<polymorphic<Base>>) children with compiler-generated special members, copying an indirect<Node> yields a structurally equal tree in entirely fresh storage and leaves the source tree unchanged, for trees of any shape and depth.", "quantifier": "all finite trees, all address choices", "why_tests_cant": "unbounded depth and shape", "anchors": ["indirect.h: indirect(const indirect&)", "indirect.h: construct_from", "compile_checks/indirect_as_member.cc"]}
{"id": "C45", "title": "recursive values: destruction frees the whole tree once", "statement": "Destroying an indirect<Node> (or polymorphic<Base>) destroys every node of its tree and frees every block exactly once and nothing else; a throw in the middle of a deep copy frees exactly the partial copy.", "quantifier": "all finite trees, all throw points", "why_tests_cant": "unbounded depth and every throw point", "anchors": ["indirect.h: ~indirect", "indirect.h: reset", "indirect.h: construct_from"]}
{"id": "C46", "title": "recursive values: assigning a node from its own descendant", "statement": "x = std::move(x->child) and x = x->child replace x's tree by the child's tree without undefined behaviour.", "quantifier": "all trees and descendants, allocator traits", "why_tests_cant": "aliasing through ownership is not exercised by the tests", "anchors": ["indirect.h: operator=(indirect&&)", "indirect.h: operator=(const indirect&)", "polymorphic.h: operator=(polymorphic&&)", "polymorphic.h: operator=(const polymorphic&)"]}
{"id": "C47", "title": "composite classes with generated special members", "statement": "A class with several indirect members and defaulted special members copies, moves, assigns and destroys memberwise: copies are independent, a throw in the middle of copy construction leaks nothing and leaves the source unchanged.", "quantifier": "any number of members, indirect or polymorphic of either header, any states, any throw point", "why_tests_cant": "every throw point and member count", "anchors": ["compile_checks/indirect_as_member.cc", "compile_checks/indirect_pimpl.cc", "indirect.h: indirect(const indirect&)"]}
{"id": "C48", "title": "TrackingAllocator counts live allocations", "statement": "With TrackingAllocator, in every history alloc_counter - dealloc_counter (modulo the width of unsigned) is the number of engaged objects using those counters; equal allocators share counters.", "quantifier": "all legal histories", "why_tests_cant": "unbounded histories and wrap-around", "anchors": ["tracking_allocator.h: TrackingAllocator"]}
{"id": "C49", "title": "forwarding constructor and assignment never hijack copies and moves", "statement": "The templates indirect(U&&) and operator=(U&&) are never selected for an argument that is an indirect of the same specialization, for any value category and cv-qualification.", "quantifier": "all argument types (cv-qualification x reference category), all owned types", "why_tests_cant": "an open set of types", "anchors": ["indirect.h: indirect(U&&)", "indirect.h: operator=(U&&)", "indirect_cxx14.h: operator=(U&&)"]}
{"id": "C50", "title": "threads that do not change what others use do not notice each other", "statement": "Threads that each change only their own indirect (or polymorphic) objects, and besides use only objects that nobody changes (copying and observing them), each observe, under any interleaving of their calls, exactly what they would observe running alone.", "quantifier": "all numbers of threads, all histories that respect such an ownership, all interleavings, all throw schedules", "why_tests_cant": "all schedules", "anchors": ["indirect.h: indirect (all members)", "polymorphic.h: polymorphic (all members)"]}
{"id": "C51", "title": "indirect (C++14 header) is safe for every owned type", "statement": "With indirect_cxx14.h and an arbitrary owned type (whatever its assignability traits), no legal history of calls has undefined behaviour, every block is owned by exactly one object, storage returns to the resource it came from, nothing is leaked once no object is left, and every call has the result given by the value-level specification.", "quantifier": "all owned types, allocators, legal histories, exception and out-of-memory points", "why_tests_cant": "The C++14 test-suite runs a few instantiations; the claim ranges over all types, traits, histories and failure points.", "anchors": ["indirect_cxx14.h: indirect (all members)"]}
{"id": "C52", "title": "indirect: value constructors build the T from exactly the given arguments", "statement": "Every value constructor (default, from U&&, in_place, in_place with initializer list, with or without allocator) makes the indirect own a T built by T's matching constructor from exactly the given arguments in storage of the given (or a default-constructed) allocator; if memory or T's constructor fails the exception is passed on and nothing is left behind.", "quantifier": "every constructor, argument list, source object, allocator, allocation outcome and throw point", "why_tests_cant": "all argument values, states and failure points", "anchors": ["indirect.h: indirect constructors", "indirect.h: construct_from"]}
{"id": "C53", "title": "polymorphic: exact cost of every call", "statement": "Every call on polymorphic that returns allocates and deallocates exactly as often as a fixed table over calls, valueless states and allocator equality says (at most once each), constructs one object per allocation and destroys one per deallocation; when it does both, the new object is complete before the old one is destroyed; a call that throws gives back what it allocated.", "quantifier": "all states, calls, allocators, traits and outcomes", "why_tests_cant": "counts must match in every state and for every failure point", "anchors": ["polymorphic.h: all members"]}
{"id": "C54", "title": "indirect: references to the owned object stay valid", "statement": "A reference to *x stays valid (same address, object alive) through every history in which x is not assigned to, moved from, swapped or destroyed, even if *x is modified or moved from, copies of x are made, and calls throw; and a history that does not change x or *x leaves value, valueless state and allocator of x alone.", "quantifier": "every reachable state and every later legal history not rebinding the object", "why_tests_cant": "quantifies over all later histories, including exceptions", "anchors": ["indirect.h: operator*", "indirect.h: operator->", "indirect.h: all members"]}
{"id": "C55", "title": "C++14 polymorphic: safety and value semantics of histories", "statement": "For allocators that propagate on copy assignment only if all of them are equal, every legal history of calls on C++14 polymorphic objects has no undefined behaviour, no shared ownership, no leak and no deallocation by a foreign allocator, returns what the same calls on plain tagged values return, and terminates the program only in a move assignment between unequal allocators that propagate.", "quantifier": "all legal histories, such allocators, throw schedules and address choices", "why_tests_cant": "unbounded histories and every failure point", "anchors": ["polymorphic_cxx14.h: polymorphic (all members)", "polymorphic_cxx14.h: direct_control_block"]}
{"id": "C56", "title": "a call touches only the objects it mentions", "statement": "A call on indirect (or polymorphic) objects reads and writes nothing but the objects named in the call, the objects they own, and storage obtained from the allocator during the call: changing anything else in the program beforehand, arbitrarily, changes neither the outcome nor the effects of the call, and the call leaves everything else unchanged. So calls on different objects from different threads cannot race.", "quantifier": "all calls, all pairs of program states that agree on the named objects and their storage, all environments (allocation failures, throws)", "why_tests_cant": "quantifies over everything else the program may contain", "anchors": ["indirect.h: indirect (all members)", "polymorphic.h: polymorphic (all members), detail::control_block"]}
{"id": "C57", "title": "calls that do not change what the other uses commute", "statement": "Two successive calls, neither of which changes an object that the other mentions (they may both copy or observe the same object), give the same results, exceptions and final objects and storage if they are made in the other order.", "quantifier": "all reachable states, all such pairs of calls, all outcomes including exceptions", "why_tests_cant": "all pairs of calls in all states", "anchors": ["indirect.h: indirect (all members)", "polymorphic.h: polymorphic (all members)"]}
{"id": "C58", "title": "recursive values: every statement does what it says on trees", "statement": "For variables holding trees of nodes with any number of optional<indirect<Node>> (or optional<polymorphic<Base>>, with nodes of any derived types) members, every history of emplace, copy and move construction (with and without allocator), reset, copy and move assignment, swap, assignment from a value and assignment of a whole node (copied or moved) from another, on variables or on members at any depth of them, is free of undefined behaviour, and each statement either replaces the tree at the named place as specified (copy: deep copy; move: the tree itself; swap: exchanged; ...) or throws with the specified effect.", "quantifier": "all histories of legal statements, all trees of any shape and depth, all places in them, all allocators and traits, all throw points", "why_tests_cant": "unbounded depth, shape and history", "anchors": ["indirect.h: indirect", "indirect.h: operator=(const indirect&)", "indirect.h: operator=(indirect&&)", "indirect.h: swap", "compile_checks/indirect_as_member.cc", "polymorphic.h: polymorphic", "indirect.h: operator=(U&&)"]}
{"id": "C59", "title": "recursive values: a statement changes only the trees it names", "statement": "Whether it returns or throws, a statement on recursive values leaves every tree at a place apart from the places it assigns to (or moves from) exactly as it was, including the addresses of its nodes: trees behave like independent values.", "quantifier": "all histories, all statements, all other places at any depth", "why_tests_cant": "absence of interference cannot be sampled", "anchors": ["indirect.h: indirect(const indirect&)", "indirect.h: operator=(const indirect&)", "indirect.h: operator=(indirect&&)", "indirect.h: swap", "polymorphic.h: polymorphic"]}
{"id": "C60", "title": "recursive values: ownership is a forest", "statement": "In every history of legal statements the nodes form trees: every allocated block is owned by exactly one indirect (or polymorphic) reachable from exactly one variable; there is no sharing, no cycle, no unreachable node and no dangling pointer.", "quantifier": "all histories of legal statements, including ones with exceptions", "why_tests_cant": "unbounded histories and shapes", "anchors": ["indirect.h: indirect(indirect&&)", "indirect.h: swap", "indirect.h: reset", "polymorphic.h: polymorphic"]}
{"id": "C61", "title": "recursive values: comparison and hashing are structural", "statement": "For a class with a payload and any number of optional<indirect> members of its own type and defaulted == and <=>: == answers whether two trees have the same shape (absent equal only to absent, valueless only to valueless) and equal payloads; <=> is the lexicographic comparison with absent before valueless before engaged; both are independent of addresses and allocators, terminate, change nothing, and inherit the laws (equivalence, order, totality, consistency) of the payload's operators; equal trees have equal hashes; a copy compares equal to its source if copies of payloads do; a throwing payload comparison leaves everything as it was.", "quantifier": "all histories of legal statements, all pairs of places (also one inside the other), trees of any depth and number of members, both headers", "why_tests_cant": "unbounded shapes and all payload operators", "anchors": ["indirect.h: operator==(const indirect&, const indirect<U,AA>&)", "indirect.h: operator<=>(const indirect&, const indirect<U,AA>&)", "indirect.h: std::hash<indirect>", "indirect_cxx14.h: operator=="]}
{"id": "C62", "title": "const operands are only read", "statement": "A call writes nothing but the objects it may change, what they own and storage it gets from the allocator. The source of a copy construction or copy assignment, and the object of an observer (operator*, operator->, valueless_after_move, get_allocator), is never written: not its members, not its storage or control block, not even temporarily (no construction, destruction, assignment, allocation or deallocation there), whether the call returns or throws.", "quantifier": "all calls, all states (polymorphic: all reachable states), all environments", "why_tests_cant": "absence of writes in every state and on every exceptional path", "anchors": ["indirect.h: indirect(const indirect&), operator=(const indirect&), operator*, operator->, valueless_after_move, get_allocator", "polymorphic.h: polymorphic(const polymorphic&), operator=(const polymorphic&), detail::control_block::clone"]}
{"id": "C63", "title": "variants with indirect or polymorphic alternatives", "statement": "std::variant<N, indirect<T0>, indirect<T1>, ...> (or polymorphic) is a value: construction, copy, move, assignment, emplace and destruction have no undefined behaviour; copies are deep and independent; after an exception in copy assignment the target is what it was, or valueless if the alternative assigned is not nothrow move constructible; nothing leaks, whatever throws. Assignments never leave such a variant valueless, since moving an indirect or polymorphic does not throw.", "quantifier": "all numbers of alternatives, element types, first alternatives, allocators, histories and exceptions, both headers", "why_tests_cant": "every pair of alternatives, every point at which an exception can occur, every history", "anchors": ["compile_checks/indirect_in_variant.cc", "compile_checks/polymorphic_in_variant.cc", "indirect.h: indirect(indirect&&)", "polymorphic.h: polymorphic(polymorphic&&)", "DRAFT.md: [indirect.ctor], [polymorphic.ctor]"]}
{"id": "C64", "title": "vectors of indirect or polymorphic", "statement": "std::vector<indirect<T, A>> and std::vector<polymorphic<T, A>> behave as lists of values: emplace_back, push_back (also of an element of the same vector), pop_back, reserve, erase, copy, move, assignment, swap and destruction do to the list of elements what they say, and change no other vector or variable; none is undefined behaviour and nothing leaks, whatever throws; emplace_back, push_back of a copy, reserve, and copies have the strong guarantee. If allocators are always equal, growth and reserve keep the owned objects of all elements at their addresses; if all elements have the same allocator, erase keeps them, and never throws. In vectors that pass their allocator on (std::pmr::vector) every element always has the vector's allocator. Otherwise growth copies: it may change the allocators of elements, and a push_back of a moved value that throws may have consumed it.", "quantifier": "all element types, allocators, numbers of elements, capacities, histories of vectors and variables, and exceptions; both headers, except that polymorphic of the C++14 header is covered in vectors that do not pass their allocator on (C41 is about what goes wrong otherwise)", "why_tests_cant": "every size and capacity, every point at which an element's function or the vector's allocator can throw, every aliasing of arguments with elements, every history", "anchors": ["indirect_test.cc: InteractionWithVector", "polymorphic_test.cc: InteractionWithVector, InteractionWithPMRAllocators", "benchmarks/indirect_benchmark.cc: vector copies", "indirect.h: indirect(indirect&&), indirect(const indirect&), operator=(indirect&&)", "polymorphic.h: the same"]}
{"id": "C65", "title": "which allocator an object has", "statement": "The allocator of an object is determined by the calls made and the propagation traits alone, never by values, by what is valueless or by how storage was obtained: constructors take the allocator given, the default one, the source's (move) or what select_on_container_copy_construction makes of the source's (copy); an assignment replaces the target's allocator by the source's, and swap exchanges them, exactly if the allocator propagates there; nothing else changes it, and a call that throws changes no allocator. So with allocators that do not propagate (TrackingAllocator and TaggedAllocator of the tests, std::pmr::polymorphic_allocator) an object has the same allocator from construction to destruction, and every allocator in use comes from the program.", "quantifier": "all histories, types, allocators, allocation failures and exceptions; both versions of both headers (polymorphic_cxx14: allocators that propagate on copy assignment only if always equal)", "why_tests_cant": "every sequence of assignments and swaps, including those that throw, for every combination of traits", "anchors": ["indirect.h: constructors, operator=, swap, get_allocator", "polymorphic.h: the same", "indirect_cxx14.h, polymorphic_cxx14.h: the same", "tracking_allocator.h", "tagged_allocator.h", "DRAFT.md: [indirect.ctor], [indirect.assign], [indirect.swap]"]}
{"id": "C66", "title": "threads inside calls", "statement": "Any number of threads make calls at the same time, and each of their accesses to memory may come between any two accesses of the others. If every thread uses its own objects as it likes and objects that are shared only as operands that its calls do not change, and if its calls would be legal if it were alone, then no interleaving has undefined behaviour or a data race; every thread sees of its calls exactly what it can see alone, and its objects have the values they have then; shared objects stay as they are; nothing leaks; and the program is terminated only if a thread alone can terminate it. Every call is completed after a fixed number of steps of its own thread, whatever the other threads do. If a shared object is changed, data races and uses of dead objects are possible.", "quantifier": "all numbers of threads, programs of the threads (which may depend on what they have seen), interleavings of memory accesses, types, allocators, allocation failures and exceptions; indirect.h, polymorphic.h, indirect_cxx14.h and, for allocators that propagate on copy assignment only if they are always equal, polymorphic_cxx14.h", "why_tests_cant": "there are exponentially many interleavings, and a race shows only in some of them", "anchors": ["indirect.h: all members", "polymorphic.h: all members", "indirect_cxx14.h: all members", "polymorphic_cxx14.h: all members", "README.md: value semantics, const propagation", "DRAFT.md: Design for const propagation; [res.on.data.races]"]}
{"id": "C67", "title": "wrapper and constrained_wrapper are values", "statement": "A program that default-constructs, copies, moves, assigns, compares and destroys wrapper<T> (or constrained_wrapper<T>) objects has no undefined behaviour and leaks nothing, whatever throws; every object has its own T; copies, moves and assignments give the target a copy of the source's value and change nothing else; == compares the values.", "quantifier": "all types T, programs, allocation failures and exceptions", "why_tests_cant": "ownership must hold in every history; the only use in the repository never assigns", "anchors": ["exploration/wrapper.h: wrapper, constrained_wrapper", "exploration/incomplete_types.cc: WrapperMember, ConstrainedWrapperMember"]}
{"id": "C68", "title": "threads that compare and hash", "statement": "Any number of threads compare and hash indirect objects, between and during each other's calls, access by access. Under the conditions of C66, where comparisons and hashes count as calls that change none of the objects they name, no interleaving has undefined behaviour or a data race, every thread gets the answers that it gets alone, shared objects stay as they are, nothing leaks, and every comparison and hash is completed after a fixed number of steps of its own thread. In particular, threads that only compare and hash live objects, valueless or not, need no synchronisation at all: the program is never terminated, no object changes, and every answer (or exception of the owned type) is that of the values.", "quantifier": "all numbers of threads, programs of the threads, interleavings of memory accesses, comparisons and hashes of the owned type (which may throw), allocators and environments; operators ==, <=> and hash of indirect.h; the six operators, also between objects and values, and hash of indirect_cxx14.h", "why_tests_cant": "there are exponentially many interleavings, and a race shows only in some of them", "anchors": ["indirect.h: operator==, operator<=>, synth_three_way, std::hash<indirect>", "indirect_cxx14.h: operator==, !=, <, >, <=, >=, std::hash<indirect>", "DRAFT.md: [indirect.relops], [indirect.comp.with.t], [indirect.hash]; [res.on.data.races]"]}
{"id": "C69", "title": "synchronised threads: calls happen as if one after the other", "statement": "Any number of threads use indirect and polymorphic objects as they like, hand objects to each other, and share objects that are changed later. If no two calls that run at the same time conflict (one of them changes an object that the other names), and the preconditions of every call hold when it begins, then whatever the interleaving of their memory accesses there is no undefined behaviour and no data race; all calls have the results, and all objects the values, that they have if the calls are made one after the other without concurrency, in the order in which they end; the program is terminated only if that can happen to calls made one after the other; and when no call is running, every block of storage is owned by exactly one object. So a client that synchronises may reason about its calls as if they were atomic.", "quantifier": "all numbers of threads, programs, ways of synchronising (arbitrary sequences of events), interleavings of memory accesses, owned types, allocators and environments; indirect.h and indirect_cxx14.h with comparisons and hashes, polymorphic.h and, for allocators that propagate on copy assignment only if they are always equal, polymorphic_cxx14.h", "why_tests_cant": "there are exponentially many interleavings, and a race or an order-dependent result shows only in some of them", "anchors": ["indirect.h: class indirect", "polymorphic.h: class polymorphic", "indirect_cxx14.h", "polymorphic_cxx14.h", "README.md: value semantics, const propagation"]}
{"id": "C70", "title": "constness and value category propagate through owners", "statement": "What kind of expression `*x`, `x->m`, `std::move(x)->m` and so on is, for indirect and polymorphic and any chain of such accesses and members: if any object on the way is const, what is reached is const, and if none is, it is not; so a const object with indirect and polymorphic members, however deep, gives access only to const objects, all members can be used as observers, and no member of it can be changed. Dereferencing an rvalue indirect gives an rvalue, an lvalue gives an lvalue; a polymorphic always gives an lvalue. A chain of accesses gives an rvalue exactly if it ends with member accesses and dereferences of indirect by operator* only, after a std::move or from the start if it starts with an rvalue. Every accessor call compiles, for any constness and value category of the object. With plain pointers as members this fails.", "quantifier": "all chains of accesses of any length through members of classes, all constness and value categories; the accessors of all four headers", "why_tests_cant": "overload resolution is checked for each class by the compiler, chains of any length are unboundedly many", "anchors": ["indirect.h: operator*, operator->", "indirect_cxx14.h: operator*, operator->", "polymorphic.h: operator*, operator->", "polymorphic_cxx14.h: operator*, operator->", "README.md: const propagation"]}
{"id": "C71", "title": "class template argument deduction", "statement": "`indirect x(v)` declares an indirect of the type of v with the default allocator; from an indirect (copied or moved) it declares the same specialization, never an indirect of an indirect; from an object of a class derived from an indirect, an indirect of that class. `indirect x(std::allocator_arg, a, v)` declares an indirect of the type of v with the allocator rebound to that type, whatever it allocated for; from an indirect with the allocator type a the same specialization; from an indirect with another allocator type an indirect of an indirect. What is deduced meets the requirements of the class template on its arguments.", "quantifier": "all types of arguments (class types, derived classes, arrays, functions, nested indirects, allocators), constness and value categories; both headers", "why_tests_cant": "the arguments range over all types", "anchors": ["indirect.h: deduction guides", "indirect_cxx14.h: deduction guides"]}
{"id": "C72", "title": "recursive values with the C++14 headers", "statement": "C44, C45 and C58 to C60 for indirect_cxx14.h and polymorphic_cxx14.h: recursive classes with members of these types are finite trees without sharing; every statement on them does to trees what is specified; copies are deep, destruction destroys every node exactly once, nothing leaks. A program with recursive values does exactly the same, address by address and event by event, with either pair of headers, if assignability asks the same of the payload, and if the allocator-extended move constructor of polymorphic is not called with an allocator that differs from that of the source where allocators propagate on copy assignment (there a legal program has undefined behaviour with the C++14 header only).", "quantifier": "all histories of statements on any number of variables, trees of any size, any number of members per node, payload types, allocators and environments", "why_tests_cant": "trees and histories are unbounded, exceptions may occur at any point", "anchors": ["indirect_cxx14.h: class indirect", "polymorphic_cxx14.h: class polymorphic", "compile_checks/", "README.md"]}
{"id": "C73", "title": "programs that react to results and exceptions", "statement": "A program that decides what to call next from the results of earlier calls (values, comparisons, addresses excepted) and from the exceptions it catches, and that never violates a precondition whatever the environment decides, behaves as if its objects were plain values: it returns the same result and leaves the same values as the program run on optional values with no heap. It has no undefined behaviour. Where the allocator places objects does not matter: two runs in which the environment decides the same but chooses other addresses end alike. When it returns nothing is leaked or shared.", "quantifier": "all client programs (any branching on results and exceptions, any length), owned types, allocators, environments and starting states; indirect with comparisons and hashes, polymorphic, both headers of each (for polymorphic_cxx14.h: allocators that propagate on copy assignment only if they are always equal; C41 is what happens with others)", "why_tests_cant": "programs, results and failure points are unbounded", "anchors": ["indirect.h: class indirect", "polymorphic.h: class polymorphic", "indirect_cxx14.h", "polymorphic_cxx14.h", "DRAFT.md"]}
{"id": "C74", "title": "algorithms that compare and exchange", "statement": "Sorting a sequence of indirect objects by comparisons and swaps sorts their values, valueless objects first; the values are a permutation of those before; no other object changes, no storage is allocated, freed or written, and no value is copied or moved. If comparisons of the owned type contradict themselves or throw, the sort still ends with a permutation and nothing is lost. Exchanging two objects with equal allocators by three moves (as the generic std::swap does) exchanges the owned objects by address without touching storage or the owned type, and is the same as swap if allocators propagate on move assignment exactly if they do on swap. With unequal allocators that do not propagate on move assignment (which swap does not allow) the three moves exchange the values by moving them to new storage and the allocators stay; if an allocation or a move throws, no other object changes and nothing leaks, but the value of the first object can be lost.", "quantifier": "all lists of objects of any length, values, comparisons, allocators and environments; sorting for indirect of both headers, the exchange by moves for indirect and polymorphic of both headers", "why_tests_cant": "lists and comparison functions are unbounded", "anchors": ["indirect.h: operator<=>, swap, move constructor, move assignment", "indirect_cxx14.h: operator<, swap, move constructor, move assignment", "polymorphic.h: move constructor, move assignment, swap", "polymorphic_cxx14.h: move constructor, move assignment, swap"]}
{"id": "C75", "title": "programs with local variables", "statement": "In a program whose objects are local variables, a variable is destroyed at the end of its block whether the block ends normally or by an exception: when the program has ended exactly the objects are alive that were alive when it began. A program that starts with no objects leaves nothing behind: all storage is freed, every owned object was destroyed exactly once. If allocators are interchangeable, a program that follows three rules visible in its text - use variables only in their scope, do not use the value of a variable that may have been moved from, do not construct a variable twice - has no undefined behaviour, never terminates abnormally and leaks nothing, whatever allocation or operation of an owned type throws. This includes programs evaluated at compile time, where a leak would be an error.", "quantifier": "all programs built from declarations, calls, branches on results, throws and handlers, of any size and nesting; owned types, allocators, environments; indirect with comparisons and hashes, polymorphic, both headers of each (for polymorphic_cxx14.h: allocators that propagate on copy assignment only if they are always equal; C41 is what happens with others)", "why_tests_cant": "programs and points of failure are unbounded", "anchors": ["indirect.h: class indirect", "polymorphic.h: class polymorphic", "indirect_cxx14.h", "polymorphic_cxx14.h", "compile_checks/indirect_consteval.cc", "compile_checks/polymorphic_consteval.cc"]}
{"id": "C76", "title": "owned types that use the allocator of their owner", "statement": "If the allocator's construct passes an allocator on to constructors of the owned type (as std::pmr::polymorphic_allocator and std::scoped_allocator_adaptor do), then whatever those constructors do with it, a call constructs at most with the allocator that the object on which the call is made has afterwards: the allocator given, the default one, the one select_on_container_copy_construction gives, that of the source if it is propagated, else the object's own. Values, exceptions and termination are those of an owned type that uses this allocator throughout, and no behaviour is undefined. Consequently, if the owned type takes memory only from the allocator it was constructed with, every owned object always uses the memory resource of its owner's allocator, including after moves, swaps and assignments between owners with different allocators. When no owner is left, nothing is left.", "quantifier": "all owned types whose constructors use the allocator in any way, all allocators (resources, equality, propagation), all reachable states, calls, environments including exceptions; both headers of both types", "why_tests_cant": "the tests check one pmr type in a few calls; owned types, allocator traits and histories are unbounded", "anchors": ["indirect.h: construct_from", "indirect_cxx14.h: construct_from", "polymorphic.h: direct_control_block", "polymorphic_cxx14.h: direct_control_block", "indirect_test.cc:934-962", "polymorphic_test.cc:766-795"]}
{"id": "C77", "title": "construct and destroy of the allocator come in pairs", "statement": "If the allocator has members construct and destroy of its own (which construct and destroy, and may record it), every call does what it does with the default ones. Everything that construct constructed is destroyed exactly once with destroy, by an allocator with the same memory resource, after its construction and before its storage is deallocated; nothing else is passed to destroy. At any time, for every memory resource, construct was called as often as destroy and once more for each object owned at that time; when no owner is left, equally often.", "quantifier": "all owned types, allocators (resources, equality, propagation), histories of calls, environments including failed allocations and throwing constructors; both headers of both types", "why_tests_cant": "the tests count calls of allocate and deallocate in a few scenarios; histories, failure points and allocator traits are unbounded", "anchors": ["indirect.h: construct_from, destroy_with", "indirect_cxx14.h: construct_from, destroy_with", "polymorphic.h: direct_control_block, create_control_block", "polymorphic_cxx14.h: direct_control_block, create_control_block"]}
{"id": "C78", "title": "clients that protect objects with mutexes", "statement": "Threads share indirect and polymorphic objects in the usual style: every object is protected by a mutex (that readers may lock together and writers lock alone), or belongs to one thread, or is never changed; a thread uses an object of a mutex only while it has locked it and changes it only while it has locked it exclusively; it relies on the invariant of the mutex when it locks it and restores it before it unlocks it, and observes the preconditions of its calls as far as a sequential check of that thread alone can tell. Then, whatever the interleaving of memory accesses, there is no undefined behaviour, no misuse of a mutex and no data race; the calls happen as if one after the other; what each thread was checked to know is true, and the invariants hold of all mutexes that are not locked exclusively; the program is terminated only if that can happen to calls made one after the other; and when no call is running every block of storage is owned by exactly one object. So const access to shared objects needs no more than a shared lock.", "quantifier": "all numbers of threads and mutexes, programs (with loops), invariants, schedules of single memory accesses, owned types, allocators and environments; indirect.h and indirect_cxx14.h with comparisons and hashes, polymorphic.h and, for allocators that propagate on copy assignment only if they are always equal, polymorphic_cxx14.h", "why_tests_cant": "there are exponentially many interleavings and unboundedly many client programs", "anchors": ["indirect.h: class indirect", "polymorphic.h: class polymorphic", "indirect_cxx14.h", "polymorphic_cxx14.h", "README.md: value semantics, const propagation"]}
{"id": "C79", "title": "optionals of indirect and polymorphic", "statement": "std::optional<indirect<T>> and std::optional<polymorphic<T>> are values: copying an optional copies what it contains, with an owned object of its own; moving one transfers the owned object, never throws, and leaves an optional that still has_value() but contains a valueless object; assignment between optionals, from nullopt and from objects, reset, emplace and swap have the results of [optional], whatever is thrown: after a failed construction or copy nothing has changed, after a failed assignment the optional contains an object exactly if it did before, after a failed emplace it is empty. swap never throws, also if one optional is empty. value() of an empty optional throws and changes nothing. Changing what one optional owns changes no other. An empty optional owns no storage; storage is allocated exactly while an engaged optional or a variable owns it, and everything is returned and destroyed exactly once in the end. Nothing of this is undefined behaviour.", "quantifier": "all owned types, allocators, numbers of optionals and variables, histories of operations and exceptions; all four headers (polymorphic_cxx14.h for allocators that are equal if they claim to be always equal)", "why_tests_cant": "the tests construct one engaged optional; the histories, including those with exceptions, are unboundedly many", "anchors": ["indirect_test.cc: TEST(IndirectTest, Optional), TEST(IndirectTest, InteractionWithOptional)", "polymorphic_test.cc: TEST(PolymorphicTest, InteractionWithOptional)", "indirect.h: indirect(const indirect&), indirect(indirect&&), operator=, ~indirect, swap", "polymorphic.h: polymorphic(const polymorphic&), polymorphic(polymorphic&&), operator=, ~polymorphic, swap", "indirect_cxx14.h", "polymorphic_cxx14.h"]}
{"id": "C80", "title": "maps with mapped values of type indirect or polymorphic", "statement": "std::map<K, indirect<T>>, std::unordered_map<K, indirect<T>> and the same with polymorphic<T> are values: a copy of a map has the same keys with a copy of each mapped value, each with an owned object of its own; moving, swapping and merging maps moves elements without touching mapped values, and cannot throw. emplace, try_emplace, insert_or_assign, erase, clear, at and assignment have the results of [map] and [unord.map], whatever is thrown: after a failed copy of a map, or a failed construction of an element, no element was added, changed or removed; after a failed copy assignment the target is empty. try_emplace for a key that exists does nothing: its arguments are not moved from. at for a missing key throws and changes nothing. Every operation leaves elements and variables it does not concern alone, and references to the objects they own stay valid, also when other elements are inserted or erased, the map is rehashed, or it is moved from, swapped or merged. With an allocator that maps pass on, every element has it. Storage is allocated exactly while an element or a variable owns it, and everything is returned and destroyed exactly once in the end. Nothing of this is undefined behaviour.", "quantifier": "all key types, owned types, allocators, numbers of maps, elements and variables, histories of operations and exceptions; all four headers (polymorphic_cxx14.h for allocators that are equal if they claim to be always equal; maps that pass their allocator on: for all but polymorphic_cxx14.h)", "why_tests_cant": "the tests insert two or three elements into one map; the histories, including those with exceptions, are unboundedly many", "anchors": ["indirect_test.cc: TEST(IndirectTest, InteractionWithMap), TEST(IndirectTest, InteractionWithUnorderedMap)", "polymorphic_test.cc: TEST(PolymorphicTest, InteractionWithMap), TEST(PolymorphicTest, InteractionWithUnorderedMap)", "indirect.h: indirect(const indirect&), indirect(indirect&&), operator=, ~indirect", "polymorphic.h: polymorphic(const polymorphic&), polymorphic(polymorphic&&), operator=, ~polymorphic", "indirect_cxx14.h", "polymorphic_cxx14.h"]}
{"id": "C81", "title": "constant evaluation", "statement": "A function that uses indirect or polymorphic for local variables only can be evaluated by the compiler: with std::allocator (or any allocator whose values all compare equal) and an owned type whose operations do not throw and have the same results every time, a program of local variables that uses each variable in its scope, does not look at the value of a variable that may have been moved from, and does not throw by itself, runs without undefined behaviour, exception or abnormal termination, returns everything it allocated, and has one result, the same for all addresses the storage may have: what the program computes on plain values. In particular the static assertions of compile_checks/indirect_consteval.cc and compile_checks/polymorphic_consteval.cc hold.", "quantifier": "all programs of local variables (with branches, loops that end, nested blocks), all owned types with operations that do not throw, all environments in which storage is available; indirect.h and polymorphic.h (the C++14 headers are not constexpr)", "why_tests_cant": "the compile checks evaluate 42 functions with one compiler each; whether any other consteval function is a constant expression, and whether its value is the same for every compiler, they do not say", "anchors": ["compile_checks/indirect_consteval.cc", "compile_checks/polymorphic_consteval.cc", "indirect.h: indirect", "polymorphic.h: polymorphic", "DRAFT.md: constexpr support"]}
{"id": "C82", "title": "the headers can be included together, in any order", "statement": "A translation unit may include indirect.h, indirect_cxx14.h, polymorphic.h, polymorphic_cxx14.h and feature_check.h in any order and as often as it likes: no #error is reached, nothing is defined twice, every name is declared before it is used, and after each include everything that header documents is available. Which indirect and which polymorphic a translation unit gets is decided by the first header of each pair that it includes. Translation units of one program have the same definitions of the names they share.", "quantifier": "all compilers (language version, feature-test macros), all lists of headers of the library and of the standard library, all pairs of such lists", "why_tests_cant": "There are infinitely many sequences of includes and each compiler is a different program for the preprocessor; tests compile a few orders with the compilers of the CI, whose standard library headers happen to include each other.", "anchors": ["indirect.h:21-46", "indirect_cxx14.h:21-94", "indirect_cxx14.h:573-594", "polymorphic.h:21-48", "polymorphic_cxx14.h:21-101", "feature_check.h:21-98"]}
{"id": "C83", "title": "the macros of feature_check.h mean what they say", "statement": "After feature_check.h is included, wherever and after whatever, XYZ_HAS_STD_OPTIONAL, XYZ_HAS_STD_IN_PLACE_TYPE_T, XYZ_HAS_STD_IN_PLACE_T and XYZ_HAS_TEMPLATE_ARGUMENT_DEDUCTION are defined exactly if the language is C++17 or later, XYZ_HAS_STD_THREE_WAY_COMPARISON exactly if it is C++20 or later, and XYZ_HAS_STD_MEMORY_RESOURCE exactly if <memory_resource> and its content are available; then it has been included. indirect_cxx14.h has deduction guides exactly if the language has them.", "quantifier": "all compilers (values of __cplusplus, _MSVC_LANG, __has_include and feature-test macros), all lists of headers", "why_tests_cant": "The tests are compiled by a few compilers and check only what the macros enable there; a macro that is missing removes the tests that would notice.", "anchors": ["feature_check.h:28-98", "indirect_cxx14.h:573-580"]}
{"id": "C84", "title": "recursion depth of recursive values", "statement": "Destroying, copying, hashing a recursive value (a node type with members of type optional<indirect<Node>> or optional<polymorphic<Node>>) and finding two of them equal nests calls of the node's functions exactly as deeply as the value is high: less stack than that is never enough, that is enough. Values of every height can be built, so no fixed stack suffices for all of them. Move construction and swap of such values call no function of the node at all, whatever their height.", "quantifier": "all node types with any number of members, allocator traits, histories, places in a tree, heights and call depths", "why_tests_cant": "A test destroys values of a few heights on one stack size; that every value needs a depth equal to its height, and that moves never need any, is a statement about all of them.", "anchors": ["indirect.h:222 ~indirect, 437-441 reset, 456-459 destroy_with", "indirect.h:129-135 and 185-195 copy construction", "indirect.h:137-139 move construction, 351-366 swap", "indirect.h comparison and hash", "polymorphic.h:273 ~polymorphic, 189-193 copy construction", "compile_checks/indirect_as_member.cc", "polymorphic_cxx14.h ~polymorphic, copy construction"]}
{"id": "C85", "title": "incomplete types", "statement": "Whether an indirect<T> or polymorphic<T>, or a class with such members, can be copied, moved, assigned, destroyed and swapped can be asked while T is incomplete, and the answer is yes. No answer to any question about construction or assignment of an owner changes when classes are completed later. A translation unit that uses indirect<T> is accepted exactly if T is complete, and offers what the paper mandates, wherever a function that looks at the owned object is used; one that uses polymorphic<T> without creating an object from nothing is always accepted. When all classes are complete the answers are those of overload resolution.", "quantifier": "all types, all facts about them, all sets of complete classes, all arguments, all translation units (any number of definitions, questions and uses in any order)", "why_tests_cant": "A compile check fixes one class, one order of definitions and one compiler; that a question never touches the incomplete type, whatever the order, is a statement about all translation units, and a question with a wrong answer is silently remembered by the compiler.", "anchors": ["indirect.h constraints and static assertions: 96-174, 228-298", "indirect_cxx14.h:116-235, 303-307", "polymorphic.h:156-217, 62-143", "polymorphic_cxx14.h:199-316, 117-191", "compile_checks/indirect_pimpl.cc", "compile_checks/indirect_as_member.cc", "compile_checks/polymorphic_as_member.cc", "exploration/wrapper.h", "exploration/traits_and_concepts.cc", "DRAFT.md: incomplete type support"]}
{"id": "C86", "title": "copies are made by the owned type's copy constructor, from a constant", "statement": "When an owner is copied or moved, the owned type selects the constructor (or assignment operator) that it selects for a constant of its own type, respectively for std::move of one of its objects: copying a const owner never hands out the owned object as one that may be modified. Arguments that are handed on to the owned type keep constness and value category.", "quantifier": "all owned types with any set of copy-like constructors and any constraint on a template among them, all four headers, all copying and moving functions, arguments handed on through any number of functions", "why_tests_cant": "The tests use types whose overload sets do not tell T& from const T&; the claim is about every overload set.", "anchors": ["indirect.h:194 and 244 *other, 249 *other.p_, 210 and 283 moves, 443-454 construct_from", "indirect_cxx14.h:206, 253, 259, 225, 292", "polymorphic.h:85-107 clone and move, 244, 295, 261, 327", "polymorphic_cxx14.h:140-162, 320, 373, 345, 404"]}
{"id": "C87", "title": "comparisons of nested and mixed operands", "statement": "indirects may be compared with each other and with plain values in any mixture of types and depths (indirect<indirect<T>> with T, indirect<indirect<T>> with indirect<U>, ...). Every such comparison selects exactly one operator, it compiles exactly if the values at the ends can be compared, and its result is that of the ends: values compare as themselves, a valueless operand is less than a value, and of two valueless operands the one met earlier is less. So equality of such operands is an equivalence and the order lawful, whenever those of the values are.", "quantifier": "all operands of any nesting depth, valueless at any depth, all comparison operators of the owned types, all six operators and <=>, both headers, classes derived from indirect included", "why_tests_cant": "The tests compare indirect<T> with indirect<T>, indirect<U> and U for a few T at depth one; which overload is selected and what it does at every depth, through repeated rewriting, needs induction.", "anchors": ["indirect.h:51-65 synth_three_way, 76-80 is_indirect_v, 377-426 operator== and operator<=>", "indirect_cxx14.h:99-103 is_indirect, 375-545 comparison operators"]}
{"id": "C88", "title": "allocators with pointers that are not plain", "statement": "Owners can be used with every allocator that meets the requirements, whatever its pointer type: also if pointers are classes whose representation depends on where the pointer object is, as with pointers into shared memory. Every call, and every history of calls, then has the same outcome as with plain pointers; clients cannot tell pointer types apart; no legal history has undefined behaviour, and a block is allocated exactly if one object's pointer points to it.", "quantifier": "all pointer types that meet the requirements, all histories of calls, owned types, allocators and environments; all four headers for whether uses compile", "why_tests_cant": "The tests use allocators with plain pointers only; a wrong copy of a pointer's representation (relocation, swapping bits) shows only with other pointer types, in some history.", "anchors": ["indirect.h:428 p_, 437-459 reset, construct_from, destroy_with; 197-216, 228-292, 351-366", "indirect_cxx14.h:556-570", "polymorphic.h:54, 77-114, 128-145", "polymorphic_cxx14.h:109, 132-169, 176-192"]}
{"id": "C89", "title": "indirect objects as keys of sets and hash tables", "statement": "indirect<T> can be the key type of std::set and std::unordered_set: if the order (equality and hash) of T is a strict weak order (an equivalence with equal hashes for equal values) and copies are equivalent to their sources, then after any sequence of insertions, erasures, look-ups and other calls the keys are sorted (distinct), a valueless key included, of which there is at most one, and a look-up finds a key that is equivalent to the argument exactly if there is one. An insertion that finds an equivalent key, or whose constructor throws, changes no key. Whatever comparisons, hashes and copies of T do, even if they throw or contradict themselves, operations on sets never have undefined behaviour, never change keys that are there, and nothing leaks.", "quantifier": "all sequences of operations of sets and calls of owners; all shapes of the tree and numbers of buckets; all owned types, allocators, ways of making keys (copy, move, allocator-extended) and environments", "why_tests_cant": "The tests use owners as mapped values, not as keys, and hash single objects; that look-ups find every key after any history, also with valueless keys and colliding hashes, is a statement about all histories.", "anchors": ["indirect.h:377-408 operator==, operator<=>", "indirect.h:474-483 std::hash", "indirect_cxx14.h:375-400 operator==, operator<", "indirect_cxx14.h:583-592 std::hash", "indirect_test.cc Hash"]}
{"id": "C90", "title": "sizes of owners", "statement": "With an allocator that is an empty class (and not bigger or aligned more strictly than a pointer) an indirect or polymorphic is exactly as big as a pointer. With any other allocator its size is that of the pointer and the allocator, with no more padding than their alignments require; it is the sum if both have the same alignment. The same holds for the C++14 headers, in which owners are of the same size. The pointer and the allocator are aligned and have no bytes in common, n owners in a class or array need n times the size of one, and in the blocks that polymorphic allocates the owned object is aligned and has no bytes in common with the pointers.", "quantifier": "all allocator types, pointer types and owned types, of any size and alignment, with any empty bases and members; both headers of each; compilers with the Itanium C++ ABI", "why_tests_cant": "The tests check three sizes with two allocators; the claim is about all types.", "anchors": ["indirect.h:427-435 p_, alloc_", "polymorphic.h:52-70, 117-124 control_block, direct_control_block, cb_, alloc_", "indirect_cxx14.h:63-96, 106, 546-547 empty_base_optimization", "polymorphic_cxx14.h:69-102, 106-125, 172", "indirect_test.cc InteractionWithSizedAllocators", "polymorphic_test.cc InteractionWithSizedAllocators"]}
{"id": "C91", "title": "no implicit conversions to owners", "statement": "An owner is never made implicitly from something that is not an owner: `owner y = x;`, arguments of functions and `return x;` compile exactly if x is an owner (or of a class derived from it), which is then copied or moved, whatever the owned type can be made from. `owner y = {xs...};` compiles only if the braces hold an owner, alone or behind an allocator; `y = {xs...};` as well. For an owner x, `owner y = x;`, `owner y = {x};` and `owner y(x);` are the same.", "quantifier": "all owned types and allocators, all expressions of any type, cv-qualification and value category, all lists of initializers in braces; all four headers", "why_tests_cant": "Programs that must not compile cannot be unit tests, and there are infinitely many types and lists of initializers.", "anchors": ["indirect.h:96-200 constructors", "indirect.h:293-298 operator=(U&&)", "polymorphic.h:156-255 constructors", "indirect_cxx14.h:116-235 constructors", "polymorphic_cxx14.h:202-355 constructors", "DRAFT.md:602-617 Explicit constructors"]}
{"id": "C92", "title": "what owned objects see of owners", "statement": "Constructors, assignment operators and destructors of the owned type may look at owners (through a pointer to the parent, a registry, a global variable). Constructors and assignment operators called by a function of an owner see all owners, *this included, exactly as they were when the function was called: no owner is half changed. Destructors see them so too, except in move assignment with equal allocators, where target and source have exchanged their objects already. A destructor is called only while some owner still refers to the dying object; so a destructor that assigns to its own owner has undefined behaviour.", "quantifier": "all owned types whose constructors do not change owners, with functions that do anything depending on the state of all owners; all calls with all arguments, in all states and environments, including calls that throw; all four headers; all depths of nested calls for the destructor that comes back", "why_tests_cant": "The functions of the owned type are arbitrary programs, and what they see depends on the point inside each function of the owner at which they are called.", "anchors": ["indirect.h:228-305 assignments", "indirect.h:437-459 reset, construct_from, destroy_with", "polymorphic.h:279-337 assignments", "polymorphic.h:396-401 reset", "indirect_cxx14.h:239-315 assignments, 549-570 reset", "polymorphic_cxx14.h:359-415 assignments, 466-471 reset"]}
{"id": "C93", "title": "exceptions pass through owners", "statement": "The classes never look at, replace, hide or invent an exception. An exception thrown by a constructor or an assignment operator of the owned type leaves the function of the owner as it is (or ends the program, where the function is noexcept), and what the function did does not depend on which exception it was. Nothing else leaves a function of an owner but bad_alloc. If a function returns, then no function of the owned type threw during the call and no allocation was refused. A destructor of the owned type that throws ends the program. Destruction, swap, valueless_after_move, get_allocator, operator* and operator-> never throw.", "quantifier": "all owned types, with functions that do anything and throw anything, destructors included (polymorphic: with control blocks constructed in the default way); all calls with all arguments, in all states, legal or not, and all environments; all four headers; all renamings of exceptions", "why_tests_cant": "Every function of the type may throw any exception at any call, after any effects, and the claim is about all of them at once: a test throws one exception from one function.", "anchors": ["indirect.h:94-222 constructors, destructor", "indirect.h:228-305 assignments", "indirect.h:437-459 reset, construct_from", "polymorphic.h:74-115 control blocks", "polymorphic.h:126-145 create_control_block", "polymorphic.h:155-337 constructors, destructor, assignments", "polymorphic.h:396-401 reset", "indirect_cxx14.h:106-315, 549-570", "polymorphic_cxx14.h:130-195, 200-415, 466-471"]}
{"id": "C94", "title": "owners treat the types they own as opaque", "statement": "Nothing the classes do depends on how the values of the owned type are represented. Take two types whose values are related in any way that their functions respect (one may carry more data, or the same data in another form): the same calls on owners of the one and of the other have the same outcomes and exceptions, results that are related, the same allocations and deallocations, and call the same functions of the owned type in the same order. In particular owners never invent, mix up or alter a value: an invariant that the functions of the owned type and clients keep holds for every value seen through an owner and for every object that is alive; every derived type owned by a polymorphic may have an invariant of its own.", "quantifier": "all pairs of owned types with functions that do anything, and all relations between their values that these functions respect (polymorphic: one relation for every derived type); all calls with all arguments in all states that are alike, legal or not, and all environments; all histories of types that own nothing; all invariants; all four headers", "why_tests_cant": "The claim compares behaviour for every pair of owned types and every relation between their values: a test instantiates the templates with a few types, and code that works for those may depend on something only they have.", "anchors": ["indirect.h:94-222 constructors, destructor", "indirect.h:228-305 assignments", "indirect.h:437-459 reset, construct_from", "polymorphic.h:74-115 control blocks", "polymorphic.h:126-145 create_control_block", "polymorphic.h:155-337 constructors, destructor, assignments", "polymorphic.h:396-401 reset", "indirect_cxx14.h:106-315, 549-570", "polymorphic_cxx14.h:130-195, 200-415, 466-471"]}
{"id": "C95", "title": "a polymorphic gives access to the base class subobject of what it owns", "statement": "`*x` and `x->` are the T in the U that x owns, wherever in a U the T is: behind other base classes, at an offset that depends on the dynamic type, or a virtual base class whose place only a living U knows. The pointer is formed after the U has been constructed, never while there is none. Different owners refer to different places. A reference to `*x` stays valid as long as x is not assigned to, moved from, swapped or destroyed; it refers to the new owner's object after move construction, move assignment with equal allocators, or a swap; a copy has a place of its own. Nothing else that clients see depends on where base class subobjects are.", "quantifier": "all placements of the owned object in control blocks and of T in all derived types, virtual or not; all calls with all arguments, all environments (exceptions and failed allocations included), all histories of any length; all owned types whose functions do not depend on offsets; both headers (polymorphic_cxx14.h: history claims about references for allocators that propagate on copy assignment only if always equal, see C41)", "why_tests_cant": "The tests own classes with a single non-virtual base at offset zero, for which a pointer that was not converted, or converted too early, is right by accident; the claim is about every layout and every history.", "anchors": ["polymorphic.h:52-70 control_block::p_, storage_", "polymorphic.h:77-83 direct_control_block constructor", "polymorphic.h:343-361 operator*, operator->", "polymorphic.h:85-108 clone, move", "polymorphic_cxx14.h:107-138, 417-435"]}
{"id": "C96", "title": "UniquePtrMember is a value", "statement": "A program that default-constructs, copies, moves, compares and destroys UniquePtrMember objects and swaps their members has no undefined behaviour and leaks nothing, whatever throws; every object has its own Incomplete; copies and moves give the new object a copy of the source's value and leave the source as it was; an exception changes nothing; == compares the values.", "quantifier": "all types in the place of Incomplete, all programs of any length, all allocation failures and exceptions", "why_tests_cant": "the one test copies one object once; ownership must hold in every history and for every exception", "anchors": ["exploration/incomplete_types.h:23-31 UniquePtrMember", "exploration/incomplete_types.cc:18-27"]}
{"id": "C97", "title": "VariantWrapperMember is a value", "statement": "A program that default-constructs, copies, moves, assigns (also an int), compares and destroys VariantWrapperMember objects has no undefined behaviour and leaks nothing, whatever throws; every wrapper has its own Incomplete; copies, moves and assignments give the target a copy of the source's value and change nothing else; an exception changes nothing; == is true iff both hold the same alternative with equal values or both are valueless.", "quantifier": "all types in the place of Incomplete, all programs of any length, all allocation failures and exceptions", "why_tests_cant": "the one test copies one object once and never assigns; the claim is about every history", "anchors": ["exploration/incomplete_types.h:53-61 VariantWrapperMember", "exploration/incomplete_types.cc:41-46", "exploration/wrapper.h: wrapper"]}
{"id": "C98", "title": "The templates accept the arguments the paper says", "statement": "The constructor templates of indirect and polymorphic and indirect's operator=(U&&) take part in overload resolution exactly if the Constraints paragraphs of the paper hold, and whatever they accept can be constructed: acceptance never leads to an error inside the definition.", "quantifier": "all owned types, allocators and argument types with any cv-qualification and value category, whatever the traits say of them", "why_tests_cant": "a test instantiates a template with a few types; the claim is about every combination of properties a type can have, including those of types nobody has written", "anchors": ["indirect.h:103-183, 294-297", "indirect_cxx14.h:125-196, 303-308", "polymorphic.h:162-187, 210-238", "polymorphic_cxx14.h:216-315", "DRAFT.md:989-1062, 1146-1154, 1499-1589"]}
{"id": "C99", "title": "The members can be used for the owned types the paper says", "statement": "Default construction, copy and move construction (with or without allocator) and copy and move assignment of indirect and polymorphic compile exactly if the Mandates paragraphs of the paper hold of the owned type; a class that is default-constructed, copied and assigned in the usual ways can be used with all of them in all headers. What the constructor templates of polymorphic accept can be copied and moved by it. Copy assignment between indirect objects with equal allocators, neither valueless, assigns to the owned object whenever it compiles.", "quantifier": "all owned types and allocators, whatever is true of their constructors, assignment operators and destructors", "why_tests_cant": "a test compiles the members for a few classes; which of the many combinations of deleted, explicit and missing operations compile is a statement about all types", "anchors": ["indirect.h:96-101, 129-139, 145-148, 185-216, 228-292", "indirect_cxx14.h:116-123, 198-302", "polymorphic.h:62-116, 156-160, 203-208", "polymorphic_cxx14.h:117-171, 199-214", "DRAFT.md:922-987, 1082-1124, 1421-1493, 1603-1660"]}
{"id": "C100", "title": "noexcept is declared where the paper says, and it is true", "statement": "The functions of indirect and polymorphic for which the paper says noexcept, under the condition it gives, are declared noexcept and the others are not. No exception leaves a function that is declared noexcept. A legal call of a function that the paper declares noexcept returns normally, with or without storage, whatever the operations of the owned type throw.", "quantifier": "all allocators, owned types, reachable states and legal calls; for what leaves a declared function all states", "why_tests_cant": "a static_assert on noexcept checks one allocator and one owned type, and no test can show that a function never throws", "anchors": ["indirect.h:82-426", "indirect_cxx14.h:116-546", "polymorphic.h:130-393", "polymorphic_cxx14.h:190-463", "DRAFT.md:827-915, 964-979, 1117-1275, 1358-1412, 1466-1487, 1632-1715"]}
{"id": "C101", "title": "The benchmarks compare like with like", "statement": "What the benchmarks do by hand with raw pointers (new, clone, delete) or with std::unique_ptr is exactly what indirect with the default allocator does: each statement has the same result or exception and the same allocations, constructions, destructions and deallocations in the same order, and so has every program made of them. The same holds of polymorphic and pointers to a base class with a virtual clone. An iteration of a copy benchmark over n elements that no exception leaves allocates, constructs, destroys and deallocates exactly n times with raw pointers, std::unique_ptr, indirect and polymorphic, in whatever order the elements are copied and destroyed, and leaves every other object as it was. Otherwise a copy throws, before which each copy has cost one allocation and one construction; destroying the copies never fails. Accumulating over the elements gives what accumulating over their values gives, with no allocation, no operation of the owned type and no change.", "quantifier": "all owned types, reachable states, programs, numbers n of elements, orders of copying and destruction, exceptions and addresses chosen by the allocator; for the iterations of indirect and polymorphic also all allocators", "why_tests_cant": "A benchmark measures time; it does not check that the measured programs do the same work, and it runs one size, one type and no exception.", "anchors": ["benchmarks/indirect_benchmark.cc: A::clone, Indirect_BM_Copy_RawPtr, Indirect_BM_VectorCopy_RawPointer, Indirect_BM_ArrayCopy_RawPointer, Indirect_BM_Copy_UniquePtr, Indirect_BM_VectorCopy_UniquePointer, Indirect_BM_VectorCopy_Indirect, Indirect_BM_VectorAccumulate_RawPointer, Indirect_BM_VectorAccumulate_UniquePointer, Indirect_BM_VectorAccumulate_Indirect", "benchmarks/polymorphic_benchmark.cc: Polymorphic_BM_VectorCopy_Polymorphic", "indirect.h: indirect(const indirect&), ~indirect, operator->"]}
