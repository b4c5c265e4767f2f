import Verif.Machine
import Verif.Types
import Verif.Indirect
import Verif.IndirectOps
import Verif.Spec.Box
import Verif.Proofs.Basic
import Verif.Proofs.IndirectEval
import Verif.Spec.Abs
import Verif.Proofs.Inv
import Verif.Proofs.Abs
import Verif.Proofs.IndirectRefine
import Verif.Spec.Trace
import Verif.Spec.Run
import Verif.Proofs.Keeps
import Verif.Proofs.IndirectKeeps
import Verif.Proofs.IndirectExact
import Verif.Proofs.IndirectReach
import Verif.Demo
import Verif.Proofs.TraceFacts
import Verif.Props.IndirectSafety
import Verif.Spec.Effects
import Verif.Proofs.IndirectEffects
import Verif.Props.IndirectConstruct
import Verif.Props.IndirectAssign
import Verif.Props.IndirectSwap
import Verif.Spec.Table
import Verif.Proofs.IndirectFrame
import Verif.Proofs.IndirectDelta
import Verif.Proofs.SpecFacts
import Verif.Props.IndirectGlobal
import Verif.Compare
import Verif.Spec.Compare
import Verif.Proofs.Compare
import Verif.Props.Compare
import Verif.Indirect14
import Verif.Spec.Indirect14
import Verif.Proofs.Indirect14
import Verif.Props.Indirect14
import Verif.Polymorphic
import Verif.PolymorphicOps
import Verif.Spec.PBox
import Verif.Spec.PAbs
import Verif.Proofs.PolySim
import Verif.Proofs.PolyTransfer
import Verif.PDemo
import Verif.Props.PolySafety
import Verif.Props.PolyOps
import Verif.Polymorphic14
import Verif.Spec.Polymorphic14
import Verif.Proofs.Polymorphic14
import Verif.Props.Polymorphic14
import Verif.Props.Threads
import Verif.Props.Footprint
import Verif.Node
import Verif.Spec.Tree
import Verif.Proofs.Forest
import Verif.Proofs.NodeDestroy
import Verif.Proofs.NodeCopy
import Verif.Proofs.NodeAssign
import Verif.Proofs.NodeMove
import Verif.Proofs.NodeMoveAssign
import Verif.NodeProg
import Verif.Spec.World
import Verif.Proofs.NodeFocus
import Verif.Proofs.NodeWorld
import Verif.Proofs.NodeSet
import Verif.Spec.NodeRun
import Verif.Proofs.NodeLife
import Verif.Proofs.NodeReach
import Verif.Proofs.NodeFacts
import Verif.NDemo
import Verif.Props.Node
import Verif.Proofs.NodeAlias
import Verif.Proofs.NodeInside
import Verif.Proofs.NodeSelf
import Verif.Props.NodePart
import Verif.Overload
import Verif.Props.Overload
import Verif.Tracking
import Verif.Spec.Tracking
import Verif.Proofs.Tracking
import Verif.Props.Tracking
import Verif.Composite
import Verif.Spec.Composite
import Verif.Proofs.Composite
import Verif.Proofs.CompositeLaws
import Verif.Props.Composite
import Verif.PolyNode
import Verif.Spec.PolyTree
import Verif.Proofs.Det
import Verif.Proofs.PNodeSim
import Verif.Proofs.PNodeOps
import Verif.Proofs.PNodeReach
import Verif.PNDemo
import Verif.Props.PolyNode
import Verif.NodeCompare
import Verif.Spec.NodeCompare
import Verif.Proofs.NodeCompare
import Verif.Props.NodeCompare
import Verif.Variant
import Verif.Spec.Variant
import Verif.Proofs.Variant
import Verif.Props.Variant
import Verif.Vector
import Verif.Spec.Vector
import Verif.Proofs.Vector
import Verif.Proofs.VectorLaws
import Verif.Proofs.VectorPlaced
import Verif.Proofs.VectorUniform
import Verif.Props.Vector
import Verif.Spec.Allocators
import Verif.Proofs.Allocators
import Verif.Props.Allocators
import Verif.Fine
import Verif.IndirectFine
import Verif.PolymorphicFine
import Verif.Indirect14Fine
import Verif.Polymorphic14Fine
import Verif.Query
import Verif.QueryFine
import Verif.Concurrent
import Verif.Spec.Concurrent
import Verif.Proofs.Fine
import Verif.Proofs.Within
import Verif.Proofs.Concurrent
import Verif.Proofs.ConcurrentApi
import Verif.Proofs.Fine14
import Verif.Spec.Query
import Verif.Proofs.Query
import Verif.Proofs.Progress
import Verif.Props.Concurrent
import Verif.Props.Concurrent14
import Verif.Props.Query
import Verif.Synced
import Verif.Spec.Synced
import Verif.Proofs.Synced
import Verif.Proofs.SyncedApi
import Verif.Props.Synced
import Verif.Access
import Verif.Props.Access
import Verif.Deduction
import Verif.Props.Deduction
import Verif.Node14
import Verif.PolyNode14
import Verif.Spec.Node14
import Verif.Proofs.Node14
import Verif.PNDemo14
import Verif.Props.Node14
import Verif.Wrapper
import Verif.Spec.Wrapper
import Verif.Proofs.Wrapper
import Verif.Props.Wrapper
import Verif.Client
import Verif.Spec.Client
import Verif.Proofs.Client
import Verif.Props.Client
import Verif.Proofs.Sorting
import Verif.Proofs.SwapByMoves
import Verif.Props.Sorting
import Verif.Props.Exchange
import Verif.Props.Locking
import Verif.Block
import Verif.Spec.Block
import Verif.Proofs.Block
import Verif.Props.Block
import Verif.Aware
import Verif.Spec.Aware
import Verif.Proofs.Aware
import Verif.Proofs.AwareHome
import Verif.Proofs.AwareReach
import Verif.Props.Aware
import Verif.Containers14
import Verif.Proofs.Containers14
import Verif.Props.Containers14
import Verif.Counting
import Verif.Spec.Counting
import Verif.Proofs.Counting
import Verif.Proofs.CountingPoly
import Verif.Proofs.CountingReach
import Verif.Props.Counting
import Verif.Optional
import Verif.Spec.Optional
import Verif.Proofs.Optional
import Verif.Props.Optional
import Verif.Maps
import Verif.Spec.Maps
import Verif.Proofs.Maps
import Verif.Proofs.MapsLaws
import Verif.Props.Maps
import Verif.Consteval
import Verif.Spec.Constant
import Verif.Proofs.Constant
import Verif.Props.Constant
import Verif.Headers
import Verif.Spec.Headers
import Verif.Proofs.Headers
import Verif.Proofs.HeadersOrigin
import Verif.Props.Headers
import Verif.Spec.Depth
import Verif.Proofs.NodeDepth
import Verif.Props.Depth
import Verif.Incomplete
import Verif.Spec.Incomplete
import Verif.Proofs.Incomplete
import Verif.Props.Incomplete
import Verif.Source
import Verif.Spec.Source
import Verif.Props.Source
import Verif.Mixed
import Verif.Spec.Mixed
import Verif.Proofs.Mixed
import Verif.Props.Mixed
import Verif.Fancy
import Verif.Spec.Fancy
import Verif.Proofs.Fancy
import Verif.Props.Fancy
import Verif.Sets
import Verif.Spec.Sets
import Verif.Proofs.Sets
import Verif.Props.Sets
import Verif.Layout
import Verif.Spec.Layout
import Verif.Proofs.Layout
import Verif.Props.Layout
import Verif.Explicit
import Verif.Spec.Explicit
import Verif.Props.Explicit
import Verif.Looking
import Verif.Spec.Looking
import Verif.Proofs.Looking
import Verif.Props.Looking
import Verif.Spec.Passing
import Verif.Proofs.Passing
import Verif.Proofs.PassingLaws
import Verif.Props.Passing
import Verif.Spec.Opaque
import Verif.Proofs.Opaque
import Verif.Proofs.OpaqueLaws
import Verif.Props.Opaque
import Verif.Subobject
import Verif.Spec.Subobject
import Verif.Proofs.Subobject
import Verif.Proofs.SubobjectLaws
import Verif.Props.Subobject
import Verif.Members
import Verif.Spec.Members
import Verif.Proofs.Members
import Verif.Props.Members
import Verif.Constraints
import Verif.Spec.Constraints
import Verif.Props.Constraints
import Verif.Mandates
import Verif.Spec.Mandates
import Verif.Props.Mandates
import Verif.Noexcept
import Verif.Spec.Noexcept
import Verif.Props.Noexcept
import Verif.Spec.Careful14
import Verif.Proofs.Careful14
import Verif.Props.Careful14
import Verif.Spec.CarefulAware
import Verif.Proofs.CarefulAware
import Verif.Props.CarefulAware
import Verif.Props.Transfer14
import Verif.Benchmark
import Verif.Spec.Benchmark
import Verif.Proofs.Benchmark
import Verif.Props.Benchmark
