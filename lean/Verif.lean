import Verif.Model.Registry
import Verif.Proofs.EntityRegistry
import Verif.Proofs.Memory
import Verif.Proofs.World
import Verif.Proofs.ArchetypeOps
import Verif.Proofs.ArchetypeRead
import Verif.Proofs.ArchetypeMove
import Verif.Proofs.ArchetypeRegistry
import Verif.Proofs.Loc
import Verif.Proofs.Placed
import Verif.Proofs.Full
import Verif.Proofs.Registry
import Verif.Proofs.RegistryCreate
import Verif.Proofs.RegistryMove
import Verif.Proofs.RegistryRead
import Verif.Proofs.Iterators
import Verif.Proofs.IterSpec
import Verif.Proofs.Step
import Verif.Proofs.History
import Verif.Proofs.Observe
import Verif.Proofs.IterProps
import Verif.Proofs.Progress
import Verif.Proofs.Ledger
import Verif.Proofs.Home
import Verif.Props.Example
import Verif.Props.Handles
import Verif.Props.Descriptors
import Verif.Props.Hash
import Verif.Props.Lifecycle
import Verif.Props.Components
import Verif.Props.Iteration
import Verif.Props.Limits
import Verif.Props.Safety
import Verif.Props.Exact
import Verif.Proofs.RemoveAny
import Verif.Props.Violations
import Verif.Props.InvalidGroups
import Verif.Props.Allocation
import Verif.Props.Check
import Verif.Props.ComponentLimit
import Verif.Props.Roundtrip
import Verif.Props.Storage
import Verif.Props.Capacity
import Verif.Props.Unwind
import Verif.Props.Names
import Verif.Props.Oversized
import Verif.Props.Oom
import Verif.Props.OomMove
import Verif.Props.ArchetypeLimit
import Verif.Props.Table
import Verif.Props.Archetypes
import Verif.Spec.Reference
import Verif.Proofs.RefRows
import Verif.Proofs.RefTables
import Verif.Proofs.RefIter
import Verif.Proofs.RefStep
import Verif.Proofs.RefMove
import Verif.Proofs.RefWrite
import Verif.Proofs.RefRun
import Verif.Props.Reference
import Verif.Props.Profile
import Verif.Model.Raw
import Verif.Props.RawArchetype
import Verif.Props.RawRegistry
import Verif.Props.UnwindDrop
import Verif.Props.Rows
import Verif.Model.Width
import Verif.Props.Width
import Verif.Model.RawDescriptor
import Verif.Proofs.RawDescriptor
import Verif.Props.RawDescriptor
import Verif.Spec.Ordinary
import Verif.Proofs.Counts
import Verif.Props.Ordinary
import Verif.Model.CrateTests
import Verif.Props.Conformance
import Verif.Props.ConformanceRandom
import Verif.Proofs.Programs
import Verif.Model.Examples
import Verif.Props.Examples
import Verif.Model.FilterEffects
import Verif.Spec.Filter
import Verif.Props.FilterEffects
import Verif.Spec.Growth
import Verif.Props.Growth
import Verif.Spec.ByteOrder
import Verif.Proofs.ByteOrder
import Verif.Props.ByteOrder
import Verif.Model.Override
import Verif.Props.Override
import Verif.Spec.LastStored
import Verif.Props.LastStored
import Verif.Spec.Footprint
import Verif.Props.Footprint
import Verif.Model.WidthRegistry
import Verif.Spec.Width
import Verif.Proofs.Width
import Verif.Props.WidthRegistry
import Verif.Spec.Handles
import Verif.Props.HandleOrder
import Verif.Spec.Locality
import Verif.Props.Locality
import Verif.Model.Tuples
import Verif.Spec.Tuples
import Verif.Props.Tuples
import Verif.Spec.Renaming
import Verif.Proofs.Renaming
import Verif.Proofs.RenamingStep
import Verif.Props.Renaming
import Verif.Spec.Parallel
import Verif.Proofs.Parallel
import Verif.Props.Parallel
import Verif.Spec.Borrows
import Verif.Model.Borrows
import Verif.Proofs.Borrows
import Verif.Props.Borrows
import Verif.Proofs.BorrowTags
import Verif.Model.SharedBorrows
import Verif.Proofs.SharedBorrows
import Verif.Props.SharedBorrows
import Verif.Model.CallBorrows
import Verif.Proofs.Towers
import Verif.Proofs.CallBorrows
import Verif.Proofs.CallBorrowsRegistry
import Verif.Props.CallBorrows
import Verif.Model.HandleSlices
import Verif.Props.HandleSlices
import Verif.Model.Reserved
import Verif.Props.Reserved
import Verif.Props.RowOrder
import Verif.Model.UnsafeCalls
import Verif.Spec.Contracts
import Verif.Proofs.UnsafeCalls
import Verif.Proofs.UnsafeContracts
import Verif.Props.UnsafeCalls
import Verif.Model.FlatMemory
import Verif.Model.FlatArchetype
import Verif.Model.FlatRegistry
import Verif.Spec.FlatMemory
import Verif.Proofs.FlatMemory
import Verif.Proofs.FlatColumns
import Verif.Proofs.FlatArchetype
import Verif.Proofs.FlatRows
import Verif.Proofs.FlatRegistry
import Verif.Proofs.FlatCalls
import Verif.Props.FlatMemory
import Verif.Proofs.UnsafeFull
import Verif.Spec.Order
import Verif.Props.IterOrder
import Verif.Spec.Collision
import Verif.Props.Collision
import Verif.Proofs.CollisionMove
import Verif.Props.CollisionMove
import Verif.Proofs.Declared
import Verif.Props.OverrideExact
import Verif.Proofs.Pigeonhole
import Verif.Props.Pigeonhole
import Verif.Props.OnePlace
import Verif.Proofs.RefusedPairs
import Verif.Props.RefusedPairs
import Verif.Props.TwoHomes
import Verif.Spec.Demand
import Verif.Props.Demand
import Verif.Proofs.FlatAddress
import Verif.Spec.Address
import Verif.Props.Address
import Verif.Proofs.FlatCount
import Verif.Spec.Requests
import Verif.Props.Requests
import Verif.Spec.FlatRows
import Verif.Proofs.FlatStore
import Verif.Props.FlatRows
import Verif.Props.DeclaredAlign
import Verif.Spec.Script
import Verif.Props.Script
import Verif.Spec.Interleave
import Verif.Props.Interleave
import Verif.Props.ScriptIter
import Verif.Spec.Transfer
import Verif.Props.Transfer
import Verif.Spec.Clear
import Verif.Props.Clear
import Verif.Spec.System
import Verif.Props.System
import Verif.Spec.Marks
import Verif.Props.Marks
import Verif.Spec.Select
import Verif.Props.Select
import Verif.Spec.ByHandle
import Verif.Props.ByHandle
import Verif.Spec.WithWithout
import Verif.Props.WithWithout
import Verif.Spec.Exchange
import Verif.Props.Exchange
import Verif.Spec.Duplicate
import Verif.Props.Duplicate
import Verif.Props.Loops
import Verif.Spec.Rebuild
import Verif.Props.Rebuild
import Verif.Spec.StateLoop
import Verif.Props.StateLoop
import Verif.Spec.WorkLoop
import Verif.Props.WorkLoop
import Verif.Spec.Journal
import Verif.Props.Journal
import Verif.Spec.Temporary
import Verif.Props.Temporary
import Verif.Spec.Spawn
import Verif.Props.Spawn
import Verif.Spec.HandOver
import Verif.Props.HandOver
import Verif.Spec.Inventory
import Verif.Props.Inventory
import Verif.Spec.Rotate
import Verif.Props.Rotate
import Verif.Spec.Migrate
import Verif.Props.Migrate
import Verif.Spec.Links
import Verif.Props.Links
import Verif.Spec.Pairs
import Verif.Props.Pairs
import Verif.Spec.Aggregate
import Verif.Props.Aggregate
