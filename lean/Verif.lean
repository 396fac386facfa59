import Verif.Spec.Base
import Verif.Spec.StdOptional
import Verif.Spec.History
import Verif.Spec.Reserved
import Verif.Spec.WellTyped
import Verif.Model.Machine
import Verif.Model.Steps
import Verif.Model.Flag
import Verif.Model.Storage
import Verif.Model.Optional
import Verif.Model.History
import Verif.Lemmas.Basic
import Verif.Lemmas.Sim
import Verif.Lemmas.SimOps
import Verif.Lemmas.History
import Verif.Examples
import Verif.Props.Refinement
import Verif.Spec.Writes
import Verif.Lemmas.Walk
import Verif.Spec.Lifetime
import Verif.Lemmas.Life
import Verif.Lemmas.Frame
import Verif.Props.Lifetime
import Verif.Lemmas.Step
import Verif.Props.Construct
import Verif.Props.CopyMove
import Verif.Props.Monadic
import Verif.Lemmas.Calm
import Verif.Props.Noexcept
import Verif.Lemmas.Reserved
import Verif.Props.Reserved
import Verif.Spec.Compare
import Verif.Model.Compare
import Verif.Lemmas.Compare
import Verif.Props.Compare
import Verif.Spec.IEEE754
import Verif.Model.Bits
import Verif.Lemmas.Bits
import Verif.Props.Bits
import Verif.Spec.Integers
import Verif.Model.Integral
import Verif.Lemmas.Integral
import Verif.Props.Integral
import Verif.Spec.Layout
import Verif.Model.Select
import Verif.Spec.Documented
import Verif.Model.Instance
import Verif.Lemmas.Layout
import Verif.Lemmas.Select
import Verif.ExampleTypes
import Verif.Props.Select
import Verif.Props.Member
import Verif.Spec.SpecialMembers
import Verif.Model.SpecialMembers
import Verif.Props.SpecialMembers
import Verif.Model.Version
import Verif.Lemmas.Version
import Verif.Props.Version
import Verif.Model.Natvis
import Verif.Lemmas.Natvis
import Verif.Props.Natvis
import Verif.Lemmas.Lockstep
import Verif.Lemmas.LockstepReentrant
import Verif.Props.Builds
import Verif.Props.Access
import Verif.Props.SentinelManip
import Verif.Props.EndToEnd
import Verif.Props.Window
import Verif.Props.Overload
import Verif.Props.Assign
import Verif.Props.FreeSwap
import Verif.Props.Make
import Verif.Props.Hash
import Verif.Props.Quals
import Verif.Props.InPlace
import Verif.Props.Nested
import Verif.Props.Trait
import Verif.Model.Threads
import Verif.Spec.Threads
import Verif.Lemmas.Threads
import Verif.Props.Threads
import Verif.Spec.Reentrant
import Verif.Model.Reentrant
import Verif.Lemmas.Reentrant
import Verif.Props.Reentrant
import Verif.Model.FlagOps
import Verif.Props.FlagOps
import Verif.Model.Compile
import Verif.Model.Any
import Verif.Spec.Manipulator
import Verif.Lemmas.AnyBasic
import Verif.Props.Manipulator
import Verif.Spec.Exercise
import Verif.Props.Exercise
import Verif.Props.Portability
import Verif.Props.Trivial
import Verif.Props.Identity
import Verif.Props.Destruct
import Verif.Props.Units
import Verif.Spec.Conditional
import Verif.Model.Conditional
import Verif.Props.Conditional
import Verif.Spec.Preprocessor
import Verif.Model.Preprocessor
import Verif.Spec.Headers
import Verif.Lemmas.Headers
import Verif.Lemmas.HeaderText
import Verif.Lemmas.HeaderOrder
import Verif.Props.Headers
import Verif.Spec.Mixing
import Verif.Lemmas.Mixing
import Verif.Props.Mixing
import Verif.Spec.ResultType
import Verif.Model.ResultType
import Verif.Props.ResultType
import Verif.Spec.ExceptSpec
import Verif.Model.ExceptSpec
import Verif.Props.ExceptSpec
import Verif.Spec.Readme
import Verif.Model.Readme
import Verif.Props.Readme
import Verif.Props.ReadmeSelect
import Verif.Props.ThrowingDtor
import Verif.Props.Address
import Verif.Spec.Cost
import Verif.Lemmas.Cost
import Verif.Props.Cost
import Verif.Props.CostReentrant
import Verif.Spec.Qualified
import Verif.Model.Qualified
import Verif.Lemmas.Qualified
import Verif.Props.Qualified
import Verif.Spec.Constexpr
import Verif.Model.Constexpr
import Verif.Props.Constexpr
import Verif.Props.FlatMemory
import Verif.Spec.Relocation
import Verif.Props.Relocation
import Verif.Spec.Bytes
import Verif.Lemmas.FlagBytes
import Verif.Props.Bytes
import Verif.Props.ReentrantFrame
import Verif.Lemmas.ThreadsReentrant
import Verif.Props.ThreadsReentrant
import Verif.Lemmas.FlatMemoryReentrant
import Verif.Spec.RelocationReentrant
import Verif.Props.FlatMemoryReentrant
import Verif.Lemmas.Reachable
import Verif.Spec.Reachable
import Verif.Props.EndToEndReentrant
import Verif.Lemmas.AnyLocal
import Verif.Lemmas.AnyReentrant
import Verif.Props.ManipulatorReentrant
import Verif.Props.Provenance
import Verif.Props.ProvenanceReentrant
import Verif.Props.Fpu
import Verif.Props.Laws
import Verif.Lemmas.NestedDeep
import Verif.Props.NestedDeep
import Verif.Model.Handover
import Verif.Spec.Handover
import Verif.Lemmas.Handover
import Verif.Props.Handover
import Verif.Model.Weak
import Verif.Spec.Weak
import Verif.Lemmas.Weak
import Verif.Props.Weak
import Verif.Props.Benchmark
import Verif.Props.Rearrange
import Verif.Props.Growth
import Verif.Props.Erasure
import Verif.Props.Insertion
import Verif.RepoTests
import Verif.Lemmas.Reachable
import Verif.Spec.Reachable
import Verif.RepoTestsRuntime
import Verif.Axioms
