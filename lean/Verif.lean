import Verif.Base
import Verif.Model.Handles
import Verif.Spec.Handles
import Verif.Proofs.Handles
import Verif.Props.Handles
import Verif.Props.HandleCalls
import Verif.Model.Lists
import Verif.Spec.Lists
import Verif.Proofs.Lists
import Verif.Props.Lists
import Verif.Model.Mem
import Verif.Model.Types
import Verif.Model.Copy
import Verif.Spec.Types
import Verif.Proofs.Types
import Verif.Proofs.TypesHom
import Verif.Props.Types
import Verif.Proofs.TypesNest
import Verif.Props.TypesBounds
import Verif.Props.TypesExact
import Verif.Props.TypesSize
import Verif.Spec.Transfer
import Verif.Proofs.Copy
import Verif.Props.Copy
import Verif.Model.Sys
import Verif.Model.P2P
import Verif.Spec.P2P
import Verif.Proofs.P2P
import Verif.Proofs.Sys
import Verif.Proofs.Ledger
import Verif.Spec.Observe
import Verif.Proofs.Observe
import Verif.Proofs.Blocking
import Verif.Proofs.Demo
import Verif.Props.Match
import Verif.Props.Requests
import Verif.Spec.Arrays
import Verif.Proofs.Arrays
import Verif.Props.Arrays
import Verif.Model.Group
import Verif.Model.Cart
import Verif.Spec.Group
import Verif.Props.Group
import Verif.Props.Cart
import Verif.Props.Comms
import Verif.Model.Coll
import Verif.Spec.Coll
import Verif.Props.Coll
import Verif.Spec.Fate
import Verif.Proofs.Avoid
import Verif.Spec.Exchange
import Verif.Props.Exchange
import Verif.Model.Misc
import Verif.Spec.Strings
import Verif.Props.Fortran
import Verif.Spec.Calls
import Verif.Proofs.SafeTypes
import Verif.Proofs.Safe
import Verif.Proofs.Inited
import Verif.Props.Calls
import Verif.Spec.Frame
import Verif.Proofs.Frame
import Verif.Props.Frame
import Verif.Model.Checks
import Verif.Spec.Checks
import Verif.Props.Checks
import Verif.Proofs.Storage
import Verif.Props.Storage
import Verif.Model.Fort
import Verif.Spec.Fort
import Verif.Proofs.Dom
import Verif.Proofs.Fort
import Verif.Proofs.FortCalls
import Verif.Props.Fort
import Verif.Model.Stubs
import Verif.Props.Address
import Verif.Props.Stubs
import Verif.Model.Time
import Verif.Props.Time
import Verif.Spec.Release
import Verif.Proofs.Release
import Verif.Props.Release
import Verif.Props.ReleaseExact
import Verif.Props.TypeCalls
import Verif.Spec.Twin
import Verif.Proofs.Twin
import Verif.Proofs.TwinCalls
import Verif.Proofs.TwinAll
import Verif.Props.Twin
import Verif.Props.CopyExact
import Verif.Model.Diag
import Verif.Spec.Diag
import Verif.Proofs.Diag
import Verif.Props.Diag
import Verif.Spec.TypeUse
import Verif.Props.TypeUse
import Verif.Props.PackCalls
import Verif.Spec.Cart
import Verif.Tests.CTest
import Verif.Tests.FTest
import Verif.Model.Oom
import Verif.Spec.Oom
import Verif.Proofs.Oom
import Verif.Props.Oom
import Verif.Spec.Machine
import Verif.Proofs.Machine
import Verif.Proofs.MachineCalls
import Verif.Proofs.MachineAll
import Verif.Proofs.MachineStep
import Verif.Props.Machine
import Verif.Spec.Ideal
import Verif.Proofs.Ideal
import Verif.Proofs.IdealTypes
import Verif.Proofs.IdealCalls
import Verif.Proofs.IdealStep
import Verif.Props.Ideal
import Verif.Spec.FortMach
import Verif.Proofs.FortMach
import Verif.Props.FortMach
import Verif.Spec.Opaque
import Verif.Proofs.Opaque
import Verif.Proofs.OpaqueCalls
import Verif.Proofs.OpaqueAll
import Verif.Proofs.OpaqueStep
import Verif.Proofs.OpaqueNames
import Verif.Props.Opaque
import Verif.Model.Desc
import Verif.Spec.Desc
import Verif.Proofs.Desc
import Verif.Proofs.DescStruct
import Verif.Proofs.DescBuild
import Verif.Proofs.DescInside
import Verif.Model.DescUse
import Verif.Proofs.DescUse
import Verif.Props.Desc
import Verif.Props.InitExact
import Verif.Props.ArraysExact
import Verif.Spec.FrameExact
import Verif.Proofs.FrameExact
import Verif.Props.FrameExact
import Verif.Spec.Pairing
import Verif.Proofs.Pairing
import Verif.Props.Pairing
import Verif.Spec.Compose
import Verif.Proofs.ComposeMem
import Verif.Proofs.ComposeMoves
import Verif.Proofs.ComposePart
import Verif.Proofs.ComposeOwn
import Verif.Proofs.ComposeWent
import Verif.Proofs.ComposeCalls
import Verif.Proofs.ComposeRun
import Verif.Proofs.ComposeLib
import Verif.Props.Compose
import Verif.Spec.Capacity
import Verif.Proofs.Capacity
import Verif.Props.Capacity
import Verif.Spec.Packing
import Verif.Props.Packing
import Verif.Spec.Messages
import Verif.Proofs.Messages
import Verif.Proofs.MessagesRun
import Verif.Proofs.MessagesLib
import Verif.Props.Messages
import Verif.Proofs.Sessions
import Verif.Props.Sessions
import Verif.Spec.Mixed
import Verif.Props.Mixed
import Verif.Spec.Order
import Verif.Proofs.Order
import Verif.Proofs.OrderRun
import Verif.Props.Order
import Verif.Spec.Wrong
import Verif.Props.Wrong
import Verif.Spec.Late
import Verif.Proofs.Late
import Verif.Proofs.LateLib
import Verif.Props.Late
import Verif.Spec.Data
import Verif.Proofs.Data
import Verif.Props.Data
import Verif.Model.Print
import Verif.Props.Print
import Verif.Spec.Garbage
import Verif.Proofs.Garbage
import Verif.Props.Garbage
import Verif.Spec.CLayout
import Verif.Proofs.CLayout
import Verif.Props.CLayout
import Verif.Spec.Overlap
import Verif.Props.Overlap
import Verif.Spec.Kernel
import Verif.Proofs.Kernel
import Verif.Props.Kernel
import Verif.Model.Place
import Verif.Spec.Place
import Verif.Spec.PlaceProg
import Verif.Proofs.Ints
import Verif.Proofs.Place
import Verif.Proofs.PlaceCalls
import Verif.Proofs.PlaceProg
import Verif.Proofs.PlaceSend
import Verif.Proofs.PlacePack
import Verif.Proofs.PlaceType
import Verif.Proofs.PlaceArr
import Verif.Props.Place
import Verif.Spec.Move
import Verif.Proofs.Move
import Verif.Proofs.MoveCalls
import Verif.Props.Move
import Verif.Spec.MoveFort
import Verif.Proofs.MoveFort
import Verif.Props.MoveFort
import Verif.Spec.FortSure
import Verif.Proofs.FortSure
import Verif.Props.FortSure
import Verif.Spec.Asking
import Verif.Proofs.Asking
import Verif.Props.Asking
import Verif.Spec.Polling
import Verif.Props.Polling
import Verif.Spec.Tags
import Verif.Proofs.Tags
import Verif.Props.Tags
import Verif.Spec.NoStatus
import Verif.Proofs.NoStatus
import Verif.Props.NoStatus
import Verif.Spec.Pieces
import Verif.Proofs.Pieces
import Verif.Props.Pieces
import Verif.Spec.Alone
import Verif.Props.Alone
import Verif.Spec.Again
import Verif.Props.Again
import Verif.Spec.Kinds
import Verif.Proofs.KindsDesc
import Verif.Proofs.Kinds
import Verif.Props.Kinds
import Verif.Proofs.Nest
import Verif.Props.Nest
import Verif.Proofs.Join
import Verif.Props.Join
