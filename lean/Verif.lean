import Verif.Model.Access
import Verif.Model.AnyDecode
import Verif.Model.AnyHeap
import Verif.Model.AnyObjects
import Verif.Model.Basic
import Verif.Model.BinaryCodec
import Verif.Model.BitMap
import Verif.Model.Buf
import Verif.Model.Checksum
import Verif.Model.Classes
import Verif.Model.Classes.Bjse
import Verif.Model.Classes.Risk
import Verif.Model.Classes.Sample
import Verif.Model.Classes.Sse
import Verif.Model.Classes.Szse
import Verif.Model.Codec
import Verif.Model.ConcurrentBitMap
import Verif.Model.ConcurrentDecode
import Verif.Model.ConcurrentEncode
import Verif.Model.ConcurrentFactory
import Verif.Model.ConcurrentHeap
import Verif.Model.ConcurrentRegistry
import Verif.Model.During
import Verif.Model.Factory
import Verif.Model.FixedInt
import Verif.Model.Heap
import Verif.Model.HeapObjects
import Verif.Model.History
import Verif.Model.IR
import Verif.Model.Interp
import Verif.Model.Java
import Verif.Model.Keys
import Verif.Model.Methods
import Verif.Model.Mini
import Verif.Model.Names
import Verif.Model.Netty
import Verif.Model.NettyRead
import Verif.Model.ObjectMethods
import Verif.Model.Open
import Verif.Model.OpenObjects
import Verif.Model.OwnProgram
import Verif.Model.Program
import Verif.Model.Racing
import Verif.Model.RacingDecode
import Verif.Model.RacingHeap
import Verif.Model.RacingObjects
import Verif.Model.Startup
import Verif.Model.Utf8
import Verif.Model.WeakHeap
import Verif.Proofs.Amount
import Verif.Proofs.AnyConfined
import Verif.Proofs.AnyDecode
import Verif.Proofs.AnyHeap
import Verif.Proofs.AnyObjects
import Verif.Proofs.BinaryCodec
import Verif.Proofs.BitMap
import Verif.Proofs.BitMapSets
import Verif.Proofs.BitMapWire
import Verif.Proofs.Bytes
import Verif.Proofs.CalmDecode
import Verif.Proofs.Canonical
import Verif.Proofs.Checksum
import Verif.Proofs.Compile
import Verif.Proofs.ConcurrentBitMap
import Verif.Proofs.ConcurrentDecode
import Verif.Proofs.ConcurrentEncode
import Verif.Proofs.ConcurrentFactory
import Verif.Proofs.ConcurrentHeap
import Verif.Proofs.ConcurrentRegistry
import Verif.Proofs.CrcBits
import Verif.Proofs.CrcFlips
import Verif.Proofs.CrcFour
import Verif.Proofs.CrcFourParts1
import Verif.Proofs.CrcFourParts2
import Verif.Proofs.CrcThree
import Verif.Proofs.Cut
import Verif.Proofs.Decode
import Verif.Proofs.DecodeErrors
import Verif.Proofs.DecodeLaw
import Verif.Proofs.Doom
import Verif.Proofs.During
import Verif.Proofs.EmptyText
import Verif.Proofs.Encode
import Verif.Proofs.EncodeFail
import Verif.Proofs.EncodeForm
import Verif.Proofs.EncodeGen
import Verif.Proofs.Everywhere
import Verif.Proofs.Exact
import Verif.Proofs.Fixed
import Verif.Proofs.Footprint
import Verif.Proofs.Frames
import Verif.Proofs.Grammar
import Verif.Proofs.GrammarComplete
import Verif.Proofs.HalfDecoded
import Verif.Proofs.HashValue
import Verif.Proofs.HeapBasic
import Verif.Proofs.HeapCheck
import Verif.Proofs.HeapDecode
import Verif.Proofs.HeapEncode
import Verif.Proofs.HeapMoments
import Verif.Proofs.HeapObjects
import Verif.Proofs.HeapShows
import Verif.Proofs.History
import Verif.Proofs.Hop
import Verif.Proofs.HopDecode
import Verif.Proofs.HopSmall
import Verif.Proofs.HopText
import Verif.Proofs.Integrity
import Verif.Proofs.Interrupted
import Verif.Proofs.Java
import Verif.Proofs.JavaDecode
import Verif.Proofs.Journal
import Verif.Proofs.Kept
import Verif.Proofs.Keys
import Verif.Proofs.LightDecode
import Verif.Proofs.Limited
import Verif.Proofs.LimitedKept
import Verif.Proofs.MessageTypes
import Verif.Proofs.Methods
import Verif.Proofs.Mini
import Verif.Proofs.MiniBitMap
import Verif.Proofs.MiniChecksum
import Verif.Proofs.Moments
import Verif.Proofs.MsgQueue
import Verif.Proofs.Netty
import Verif.Proofs.NettyRead
import Verif.Proofs.ObjectMethods
import Verif.Proofs.ObjectTables
import Verif.Proofs.Observers
import Verif.Proofs.Open
import Verif.Proofs.OpenClosed
import Verif.Proofs.OpenExt
import Verif.Proofs.OpenObjects
import Verif.Proofs.OutOfMemory
import Verif.Proofs.OwnProgram
import Verif.Proofs.Packed
import Verif.Proofs.PartialWrite
import Verif.Proofs.Patch
import Verif.Proofs.Races
import Verif.Proofs.Racing
import Verif.Proofs.RacingDecode
import Verif.Proofs.RacingHeap
import Verif.Proofs.RacingObjects
import Verif.Proofs.ReadAs
import Verif.Proofs.Registry
import Verif.Proofs.Renaming
import Verif.Proofs.Resilient
import Verif.Proofs.Resume
import Verif.Proofs.Retry
import Verif.Proofs.Reuse
import Verif.Proofs.RoundTrip
import Verif.Proofs.Settle
import Verif.Proofs.Shape
import Verif.Proofs.Slice
import Verif.Proofs.Stable
import Verif.Proofs.Startup
import Verif.Proofs.Stream
import Verif.Proofs.Texts
import Verif.Proofs.ToString
import Verif.Proofs.TypedHeap
import Verif.Proofs.TypedSteps
import Verif.Proofs.Unicode
import Verif.Proofs.Utf8
import Verif.Proofs.Utf8Valid
import Verif.Proofs.WeakHeap
import Verif.Proofs.WideDecode
import Verif.Proofs.WideEncode
import Verif.Proofs.Within
import Verif.Proofs.Work
import Verif.Proofs.WorkHistory
import Verif.Props.Alias
import Verif.Props.Amount
import Verif.Props.AnyConfined
import Verif.Props.AnyDecode
import Verif.Props.AnyHeap
import Verif.Props.AnyObjects
import Verif.Props.AtOnce
import Verif.Props.Beyond
import Verif.Props.BitMap
import Verif.Props.BitMapWire
import Verif.Props.Checksum
import Verif.Props.Codec
import Verif.Props.ConcurrentBitMap
import Verif.Props.ConcurrentEncode
import Verif.Props.ConcurrentFactory
import Verif.Props.ConcurrentRegistry
import Verif.Props.Counts
import Verif.Props.Cut
import Verif.Props.DecodeErrors
import Verif.Props.DecodeLocal
import Verif.Props.Dispatch
import Verif.Props.During
import Verif.Props.EmptyText
import Verif.Props.Encode
import Verif.Props.Factory
import Verif.Props.Fanout
import Verif.Props.Fixed
import Verif.Props.FixedInt
import Verif.Props.FixedString
import Verif.Props.Flips
import Verif.Props.Frames
import Verif.Props.Grammar
import Verif.Props.HalfDecoded
import Verif.Props.HashValue
import Verif.Props.Heap
import Verif.Props.HeapAfter
import Verif.Props.HeapObjects
import Verif.Props.History
import Verif.Props.Hop
import Verif.Props.Integrity
import Verif.Props.Interrupted
import Verif.Props.Java
import Verif.Props.Journal
import Verif.Props.Kept
import Verif.Props.Keys
import Verif.Props.LightDecode
import Verif.Props.Limited
import Verif.Props.Linking
import Verif.Props.Methods
import Verif.Props.MsgQueue
import Verif.Props.Netty
import Verif.Props.NewMessage
import Verif.Props.Objects
import Verif.Props.Observers
import Verif.Props.Open
import Verif.Props.OpenObjects
import Verif.Props.OutOfMemory
import Verif.Props.OwnProgram
import Verif.Props.Patch
import Verif.Props.Program
import Verif.Props.Races
import Verif.Props.Racing
import Verif.Props.RacingDecode
import Verif.Props.RacingHeap
import Verif.Props.RacingObjects
import Verif.Props.Received
import Verif.Props.Resilient
import Verif.Props.Resume
import Verif.Props.Retry
import Verif.Props.Reuse
import Verif.Props.RoundTrip
import Verif.Props.Shape
import Verif.Props.Stable
import Verif.Props.Startup
import Verif.Props.Stream
import Verif.Props.StreamReuse
import Verif.Props.Texts
import Verif.Props.Unicode
import Verif.Props.WeakHeap
import Verif.Props.Work
import Verif.Spec.Alias
import Verif.Spec.Amount
import Verif.Spec.AnyConfined
import Verif.Spec.AnyDecode
import Verif.Spec.AnyHeap
import Verif.Spec.AnyObjects
import Verif.Spec.AtOnce
import Verif.Spec.Beyond
import Verif.Spec.BitMap
import Verif.Spec.BitMapWire
import Verif.Spec.Codec
import Verif.Spec.ConcurrentBitMap
import Verif.Spec.ConcurrentFactory
import Verif.Spec.ConcurrentRegistry
import Verif.Spec.Conv
import Verif.Spec.Crc
import Verif.Spec.Cut
import Verif.Spec.During
import Verif.Spec.EmptyText
import Verif.Spec.Everywhere
import Verif.Spec.Factory
import Verif.Spec.Fixed
import Verif.Spec.FixedText
import Verif.Spec.Flips
import Verif.Spec.Grammar
import Verif.Spec.HalfDecoded
import Verif.Spec.HashValue
import Verif.Spec.Heap
import Verif.Spec.HeapAfter
import Verif.Spec.History
import Verif.Spec.Hop
import Verif.Spec.Integrity
import Verif.Spec.Interrupted
import Verif.Spec.Java
import Verif.Spec.Journal
import Verif.Spec.Kept
import Verif.Spec.Keys
import Verif.Spec.Layout
import Verif.Spec.LayoutBjse
import Verif.Spec.LayoutFrames
import Verif.Spec.LayoutRisk
import Verif.Spec.LayoutSample
import Verif.Spec.LayoutSse
import Verif.Spec.LayoutSzse
import Verif.Spec.LayoutTypes
import Verif.Spec.LightDecode
import Verif.Spec.Limited
import Verif.Spec.Linking
import Verif.Spec.MessageTypes
import Verif.Spec.Methods
import Verif.Spec.MsgQueue
import Verif.Spec.NewMessage
import Verif.Spec.Objects
import Verif.Spec.Observers
import Verif.Spec.Open
import Verif.Spec.OpenObjects
import Verif.Spec.OutOfMemory
import Verif.Spec.OwnProgram
import Verif.Spec.Program
import Verif.Spec.Races
import Verif.Spec.Racing
import Verif.Spec.RacingDecode
import Verif.Spec.RacingHeap
import Verif.Spec.Receive
import Verif.Spec.Registry
import Verif.Spec.Resilient
import Verif.Spec.Retry
import Verif.Spec.Reuse
import Verif.Spec.Shape
import Verif.Spec.Stable
import Verif.Spec.Stream
import Verif.Spec.Suppliers
import Verif.Spec.Texts
import Verif.Spec.TypedHeap
import Verif.Spec.Unicode
import Verif.Spec.WeakHeap
import Verif.Spec.Wire
import Verif.Spec.Work
import Verif.Tests.Bjse
import Verif.Tests.Codec
import Verif.Tests.Common
import Verif.Tests.Render
import Verif.Tests.RenderCodec
import Verif.Tests.RenderMethods
import Verif.Tests.Risk
import Verif.Tests.Sample
import Verif.Tests.Sse
import Verif.Tests.Szse
