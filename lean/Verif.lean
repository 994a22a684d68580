import Verif.Accessors
import Verif.Audit
import Verif.Axioms
import Verif.Basic
import Verif.Buf
import Verif.Codec.Counted
import Verif.Codec.Decode
import Verif.Codec.Encode
import Verif.Codec.Reserve
import Verif.Codec.Stack
import Verif.Codec.StackUse
import Verif.Codec.Writes
import Verif.Codegen.Accessors
import Verif.Codegen.Compile
import Verif.Codegen.Definitions
import Verif.Codegen.Names
import Verif.Codegen.Shipped
import Verif.Codegen.Specification
import Verif.Codegen.Template
import Verif.Counted
import Verif.Debug
import Verif.DebugSasl
import Verif.Display
import Verif.Equality
import Verif.FramedRead
import Verif.FramedWrite
import Verif.Framing
import Verif.FxHash
import Verif.Hash
import Verif.Io
import Verif.IoBuf
import Verif.Message
import Verif.Proofs.Accessors
import Verif.Proofs.AlignMessage
import Verif.Proofs.AlignRead
import Verif.Proofs.AlignTypes
import Verif.Proofs.CacheLaws
import Verif.Proofs.CodegenExtended
import Verif.Proofs.CodegenLaws
import Verif.Proofs.CodegenList
import Verif.Proofs.CodegenNames
import Verif.Proofs.CodegenParse
import Verif.Proofs.CodegenShipped
import Verif.Proofs.CodegenText
import Verif.Proofs.CodegenTypes
import Verif.Proofs.Collisions
import Verif.Proofs.Compound
import Verif.Proofs.ConditionLaws
import Verif.Proofs.CountedFloor
import Verif.Proofs.CountedFrames
import Verif.Proofs.CountedInstances
import Verif.Proofs.CountedLaws
import Verif.Proofs.CrashFrames
import Verif.Proofs.CrashLists
import Verif.Proofs.Crashes
import Verif.Proofs.CutLaws
import Verif.Proofs.DebugLines
import Verif.Proofs.DebugTells
import Verif.Proofs.DebugText
import Verif.Proofs.EndOfStreamLaws
import Verif.Proofs.EnumLaws
import Verif.Proofs.EqualityFrames
import Verif.Proofs.EqualityLaws
import Verif.Proofs.EqualityLists
import Verif.Proofs.EqualityReceived
import Verif.Proofs.EqualityReceivedLists
import Verif.Proofs.ErrorFrames
import Verif.Proofs.ErrorInstances
import Verif.Proofs.ErrorLaws
import Verif.Proofs.ForwardLaws
import Verif.Proofs.ForwardLists
import Verif.Proofs.FrameLaws
import Verif.Proofs.Growth
import Verif.Proofs.GrowthLists
import Verif.Proofs.GrowthMessages
import Verif.Proofs.GrowthPlain
import Verif.Proofs.GrowthTight
import Verif.Proofs.Inversion
import Verif.Proofs.IoLaws
import Verif.Proofs.Laws
import Verif.Proofs.Lenient
import Verif.Proofs.LenientFrames
import Verif.Proofs.LenientLists
import Verif.Proofs.LenientValues
import Verif.Proofs.ListInstances
import Verif.Proofs.ListLaws
import Verif.Proofs.ListPrefix
import Verif.Proofs.MapLaws
import Verif.Proofs.MessageExact
import Verif.Proofs.MessageLaws
import Verif.Proofs.ModeLaws
import Verif.Proofs.OversizeLaws
import Verif.Proofs.PanicFrames
import Verif.Proofs.PanicInstances
import Verif.Proofs.PanicLaws
import Verif.Proofs.PanicLists
import Verif.Proofs.Passing
import Verif.Proofs.PassingLists
import Verif.Proofs.PassingMessages
import Verif.Proofs.PlainLaws
import Verif.Proofs.ReadExact
import Verif.Proofs.RefusalFrames
import Verif.Proofs.RefusalLists
import Verif.Proofs.Refusals
import Verif.Proofs.ResourceLaws
import Verif.Proofs.RoomLaws
import Verif.Proofs.Scalar
import Verif.Proofs.Sent
import Verif.Proofs.SentLaws
import Verif.Proofs.Settled
import Verif.Proofs.SettledLists
import Verif.Proofs.StandardExact
import Verif.Proofs.StandardFrames
import Verif.Proofs.StandardLists
import Verif.Proofs.StandardRead
import Verif.Proofs.StandardWrite
import Verif.Proofs.Steady
import Verif.Proofs.SteadyFrames
import Verif.Proofs.SteadyLists
import Verif.Proofs.SteadyTwin
import Verif.Proofs.TextErrors
import Verif.Proofs.Travel
import Verif.Proofs.TravelFrames
import Verif.Proofs.TravelLists
import Verif.Proofs.TravelMessages
import Verif.Proofs.Variant
import Verif.Proofs.VariantDecode
import Verif.Proofs.VariantEq
import Verif.Proofs.VariantExact
import Verif.Proofs.Views
import Verif.Proofs.WireExact
import Verif.Proofs.WireLaws
import Verif.Proofs.WorkBase
import Verif.Proofs.WorkLists
import Verif.Proofs.WorkMessages
import Verif.Props.Accessors
import Verif.Props.Buffers
import Verif.Props.Builders
import Verif.Props.Codegen
import Verif.Props.CodegenAccessors
import Verif.Props.CodegenShipped
import Verif.Props.Conditions
import Verif.Props.Conversions
import Verif.Props.Counted
import Verif.Props.Crashes
import Verif.Props.Credentials
import Verif.Props.CutShort
import Verif.Props.Delivery
import Verif.Props.Descriptors
import Verif.Props.Display
import Verif.Props.EndOfStream
import Verif.Props.Enumerations
import Verif.Props.Equality
import Verif.Props.ErrorText
import Verif.Props.Errors
import Verif.Props.Extended
import Verif.Props.Flooding
import Verif.Props.Formats
import Verif.Props.Forwarding
import Verif.Props.Frames
import Verif.Props.Getters
import Verif.Props.Growth
import Verif.Props.Handshake
import Verif.Props.Hashing
import Verif.Props.KeyNumbers
import Verif.Props.Kinds
import Verif.Props.Laws
import Verif.Props.Lenient
import Verif.Props.Looks
import Verif.Props.Messages
import Verif.Props.Modes
import Verif.Props.Oversize
import Verif.Props.Passing
import Verif.Props.Performatives
import Verif.Props.Plain
import Verif.Props.ReadExactly
import Verif.Props.Refusals
import Verif.Props.Resources
import Verif.Props.Room
import Verif.Props.Safety
import Verif.Props.Scalars
import Verif.Props.Sending
import Verif.Props.Sent
import Verif.Props.Stack
import Verif.Props.StackUse
import Verif.Props.Standard
import Verif.Props.StandardReading
import Verif.Props.StandardWritten
import Verif.Props.Steady
import Verif.Props.Streams
import Verif.Props.Text
import Verif.Props.TextErrors
import Verif.Props.Times
import Verif.Props.Travel
import Verif.Props.Truncation
import Verif.Props.Values
import Verif.Props.Views
import Verif.Props.Wire
import Verif.Props.Work
import Verif.Props.WorkFrames
import Verif.Protocol.Base
import Verif.Protocol.Conditions
import Verif.Protocol.Counted
import Verif.Protocol.CountedBase
import Verif.Protocol.Enums
import Verif.Protocol.Equality
import Verif.Protocol.Frame
import Verif.Protocol.FrameEquality
import Verif.Protocol.Getters
import Verif.Protocol.Lists
import Verif.Protocol.Transfer
import Verif.Protocol.Work
import Verif.Protocol.WorkBase
import Verif.Protocol.WorkFrames
import Verif.Protocol.WorkMessages
import Verif.Protocol.Writes
import Verif.Spec.Accessors
import Verif.Spec.Buffers
import Verif.Spec.Builders
import Verif.Spec.Codec
import Verif.Spec.Counted
import Verif.Spec.Crashes
import Verif.Spec.Credentials
import Verif.Spec.Delivery
import Verif.Spec.EndOfStream
import Verif.Spec.Equality
import Verif.Spec.EqualityFrames
import Verif.Spec.EqualityLists
import Verif.Spec.ErrorTables
import Verif.Spec.ErrorText
import Verif.Spec.Errors
import Verif.Spec.Extended
import Verif.Spec.Forward
import Verif.Spec.ForwardFrames
import Verif.Spec.ForwardLists
import Verif.Spec.Frames
import Verif.Spec.Generated
import Verif.Spec.Growth
import Verif.Spec.Handshake
import Verif.Spec.Incomplete
import Verif.Spec.Kinds
import Verif.Spec.Lenient
import Verif.Spec.Lists
import Verif.Spec.Looks
import Verif.Spec.Maps
import Verif.Spec.Messages
import Verif.Spec.Modes
import Verif.Spec.Names
import Verif.Spec.Oversize
import Verif.Spec.Panics
import Verif.Spec.Passing
import Verif.Spec.Plain
import Verif.Spec.Refusals
import Verif.Spec.Resources
import Verif.Spec.Room
import Verif.Spec.Sending
import Verif.Spec.Sent
import Verif.Spec.Specification
import Verif.Spec.Standard
import Verif.Spec.Steady
import Verif.Spec.SteadyFrames
import Verif.Spec.SteadyLists
import Verif.Spec.Stream
import Verif.Spec.TableWork
import Verif.Spec.Tables
import Verif.Spec.TextErrors
import Verif.Spec.Travel
import Verif.Spec.TravelFrames
import Verif.Spec.TravelLists
import Verif.Spec.TravelMessages
import Verif.Spec.Types
import Verif.Spec.Variant
import Verif.Spec.Wire
import Verif.Spec.Work
import Verif.Spec.WorkBase
import Verif.Spec.WorkFrames
import Verif.Spec.WorkLists
import Verif.Spec.WorkMessages
import Verif.StrRepr
import Verif.Tests.Repo
import Verif.Types
import Verif.Utf8
import Verif.Utf8Error
import Verif.Work
