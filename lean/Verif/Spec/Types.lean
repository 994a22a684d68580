import Verif.Spec.Codec
import Verif.Message
/-!
# All the types with a codec
-/
namespace Amqp

/-- A predicate holds of every concrete type of the crate that implements both
`Encode` and `Decode`, except those with a message or a payload inside
(`Transfer`, `Frame`, messages), which have properties of their own.
`Str` stands for `Str`, `ByteStr` and `String`; `TransferPerf` for the list part
of `Transfer`; `VList` for `List`; `Section` for the message sections. -/
def EveryType (P : ∀ (α : Type) [Encode α] [DecodeF α], Prop) : Prop :=
    P Bool ∧ P UInt8 ∧ P UInt16 ∧ P UInt32 ∧ P UInt64 ∧ P Int8 ∧ P Int16 ∧ P Int32 ∧ P Int64 ∧
    P F32 ∧ P F64 ∧ P Char ∧ P DateTime ∧ P Uuid ∧ P Binary ∧ P Str ∧ P Symbol ∧ P Descriptor ∧
    P Variant ∧ P VList ∧ P VecVariantMap ∧ P Role ∧ P SenderSettleMode ∧
    P ReceiverSettleMode ∧ P AmqpError ∧ P ConnectionError ∧ P SessionError ∧ P LinkError ∧
    P SaslCode ∧ P TerminusDurability ∧ P TerminusExpiryPolicy ∧ P ErrorCondition ∧
    P DistributionMode ∧ P MessageId ∧ P Error ∧ P Received ∧ P Accepted ∧ P Rejected ∧
    P Released ∧ P Modified ∧ P DeliveryState ∧ P Outcome ∧ P Source ∧ P Target ∧ P Open ∧
    P Begin ∧ P Attach ∧ P Flow ∧ P TransferPerf ∧ P Disposition ∧ P Detach ∧ P End ∧ P Close ∧
    P SaslMechanisms ∧ P SaslInit ∧ P SaslChallenge ∧ P SaslResponse ∧ P SaslOutcome ∧
    P SaslFrameBody ∧ P Header ∧ P Properties ∧ P Section

/-- The wire form of a timestamp of `m` milliseconds: code 0x83 and the 64-bit
two's complement number. -/
def timestampWire (m : Int64) : Bytes := 0x83 :: beEnc 8 m.toUInt64.toNat

end Amqp
