import Verif.Io
import Verif.StrRepr
import Verif.Protocol.Getters
/-!
# Accessors, constructors and conversions

References are modelled as the values they refer to.  The accessors of the list
types and the conversions to `Frame` are in `Protocol/Getters.lean`.
-/
set_option autoImplicit false
namespace Amqp

/-! ## Frames -/

/-- `AmqpFrame::new`, `src/framing.rs:18-23`. -/
def AmqpFrame.new (channel_id : UInt16) (performative : Frame) : AmqpFrame :=
  { channel_id, performative }
/-- `AmqpFrame::channel_id`, `src/framing.rs:25-28`. -/
def AmqpFrame.getChannelId (f : AmqpFrame) : UInt16 := f.channel_id
/-- `AmqpFrame::performative`, `src/framing.rs:30-33`. -/
def AmqpFrame.getPerformative (f : AmqpFrame) : Frame := f.performative
/-- `AmqpFrame::into_parts`, `src/framing.rs:35-38`. -/
def AmqpFrame.intoParts (f : AmqpFrame) : UInt16 × Frame := (f.channel_id, f.performative)

/-- `SaslFrame::new`, `src/framing.rs:46-50`. -/
def SaslFrame.new (body : SaslFrameBody) : SaslFrame := { body }
/-- `From<SaslMechanisms> for SaslFrame`, `src/framing.rs:52-56`. -/
def SaslFrame.ofMechanisms (item : SaslMechanisms) : SaslFrame := .new (.SaslMechanisms item)
/-- `From<SaslInit> for SaslFrame`, `src/framing.rs:58-62`. -/
def SaslFrame.ofInit (item : SaslInit) : SaslFrame := .new (.SaslInit item)
/-- `From<SaslChallenge> for SaslFrame`, `src/framing.rs:64-68`. -/
def SaslFrame.ofChallenge (item : SaslChallenge) : SaslFrame := .new (.SaslChallenge item)
/-- `From<SaslResponse> for SaslFrame`, `src/framing.rs:70-74`. -/
def SaslFrame.ofResponse (item : SaslResponse) : SaslFrame := .new (.SaslResponse item)
/-- `From<SaslOutcome> for SaslFrame`, `src/framing.rs:76-80`. -/
def SaslFrame.ofOutcome (item : SaslOutcome) : SaslFrame := .new (.SaslOutcome item)

/-! ## Collections -/

/-- `Multiple::len`, `src/types/mod.rs:23-25`. -/
def Multiple.len {α : Type} (m : Multiple α) : Nat := m.items.length
/-- `Multiple::is_empty`, `src/types/mod.rs:27-29`. -/
def Multiple.isEmpty {α : Type} (m : Multiple α) : Bool := m.items.isEmpty
/-- What `Multiple::iter` and `Deref` show, `src/types/mod.rs:31-33`, `src/types/mod.rs:42-48`. -/
def Multiple.iter {α : Type} (m : Multiple α) : List α := m.items
/-- `Multiple::default`, `src/types/mod.rs:36-40`. -/
def Multiple.default {α : Type} : Multiple α := ⟨[]⟩
/-- `From<Vec<T>> for Multiple<T>` (derived), `src/types/mod.rs:19-20`. -/
def Multiple.ofVec {α : Type} (l : List α) : Multiple α := ⟨l⟩
/-- `DerefMut for Multiple`, `src/types/mod.rs:50-54`: whatever is done to the items. -/
def Multiple.modify {α : Type} (f : List α → List α) (m : Multiple α) : Multiple α := ⟨f m.items⟩

/-- `List::len`, `src/types/mod.rs:60-62`. -/
def VList.len (l : VList) : Nat := l.items.length
/-- `List::is_empty`, `src/types/mod.rs:64-66`. -/
def VList.isEmpty (l : VList) : Bool := l.items.isEmpty
/-- What `List::iter` shows, `src/types/mod.rs:68-70`. -/
def VList.iter (l : VList) : List Variant := l.items

/-- `VecVariantMap::default`, `src/types/variant.rs:147-151` (the capacity is not
modelled). -/
def VecVariantMap.default : VecVariantMap := ⟨[]⟩
/-- What `Deref for VecVariantMap` shows, `src/types/variant.rs:153-159`. -/
def VecVariantMap.deref (m : VecVariantMap) : List (Str × Variant) := m.entries
/-- `DerefMut for VecVariantMap`, `src/types/variant.rs:161-165`. -/
def VecVariantMap.modify (f : List (Str × Variant) → List (Str × Variant)) (m : VecVariantMap) :
    VecVariantMap := ⟨f m.entries⟩

/-! ## Conversions -/

/-- `From`/`Into`. -/
class Into (α β : Type) where
  into : α → β
export Into (into)

/-- `From<bool> for Variant` and the following: derived, `src/types/variant.rs:12-13`
(one for each variant with a field). -/
instance : Into Bool Variant := ⟨.boolean⟩
instance : Into UInt8 Variant := ⟨.ubyte⟩
instance : Into UInt16 Variant := ⟨.ushort⟩
instance : Into UInt32 Variant := ⟨.uint⟩
instance : Into UInt64 Variant := ⟨.ulong⟩
instance : Into Int8 Variant := ⟨.byte⟩
instance : Into Int16 Variant := ⟨.short⟩
instance : Into Int32 Variant := ⟨.int⟩
instance : Into Int64 Variant := ⟨.long⟩
instance : Into F32 Variant := ⟨.float⟩
instance : Into F64 Variant := ⟨.double⟩
instance : Into Char Variant := ⟨.char⟩
instance : Into DateTime Variant := ⟨.timestamp⟩
instance : Into Uuid Variant := ⟨.uuid⟩
instance : Into Binary Variant := ⟨.binary⟩
/-- `From<Str>` (derived), `From<ByteStr>`, `From<&'static str>`,
`src/types/variant.rs:87-97`; the representation of text is not modelled here. -/
instance : Into Str Variant := ⟨.string⟩
instance : Into Symbol Variant := ⟨.symbol⟩
/-- `From<StaticSymbol> for Variant` (derived), `src/types/variant.rs:12-13`, after
`From<&'static str> for StaticSymbol`, `src/types/symbol.rs:60-64`. -/
def Variant.ofStaticSymbol (s : RStr) : Variant := .staticSymbol s
instance : Into VList Variant := ⟨fun l => .list l.items⟩
instance : Into (HMap Variant Variant) Variant := ⟨fun m => .map m.entries⟩
instance : Into (Descriptor × Variant) Variant := ⟨fun p => .described p.1 p.2⟩

/-- `From<u64> for MessageId` and the following: derived, `src/protocol/mod.rs:51-57`. -/
instance : Into UInt64 MessageId := ⟨.Ulong⟩
instance : Into Uuid MessageId := ⟨.Uuid⟩
instance : Into Binary MessageId := ⟨.Binary⟩
instance : Into ByteStr MessageId := ⟨.String⟩

/-- `From<AmqpError> for ErrorCondition` and the following: derived,
`src/protocol/mod.rs:99-106`. -/
instance : Into AmqpError ErrorCondition := ⟨.AmqpError⟩
instance : Into ConnectionError ErrorCondition := ⟨.ConnectionError⟩
instance : Into SessionError ErrorCondition := ⟨.SessionError⟩
instance : Into LinkError ErrorCondition := ⟨.LinkError⟩
instance : Into Symbol ErrorCondition := ⟨.Custom⟩

/-- `From<Bytes> for TransferBody` and the following: derived,
`src/protocol/mod.rs:213-218`. -/
instance : Into Binary TransferBody := ⟨.Data⟩
instance : Into InMessage TransferBody := ⟨Message.toIn⟩
instance : Into OutMessage TransferBody := ⟨Message.toOut⟩

/-- `Variant::as_bytes_str`, `src/types/variant.rs:118-124`. -/
def Variant.asBytesStr : Variant → Option RStr
  | .string s => some s
  | .symbol s => some s.str
  | _ => none

/-! ## Messages -/

namespace Message
variable {AP : Type}
/-- `header`, `src/message/inmessage.rs:46-48`, `src/message/outmessage.rs:42-44`. -/
def getHeader (m : Message AP) : Option Header := m.header
/-- `properties`, `src/message/inmessage.rs:58-60`, `src/message/outmessage.rs:54-56`. -/
def getProperties (m : Message AP) : Option Properties := m.properties
/-- `OutMessage::app_properties`, `src/message/outmessage.rs:75-77`. -/
def appProperties (m : OutMessage) : Option VecVariantMap := m.application_properties
/-- `value`, `src/message/inmessage.rs:128-130`, `src/message/outmessage.rs:120-122`. -/
def getValue (m : Message AP) : Option Variant := m.value
end Message

/-- `MessageBody::value`, `src/message/body.rs:26-28`. -/
def MessageBody.getValue (b : MessageBody) : Option Variant := b.value

/-- `TransferBody::len`, `src/protocol/mod.rs:221-224`. -/
def TransferBody.len (b : TransferBody) : Nat := size b

/-! ## Errors -/

/-- `AmqpCodecError`, `src/errors.rs:28-35`, with `E` for `std::io::Error`. -/
inductive AmqpCodecError (E : Type) where
  | ParseError (e : ParseError)
  | UnparsedBytesLeft
  | Io (e : Option E)

/-- `Clone for AmqpCodecError`, `src/errors.rs:37-45`.  (`AmqpParseError` derives
`Clone`.) -/
def AmqpCodecError.clone {E : Type} : AmqpCodecError E → AmqpCodecError E
  | .ParseError e => .ParseError e
  | .UnparsedBytesLeft => .UnparsedBytesLeft
  | .Io _ => .Io none

/-- `From<AmqpParseError> for AmqpCodecError` (derived), used by `?`,
`src/errors.rs:28-30`. -/
instance {E : Type} : Into ParseError (AmqpCodecError E) := ⟨.ParseError⟩
/-- `From<std::io::Error> for AmqpCodecError`, `src/errors.rs:47-51`. -/
def AmqpCodecError.ofIo {E : Type} (e : E) : AmqpCodecError E := .Io (some e)

/-- The errors of the modelled codec among them. -/
def CodecError.toRust {E : Type} : CodecError → AmqpCodecError E
  | .parse e => into e
  | .unparsedBytesLeft => .UnparsedBytesLeft

end Amqp
