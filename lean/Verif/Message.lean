import Verif.Protocol.Lists
/-!
# Messages, `src/message/*.rs` and `TransferBody`, `src/protocol/mod.rs:213-251`

`InMessage` and `OutMessage` are the same code up to the type of the
application properties, so they are modelled once, with that type as parameter.
-/
namespace Amqp

/-- `SECTION_PREFIX_LENGTH`, `src/message/mod.rs:9`. -/
def sectionPrefixLength : Nat := 3

/-- Every field of `InMessage`/`OutMessage` except `body.messages`
(`src/message/inmessage.rs:17-28`, `src/message/outmessage.rs:12-23`), with the
other fields of `MessageBody` (`src/message/body.rs:9-15`) inlined.  `cache` is
the `size: Cell<usize>` field. -/
structure MsgHead (AP : Type) where
  message_format : Option MessageFormat := none
  header : Option Header := none
  delivery_annotations : Option Annotations := none
  message_annotations : Option Annotations := none
  properties : Option Properties := none
  application_properties : Option AP := none
  footer : Option Annotations := none
  data : List Binary := []
  sequence : List VList := []
  value : Option Variant := none
  cache : Nat := 0

/-- `TransferBody`, `src/protocol/mod.rs:213-218`.  A message is given by its
head and its `body.messages`, which are transfer bodies again. -/
inductive TransferBody where
  | Data (b : Binary)
  | MessageIn (m : MsgHead StringVariantMap) (messages : List TransferBody)
  | MessageOut (m : MsgHead VecVariantMap) (messages : List TransferBody)

/-- `InMessage`/`OutMessage`. -/
structure Message (AP : Type) extends MsgHead AP where
  messages : List TransferBody := []

/-- `InMessage`, `src/message/inmessage.rs:17-28`. -/
abbrev InMessage := Message StringVariantMap
/-- `OutMessage`, `src/message/outmessage.rs:12-23`. -/
abbrev OutMessage := Message VecVariantMap

/-- `MessageBody`, `src/message/body.rs:9-15`. -/
structure MessageBody where
  data : List Binary := []
  sequence : List VList := []
  messages : List TransferBody := []
  value : Option Variant := none

/-! ## Sizes and encodings -/

/-- `iter().fold(0, |a, d| a + d.encoded_size() + SECTION_PREFIX_LENGTH)`,
`src/message/body.rs:38-45`. -/
def sectionsSize {α : Type} [Encode α] : List α → Nat
  | [] => 0
  | d :: t => size d + sectionPrefixLength + sectionsSize t

/-- `MessageBody::encoded_size`, `src/message/body.rs:37-57`; `nested` is the
contribution of `messages`. -/
def bodySizeWith (data : List Binary) (sequence : List VList) (value : Option Variant)
    (nested : Nat) : Nat :=
  sectionsSize data + sectionsSize sequence + nested +
    match value with
    | some v => size v + sectionPrefixLength
    | none => 0

/-- `if let Some(ref x) = .. { size += x.encoded_size() + extra; }` -/
def optSize {α : Type} [Encode α] (extra : Nat) : Option α → Nat
  | some x => size x + extra
  | none => 0

/-- The `encoded_size` of a message computed afresh, given that of its body:
`src/message/inmessage.rs:209-237`, `src/message/outmessage.rs:204-232`. -/
def MsgHead.freshSize {AP : Type} [Encode AP] (m : MsgHead AP) (body : Nat) : Nat :=
  (if body = 0 then sectionPrefixLength + 2 else body) +
    optSize sectionPrefixLength m.header +
    optSize sectionPrefixLength m.delivery_annotations +
    optSize sectionPrefixLength m.message_annotations +
    optSize 0 m.properties +
    optSize sectionPrefixLength m.application_properties +
    optSize sectionPrefixLength m.footer

mutual
/-- `TransferBody::encoded_size`, `src/protocol/mod.rs:235-241`. -/
def TransferBody.tsize : TransferBody → Nat
  | .Data b => b.data.length
  | .MessageIn m messages =>
    if m.cache ≠ 0 then m.cache
    else m.freshSize (bodySizeWith m.data m.sequence m.value (nestedSize messages))
  | .MessageOut m messages =>
    if m.cache ≠ 0 then m.cache
    else m.freshSize (bodySizeWith m.data m.sequence m.value (nestedSize messages))
/-- The fold over `messages`, `src/message/body.rs:46-50`. -/
def nestedSize : List TransferBody → Nat
  | [] => 0
  | b :: t => b.tsize + (if b.tsize > 255 then 5 else 2) + sectionPrefixLength + nestedSize t
end

/-- Section descriptor followed by the value; e.g. `src/message/body.rs:60-63`. -/
def sectionEnc {α : Type} [Encode α] (code : UInt64) (v : α) : Bytes :=
  enc (Descriptor.ulong code) ++ enc v

/-- The sections before the body, `src/message/inmessage.rs:240-258`. -/
def MsgHead.encPre {AP : Type} [Encode AP] (m : MsgHead AP) : Bytes :=
  (m.header.elim [] enc) ++
  (m.delivery_annotations.elim [] (sectionEnc 113)) ++
  (m.message_annotations.elim [] (sectionEnc 114)) ++
  (m.properties.elim [] enc) ++
  (m.application_properties.elim [] (sectionEnc 116))

/-- The footer, `src/message/inmessage.rs:270-274`. -/
def MsgHead.encPost {AP : Type} (m : MsgHead AP) : Bytes :=
  m.footer.elim [] (sectionEnc 120)

/-- `MessageBody::encode`, `src/message/body.rs:59-87`; `nested` are the bytes
written for `messages`. -/
def bodyEncWith (data : List Binary) (sequence : List VList) (value : Option Variant)
    (nested : Bytes) : Bytes :=
  data.flatMap (sectionEnc 117) ++ sequence.flatMap (sectionEnc 118) ++
    value.elim [] (sectionEnc 119) ++ nested

/-- The body of a message, or an empty data section if the body's
`encoded_size` is zero: `src/message/inmessage.rs:260-268`. -/
def bodyEncOrEmpty (bodySize : Nat) (body : Bytes) : Bytes :=
  if bodySize = 0 then enc (Descriptor.ulong 117) ++ [FC.binary8, 0] else body

mutual
/-- `TransferBody::encode`, `src/protocol/mod.rs:243-249`. -/
def TransferBody.tenc : TransferBody → Bytes
  | .Data b => b.data
  | .MessageIn m messages =>
    m.encPre ++
    bodyEncOrEmpty (bodySizeWith m.data m.sequence m.value (nestedSize messages))
      (bodyEncWith m.data m.sequence m.value (nestedEnc messages)) ++
    m.encPost
  | .MessageOut m messages =>
    m.encPre ++
    bodyEncOrEmpty (bodySizeWith m.data m.sequence m.value (nestedSize messages))
      (bodyEncWith m.data m.sequence m.value (nestedEnc messages)) ++
    m.encPost
/-- The loop over `messages`, `src/message/body.rs:72-86`: the prefix carries
`encoded_size` of the nested body, whatever is then written. -/
def nestedEnc : List TransferBody → Bytes
  | [] => []
  | b :: t =>
    enc (Descriptor.ulong 117) ++
    (if b.tsize > 255 then FC.binary32 :: beEnc 4 b.tsize else [FC.binary8, UInt8.ofNat b.tsize]) ++
    b.tenc ++ nestedEnc t
end

instance : Encode TransferBody := ⟨TransferBody.tsize, TransferBody.tenc⟩

namespace Message
variable {AP : Type} [Encode AP]

/-- `self.body.encoded_size()`. -/
def bodySize (m : Message AP) : Nat :=
  bodySizeWith m.data m.sequence m.value (nestedSize m.messages)

/-- `encoded_size` with an unset cache. -/
def fresh (m : Message AP) : Nat := m.freshSize m.bodySize

/-- `InMessage::encoded_size`, `src/message/inmessage.rs:203-237`;
`OutMessage::encoded_size`, `src/message/outmessage.rs:198-232`. -/
def msize (m : Message AP) : Nat := if m.cache ≠ 0 then m.cache else m.fresh

/-- `InMessage::encode`, `src/message/inmessage.rs:239-275`;
`OutMessage::encode`, `src/message/outmessage.rs:234-270`. -/
def menc (m : Message AP) : Bytes :=
  m.encPre ++
  bodyEncOrEmpty m.bodySize (bodyEncWith m.data m.sequence m.value (nestedEnc m.messages)) ++
  m.encPost

end Message

instance {AP : Type} [Encode AP] : Encode (Message AP) := ⟨Message.msize, Message.menc⟩

/-- `From<InMessage> for TransferBody`, `src/protocol/mod.rs:213`. -/
def Message.toIn (m : InMessage) : TransferBody := .MessageIn m.toMsgHead m.messages
/-- `From<OutMessage> for TransferBody`, `src/protocol/mod.rs:213`. -/
def Message.toOut (m : OutMessage) : TransferBody := .MessageOut m.toMsgHead m.messages

theorem Message.toIn_size (m : InMessage) : size m.toIn = size m := by
  show TransferBody.tsize _ = _
  simp only [Message.toIn, TransferBody.tsize]; rfl
theorem Message.toOut_size (m : OutMessage) : size m.toOut = size m := by
  show TransferBody.tsize _ = _
  simp only [Message.toOut, TransferBody.tsize]; rfl
theorem Message.toIn_enc (m : InMessage) : enc m.toIn = enc m := by
  show TransferBody.tenc _ = _
  simp only [Message.toIn, TransferBody.tenc]; rfl
theorem Message.toOut_enc (m : OutMessage) : enc m.toOut = enc m := by
  show TransferBody.tenc _ = _
  simp only [Message.toOut, TransferBody.tenc]; rfl

/-! ## The effect of `encoded_size` and `encode` on the caches -/

mutual
/-- The state of a transfer body after `encoded_size`:
`self.size.set(size)`, `src/message/inmessage.rs:235`. -/
def TransferBody.touch : TransferBody → TransferBody
  | .Data b => .Data b
  | .MessageIn m messages =>
    if m.cache ≠ 0 then .MessageIn m messages
    else
      let size := m.freshSize (bodySizeWith m.data m.sequence m.value (nestedSize messages))
      .MessageIn { m with cache := size } (touchAll messages)
  | .MessageOut m messages =>
    if m.cache ≠ 0 then .MessageOut m messages
    else
      let size := m.freshSize (bodySizeWith m.data m.sequence m.value (nestedSize messages))
      .MessageOut { m with cache := size } (touchAll messages)
def touchAll : List TransferBody → List TransferBody
  | [] => []
  | b :: t => b.touch :: touchAll t
end

/-- The state of a message after `encoded_size`. -/
def Message.touch {AP : Type} [Encode AP] (m : Message AP) : Message AP :=
  if m.cache ≠ 0 then m
  else { m with cache := m.fresh, messages := touchAll m.messages }

mutual
/-- The state of a transfer body after `encoded_size` and then `encode`, which is how
nested ones are written, `src/message/body.rs:72-86` (`settle_eq`). -/
def TransferBody.settle : TransferBody → TransferBody
  | .Data b => .Data b
  | .MessageIn m messages =>
    .MessageIn { m with cache := TransferBody.tsize (.MessageIn m messages) } (settleAll messages)
  | .MessageOut m messages =>
    .MessageOut { m with cache := TransferBody.tsize (.MessageOut m messages) } (settleAll messages)
def settleAll : List TransferBody → List TransferBody
  | [] => []
  | b :: t => b.settle :: settleAll t
end

/-- The state of a transfer body after `encode`. -/
def TransferBody.afterEncode : TransferBody → TransferBody
  | .Data b => .Data b
  | .MessageIn m messages => .MessageIn m (settleAll messages)
  | .MessageOut m messages => .MessageOut m (settleAll messages)

/-- The state of a message after `encode`, which calls `encoded_size` and `encode` of
the nested messages but not `self.encoded_size()`. -/
def Message.afterEncode {AP : Type} (m : Message AP) : Message AP :=
  { m with messages := settleAll m.messages }

/-! ## Builders and accessors -/

namespace Message
variable {AP : Type}

/-- `InMessage::default()`. -/
def empty : Message AP := {}

/-- `with_body`, `src/message/inmessage.rs:32-36`,
`src/message/outmessage.rs:28-32`. -/
def withBody (b : Binary) : Message AP := { data := [b] }

/-- `with_messages`, `src/message/inmessage.rs:39-43`,
`src/message/outmessage.rs:35-39`. -/
def withMessages (ms : List TransferBody) : Message AP := { messages := ms }

/-- `set_header`, `src/message/inmessage.rs:51-55`,
`src/message/outmessage.rs:47-51`. -/
def setHeader (m : Message AP) (h : Header) : Message AP := { m with header := some h, cache := 0 }

/-- `Properties::default()`, `src/protocol/mod.rs:193-211`. -/
def defaultProperties : Properties where
  message_id := none
  user_id := none
  to := none
  subject := none
  reply_to := none
  correlation_id := none
  content_type := none
  content_encoding := none
  absolute_expiry_time := none
  creation_time := none
  group_id := none
  group_sequence := none
  reply_to_group_id := none

/-- `set_properties`, `src/message/inmessage.rs:63-76`,
`src/message/outmessage.rs:59-72`. -/
def setProperties (m : Message AP) (f : Properties → Properties) : Message AP :=
  { m with
    properties := some (f (m.properties.getD defaultProperties))
    cache := 0 }

/-- `InMessage::set_app_property`, `src/message/inmessage.rs:88-98`. -/
def setAppPropertyIn (m : InMessage) (k : Str) (v : Variant) : InMessage :=
  { m with
    application_properties := some ⟨insertEntry HKey.keq k v
      (m.application_properties.elim [] HMap.entries)⟩
    cache := 0 }

/-- `InMessage::app_property`, `src/message/inmessage.rs:79-85`: `HashMap::get`. -/
def appProperty (m : InMessage) (k : Str) : Option Variant :=
  m.application_properties.bind fun p => findEntry (HKey.keq k) p.entries

/-- `OutMessage::set_app_property`, `src/message/outmessage.rs:79-89`. -/
def setAppPropertyOut (m : OutMessage) (k : Str) (v : Variant) : OutMessage :=
  { m with
    application_properties := some ⟨m.application_properties.elim [] VecVariantMap.entries ++ [(k, v)]⟩
    cache := 0 }

/-- `update`, `src/message/inmessage.rs:101-107`,
`src/message/outmessage.rs:93-99`. -/
def update (m : Message AP) (f : Message AP → Message AP) : Message AP := f { m with cache := 0 }

/-- `if_some`, `src/message/inmessage.rs:110-120`,
`src/message/outmessage.rs:102-112`. -/
def ifSome {T : Type} (m : Message AP) (o : Option T) (f : Message AP → T → Message AP) :
    Message AP :=
  match o with
  | some t => f { m with cache := 0 } t
  | none => m

/-- `body`, `src/message/inmessage.rs:123-125`,
`src/message/outmessage.rs:115-117`. -/
def body (m : Message AP) : MessageBody := ⟨m.data, m.sequence, m.messages, m.value⟩

/-- `set_value`, `src/message/inmessage.rs:133-136`,
`src/message/outmessage.rs:125-128`: the cache is *not* reset. -/
def setValue (m : Message AP) (v : Variant) : Message AP := { m with value := some v }

/-- `set_body`, `src/message/inmessage.rs:139-146`,
`src/message/outmessage.rs:131-138`. -/
def setBody (m : Message AP) (f : MessageBody → MessageBody) : Message AP :=
  { m with
    data := (f m.body).data
    sequence := (f m.body).sequence
    messages := (f m.body).messages
    value := (f m.body).value
    cache := 0 }

/-- `reply_message`, `src/message/inmessage.rs:149-153`,
`src/message/outmessage.rs:141-145`. -/
def reply (m : Message AP) : OutMessage :=
  (empty : OutMessage).ifSome m.properties fun msg data =>
    msg.setProperties fun props => { props with correlation_id := data.message_id }

end Message

/-- `MessageBody::set_data`, `src/message/body.rs:30-33`. -/
def MessageBody.setData (b : MessageBody) (d : Binary) : MessageBody := { b with data := [d] }

/-- `MessageBody::data`, `src/message/body.rs:18-24`. -/
def MessageBody.first (b : MessageBody) : Option Binary := b.data.head?

/-- `TransferBody::message_format`, `src/protocol/mod.rs:226-232`. -/
def TransferBody.messageFormat : TransferBody → Option MessageFormat
  | .Data _ => none
  | .MessageIn m _ => m.message_format
  | .MessageOut m _ => m.message_format

/-! ## Decoding -/

namespace Message
variable {AP : Type}

/-- The `match sec { .. }` of the decoding loop, `src/message/inmessage.rs:162-192`,
`src/message/outmessage.rs:157-187`.  `conv` turns decoded application
properties into the stored type. -/
def addSection (conv : StringVariantMap → AP) (m : Message AP) : Section → Message AP
  | .Header v => { m with header := some v }
  | .DeliveryAnnotations v => { m with delivery_annotations := some v }
  | .MessageAnnotations v => { m with message_annotations := some v }
  | .ApplicationProperties v => { m with application_properties := some (conv v) }
  | .Footer v => { m with footer := some v }
  | .Properties v => { m with properties := some v }
  | .AmqpSequence v => { m with sequence := m.sequence ++ [v] }
  | .AmqpValue v => { m with value := some v }
  | .Data v => { m with data := m.data ++ [v] }

/-- The `loop` of `InMessage::decode`, `src/message/inmessage.rs:160-199`, and
`OutMessage::decode`, `src/message/outmessage.rs:155-194`.  On success it
returns `input`, the start of the *last* section.  The first argument bounds
the number of iterations; `msgDecode` supplies one more than the input's
length, which is never exhausted (`Message.loop_fuel`). -/
def loop (env : Env) (conv : StringVariantMap → AP) : Nat → Message AP → Dec (Message AP)
  | 0, _ => Dec.abort .stackOverflow
  | fuel + 1, m => fun input =>
    match decode Section env input with
    | .ok (buf, sec) =>
      if buf.isEmpty then .ok (input, m.addSection conv sec)
      else loop env conv fuel (m.addSection conv sec) buf
    | .err e => .err e
    | .panic p => .panic p

/-- `decode` of a message with the given conversion of application properties. -/
def decodeWith (env : Env) (conv : StringVariantMap → AP) : Dec (Message AP) := fun input =>
  loop env conv (input.length + 1) empty input

end Message

/-- `InMessage::decode`, `src/message/inmessage.rs:156-201`. -/
def InMessage.decode (env : Env) : Dec InMessage := Message.decodeWith env id

/-- `OutMessage::decode`, `src/message/outmessage.rs:151-196`.  The application
properties are collected from a `HashMap` in its iteration order; `order` stands
for that order and is arbitrary. -/
def OutMessage.decode (env : Env) (order : StringVariantMap → List (Str × Variant)) :
    Dec OutMessage := Message.decodeWith env fun m => ⟨order m⟩

end Amqp
