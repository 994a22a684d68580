import Verif.Message
/-!
# What users do with messages

Vocabulary for the properties of messages: size caches, histories of builder
calls, and what a sequence of sections amounts to.
-/
set_option autoImplicit false
namespace Amqp

/-! ## Caches -/

mutual
/-- Every message in the transfer body has an unset size cache. -/
def TransferBody.Fresh : TransferBody → Prop
  | .Data _ => True
  | .MessageIn m ms => m.cache = 0 ∧ FreshAll ms
  | .MessageOut m ms => m.cache = 0 ∧ FreshAll ms
def FreshAll : List TransferBody → Prop
  | [] => True
  | b :: t => b.Fresh ∧ FreshAll t
end

/-- The message and all messages in it have an unset size cache. -/
def Message.Fresh {AP : Type} (m : Message AP) : Prop := m.cache = 0 ∧ FreshAll m.messages

mutual
/-- The same content with all size caches unset. -/
def TransferBody.clear : TransferBody → TransferBody
  | .Data b => .Data b
  | .MessageIn m ms => .MessageIn { m with cache := 0 } (clearAll ms)
  | .MessageOut m ms => .MessageOut { m with cache := 0 } (clearAll ms)
def clearAll : List TransferBody → List TransferBody
  | [] => []
  | b :: t => b.clear :: clearAll t
end

/-- The same content with all size caches unset. -/
def Message.clear {AP : Type} (m : Message AP) : Message AP :=
  { m with cache := 0, messages := clearAll m.messages }

mutual
/-- Every size cache in the transfer body is unset or holds the size of the
present content. -/
def TransferBody.Coherent : TransferBody → Prop
  | .Data _ => True
  | .MessageIn m ms =>
    (m.cache = 0 ∨ m.cache = size (TransferBody.MessageIn m ms).clear) ∧ CoherentAll ms
  | .MessageOut m ms =>
    (m.cache = 0 ∨ m.cache = size (TransferBody.MessageOut m ms).clear) ∧ CoherentAll ms
def CoherentAll : List TransferBody → Prop
  | [] => True
  | b :: t => b.Coherent ∧ CoherentAll t
end

/-- Every size cache in the message is unset or holds the size of the present
content. -/
def Message.Coherent {AP : Type} [Encode AP] (m : Message AP) : Prop :=
  (m.cache = 0 ∨ m.cache = size m.clear) ∧ CoherentAll m.messages

mutual
/-- The number of messages in the transfer body that carry a header section. -/
def TransferBody.headers : TransferBody → Nat
  | .Data _ => 0
  | .MessageIn m ms => (if m.header.isSome then 1 else 0) + headersAll ms
  | .MessageOut m ms => (if m.header.isSome then 1 else 0) + headersAll ms
def headersAll : List TransferBody → Nat
  | [] => 0
  | b :: t => b.headers + headersAll t
end

/-- The number of header sections in a message and the messages nested in it. -/
def Message.headers {AP : Type} (m : Message AP) : Nat :=
  (if m.header.isSome then 1 else 0) + headersAll m.messages

/-! ## Histories -/

/-- What users can do with a message they own or share.  `reset` is what `update`
and `if_some` do before they run a closure; what the closure does comes after it
in the history.  `encoded_size` and `encode` of nested messages, at any depth, can be
called through `body()`: of the message at `path` in the `i`th nested one. -/
inductive Op where
  | setFormat (f : Option MessageFormat)
  | setHeader (h : Header)
  | setProperties (f : Properties → Properties)
  | setAppProperty (k : Str) (v : Variant)
  | reset
  | setValue (v : Variant)
  | setBody (f : MessageBody → MessageBody)
  | size
  | encode
  | sizeNested (i : Nat) (path : List Nat)
  | encodeNested (i : Nat) (path : List Nat)

/-- What is nested at `path`, changed by `f`; nothing changes if there is nothing. -/
def TransferBody.modifyAt (f : TransferBody → TransferBody) : List Nat → TransferBody → TransferBody
  | [], b => f b
  | _ :: _, .Data b => .Data b
  | i :: path, .MessageIn m ms => .MessageIn m (ms.modify i (modifyAt f path))
  | i :: path, .MessageOut m ms => .MessageOut m (ms.modify i (modifyAt f path))

/-- The effect of one call; `setApp` is `set_app_property`. -/
def Op.apply {AP : Type} [Encode AP] (setApp : Message AP → Str → Variant → Message AP)
    (m : Message AP) : Op → Message AP
  | .setFormat f => { m with message_format := f }
  | .setHeader h => m.setHeader h
  | .setProperties f => m.setProperties f
  | .setAppProperty k v => setApp m k v
  | .reset => m.update id
  | .setValue v => m.setValue v
  | .setBody f => m.setBody f
  | .size => m.touch
  | .encode => m.afterEncode
  | .sizeNested i p => { m with messages := m.messages.modify i (.modifyAt .touch p) }
  | .encodeNested i p => { m with messages := m.messages.modify i (.modifyAt .afterEncode p) }

/-- The effect of a history of calls. -/
def runOps {AP : Type} [Encode AP] (setApp : Message AP → Str → Variant → Message AP)
    (m : Message AP) (ops : List Op) : Message AP := ops.foldl (Op.apply setApp) m

/-- Closures put only messages with right caches into a body. -/
def Op.Honest : Op → Prop
  | .setBody f => ∀ b, CoherentAll b.messages → CoherentAll (f b).messages
  | _ => True

/-- No `set_value` after an `encoded_size` without a call in between that forgets
the size; `asked` tells whether there was an `encoded_size` before. -/
def NoStaleValue : Bool → List Op → Prop
  | _, [] => True
  | asked, .setFormat _ :: t => NoStaleValue asked t
  | _, .setHeader _ :: t => NoStaleValue false t
  | _, .setProperties _ :: t => NoStaleValue false t
  | _, .setAppProperty _ _ :: t => NoStaleValue false t
  | _, .reset :: t => NoStaleValue false t
  | asked, .setValue _ :: t => asked = false ∧ NoStaleValue asked t
  | _, .setBody _ :: t => NoStaleValue false t
  | _, .size :: t => NoStaleValue true t
  | asked, .encode :: t => NoStaleValue asked t
  | asked, .sizeNested _ _ :: t => NoStaleValue asked t
  | asked, .encodeNested _ _ :: t => NoStaleValue asked t

/-! ## Sections -/

/-- The message that a sequence of sections amounts to: of every kind the last
one counts, except for data and sequence sections, which are collected. -/
def Message.ofSections {AP : Type} (conv : StringVariantMap → AP) (secs : List Section) :
    Message AP where
  header := (secs.filterMap fun | .Header v => some v | _ => none).getLast?
  delivery_annotations := (secs.filterMap fun | .DeliveryAnnotations v => some v | _ => none).getLast?
  message_annotations := (secs.filterMap fun | .MessageAnnotations v => some v | _ => none).getLast?
  properties := (secs.filterMap fun | .Properties v => some v | _ => none).getLast?
  application_properties :=
    ((secs.filterMap fun | .ApplicationProperties v => some v | _ => none).getLast?).map conv
  footer := (secs.filterMap fun | .Footer v => some v | _ => none).getLast?
  data := secs.filterMap fun | .Data v => some v | _ => none
  sequence := secs.filterMap fun | .AmqpSequence v => some v | _ => none
  value := (secs.filterMap fun | .AmqpValue v => some v | _ => none).getLast?

/-- Two sections of the same kind. -/
def Section.sameKind : Section → Section → Prop
  | .Header _, .Header _ => True
  | .DeliveryAnnotations _, .DeliveryAnnotations _ => True
  | .MessageAnnotations _, .MessageAnnotations _ => True
  | .Properties _, .Properties _ => True
  | .ApplicationProperties _, .ApplicationProperties _ => True
  | .Data _, .Data _ => True
  | .AmqpSequence _, .AmqpSequence _ => True
  | .AmqpValue _, .AmqpValue _ => True
  | .Footer _, .Footer _ => True
  | _, _ => False

end Amqp
