import Verif.Codegen.Specification
import Verif.Codegen.Compile
/-!
# The accessors of the generated list types

Generated by `tools/gen_accessors.py`: `shippedAccessors` is read from
`src/protocol/definitions.rs`, the rest follows the template.
-/
set_option autoImplicit false
namespace Amqp.Codegen

/-- What an accessor gives, `codegen/definitions.rs:297-326`: the text of the field, a
reference to the field, or a copy of it. -/
inductive Gives where
  | str
  | ref (ty : String)
  | copy (ty : String)
deriving DecidableEq, Repr

/-- An accessor `fn name(&self)`.  The field that is looked at has the name of the accessor. -/
structure Accessor where
  name : String
  optional : Bool
  gives : Gives
deriving DecidableEq, Repr

/-- `codegen/definitions.rs:298-325`. -/
def GField.accessor (f : GField) : Accessor :=
  { name := f.name, optional := f.optional
    gives := if f.is_str then .str else if f.is_ref then .ref f.ty else .copy f.ty }

/-- The accessors of a list, `codegen/definitions.rs:296-332`. -/
def GDescribed.accessors (l : GDescribed) : List Accessor :=
  l.fields.map GField.accessor ++
    if l.transfer then [{ name := "body", optional := true, gives := .ref "TransferBody" }] else []

/-- The accessors of the list types of the generated file. -/
def accessors (spec : Json) : Gen (List (String × List Accessor)) := do
  let d ← parse spec
  pure (d.lists.map fun l => (l.name, l.accessors))

/-- The accessors of the list types in `src/protocol/definitions.rs`. -/
def shippedAccessors : List (String × List Accessor) := [
  -- `src/protocol/definitions.rs:1073-1081`
  ("Error", [
    ⟨"condition", false, .ref "ErrorCondition"⟩,
    ⟨"description", true, .ref "ByteStr"⟩,
    ⟨"info", true, .ref "Fields"⟩]),
  -- `src/protocol/definitions.rs:1199-1228`
  ("Open", [
    ⟨"container_id", false, .ref "ByteStr"⟩,
    ⟨"hostname", true, .ref "ByteStr"⟩,
    ⟨"max_frame_size", false, .copy "u32"⟩,
    ⟨"channel_max", false, .copy "u16"⟩,
    ⟨"idle_time_out", true, .copy "Milliseconds"⟩,
    ⟨"outgoing_locales", true, .ref "IetfLanguageTags"⟩,
    ⟨"incoming_locales", true, .ref "IetfLanguageTags"⟩,
    ⟨"offered_capabilities", true, .ref "Symbols"⟩,
    ⟨"desired_capabilities", true, .ref "Symbols"⟩,
    ⟨"properties", true, .ref "Fields"⟩]),
  -- `src/protocol/definitions.rs:1435-1458`
  ("Begin", [
    ⟨"remote_channel", true, .copy "u16"⟩,
    ⟨"next_outgoing_id", false, .copy "TransferNumber"⟩,
    ⟨"incoming_window", false, .copy "u32"⟩,
    ⟨"outgoing_window", false, .copy "u32"⟩,
    ⟨"handle_max", false, .copy "Handle"⟩,
    ⟨"offered_capabilities", true, .ref "Symbols"⟩,
    ⟨"desired_capabilities", true, .ref "Symbols"⟩,
    ⟨"properties", true, .ref "Fields"⟩]),
  -- `src/protocol/definitions.rs:1645-1686`
  ("Attach", [
    ⟨"name", false, .ref "ByteStr"⟩,
    ⟨"handle", false, .copy "Handle"⟩,
    ⟨"role", false, .copy "Role"⟩,
    ⟨"snd_settle_mode", false, .copy "SenderSettleMode"⟩,
    ⟨"rcv_settle_mode", false, .copy "ReceiverSettleMode"⟩,
    ⟨"source", true, .ref "Source"⟩,
    ⟨"target", true, .ref "Target"⟩,
    ⟨"unsettled", true, .ref "Map"⟩,
    ⟨"incomplete_unsettled", false, .copy "bool"⟩,
    ⟨"initial_delivery_count", true, .copy "SequenceNo"⟩,
    ⟨"max_message_size", true, .copy "u64"⟩,
    ⟨"offered_capabilities", true, .ref "Symbols"⟩,
    ⟨"desired_capabilities", true, .ref "Symbols"⟩,
    ⟨"properties", true, .ref "Fields"⟩]),
  -- `src/protocol/definitions.rs:1948-1980`
  ("Flow", [
    ⟨"next_incoming_id", true, .copy "TransferNumber"⟩,
    ⟨"incoming_window", false, .copy "u32"⟩,
    ⟨"next_outgoing_id", false, .copy "TransferNumber"⟩,
    ⟨"outgoing_window", false, .copy "u32"⟩,
    ⟨"handle", true, .copy "Handle"⟩,
    ⟨"delivery_count", true, .copy "SequenceNo"⟩,
    ⟨"link_credit", true, .copy "u32"⟩,
    ⟨"available", true, .copy "u32"⟩,
    ⟨"drain", false, .copy "bool"⟩,
    ⟨"echo", false, .copy "bool"⟩,
    ⟨"properties", true, .ref "Fields"⟩]),
  -- `src/protocol/definitions.rs:2204-2239`
  ("Transfer", [
    ⟨"handle", false, .copy "Handle"⟩,
    ⟨"delivery_id", true, .copy "DeliveryNumber"⟩,
    ⟨"delivery_tag", true, .ref "DeliveryTag"⟩,
    ⟨"message_format", true, .copy "MessageFormat"⟩,
    ⟨"settled", true, .copy "bool"⟩,
    ⟨"more", false, .copy "bool"⟩,
    ⟨"rcv_settle_mode", true, .copy "ReceiverSettleMode"⟩,
    ⟨"state", true, .ref "DeliveryState"⟩,
    ⟨"resume", false, .copy "bool"⟩,
    ⟨"aborted", false, .copy "bool"⟩,
    ⟨"batchable", false, .copy "bool"⟩,
    ⟨"body", true, .ref "TransferBody"⟩]),
  -- `src/protocol/definitions.rs:2469-2486`
  ("Disposition", [
    ⟨"role", false, .copy "Role"⟩,
    ⟨"first", false, .copy "DeliveryNumber"⟩,
    ⟨"last", true, .copy "DeliveryNumber"⟩,
    ⟨"settled", false, .copy "bool"⟩,
    ⟨"state", true, .ref "DeliveryState"⟩,
    ⟨"batchable", false, .copy "bool"⟩]),
  -- `src/protocol/definitions.rs:2636-2644`
  ("Detach", [
    ⟨"handle", false, .copy "Handle"⟩,
    ⟨"closed", false, .copy "bool"⟩,
    ⟨"error", true, .ref "Error"⟩]),
  -- `src/protocol/definitions.rs:2749-2751`
  ("End", [
    ⟨"error", true, .ref "Error"⟩]),
  -- `src/protocol/definitions.rs:2827-2829`
  ("Close", [
    ⟨"error", true, .ref "Error"⟩]),
  -- `src/protocol/definitions.rs:2905-2907`
  ("SaslMechanisms", [
    ⟨"sasl_server_mechanisms", false, .ref "Symbols"⟩]),
  -- `src/protocol/definitions.rs:2992-3000`
  ("SaslInit", [
    ⟨"mechanism", false, .ref "Symbol"⟩,
    ⟨"initial_response", true, .ref "Bytes"⟩,
    ⟨"hostname", true, .ref "ByteStr"⟩]),
  -- `src/protocol/definitions.rs:3109-3111`
  ("SaslChallenge", [
    ⟨"challenge", false, .ref "Bytes"⟩]),
  -- `src/protocol/definitions.rs:3187-3189`
  ("SaslResponse", [
    ⟨"response", false, .ref "Bytes"⟩]),
  -- `src/protocol/definitions.rs:3266-3271`
  ("SaslOutcome", [
    ⟨"code", false, .copy "SaslCode"⟩,
    ⟨"additional_data", true, .ref "Bytes"⟩]),
  -- `src/protocol/definitions.rs:3373-3405`
  ("Source", [
    ⟨"address", true, .ref "Address"⟩,
    ⟨"durable", false, .copy "TerminusDurability"⟩,
    ⟨"expiry_policy", false, .copy "TerminusExpiryPolicy"⟩,
    ⟨"timeout", false, .copy "Seconds"⟩,
    ⟨"dynamic", false, .copy "bool"⟩,
    ⟨"dynamic_node_properties", true, .ref "NodeProperties"⟩,
    ⟨"distribution_mode", true, .ref "DistributionMode"⟩,
    ⟨"filter", true, .ref "FilterSet"⟩,
    ⟨"default_outcome", true, .ref "Outcome"⟩,
    ⟨"outcomes", true, .ref "Symbols"⟩,
    ⟨"capabilities", true, .ref "Symbols"⟩]),
  -- `src/protocol/definitions.rs:3624-3644`
  ("Target", [
    ⟨"address", true, .ref "Address"⟩,
    ⟨"durable", false, .copy "TerminusDurability"⟩,
    ⟨"expiry_policy", false, .copy "TerminusExpiryPolicy"⟩,
    ⟨"timeout", false, .copy "Seconds"⟩,
    ⟨"dynamic", false, .copy "bool"⟩,
    ⟨"dynamic_node_properties", true, .ref "NodeProperties"⟩,
    ⟨"capabilities", true, .ref "Symbols"⟩]),
  -- `src/protocol/definitions.rs:3809-3823`
  ("Header", [
    ⟨"durable", false, .copy "bool"⟩,
    ⟨"priority", false, .copy "u8"⟩,
    ⟨"ttl", true, .copy "Milliseconds"⟩,
    ⟨"first_acquirer", false, .copy "bool"⟩,
    ⟨"delivery_count", false, .copy "u32"⟩]),
  -- `src/protocol/definitions.rs:3970-4008`
  ("Properties", [
    ⟨"message_id", true, .ref "MessageId"⟩,
    ⟨"user_id", true, .ref "Bytes"⟩,
    ⟨"to", true, .ref "Address"⟩,
    ⟨"subject", true, .ref "ByteStr"⟩,
    ⟨"reply_to", true, .ref "Address"⟩,
    ⟨"correlation_id", true, .ref "MessageId"⟩,
    ⟨"content_type", true, .ref "Symbol"⟩,
    ⟨"content_encoding", true, .ref "Symbol"⟩,
    ⟨"absolute_expiry_time", true, .copy "Timestamp"⟩,
    ⟨"creation_time", true, .copy "Timestamp"⟩,
    ⟨"group_id", true, .ref "ByteStr"⟩,
    ⟨"group_sequence", true, .copy "SequenceNo"⟩,
    ⟨"reply_to_group_id", true, .ref "ByteStr"⟩]),
  -- `src/protocol/definitions.rs:4248-4253`
  ("Received", [
    ⟨"section_number", false, .copy "u32"⟩,
    ⟨"section_offset", false, .copy "u64"⟩]),
  ("Accepted", []),
  -- `src/protocol/definitions.rs:4407-4409`
  ("Rejected", [
    ⟨"error", true, .ref "Error"⟩]),
  ("Released", []),
  -- `src/protocol/definitions.rs:4549-4557`
  ("Modified", [
    ⟨"delivery_failed", true, .copy "bool"⟩,
    ⟨"undeliverable_here", true, .copy "bool"⟩,
    ⟨"message_annotations", true, .ref "Fields"⟩])]

end Amqp.Codegen
