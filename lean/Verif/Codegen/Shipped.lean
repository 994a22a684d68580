import Verif.Codegen.Specification
import Verif.Codegen.Compile
/-! Generated by `tools/gen_shipped.py`: the code generated from the shipped specification. -/
set_option autoImplicit false
namespace Amqp.Codegen

/-- `Error`. -/
def compiledError : CList :=
  { rust := "Error", code := 29, name := "amqp:error:list", transfer := false
    fields := [⟨"condition", .errorCondition, .mandatory⟩,
     ⟨"description", .byteStr, .optional⟩,
     ⟨"info", .fields, .optional⟩] }

/-- `Open`. -/
def compiledOpen : CList :=
  { rust := "Open", code := 16, name := "amqp:open:list", transfer := false
    fields := [⟨"container_id", .byteStr, .mandatory⟩,
     ⟨"hostname", .byteStr, .optional⟩,
     ⟨"max_frame_size", .u32, .default "4294967295"⟩,
     ⟨"channel_max", .u16, .default "65535"⟩,
     ⟨"idle_time_out", .u32, .optional⟩,
     ⟨"outgoing_locales", .ietfLanguageTags, .optional⟩,
     ⟨"incoming_locales", .ietfLanguageTags, .optional⟩,
     ⟨"offered_capabilities", .symbols, .optional⟩,
     ⟨"desired_capabilities", .symbols, .optional⟩,
     ⟨"properties", .fields, .optional⟩] }

/-- `Begin`. -/
def compiledBegin : CList :=
  { rust := "Begin", code := 17, name := "amqp:begin:list", transfer := false
    fields := [⟨"remote_channel", .u16, .optional⟩,
     ⟨"next_outgoing_id", .u32, .mandatory⟩,
     ⟨"incoming_window", .u32, .mandatory⟩,
     ⟨"outgoing_window", .u32, .mandatory⟩,
     ⟨"handle_max", .u32, .default "4294967295"⟩,
     ⟨"offered_capabilities", .symbols, .optional⟩,
     ⟨"desired_capabilities", .symbols, .optional⟩,
     ⟨"properties", .fields, .optional⟩] }

/-- `Attach`. -/
def compiledAttach : CList :=
  { rust := "Attach", code := 18, name := "amqp:attach:list", transfer := false
    fields := [⟨"name", .byteStr, .mandatory⟩,
     ⟨"handle", .u32, .mandatory⟩,
     ⟨"role", .role, .mandatory⟩,
     ⟨"snd_settle_mode", .senderSettleMode, .default "SenderSettleMode::Mixed"⟩,
     ⟨"rcv_settle_mode", .receiverSettleMode, .default "ReceiverSettleMode::First"⟩,
     ⟨"source", .source, .optional⟩,
     ⟨"target", .target, .optional⟩,
     ⟨"unsettled", .map, .optional⟩,
     ⟨"incomplete_unsettled", .bool, .default "false"⟩,
     ⟨"initial_delivery_count", .u32, .optional⟩,
     ⟨"max_message_size", .u64, .optional⟩,
     ⟨"offered_capabilities", .symbols, .optional⟩,
     ⟨"desired_capabilities", .symbols, .optional⟩,
     ⟨"properties", .fields, .optional⟩] }

/-- `Flow`. -/
def compiledFlow : CList :=
  { rust := "Flow", code := 19, name := "amqp:flow:list", transfer := false
    fields := [⟨"next_incoming_id", .u32, .optional⟩,
     ⟨"incoming_window", .u32, .mandatory⟩,
     ⟨"next_outgoing_id", .u32, .mandatory⟩,
     ⟨"outgoing_window", .u32, .mandatory⟩,
     ⟨"handle", .u32, .optional⟩,
     ⟨"delivery_count", .u32, .optional⟩,
     ⟨"link_credit", .u32, .optional⟩,
     ⟨"available", .u32, .optional⟩,
     ⟨"drain", .bool, .default "false"⟩,
     ⟨"echo", .bool, .default "false"⟩,
     ⟨"properties", .fields, .optional⟩] }

/-- `Transfer`. -/
def compiledTransfer : CList :=
  { rust := "Transfer", code := 20, name := "amqp:transfer:list", transfer := true
    fields := [⟨"handle", .u32, .mandatory⟩,
     ⟨"delivery_id", .u32, .optional⟩,
     ⟨"delivery_tag", .bytes, .optional⟩,
     ⟨"message_format", .u32, .optional⟩,
     ⟨"settled", .bool, .optional⟩,
     ⟨"more", .bool, .default "false"⟩,
     ⟨"rcv_settle_mode", .receiverSettleMode, .optional⟩,
     ⟨"state", .deliveryState, .optional⟩,
     ⟨"resume", .bool, .default "false"⟩,
     ⟨"aborted", .bool, .default "false"⟩,
     ⟨"batchable", .bool, .default "false"⟩] }

/-- `Disposition`. -/
def compiledDisposition : CList :=
  { rust := "Disposition", code := 21, name := "amqp:disposition:list", transfer := false
    fields := [⟨"role", .role, .mandatory⟩,
     ⟨"first", .u32, .mandatory⟩,
     ⟨"last", .u32, .optional⟩,
     ⟨"settled", .bool, .default "false"⟩,
     ⟨"state", .deliveryState, .optional⟩,
     ⟨"batchable", .bool, .default "false"⟩] }

/-- `Detach`. -/
def compiledDetach : CList :=
  { rust := "Detach", code := 22, name := "amqp:detach:list", transfer := false
    fields := [⟨"handle", .u32, .mandatory⟩,
     ⟨"closed", .bool, .default "false"⟩,
     ⟨"error", .error, .optional⟩] }

/-- `End`. -/
def compiledEnd : CList :=
  { rust := "End", code := 23, name := "amqp:end:list", transfer := false
    fields := [⟨"error", .error, .optional⟩] }

/-- `Close`. -/
def compiledClose : CList :=
  { rust := "Close", code := 24, name := "amqp:close:list", transfer := false
    fields := [⟨"error", .error, .optional⟩] }

/-- `SaslMechanisms`. -/
def compiledSaslMechanisms : CList :=
  { rust := "SaslMechanisms", code := 64, name := "amqp:sasl-mechanisms:list", transfer := false
    fields := [⟨"sasl_server_mechanisms", .symbols, .mandatory⟩] }

/-- `SaslInit`. -/
def compiledSaslInit : CList :=
  { rust := "SaslInit", code := 65, name := "amqp:sasl-init:list", transfer := false
    fields := [⟨"mechanism", .symbol, .mandatory⟩,
     ⟨"initial_response", .bytes, .optional⟩,
     ⟨"hostname", .byteStr, .optional⟩] }

/-- `SaslChallenge`. -/
def compiledSaslChallenge : CList :=
  { rust := "SaslChallenge", code := 66, name := "amqp:sasl-challenge:list", transfer := false
    fields := [⟨"challenge", .bytes, .mandatory⟩] }

/-- `SaslResponse`. -/
def compiledSaslResponse : CList :=
  { rust := "SaslResponse", code := 67, name := "amqp:sasl-response:list", transfer := false
    fields := [⟨"response", .bytes, .mandatory⟩] }

/-- `SaslOutcome`. -/
def compiledSaslOutcome : CList :=
  { rust := "SaslOutcome", code := 68, name := "amqp:sasl-outcome:list", transfer := false
    fields := [⟨"code", .saslCode, .mandatory⟩,
     ⟨"additional_data", .bytes, .optional⟩] }

/-- `Source`. -/
def compiledSource : CList :=
  { rust := "Source", code := 40, name := "amqp:source:list", transfer := false
    fields := [⟨"address", .byteStr, .optional⟩,
     ⟨"durable", .terminusDurability, .default "TerminusDurability::None"⟩,
     ⟨"expiry_policy", .terminusExpiryPolicy, .default "TerminusExpiryPolicy::SessionEnd"⟩,
     ⟨"timeout", .u32, .default "0"⟩,
     ⟨"dynamic", .bool, .default "false"⟩,
     ⟨"dynamic_node_properties", .fields, .optional⟩,
     ⟨"distribution_mode", .distributionMode, .optional⟩,
     ⟨"filter", .filterSet, .optional⟩,
     ⟨"default_outcome", .outcome, .optional⟩,
     ⟨"outcomes", .symbols, .optional⟩,
     ⟨"capabilities", .symbols, .optional⟩] }

/-- `Target`. -/
def compiledTarget : CList :=
  { rust := "Target", code := 41, name := "amqp:target:list", transfer := false
    fields := [⟨"address", .byteStr, .optional⟩,
     ⟨"durable", .terminusDurability, .default "TerminusDurability::None"⟩,
     ⟨"expiry_policy", .terminusExpiryPolicy, .default "TerminusExpiryPolicy::SessionEnd"⟩,
     ⟨"timeout", .u32, .default "0"⟩,
     ⟨"dynamic", .bool, .default "false"⟩,
     ⟨"dynamic_node_properties", .fields, .optional⟩,
     ⟨"capabilities", .symbols, .optional⟩] }

/-- `Header`. -/
def compiledHeader : CList :=
  { rust := "Header", code := 112, name := "amqp:header:list", transfer := false
    fields := [⟨"durable", .bool, .default "false"⟩,
     ⟨"priority", .u8, .default "4"⟩,
     ⟨"ttl", .u32, .optional⟩,
     ⟨"first_acquirer", .bool, .default "false"⟩,
     ⟨"delivery_count", .u32, .default "0"⟩] }

/-- `Properties`. -/
def compiledProperties : CList :=
  { rust := "Properties", code := 115, name := "amqp:properties:list", transfer := false
    fields := [⟨"message_id", .messageId, .optional⟩,
     ⟨"user_id", .bytes, .optional⟩,
     ⟨"to", .byteStr, .optional⟩,
     ⟨"subject", .byteStr, .optional⟩,
     ⟨"reply_to", .byteStr, .optional⟩,
     ⟨"correlation_id", .messageId, .optional⟩,
     ⟨"content_type", .symbol, .optional⟩,
     ⟨"content_encoding", .symbol, .optional⟩,
     ⟨"absolute_expiry_time", .timestamp, .optional⟩,
     ⟨"creation_time", .timestamp, .optional⟩,
     ⟨"group_id", .byteStr, .optional⟩,
     ⟨"group_sequence", .u32, .optional⟩,
     ⟨"reply_to_group_id", .byteStr, .optional⟩] }

/-- `Received`. -/
def compiledReceived : CList :=
  { rust := "Received", code := 35, name := "amqp:received:list", transfer := false
    fields := [⟨"section_number", .u32, .mandatory⟩,
     ⟨"section_offset", .u64, .mandatory⟩] }

/-- `Accepted`. -/
def compiledAccepted : CList :=
  { rust := "Accepted", code := 36, name := "amqp:accepted:list", transfer := false
    fields := [] }

/-- `Rejected`. -/
def compiledRejected : CList :=
  { rust := "Rejected", code := 37, name := "amqp:rejected:list", transfer := false
    fields := [⟨"error", .error, .optional⟩] }

/-- `Released`. -/
def compiledReleased : CList :=
  { rust := "Released", code := 38, name := "amqp:released:list", transfer := false
    fields := [] }

/-- `Modified`. -/
def compiledModified : CList :=
  { rust := "Modified", code := 39, name := "amqp:modified:list", transfer := false
    fields := [⟨"delivery_failed", .bool, .optional⟩,
     ⟨"undeliverable_here", .bool, .optional⟩,
     ⟨"message_annotations", .fields, .optional⟩] }

/-- `DeliveryAnnotations`. -/
def compiledDeliveryAnnotations : CRestricted :=
  { rust := "DeliveryAnnotations", code := 113, name := "amqp:delivery-annotations:map", ty := .annotations }

/-- `MessageAnnotations`. -/
def compiledMessageAnnotations : CRestricted :=
  { rust := "MessageAnnotations", code := 114, name := "amqp:message-annotations:map", ty := .annotations }

/-- `ApplicationProperties`. -/
def compiledApplicationProperties : CRestricted :=
  { rust := "ApplicationProperties", code := 116, name := "amqp:application-properties:map", ty := .stringVariantMap }

/-- `Data`. -/
def compiledData : CRestricted :=
  { rust := "Data", code := 117, name := "amqp:data:binary", ty := .bytes }

/-- `AmqpSequence`. -/
def compiledAmqpSequence : CRestricted :=
  { rust := "AmqpSequence", code := 118, name := "amqp:amqp-sequence:list", ty := .list }

/-- `AmqpValue`. -/
def compiledAmqpValue : CRestricted :=
  { rust := "AmqpValue", code := 119, name := "amqp:amqp-value:*", ty := .variant }

/-- `Footer`. -/
def compiledFooter : CRestricted :=
  { rust := "Footer", code := 120, name := "amqp:footer:map", ty := .annotations }

/-- `Role`. -/
def compiledRole : CEnum :=
  { rust := "Role", ty := .bool, is_symbol := false
    items := [("Sender", "false", 5),
     ("Receiver", "true", 4)] }

/-- `SenderSettleMode`. -/
def compiledSenderSettleMode : CEnum :=
  { rust := "SenderSettleMode", ty := .u8, is_symbol := false
    items := [("Unsettled", "0", 1),
     ("Settled", "1", 1),
     ("Mixed", "2", 1)] }

/-- `ReceiverSettleMode`. -/
def compiledReceiverSettleMode : CEnum :=
  { rust := "ReceiverSettleMode", ty := .u8, is_symbol := false
    items := [("First", "0", 1),
     ("Second", "1", 1)] }

/-- `AmqpError`. -/
def compiledAmqpError : CEnum :=
  { rust := "AmqpError", ty := .symbol, is_symbol := true
    items := [("InternalError", "amqp:internal-error", 19),
     ("NotFound", "amqp:not-found", 14),
     ("UnauthorizedAccess", "amqp:unauthorized-access", 24),
     ("DecodeError", "amqp:decode-error", 17),
     ("ResourceLimitExceeded", "amqp:resource-limit-exceeded", 28),
     ("NotAllowed", "amqp:not-allowed", 16),
     ("InvalidField", "amqp:invalid-field", 18),
     ("NotImplemented", "amqp:not-implemented", 20),
     ("ResourceLocked", "amqp:resource-locked", 20),
     ("PreconditionFailed", "amqp:precondition-failed", 24),
     ("ResourceDeleted", "amqp:resource-deleted", 21),
     ("IllegalState", "amqp:illegal-state", 18),
     ("FrameSizeTooSmall", "amqp:frame-size-too-small", 25)] }

/-- `ConnectionError`. -/
def compiledConnectionError : CEnum :=
  { rust := "ConnectionError", ty := .symbol, is_symbol := true
    items := [("ConnectionForced", "amqp:connection:forced", 22),
     ("FramingError", "amqp:connection:framing-error", 29),
     ("Redirect", "amqp:connection:redirect", 24)] }

/-- `SessionError`. -/
def compiledSessionError : CEnum :=
  { rust := "SessionError", ty := .symbol, is_symbol := true
    items := [("WindowViolation", "amqp:session:window-violation", 29),
     ("ErrantLink", "amqp:session:errant-link", 24),
     ("HandleInUse", "amqp:session:handle-in-use", 26),
     ("UnattachedHandle", "amqp:session:unattached-handle", 30)] }

/-- `LinkError`. -/
def compiledLinkError : CEnum :=
  { rust := "LinkError", ty := .symbol, is_symbol := true
    items := [("DetachForced", "amqp:link:detach-forced", 23),
     ("TransferLimitExceeded", "amqp:link:transfer-limit-exceeded", 33),
     ("MessageSizeExceeded", "amqp:link:message-size-exceeded", 31),
     ("Redirect", "amqp:link:redirect", 18),
     ("Stolen", "amqp:link:stolen", 16)] }

/-- `SaslCode`. -/
def compiledSaslCode : CEnum :=
  { rust := "SaslCode", ty := .u8, is_symbol := false
    items := [("Ok", "0", 1),
     ("Auth", "1", 1),
     ("Sys", "2", 1),
     ("SysPerm", "3", 1),
     ("SysTemp", "4", 1)] }

/-- `TerminusDurability`. -/
def compiledTerminusDurability : CEnum :=
  { rust := "TerminusDurability", ty := .u32, is_symbol := false
    items := [("None", "0", 1),
     ("Configuration", "1", 1),
     ("UnsettledState", "2", 1)] }

/-- `TerminusExpiryPolicy`. -/
def compiledTerminusExpiryPolicy : CEnum :=
  { rust := "TerminusExpiryPolicy", ty := .symbol, is_symbol := true
    items := [("LinkDetach", "link-detach", 11),
     ("SessionEnd", "session-end", 11),
     ("ConnectionClose", "connection-close", 16),
     ("Never", "never", 5)] }

/-- Everything generated. -/
def shipped : Compiled where
  lists := [compiledError, compiledOpen, compiledBegin, compiledAttach, compiledFlow, compiledTransfer,
    compiledDisposition, compiledDetach, compiledEnd, compiledClose, compiledSaslMechanisms,
    compiledSaslInit, compiledSaslChallenge, compiledSaslResponse, compiledSaslOutcome,
    compiledSource, compiledTarget, compiledHeader, compiledProperties, compiledReceived,
    compiledAccepted, compiledRejected, compiledReleased, compiledModified]
  restricted := [compiledDeliveryAnnotations, compiledMessageAnnotations, compiledApplicationProperties,
    compiledData, compiledAmqpSequence, compiledAmqpValue, compiledFooter]
  enums := [compiledRole, compiledSenderSettleMode, compiledReceiverSettleMode, compiledAmqpError,
    compiledConnectionError, compiledSessionError, compiledLinkError, compiledSaslCode,
    compiledTerminusDurability, compiledTerminusExpiryPolicy]
  unions := [("SaslFrameBody",
      [("SaslMechanisms", 64, "amqp:sasl-mechanisms:list"),
       ("SaslInit", 65, "amqp:sasl-init:list"),
       ("SaslChallenge", 66, "amqp:sasl-challenge:list"),
       ("SaslResponse", 67, "amqp:sasl-response:list"),
       ("SaslOutcome", 68, "amqp:sasl-outcome:list")]),
    ("Section",
      [("Header", 112, "amqp:header:list"),
       ("DeliveryAnnotations", 113, "amqp:delivery-annotations:map"),
       ("MessageAnnotations", 114, "amqp:message-annotations:map"),
       ("ApplicationProperties", 116, "amqp:application-properties:map"),
       ("Data", 117, "amqp:data:binary"),
       ("AmqpSequence", 118, "amqp:amqp-sequence:list"),
       ("AmqpValue", 119, "amqp:amqp-value:*"),
       ("Footer", 120, "amqp:footer:map"),
       ("Properties", 115, "amqp:properties:list")]),
    ("DeliveryState",
      [("Received", 35, "amqp:received:list"),
       ("Accepted", 36, "amqp:accepted:list"),
       ("Rejected", 37, "amqp:rejected:list"),
       ("Released", 38, "amqp:released:list"),
       ("Modified", 39, "amqp:modified:list")]),
    ("Outcome",
      [("Accepted", 36, "amqp:accepted:list"),
       ("Rejected", 37, "amqp:rejected:list"),
       ("Released", 38, "amqp:released:list"),
       ("Modified", 39, "amqp:modified:list")])]
  frame := [("Open", 16, "amqp:open:list"),
    ("Begin", 17, "amqp:begin:list"),
    ("Attach", 18, "amqp:attach:list"),
    ("Flow", 19, "amqp:flow:list"),
    ("Transfer", 20, "amqp:transfer:list"),
    ("Disposition", 21, "amqp:disposition:list"),
    ("Detach", 22, "amqp:detach:list"),
    ("End", 23, "amqp:end:list"),
    ("Close", 24, "amqp:close:list")]

set_option maxRecDepth 100000 in
/-- The generator makes this of the shipped specification. -/
theorem generate_specification : generate specification = .ok (some shipped) := by decide +kernel

end Amqp.Codegen
