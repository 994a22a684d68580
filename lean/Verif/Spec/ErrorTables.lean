import Verif.Spec.Errors
import Verif.Protocol.Frame
/-!
# Mandatory fields and enumerations of the protocol types

Generated by `tools/gen_errors.py` from `codegen/specification.json`.
-/
set_option autoImplicit false
namespace Amqp

instance : Faulty MessageId := ⟨[], []⟩
instance : Faulty ErrorCondition := ⟨[], []⟩
instance : Faulty DistributionMode := ⟨[], []⟩
instance : Faulty Role := ⟨[],
  [("Role", .boolean)]⟩
instance : Faulty SenderSettleMode := ⟨[],
  [("SenderSettleMode", .ubyte [0, 1, 2])]⟩
instance : Faulty ReceiverSettleMode := ⟨[],
  [("ReceiverSettleMode", .ubyte [0, 1])]⟩
instance : Faulty AmqpError := ⟨[],
  [("AmqpError", .symbol ["amqp:internal-error", "amqp:not-found", "amqp:unauthorized-access",
     "amqp:decode-error", "amqp:resource-limit-exceeded", "amqp:not-allowed", "amqp:invalid-field",
     "amqp:not-implemented", "amqp:resource-locked", "amqp:precondition-failed",
     "amqp:resource-deleted", "amqp:illegal-state", "amqp:frame-size-too-small"])]⟩
instance : Faulty ConnectionError := ⟨[],
  [("ConnectionError", .symbol ["amqp:connection:forced", "amqp:connection:framing-error",
     "amqp:connection:redirect"])]⟩
instance : Faulty SessionError := ⟨[],
  [("SessionError", .symbol ["amqp:session:window-violation", "amqp:session:errant-link",
     "amqp:session:handle-in-use", "amqp:session:unattached-handle"])]⟩
instance : Faulty LinkError := ⟨[],
  [("LinkError", .symbol ["amqp:link:detach-forced", "amqp:link:transfer-limit-exceeded",
     "amqp:link:message-size-exceeded", "amqp:link:redirect", "amqp:link:stolen"])]⟩
instance : Faulty SaslCode := ⟨[],
  [("SaslCode", .ubyte [0, 1, 2, 3, 4])]⟩
instance : Faulty TerminusDurability := ⟨[],
  [("TerminusDurability", .uint [0, 1, 2])]⟩
instance : Faulty TerminusExpiryPolicy := ⟨[],
  [("TerminusExpiryPolicy", .symbol ["link-detach", "session-end", "connection-close", "never"])]⟩
instance : Faulty Error := ⟨[("condition", 0)],
  []⟩
instance : Faulty Open := ⟨[("container_id", 0)],
  []⟩
instance : Faulty Begin := ⟨[("next_outgoing_id", 1), ("incoming_window", 2), ("outgoing_window", 3)],
  []⟩
instance : Faulty Attach := ⟨[("name", 0), ("handle", 1), ("role", 2), ("condition", 0)],
  [("Role", .boolean),
   ("SenderSettleMode", .ubyte [0, 1, 2]),
   ("ReceiverSettleMode", .ubyte [0, 1]),
   ("TerminusDurability", .uint [0, 1, 2]),
   ("TerminusExpiryPolicy", .symbol ["link-detach", "session-end", "connection-close", "never"])]⟩
instance : Faulty Flow := ⟨[("incoming_window", 1), ("next_outgoing_id", 2), ("outgoing_window", 3)],
  []⟩
instance : Faulty Transfer := ⟨[("handle", 0), ("section_number", 0), ("section_offset", 1), ("condition", 0)],
  [("ReceiverSettleMode", .ubyte [0, 1])]⟩
instance : Faulty TransferPerf := ⟨[("handle", 0), ("section_number", 0), ("section_offset", 1), ("condition", 0)],
  [("ReceiverSettleMode", .ubyte [0, 1])]⟩
instance : Faulty Disposition := ⟨[("role", 0), ("first", 1), ("section_number", 0), ("section_offset", 1), ("condition", 0)],
  [("Role", .boolean)]⟩
instance : Faulty Detach := ⟨[("handle", 0), ("condition", 0)],
  []⟩
instance : Faulty End := ⟨[("condition", 0)],
  []⟩
instance : Faulty Close := ⟨[("condition", 0)],
  []⟩
instance : Faulty SaslMechanisms := ⟨[("sasl_server_mechanisms", 0)],
  []⟩
instance : Faulty SaslInit := ⟨[("mechanism", 0)],
  []⟩
instance : Faulty SaslChallenge := ⟨[("challenge", 0)],
  []⟩
instance : Faulty SaslResponse := ⟨[("response", 0)],
  []⟩
instance : Faulty SaslOutcome := ⟨[("code", 0)],
  [("SaslCode", .ubyte [0, 1, 2, 3, 4])]⟩
instance : Faulty Source := ⟨[("condition", 0)],
  [("TerminusDurability", .uint [0, 1, 2]),
   ("TerminusExpiryPolicy", .symbol ["link-detach", "session-end", "connection-close", "never"])]⟩
instance : Faulty Target := ⟨[],
  [("TerminusDurability", .uint [0, 1, 2]),
   ("TerminusExpiryPolicy", .symbol ["link-detach", "session-end", "connection-close", "never"])]⟩
instance : Faulty Header := ⟨[], []⟩
instance : Faulty Properties := ⟨[], []⟩
instance : Faulty Received := ⟨[("section_number", 0), ("section_offset", 1)],
  []⟩
instance : Faulty Accepted := ⟨[], []⟩
instance : Faulty Rejected := ⟨[("condition", 0)],
  []⟩
instance : Faulty Released := ⟨[], []⟩
instance : Faulty Modified := ⟨[], []⟩
instance : Faulty DeliveryState := ⟨[("section_number", 0), ("section_offset", 1), ("condition", 0)],
  []⟩
instance : Faulty Outcome := ⟨[("condition", 0)],
  []⟩
instance : Faulty SaslFrameBody := ⟨[("sasl_server_mechanisms", 0), ("mechanism", 0), ("challenge", 0), ("response", 0), ("code",
    0)],
  [("SaslCode", .ubyte [0, 1, 2, 3, 4])]⟩
instance : Faulty Section := ⟨[], []⟩
instance : Faulty Frame := ⟨[("container_id", 0), ("next_outgoing_id", 1), ("incoming_window", 2), ("outgoing_window", 3),
    ("name", 0), ("handle", 1), ("role", 2), ("condition", 0), ("incoming_window", 1),
    ("next_outgoing_id", 2), ("handle", 0), ("section_number", 0), ("section_offset", 1), ("role",
    0), ("first", 1)],
  [("Role", .boolean),
   ("SenderSettleMode", .ubyte [0, 1, 2]),
   ("ReceiverSettleMode", .ubyte [0, 1]),
   ("TerminusDurability", .uint [0, 1, 2]),
   ("TerminusExpiryPolicy", .symbol ["link-detach", "session-end", "connection-close", "never"])]⟩

end Amqp
