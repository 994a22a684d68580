import Verif.Codegen.Definitions
/-! Generated by `tools/gen_specification.py`: the document `codegen/specification.json`. -/
set_option autoImplicit false
namespace Amqp.Codegen

/-- `codegen/specification.json:1-1234`. -/
def specification : Json := .arr [
  .obj [("name", .str "role"), ("class", .str "restricted"), ("source", .str "boolean"),
    ("choice", .arr [.obj [("name", .str "sender"), ("value", .str "false")], .obj [("name", .str
    "receiver"), ("value", .str "true")]])],
  .obj [("name", .str "sender-settle-mode"), ("class", .str "restricted"), ("source", .str
    "ubyte"), ("choice", .arr [.obj [("name", .str "unsettled"), ("value", .str "0")], .obj
    [("name", .str "settled"), ("value", .str "1")], .obj [("name", .str "mixed"), ("value", .str
    "2")]])],
  .obj [("name", .str "receiver-settle-mode"), ("class", .str "restricted"), ("source", .str
    "ubyte"), ("choice", .arr [.obj [("name", .str "first"), ("value", .str "0")], .obj [("name",
    .str "second"), ("value", .str "1")]])],
  .obj [("name", .str "handle"), ("class", .str "restricted"), ("source", .str "uint")],
  .obj [("name", .str "seconds"), ("class", .str "restricted"), ("source", .str "uint")],
  .obj [("name", .str "milliseconds"), ("class", .str "restricted"), ("source", .str "uint")],
  .obj [("name", .str "delivery-tag"), ("class", .str "restricted"), ("source", .str "binary")],
  .obj [("name", .str "sequence-no"), ("class", .str "restricted"), ("source", .str "uint")],
  .obj [("name", .str "delivery-number"), ("class", .str "restricted"), ("source", .str
    "sequence-no")],
  .obj [("name", .str "transfer-number"), ("class", .str "restricted"), ("source", .str
    "sequence-no")],
  .obj [("name", .str "message-format"), ("class", .str "restricted"), ("source", .str "uint")],
  .obj [("name", .str "ietf-language-tag"), ("class", .str "restricted"), ("source", .str
    "symbol")],
  .obj [("name", .str "fields"), ("class", .str "restricted"), ("source", .str "map")],
  .obj [("name", .str "error"), ("class", .str "composite"), ("source", .str "list"),
    ("descriptor", .obj [("name", .str "amqp:error:list"), ("code", .str
    "0x00000000:0x0000001d")]), ("field", .arr [.obj [("name", .str "condition"), ("type", .str
    "symbol"), ("requires", .str "error-condition"), ("mandatory", .str "true")], .obj [("name",
    .str "description"), ("type", .str "string")], .obj [("name", .str "info"), ("type", .str
    "fields")]])],
  .obj [("name", .str "amqp-error"), ("class", .str "restricted"), ("source", .str "symbol"),
    ("provides", .str "error-condition"), ("choice", .arr [.obj [("name", .str "internal-error"),
    ("value", .str "amqp:internal-error")], .obj [("name", .str "not-found"), ("value", .str
    "amqp:not-found")], .obj [("name", .str "unauthorized-access"), ("value", .str
    "amqp:unauthorized-access")], .obj [("name", .str "decode-error"), ("value", .str
    "amqp:decode-error")], .obj [("name", .str "resource-limit-exceeded"), ("value", .str
    "amqp:resource-limit-exceeded")], .obj [("name", .str "not-allowed"), ("value", .str
    "amqp:not-allowed")], .obj [("name", .str "invalid-field"), ("value", .str
    "amqp:invalid-field")], .obj [("name", .str "not-implemented"), ("value", .str
    "amqp:not-implemented")], .obj [("name", .str "resource-locked"), ("value", .str
    "amqp:resource-locked")], .obj [("name", .str "precondition-failed"), ("value", .str
    "amqp:precondition-failed")], .obj [("name", .str "resource-deleted"), ("value", .str
    "amqp:resource-deleted")], .obj [("name", .str "illegal-state"), ("value", .str
    "amqp:illegal-state")], .obj [("name", .str "frame-size-too-small"), ("value", .str
    "amqp:frame-size-too-small")]])],
  .obj [("name", .str "connection-error"), ("class", .str "restricted"), ("source", .str
    "symbol"), ("provides", .str "error-condition"), ("choice", .arr [.obj [("name", .str
    "connection-forced"), ("value", .str "amqp:connection:forced")], .obj [("name", .str
    "framing-error"), ("value", .str "amqp:connection:framing-error")], .obj [("name", .str
    "redirect"), ("value", .str "amqp:connection:redirect")]])],
  .obj [("name", .str "session-error"), ("class", .str "restricted"), ("source", .str "symbol"),
    ("provides", .str "error-condition"), ("choice", .arr [.obj [("name", .str
    "window-violation"), ("value", .str "amqp:session:window-violation")], .obj [("name", .str
    "errant-link"), ("value", .str "amqp:session:errant-link")], .obj [("name", .str
    "handle-in-use"), ("value", .str "amqp:session:handle-in-use")], .obj [("name", .str
    "unattached-handle"), ("value", .str "amqp:session:unattached-handle")]])],
  .obj [("name", .str "link-error"), ("class", .str "restricted"), ("source", .str "symbol"),
    ("provides", .str "error-condition"), ("choice", .arr [.obj [("name", .str "detach-forced"),
    ("value", .str "amqp:link:detach-forced")], .obj [("name", .str "transfer-limit-exceeded"),
    ("value", .str "amqp:link:transfer-limit-exceeded")], .obj [("name", .str
    "message-size-exceeded"), ("value", .str "amqp:link:message-size-exceeded")], .obj [("name",
    .str "redirect"), ("value", .str "amqp:link:redirect")], .obj [("name", .str "stolen"),
    ("value", .str "amqp:link:stolen")]])],
  .obj [("name", .str "open"), ("class", .str "composite"), ("source", .str "list"), ("provides",
    .str "frame"), ("descriptor", .obj [("name", .str "amqp:open:list"), ("code", .str
    "0x00000000:0x00000010")]), ("field", .arr [.obj [("name", .str "container-id"), ("type", .str
    "string"), ("mandatory", .str "true")], .obj [("name", .str "hostname"), ("type", .str
    "string")], .obj [("name", .str "max-frame-size"), ("type", .str "uint"), ("default", .str
    "4294967295")], .obj [("name", .str "channel-max"), ("type", .str "ushort"), ("default", .str
    "65535")], .obj [("name", .str "idle-time-out"), ("type", .str "milliseconds")], .obj
    [("name", .str "outgoing-locales"), ("type", .str "ietf-language-tag"), ("multiple", .str
    "true")], .obj [("name", .str "incoming-locales"), ("type", .str "ietf-language-tag"),
    ("multiple", .str "true")], .obj [("name", .str "offered-capabilities"), ("type", .str
    "symbol"), ("multiple", .str "true")], .obj [("name", .str "desired-capabilities"), ("type",
    .str "symbol"), ("multiple", .str "true")], .obj [("name", .str "properties"), ("type", .str
    "fields")]])],
  .obj [("name", .str "begin"), ("class", .str "composite"), ("source", .str "list"), ("provides",
    .str "frame"), ("descriptor", .obj [("name", .str "amqp:begin:list"), ("code", .str
    "0x00000000:0x00000011")]), ("field", .arr [.obj [("name", .str "remote-channel"), ("type",
    .str "ushort")], .obj [("name", .str "next-outgoing-id"), ("type", .str "transfer-number"),
    ("mandatory", .str "true")], .obj [("name", .str "incoming-window"), ("type", .str "uint"),
    ("mandatory", .str "true")], .obj [("name", .str "outgoing-window"), ("type", .str "uint"),
    ("mandatory", .str "true")], .obj [("name", .str "handle-max"), ("type", .str "handle"),
    ("default", .str "4294967295")], .obj [("name", .str "offered-capabilities"), ("type", .str
    "symbol"), ("multiple", .str "true")], .obj [("name", .str "desired-capabilities"), ("type",
    .str "symbol"), ("multiple", .str "true")], .obj [("name", .str "properties"), ("type", .str
    "fields")]])],
  .obj [("name", .str "attach"), ("class", .str "composite"), ("source", .str "list"),
    ("provides", .str "frame"), ("descriptor", .obj [("name", .str "amqp:attach:list"), ("code",
    .str "0x00000000:0x00000012")]), ("field", .arr [.obj [("name", .str "name"), ("type", .str
    "string"), ("mandatory", .str "true")], .obj [("name", .str "handle"), ("type", .str
    "handle"), ("mandatory", .str "true")], .obj [("name", .str "role"), ("type", .str "role"),
    ("mandatory", .str "true")], .obj [("name", .str "snd-settle-mode"), ("type", .str
    "sender-settle-mode"), ("default", .str "mixed")], .obj [("name", .str "rcv-settle-mode"),
    ("type", .str "receiver-settle-mode"), ("default", .str "first")], .obj [("name", .str
    "source"), ("type", .str "*"), ("requires", .str "source")], .obj [("name", .str "target"),
    ("type", .str "*"), ("requires", .str "target")], .obj [("name", .str "unsettled"), ("type",
    .str "map")], .obj [("name", .str "incomplete-unsettled"), ("type", .str "boolean"),
    ("default", .str "false")], .obj [("name", .str "initial-delivery-count"), ("type", .str
    "sequence-no")], .obj [("name", .str "max-message-size"), ("type", .str "ulong")], .obj
    [("name", .str "offered-capabilities"), ("type", .str "symbol"), ("multiple", .str "true")],
    .obj [("name", .str "desired-capabilities"), ("type", .str "symbol"), ("multiple", .str
    "true")], .obj [("name", .str "properties"), ("type", .str "fields")]])],
  .obj [("name", .str "flow"), ("class", .str "composite"), ("source", .str "list"), ("provides",
    .str "frame"), ("descriptor", .obj [("name", .str "amqp:flow:list"), ("code", .str
    "0x00000000:0x00000013")]), ("field", .arr [.obj [("name", .str "next-incoming-id"), ("type",
    .str "transfer-number")], .obj [("name", .str "incoming-window"), ("type", .str "uint"),
    ("mandatory", .str "true")], .obj [("name", .str "next-outgoing-id"), ("type", .str
    "transfer-number"), ("mandatory", .str "true")], .obj [("name", .str "outgoing-window"),
    ("type", .str "uint"), ("mandatory", .str "true")], .obj [("name", .str "handle"), ("type",
    .str "handle")], .obj [("name", .str "delivery-count"), ("type", .str "sequence-no")], .obj
    [("name", .str "link-credit"), ("type", .str "uint")], .obj [("name", .str "available"),
    ("type", .str "uint")], .obj [("name", .str "drain"), ("type", .str "boolean"), ("default",
    .str "false")], .obj [("name", .str "echo"), ("type", .str "boolean"), ("default", .str
    "false")], .obj [("name", .str "properties"), ("type", .str "fields")]])],
  .obj [("name", .str "transfer"), ("class", .str "composite"), ("source", .str "list"),
    ("provides", .str "frame"), ("descriptor", .obj [("name", .str "amqp:transfer:list"), ("code",
    .str "0x00000000:0x00000014")]), ("field", .arr [.obj [("name", .str "handle"), ("type", .str
    "handle"), ("mandatory", .str "true")], .obj [("name", .str "delivery-id"), ("type", .str
    "delivery-number")], .obj [("name", .str "delivery-tag"), ("type", .str "delivery-tag")], .obj
    [("name", .str "message-format"), ("type", .str "message-format")], .obj [("name", .str
    "settled"), ("type", .str "boolean")], .obj [("name", .str "more"), ("type", .str "boolean"),
    ("default", .str "false")], .obj [("name", .str "rcv-settle-mode"), ("type", .str
    "receiver-settle-mode")], .obj [("name", .str "state"), ("type", .str "*"), ("requires", .str
    "delivery-state")], .obj [("name", .str "resume"), ("type", .str "boolean"), ("default", .str
    "false")], .obj [("name", .str "aborted"), ("type", .str "boolean"), ("default", .str
    "false")], .obj [("name", .str "batchable"), ("type", .str "boolean"), ("default", .str
    "false")]])],
  .obj [("name", .str "disposition"), ("class", .str "composite"), ("source", .str "list"),
    ("provides", .str "frame"), ("descriptor", .obj [("name", .str "amqp:disposition:list"),
    ("code", .str "0x00000000:0x00000015")]), ("field", .arr [.obj [("name", .str "role"),
    ("type", .str "role"), ("mandatory", .str "true")], .obj [("name", .str "first"), ("type",
    .str "delivery-number"), ("mandatory", .str "true")], .obj [("name", .str "last"), ("type",
    .str "delivery-number")], .obj [("name", .str "settled"), ("type", .str "boolean"),
    ("default", .str "false")], .obj [("name", .str "state"), ("type", .str "*"), ("requires",
    .str "delivery-state")], .obj [("name", .str "batchable"), ("type", .str "boolean"),
    ("default", .str "false")]])],
  .obj [("name", .str "detach"), ("class", .str "composite"), ("source", .str "list"),
    ("provides", .str "frame"), ("descriptor", .obj [("name", .str "amqp:detach:list"), ("code",
    .str "0x00000000:0x00000016")]), ("field", .arr [.obj [("name", .str "handle"), ("type", .str
    "handle"), ("mandatory", .str "true")], .obj [("name", .str "closed"), ("type", .str
    "boolean"), ("default", .str "false")], .obj [("name", .str "error"), ("type", .str
    "error")]])],
  .obj [("name", .str "end"), ("class", .str "composite"), ("source", .str "list"), ("provides",
    .str "frame"), ("descriptor", .obj [("name", .str "amqp:end:list"), ("code", .str
    "0x00000000:0x00000017")]), ("field", .arr [.obj [("name", .str "error"), ("type", .str
    "error")]])],
  .obj [("name", .str "close"), ("class", .str "composite"), ("source", .str "list"), ("provides",
    .str "frame"), ("descriptor", .obj [("name", .str "amqp:close:list"), ("code", .str
    "0x00000000:0x00000018")]), ("field", .arr [.obj [("name", .str "error"), ("type", .str
    "error")]])],
  .obj [("name", .str "sasl-code"), ("class", .str "restricted"), ("source", .str "ubyte"),
    ("choice", .arr [.obj [("name", .str "ok"), ("value", .str "0")], .obj [("name", .str "auth"),
    ("value", .str "1")], .obj [("name", .str "sys"), ("value", .str "2")], .obj [("name", .str
    "sys-perm"), ("value", .str "3")], .obj [("name", .str "sys-temp"), ("value", .str "4")]])],
  .obj [("name", .str "sasl-mechanisms"), ("class", .str "composite"), ("source", .str "list"),
    ("provides", .str "sasl-frame-body"), ("descriptor", .obj [("name", .str
    "amqp:sasl-mechanisms:list"), ("code", .str "0x00000000:0x00000040")]), ("field", .arr [.obj
    [("name", .str "sasl-server-mechanisms"), ("type", .str "symbol"), ("multiple", .str "true"),
    ("mandatory", .str "true")]])],
  .obj [("name", .str "sasl-init"), ("class", .str "composite"), ("source", .str "list"),
    ("provides", .str "sasl-frame-body"), ("descriptor", .obj [("name", .str
    "amqp:sasl-init:list"), ("code", .str "0x00000000:0x00000041")]), ("field", .arr [.obj
    [("name", .str "mechanism"), ("type", .str "symbol"), ("mandatory", .str "true")], .obj
    [("name", .str "initial-response"), ("type", .str "binary")], .obj [("name", .str "hostname"),
    ("type", .str "string")]])],
  .obj [("name", .str "sasl-challenge"), ("class", .str "composite"), ("source", .str "list"),
    ("provides", .str "sasl-frame-body"), ("descriptor", .obj [("name", .str
    "amqp:sasl-challenge:list"), ("code", .str "0x00000000:0x00000042")]), ("field", .arr [.obj
    [("name", .str "challenge"), ("type", .str "binary"), ("mandatory", .str "true")]])],
  .obj [("name", .str "sasl-response"), ("class", .str "composite"), ("source", .str "list"),
    ("provides", .str "sasl-frame-body"), ("descriptor", .obj [("name", .str
    "amqp:sasl-response:list"), ("code", .str "0x00000000:0x00000043")]), ("field", .arr [.obj
    [("name", .str "response"), ("type", .str "binary"), ("mandatory", .str "true")]])],
  .obj [("name", .str "sasl-outcome"), ("class", .str "composite"), ("source", .str "list"),
    ("provides", .str "sasl-frame-body"), ("descriptor", .obj [("name", .str
    "amqp:sasl-outcome:list"), ("code", .str "0x00000000:0x00000044")]), ("field", .arr [.obj
    [("name", .str "code"), ("type", .str "sasl-code"), ("mandatory", .str "true")], .obj
    [("name", .str "additional-data"), ("type", .str "binary")]])],
  .obj [("name", .str "terminus-durability"), ("class", .str "restricted"), ("source", .str
    "uint"), ("choice", .arr [.obj [("name", .str "none"), ("value", .str "0")], .obj [("name",
    .str "configuration"), ("value", .str "1")], .obj [("name", .str "unsettled-state"), ("value",
    .str "2")]])],
  .obj [("name", .str "terminus-expiry-policy"), ("class", .str "restricted"), ("source", .str
    "symbol"), ("choice", .arr [.obj [("name", .str "link-detach"), ("value", .str
    "link-detach")], .obj [("name", .str "session-end"), ("value", .str "session-end")], .obj
    [("name", .str "connection-close"), ("value", .str "connection-close")], .obj [("name", .str
    "never"), ("value", .str "never")]])],
  .obj [("name", .str "node-properties"), ("class", .str "restricted"), ("source", .str "fields")],
  .obj [("name", .str "filter-set"), ("class", .str "restricted"), ("source", .str "map")],
  .obj [("name", .str "source"), ("class", .str "composite"), ("source", .str "list"),
    ("provides", .str "source"), ("descriptor", .obj [("name", .str "amqp:source:list"), ("code",
    .str "0x00000000:0x00000028")]), ("field", .arr [.obj [("name", .str "address"), ("type", .str
    "*"), ("requires", .str "address")], .obj [("name", .str "durable"), ("type", .str
    "terminus-durability"), ("default", .str "none")], .obj [("name", .str "expiry-policy"),
    ("type", .str "terminus-expiry-policy"), ("default", .str "session-end")], .obj [("name", .str
    "timeout"), ("type", .str "seconds"), ("default", .str "0")], .obj [("name", .str "dynamic"),
    ("type", .str "boolean"), ("default", .str "false")], .obj [("name", .str
    "dynamic-node-properties"), ("type", .str "node-properties")], .obj [("name", .str
    "distribution-mode"), ("type", .str "symbol"), ("requires", .str "distribution-mode")], .obj
    [("name", .str "filter"), ("type", .str "filter-set")], .obj [("name", .str
    "default-outcome"), ("type", .str "*"), ("requires", .str "outcome")], .obj [("name", .str
    "outcomes"), ("type", .str "symbol"), ("multiple", .str "true")], .obj [("name", .str
    "capabilities"), ("type", .str "symbol"), ("multiple", .str "true")]])],
  .obj [("name", .str "target"), ("class", .str "composite"), ("source", .str "list"),
    ("provides", .str "target"), ("descriptor", .obj [("name", .str "amqp:target:list"), ("code",
    .str "0x00000000:0x00000029")]), ("field", .arr [.obj [("name", .str "address"), ("type", .str
    "*"), ("requires", .str "address")], .obj [("name", .str "durable"), ("type", .str
    "terminus-durability"), ("default", .str "none")], .obj [("name", .str "expiry-policy"),
    ("type", .str "terminus-expiry-policy"), ("default", .str "session-end")], .obj [("name", .str
    "timeout"), ("type", .str "seconds"), ("default", .str "0")], .obj [("name", .str "dynamic"),
    ("type", .str "boolean"), ("default", .str "false")], .obj [("name", .str
    "dynamic-node-properties"), ("type", .str "node-properties")], .obj [("name", .str
    "capabilities"), ("type", .str "symbol"), ("multiple", .str "true")]])],
  .obj [("name", .str "annotations"), ("class", .str "restricted"), ("source", .str "map")],
  .obj [("name", .str "message-id-ulong"), ("class", .str "restricted"), ("source", .str "ulong"),
    ("provides", .str "message-id")],
  .obj [("name", .str "message-id-uuid"), ("class", .str "restricted"), ("source", .str "uuid"),
    ("provides", .str "message-id")],
  .obj [("name", .str "message-id-binary"), ("class", .str "restricted"), ("source", .str
    "binary"), ("provides", .str "message-id")],
  .obj [("name", .str "message-id-string"), ("class", .str "restricted"), ("source", .str
    "string"), ("provides", .str "message-id")],
  .obj [("name", .str "address"), ("class", .str "restricted"), ("source", .str "string"),
    ("provides", .str "address")],
  .obj [("name", .str "header"), ("class", .str "composite"), ("source", .str "list"),
    ("provides", .str "section"), ("descriptor", .obj [("name", .str "amqp:header:list"), ("code",
    .str "0x00000000:0x00000070")]), ("field", .arr [.obj [("name", .str "durable"), ("type", .str
    "boolean"), ("default", .str "false")], .obj [("name", .str "priority"), ("type", .str
    "ubyte"), ("default", .str "4")], .obj [("name", .str "ttl"), ("type", .str "milliseconds")],
    .obj [("name", .str "first-acquirer"), ("type", .str "boolean"), ("default", .str "false")],
    .obj [("name", .str "delivery-count"), ("type", .str "uint"), ("default", .str "0")]])],
  .obj [("name", .str "delivery-annotations"), ("class", .str "restricted"), ("source", .str
    "annotations"), ("provides", .str "section"), ("descriptor", .obj [("name", .str
    "amqp:delivery-annotations:map"), ("code", .str "0x00000000:0x00000071")])],
  .obj [("name", .str "message-annotations"), ("class", .str "restricted"), ("source", .str
    "annotations"), ("provides", .str "section"), ("descriptor", .obj [("name", .str
    "amqp:message-annotations:map"), ("code", .str "0x00000000:0x00000072")])],
  .obj [("name", .str "application-properties"), ("class", .str "restricted"), ("source", .str
    "string-variant-map"), ("provides", .str "section"), ("descriptor", .obj [("name", .str
    "amqp:application-properties:map"), ("code", .str "0x00000000:0x00000074")])],
  .obj [("name", .str "data"), ("class", .str "restricted"), ("source", .str "binary"),
    ("provides", .str "section"), ("descriptor", .obj [("name", .str "amqp:data:binary"), ("code",
    .str "0x00000000:0x00000075")])],
  .obj [("name", .str "amqp-sequence"), ("class", .str "restricted"), ("source", .str "list"),
    ("provides", .str "section"), ("descriptor", .obj [("name", .str "amqp:amqp-sequence:list"),
    ("code", .str "0x00000000:0x00000076")])],
  .obj [("name", .str "amqp-value"), ("class", .str "restricted"), ("source", .str "*"),
    ("provides", .str "section"), ("descriptor", .obj [("name", .str "amqp:amqp-value:*"),
    ("code", .str "0x00000000:0x00000077")])],
  .obj [("name", .str "footer"), ("class", .str "restricted"), ("source", .str "annotations"),
    ("provides", .str "section"), ("descriptor", .obj [("name", .str "amqp:footer:map"), ("code",
    .str "0x00000000:0x00000078")])],
  .obj [("name", .str "properties"), ("class", .str "composite"), ("source", .str "list"),
    ("provides", .str "section"), ("descriptor", .obj [("name", .str "amqp:properties:list"),
    ("code", .str "0x00000000:0x00000073")]), ("field", .arr [.obj [("name", .str "message-id"),
    ("type", .str "*"), ("requires", .str "message-id")], .obj [("name", .str "user-id"), ("type",
    .str "binary")], .obj [("name", .str "to"), ("type", .str "*"), ("requires", .str "address")],
    .obj [("name", .str "subject"), ("type", .str "string")], .obj [("name", .str "reply-to"),
    ("type", .str "*"), ("requires", .str "address")], .obj [("name", .str "correlation-id"),
    ("type", .str "*"), ("requires", .str "message-id")], .obj [("name", .str "content-type"),
    ("type", .str "symbol")], .obj [("name", .str "content-encoding"), ("type", .str "symbol")],
    .obj [("name", .str "absolute-expiry-time"), ("type", .str "timestamp")], .obj [("name", .str
    "creation-time"), ("type", .str "timestamp")], .obj [("name", .str "group-id"), ("type", .str
    "string")], .obj [("name", .str "group-sequence"), ("type", .str "sequence-no")], .obj
    [("name", .str "reply-to-group-id"), ("type", .str "string")]])],
  .obj [("name", .str "received"), ("class", .str "composite"), ("source", .str "list"),
    ("provides", .str "delivery-state"), ("descriptor", .obj [("name", .str "amqp:received:list"),
    ("code", .str "0x00000000:0x00000023")]), ("field", .arr [.obj [("name", .str
    "section-number"), ("type", .str "uint"), ("mandatory", .str "true")], .obj [("name", .str
    "section-offset"), ("type", .str "ulong"), ("mandatory", .str "true")]])],
  .obj [("name", .str "accepted"), ("class", .str "composite"), ("source", .str "list"),
    ("provides", .str "delivery-state, outcome"), ("descriptor", .obj [("name", .str
    "amqp:accepted:list"), ("code", .str "0x00000000:0x00000024")])],
  .obj [("name", .str "rejected"), ("class", .str "composite"), ("source", .str "list"),
    ("provides", .str "delivery-state, outcome"), ("descriptor", .obj [("name", .str
    "amqp:rejected:list"), ("code", .str "0x00000000:0x00000025")]), ("field", .arr [.obj
    [("name", .str "error"), ("type", .str "error")]])],
  .obj [("name", .str "released"), ("class", .str "composite"), ("source", .str "list"),
    ("provides", .str "delivery-state, outcome"), ("descriptor", .obj [("name", .str
    "amqp:released:list"), ("code", .str "0x00000000:0x00000026")])],
  .obj [("name", .str "modified"), ("class", .str "composite"), ("source", .str "list"),
    ("provides", .str "delivery-state, outcome"), ("descriptor", .obj [("name", .str
    "amqp:modified:list"), ("code", .str "0x00000000:0x00000027")]), ("field", .arr [.obj
    [("name", .str "delivery-failed"), ("type", .str "boolean")], .obj [("name", .str
    "undeliverable-here"), ("type", .str "boolean")], .obj [("name", .str "message-annotations"),
    ("type", .str "fields")]])]]

end Amqp.Codegen
