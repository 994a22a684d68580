import Verif.Proofs.CodegenTypes
/-!
# C73: the shipped protocol types are those generated from the shipped specification

Generated by `tools/gen_shipped.py`.  `specification` is `codegen/specification.json`,
`generate` runs the generator on it; `shipped` is the table of what comes out.  The types of
the model, which follow `src/protocol/definitions.rs`, agree with the generated functions in
what they read, in the sizes they announce and in what they write.
-/
set_option autoImplicit false
namespace Amqp.Codegen

/-- **C73.** The generator accepts the shipped specification, and this is what it makes of
it. -/
theorem C73_generate : generate specification = .ok (some shipped) := generate_specification

/-- **C73.** The list types. -/
theorem C73_lists : shipped.lists.map (·.rust) = ["Error", "Open", "Begin", "Attach", "Flow", "Transfer", "Disposition", "Detach", "End",
    "Close", "SaslMechanisms", "SaslInit", "SaslChallenge", "SaslResponse", "SaslOutcome",
    "Source", "Target", "Header", "Properties", "Received", "Accepted", "Rejected", "Released",
    "Modified"] ∧
    (shipped.HasList "Error" templateError ∧ Generates templateError structError) ∧
    (shipped.HasList "Open" templateOpen ∧ Generates templateOpen structOpen) ∧
    (shipped.HasList "Begin" templateBegin ∧ Generates templateBegin structBegin) ∧
    (shipped.HasList "Attach" templateAttach ∧ Generates templateAttach structAttach) ∧
    (shipped.HasList "Flow" templateFlow ∧ Generates templateFlow structFlow) ∧
    (shipped.HasList "Disposition" templateDisposition ∧ Generates templateDisposition structDisposition) ∧
    (shipped.HasList "Detach" templateDetach ∧ Generates templateDetach structDetach) ∧
    (shipped.HasList "End" templateEnd ∧ Generates templateEnd structEnd) ∧
    (shipped.HasList "Close" templateClose ∧ Generates templateClose structClose) ∧
    (shipped.HasList "SaslMechanisms" templateSaslMechanisms ∧ Generates templateSaslMechanisms structSaslMechanisms) ∧
    (shipped.HasList "SaslInit" templateSaslInit ∧ Generates templateSaslInit structSaslInit) ∧
    (shipped.HasList "SaslChallenge" templateSaslChallenge ∧ Generates templateSaslChallenge structSaslChallenge) ∧
    (shipped.HasList "SaslResponse" templateSaslResponse ∧ Generates templateSaslResponse structSaslResponse) ∧
    (shipped.HasList "SaslOutcome" templateSaslOutcome ∧ Generates templateSaslOutcome structSaslOutcome) ∧
    (shipped.HasList "Source" templateSource ∧ Generates templateSource structSource) ∧
    (shipped.HasList "Target" templateTarget ∧ Generates templateTarget structTarget) ∧
    (shipped.HasList "Header" templateHeader ∧ Generates templateHeader structHeader) ∧
    (shipped.HasList "Properties" templateProperties ∧ Generates templateProperties structProperties) ∧
    (shipped.HasList "Received" templateReceived ∧ Generates templateReceived structReceived) ∧
    (shipped.HasList "Accepted" templateAccepted ∧ Generates templateAccepted structAccepted) ∧
    (shipped.HasList "Rejected" templateRejected ∧ Generates templateRejected structRejected) ∧
    (shipped.HasList "Released" templateReleased ∧ Generates templateReleased structReleased) ∧
    (shipped.HasList "Modified" templateModified ∧ Generates templateModified structModified) :=
  ⟨rfl,
   ⟨⟨compiledError, by simp [shipped], rfl, compiledError_template⟩, generatesError⟩,
   ⟨⟨compiledOpen, by simp [shipped], rfl, compiledOpen_template⟩, generatesOpen⟩,
   ⟨⟨compiledBegin, by simp [shipped], rfl, compiledBegin_template⟩, generatesBegin⟩,
   ⟨⟨compiledAttach, by simp [shipped], rfl, compiledAttach_template⟩, generatesAttach⟩,
   ⟨⟨compiledFlow, by simp [shipped], rfl, compiledFlow_template⟩, generatesFlow⟩,
   ⟨⟨compiledDisposition, by simp [shipped], rfl, compiledDisposition_template⟩, generatesDisposition⟩,
   ⟨⟨compiledDetach, by simp [shipped], rfl, compiledDetach_template⟩, generatesDetach⟩,
   ⟨⟨compiledEnd, by simp [shipped], rfl, compiledEnd_template⟩, generatesEnd⟩,
   ⟨⟨compiledClose, by simp [shipped], rfl, compiledClose_template⟩, generatesClose⟩,
   ⟨⟨compiledSaslMechanisms, by simp [shipped], rfl, compiledSaslMechanisms_template⟩, generatesSaslMechanisms⟩,
   ⟨⟨compiledSaslInit, by simp [shipped], rfl, compiledSaslInit_template⟩, generatesSaslInit⟩,
   ⟨⟨compiledSaslChallenge, by simp [shipped], rfl, compiledSaslChallenge_template⟩, generatesSaslChallenge⟩,
   ⟨⟨compiledSaslResponse, by simp [shipped], rfl, compiledSaslResponse_template⟩, generatesSaslResponse⟩,
   ⟨⟨compiledSaslOutcome, by simp [shipped], rfl, compiledSaslOutcome_template⟩, generatesSaslOutcome⟩,
   ⟨⟨compiledSource, by simp [shipped], rfl, compiledSource_template⟩, generatesSource⟩,
   ⟨⟨compiledTarget, by simp [shipped], rfl, compiledTarget_template⟩, generatesTarget⟩,
   ⟨⟨compiledHeader, by simp [shipped], rfl, compiledHeader_template⟩, generatesHeader⟩,
   ⟨⟨compiledProperties, by simp [shipped], rfl, compiledProperties_template⟩, generatesProperties⟩,
   ⟨⟨compiledReceived, by simp [shipped], rfl, compiledReceived_template⟩, generatesReceived⟩,
   ⟨⟨compiledAccepted, by simp [shipped], rfl, compiledAccepted_template⟩, generatesAccepted⟩,
   ⟨⟨compiledRejected, by simp [shipped], rfl, compiledRejected_template⟩, generatesRejected⟩,
   ⟨⟨compiledReleased, by simp [shipped], rfl, compiledReleased_template⟩, generatesReleased⟩,
   ⟨⟨compiledModified, by simp [shipped], rfl, compiledModified_template⟩, generatesModified⟩⟩

/-- **C73.** The transfer, which has a body. -/
theorem C73_transfer : shipped.HasBody "Transfer" templateTransfer ∧
    GeneratesBody templateTransfer bodyTransfer :=
  ⟨⟨compiledTransfer, by simp [shipped], rfl, rfl, compiledTransfer_template⟩,
   generatesTransferBody⟩

/-- **C73.** The enumerations. -/
theorem C73_enums : shipped.enums.map (·.rust) = ["Role", "SenderSettleMode", "ReceiverSettleMode", "AmqpError", "ConnectionError",
    "SessionError", "LinkError", "SaslCode", "TerminusDurability", "TerminusExpiryPolicy"] ∧
    (shipped.HasEnum "Role" .bool templateRole ∧
      GeneratesEnum templateRole templateRole.size templateRole.enc itemRole) ∧
    (shipped.HasEnum "SenderSettleMode" .u8 templateSenderSettleMode ∧
      GeneratesEnum templateSenderSettleMode templateSenderSettleMode.size templateSenderSettleMode.enc itemSenderSettleMode) ∧
    (shipped.HasEnum "ReceiverSettleMode" .u8 templateReceiverSettleMode ∧
      GeneratesEnum templateReceiverSettleMode templateReceiverSettleMode.size templateReceiverSettleMode.enc itemReceiverSettleMode) ∧
    (shipped.HasSymbols "AmqpError" templateAmqpError ∧
      GeneratesEnum templateAmqpError templateAmqpError.symbolSize templateAmqpError.symbolEnc itemAmqpError) ∧
    (shipped.HasSymbols "ConnectionError" templateConnectionError ∧
      GeneratesEnum templateConnectionError templateConnectionError.symbolSize templateConnectionError.symbolEnc itemConnectionError) ∧
    (shipped.HasSymbols "SessionError" templateSessionError ∧
      GeneratesEnum templateSessionError templateSessionError.symbolSize templateSessionError.symbolEnc itemSessionError) ∧
    (shipped.HasSymbols "LinkError" templateLinkError ∧
      GeneratesEnum templateLinkError templateLinkError.symbolSize templateLinkError.symbolEnc itemLinkError) ∧
    (shipped.HasEnum "SaslCode" .u8 templateSaslCode ∧
      GeneratesEnum templateSaslCode templateSaslCode.size templateSaslCode.enc itemSaslCode) ∧
    (shipped.HasEnum "TerminusDurability" .u32 templateTerminusDurability ∧
      GeneratesEnum templateTerminusDurability templateTerminusDurability.size templateTerminusDurability.enc itemTerminusDurability) ∧
    (shipped.HasSymbols "TerminusExpiryPolicy" templateTerminusExpiryPolicy ∧
      GeneratesEnum templateTerminusExpiryPolicy templateTerminusExpiryPolicy.symbolSize templateTerminusExpiryPolicy.symbolEnc itemTerminusExpiryPolicy) :=
  ⟨rfl,
   ⟨⟨compiledRole, by simp [shipped], rfl, rfl, rfl, rfl, compiledRole_template⟩, generatesRole⟩,
   ⟨⟨compiledSenderSettleMode, by simp [shipped], rfl, rfl, rfl, rfl, compiledSenderSettleMode_template⟩, generatesSenderSettleMode⟩,
   ⟨⟨compiledReceiverSettleMode, by simp [shipped], rfl, rfl, rfl, rfl, compiledReceiverSettleMode_template⟩, generatesReceiverSettleMode⟩,
   ⟨⟨compiledAmqpError, by simp [shipped], rfl, rfl, rfl⟩, generatesAmqpError⟩,
   ⟨⟨compiledConnectionError, by simp [shipped], rfl, rfl, rfl⟩, generatesConnectionError⟩,
   ⟨⟨compiledSessionError, by simp [shipped], rfl, rfl, rfl⟩, generatesSessionError⟩,
   ⟨⟨compiledLinkError, by simp [shipped], rfl, rfl, rfl⟩, generatesLinkError⟩,
   ⟨⟨compiledSaslCode, by simp [shipped], rfl, rfl, rfl, rfl, compiledSaslCode_template⟩, generatesSaslCode⟩,
   ⟨⟨compiledTerminusDurability, by simp [shipped], rfl, rfl, rfl, rfl, compiledTerminusDurability_template⟩, generatesTerminusDurability⟩,
   ⟨⟨compiledTerminusExpiryPolicy, by simp [shipped], rfl, rfl, rfl⟩, generatesTerminusExpiryPolicy⟩⟩

/-- **C73.** The unions; the described types with an underlying type are the options of
`Section` that are not lists. -/
theorem C73_unions : shipped.unions.map Prod.fst = ["SaslFrameBody", "Section", "DeliveryState", "Outcome"] ∧
    shipped.restricted.map (·.rust) = ["DeliveryAnnotations", "MessageAnnotations", "ApplicationProperties", "Data",
    "AmqpSequence", "AmqpValue", "Footer"] ∧
    (shipped.union "SaslFrameBody" = some optionsSaslFrameBody ∧ GeneratesUnion optionsSaslFrameBody caseSaslFrameBody) ∧
    (shipped.union "Section" = some optionsSection ∧ GeneratesUnion optionsSection caseSection) ∧
    (shipped.union "DeliveryState" = some optionsDeliveryState ∧ GeneratesUnion optionsDeliveryState caseDeliveryState) ∧
    (shipped.union "Outcome" = some optionsOutcome ∧ GeneratesUnion optionsOutcome caseOutcome) :=
  ⟨rfl, rfl,
   ⟨shippedSaslFrameBody_options, generatesSaslFrameBody⟩,
   ⟨shippedSection_options, generatesSection⟩,
   ⟨shippedDeliveryState_options, generatesDeliveryState⟩,
   ⟨shippedOutcome_options, generatesOutcome⟩⟩

/-- **C73.** The frame type, which the template spells out, has the options that the
specification declares as frames. -/
theorem C73_frame : shipped.frame.mapM shipped.option = some optionsFrame ∧
    GeneratesFrame optionsFrame caseFrame uncaseFrame :=
  ⟨shippedFrame_options, generatesFrame⟩

/-- A value of a generated type: an `open` with some fields, as the tuple of its fields. -/
example : structOpen ⟨.lit "c", none, 512, 7, some 30, none, none, none, none, none⟩ =
    (RStr.lit "c", none, (512 : UInt32), (7 : UInt16), some (30 : UInt32), none, none, none, none,
      none, ()) := rfl

end Amqp.Codegen
