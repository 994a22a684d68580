import Verif.Codec.Writes
import Verif.Framing
/-!
# The calls encoders make on the buffer: protocol types, messages, frames

As in `Codec/Writes`.
-/
set_option autoImplicit false
namespace Amqp

/-- The enumerations, `src/protocol/definitions.rs:440-971`, and the types that fall
back to a symbol, `src/protocol/mod.rs:99-186`. -/
instance : EncodeW Role := putsOnly _
instance : EncodeW SenderSettleMode := putsOnly _
instance : EncodeW ReceiverSettleMode := putsOnly _
instance : EncodeW AmqpError := putsOnly _
instance : EncodeW ConnectionError := putsOnly _
instance : EncodeW SessionError := putsOnly _
instance : EncodeW LinkError := putsOnly _
instance : EncodeW SaslCode := putsOnly _
instance : EncodeW TerminusDurability := putsOnly _
instance : EncodeW TerminusExpiryPolicy := putsOnly _
instance : EncodeW ErrorCondition := putsOnly _
instance : EncodeW DistributionMode := putsOnly _

/-- `src/protocol/mod.rs:80-97`. -/
instance : EncodeW MessageId where
  writes
    | .Ulong v => writes v
    | .Uuid v => writes v
    | .Binary v => writes v
    | .String v => writes v
  output
    | .Ulong v => EncodeW.output v
    | .Uuid v => EncodeW.output v
    | .Binary v => EncodeW.output v
    | .String v => EncodeW.output v

/-- A section: the descriptor, then the value; e.g. `src/protocol/definitions.rs:985-988`,
`src/message/body.rs:60-63`. -/
def sectionWrites {α : Type} [Encode α] [EncodeW α] (code : UInt64) (v : α) : List Write :=
  writes (Descriptor.ulong code) ++ writes v

-- generated from Protocol/Lists.lean by tools/gen_writes.py

/-- `src/protocol/definitions.rs:1142-1161`. -/
instance : EncodeW Error where
  writes v := .put (listHdr 29 (size v.condition + size v.description + size v.info) 3) :: (writes v.condition ++ writes v.description ++ writes v.info)
  output v := by simp [enc]

/-- `src/protocol/definitions.rs:4301-4316`. -/
instance : EncodeW Received where
  writes v := .put (listHdr 35 (size v.section_number + size v.section_offset) 2) :: (writes v.section_number ++ writes v.section_offset)
  output v := by simp [enc]

/-- `src/protocol/definitions.rs:4365-4378`. -/
instance : EncodeW Accepted where
  writes _ := .put (listHdr 36 (0) 0) :: []
  output v := by simp [enc]

/-- `src/protocol/definitions.rs:4442-4456`. -/
instance : EncodeW Rejected where
  writes v := .put (listHdr 37 (size v.error) 1) :: (writes v.error)
  output v := by simp [enc]

/-- `src/protocol/definitions.rs:4505-4518`. -/
instance : EncodeW Released where
  writes _ := .put (listHdr 38 (0) 0) :: []
  output v := by simp [enc]

/-- `src/protocol/definitions.rs:4618-4637`. -/
instance : EncodeW Modified where
  writes v := .put (listHdr 39 (size v.delivery_failed + size v.undeliverable_here + size v.message_annotations) 3) :: (writes v.delivery_failed ++ writes v.undeliverable_here ++ writes v.message_annotations)
  output v := by simp [enc]

/-- `src/protocol/definitions.rs:177-196`. -/
instance : EncodeW DeliveryState where
  writes
    | .Received v => writes v
    | .Accepted v => writes v
    | .Rejected v => writes v
    | .Released v => writes v
    | .Modified v => writes v
  output
    | .Received v => by simp [enc]
    | .Accepted v => by simp [enc]
    | .Rejected v => by simp [enc]
    | .Released v => by simp [enc]
    | .Modified v => by simp [enc]

/-- `src/protocol/definitions.rs:304-321`. -/
instance : EncodeW Outcome where
  writes
    | .Accepted v => writes v
    | .Rejected v => writes v
    | .Released v => writes v
    | .Modified v => writes v
  output
    | .Accepted v => by simp [enc]
    | .Rejected v => by simp [enc]
    | .Released v => by simp [enc]
    | .Modified v => by simp [enc]

/-- `src/protocol/definitions.rs:3554-3589`. -/
instance : EncodeW Source where
  writes v := .put (listHdr 40 (size v.address + size v.durable + size v.expiry_policy + size v.timeout + size v.dynamic + size v.dynamic_node_properties + size v.distribution_mode + size v.filter + size v.default_outcome + size v.outcomes + size v.capabilities) 11) :: (writes v.address ++ writes v.durable ++ writes v.expiry_policy ++ writes v.timeout ++ writes v.dynamic ++ writes v.dynamic_node_properties ++ writes v.distribution_mode ++ writes v.filter ++ writes v.default_outcome ++ writes v.outcomes ++ writes v.capabilities)
  output v := by simp [enc]

/-- `src/protocol/definitions.rs:3749-3776`. -/
instance : EncodeW Target where
  writes v := .put (listHdr 41 (size v.address + size v.durable + size v.expiry_policy + size v.timeout + size v.dynamic + size v.dynamic_node_properties + size v.capabilities) 7) :: (writes v.address ++ writes v.durable ++ writes v.expiry_policy ++ writes v.timeout ++ writes v.dynamic ++ writes v.dynamic_node_properties ++ writes v.capabilities)
  output v := by simp [enc]

/-- `src/protocol/definitions.rs:1366-1399`. -/
instance : EncodeW Open where
  writes v := .put (listHdr 16 (size v.container_id + size v.hostname + size v.max_frame_size + size v.channel_max + size v.idle_time_out + size v.outgoing_locales + size v.incoming_locales + size v.offered_capabilities + size v.desired_capabilities + size v.properties) 10) :: (writes v.container_id ++ writes v.hostname ++ writes v.max_frame_size ++ writes v.channel_max ++ writes v.idle_time_out ++ writes v.outgoing_locales ++ writes v.incoming_locales ++ writes v.offered_capabilities ++ writes v.desired_capabilities ++ writes v.properties)
  output v := by simp [enc]

/-- `src/protocol/definitions.rs:1574-1603`. -/
instance : EncodeW Begin where
  writes v := .put (listHdr 17 (size v.remote_channel + size v.next_outgoing_id + size v.incoming_window + size v.outgoing_window + size v.handle_max + size v.offered_capabilities + size v.desired_capabilities + size v.properties) 8) :: (writes v.remote_channel ++ writes v.next_outgoing_id ++ writes v.incoming_window ++ writes v.outgoing_window ++ writes v.handle_max ++ writes v.offered_capabilities ++ writes v.desired_capabilities ++ writes v.properties)
  output v := by simp [enc]

/-- `src/protocol/definitions.rs:1868-1909`. -/
instance : EncodeW Attach where
  writes v := .put (listHdr 18 (size v.name + size v.handle + size v.role + size v.snd_settle_mode + size v.rcv_settle_mode + size v.source + size v.target + size v.unsettled + size v.incomplete_unsettled + size v.initial_delivery_count + size v.max_message_size + size v.offered_capabilities + size v.desired_capabilities + size v.properties) 14) :: (writes v.name ++ writes v.handle ++ writes v.role ++ writes v.snd_settle_mode ++ writes v.rcv_settle_mode ++ writes v.source ++ writes v.target ++ writes v.unsettled ++ writes v.incomplete_unsettled ++ writes v.initial_delivery_count ++ writes v.max_message_size ++ writes v.offered_capabilities ++ writes v.desired_capabilities ++ writes v.properties)
  output v := by simp [enc]

/-- `src/protocol/definitions.rs:2129-2164`. -/
instance : EncodeW Flow where
  writes v := .put (listHdr 19 (size v.next_incoming_id + size v.incoming_window + size v.next_outgoing_id + size v.outgoing_window + size v.handle + size v.delivery_count + size v.link_credit + size v.available + size v.drain + size v.echo + size v.properties) 11) :: (writes v.next_incoming_id ++ writes v.incoming_window ++ writes v.next_outgoing_id ++ writes v.outgoing_window ++ writes v.handle ++ writes v.delivery_count ++ writes v.link_credit ++ writes v.available ++ writes v.drain ++ writes v.echo ++ writes v.properties)
  output v := by simp [enc]

/-- `src/protocol/definitions.rs:2580-2605`. -/
instance : EncodeW Disposition where
  writes v := .put (listHdr 21 (size v.role + size v.first + size v.last + size v.settled + size v.state + size v.batchable) 6) :: (writes v.role ++ writes v.first ++ writes v.last ++ writes v.settled ++ writes v.state ++ writes v.batchable)
  output v := by simp [enc]

/-- `src/protocol/definitions.rs:2703-2720`. -/
instance : EncodeW Detach where
  writes v := .put (listHdr 22 (size v.handle + size v.closed + size v.error) 3) :: (writes v.handle ++ writes v.closed ++ writes v.error)
  output v := by simp [enc]

/-- `src/protocol/definitions.rs:2784-2798`. -/
instance : EncodeW End where
  writes v := .put (listHdr 23 (size v.error) 1) :: (writes v.error)
  output v := by simp [enc]

/-- `src/protocol/definitions.rs:2862-2876`. -/
instance : EncodeW Close where
  writes v := .put (listHdr 24 (size v.error) 1) :: (writes v.error)
  output v := by simp [enc]

/-- `src/protocol/definitions.rs:2397-2435`. -/
instance : EncodeW TransferPerf where
  writes v := .put (listHdr 20 (size v.handle + size v.delivery_id + size v.delivery_tag + size v.message_format + size v.settled + size v.more + size v.rcv_settle_mode + size v.state + size v.resume + size v.aborted + size v.batchable) 11) :: (writes v.handle ++ writes v.delivery_id ++ writes v.delivery_tag ++ writes v.message_format ++ writes v.settled ++ writes v.more ++ writes v.rcv_settle_mode ++ writes v.state ++ writes v.resume ++ writes v.aborted ++ writes v.batchable)
  output v := by simp [enc]

/-- `src/protocol/definitions.rs:2947-2961`. -/
instance : EncodeW SaslMechanisms where
  writes v := .put (listHdr 64 (size v.sasl_server_mechanisms) 1) :: (writes v.sasl_server_mechanisms)
  output v := by simp [enc]

/-- `src/protocol/definitions.rs:3061-3080`. -/
instance : EncodeW SaslInit where
  writes v := .put (listHdr 65 (size v.mechanism + size v.initial_response + size v.hostname) 3) :: (writes v.mechanism ++ writes v.initial_response ++ writes v.hostname)
  output v := by simp [enc]

/-- `src/protocol/definitions.rs:3144-3158`. -/
instance : EncodeW SaslChallenge where
  writes v := .put (listHdr 66 (size v.challenge) 1) :: (writes v.challenge)
  output v := by simp [enc]

/-- `src/protocol/definitions.rs:3222-3236`. -/
instance : EncodeW SaslResponse where
  writes v := .put (listHdr 67 (size v.response) 1) :: (writes v.response)
  output v := by simp [enc]

/-- `src/protocol/definitions.rs:3319-3334`. -/
instance : EncodeW SaslOutcome where
  writes v := .put (listHdr 68 (size v.code + size v.additional_data) 2) :: (writes v.code ++ writes v.additional_data)
  output v := by simp [enc]

/-- `src/protocol/definitions.rs:244-263`. -/
instance : EncodeW SaslFrameBody where
  writes
    | .SaslMechanisms v => writes v
    | .SaslInit v => writes v
    | .SaslChallenge v => writes v
    | .SaslResponse v => writes v
    | .SaslOutcome v => writes v
  output
    | .SaslMechanisms v => by simp [enc]
    | .SaslInit v => by simp [enc]
    | .SaslChallenge v => by simp [enc]
    | .SaslResponse v => by simp [enc]
    | .SaslOutcome v => by simp [enc]

/-- `src/protocol/definitions.rs:3906-3929`. -/
instance : EncodeW Header where
  writes v := .put (listHdr 112 (size v.durable + size v.priority + size v.ttl + size v.first_acquirer + size v.delivery_count) 5) :: (writes v.durable ++ writes v.priority ++ writes v.ttl ++ writes v.first_acquirer ++ writes v.delivery_count)
  output v := by simp [enc]

/-- `src/protocol/definitions.rs:4179-4218`. -/
instance : EncodeW Properties where
  writes v := .put (listHdr 115 (size v.message_id + size v.user_id + size v.to + size v.subject + size v.reply_to + size v.correlation_id + size v.content_type + size v.content_encoding + size v.absolute_expiry_time + size v.creation_time + size v.group_id + size v.group_sequence + size v.reply_to_group_id) 13) :: (writes v.message_id ++ writes v.user_id ++ writes v.to ++ writes v.subject ++ writes v.reply_to ++ writes v.correlation_id ++ writes v.content_type ++ writes v.content_encoding ++ writes v.absolute_expiry_time ++ writes v.creation_time ++ writes v.group_id ++ writes v.group_sequence ++ writes v.reply_to_group_id)
  output v := by simp [enc]

/-- `src/protocol/definitions.rs:395-422`. -/
instance : EncodeW Section where
  writes
    | .Header v => writes v
    | .DeliveryAnnotations v => sectionWrites 113 v
    | .MessageAnnotations v => sectionWrites 114 v
    | .ApplicationProperties v => sectionWrites 116 v
    | .Data v => sectionWrites 117 v
    | .AmqpSequence v => sectionWrites 118 v
    | .AmqpValue v => sectionWrites 119 v
    | .Footer v => sectionWrites 120 v
    | .Properties v => writes v
  output
    | .Header v => by simp [enc]
    | .DeliveryAnnotations v => by simp [enc, sectionWrites, DeliveryAnnotations.innerEnc]
    | .MessageAnnotations v => by simp [enc, sectionWrites, MessageAnnotations.innerEnc]
    | .ApplicationProperties v => by simp [enc, sectionWrites, ApplicationProperties.innerEnc]
    | .Data v => by simp [enc, sectionWrites, Data.innerEnc]
    | .AmqpSequence v => by simp [enc, sectionWrites, AmqpSequence.innerEnc]
    | .AmqpValue v => by simp [enc, sectionWrites, AmqpValue.innerEnc]
    | .Footer v => by simp [enc, sectionWrites, Footer.innerEnc]
    | .Properties v => by simp [enc]

-- end of the generated part

@[simp] theorem sectionWrites_output {α : Type} [Encode α] [EncodeW α] (code : UInt64) (v : α) :
    outputOf (sectionWrites code v) = sectionEnc code v := by
  simp [sectionWrites, sectionEnc]

/-! ## Messages -/

/-- The sections before the body, `src/message/inmessage.rs:240-258`. -/
def MsgHead.writesPre {AP : Type} [Encode AP] [EncodeW AP] (m : MsgHead AP) : List Write :=
  (m.header.elim [] writes) ++
  (m.delivery_annotations.elim [] (sectionWrites 113)) ++
  (m.message_annotations.elim [] (sectionWrites 114)) ++
  (m.properties.elim [] writes) ++
  (m.application_properties.elim [] (sectionWrites 116))

/-- The footer, `src/message/inmessage.rs:270-274`. -/
def MsgHead.writesPost {AP : Type} (m : MsgHead AP) : List Write :=
  m.footer.elim [] (sectionWrites 120)

/-- `MessageBody::encode`, `src/message/body.rs:59-87`. -/
def bodyWritesWith (data : List Binary) (sequence : List VList) (value : Option Variant)
    (nested : List Write) : List Write :=
  data.flatMap (sectionWrites 117) ++ sequence.flatMap (sectionWrites 118) ++
    value.elim [] (sectionWrites 119) ++ nested

/-- The body, or an empty data section: `src/message/inmessage.rs:260-268`. -/
def bodyWritesOrEmpty (bodySize : Nat) (body : List Write) : List Write :=
  if bodySize = 0 then [.put (enc (Descriptor.ulong 117) ++ [FC.binary8, 0])] else body

theorem outputOf_elim {α : Type} (o : Option α) (f : α → List Write) (g : α → Bytes)
    (h : ∀ a, outputOf (f a) = g a) : outputOf (o.elim [] f) = o.elim [] g := by
  cases o with
  | none => rfl
  | some a => exact h a

theorem outputOf_flatMap {α : Type} (l : List α) (f : α → List Write) (g : α → Bytes)
    (h : ∀ a, outputOf (f a) = g a) : outputOf (l.flatMap f) = l.flatMap g := by
  induction l with
  | nil => rfl
  | cons a t ih => simp [h, ih]

theorem MsgHead.writesPre_output {AP : Type} [Encode AP] [EncodeW AP] (m : MsgHead AP) :
    outputOf m.writesPre = m.encPre := by
  simp only [MsgHead.writesPre, MsgHead.encPre, outputOf_append]
  rw [outputOf_elim _ _ _ (fun a => EncodeW.output a),
    outputOf_elim _ _ _ (fun a => sectionWrites_output 113 a),
    outputOf_elim _ _ _ (fun a => sectionWrites_output 114 a),
    outputOf_elim _ _ _ (fun a => EncodeW.output a),
    outputOf_elim _ _ _ (fun a => sectionWrites_output 116 a)]

theorem MsgHead.writesPost_output {AP : Type} (m : MsgHead AP) :
    outputOf m.writesPost = m.encPost :=
  outputOf_elim _ _ _ (fun a => sectionWrites_output 120 a)

theorem bodyWrites_output (data : List Binary) (sequence : List VList) (value : Option Variant)
    (bodySize : Nat) (nested : List Write) :
    outputOf (bodyWritesOrEmpty bodySize (bodyWritesWith data sequence value nested)) =
      bodyEncOrEmpty bodySize (bodyEncWith data sequence value (outputOf nested)) := by
  unfold bodyWritesOrEmpty bodyEncOrEmpty
  split
  · simp
  · simp only [bodyWritesWith, bodyEncWith, outputOf_append]
    rw [outputOf_flatMap _ _ _ (fun a => sectionWrites_output 117 a),
      outputOf_flatMap _ _ _ (fun a => sectionWrites_output 118 a),
      outputOf_elim _ _ _ (fun a => sectionWrites_output 119 a)]

mutual
/-- `TransferBody::encode`, `src/protocol/mod.rs:243-249`. -/
def TransferBody.twrites : TransferBody → List Write
  | .Data b => [.put b.data]
  | .MessageIn m messages =>
    m.writesPre ++
    bodyWritesOrEmpty (bodySizeWith m.data m.sequence m.value (nestedSize messages))
      (bodyWritesWith m.data m.sequence m.value (nestedWrites messages)) ++
    m.writesPost
  | .MessageOut m messages =>
    m.writesPre ++
    bodyWritesOrEmpty (bodySizeWith m.data m.sequence m.value (nestedSize messages))
      (bodyWritesWith m.data m.sequence m.value (nestedWrites messages)) ++
    m.writesPost
/-- The loop over `messages`, `src/message/body.rs:72-86`. -/
def nestedWrites : List TransferBody → List Write
  | [] => []
  | b :: t =>
    .put (enc (Descriptor.ulong 117) ++
      (if b.tsize > 255 then FC.binary32 :: beEnc 4 b.tsize
        else [FC.binary8, UInt8.ofNat b.tsize])) ::
    (b.twrites ++ nestedWrites t)
end

mutual
theorem TransferBody.twrites_output : ∀ b : TransferBody, outputOf b.twrites = b.tenc
  | .Data b => by simp [TransferBody.twrites, TransferBody.tenc]
  | .MessageIn m messages => by
    simp only [TransferBody.twrites, TransferBody.tenc, outputOf_append, MsgHead.writesPre_output,
      MsgHead.writesPost_output, bodyWrites_output]
    rw [nestedWrites_output messages]
  | .MessageOut m messages => by
    simp only [TransferBody.twrites, TransferBody.tenc, outputOf_append, MsgHead.writesPre_output,
      MsgHead.writesPost_output, bodyWrites_output]
    rw [nestedWrites_output messages]
theorem nestedWrites_output : ∀ l : List TransferBody, outputOf (nestedWrites l) = nestedEnc l
  | [] => by simp [nestedWrites, nestedEnc]
  | b :: t => by
    simp only [nestedWrites, nestedEnc, outputOf_put, outputOf_append]
    rw [b.twrites_output, nestedWrites_output t]
    simp only [List.append_assoc]
end

instance : EncodeW TransferBody := ⟨TransferBody.twrites, TransferBody.twrites_output⟩

/-- `InMessage::encode`, `src/message/inmessage.rs:239-275`;
`OutMessage::encode`, `src/message/outmessage.rs:234-270`. -/
instance {AP : Type} [Encode AP] [EncodeW AP] : EncodeW (Message AP) where
  writes m := m.writesPre ++
    bodyWritesOrEmpty m.bodySize
      (bodyWritesWith m.data m.sequence m.value (nestedWrites m.messages)) ++ m.writesPost
  output m := by
    rw [outputOf_append, outputOf_append, MsgHead.writesPre_output, MsgHead.writesPost_output,
      bodyWrites_output, nestedWrites_output]
    rfl

/-! ## Frames -/

/-- `encode_transfer_inner`, `src/protocol/definitions.rs:2397-2435`. -/
instance : EncodeW Transfer where
  writes t := writes t.toTransferPerf ++ t.body.elim [] writes
  output t := by
    rw [outputOf_append, EncodeW.output, outputOf_elim _ _ _ (fun a => EncodeW.output a)]; rfl

/-- `src/protocol/definitions.rs:100-129`. -/
instance : EncodeW Frame where
  writes
    | .Open v => writes v
    | .Begin v => writes v
    | .Attach v => writes v
    | .Flow v => writes v
    | .Transfer v => writes v
    | .Disposition v => writes v
    | .Detach v => writes v
    | .End v => writes v
    | .Close v => writes v
    | .Empty => []
  output
    | .Open v => EncodeW.output v
    | .Begin v => EncodeW.output v
    | .Attach v => EncodeW.output v
    | .Flow v => EncodeW.output v
    | .Transfer v => EncodeW.output v
    | .Disposition v => EncodeW.output v
    | .Detach v => EncodeW.output v
    | .End v => EncodeW.output v
    | .Close v => EncodeW.output v
    | .Empty => rfl

/-- `src/codec/encode.rs:720-733`. -/
instance : EncodeW AmqpFrame where
  writes f := .put (frameHeader (headerLen + size f.performative) frameTypeAmqp f.channel_id) ::
    writes f.performative
  output f := by rw [outputOf_put, EncodeW.output]; rfl

/-- `src/codec/encode.rs:735-748`. -/
instance : EncodeW SaslFrame where
  writes f := .put (frameHeader (headerLen + size f.body) frameTypeSasl 0) :: writes f.body
  output f := by rw [outputOf_put, EncodeW.output]; rfl

end Amqp
