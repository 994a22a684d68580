import Verif.Proofs.AlignRead
/-!
# Which legal encodings of the standard's types are read: type by type
-/
set_option autoImplicit false
namespace Amqp
open Dec Standard

theorem marked_ubyte : Marked ubyte := fun _ _ h => by cases h <;> exact ⟨_, _, rfl, by decide⟩
theorem marked_ushort : Marked ushort := fun _ _ h => by cases h <;> exact ⟨_, _, rfl, by decide⟩
theorem marked_uint : Marked uint := fun _ _ h => by cases h <;> exact ⟨_, _, rfl, by decide⟩
theorem marked_boolean : Marked Scope.all.boolean := fun x _ h => by
  have h : Prim (.boolean x) _ := h
  cases h <;> exact ⟨_, _, rfl, by decide⟩
theorem marked_boolean' {env : Env} : Marked (Scope.lenient env).boolean := fun x _ h => by
  have h : Lenient.boolean x _ := h
  cases h with
  | short => exact ⟨_, _, rfl, by cases x <;> decide⟩
  | byte => exact ⟨_, _, rfl, by decide⟩
theorem marked_senderSettleMode : Marked senderSettleMode := fun x _ h => by
  cases x <;> exact marked_ubyte _ _ h
theorem marked_receiverSettleMode : Marked receiverSettleMode := fun x _ h => by
  cases x <;> exact marked_ubyte _ _ h
theorem marked_terminusDurability : Marked terminusDurability := fun x _ h => by
  cases x <;> exact marked_uint _ _ h
theorem marked_symbol (s : Symbol) (u : Bytes) (h : Scope.all.symbol s u) : ∃ c t, u = c :: t ∧ c ≠ 0x40 := by
  obtain ⟨c, w, t, hc, rfl⟩ := head_symbol h
  exact ⟨c, t, rfl, by cases hc <;> decide⟩
theorem marked_symbol' {env : Env} (s : Symbol) (u : Bytes) (h : (Scope.lenient env).symbol s u) :
    ∃ c t, u = c :: t ∧ c ≠ 0x40 := by
  obtain ⟨c, w, t, hc, rfl⟩ := head_lenient_symbol h
  exact ⟨c, t, rfl, by cases hc <;> decide⟩
theorem marked_terminusExpiryPolicy : Marked (terminusExpiryPolicy .all) := fun x _ h => by
  cases x <;> exact marked_symbol _ _ h
theorem marked_terminusExpiryPolicy' {env : Env} : Marked (terminusExpiryPolicy (.lenient env)) := fun x _ h => by
  cases x <;> exact marked_symbol' _ _ h

section
variable {env : Env}

theorem aln_error : AlignsIn env Standard.error := aln_composite fun _ =>
  .cons (aln_req aln_errorCondition) <| .cons (aln_opt aln_string) <| .cons (aln_opt aln_fields)
  <| .nil
theorem aln_received : AlignsIn env Standard.received := aln_composite fun _ =>
  .cons (aln_req aln_uint) <| .cons (aln_req aln_ulong) <| .nil
theorem aln_accepted : AlignsIn env Standard.accepted := aln_composite fun _ =>
  .nil
theorem aln_rejected : AlignsIn env Standard.rejected := aln_composite fun _ =>
  .cons (aln_opt aln_error) <| .nil
theorem aln_released : AlignsIn env Standard.released := aln_composite fun _ =>
  .nil
theorem aln_modified : AlignsIn env Standard.modified := aln_composite fun _ =>
  .cons (aln_opt aln_boolean) <| .cons (aln_opt aln_boolean) <| .cons (aln_opt aln_fields) <|
  .nil
theorem aln_deliveryState : AlignsIn env Standard.deliveryState := fun x => by
  cases x with
  | Received v => exact aln_received v
  | Accepted v => exact aln_accepted v
  | Rejected v => exact aln_rejected v
  | Released v => exact aln_released v
  | Modified v => exact aln_modified v
theorem aln_outcome : AlignsIn env Standard.outcome := fun x => by
  cases x with
  | Accepted v => exact aln_accepted v
  | Rejected v => exact aln_rejected v
  | Released v => exact aln_released v
  | Modified v => exact aln_modified v
theorem aln_source : AlignsIn env Standard.source := aln_composite fun _ =>
  .cons (aln_opt aln_string) <| .cons (aln_dflt aln_terminusDurability marked_terminusDurability
  marked_terminusDurability) <| .cons (aln_dflt aln_terminusExpiryPolicy
  marked_terminusExpiryPolicy marked_terminusExpiryPolicy') <| .cons (aln_dflt aln_uint
  marked_uint marked_uint) <| .cons (aln_dflt aln_boolean marked_boolean marked_boolean') <|
  .cons (aln_opt aln_fields) <| .cons (aln_opt aln_distributionMode) <| .cons (aln_opt
  aln_filterSet) <| .cons (aln_opt aln_outcome) <| .cons (aln_opt aln_symbols) <| .cons (aln_opt
  aln_symbols) <| .nil
theorem aln_target : AlignsIn env Standard.target := aln_composite fun _ =>
  .cons (aln_opt aln_string) <| .cons (aln_dflt aln_terminusDurability marked_terminusDurability
  marked_terminusDurability) <| .cons (aln_dflt aln_terminusExpiryPolicy
  marked_terminusExpiryPolicy marked_terminusExpiryPolicy') <| .cons (aln_dflt aln_uint
  marked_uint marked_uint) <| .cons (aln_dflt aln_boolean marked_boolean marked_boolean') <|
  .cons (aln_opt aln_fields) <| .cons (aln_opt aln_symbols) <| .nil
theorem aln_opening : AlignsIn env Standard.opening := aln_composite fun _ =>
  .cons (aln_req aln_string) <| .cons (aln_opt aln_string) <| .cons (aln_dflt aln_uint
  marked_uint marked_uint) <| .cons (aln_dflt aln_ushort marked_ushort marked_ushort) <| .cons
  (aln_opt aln_uint) <| .cons (aln_opt aln_symbols) <| .cons (aln_opt aln_symbols) <| .cons
  (aln_opt aln_symbols) <| .cons (aln_opt aln_symbols) <| .cons (aln_opt aln_fields) <| .nil
theorem aln_beginning : AlignsIn env Standard.beginning := aln_composite fun _ =>
  .cons (aln_opt aln_ushort) <| .cons (aln_req aln_uint) <| .cons (aln_req aln_uint) <| .cons
  (aln_req aln_uint) <| .cons (aln_dflt aln_uint marked_uint marked_uint) <| .cons (aln_opt
  aln_symbols) <| .cons (aln_opt aln_symbols) <| .cons (aln_opt aln_fields) <| .nil
theorem aln_attach : AlignsIn env Standard.attach := aln_composite fun _ =>
  .cons (aln_req aln_string) <| .cons (aln_req aln_uint) <| .cons (aln_req aln_role) <| .cons
  (aln_dflt aln_senderSettleMode marked_senderSettleMode marked_senderSettleMode) <| .cons
  (aln_dflt aln_receiverSettleMode marked_receiverSettleMode marked_receiverSettleMode) <| .cons
  (aln_opt aln_source) <| .cons (aln_opt aln_target) <| .cons (aln_opt aln_map) <| .cons
  (aln_dflt aln_boolean marked_boolean marked_boolean') <| .cons (aln_opt aln_uint) <| .cons
  (aln_opt aln_ulong) <| .cons (aln_opt aln_symbols) <| .cons (aln_opt aln_symbols) <| .cons
  (aln_opt aln_fields) <| .nil
theorem aln_flow : AlignsIn env Standard.flow := aln_composite fun _ =>
  .cons (aln_opt aln_uint) <| .cons (aln_req aln_uint) <| .cons (aln_req aln_uint) <| .cons
  (aln_req aln_uint) <| .cons (aln_opt aln_uint) <| .cons (aln_opt aln_uint) <| .cons (aln_opt
  aln_uint) <| .cons (aln_opt aln_uint) <| .cons (aln_dflt aln_boolean marked_boolean
  marked_boolean') <| .cons (aln_dflt aln_boolean marked_boolean marked_boolean') <| .cons
  (aln_opt aln_fields) <| .nil
theorem aln_transfer : AlignsIn env Standard.transfer := aln_composite fun _ =>
  .cons (aln_req aln_uint) <| .cons (aln_opt aln_uint) <| .cons (aln_opt aln_binary) <| .cons
  (aln_opt aln_uint) <| .cons (aln_opt aln_boolean) <| .cons (aln_dflt aln_boolean
  marked_boolean marked_boolean') <| .cons (aln_opt aln_receiverSettleMode) <| .cons (aln_opt
  aln_deliveryState) <| .cons (aln_dflt aln_boolean marked_boolean marked_boolean') <| .cons
  (aln_dflt aln_boolean marked_boolean marked_boolean') <| .cons (aln_dflt aln_boolean
  marked_boolean marked_boolean') <| .nil
theorem aln_disposition : AlignsIn env Standard.disposition := aln_composite fun _ =>
  .cons (aln_req aln_role) <| .cons (aln_req aln_uint) <| .cons (aln_opt aln_uint) <| .cons
  (aln_dflt aln_boolean marked_boolean marked_boolean') <| .cons (aln_opt aln_deliveryState) <|
  .cons (aln_dflt aln_boolean marked_boolean marked_boolean') <| .nil
theorem aln_detach : AlignsIn env Standard.detach := aln_composite fun _ =>
  .cons (aln_req aln_uint) <| .cons (aln_dflt aln_boolean marked_boolean marked_boolean') <|
  .cons (aln_opt aln_error) <| .nil
theorem aln_ending : AlignsIn env Standard.ending := aln_composite fun _ =>
  .cons (aln_opt aln_error) <| .nil
theorem aln_close : AlignsIn env Standard.close := aln_composite fun _ =>
  .cons (aln_opt aln_error) <| .nil
theorem aln_saslMechanisms : AlignsIn env Standard.saslMechanisms := aln_composite fun _ =>
  .cons (aln_req aln_symbols) <| .nil
theorem aln_saslInit : AlignsIn env Standard.saslInit := aln_composite fun _ =>
  .cons (aln_req aln_symbol) <| .cons (aln_opt aln_binary) <| .cons (aln_opt aln_string) <| .nil
theorem aln_saslChallenge : AlignsIn env Standard.saslChallenge := aln_composite fun _ =>
  .cons (aln_req aln_binary) <| .nil
theorem aln_saslResponse : AlignsIn env Standard.saslResponse := aln_composite fun _ =>
  .cons (aln_req aln_binary) <| .nil
theorem aln_saslOutcome : AlignsIn env Standard.saslOutcome := aln_composite fun _ =>
  .cons (aln_req aln_saslCode) <| .cons (aln_opt aln_binary) <| .nil
theorem aln_header : AlignsIn env Standard.header := aln_composite fun _ =>
  .cons (aln_dflt aln_boolean marked_boolean marked_boolean') <| .cons (aln_dflt aln_ubyte
  marked_ubyte marked_ubyte) <| .cons (aln_opt aln_uint) <| .cons (aln_dflt aln_boolean
  marked_boolean marked_boolean') <| .cons (aln_dflt aln_uint marked_uint marked_uint) <| .nil
theorem aln_properties : AlignsIn env Standard.properties := aln_composite fun _ =>
  .cons (aln_opt aln_messageId) <| .cons (aln_opt aln_binary) <| .cons (aln_opt aln_string) <|
  .cons (aln_opt aln_string) <| .cons (aln_opt aln_string) <| .cons (aln_opt aln_messageId) <|
  .cons (aln_opt aln_symbol) <| .cons (aln_opt aln_symbol) <| .cons (aln_opt aln_timestamp) <|
  .cons (aln_opt aln_timestamp) <| .cons (aln_opt aln_string) <| .cons (aln_opt aln_uint) <|
  .cons (aln_opt aln_string) <| .nil
theorem aln_deliveryAnnotations : AlignsIn env Standard.deliveryAnnotations := aln_described aln_annotations
theorem aln_messageAnnotations : AlignsIn env Standard.messageAnnotations := aln_described aln_annotations
theorem aln_applicationProperties : AlignsIn env Standard.applicationProperties := aln_described aln_stringMap
theorem aln_amqpSequence : AlignsIn env Standard.amqpSequence := aln_described aln_list
theorem aln_amqpValue : AlignsIn env Standard.amqpValue := aln_described aln_any
theorem aln_footer : AlignsIn env Standard.footer := aln_described aln_annotations
theorem aln_saslBody : AlignsIn env Standard.saslBody := fun x => by
  cases x with
  | SaslMechanisms v => exact aln_saslMechanisms v
  | SaslInit v => exact aln_saslInit v
  | SaslChallenge v => exact aln_saslChallenge v
  | SaslResponse v => exact aln_saslResponse v
  | SaslOutcome v => exact aln_saslOutcome v

end
end Amqp
