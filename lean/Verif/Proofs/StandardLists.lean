import Verif.Proofs.StandardWrite
/-!
# Composite types and unions: read and written
-/
set_option autoImplicit false
namespace Amqp
open Dec Standard

section
variable {env : Env}

theorem read_error (a : Error) (b : Bytes) (h : error (.accepted env) a b) : Means env b a :=
  means_composite (id <|
    .cons (fits_req (read_errorCondition _)) <|
    .cons (fits_opt read_string) <|
    .cons (fits_opt read_fields) <| .nil) rfl rfl h
theorem write_error (a : Error) (h : canError a) (hs : (enc a).length < 2 ^ 32) :
    error .all a (enc a) :=
  written_composite (id <|
    .cons (writes_req (write_errorCondition _ h.1)) <|
    .cons (writes_opt fun _ _ => write_string _) <|
    .cons (writes_opt fun _ e => write_fields _ (h.2 _ e)) <| .nil) rfl hs

theorem read_received (a : Received) (b : Bytes) (h : received (.accepted env) a b) : Means env b a :=
  means_composite (id <|
    .cons (fits_req (read_uint _)) <|
    .cons (fits_req (read_ulong _)) <| .nil) rfl rfl h
theorem write_received (a : Received) (hs : (enc a).length < 2 ^ 32) :
    received .all a (enc a) :=
  written_composite (id <|
    .cons (writes_req fun _ => write_uint _) <|
    .cons (writes_req fun _ => write_ulong _) <| .nil) rfl hs

theorem read_accepted (a : Accepted) (b : Bytes) (h : accepted (.accepted env) a b) : Means env b a :=
  means_composite (id <| .nil) rfl rfl h
theorem write_accepted (a : Accepted) (hs : (enc a).length < 2 ^ 32) :
    accepted .all a (enc a) :=
  written_composite (id <| .nil) rfl hs

theorem read_rejected (a : Rejected) (b : Bytes) (h : rejected (.accepted env) a b) : Means env b a :=
  means_composite (id <|
    .cons (fits_opt read_error) <| .nil) rfl rfl h
theorem write_rejected (a : Rejected) (h : canRejected a) (hs : (enc a).length < 2 ^ 32) :
    rejected .all a (enc a) :=
  written_composite (id <|
    .cons (writes_opt fun _ e => write_error _ (h _ e)) <| .nil) rfl hs

theorem read_released (a : Released) (b : Bytes) (h : released (.accepted env) a b) : Means env b a :=
  means_composite (id <| .nil) rfl rfl h
theorem write_released (a : Released) (hs : (enc a).length < 2 ^ 32) :
    released .all a (enc a) :=
  written_composite (id <| .nil) rfl hs

theorem read_modified (a : Modified) (b : Bytes) (h : modified (.accepted env) a b) : Means env b a :=
  means_composite (id <|
    .cons (fits_opt read_boolean) <|
    .cons (fits_opt read_boolean) <|
    .cons (fits_opt read_fields) <| .nil) rfl rfl h
theorem write_modified (a : Modified) (h : canModified a) (hs : (enc a).length < 2 ^ 32) :
    modified .all a (enc a) :=
  written_composite (id <|
    .cons (writes_opt fun _ _ _ => write_boolean _) <|
    .cons (writes_opt fun _ _ _ => write_boolean _) <|
    .cons (writes_opt fun _ e => write_fields _ (h _ e)) <| .nil) rfl hs

theorem read_deliveryState (a : DeliveryState) (b : Bytes) (h : Standard.deliveryState (.accepted env) a b) : Means env b a := by
  cases a with
  | Received v => exact means_member C24_delivery_state_members.1 (by decide) h (read_received v b h)
  | Accepted v => exact means_member C24_delivery_state_members.2.1 (by decide) h (read_accepted v b h)
  | Rejected v => exact means_member C24_delivery_state_members.2.2.1 (by decide) h (read_rejected v b h)
  | Released v => exact means_member C24_delivery_state_members.2.2.2.1 (by decide) h (read_released v b h)
  | Modified v => exact means_member C24_delivery_state_members.2.2.2.2 (by decide) h (read_modified v b h)
theorem write_deliveryState (a : DeliveryState) (h : canState a) (hs : (enc a).length < 2 ^ 32) :
    Standard.deliveryState .all a (enc a) := by
  cases a with
  | Received v => exact write_received v hs
  | Accepted v => exact write_accepted v hs
  | Rejected v => exact write_rejected v h hs
  | Released v => exact write_released v hs
  | Modified v => exact write_modified v h hs

theorem read_outcome (a : Outcome) (b : Bytes) (h : Standard.outcome (.accepted env) a b) : Means env b a := by
  cases a with
  | Accepted v => exact means_member C24_outcome_members.1 (by decide) h (read_accepted v b h)
  | Rejected v => exact means_member C24_outcome_members.2.1 (by decide) h (read_rejected v b h)
  | Released v => exact means_member C24_outcome_members.2.2.1 (by decide) h (read_released v b h)
  | Modified v => exact means_member C24_outcome_members.2.2.2 (by decide) h (read_modified v b h)
theorem write_outcome (a : Outcome) (h : canOutcome a) (hs : (enc a).length < 2 ^ 32) :
    Standard.outcome .all a (enc a) := by
  cases a with
  | Accepted v => exact write_accepted v hs
  | Rejected v => exact write_rejected v h hs
  | Released v => exact write_released v hs
  | Modified v => exact write_modified v h hs

theorem read_source (a : Source) (b : Bytes) (h : source (.accepted env) a b) : Means env b a :=
  means_composite (id <|
    .cons (fits_opt read_string) <|
    .cons (fits_dflt (read_terminusDurability _)) <|
    .cons (fits_dflt (read_terminusExpiryPolicy _)) <|
    .cons (fits_dflt (read_uint _)) <|
    .cons (fits_dflt (read_boolean _)) <|
    .cons (fits_opt read_fields) <|
    .cons (fits_opt read_distributionMode) <|
    .cons (fits_opt read_filter) <|
    .cons (fits_opt read_outcome) <|
    .cons (fits_opt read_symbols) <|
    .cons (fits_opt read_symbols) <| .nil) rfl rfl h
theorem write_source (a : Source) (h : canSource a) (hs : (enc a).length < 2 ^ 32) :
    source .all a (enc a) :=
  written_composite (id <|
    .cons (writes_opt fun _ _ => write_string _) <|
    .cons (writes_dflt fun _ => write_terminusDurability _) <|
    .cons (writes_dflt fun _ => write_terminusExpiryPolicy _) <|
    .cons (writes_dflt fun _ => write_uint _) <|
    .cons (writes_dflt fun _ => write_boolean _) <|
    .cons (writes_opt fun _ e => write_fields _ (h.1 _ e)) <|
    .cons (writes_opt fun _ e => write_distributionMode _ (h.2.1 _ e)) <|
    .cons (writes_opt fun _ e => write_filter _ (h.2.2.1 _ e)) <|
    .cons (writes_opt fun _ e => write_outcome _ (h.2.2.2.1 _ e)) <|
    .cons (writes_opt fun _ e => write_symbols _ (h.2.2.2.2.1 _ e)) <|
    .cons (writes_opt fun _ e => write_symbols _ (h.2.2.2.2.2 _ e)) <| .nil) rfl hs

theorem read_target (a : Target) (b : Bytes) (h : target (.accepted env) a b) : Means env b a :=
  means_composite (id <|
    .cons (fits_opt read_string) <|
    .cons (fits_dflt (read_terminusDurability _)) <|
    .cons (fits_dflt (read_terminusExpiryPolicy _)) <|
    .cons (fits_dflt (read_uint _)) <|
    .cons (fits_dflt (read_boolean _)) <|
    .cons (fits_opt read_fields) <|
    .cons (fits_opt read_symbols) <| .nil) rfl rfl h
theorem write_target (a : Target) (h : canTarget a) (hs : (enc a).length < 2 ^ 32) :
    target .all a (enc a) :=
  written_composite (id <|
    .cons (writes_opt fun _ _ => write_string _) <|
    .cons (writes_dflt fun _ => write_terminusDurability _) <|
    .cons (writes_dflt fun _ => write_terminusExpiryPolicy _) <|
    .cons (writes_dflt fun _ => write_uint _) <|
    .cons (writes_dflt fun _ => write_boolean _) <|
    .cons (writes_opt fun _ e => write_fields _ (h.1 _ e)) <|
    .cons (writes_opt fun _ e => write_symbols _ (h.2 _ e)) <| .nil) rfl hs

theorem read_opening (a : Open) (b : Bytes) (h : opening (.accepted env) a b) : Means env b a :=
  means_composite (id <|
    .cons (fits_req (read_string _)) <|
    .cons (fits_opt read_string) <|
    .cons (fits_dflt (read_uint _)) <|
    .cons (fits_dflt (read_ushort _)) <|
    .cons (fits_opt read_uint) <|
    .cons (fits_opt read_symbols) <|
    .cons (fits_opt read_symbols) <|
    .cons (fits_opt read_symbols) <|
    .cons (fits_opt read_symbols) <|
    .cons (fits_opt read_fields) <| .nil) rfl rfl h
theorem write_opening (a : Open) (h : canOpen a) (hs : (enc a).length < 2 ^ 32) :
    opening .all a (enc a) :=
  written_composite (id <|
    .cons (writes_req (write_string _)) <|
    .cons (writes_opt fun _ _ => write_string _) <|
    .cons (writes_dflt fun _ => write_uint _) <|
    .cons (writes_dflt fun _ => write_ushort _) <|
    .cons (writes_opt fun _ _ _ => write_uint _) <|
    .cons (writes_opt fun _ e => write_symbols _ (h.1 _ e)) <|
    .cons (writes_opt fun _ e => write_symbols _ (h.2.1 _ e)) <|
    .cons (writes_opt fun _ e => write_symbols _ (h.2.2.1 _ e)) <|
    .cons (writes_opt fun _ e => write_symbols _ (h.2.2.2.1 _ e)) <|
    .cons (writes_opt fun _ e => write_fields _ (h.2.2.2.2 _ e)) <| .nil) rfl hs

theorem read_beginning (a : Begin) (b : Bytes) (h : beginning (.accepted env) a b) : Means env b a :=
  means_composite (id <|
    .cons (fits_opt read_ushort) <|
    .cons (fits_req (read_uint _)) <|
    .cons (fits_req (read_uint _)) <|
    .cons (fits_req (read_uint _)) <|
    .cons (fits_dflt (read_uint _)) <|
    .cons (fits_opt read_symbols) <|
    .cons (fits_opt read_symbols) <|
    .cons (fits_opt read_fields) <| .nil) rfl rfl h
theorem write_beginning (a : Begin) (h : canBegin a) (hs : (enc a).length < 2 ^ 32) :
    beginning .all a (enc a) :=
  written_composite (id <|
    .cons (writes_opt fun _ _ _ => write_ushort _) <|
    .cons (writes_req fun _ => write_uint _) <|
    .cons (writes_req fun _ => write_uint _) <|
    .cons (writes_req fun _ => write_uint _) <|
    .cons (writes_dflt fun _ => write_uint _) <|
    .cons (writes_opt fun _ e => write_symbols _ (h.1 _ e)) <|
    .cons (writes_opt fun _ e => write_symbols _ (h.2.1 _ e)) <|
    .cons (writes_opt fun _ e => write_fields _ (h.2.2 _ e)) <| .nil) rfl hs

theorem read_attach (a : Attach) (b : Bytes) (h : attach (.accepted env) a b) : Means env b a :=
  means_composite (id <|
    .cons (fits_req (read_string _)) <|
    .cons (fits_req (read_uint _)) <|
    .cons (fits_req (read_role _)) <|
    .cons (fits_dflt (read_senderSettleMode _)) <|
    .cons (fits_dflt (read_receiverSettleMode _)) <|
    .cons (fits_opt read_source) <|
    .cons (fits_opt read_target) <|
    .cons (fits_opt read_map) <|
    .cons (fits_dflt (read_boolean _)) <|
    .cons (fits_opt read_uint) <|
    .cons (fits_opt read_ulong) <|
    .cons (fits_opt read_symbols) <|
    .cons (fits_opt read_symbols) <|
    .cons (fits_opt read_fields) <| .nil) rfl rfl h
theorem write_attach (a : Attach) (h : canAttach a) (hs : (enc a).length < 2 ^ 32) :
    attach .all a (enc a) :=
  written_composite (id <|
    .cons (writes_req (write_string _)) <|
    .cons (writes_req fun _ => write_uint _) <|
    .cons (writes_req fun _ => write_role _) <|
    .cons (writes_dflt fun _ => write_senderSettleMode _) <|
    .cons (writes_dflt fun _ => write_receiverSettleMode _) <|
    .cons (writes_opt fun _ e => write_source _ (h.1 _ e)) <|
    .cons (writes_opt fun _ e => write_target _ (h.2.1 _ e)) <|
    .cons (writes_opt fun _ e => write_map _ (h.2.2.1 _ e)) <|
    .cons (writes_dflt fun _ => write_boolean _) <|
    .cons (writes_opt fun _ _ _ => write_uint _) <|
    .cons (writes_opt fun _ _ _ => write_ulong _) <|
    .cons (writes_opt fun _ e => write_symbols _ (h.2.2.2.1 _ e)) <|
    .cons (writes_opt fun _ e => write_symbols _ (h.2.2.2.2.1 _ e)) <|
    .cons (writes_opt fun _ e => write_fields _ (h.2.2.2.2.2 _ e)) <| .nil) rfl hs

theorem read_flow (a : Flow) (b : Bytes) (h : flow (.accepted env) a b) : Means env b a :=
  means_composite (id <|
    .cons (fits_opt read_uint) <|
    .cons (fits_req (read_uint _)) <|
    .cons (fits_req (read_uint _)) <|
    .cons (fits_req (read_uint _)) <|
    .cons (fits_opt read_uint) <|
    .cons (fits_opt read_uint) <|
    .cons (fits_opt read_uint) <|
    .cons (fits_opt read_uint) <|
    .cons (fits_dflt (read_boolean _)) <|
    .cons (fits_dflt (read_boolean _)) <|
    .cons (fits_opt read_fields) <| .nil) rfl rfl h
theorem write_flow (a : Flow) (h : canFlow a) (hs : (enc a).length < 2 ^ 32) :
    flow .all a (enc a) :=
  written_composite (id <|
    .cons (writes_opt fun _ _ _ => write_uint _) <|
    .cons (writes_req fun _ => write_uint _) <|
    .cons (writes_req fun _ => write_uint _) <|
    .cons (writes_req fun _ => write_uint _) <|
    .cons (writes_opt fun _ _ _ => write_uint _) <|
    .cons (writes_opt fun _ _ _ => write_uint _) <|
    .cons (writes_opt fun _ _ _ => write_uint _) <|
    .cons (writes_opt fun _ _ _ => write_uint _) <|
    .cons (writes_dflt fun _ => write_boolean _) <|
    .cons (writes_dflt fun _ => write_boolean _) <|
    .cons (writes_opt fun _ e => write_fields _ (h _ e)) <| .nil) rfl hs

theorem read_transfer (a : TransferPerf) (b : Bytes) (h : transfer (.accepted env) a b) : Means env b a :=
  means_composite (id <|
    .cons (fits_req (read_uint _)) <|
    .cons (fits_opt read_uint) <|
    .cons (fits_opt read_binary) <|
    .cons (fits_opt read_uint) <|
    .cons (fits_opt read_boolean) <|
    .cons (fits_dflt (read_boolean _)) <|
    .cons (fits_opt read_receiverSettleMode) <|
    .cons (fits_opt read_deliveryState) <|
    .cons (fits_dflt (read_boolean _)) <|
    .cons (fits_dflt (read_boolean _)) <|
    .cons (fits_dflt (read_boolean _)) <| .nil) rfl rfl h
theorem write_transfer (a : TransferPerf) (h : canTransfer a) (hs : (enc a).length < 2 ^ 32) :
    transfer .all a (enc a) :=
  written_composite (id <|
    .cons (writes_req fun _ => write_uint _) <|
    .cons (writes_opt fun _ _ _ => write_uint _) <|
    .cons (writes_opt fun _ _ => write_binary _) <|
    .cons (writes_opt fun _ _ _ => write_uint _) <|
    .cons (writes_opt fun _ _ _ => write_boolean _) <|
    .cons (writes_dflt fun _ => write_boolean _) <|
    .cons (writes_opt fun _ _ _ => write_receiverSettleMode _) <|
    .cons (writes_opt fun _ e => write_deliveryState _ (h _ e)) <|
    .cons (writes_dflt fun _ => write_boolean _) <|
    .cons (writes_dflt fun _ => write_boolean _) <|
    .cons (writes_dflt fun _ => write_boolean _) <| .nil) rfl hs

theorem read_disposition (a : Disposition) (b : Bytes) (h : disposition (.accepted env) a b) : Means env b a :=
  means_composite (id <|
    .cons (fits_req (read_role _)) <|
    .cons (fits_req (read_uint _)) <|
    .cons (fits_opt read_uint) <|
    .cons (fits_dflt (read_boolean _)) <|
    .cons (fits_opt read_deliveryState) <|
    .cons (fits_dflt (read_boolean _)) <| .nil) rfl rfl h
theorem write_disposition (a : Disposition) (h : canDisposition a) (hs : (enc a).length < 2 ^ 32) :
    disposition .all a (enc a) :=
  written_composite (id <|
    .cons (writes_req fun _ => write_role _) <|
    .cons (writes_req fun _ => write_uint _) <|
    .cons (writes_opt fun _ _ _ => write_uint _) <|
    .cons (writes_dflt fun _ => write_boolean _) <|
    .cons (writes_opt fun _ e => write_deliveryState _ (h _ e)) <|
    .cons (writes_dflt fun _ => write_boolean _) <| .nil) rfl hs

theorem read_detach (a : Detach) (b : Bytes) (h : detach (.accepted env) a b) : Means env b a :=
  means_composite (id <|
    .cons (fits_req (read_uint _)) <|
    .cons (fits_dflt (read_boolean _)) <|
    .cons (fits_opt read_error) <| .nil) rfl rfl h
theorem write_detach (a : Detach) (h : canDetach a) (hs : (enc a).length < 2 ^ 32) :
    detach .all a (enc a) :=
  written_composite (id <|
    .cons (writes_req fun _ => write_uint _) <|
    .cons (writes_dflt fun _ => write_boolean _) <|
    .cons (writes_opt fun _ e => write_error _ (h _ e)) <| .nil) rfl hs

theorem read_ending (a : End) (b : Bytes) (h : ending (.accepted env) a b) : Means env b a :=
  means_composite (id <|
    .cons (fits_opt read_error) <| .nil) rfl rfl h
theorem write_ending (a : End) (h : canEnd a) (hs : (enc a).length < 2 ^ 32) :
    ending .all a (enc a) :=
  written_composite (id <|
    .cons (writes_opt fun _ e => write_error _ (h _ e)) <| .nil) rfl hs

theorem read_close (a : Close) (b : Bytes) (h : close (.accepted env) a b) : Means env b a :=
  means_composite (id <|
    .cons (fits_opt read_error) <| .nil) rfl rfl h
theorem write_close (a : Close) (h : canClose a) (hs : (enc a).length < 2 ^ 32) :
    close .all a (enc a) :=
  written_composite (id <|
    .cons (writes_opt fun _ e => write_error _ (h _ e)) <| .nil) rfl hs

theorem read_saslMechanisms (a : SaslMechanisms) (b : Bytes) (h : saslMechanisms (.accepted env) a b) : Means env b a :=
  means_composite (id <|
    .cons (fits_req (read_symbols _)) <| .nil) rfl rfl h
theorem write_saslMechanisms (a : SaslMechanisms) (h : canSymbols a.sasl_server_mechanisms) (hs : (enc a).length < 2 ^ 32) :
    saslMechanisms .all a (enc a) :=
  written_composite (id <|
    .cons (writes_req (write_symbols _ h)) <| .nil) rfl hs

theorem read_saslInit (a : SaslInit) (b : Bytes) (h : saslInit (.accepted env) a b) : Means env b a :=
  means_composite (id <|
    .cons (fits_req (read_symbol _)) <|
    .cons (fits_opt read_binary) <|
    .cons (fits_opt read_string) <| .nil) rfl rfl h
theorem write_saslInit (a : SaslInit) (h : canSymbol a.mechanism) (hs : (enc a).length < 2 ^ 32) :
    saslInit .all a (enc a) :=
  written_composite (id <|
    .cons (writes_req (write_symbol _ h)) <|
    .cons (writes_opt fun _ _ => write_binary _) <|
    .cons (writes_opt fun _ _ => write_string _) <| .nil) rfl hs

theorem read_saslChallenge (a : SaslChallenge) (b : Bytes) (h : saslChallenge (.accepted env) a b) : Means env b a :=
  means_composite (id <|
    .cons (fits_req (read_binary _)) <| .nil) rfl rfl h
theorem write_saslChallenge (a : SaslChallenge) (hs : (enc a).length < 2 ^ 32) :
    saslChallenge .all a (enc a) :=
  written_composite (id <|
    .cons (writes_req (write_binary _)) <| .nil) rfl hs

theorem read_saslResponse (a : SaslResponse) (b : Bytes) (h : saslResponse (.accepted env) a b) : Means env b a :=
  means_composite (id <|
    .cons (fits_req (read_binary _)) <| .nil) rfl rfl h
theorem write_saslResponse (a : SaslResponse) (hs : (enc a).length < 2 ^ 32) :
    saslResponse .all a (enc a) :=
  written_composite (id <|
    .cons (writes_req (write_binary _)) <| .nil) rfl hs

theorem read_saslOutcome (a : SaslOutcome) (b : Bytes) (h : saslOutcome (.accepted env) a b) : Means env b a :=
  means_composite (id <|
    .cons (fits_req (read_saslCode _)) <|
    .cons (fits_opt read_binary) <| .nil) rfl rfl h
theorem write_saslOutcome (a : SaslOutcome) (hs : (enc a).length < 2 ^ 32) :
    saslOutcome .all a (enc a) :=
  written_composite (id <|
    .cons (writes_req fun _ => write_saslCode _) <|
    .cons (writes_opt fun _ _ => write_binary _) <| .nil) rfl hs

theorem read_header (a : Header) (b : Bytes) (h : header (.accepted env) a b) : Means env b a :=
  means_composite (id <|
    .cons (fits_dflt (read_boolean _)) <|
    .cons (fits_dflt (read_ubyte _)) <|
    .cons (fits_opt read_uint) <|
    .cons (fits_dflt (read_boolean _)) <|
    .cons (fits_dflt (read_uint _)) <| .nil) rfl rfl h
theorem write_header (a : Header) (hs : (enc a).length < 2 ^ 32) :
    header .all a (enc a) :=
  written_composite (id <|
    .cons (writes_dflt fun _ => write_boolean _) <|
    .cons (writes_dflt fun _ => write_ubyte _) <|
    .cons (writes_opt fun _ _ _ => write_uint _) <|
    .cons (writes_dflt fun _ => write_boolean _) <|
    .cons (writes_dflt fun _ => write_uint _) <| .nil) rfl hs

theorem read_properties (a : Properties) (b : Bytes) (h : properties (.accepted env) a b) : Means env b a :=
  means_composite (id <|
    .cons (fits_opt read_messageId) <|
    .cons (fits_opt read_binary) <|
    .cons (fits_opt read_string) <|
    .cons (fits_opt read_string) <|
    .cons (fits_opt read_string) <|
    .cons (fits_opt read_messageId) <|
    .cons (fits_opt read_symbol) <|
    .cons (fits_opt read_symbol) <|
    .cons (fits_opt read_timestamp) <|
    .cons (fits_opt read_timestamp) <|
    .cons (fits_opt read_string) <|
    .cons (fits_opt read_uint) <|
    .cons (fits_opt read_string) <| .nil) rfl rfl h
theorem write_properties (a : Properties) (h : canProperties a) (hs : (enc a).length < 2 ^ 32) :
    properties .all a (enc a) :=
  written_composite (id <|
    .cons (writes_opt fun _ _ => write_messageId _) <|
    .cons (writes_opt fun _ _ => write_binary _) <|
    .cons (writes_opt fun _ _ => write_string _) <|
    .cons (writes_opt fun _ _ => write_string _) <|
    .cons (writes_opt fun _ _ => write_string _) <|
    .cons (writes_opt fun _ _ => write_messageId _) <|
    .cons (writes_opt fun _ e => write_symbol _ (h.1 _ e)) <|
    .cons (writes_opt fun _ e => write_symbol _ (h.2.1 _ e)) <|
    .cons (writes_opt fun _ e _ => write_timestamp _ (h.2.2.1 _ e)) <|
    .cons (writes_opt fun _ e _ => write_timestamp _ (h.2.2.2 _ e)) <|
    .cons (writes_opt fun _ _ => write_string _) <|
    .cons (writes_opt fun _ _ _ => write_uint _) <|
    .cons (writes_opt fun _ _ => write_string _) <| .nil) rfl hs

theorem read_saslBody (a : SaslFrameBody) (b : Bytes) (h : Standard.saslBody (.accepted env) a b) : Means env b a := by
  cases a with
  | SaslMechanisms v => exact means_member C24_sasl_frame_body_members.1 (by decide) h (read_saslMechanisms v b h)
  | SaslInit v => exact means_member C24_sasl_frame_body_members.2.1 (by decide) h (read_saslInit v b h)
  | SaslChallenge v => exact means_member C24_sasl_frame_body_members.2.2.1 (by decide) h (read_saslChallenge v b h)
  | SaslResponse v => exact means_member C24_sasl_frame_body_members.2.2.2.1 (by decide) h (read_saslResponse v b h)
  | SaslOutcome v => exact means_member C24_sasl_frame_body_members.2.2.2.2 (by decide) h (read_saslOutcome v b h)
theorem write_saslBody (a : SaslFrameBody) (h : canSasl a) (hs : (enc a).length < 2 ^ 32) :
    Standard.saslBody .all a (enc a) := by
  cases a with
  | SaslMechanisms v => exact write_saslMechanisms v h hs
  | SaslInit v => exact write_saslInit v h hs
  | SaslChallenge v => exact write_saslChallenge v hs
  | SaslResponse v => exact write_saslResponse v hs
  | SaslOutcome v => exact write_saslOutcome v hs

end
end Amqp
