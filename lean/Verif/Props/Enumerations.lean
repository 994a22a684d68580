import Verif.Proofs.ListPrefix
/-!
# C19: enumerations

Generated by `tools/gen_props.py` from `codegen/specification.json`: the members
and their wire values are those of the specification.
-/
set_option autoImplicit false
namespace Amqp

/-- The values of `role`, `codegen/specification.json:2-16`. -/
def Role.specValue : Role → Bool
  | .Sender => false
  | .Receiver => true

/-- **C19** for `Role`. -/
theorem C19_role : Enumerates Role Bool "Role" Role.specValue :=
  enumerates (fun env e => LawfulCodec.rt env e trivial) (fun e => by cases e <;> rfl) (fun b h => by
    show Role.tryFrom b = _
    have h' : ∀ e, Role.tryFrom b ≠ .ok e := h
    clear h; revert h'
    unfold Role.tryFrom
    intro h
    repeat (refine ite_ok_or h ?_; clear h; intro h)
    rfl)

example : decode Role debugEnv [0x56, 1] = .ok ([], .Receiver) :=
  C19_role.member debugEnv [0x56, 1] .Receiver (fun _ => rfl) []

/-- The values of `sender-settle-mode`, `codegen/specification.json:17-35`. -/
def SenderSettleMode.specValue : SenderSettleMode → UInt8
  | .Unsettled => 0
  | .Settled => 1
  | .Mixed => 2

/-- **C19** for `SenderSettleMode`. -/
theorem C19_sender_settle_mode : Enumerates SenderSettleMode UInt8 "SenderSettleMode" SenderSettleMode.specValue :=
  enumerates (fun env e => LawfulCodec.rt env e trivial) (fun e => by cases e <;> rfl) (fun b h => by
    show SenderSettleMode.tryFrom b = _
    have h' : ∀ e, SenderSettleMode.tryFrom b ≠ .ok e := h
    clear h; revert h'
    unfold SenderSettleMode.tryFrom
    intro h
    repeat (refine ite_ok_or h ?_; clear h; intro h)
    rfl)

example : decode SenderSettleMode debugEnv [0x50, 200] = .err (.unknownEnumOption "SenderSettleMode") :=
  C19_sender_settle_mode.unknown debugEnv [0x50, 200] [] 200 (LawfulCodec.rt debugEnv (200 : UInt8) trivial)
    (fun e => by cases e <;> decide)

/-- The values of `receiver-settle-mode`, `codegen/specification.json:36-50`. -/
def ReceiverSettleMode.specValue : ReceiverSettleMode → UInt8
  | .First => 0
  | .Second => 1

/-- **C19** for `ReceiverSettleMode`. -/
theorem C19_receiver_settle_mode : Enumerates ReceiverSettleMode UInt8 "ReceiverSettleMode" ReceiverSettleMode.specValue :=
  enumerates (fun env e => LawfulCodec.rt env e trivial) (fun e => by cases e <;> rfl) (fun b h => by
    show ReceiverSettleMode.tryFrom b = _
    have h' : ∀ e, ReceiverSettleMode.tryFrom b ≠ .ok e := h
    clear h; revert h'
    unfold ReceiverSettleMode.tryFrom
    intro h
    repeat (refine ite_ok_or h ?_; clear h; intro h)
    rfl)

example : decode ReceiverSettleMode debugEnv [0x50, 200] = .err (.unknownEnumOption "ReceiverSettleMode") :=
  C19_receiver_settle_mode.unknown debugEnv [0x50, 200] [] 200 (LawfulCodec.rt debugEnv (200 : UInt8) trivial)
    (fun e => by cases e <;> decide)

/-- The values of `amqp-error`, `codegen/specification.json:126-185`. -/
def AmqpError.specValue : AmqpError → Symbol
  | .InternalError => ⟨.lit "amqp:internal-error"⟩
  | .NotFound => ⟨.lit "amqp:not-found"⟩
  | .UnauthorizedAccess => ⟨.lit "amqp:unauthorized-access"⟩
  | .DecodeError => ⟨.lit "amqp:decode-error"⟩
  | .ResourceLimitExceeded => ⟨.lit "amqp:resource-limit-exceeded"⟩
  | .NotAllowed => ⟨.lit "amqp:not-allowed"⟩
  | .InvalidField => ⟨.lit "amqp:invalid-field"⟩
  | .NotImplemented => ⟨.lit "amqp:not-implemented"⟩
  | .ResourceLocked => ⟨.lit "amqp:resource-locked"⟩
  | .PreconditionFailed => ⟨.lit "amqp:precondition-failed"⟩
  | .ResourceDeleted => ⟨.lit "amqp:resource-deleted"⟩
  | .IllegalState => ⟨.lit "amqp:illegal-state"⟩
  | .FrameSizeTooSmall => ⟨.lit "amqp:frame-size-too-small"⟩

/-- **C19** for `AmqpError`. -/
theorem C19_amqp_error : Enumerates AmqpError Symbol "AmqpError" AmqpError.specValue :=
  enumerates (fun env e => LawfulCodec.rt env e trivial) (fun e => by cases e <;> rfl) (fun b h => by
    show AmqpError.tryFrom b = _
    have h' : ∀ e, AmqpError.tryFrom b ≠ .ok e := h
    clear h; revert h'
    unfold AmqpError.tryFrom
    intro h
    repeat (refine ite_ok_or h ?_; clear h; intro h)
    rfl)

example : decode AmqpError debugEnv (0xa3 :: 3 :: [0x66, 0x6f, 0x6f]) = .err (.unknownEnumOption "AmqpError") :=
  C19_amqp_error.unknown debugEnv [0xa3, 3, 0x66, 0x6f, 0x6f] [] ⟨.lit "foo"⟩
    (LawfulCodec.rt debugEnv (⟨.lit "foo"⟩ : Symbol)
      (show (RStr.lit "foo").bytes.length < 2 ^ 32 by decide)) (fun e => by cases e <;> decide)

/-- The values of `connection-error`, `codegen/specification.json:186-205`. -/
def ConnectionError.specValue : ConnectionError → Symbol
  | .ConnectionForced => ⟨.lit "amqp:connection:forced"⟩
  | .FramingError => ⟨.lit "amqp:connection:framing-error"⟩
  | .Redirect => ⟨.lit "amqp:connection:redirect"⟩

/-- **C19** for `ConnectionError`. -/
theorem C19_connection_error : Enumerates ConnectionError Symbol "ConnectionError" ConnectionError.specValue :=
  enumerates (fun env e => LawfulCodec.rt env e trivial) (fun e => by cases e <;> rfl) (fun b h => by
    show ConnectionError.tryFrom b = _
    have h' : ∀ e, ConnectionError.tryFrom b ≠ .ok e := h
    clear h; revert h'
    unfold ConnectionError.tryFrom
    intro h
    repeat (refine ite_ok_or h ?_; clear h; intro h)
    rfl)

example : decode ConnectionError debugEnv (0xa3 :: 3 :: [0x66, 0x6f, 0x6f]) = .err (.unknownEnumOption "ConnectionError") :=
  C19_connection_error.unknown debugEnv [0xa3, 3, 0x66, 0x6f, 0x6f] [] ⟨.lit "foo"⟩
    (LawfulCodec.rt debugEnv (⟨.lit "foo"⟩ : Symbol)
      (show (RStr.lit "foo").bytes.length < 2 ^ 32 by decide)) (fun e => by cases e <;> decide)

/-- The values of `session-error`, `codegen/specification.json:206-229`. -/
def SessionError.specValue : SessionError → Symbol
  | .WindowViolation => ⟨.lit "amqp:session:window-violation"⟩
  | .ErrantLink => ⟨.lit "amqp:session:errant-link"⟩
  | .HandleInUse => ⟨.lit "amqp:session:handle-in-use"⟩
  | .UnattachedHandle => ⟨.lit "amqp:session:unattached-handle"⟩

/-- **C19** for `SessionError`. -/
theorem C19_session_error : Enumerates SessionError Symbol "SessionError" SessionError.specValue :=
  enumerates (fun env e => LawfulCodec.rt env e trivial) (fun e => by cases e <;> rfl) (fun b h => by
    show SessionError.tryFrom b = _
    have h' : ∀ e, SessionError.tryFrom b ≠ .ok e := h
    clear h; revert h'
    unfold SessionError.tryFrom
    intro h
    repeat (refine ite_ok_or h ?_; clear h; intro h)
    rfl)

example : decode SessionError debugEnv (0xa3 :: 3 :: [0x66, 0x6f, 0x6f]) = .err (.unknownEnumOption "SessionError") :=
  C19_session_error.unknown debugEnv [0xa3, 3, 0x66, 0x6f, 0x6f] [] ⟨.lit "foo"⟩
    (LawfulCodec.rt debugEnv (⟨.lit "foo"⟩ : Symbol)
      (show (RStr.lit "foo").bytes.length < 2 ^ 32 by decide)) (fun e => by cases e <;> decide)

/-- The values of `link-error`, `codegen/specification.json:230-257`. -/
def LinkError.specValue : LinkError → Symbol
  | .DetachForced => ⟨.lit "amqp:link:detach-forced"⟩
  | .TransferLimitExceeded => ⟨.lit "amqp:link:transfer-limit-exceeded"⟩
  | .MessageSizeExceeded => ⟨.lit "amqp:link:message-size-exceeded"⟩
  | .Redirect => ⟨.lit "amqp:link:redirect"⟩
  | .Stolen => ⟨.lit "amqp:link:stolen"⟩

/-- **C19** for `LinkError`. -/
theorem C19_link_error : Enumerates LinkError Symbol "LinkError" LinkError.specValue :=
  enumerates (fun env e => LawfulCodec.rt env e trivial) (fun e => by cases e <;> rfl) (fun b h => by
    show LinkError.tryFrom b = _
    have h' : ∀ e, LinkError.tryFrom b ≠ .ok e := h
    clear h; revert h'
    unfold LinkError.tryFrom
    intro h
    repeat (refine ite_ok_or h ?_; clear h; intro h)
    rfl)

example : decode LinkError debugEnv (0xa3 :: 3 :: [0x66, 0x6f, 0x6f]) = .err (.unknownEnumOption "LinkError") :=
  C19_link_error.unknown debugEnv [0xa3, 3, 0x66, 0x6f, 0x6f] [] ⟨.lit "foo"⟩
    (LawfulCodec.rt debugEnv (⟨.lit "foo"⟩ : Symbol)
      (show (RStr.lit "foo").bytes.length < 2 ^ 32 by decide)) (fun e => by cases e <;> decide)

/-- The values of `sasl-code`, `codegen/specification.json:663-689`. -/
def SaslCode.specValue : SaslCode → UInt8
  | .Ok => 0
  | .Auth => 1
  | .Sys => 2
  | .SysPerm => 3
  | .SysTemp => 4

/-- **C19** for `SaslCode`. -/
theorem C19_sasl_code : Enumerates SaslCode UInt8 "SaslCode" SaslCode.specValue :=
  enumerates (fun env e => LawfulCodec.rt env e trivial) (fun e => by cases e <;> rfl) (fun b h => by
    show SaslCode.tryFrom b = _
    have h' : ∀ e, SaslCode.tryFrom b ≠ .ok e := h
    clear h; revert h'
    unfold SaslCode.tryFrom
    intro h
    repeat (refine ite_ok_or h ?_; clear h; intro h)
    rfl)

example : decode SaslCode debugEnv [0x50, 200] = .err (.unknownEnumOption "SaslCode") :=
  C19_sasl_code.unknown debugEnv [0x50, 200] [] 200 (LawfulCodec.rt debugEnv (200 : UInt8) trivial)
    (fun e => by cases e <;> decide)

/-- The values of `terminus-durability`, `codegen/specification.json:782-800`. -/
def TerminusDurability.specValue : TerminusDurability → UInt32
  | .None => 0
  | .Configuration => 1
  | .UnsettledState => 2

/-- **C19** for `TerminusDurability`. -/
theorem C19_terminus_durability : Enumerates TerminusDurability UInt32 "TerminusDurability" TerminusDurability.specValue :=
  enumerates (fun env e => LawfulCodec.rt env e trivial) (fun e => by cases e <;> rfl) (fun b h => by
    show TerminusDurability.tryFrom b = _
    have h' : ∀ e, TerminusDurability.tryFrom b ≠ .ok e := h
    clear h; revert h'
    unfold TerminusDurability.tryFrom
    intro h
    repeat (refine ite_ok_or h ?_; clear h; intro h)
    rfl)

example : decode TerminusDurability debugEnv [0x52, 200] = .err (.unknownEnumOption "TerminusDurability") :=
  C19_terminus_durability.unknown debugEnv [0x52, 200] [] 200 (LawfulCodec.rt debugEnv (200 : UInt32) trivial)
    (fun e => by cases e <;> decide)

/-- The values of `terminus-expiry-policy`, `codegen/specification.json:801-823`. -/
def TerminusExpiryPolicy.specValue : TerminusExpiryPolicy → Symbol
  | .LinkDetach => ⟨.lit "link-detach"⟩
  | .SessionEnd => ⟨.lit "session-end"⟩
  | .ConnectionClose => ⟨.lit "connection-close"⟩
  | .Never => ⟨.lit "never"⟩

/-- **C19** for `TerminusExpiryPolicy`. -/
theorem C19_terminus_expiry_policy : Enumerates TerminusExpiryPolicy Symbol "TerminusExpiryPolicy" TerminusExpiryPolicy.specValue :=
  enumerates (fun env e => LawfulCodec.rt env e trivial) (fun e => by cases e <;> rfl) (fun b h => by
    show TerminusExpiryPolicy.tryFrom b = _
    have h' : ∀ e, TerminusExpiryPolicy.tryFrom b ≠ .ok e := h
    clear h; revert h'
    unfold TerminusExpiryPolicy.tryFrom
    intro h
    repeat (refine ite_ok_or h ?_; clear h; intro h)
    rfl)

example : decode TerminusExpiryPolicy debugEnv (0xa3 :: 3 :: [0x66, 0x6f, 0x6f]) = .err (.unknownEnumOption "TerminusExpiryPolicy") :=
  C19_terminus_expiry_policy.unknown debugEnv [0xa3, 3, 0x66, 0x6f, 0x6f] [] ⟨.lit "foo"⟩
    (LawfulCodec.rt debugEnv (⟨.lit "foo"⟩ : Symbol)
      (show (RStr.lit "foo").bytes.length < 2 ^ 32 by decide)) (fun e => by cases e <;> decide)

end Amqp
