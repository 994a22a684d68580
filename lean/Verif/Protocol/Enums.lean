import Verif.Protocol.Base
/-! Generated by `tools/gen_protocol.py`: restricted enumerations of
`src/protocol/definitions.rs`. -/
namespace Amqp

/-- `Role`, `src/protocol/definitions.rs:439-442`. -/
inductive Role where
  | Sender
  | Receiver
deriving DecidableEq

/-- `Role::try_from`, `src/protocol/definitions.rs:443-451`. -/
def Role.tryFrom (v : Bool) : Res ParseError Role :=
  if v = false then .ok .Sender else
  if v = true then .ok .Receiver else
  .err (.unknownEnumOption "Role")

/-- `src/protocol/definitions.rs:452-457`. -/
instance : DecodeF Role := ⟨decodeEnum Role.tryFrom⟩

/-- `src/protocol/definitions.rs:458-483`. -/
instance : Encode Role where
  size
    | .Sender => size (false : Bool)
    | .Receiver => size (true : Bool)
  enc
    | .Sender => enc (false : Bool)
    | .Receiver => enc (true : Bool)

/-- `SenderSettleMode`, `src/protocol/definitions.rs:485-489`. -/
inductive SenderSettleMode where
  | Unsettled
  | Settled
  | Mixed
deriving DecidableEq

/-- `SenderSettleMode::try_from`, `src/protocol/definitions.rs:490-499`. -/
def SenderSettleMode.tryFrom (v : UInt8) : Res ParseError SenderSettleMode :=
  if v = 0 then .ok .Unsettled else
  if v = 1 then .ok .Settled else
  if v = 2 then .ok .Mixed else
  .err (.unknownEnumOption "SenderSettleMode")

/-- `src/protocol/definitions.rs:500-505`. -/
instance : DecodeF SenderSettleMode := ⟨decodeEnum SenderSettleMode.tryFrom⟩

/-- `src/protocol/definitions.rs:506-539`. -/
instance : Encode SenderSettleMode where
  size
    | .Unsettled => size (0 : UInt8)
    | .Settled => size (1 : UInt8)
    | .Mixed => size (2 : UInt8)
  enc
    | .Unsettled => enc (0 : UInt8)
    | .Settled => enc (1 : UInt8)
    | .Mixed => enc (2 : UInt8)

/-- `ReceiverSettleMode`, `src/protocol/definitions.rs:541-544`. -/
inductive ReceiverSettleMode where
  | First
  | Second
deriving DecidableEq

/-- `ReceiverSettleMode::try_from`, `src/protocol/definitions.rs:545-553`. -/
def ReceiverSettleMode.tryFrom (v : UInt8) : Res ParseError ReceiverSettleMode :=
  if v = 0 then .ok .First else
  if v = 1 then .ok .Second else
  .err (.unknownEnumOption "ReceiverSettleMode")

/-- `src/protocol/definitions.rs:554-559`. -/
instance : DecodeF ReceiverSettleMode := ⟨decodeEnum ReceiverSettleMode.tryFrom⟩

/-- `src/protocol/definitions.rs:560-585`. -/
instance : Encode ReceiverSettleMode where
  size
    | .First => size (0 : UInt8)
    | .Second => size (1 : UInt8)
  enc
    | .First => enc (0 : UInt8)
    | .Second => enc (1 : UInt8)

/-- `AmqpError`, `src/protocol/definitions.rs:587-601`. -/
inductive AmqpError where
  | InternalError
  | NotFound
  | UnauthorizedAccess
  | DecodeError
  | ResourceLimitExceeded
  | NotAllowed
  | InvalidField
  | NotImplemented
  | ResourceLocked
  | PreconditionFailed
  | ResourceDeleted
  | IllegalState
  | FrameSizeTooSmall
deriving DecidableEq

/-- `AmqpError::try_from`, `src/protocol/definitions.rs:602-621`. -/
def AmqpError.tryFrom (v : Symbol) : Res ParseError AmqpError :=
  if v.str = .lit "amqp:internal-error" then .ok .InternalError else
  if v.str = .lit "amqp:not-found" then .ok .NotFound else
  if v.str = .lit "amqp:unauthorized-access" then .ok .UnauthorizedAccess else
  if v.str = .lit "amqp:decode-error" then .ok .DecodeError else
  if v.str = .lit "amqp:resource-limit-exceeded" then .ok .ResourceLimitExceeded else
  if v.str = .lit "amqp:not-allowed" then .ok .NotAllowed else
  if v.str = .lit "amqp:invalid-field" then .ok .InvalidField else
  if v.str = .lit "amqp:not-implemented" then .ok .NotImplemented else
  if v.str = .lit "amqp:resource-locked" then .ok .ResourceLocked else
  if v.str = .lit "amqp:precondition-failed" then .ok .PreconditionFailed else
  if v.str = .lit "amqp:resource-deleted" then .ok .ResourceDeleted else
  if v.str = .lit "amqp:illegal-state" then .ok .IllegalState else
  if v.str = .lit "amqp:frame-size-too-small" then .ok .FrameSizeTooSmall else
  .err (.unknownEnumOption "AmqpError")

/-- `src/protocol/definitions.rs:622-627`. -/
instance : DecodeF AmqpError := ⟨decodeEnum AmqpError.tryFrom⟩

/-- `src/protocol/definitions.rs:628-665`. -/
instance : Encode AmqpError where
  size
    | .InternalError => 19 + 2
    | .NotFound => 14 + 2
    | .UnauthorizedAccess => 24 + 2
    | .DecodeError => 17 + 2
    | .ResourceLimitExceeded => 28 + 2
    | .NotAllowed => 16 + 2
    | .InvalidField => 18 + 2
    | .NotImplemented => 20 + 2
    | .ResourceLocked => 20 + 2
    | .PreconditionFailed => 24 + 2
    | .ResourceDeleted => 21 + 2
    | .IllegalState => 18 + 2
    | .FrameSizeTooSmall => 25 + 2
  enc
    | .InternalError => encStaticSymbol (.lit "amqp:internal-error")
    | .NotFound => encStaticSymbol (.lit "amqp:not-found")
    | .UnauthorizedAccess => encStaticSymbol (.lit "amqp:unauthorized-access")
    | .DecodeError => encStaticSymbol (.lit "amqp:decode-error")
    | .ResourceLimitExceeded => encStaticSymbol (.lit "amqp:resource-limit-exceeded")
    | .NotAllowed => encStaticSymbol (.lit "amqp:not-allowed")
    | .InvalidField => encStaticSymbol (.lit "amqp:invalid-field")
    | .NotImplemented => encStaticSymbol (.lit "amqp:not-implemented")
    | .ResourceLocked => encStaticSymbol (.lit "amqp:resource-locked")
    | .PreconditionFailed => encStaticSymbol (.lit "amqp:precondition-failed")
    | .ResourceDeleted => encStaticSymbol (.lit "amqp:resource-deleted")
    | .IllegalState => encStaticSymbol (.lit "amqp:illegal-state")
    | .FrameSizeTooSmall => encStaticSymbol (.lit "amqp:frame-size-too-small")

/-- `ConnectionError`, `src/protocol/definitions.rs:667-671`. -/
inductive ConnectionError where
  | ConnectionForced
  | FramingError
  | Redirect
deriving DecidableEq

/-- `ConnectionError::try_from`, `src/protocol/definitions.rs:672-681`. -/
def ConnectionError.tryFrom (v : Symbol) : Res ParseError ConnectionError :=
  if v.str = .lit "amqp:connection:forced" then .ok .ConnectionForced else
  if v.str = .lit "amqp:connection:framing-error" then .ok .FramingError else
  if v.str = .lit "amqp:connection:redirect" then .ok .Redirect else
  .err (.unknownEnumOption "ConnectionError")

/-- `src/protocol/definitions.rs:682-687`. -/
instance : DecodeF ConnectionError := ⟨decodeEnum ConnectionError.tryFrom⟩

/-- `src/protocol/definitions.rs:688-705`. -/
instance : Encode ConnectionError where
  size
    | .ConnectionForced => 22 + 2
    | .FramingError => 29 + 2
    | .Redirect => 24 + 2
  enc
    | .ConnectionForced => encStaticSymbol (.lit "amqp:connection:forced")
    | .FramingError => encStaticSymbol (.lit "amqp:connection:framing-error")
    | .Redirect => encStaticSymbol (.lit "amqp:connection:redirect")

/-- `SessionError`, `src/protocol/definitions.rs:707-712`. -/
inductive SessionError where
  | WindowViolation
  | ErrantLink
  | HandleInUse
  | UnattachedHandle
deriving DecidableEq

/-- `SessionError::try_from`, `src/protocol/definitions.rs:713-723`. -/
def SessionError.tryFrom (v : Symbol) : Res ParseError SessionError :=
  if v.str = .lit "amqp:session:window-violation" then .ok .WindowViolation else
  if v.str = .lit "amqp:session:errant-link" then .ok .ErrantLink else
  if v.str = .lit "amqp:session:handle-in-use" then .ok .HandleInUse else
  if v.str = .lit "amqp:session:unattached-handle" then .ok .UnattachedHandle else
  .err (.unknownEnumOption "SessionError")

/-- `src/protocol/definitions.rs:724-729`. -/
instance : DecodeF SessionError := ⟨decodeEnum SessionError.tryFrom⟩

/-- `src/protocol/definitions.rs:730-751`. -/
instance : Encode SessionError where
  size
    | .WindowViolation => 29 + 2
    | .ErrantLink => 24 + 2
    | .HandleInUse => 26 + 2
    | .UnattachedHandle => 30 + 2
  enc
    | .WindowViolation => encStaticSymbol (.lit "amqp:session:window-violation")
    | .ErrantLink => encStaticSymbol (.lit "amqp:session:errant-link")
    | .HandleInUse => encStaticSymbol (.lit "amqp:session:handle-in-use")
    | .UnattachedHandle => encStaticSymbol (.lit "amqp:session:unattached-handle")

/-- `LinkError`, `src/protocol/definitions.rs:753-759`. -/
inductive LinkError where
  | DetachForced
  | TransferLimitExceeded
  | MessageSizeExceeded
  | Redirect
  | Stolen
deriving DecidableEq

/-- `LinkError::try_from`, `src/protocol/definitions.rs:760-771`. -/
def LinkError.tryFrom (v : Symbol) : Res ParseError LinkError :=
  if v.str = .lit "amqp:link:detach-forced" then .ok .DetachForced else
  if v.str = .lit "amqp:link:transfer-limit-exceeded" then .ok .TransferLimitExceeded else
  if v.str = .lit "amqp:link:message-size-exceeded" then .ok .MessageSizeExceeded else
  if v.str = .lit "amqp:link:redirect" then .ok .Redirect else
  if v.str = .lit "amqp:link:stolen" then .ok .Stolen else
  .err (.unknownEnumOption "LinkError")

/-- `src/protocol/definitions.rs:772-777`. -/
instance : DecodeF LinkError := ⟨decodeEnum LinkError.tryFrom⟩

/-- `src/protocol/definitions.rs:778-801`. -/
instance : Encode LinkError where
  size
    | .DetachForced => 23 + 2
    | .TransferLimitExceeded => 33 + 2
    | .MessageSizeExceeded => 31 + 2
    | .Redirect => 18 + 2
    | .Stolen => 16 + 2
  enc
    | .DetachForced => encStaticSymbol (.lit "amqp:link:detach-forced")
    | .TransferLimitExceeded => encStaticSymbol (.lit "amqp:link:transfer-limit-exceeded")
    | .MessageSizeExceeded => encStaticSymbol (.lit "amqp:link:message-size-exceeded")
    | .Redirect => encStaticSymbol (.lit "amqp:link:redirect")
    | .Stolen => encStaticSymbol (.lit "amqp:link:stolen")

/-- `SaslCode`, `src/protocol/definitions.rs:803-809`. -/
inductive SaslCode where
  | Ok
  | Auth
  | Sys
  | SysPerm
  | SysTemp
deriving DecidableEq

/-- `SaslCode::try_from`, `src/protocol/definitions.rs:810-821`. -/
def SaslCode.tryFrom (v : UInt8) : Res ParseError SaslCode :=
  if v = 0 then .ok .Ok else
  if v = 1 then .ok .Auth else
  if v = 2 then .ok .Sys else
  if v = 3 then .ok .SysPerm else
  if v = 4 then .ok .SysTemp else
  .err (.unknownEnumOption "SaslCode")

/-- `src/protocol/definitions.rs:822-827`. -/
instance : DecodeF SaslCode := ⟨decodeEnum SaslCode.tryFrom⟩

/-- `src/protocol/definitions.rs:828-877`. -/
instance : Encode SaslCode where
  size
    | .Ok => size (0 : UInt8)
    | .Auth => size (1 : UInt8)
    | .Sys => size (2 : UInt8)
    | .SysPerm => size (3 : UInt8)
    | .SysTemp => size (4 : UInt8)
  enc
    | .Ok => enc (0 : UInt8)
    | .Auth => enc (1 : UInt8)
    | .Sys => enc (2 : UInt8)
    | .SysPerm => enc (3 : UInt8)
    | .SysTemp => enc (4 : UInt8)

/-- `TerminusDurability`, `src/protocol/definitions.rs:879-883`. -/
inductive TerminusDurability where
  | None
  | Configuration
  | UnsettledState
deriving DecidableEq

/-- `TerminusDurability::try_from`, `src/protocol/definitions.rs:884-893`. -/
def TerminusDurability.tryFrom (v : UInt32) : Res ParseError TerminusDurability :=
  if v = 0 then .ok .None else
  if v = 1 then .ok .Configuration else
  if v = 2 then .ok .UnsettledState else
  .err (.unknownEnumOption "TerminusDurability")

/-- `src/protocol/definitions.rs:894-899`. -/
instance : DecodeF TerminusDurability := ⟨decodeEnum TerminusDurability.tryFrom⟩

/-- `src/protocol/definitions.rs:900-933`. -/
instance : Encode TerminusDurability where
  size
    | .None => size (0 : UInt32)
    | .Configuration => size (1 : UInt32)
    | .UnsettledState => size (2 : UInt32)
  enc
    | .None => enc (0 : UInt32)
    | .Configuration => enc (1 : UInt32)
    | .UnsettledState => enc (2 : UInt32)

/-- `TerminusExpiryPolicy`, `src/protocol/definitions.rs:935-940`. -/
inductive TerminusExpiryPolicy where
  | LinkDetach
  | SessionEnd
  | ConnectionClose
  | Never
deriving DecidableEq

/-- `TerminusExpiryPolicy::try_from`, `src/protocol/definitions.rs:941-951`. -/
def TerminusExpiryPolicy.tryFrom (v : Symbol) : Res ParseError TerminusExpiryPolicy :=
  if v.str = .lit "link-detach" then .ok .LinkDetach else
  if v.str = .lit "session-end" then .ok .SessionEnd else
  if v.str = .lit "connection-close" then .ok .ConnectionClose else
  if v.str = .lit "never" then .ok .Never else
  .err (.unknownEnumOption "TerminusExpiryPolicy")

/-- `src/protocol/definitions.rs:952-957`. -/
instance : DecodeF TerminusExpiryPolicy := ⟨decodeEnum TerminusExpiryPolicy.tryFrom⟩

/-- `src/protocol/definitions.rs:958-975`. -/
instance : Encode TerminusExpiryPolicy where
  size
    | .LinkDetach => 11 + 2
    | .SessionEnd => 11 + 2
    | .ConnectionClose => 16 + 2
    | .Never => 5 + 2
  enc
    | .LinkDetach => encStaticSymbol (.lit "link-detach")
    | .SessionEnd => encStaticSymbol (.lit "session-end")
    | .ConnectionClose => encStaticSymbol (.lit "connection-close")
    | .Never => encStaticSymbol (.lit "never")

end Amqp
