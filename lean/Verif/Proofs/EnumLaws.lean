import Verif.Proofs.ListLaws
import Verif.Protocol.Conditions
/-! Generated by `tools/gen_protocol.py`: laws of the restricted enumerations. -/
namespace Amqp

/-- The wire value of each `Role`. -/
def Role.base : Role → Bool
  | .Sender => false
  | .Receiver => true

instance : EnumType Role Bool where
  base := Role.base
  tryFrom := Role.tryFrom
  decF_eq _ _ := rfl
  tryFrom_base e := by cases e <;> decide
  base_of b e h := by
    unfold Role.tryFrom at h
    repeat refine ite_ok_elim (fun hs h => by cases h; exact hs) ?_ h; clear h; intro h
    cases h
  no_panic b := by
    unfold Role.tryFrom
    repeat refine noPanic_ite (Res.noPanic_ok _) ?_
    exact Res.noPanic_err _
  enc_eq e := by cases e <;> rfl
  size_eq e := by cases e <;> rfl
instance : HasWf Role := wfAll _
instance : LawfulEnc Role := enumLawfulEnc
instance : LawfulDec Role := enumLawfulDec
instance : SafeDec Role := enumSafeDec
instance : NonNull Role := enumNonNull
instance : LawfulCodec Role := ⟨fun env e _ => enumReads env e (trivial)⟩

/-- The wire value of each `SenderSettleMode`. -/
def SenderSettleMode.base : SenderSettleMode → UInt8
  | .Unsettled => 0
  | .Settled => 1
  | .Mixed => 2

instance : EnumType SenderSettleMode UInt8 where
  base := SenderSettleMode.base
  tryFrom := SenderSettleMode.tryFrom
  decF_eq _ _ := rfl
  tryFrom_base e := by cases e <;> decide
  base_of b e h := by
    unfold SenderSettleMode.tryFrom at h
    repeat refine ite_ok_elim (fun hs h => by cases h; exact hs) ?_ h; clear h; intro h
    cases h
  no_panic b := by
    unfold SenderSettleMode.tryFrom
    repeat refine noPanic_ite (Res.noPanic_ok _) ?_
    exact Res.noPanic_err _
  enc_eq e := by cases e <;> rfl
  size_eq e := by cases e <;> rfl
instance : HasWf SenderSettleMode := wfAll _
instance : LawfulEnc SenderSettleMode := enumLawfulEnc
instance : LawfulDec SenderSettleMode := enumLawfulDec
instance : SafeDec SenderSettleMode := enumSafeDec
instance : NonNull SenderSettleMode := enumNonNull
instance : LawfulCodec SenderSettleMode := ⟨fun env e _ => enumReads env e (trivial)⟩

/-- The wire value of each `ReceiverSettleMode`. -/
def ReceiverSettleMode.base : ReceiverSettleMode → UInt8
  | .First => 0
  | .Second => 1

instance : EnumType ReceiverSettleMode UInt8 where
  base := ReceiverSettleMode.base
  tryFrom := ReceiverSettleMode.tryFrom
  decF_eq _ _ := rfl
  tryFrom_base e := by cases e <;> decide
  base_of b e h := by
    unfold ReceiverSettleMode.tryFrom at h
    repeat refine ite_ok_elim (fun hs h => by cases h; exact hs) ?_ h; clear h; intro h
    cases h
  no_panic b := by
    unfold ReceiverSettleMode.tryFrom
    repeat refine noPanic_ite (Res.noPanic_ok _) ?_
    exact Res.noPanic_err _
  enc_eq e := by cases e <;> rfl
  size_eq e := by cases e <;> rfl
instance : HasWf ReceiverSettleMode := wfAll _
instance : LawfulEnc ReceiverSettleMode := enumLawfulEnc
instance : LawfulDec ReceiverSettleMode := enumLawfulDec
instance : SafeDec ReceiverSettleMode := enumSafeDec
instance : NonNull ReceiverSettleMode := enumNonNull
instance : LawfulCodec ReceiverSettleMode := ⟨fun env e _ => enumReads env e (trivial)⟩

/-- The wire value of each `AmqpError`. -/
def AmqpError.base : AmqpError → Symbol
  | .InternalError => ⟨.lit "amqp:internal-error"⟩
  | .NotFound => ⟨.lit "amqp:not-found"⟩
  | .UnauthorizedAccess => ⟨.lit "amqp:unauthorized-access"⟩
  | .DecodeError => ⟨.lit "amqp:decode-error"⟩
  | .ResourceLimitExceeded => ⟨.lit "amqp:resource-limit-exceeded"⟩
  | .NotAllowed => ⟨.lit "amqp:not-allowed"⟩
  | .InvalidField => ⟨.lit "amqp:invalid-field"⟩
  | .NotImplemented => ⟨.lit "amqp:not-implemented"⟩
  | .ResourceLocked => ⟨.lit "amqp:resource-locked"⟩
  | .PreconditionFailed => ⟨.lit "amqp:precondition-failed"⟩
  | .ResourceDeleted => ⟨.lit "amqp:resource-deleted"⟩
  | .IllegalState => ⟨.lit "amqp:illegal-state"⟩
  | .FrameSizeTooSmall => ⟨.lit "amqp:frame-size-too-small"⟩

instance : EnumType AmqpError Symbol where
  base := AmqpError.base
  tryFrom := AmqpError.tryFrom
  decF_eq _ _ := rfl
  tryFrom_base e := by cases e <;> decide
  base_of b e h := by
    unfold AmqpError.tryFrom at h
    repeat refine ite_ok_elim (fun hs h => by cases h; exact (Symbol.eq_of_str hs)) ?_ h; clear h; intro h
    cases h
  no_panic b := by
    unfold AmqpError.tryFrom
    repeat refine noPanic_ite (Res.noPanic_ok _) ?_
    exact Res.noPanic_err _
  enc_eq e := by cases e <;> rfl
  size_eq e := by cases e <;> decide
instance : HasWf AmqpError := wfAll _
instance : LawfulEnc AmqpError := enumLawfulEnc
instance : LawfulDec AmqpError := enumLawfulDec
instance : SafeDec AmqpError := enumSafeDec
instance : NonNull AmqpError := enumNonNull
instance : LawfulCodec AmqpError := ⟨fun env e _ => enumReads env e (by show (AmqpError.base e).str.bytes.length < 2 ^ 32; cases e <;> decide)⟩

/-- The wire value of each `ConnectionError`. -/
def ConnectionError.base : ConnectionError → Symbol
  | .ConnectionForced => ⟨.lit "amqp:connection:forced"⟩
  | .FramingError => ⟨.lit "amqp:connection:framing-error"⟩
  | .Redirect => ⟨.lit "amqp:connection:redirect"⟩

instance : EnumType ConnectionError Symbol where
  base := ConnectionError.base
  tryFrom := ConnectionError.tryFrom
  decF_eq _ _ := rfl
  tryFrom_base e := by cases e <;> decide
  base_of b e h := by
    unfold ConnectionError.tryFrom at h
    repeat refine ite_ok_elim (fun hs h => by cases h; exact (Symbol.eq_of_str hs)) ?_ h; clear h; intro h
    cases h
  no_panic b := by
    unfold ConnectionError.tryFrom
    repeat refine noPanic_ite (Res.noPanic_ok _) ?_
    exact Res.noPanic_err _
  enc_eq e := by cases e <;> rfl
  size_eq e := by cases e <;> decide
instance : HasWf ConnectionError := wfAll _
instance : LawfulEnc ConnectionError := enumLawfulEnc
instance : LawfulDec ConnectionError := enumLawfulDec
instance : SafeDec ConnectionError := enumSafeDec
instance : NonNull ConnectionError := enumNonNull
instance : LawfulCodec ConnectionError := ⟨fun env e _ => enumReads env e (by show (ConnectionError.base e).str.bytes.length < 2 ^ 32; cases e <;> decide)⟩

/-- The wire value of each `SessionError`. -/
def SessionError.base : SessionError → Symbol
  | .WindowViolation => ⟨.lit "amqp:session:window-violation"⟩
  | .ErrantLink => ⟨.lit "amqp:session:errant-link"⟩
  | .HandleInUse => ⟨.lit "amqp:session:handle-in-use"⟩
  | .UnattachedHandle => ⟨.lit "amqp:session:unattached-handle"⟩

instance : EnumType SessionError Symbol where
  base := SessionError.base
  tryFrom := SessionError.tryFrom
  decF_eq _ _ := rfl
  tryFrom_base e := by cases e <;> decide
  base_of b e h := by
    unfold SessionError.tryFrom at h
    repeat refine ite_ok_elim (fun hs h => by cases h; exact (Symbol.eq_of_str hs)) ?_ h; clear h; intro h
    cases h
  no_panic b := by
    unfold SessionError.tryFrom
    repeat refine noPanic_ite (Res.noPanic_ok _) ?_
    exact Res.noPanic_err _
  enc_eq e := by cases e <;> rfl
  size_eq e := by cases e <;> decide
instance : HasWf SessionError := wfAll _
instance : LawfulEnc SessionError := enumLawfulEnc
instance : LawfulDec SessionError := enumLawfulDec
instance : SafeDec SessionError := enumSafeDec
instance : NonNull SessionError := enumNonNull
instance : LawfulCodec SessionError := ⟨fun env e _ => enumReads env e (by show (SessionError.base e).str.bytes.length < 2 ^ 32; cases e <;> decide)⟩

/-- The wire value of each `LinkError`. -/
def LinkError.base : LinkError → Symbol
  | .DetachForced => ⟨.lit "amqp:link:detach-forced"⟩
  | .TransferLimitExceeded => ⟨.lit "amqp:link:transfer-limit-exceeded"⟩
  | .MessageSizeExceeded => ⟨.lit "amqp:link:message-size-exceeded"⟩
  | .Redirect => ⟨.lit "amqp:link:redirect"⟩
  | .Stolen => ⟨.lit "amqp:link:stolen"⟩

instance : EnumType LinkError Symbol where
  base := LinkError.base
  tryFrom := LinkError.tryFrom
  decF_eq _ _ := rfl
  tryFrom_base e := by cases e <;> decide
  base_of b e h := by
    unfold LinkError.tryFrom at h
    repeat refine ite_ok_elim (fun hs h => by cases h; exact (Symbol.eq_of_str hs)) ?_ h; clear h; intro h
    cases h
  no_panic b := by
    unfold LinkError.tryFrom
    repeat refine noPanic_ite (Res.noPanic_ok _) ?_
    exact Res.noPanic_err _
  enc_eq e := by cases e <;> rfl
  size_eq e := by cases e <;> decide
instance : HasWf LinkError := wfAll _
instance : LawfulEnc LinkError := enumLawfulEnc
instance : LawfulDec LinkError := enumLawfulDec
instance : SafeDec LinkError := enumSafeDec
instance : NonNull LinkError := enumNonNull
instance : LawfulCodec LinkError := ⟨fun env e _ => enumReads env e (by show (LinkError.base e).str.bytes.length < 2 ^ 32; cases e <;> decide)⟩

/-- The wire value of each `SaslCode`. -/
def SaslCode.base : SaslCode → UInt8
  | .Ok => 0
  | .Auth => 1
  | .Sys => 2
  | .SysPerm => 3
  | .SysTemp => 4

instance : EnumType SaslCode UInt8 where
  base := SaslCode.base
  tryFrom := SaslCode.tryFrom
  decF_eq _ _ := rfl
  tryFrom_base e := by cases e <;> decide
  base_of b e h := by
    unfold SaslCode.tryFrom at h
    repeat refine ite_ok_elim (fun hs h => by cases h; exact hs) ?_ h; clear h; intro h
    cases h
  no_panic b := by
    unfold SaslCode.tryFrom
    repeat refine noPanic_ite (Res.noPanic_ok _) ?_
    exact Res.noPanic_err _
  enc_eq e := by cases e <;> rfl
  size_eq e := by cases e <;> rfl
instance : HasWf SaslCode := wfAll _
instance : LawfulEnc SaslCode := enumLawfulEnc
instance : LawfulDec SaslCode := enumLawfulDec
instance : SafeDec SaslCode := enumSafeDec
instance : NonNull SaslCode := enumNonNull
instance : LawfulCodec SaslCode := ⟨fun env e _ => enumReads env e (trivial)⟩

/-- The wire value of each `TerminusDurability`. -/
def TerminusDurability.base : TerminusDurability → UInt32
  | .None => 0
  | .Configuration => 1
  | .UnsettledState => 2

instance : EnumType TerminusDurability UInt32 where
  base := TerminusDurability.base
  tryFrom := TerminusDurability.tryFrom
  decF_eq _ _ := rfl
  tryFrom_base e := by cases e <;> decide
  base_of b e h := by
    unfold TerminusDurability.tryFrom at h
    repeat refine ite_ok_elim (fun hs h => by cases h; exact hs) ?_ h; clear h; intro h
    cases h
  no_panic b := by
    unfold TerminusDurability.tryFrom
    repeat refine noPanic_ite (Res.noPanic_ok _) ?_
    exact Res.noPanic_err _
  enc_eq e := by cases e <;> rfl
  size_eq e := by cases e <;> rfl
instance : HasWf TerminusDurability := wfAll _
instance : LawfulEnc TerminusDurability := enumLawfulEnc
instance : LawfulDec TerminusDurability := enumLawfulDec
instance : SafeDec TerminusDurability := enumSafeDec
instance : NonNull TerminusDurability := enumNonNull
instance : LawfulCodec TerminusDurability := ⟨fun env e _ => enumReads env e (trivial)⟩

/-- The wire value of each `TerminusExpiryPolicy`. -/
def TerminusExpiryPolicy.base : TerminusExpiryPolicy → Symbol
  | .LinkDetach => ⟨.lit "link-detach"⟩
  | .SessionEnd => ⟨.lit "session-end"⟩
  | .ConnectionClose => ⟨.lit "connection-close"⟩
  | .Never => ⟨.lit "never"⟩

instance : EnumType TerminusExpiryPolicy Symbol where
  base := TerminusExpiryPolicy.base
  tryFrom := TerminusExpiryPolicy.tryFrom
  decF_eq _ _ := rfl
  tryFrom_base e := by cases e <;> decide
  base_of b e h := by
    unfold TerminusExpiryPolicy.tryFrom at h
    repeat refine ite_ok_elim (fun hs h => by cases h; exact (Symbol.eq_of_str hs)) ?_ h; clear h; intro h
    cases h
  no_panic b := by
    unfold TerminusExpiryPolicy.tryFrom
    repeat refine noPanic_ite (Res.noPanic_ok _) ?_
    exact Res.noPanic_err _
  enc_eq e := by cases e <;> rfl
  size_eq e := by cases e <;> decide
instance : HasWf TerminusExpiryPolicy := wfAll _
instance : LawfulEnc TerminusExpiryPolicy := enumLawfulEnc
instance : LawfulDec TerminusExpiryPolicy := enumLawfulDec
instance : SafeDec TerminusExpiryPolicy := enumSafeDec
instance : NonNull TerminusExpiryPolicy := enumNonNull
instance : LawfulCodec TerminusExpiryPolicy := ⟨fun env e _ => enumReads env e (by show (TerminusExpiryPolicy.base e).str.bytes.length < 2 ^ 32; cases e <;> decide)⟩

end Amqp
