import Verif.Spec.Sent
import Verif.Spec.Standard
import Verif.Spec.EqualityFrames
import Verif.Spec.Frames
/-!
# What becomes of fields, performatives and frames on their way

Specification vocabulary for C86: what the receiver gets of each part of a frame that was
encoded by this crate and is decoded by it, and in which order the parts are looked at.
Nothing here models code of the repository.
-/
set_option autoImplicit false
namespace Amqp

/-- The next thing is looked at only if the one before has arrived. -/
instance : Monad Fate where
  pure := .arrives
  bind := Fate.andThen

/-- What becomes of the values of a type, at a given receiver. -/
class HasFate (α : Type) where
  fate : Env → α → Fate α

export HasFate (fate)

/-- Values that arrive as they are. -/
@[reducible] def HasFate.same (α : Type) : HasFate α := ⟨fun _ v => .arrives v⟩

instance : HasFate Bool := .same _
instance : HasFate UInt8 := .same _
instance : HasFate UInt16 := .same _
instance : HasFate UInt32 := .same _
instance : HasFate UInt64 := .same _
instance : HasFate RStr := .same _
instance : HasFate Symbol := .same _
instance : HasFate Binary := .same _
instance : HasFate MessageId := .same _
instance : HasFate Role := .same _
instance : HasFate SenderSettleMode := .same _
instance : HasFate ReceiverSettleMode := .same _
instance : HasFate SaslCode := .same _
instance : HasFate TerminusDurability := .same _
instance : HasFate TerminusExpiryPolicy := .same _
instance : HasFate FilterSet := .same _

instance : HasFate DateTime := ⟨fun _ t => t.sent⟩
instance : HasFate Variant := ⟨fun env v => v.sent env.stackDepth⟩
instance : HasFate (HMap Symbol Variant) :=
  ⟨fun env m => do pure ⟨← sentValues env.stackDepth m.entries⟩⟩
instance : HasFate (HMap Str Variant) :=
  ⟨fun env m => do pure ⟨← sentValues env.stackDepth m.entries⟩⟩
instance : HasFate (HMap Variant Variant) :=
  ⟨fun env m => do pure ⟨Lenient.merged (← sentMap env.stackDepth m.entries)⟩⟩

/-- Lists are refused. -/
instance : HasFate VList := ⟨fun _ _ => .refused⟩

instance {α : Type} [HasFate α] : HasFate (Option α) := ⟨fun env o => match o with
  | none => .arrives none
  | some v => do pure (some (← fate env v))⟩

/-- One symbol, or none, or several.  Other than one are sent as an array, whose size field
says 0 if they take 254 bytes, four for the length of each included; a receiver that checks
its arithmetic panics. -/
instance : HasFate (Multiple Symbol) := ⟨fun env m =>
  if env.overflowChecks = true ∧ m.items.length ≠ 1 ∧
      (m.items.map fun s => 4 + s.str.bytes.length).sum = 254 then .crashes .overflow
  else .arrives m⟩

/-- The error conditions of the standard. -/
def standardConditions : List ErrorCondition :=
  [AmqpError.InternalError, .NotFound, .UnauthorizedAccess, .DecodeError, .ResourceLimitExceeded,
    .NotAllowed, .InvalidField, .NotImplemented, .ResourceLocked, .PreconditionFailed,
    .ResourceDeleted, .IllegalState, .FrameSizeTooSmall].map .AmqpError ++
  [ConnectionError.ConnectionForced, .FramingError, .Redirect].map .ConnectionError ++
  [SessionError.WindowViolation, .ErrantLink, .HandleInUse, .UnattachedHandle].map .SessionError ++
  [LinkError.DetachForced, .TransferLimitExceeded, .MessageSizeExceeded, .Redirect, .Stolen].map
    .LinkError

/-- The name of an error condition. -/
def conditionName : ErrorCondition → Symbol
  | .AmqpError e => ⟨.lit (Standard.amqpError e)⟩
  | .ConnectionError e => ⟨.lit (Standard.connectionError e)⟩
  | .SessionError e => ⟨.lit (Standard.sessionError e)⟩
  | .LinkError e => ⟨.lit (Standard.linkError e)⟩
  | .Custom s => s

/-- A custom condition with the name of a standard one arrives as the standard one. -/
instance : HasFate ErrorCondition := ⟨fun _ c =>
  .arrives ((standardConditions.find? fun d => conditionName d = conditionName c).getD c)⟩

/-- The name of a distribution mode. -/
def modeName : DistributionMode → Symbol
  | .Move => ⟨.lit "move"⟩
  | .Copy => ⟨.lit "copy"⟩
  | .Custom s => s

/-- Likewise for distribution modes. -/
instance : HasFate DistributionMode := ⟨fun _ c =>
  .arrives (([.Move, .Copy].find? fun d => modeName d = modeName c).getD c)⟩

end Amqp
