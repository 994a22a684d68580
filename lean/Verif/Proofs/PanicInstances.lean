import Verif.Proofs.PanicLists
/-! Generated by `tools/gen_protocol.py`: every panic of the decoders of list
types and described unions has a cause. -/
set_option autoImplicit false
namespace Amqp
open Dec

instance : FieldsBlame (ListType.fields Error) := by
  unfold ListType.fields instListTypeError; dsimp only; infer_instance
instance : PanicLaw Error := listPanicLaw

instance : FieldsBlame (ListType.fields Received) := by
  unfold ListType.fields instListTypeReceived; dsimp only; infer_instance
instance : PanicLaw Received := listPanicLaw

instance : FieldsBlame (ListType.fields Accepted) := by
  unfold ListType.fields instListTypeAccepted; dsimp only; infer_instance
instance : PanicLaw Accepted := listPanicLaw

instance : FieldsBlame (ListType.fields Rejected) := by
  unfold ListType.fields instListTypeRejected; dsimp only; infer_instance
instance : PanicLaw Rejected := listPanicLaw

instance : FieldsBlame (ListType.fields Released) := by
  unfold ListType.fields instListTypeReleased; dsimp only; infer_instance
instance : PanicLaw Released := listPanicLaw

instance : FieldsBlame (ListType.fields Modified) := by
  unfold ListType.fields instListTypeModified; dsimp only; infer_instance
instance : PanicLaw Modified := listPanicLaw

theorem DeliveryState.blames_dispatch (env : Env) (d : Descriptor) :
    Blames env.overflowChecks env.stackDepth (DeliveryState.dispatch env d) := by
  unfold DeliveryState.dispatch
  repeat' apply Blames.ite
  all_goals first
    | exact Blames.fail _
    | exact (blames_decode _).map _
    | exact (inner_blames (α := Amqp.Received) env).map _
    | exact (inner_blames (α := Amqp.Accepted) env).map _
    | exact (inner_blames (α := Amqp.Rejected) env).map _
    | exact (inner_blames (α := Amqp.Released) env).map _
    | exact (inner_blames (α := Amqp.Modified) env).map _
instance : PanicLaw DeliveryState := ⟨fun env fmt => validateCode_fmtBlames (FmtBlames.of_blames
  ((blames_decode _).bind (loc_decode _) fun d => DeliveryState.blames_dispatch env d))⟩

theorem Outcome.blames_dispatch (env : Env) (d : Descriptor) :
    Blames env.overflowChecks env.stackDepth (Outcome.dispatch env d) := by
  unfold Outcome.dispatch
  repeat' apply Blames.ite
  all_goals first
    | exact Blames.fail _
    | exact (blames_decode _).map _
    | exact (inner_blames (α := Amqp.Accepted) env).map _
    | exact (inner_blames (α := Amqp.Rejected) env).map _
    | exact (inner_blames (α := Amqp.Released) env).map _
    | exact (inner_blames (α := Amqp.Modified) env).map _
instance : PanicLaw Outcome := ⟨fun env fmt => validateCode_fmtBlames (FmtBlames.of_blames
  ((blames_decode _).bind (loc_decode _) fun d => Outcome.blames_dispatch env d))⟩

instance : FieldsBlame (ListType.fields Source) := by
  unfold ListType.fields instListTypeSource; dsimp only; infer_instance
instance : PanicLaw Source := listPanicLaw

instance : FieldsBlame (ListType.fields Target) := by
  unfold ListType.fields instListTypeTarget; dsimp only; infer_instance
instance : PanicLaw Target := listPanicLaw

instance : FieldsBlame (ListType.fields Open) := by
  unfold ListType.fields instListTypeOpen; dsimp only; infer_instance
instance : PanicLaw Open := listPanicLaw

instance : FieldsBlame (ListType.fields Begin) := by
  unfold ListType.fields instListTypeBegin; dsimp only; infer_instance
instance : PanicLaw Begin := listPanicLaw

instance : FieldsBlame (ListType.fields Attach) := by
  unfold ListType.fields instListTypeAttach; dsimp only; infer_instance
instance : PanicLaw Attach := listPanicLaw

instance : FieldsBlame (ListType.fields Flow) := by
  unfold ListType.fields instListTypeFlow; dsimp only; infer_instance
instance : PanicLaw Flow := listPanicLaw

instance : FieldsBlame (ListType.fields Disposition) := by
  unfold ListType.fields instListTypeDisposition; dsimp only; infer_instance
instance : PanicLaw Disposition := listPanicLaw

instance : FieldsBlame (ListType.fields Detach) := by
  unfold ListType.fields instListTypeDetach; dsimp only; infer_instance
instance : PanicLaw Detach := listPanicLaw

instance : FieldsBlame (ListType.fields End) := by
  unfold ListType.fields instListTypeEnd; dsimp only; infer_instance
instance : PanicLaw End := listPanicLaw

instance : FieldsBlame (ListType.fields Close) := by
  unfold ListType.fields instListTypeClose; dsimp only; infer_instance
instance : PanicLaw Close := listPanicLaw

instance : FieldsBlame (ListType.fields TransferPerf) := by
  unfold ListType.fields instListTypeTransferPerf; dsimp only; infer_instance
instance : PanicLaw TransferPerf := listPanicLaw

instance : FieldsBlame (ListType.fields SaslMechanisms) := by
  unfold ListType.fields instListTypeSaslMechanisms; dsimp only; infer_instance
instance : PanicLaw SaslMechanisms := listPanicLaw

instance : FieldsBlame (ListType.fields SaslInit) := by
  unfold ListType.fields instListTypeSaslInit; dsimp only; infer_instance
instance : PanicLaw SaslInit := listPanicLaw

instance : FieldsBlame (ListType.fields SaslChallenge) := by
  unfold ListType.fields instListTypeSaslChallenge; dsimp only; infer_instance
instance : PanicLaw SaslChallenge := listPanicLaw

instance : FieldsBlame (ListType.fields SaslResponse) := by
  unfold ListType.fields instListTypeSaslResponse; dsimp only; infer_instance
instance : PanicLaw SaslResponse := listPanicLaw

instance : FieldsBlame (ListType.fields SaslOutcome) := by
  unfold ListType.fields instListTypeSaslOutcome; dsimp only; infer_instance
instance : PanicLaw SaslOutcome := listPanicLaw

theorem SaslFrameBody.blames_dispatch (env : Env) (d : Descriptor) :
    Blames env.overflowChecks env.stackDepth (SaslFrameBody.dispatch env d) := by
  unfold SaslFrameBody.dispatch
  repeat' apply Blames.ite
  all_goals first
    | exact Blames.fail _
    | exact (blames_decode _).map _
    | exact (inner_blames (α := Amqp.SaslMechanisms) env).map _
    | exact (inner_blames (α := Amqp.SaslInit) env).map _
    | exact (inner_blames (α := Amqp.SaslChallenge) env).map _
    | exact (inner_blames (α := Amqp.SaslResponse) env).map _
    | exact (inner_blames (α := Amqp.SaslOutcome) env).map _
instance : PanicLaw SaslFrameBody := ⟨fun env fmt => validateCode_fmtBlames (FmtBlames.of_blames
  ((blames_decode _).bind (loc_decode _) fun d => SaslFrameBody.blames_dispatch env d))⟩

instance : FieldsBlame (ListType.fields Header) := by
  unfold ListType.fields instListTypeHeader; dsimp only; infer_instance
instance : PanicLaw Header := listPanicLaw

instance : FieldsBlame (ListType.fields Properties) := by
  unfold ListType.fields instListTypeProperties; dsimp only; infer_instance
instance : PanicLaw Properties := listPanicLaw

theorem Section.blames_dispatch (env : Env) (d : Descriptor) :
    Blames env.overflowChecks env.stackDepth (Section.dispatch env d) := by
  unfold Section.dispatch
  repeat' apply Blames.ite
  all_goals first
    | exact Blames.fail _
    | exact (blames_decode _).map _
    | exact (inner_blames (α := Amqp.Header) env).map _
    | exact (inner_blames (α := Amqp.Properties) env).map _
instance : PanicLaw Section := ⟨fun env fmt => validateCode_fmtBlames (FmtBlames.of_blames
  ((blames_decode _).bind (loc_decode _) fun d => Section.blames_dispatch env d))⟩

end Amqp
