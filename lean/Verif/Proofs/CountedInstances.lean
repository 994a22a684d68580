import Verif.Protocol.Counted
import Verif.Proofs.CountedLaws
/-! Generated by `tools/gen_protocol.py`: the counting decoders of the protocol types
keep the limits. -/
set_option autoImplicit false
namespace Amqp
open Dec

instance : Metered Role :=
  metered_enum Role.tryFrom (fun _ _ => rfl) fun _ _ _ => rfl
instance : Metered SenderSettleMode :=
  metered_enum SenderSettleMode.tryFrom (fun _ _ => rfl) fun _ _ _ => rfl
instance : Metered ReceiverSettleMode :=
  metered_enum ReceiverSettleMode.tryFrom (fun _ _ => rfl) fun _ _ _ => rfl
instance : Metered AmqpError :=
  metered_enum AmqpError.tryFrom (fun _ _ => rfl) fun _ _ _ => rfl
instance : Metered ConnectionError :=
  metered_enum ConnectionError.tryFrom (fun _ _ => rfl) fun _ _ _ => rfl
instance : Metered SessionError :=
  metered_enum SessionError.tryFrom (fun _ _ => rfl) fun _ _ _ => rfl
instance : Metered LinkError :=
  metered_enum LinkError.tryFrom (fun _ _ => rfl) fun _ _ _ => rfl
instance : Metered SaslCode :=
  metered_enum SaslCode.tryFrom (fun _ _ => rfl) fun _ _ _ => rfl
instance : Metered TerminusDurability :=
  metered_enum TerminusDurability.tryFrom (fun _ _ => rfl) fun _ _ _ => rfl
instance : Metered TerminusExpiryPolicy :=
  metered_enum TerminusExpiryPolicy.tryFrom (fun _ _ => rfl) fun _ _ _ => rfl

theorem Error.met_fields (env : Env) :
    MetF (Error.decFields env) fun p => Error.decFieldsC p env :=
  (metF_req env _).bind fun _ =>
    (metF_opt env).bind fun _ =>
    (metF_opt env).bind fun _ =>
    MetF.pure _
theorem Error.met_inner (env : Env) :
    Met 0 1 (Error.decInner env) fun p => Error.decInnerC p env :=
  met_listInner (Error.met_fields env) env
instance : Metered Error := ⟨fun env fmt =>
  (met_describedAs (Error.met_inner env) env fmt _ _).mono (by omega) (by omega)⟩

theorem Received.met_fields (env : Env) :
    MetF (Received.decFields env) fun p => Received.decFieldsC p env :=
  (metF_req env _).bind fun _ =>
    (metF_req env _).bind fun _ =>
    MetF.pure _
theorem Received.met_inner (env : Env) :
    Met 0 1 (Received.decInner env) fun p => Received.decInnerC p env :=
  met_listInner (Received.met_fields env) env
instance : Metered Received := ⟨fun env fmt =>
  (met_describedAs (Received.met_inner env) env fmt _ _).mono (by omega) (by omega)⟩

theorem Accepted.met_fields (env : Env) :
    MetF (Accepted.decFields env) fun p => Accepted.decFieldsC p env :=
  MetF.pure _
theorem Accepted.met_inner (env : Env) :
    Met 0 1 (Accepted.decInner env) fun p => Accepted.decInnerC p env :=
  met_listInner (Accepted.met_fields env) env
instance : Metered Accepted := ⟨fun env fmt =>
  (met_describedAs (Accepted.met_inner env) env fmt _ _).mono (by omega) (by omega)⟩

theorem Rejected.met_fields (env : Env) :
    MetF (Rejected.decFields env) fun p => Rejected.decFieldsC p env :=
  (metF_opt env).bind fun _ =>
    MetF.pure _
theorem Rejected.met_inner (env : Env) :
    Met 0 1 (Rejected.decInner env) fun p => Rejected.decInnerC p env :=
  met_listInner (Rejected.met_fields env) env
instance : Metered Rejected := ⟨fun env fmt =>
  (met_describedAs (Rejected.met_inner env) env fmt _ _).mono (by omega) (by omega)⟩

theorem Released.met_fields (env : Env) :
    MetF (Released.decFields env) fun p => Released.decFieldsC p env :=
  MetF.pure _
theorem Released.met_inner (env : Env) :
    Met 0 1 (Released.decInner env) fun p => Released.decInnerC p env :=
  met_listInner (Released.met_fields env) env
instance : Metered Released := ⟨fun env fmt =>
  (met_describedAs (Released.met_inner env) env fmt _ _).mono (by omega) (by omega)⟩

theorem Modified.met_fields (env : Env) :
    MetF (Modified.decFields env) fun p => Modified.decFieldsC p env :=
  (metF_opt env).bind fun _ =>
    (metF_opt env).bind fun _ =>
    (metF_opt env).bind fun _ =>
    MetF.pure _
theorem Modified.met_inner (env : Env) :
    Met 0 1 (Modified.decInner env) fun p => Modified.decInnerC p env :=
  met_listInner (Modified.met_fields env) env
instance : Metered Modified := ⟨fun env fmt =>
  (met_describedAs (Modified.met_inner env) env fmt _ _).mono (by omega) (by omega)⟩

theorem DeliveryState.met_dispatch (env : Env) (d : Descriptor) :
    Met 0 0 (DeliveryState.dispatch env d) fun p => DeliveryState.dispatchC p env d :=
  (((Received.met_inner env).map _).mono (by omega) (by omega)).ite <|
  (((Accepted.met_inner env).map _).mono (by omega) (by omega)).ite <|
  (((Rejected.met_inner env).map _).mono (by omega) (by omega)).ite <|
  (((Released.met_inner env).map _).mono (by omega) (by omega)).ite <|
  (((Modified.met_inner env).map _).mono (by omega) (by omega)).ite <|
  (((Received.met_inner env).map _).mono (by omega) (by omega)).ite <|
  (((Accepted.met_inner env).map _).mono (by omega) (by omega)).ite <|
  (((Rejected.met_inner env).map _).mono (by omega) (by omega)).ite <|
  (((Released.met_inner env).map _).mono (by omega) (by omega)).ite <|
  (((Modified.met_inner env).map _).mono (by omega) (by omega)).ite <|
  Met.fail _
instance : Metered DeliveryState := ⟨fun env fmt =>
  (met_union env fmt fun d => DeliveryState.met_dispatch env d).mono (by omega) (by omega)⟩

theorem Outcome.met_dispatch (env : Env) (d : Descriptor) :
    Met 0 0 (Outcome.dispatch env d) fun p => Outcome.dispatchC p env d :=
  (((Accepted.met_inner env).map _).mono (by omega) (by omega)).ite <|
  (((Rejected.met_inner env).map _).mono (by omega) (by omega)).ite <|
  (((Released.met_inner env).map _).mono (by omega) (by omega)).ite <|
  (((Modified.met_inner env).map _).mono (by omega) (by omega)).ite <|
  (((Accepted.met_inner env).map _).mono (by omega) (by omega)).ite <|
  (((Rejected.met_inner env).map _).mono (by omega) (by omega)).ite <|
  (((Released.met_inner env).map _).mono (by omega) (by omega)).ite <|
  (((Modified.met_inner env).map _).mono (by omega) (by omega)).ite <|
  Met.fail _
instance : Metered Outcome := ⟨fun env fmt =>
  (met_union env fmt fun d => Outcome.met_dispatch env d).mono (by omega) (by omega)⟩

theorem Source.met_fields (env : Env) :
    MetF (Source.decFields env) fun p => Source.decFieldsC p env :=
  (metF_opt env).bind fun _ =>
    (metF_def env _).bind fun _ =>
    (metF_def env _).bind fun _ =>
    (metF_def env _).bind fun _ =>
    (metF_def env _).bind fun _ =>
    (metF_opt env).bind fun _ =>
    (metF_opt env).bind fun _ =>
    (metF_opt env).bind fun _ =>
    (metF_opt env).bind fun _ =>
    (metF_opt env).bind fun _ =>
    (metF_opt env).bind fun _ =>
    MetF.pure _
theorem Source.met_inner (env : Env) :
    Met 0 1 (Source.decInner env) fun p => Source.decInnerC p env :=
  met_listInner (Source.met_fields env) env
instance : Metered Source := ⟨fun env fmt =>
  (met_describedAs (Source.met_inner env) env fmt _ _).mono (by omega) (by omega)⟩

theorem Target.met_fields (env : Env) :
    MetF (Target.decFields env) fun p => Target.decFieldsC p env :=
  (metF_opt env).bind fun _ =>
    (metF_def env _).bind fun _ =>
    (metF_def env _).bind fun _ =>
    (metF_def env _).bind fun _ =>
    (metF_def env _).bind fun _ =>
    (metF_opt env).bind fun _ =>
    (metF_opt env).bind fun _ =>
    MetF.pure _
theorem Target.met_inner (env : Env) :
    Met 0 1 (Target.decInner env) fun p => Target.decInnerC p env :=
  met_listInner (Target.met_fields env) env
instance : Metered Target := ⟨fun env fmt =>
  (met_describedAs (Target.met_inner env) env fmt _ _).mono (by omega) (by omega)⟩

theorem Open.met_fields (env : Env) :
    MetF (Open.decFields env) fun p => Open.decFieldsC p env :=
  (metF_req env _).bind fun _ =>
    (metF_opt env).bind fun _ =>
    (metF_def env _).bind fun _ =>
    (metF_def env _).bind fun _ =>
    (metF_opt env).bind fun _ =>
    (metF_opt env).bind fun _ =>
    (metF_opt env).bind fun _ =>
    (metF_opt env).bind fun _ =>
    (metF_opt env).bind fun _ =>
    (metF_opt env).bind fun _ =>
    MetF.pure _
theorem Open.met_inner (env : Env) :
    Met 0 1 (Open.decInner env) fun p => Open.decInnerC p env :=
  met_listInner (Open.met_fields env) env
instance : Metered Open := ⟨fun env fmt =>
  (met_describedAs (Open.met_inner env) env fmt _ _).mono (by omega) (by omega)⟩

theorem Begin.met_fields (env : Env) :
    MetF (Begin.decFields env) fun p => Begin.decFieldsC p env :=
  (metF_opt env).bind fun _ =>
    (metF_req env _).bind fun _ =>
    (metF_req env _).bind fun _ =>
    (metF_req env _).bind fun _ =>
    (metF_def env _).bind fun _ =>
    (metF_opt env).bind fun _ =>
    (metF_opt env).bind fun _ =>
    (metF_opt env).bind fun _ =>
    MetF.pure _
theorem Begin.met_inner (env : Env) :
    Met 0 1 (Begin.decInner env) fun p => Begin.decInnerC p env :=
  met_listInner (Begin.met_fields env) env
instance : Metered Begin := ⟨fun env fmt =>
  (met_describedAs (Begin.met_inner env) env fmt _ _).mono (by omega) (by omega)⟩

theorem Attach.met_fields (env : Env) :
    MetF (Attach.decFields env) fun p => Attach.decFieldsC p env :=
  (metF_req env _).bind fun _ =>
    (metF_req env _).bind fun _ =>
    (metF_req env _).bind fun _ =>
    (metF_def env _).bind fun _ =>
    (metF_def env _).bind fun _ =>
    (metF_opt env).bind fun _ =>
    (metF_opt env).bind fun _ =>
    (metF_opt env).bind fun _ =>
    (metF_def env _).bind fun _ =>
    (metF_opt env).bind fun _ =>
    (metF_opt env).bind fun _ =>
    (metF_opt env).bind fun _ =>
    (metF_opt env).bind fun _ =>
    (metF_opt env).bind fun _ =>
    MetF.pure _
theorem Attach.met_inner (env : Env) :
    Met 0 1 (Attach.decInner env) fun p => Attach.decInnerC p env :=
  met_listInner (Attach.met_fields env) env
instance : Metered Attach := ⟨fun env fmt =>
  (met_describedAs (Attach.met_inner env) env fmt _ _).mono (by omega) (by omega)⟩

theorem Flow.met_fields (env : Env) :
    MetF (Flow.decFields env) fun p => Flow.decFieldsC p env :=
  (metF_opt env).bind fun _ =>
    (metF_req env _).bind fun _ =>
    (metF_req env _).bind fun _ =>
    (metF_req env _).bind fun _ =>
    (metF_opt env).bind fun _ =>
    (metF_opt env).bind fun _ =>
    (metF_opt env).bind fun _ =>
    (metF_opt env).bind fun _ =>
    (metF_def env _).bind fun _ =>
    (metF_def env _).bind fun _ =>
    (metF_opt env).bind fun _ =>
    MetF.pure _
theorem Flow.met_inner (env : Env) :
    Met 0 1 (Flow.decInner env) fun p => Flow.decInnerC p env :=
  met_listInner (Flow.met_fields env) env
instance : Metered Flow := ⟨fun env fmt =>
  (met_describedAs (Flow.met_inner env) env fmt _ _).mono (by omega) (by omega)⟩

theorem Disposition.met_fields (env : Env) :
    MetF (Disposition.decFields env) fun p => Disposition.decFieldsC p env :=
  (metF_req env _).bind fun _ =>
    (metF_req env _).bind fun _ =>
    (metF_opt env).bind fun _ =>
    (metF_def env _).bind fun _ =>
    (metF_opt env).bind fun _ =>
    (metF_def env _).bind fun _ =>
    MetF.pure _
theorem Disposition.met_inner (env : Env) :
    Met 0 1 (Disposition.decInner env) fun p => Disposition.decInnerC p env :=
  met_listInner (Disposition.met_fields env) env
instance : Metered Disposition := ⟨fun env fmt =>
  (met_describedAs (Disposition.met_inner env) env fmt _ _).mono (by omega) (by omega)⟩

theorem Detach.met_fields (env : Env) :
    MetF (Detach.decFields env) fun p => Detach.decFieldsC p env :=
  (metF_req env _).bind fun _ =>
    (metF_def env _).bind fun _ =>
    (metF_opt env).bind fun _ =>
    MetF.pure _
theorem Detach.met_inner (env : Env) :
    Met 0 1 (Detach.decInner env) fun p => Detach.decInnerC p env :=
  met_listInner (Detach.met_fields env) env
instance : Metered Detach := ⟨fun env fmt =>
  (met_describedAs (Detach.met_inner env) env fmt _ _).mono (by omega) (by omega)⟩

theorem End.met_fields (env : Env) :
    MetF (End.decFields env) fun p => End.decFieldsC p env :=
  (metF_opt env).bind fun _ =>
    MetF.pure _
theorem End.met_inner (env : Env) :
    Met 0 1 (End.decInner env) fun p => End.decInnerC p env :=
  met_listInner (End.met_fields env) env
instance : Metered End := ⟨fun env fmt =>
  (met_describedAs (End.met_inner env) env fmt _ _).mono (by omega) (by omega)⟩

theorem Close.met_fields (env : Env) :
    MetF (Close.decFields env) fun p => Close.decFieldsC p env :=
  (metF_opt env).bind fun _ =>
    MetF.pure _
theorem Close.met_inner (env : Env) :
    Met 0 1 (Close.decInner env) fun p => Close.decInnerC p env :=
  met_listInner (Close.met_fields env) env
instance : Metered Close := ⟨fun env fmt =>
  (met_describedAs (Close.met_inner env) env fmt _ _).mono (by omega) (by omega)⟩

theorem TransferPerf.met_fields (env : Env) :
    MetF (TransferPerf.decFields env) fun p => TransferPerf.decFieldsC p env :=
  (metF_req env _).bind fun _ =>
    (metF_opt env).bind fun _ =>
    (metF_opt env).bind fun _ =>
    (metF_opt env).bind fun _ =>
    (metF_opt env).bind fun _ =>
    (metF_def env _).bind fun _ =>
    (metF_opt env).bind fun _ =>
    (metF_opt env).bind fun _ =>
    (metF_def env _).bind fun _ =>
    (metF_def env _).bind fun _ =>
    (metF_def env _).bind fun _ =>
    MetF.pure _
theorem TransferPerf.met_inner (env : Env) :
    Met 0 1 (TransferPerf.decInner env) fun p => TransferPerf.decInnerC p env :=
  met_listInner (TransferPerf.met_fields env) env
instance : Metered TransferPerf := ⟨fun env fmt =>
  (met_describedAs (TransferPerf.met_inner env) env fmt _ _).mono (by omega) (by omega)⟩

theorem SaslMechanisms.met_fields (env : Env) :
    MetF (SaslMechanisms.decFields env) fun p => SaslMechanisms.decFieldsC p env :=
  (metF_req env _).bind fun _ =>
    MetF.pure _
theorem SaslMechanisms.met_inner (env : Env) :
    Met 0 1 (SaslMechanisms.decInner env) fun p => SaslMechanisms.decInnerC p env :=
  met_listInner (SaslMechanisms.met_fields env) env
instance : Metered SaslMechanisms := ⟨fun env fmt =>
  (met_describedAs (SaslMechanisms.met_inner env) env fmt _ _).mono (by omega) (by omega)⟩

theorem SaslInit.met_fields (env : Env) :
    MetF (SaslInit.decFields env) fun p => SaslInit.decFieldsC p env :=
  (metF_req env _).bind fun _ =>
    (metF_opt env).bind fun _ =>
    (metF_opt env).bind fun _ =>
    MetF.pure _
theorem SaslInit.met_inner (env : Env) :
    Met 0 1 (SaslInit.decInner env) fun p => SaslInit.decInnerC p env :=
  met_listInner (SaslInit.met_fields env) env
instance : Metered SaslInit := ⟨fun env fmt =>
  (met_describedAs (SaslInit.met_inner env) env fmt _ _).mono (by omega) (by omega)⟩

theorem SaslChallenge.met_fields (env : Env) :
    MetF (SaslChallenge.decFields env) fun p => SaslChallenge.decFieldsC p env :=
  (metF_req env _).bind fun _ =>
    MetF.pure _
theorem SaslChallenge.met_inner (env : Env) :
    Met 0 1 (SaslChallenge.decInner env) fun p => SaslChallenge.decInnerC p env :=
  met_listInner (SaslChallenge.met_fields env) env
instance : Metered SaslChallenge := ⟨fun env fmt =>
  (met_describedAs (SaslChallenge.met_inner env) env fmt _ _).mono (by omega) (by omega)⟩

theorem SaslResponse.met_fields (env : Env) :
    MetF (SaslResponse.decFields env) fun p => SaslResponse.decFieldsC p env :=
  (metF_req env _).bind fun _ =>
    MetF.pure _
theorem SaslResponse.met_inner (env : Env) :
    Met 0 1 (SaslResponse.decInner env) fun p => SaslResponse.decInnerC p env :=
  met_listInner (SaslResponse.met_fields env) env
instance : Metered SaslResponse := ⟨fun env fmt =>
  (met_describedAs (SaslResponse.met_inner env) env fmt _ _).mono (by omega) (by omega)⟩

theorem SaslOutcome.met_fields (env : Env) :
    MetF (SaslOutcome.decFields env) fun p => SaslOutcome.decFieldsC p env :=
  (metF_req env _).bind fun _ =>
    (metF_opt env).bind fun _ =>
    MetF.pure _
theorem SaslOutcome.met_inner (env : Env) :
    Met 0 1 (SaslOutcome.decInner env) fun p => SaslOutcome.decInnerC p env :=
  met_listInner (SaslOutcome.met_fields env) env
instance : Metered SaslOutcome := ⟨fun env fmt =>
  (met_describedAs (SaslOutcome.met_inner env) env fmt _ _).mono (by omega) (by omega)⟩

theorem SaslFrameBody.met_dispatch (env : Env) (d : Descriptor) :
    Met 0 0 (SaslFrameBody.dispatch env d) fun p => SaslFrameBody.dispatchC p env d :=
  (((SaslMechanisms.met_inner env).map _).mono (by omega) (by omega)).ite <|
  (((SaslInit.met_inner env).map _).mono (by omega) (by omega)).ite <|
  (((SaslChallenge.met_inner env).map _).mono (by omega) (by omega)).ite <|
  (((SaslResponse.met_inner env).map _).mono (by omega) (by omega)).ite <|
  (((SaslOutcome.met_inner env).map _).mono (by omega) (by omega)).ite <|
  (((SaslMechanisms.met_inner env).map _).mono (by omega) (by omega)).ite <|
  (((SaslInit.met_inner env).map _).mono (by omega) (by omega)).ite <|
  (((SaslChallenge.met_inner env).map _).mono (by omega) (by omega)).ite <|
  (((SaslResponse.met_inner env).map _).mono (by omega) (by omega)).ite <|
  (((SaslOutcome.met_inner env).map _).mono (by omega) (by omega)).ite <|
  Met.fail _
instance : Metered SaslFrameBody := ⟨fun env fmt =>
  (met_union env fmt fun d => SaslFrameBody.met_dispatch env d).mono (by omega) (by omega)⟩

theorem Header.met_fields (env : Env) :
    MetF (Header.decFields env) fun p => Header.decFieldsC p env :=
  (metF_def env _).bind fun _ =>
    (metF_def env _).bind fun _ =>
    (metF_opt env).bind fun _ =>
    (metF_def env _).bind fun _ =>
    (metF_def env _).bind fun _ =>
    MetF.pure _
theorem Header.met_inner (env : Env) :
    Met 0 1 (Header.decInner env) fun p => Header.decInnerC p env :=
  met_listInner (Header.met_fields env) env
instance : Metered Header := ⟨fun env fmt =>
  (met_describedAs (Header.met_inner env) env fmt _ _).mono (by omega) (by omega)⟩

theorem Properties.met_fields (env : Env) :
    MetF (Properties.decFields env) fun p => Properties.decFieldsC p env :=
  (metF_opt env).bind fun _ =>
    (metF_opt env).bind fun _ =>
    (metF_opt env).bind fun _ =>
    (metF_opt env).bind fun _ =>
    (metF_opt env).bind fun _ =>
    (metF_opt env).bind fun _ =>
    (metF_opt env).bind fun _ =>
    (metF_opt env).bind fun _ =>
    (metF_opt env).bind fun _ =>
    (metF_opt env).bind fun _ =>
    (metF_opt env).bind fun _ =>
    (metF_opt env).bind fun _ =>
    (metF_opt env).bind fun _ =>
    MetF.pure _
theorem Properties.met_inner (env : Env) :
    Met 0 1 (Properties.decInner env) fun p => Properties.decInnerC p env :=
  met_listInner (Properties.met_fields env) env
instance : Metered Properties := ⟨fun env fmt =>
  (met_describedAs (Properties.met_inner env) env fmt _ _).mono (by omega) (by omega)⟩

theorem Section.met_dispatch (env : Env) (d : Descriptor) :
    Met 0 0 (Section.dispatch env d) fun p => Section.dispatchC p env d :=
  (((Header.met_inner env).map _).mono (by omega) (by omega)).ite <|
  ((((MeteredD.met (α := Amqp.DeliveryAnnotations) env)).map _).mono (by omega) (by omega)).ite <|
  ((((MeteredD.met (α := Amqp.MessageAnnotations) env)).map _).mono (by omega) (by omega)).ite <|
  ((((MeteredD.met (α := Amqp.ApplicationProperties) env)).map _).mono (by omega) (by omega)).ite <|
  ((((MeteredD.met (α := Amqp.Data) env)).map _).mono (by omega) (by omega)).ite <|
  ((((MeteredD.met (α := Amqp.AmqpSequence) env)).map _).mono (by omega) (by omega)).ite <|
  ((((MeteredD.met (α := Amqp.AmqpValue) env)).map _).mono (by omega) (by omega)).ite <|
  ((((MeteredD.met (α := Amqp.Footer) env)).map _).mono (by omega) (by omega)).ite <|
  (((Properties.met_inner env).map _).mono (by omega) (by omega)).ite <|
  (((Header.met_inner env).map _).mono (by omega) (by omega)).ite <|
  ((((MeteredD.met (α := Amqp.DeliveryAnnotations) env)).map _).mono (by omega) (by omega)).ite <|
  ((((MeteredD.met (α := Amqp.MessageAnnotations) env)).map _).mono (by omega) (by omega)).ite <|
  ((((MeteredD.met (α := Amqp.ApplicationProperties) env)).map _).mono (by omega) (by omega)).ite <|
  ((((MeteredD.met (α := Amqp.Data) env)).map _).mono (by omega) (by omega)).ite <|
  ((((MeteredD.met (α := Amqp.AmqpSequence) env)).map _).mono (by omega) (by omega)).ite <|
  ((((MeteredD.met (α := Amqp.AmqpValue) env)).map _).mono (by omega) (by omega)).ite <|
  ((((MeteredD.met (α := Amqp.Footer) env)).map _).mono (by omega) (by omega)).ite <|
  (((Properties.met_inner env).map _).mono (by omega) (by omega)).ite <|
  Met.fail _
instance : Metered Section := ⟨fun env fmt =>
  (met_union env fmt fun d => Section.met_dispatch env d).mono (by omega) (by omega)⟩

theorem met_withBody (t : TransferPerf) :
    Met 0 0 (Transfer.withBody t) fun p => Transfer.withBodyC p t := by
  have h : ∀ i r a, Transfer.withBody t i = .ok (r, a) → r = [] := by
    intro i r a h
    unfold Transfer.withBody at h
    split at h
    · rename_i hi
      injection h with h; injection h with h1 _; subst h1
      exact List.isEmpty_iff.1 hi
    · injection h with h; injection h with h1 _; exact h1.symm
  have hc : ∀ m p, p.byte ≤ m → Capped m 0 (Transfer.withBodyC p t) := fun m p hm =>
    ⟨fun i => by
      have := Nat.mul_le_mul_left i.length hm
      simp only [Transfer.withBodyC, Nat.mul_comm m]; omega, fun i r a hd => by
      have := Nat.mul_le_mul_left i.length hm
      simp only [h i r a hd, Transfer.withBodyC, Nat.mul_comm m, List.length_nil]; omega⟩
  refine ⟨fun _ => rfl, hc 3 _ (by decide), fun i r a hd => ?_, hc maxCount _ (by decide),
    hc 2 _ (by decide)⟩
  simp only [h i r a hd, Transfer.withBodyC, Price.rooms, List.length_nil]; omega

theorem Transfer.met_inner (env : Env) :
    Met 0 1 (Transfer.decInner env) fun p => Transfer.decInnerC p env :=
  (TransferPerf.met_inner env).bind fun t => met_withBody t
instance : Metered Transfer := ⟨fun env fmt =>
  (met_describedAs (Transfer.met_inner env) env fmt _ _).mono (by omega) (by omega)⟩

theorem Frame.met_dispatch (env : Env) (d : Descriptor) :
    Met 0 0 (Frame.dispatch env d) fun p => Frame.dispatchC p env d :=
  (((Open.met_inner env).map _).mono (by omega) (by omega)).ite <|
  (((Begin.met_inner env).map _).mono (by omega) (by omega)).ite <|
  (((Attach.met_inner env).map _).mono (by omega) (by omega)).ite <|
  (((Flow.met_inner env).map _).mono (by omega) (by omega)).ite <|
  (((Transfer.met_inner env).map _).mono (by omega) (by omega)).ite <|
  (((Disposition.met_inner env).map _).mono (by omega) (by omega)).ite <|
  (((Detach.met_inner env).map _).mono (by omega) (by omega)).ite <|
  (((End.met_inner env).map _).mono (by omega) (by omega)).ite <|
  (((Close.met_inner env).map _).mono (by omega) (by omega)).ite <|
  (((Open.met_inner env).map _).mono (by omega) (by omega)).ite <|
  (((Begin.met_inner env).map _).mono (by omega) (by omega)).ite <|
  (((Attach.met_inner env).map _).mono (by omega) (by omega)).ite <|
  (((Flow.met_inner env).map _).mono (by omega) (by omega)).ite <|
  (((Transfer.met_inner env).map _).mono (by omega) (by omega)).ite <|
  (((Disposition.met_inner env).map _).mono (by omega) (by omega)).ite <|
  (((Detach.met_inner env).map _).mono (by omega) (by omega)).ite <|
  (((End.met_inner env).map _).mono (by omega) (by omega)).ite <|
  (((Close.met_inner env).map _).mono (by omega) (by omega)).ite <|
  Met.fail _

end Amqp
