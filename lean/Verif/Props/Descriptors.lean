import Verif.Proofs.ListPrefix
import Verif.Protocol.Frame
/-!
# C23, C24: sizes and descriptors of described types

Generated by `tools/gen_props.py` from `codegen/specification.json`: the codes and
names of the descriptors and the members of the unions are those of the
specification.
-/
set_option autoImplicit false
namespace Amqp
open Dec

/-- **C23.** Every list type consumes exactly the size its header announces. -/
theorem C23_lists : ConsumesDeclared Error ∧
    ConsumesDeclared Open ∧
    ConsumesDeclared Begin ∧
    ConsumesDeclared Attach ∧
    ConsumesDeclared Flow ∧
    ConsumesDeclared TransferPerf ∧
    ConsumesDeclared Disposition ∧
    ConsumesDeclared Detach ∧
    ConsumesDeclared End ∧
    ConsumesDeclared Close ∧
    ConsumesDeclared SaslMechanisms ∧
    ConsumesDeclared SaslInit ∧
    ConsumesDeclared SaslChallenge ∧
    ConsumesDeclared SaslResponse ∧
    ConsumesDeclared SaslOutcome ∧
    ConsumesDeclared Source ∧
    ConsumesDeclared Target ∧
    ConsumesDeclared Header ∧
    ConsumesDeclared Properties ∧
    ConsumesDeclared Received ∧
    ConsumesDeclared Accepted ∧
    ConsumesDeclared Rejected ∧
    ConsumesDeclared Released ∧
    ConsumesDeclared Modified :=
  ⟨listConsumes, listConsumes, listConsumes, listConsumes, listConsumes, listConsumes, listConsumes, listConsumes, listConsumes, listConsumes, listConsumes, listConsumes, listConsumes, listConsumes, listConsumes, listConsumes, listConsumes, listConsumes, listConsumes, listConsumes, listConsumes, listConsumes, listConsumes, listConsumes⟩

/-- **C24** for `error`, `codegen/specification.json:101-125`. -/
theorem C24_error : SelectedBy Error 0x1d "amqp:error:list" := listSelected

/-- **C24** for `open`, `codegen/specification.json:258-316`. -/
theorem C24_open : SelectedBy Open 0x10 "amqp:open:list" := listSelected

/-- **C24** for `begin`, `codegen/specification.json:317-366`. -/
theorem C24_begin : SelectedBy Begin 0x11 "amqp:begin:list" := listSelected

/-- **C24** for `attach`, `codegen/specification.json:367-444`. -/
theorem C24_attach : SelectedBy Attach 0x12 "amqp:attach:list" := listSelected

/-- **C24** for `flow`, `codegen/specification.json:445-505`. -/
theorem C24_flow : SelectedBy Flow 0x13 "amqp:flow:list" := listSelected

/-- **C24** for `transfer`, `codegen/specification.json:506-567`. -/
theorem C24_transfer : SelectedBy TransferPerf 0x14 "amqp:transfer:list" := listSelected

/-- **C24** for `disposition`, `codegen/specification.json:568-608`. -/
theorem C24_disposition : SelectedBy Disposition 0x15 "amqp:disposition:list" := listSelected

/-- **C24** for `detach`, `codegen/specification.json:609-634`. -/
theorem C24_detach : SelectedBy Detach 0x16 "amqp:detach:list" := listSelected

/-- **C24** for `end`, `codegen/specification.json:635-648`. -/
theorem C24_end : SelectedBy End 0x17 "amqp:end:list" := listSelected

/-- **C24** for `close`, `codegen/specification.json:649-662`. -/
theorem C24_close : SelectedBy Close 0x18 "amqp:close:list" := listSelected

/-- **C24** for `sasl-mechanisms`, `codegen/specification.json:690-705`. -/
theorem C24_sasl_mechanisms : SelectedBy SaslMechanisms 0x40 "amqp:sasl-mechanisms:list" := listSelected

/-- **C24** for `sasl-init`, `codegen/specification.json:706-730`. -/
theorem C24_sasl_init : SelectedBy SaslInit 0x41 "amqp:sasl-init:list" := listSelected

/-- **C24** for `sasl-challenge`, `codegen/specification.json:731-745`. -/
theorem C24_sasl_challenge : SelectedBy SaslChallenge 0x42 "amqp:sasl-challenge:list" := listSelected

/-- **C24** for `sasl-response`, `codegen/specification.json:746-760`. -/
theorem C24_sasl_response : SelectedBy SaslResponse 0x43 "amqp:sasl-response:list" := listSelected

/-- **C24** for `sasl-outcome`, `codegen/specification.json:761-781`. -/
theorem C24_sasl_outcome : SelectedBy SaslOutcome 0x44 "amqp:sasl-outcome:list" := listSelected

/-- **C24** for `source`, `codegen/specification.json:834-898`. -/
theorem C24_source : SelectedBy Source 0x28 "amqp:source:list" := listSelected

/-- **C24** for `target`, `codegen/specification.json:899-944`. -/
theorem C24_target : SelectedBy Target 0x29 "amqp:target:list" := listSelected

/-- **C24** for `header`, `codegen/specification.json:980-1015`. -/
theorem C24_header : SelectedBy Header 0x70 "amqp:header:list" := listSelected

/-- **C24** for `properties`, `codegen/specification.json:1086-1153`. -/
theorem C24_properties : SelectedBy Properties 0x73 "amqp:properties:list" := listSelected

/-- **C24** for `received`, `codegen/specification.json:1154-1175`. -/
theorem C24_received : SelectedBy Received 0x23 "amqp:received:list" := listSelected

/-- **C24** for `accepted`, `codegen/specification.json:1176-1185`. -/
theorem C24_accepted : SelectedBy Accepted 0x24 "amqp:accepted:list" := listSelected

/-- **C24** for `rejected`, `codegen/specification.json:1186-1199`. -/
theorem C24_rejected : SelectedBy Rejected 0x25 "amqp:rejected:list" := listSelected

/-- **C24** for `released`, `codegen/specification.json:1200-1209`. -/
theorem C24_released : SelectedBy Released 0x26 "amqp:released:list" := listSelected

/-- **C24** for `modified`, `codegen/specification.json:1210-1233`. -/
theorem C24_modified : SelectedBy Modified 0x27 "amqp:modified:list" := listSelected

/-- **C24** for the union `sasl-frame-body`: every type that provides it is an alternative. -/
theorem C24_sasl_frame_body_members :
    Alternative (decode SaslFrameBody) (decode SaslMechanisms) SaslFrameBody.SaslMechanisms 0x40 "amqp:sasl-mechanisms:list" ∧
    Alternative (decode SaslFrameBody) (decode SaslInit) SaslFrameBody.SaslInit 0x41 "amqp:sasl-init:list" ∧
    Alternative (decode SaslFrameBody) (decode SaslChallenge) SaslFrameBody.SaslChallenge 0x42 "amqp:sasl-challenge:list" ∧
    Alternative (decode SaslFrameBody) (decode SaslResponse) SaslFrameBody.SaslResponse 0x43 "amqp:sasl-response:list" ∧
    Alternative (decode SaslFrameBody) (decode SaslOutcome) SaslFrameBody.SaslOutcome 0x44 "amqp:sasl-outcome:list" := by
  have hd : ∀ env u p d, Means env u d → decode SaslFrameBody env (0x00 :: (u ++ p)) = SaslFrameBody.dispatch env d p :=
    fun env u p d h => union_decode (U := SaslFrameBody) (fun _ _ => rfl) h
  exact ⟨union_alternative hd SaslFrameBody.SaslMechanisms (fun _ => rfl) (fun _ => rfl),
    union_alternative hd SaslFrameBody.SaslInit (fun _ => rfl) (fun _ => rfl),
    union_alternative hd SaslFrameBody.SaslChallenge (fun _ => rfl) (fun _ => rfl),
    union_alternative hd SaslFrameBody.SaslResponse (fun _ => rfl) (fun _ => rfl),
    union_alternative hd SaslFrameBody.SaslOutcome (fun _ => rfl) (fun _ => rfl)⟩

/-- **C21** for the union `sasl-frame-body`: a value round-trips if its content does. -/
theorem C21_sasl_frame_body (env : Env) (v : SaslFrameBody)
    (h : match v with
      | .SaslMechanisms x => RoundTrips env x
      | .SaslInit x => RoundTrips env x
      | .SaslChallenge x => RoundTrips env x
      | .SaslResponse x => RoundTrips env x
      | .SaslOutcome x => RoundTrips env x) :
    RoundTrips env v := by
  obtain ⟨m0, m1, m2, m3, m4⟩ := C24_sasl_frame_body_members
  cases v with
  | SaslMechanisms x => exact roundTrips_member m0 (by decide) x h rfl
  | SaslInit x => exact roundTrips_member m1 (by decide) x h rfl
  | SaslChallenge x => exact roundTrips_member m2 (by decide) x h rfl
  | SaslResponse x => exact roundTrips_member m3 (by decide) x h rfl
  | SaslOutcome x => exact roundTrips_member m4 (by decide) x h rfl

/-- **C24** for the union `sasl-frame-body`: nothing else is. -/
theorem C24_sasl_frame_body_others : NoOther (decode SaslFrameBody)
    [(0x40, "amqp:sasl-mechanisms:list"), (0x41, "amqp:sasl-init:list"), (0x42, "amqp:sasl-challenge:list"), (0x43, "amqp:sasl-response:list"), (0x44, "amqp:sasl-outcome:list")] :=
  noOther (disp := SaslFrameBody.dispatch) (fun _ _ => rfl) (fun env d h => by
    simp only [List.forall_mem_cons, Descriptor.is_sym, not_or] at h
    unfold SaslFrameBody.dispatch
    simp only [h, if_false])

/-- **C24** for the union `section`: every type that provides it is an alternative. -/
theorem C24_section_members :
    Alternative (decode Section) (decode Header) Section.Header 0x70 "amqp:header:list" ∧
    AlternativeOf (decode Section) (decode DeliveryAnnotations) Section.DeliveryAnnotations 0x71 "amqp:delivery-annotations:map" ∧
    AlternativeOf (decode Section) (decode MessageAnnotations) Section.MessageAnnotations 0x72 "amqp:message-annotations:map" ∧
    AlternativeOf (decode Section) (decode ApplicationProperties) Section.ApplicationProperties 0x74 "amqp:application-properties:map" ∧
    AlternativeOf (decode Section) (decode Data) Section.Data 0x75 "amqp:data:binary" ∧
    AlternativeOf (decode Section) (decode AmqpSequence) Section.AmqpSequence 0x76 "amqp:amqp-sequence:list" ∧
    AlternativeOf (decode Section) (decode AmqpValue) Section.AmqpValue 0x77 "amqp:amqp-value:*" ∧
    AlternativeOf (decode Section) (decode Footer) Section.Footer 0x78 "amqp:footer:map" ∧
    Alternative (decode Section) (decode Properties) Section.Properties 0x73 "amqp:properties:list" := by
  have hd : ∀ env u p d, Means env u d → decode Section env (0x00 :: (u ++ p)) = Section.dispatch env d p :=
    fun env u p d h => union_decode (U := Section) (fun _ _ => rfl) h
  exact ⟨union_alternative hd Section.Header (fun _ => rfl) (fun _ => rfl),
    union_restricted hd Section.DeliveryAnnotations (fun _ => rfl) (fun _ => rfl),
    union_restricted hd Section.MessageAnnotations (fun _ => rfl) (fun _ => rfl),
    union_restricted hd Section.ApplicationProperties (fun _ => rfl) (fun _ => rfl),
    union_restricted hd Section.Data (fun _ => rfl) (fun _ => rfl),
    union_restricted hd Section.AmqpSequence (fun _ => rfl) (fun _ => rfl),
    union_restricted hd Section.AmqpValue (fun _ => rfl) (fun _ => rfl),
    union_restricted hd Section.Footer (fun _ => rfl) (fun _ => rfl),
    union_alternative hd Section.Properties (fun _ => rfl) (fun _ => rfl)⟩

/-- **C21** for the union `section`: a value round-trips if its content does. -/
theorem C21_section (env : Env) (v : Section)
    (h : match v with
      | .Header x => RoundTrips env x
      | .DeliveryAnnotations x => RoundTrips env x
      | .MessageAnnotations x => RoundTrips env x
      | .ApplicationProperties x => RoundTrips env x
      | .Data x => RoundTrips env x
      | .AmqpSequence x => RoundTrips env x
      | .AmqpValue x => RoundTrips env x
      | .Footer x => RoundTrips env x
      | .Properties x => RoundTrips env x) :
    RoundTrips env v := by
  obtain ⟨m0, m1, m2, m3, m4, m5, m6, m7, m8⟩ := C24_section_members
  cases v with
  | Header x => exact roundTrips_member m0 (by decide) x h rfl
  | DeliveryAnnotations x => exact roundTrips_restricted m1 (by decide) x h rfl
  | MessageAnnotations x => exact roundTrips_restricted m2 (by decide) x h rfl
  | ApplicationProperties x => exact roundTrips_restricted m3 (by decide) x h rfl
  | Data x => exact roundTrips_restricted m4 (by decide) x h rfl
  | AmqpSequence x => exact roundTrips_restricted m5 (by decide) x h rfl
  | AmqpValue x => exact roundTrips_restricted m6 (by decide) x h rfl
  | Footer x => exact roundTrips_restricted m7 (by decide) x h rfl
  | Properties x => exact roundTrips_member m8 (by decide) x h rfl

/-- **C24** for the union `section`: nothing else is. -/
theorem C24_section_others : NoOther (decode Section)
    [(0x70, "amqp:header:list"), (0x71, "amqp:delivery-annotations:map"), (0x72, "amqp:message-annotations:map"), (0x74, "amqp:application-properties:map"), (0x75, "amqp:data:binary"), (0x76, "amqp:amqp-sequence:list"), (0x77, "amqp:amqp-value:*"), (0x78, "amqp:footer:map"), (0x73, "amqp:properties:list")] :=
  noOther (disp := Section.dispatch) (fun _ _ => rfl) (fun env d h => by
    simp only [List.forall_mem_cons, Descriptor.is_sym, not_or] at h
    unfold Section.dispatch
    simp only [h, if_false])

/-- **C24** for the union `delivery-state`: every type that provides it is an alternative. -/
theorem C24_delivery_state_members :
    Alternative (decode DeliveryState) (decode Received) DeliveryState.Received 0x23 "amqp:received:list" ∧
    Alternative (decode DeliveryState) (decode Accepted) DeliveryState.Accepted 0x24 "amqp:accepted:list" ∧
    Alternative (decode DeliveryState) (decode Rejected) DeliveryState.Rejected 0x25 "amqp:rejected:list" ∧
    Alternative (decode DeliveryState) (decode Released) DeliveryState.Released 0x26 "amqp:released:list" ∧
    Alternative (decode DeliveryState) (decode Modified) DeliveryState.Modified 0x27 "amqp:modified:list" := by
  have hd : ∀ env u p d, Means env u d → decode DeliveryState env (0x00 :: (u ++ p)) = DeliveryState.dispatch env d p :=
    fun env u p d h => union_decode (U := DeliveryState) (fun _ _ => rfl) h
  exact ⟨union_alternative hd DeliveryState.Received (fun _ => rfl) (fun _ => rfl),
    union_alternative hd DeliveryState.Accepted (fun _ => rfl) (fun _ => rfl),
    union_alternative hd DeliveryState.Rejected (fun _ => rfl) (fun _ => rfl),
    union_alternative hd DeliveryState.Released (fun _ => rfl) (fun _ => rfl),
    union_alternative hd DeliveryState.Modified (fun _ => rfl) (fun _ => rfl)⟩

/-- **C21** for the union `delivery-state`: a value round-trips if its content does. -/
theorem C21_delivery_state (env : Env) (v : DeliveryState)
    (h : match v with
      | .Received x => RoundTrips env x
      | .Accepted x => RoundTrips env x
      | .Rejected x => RoundTrips env x
      | .Released x => RoundTrips env x
      | .Modified x => RoundTrips env x) :
    RoundTrips env v := by
  obtain ⟨m0, m1, m2, m3, m4⟩ := C24_delivery_state_members
  cases v with
  | Received x => exact roundTrips_member m0 (by decide) x h rfl
  | Accepted x => exact roundTrips_member m1 (by decide) x h rfl
  | Rejected x => exact roundTrips_member m2 (by decide) x h rfl
  | Released x => exact roundTrips_member m3 (by decide) x h rfl
  | Modified x => exact roundTrips_member m4 (by decide) x h rfl

/-- **C24** for the union `delivery-state`: nothing else is. -/
theorem C24_delivery_state_others : NoOther (decode DeliveryState)
    [(0x23, "amqp:received:list"), (0x24, "amqp:accepted:list"), (0x25, "amqp:rejected:list"), (0x26, "amqp:released:list"), (0x27, "amqp:modified:list")] :=
  noOther (disp := DeliveryState.dispatch) (fun _ _ => rfl) (fun env d h => by
    simp only [List.forall_mem_cons, Descriptor.is_sym, not_or] at h
    unfold DeliveryState.dispatch
    simp only [h, if_false])

/-- **C24** for the union `outcome`: every type that provides it is an alternative. -/
theorem C24_outcome_members :
    Alternative (decode Outcome) (decode Accepted) Outcome.Accepted 0x24 "amqp:accepted:list" ∧
    Alternative (decode Outcome) (decode Rejected) Outcome.Rejected 0x25 "amqp:rejected:list" ∧
    Alternative (decode Outcome) (decode Released) Outcome.Released 0x26 "amqp:released:list" ∧
    Alternative (decode Outcome) (decode Modified) Outcome.Modified 0x27 "amqp:modified:list" := by
  have hd : ∀ env u p d, Means env u d → decode Outcome env (0x00 :: (u ++ p)) = Outcome.dispatch env d p :=
    fun env u p d h => union_decode (U := Outcome) (fun _ _ => rfl) h
  exact ⟨union_alternative hd Outcome.Accepted (fun _ => rfl) (fun _ => rfl),
    union_alternative hd Outcome.Rejected (fun _ => rfl) (fun _ => rfl),
    union_alternative hd Outcome.Released (fun _ => rfl) (fun _ => rfl),
    union_alternative hd Outcome.Modified (fun _ => rfl) (fun _ => rfl)⟩

/-- **C21** for the union `outcome`: a value round-trips if its content does. -/
theorem C21_outcome (env : Env) (v : Outcome)
    (h : match v with
      | .Accepted x => RoundTrips env x
      | .Rejected x => RoundTrips env x
      | .Released x => RoundTrips env x
      | .Modified x => RoundTrips env x) :
    RoundTrips env v := by
  obtain ⟨m0, m1, m2, m3⟩ := C24_outcome_members
  cases v with
  | Accepted x => exact roundTrips_member m0 (by decide) x h rfl
  | Rejected x => exact roundTrips_member m1 (by decide) x h rfl
  | Released x => exact roundTrips_member m2 (by decide) x h rfl
  | Modified x => exact roundTrips_member m3 (by decide) x h rfl

/-- **C24** for the union `outcome`: nothing else is. -/
theorem C24_outcome_others : NoOther (decode Outcome)
    [(0x24, "amqp:accepted:list"), (0x25, "amqp:rejected:list"), (0x26, "amqp:released:list"), (0x27, "amqp:modified:list")] :=
  noOther (disp := Outcome.dispatch) (fun _ _ => rfl) (fun env d h => by
    simp only [List.forall_mem_cons, Descriptor.is_sym, not_or] at h
    unfold Outcome.dispatch
    simp only [h, if_false])

/-- **C24** for frames: every type that provides `frame` is an alternative. -/
theorem C24_frame_members :
    Alternative Frame.decode (decode Open) Frame.Open 0x10 "amqp:open:list" ∧
    Alternative Frame.decode (decode Begin) Frame.Begin 0x11 "amqp:begin:list" ∧
    Alternative Frame.decode (decode Attach) Frame.Attach 0x12 "amqp:attach:list" ∧
    Alternative Frame.decode (decode Flow) Frame.Flow 0x13 "amqp:flow:list" ∧
    Alternative Frame.decode (decode Transfer) Frame.Transfer 0x14 "amqp:transfer:list" ∧
    Alternative Frame.decode (decode Disposition) Frame.Disposition 0x15 "amqp:disposition:list" ∧
    Alternative Frame.decode (decode Detach) Frame.Detach 0x16 "amqp:detach:list" ∧
    Alternative Frame.decode (decode End) Frame.End 0x17 "amqp:end:list" ∧
    Alternative Frame.decode (decode Close) Frame.Close 0x18 "amqp:close:list" := by
  exact ⟨union_alternative frame_described Frame.Open (fun _ => rfl) (fun _ => rfl),
    union_alternative frame_described Frame.Begin (fun _ => rfl) (fun _ => rfl),
    union_alternative frame_described Frame.Attach (fun _ => rfl) (fun _ => rfl),
    union_alternative frame_described Frame.Flow (fun _ => rfl) (fun _ => rfl),
    frame_transfer,
    union_alternative frame_described Frame.Disposition (fun _ => rfl) (fun _ => rfl),
    union_alternative frame_described Frame.Detach (fun _ => rfl) (fun _ => rfl),
    union_alternative frame_described Frame.End (fun _ => rfl) (fun _ => rfl),
    union_alternative frame_described Frame.Close (fun _ => rfl) (fun _ => rfl)⟩

/-- **C24** for frames: nothing else is. -/
theorem C24_frame_others : NoOther Frame.decode
    [(0x10, "amqp:open:list"), (0x11, "amqp:begin:list"), (0x12, "amqp:attach:list"), (0x13, "amqp:flow:list"), (0x14, "amqp:transfer:list"), (0x15, "amqp:disposition:list"), (0x16, "amqp:detach:list"), (0x17, "amqp:end:list"), (0x18, "amqp:close:list")] where
  reject env u p d hu h := by
    rw [frame_described env u p d hu]
    simp only [List.forall_mem_cons, Descriptor.is_sym, not_or] at h
    unfold Frame.dispatch
    simp only [h, if_false]; rfl
  other env c p hc := frame_other env c p hc

example : RoundTrips debugEnv (Outcome.Accepted {}) ∧ RoundTrips debugEnv (DeliveryState.Accepted {}) :=
  ⟨C21_outcome _ _ (fun _ => rfl), C21_delivery_state _ _ (fun _ => rfl)⟩

end Amqp
