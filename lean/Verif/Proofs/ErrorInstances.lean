import Verif.Proofs.ErrorLaws
import Verif.Spec.ErrorTables
import Verif.Proofs.PanicFrames
/-! Generated by `tools/gen_errors.py`: the errors of the decoders of the protocol
types tell the truth and are final. -/
set_option autoImplicit false
namespace Amqp
open Dec

theorem tells_bool {F : FieldTable} {O : OptionTable} (env : Env) (fmt : UInt8) (j : Bytes)
    (hf : fmt ∈ j) : Tells F O j (fun _ => True) (decF (α := Bool) env fmt) :=
  (TellsDec.tells (α := Bool) env fmt j hf).mono (List.nil_subset _) (List.nil_subset _) fun _ h => h
theorem tells_ubyte {F : FieldTable} {O : OptionTable} (env : Env) (fmt : UInt8) (j : Bytes)
    (hf : fmt ∈ j) : Tells F O j (fun b => b ∈ j) (decF (α := UInt8) env fmt) :=
  tells_validateCode hf tells_readU8

theorem ite_ok_err {α : Type} {c : Prop} [Decidable c] {a : α} {x : Res ParseError α} {e : ParseError}
    (h : (if c then .ok a else x) = .err e) : ¬ c ∧ x = .err e := by
  split at h
  · cases h
  · exact ⟨‹_›, h⟩
theorem ne_nil {v : RStr} : ∀ o ∈ ([] : List String), v.bytes ≠ utf8 o.toList :=
  fun _ h => by cases h
theorem ne_cons {v : RStr} {s : String} {l : List String} (h : ¬ v = .lit s)
    (hl : ∀ o ∈ l, v.bytes ≠ utf8 o.toList) : ∀ o ∈ s :: l, v.bytes ≠ utf8 o.toList := by
  intro o ho
  rcases List.mem_cons.1 ho with rfl | ho
  · exact fun e => h (RStr.ext e)
  · exact hl o ho
theorem unknown_ubyte {j : Bytes} {v : UInt8} {l : List UInt8} (hv : v ∈ j) (h : v ∉ l) :
    (Options.ubyte l).Unknown j := ⟨v, hv, h⟩
theorem unknown_uint {j : Bytes} {v : UInt32} {l : List UInt32} (hv : UintIn j v)
    (h : v ∉ 0 :: l) : (Options.uint (0 :: l)).Unknown j :=
  ⟨v, h, hv.resolve_left fun e => h (e ▸ List.mem_cons_self ..)⟩

macro "in_table" : tactic => `(tactic| simp [Faulty.fields])
macro "sub_table" : tactic => `(tactic| simp [Faulty.fields, Faulty.options])

instance : TellsDec Role := ⟨fun env fmt j hf =>
  tells_enum (tells_bool env fmt j hf) fun v e hv h => by
    unfold Role.tryFrom at h
    obtain ⟨h0, h⟩ := ite_ok_err h
    obtain ⟨h1, h⟩ := ite_ok_err h
    injection h with h; subst h
    cases v <;> contradiction⟩
instance : FinalDec Role := ⟨fun env fmt => final_enum _ env fmt⟩
instance : TellsDec SenderSettleMode := ⟨fun env fmt j hf =>
  tells_enum (tells_ubyte env fmt j hf) fun v e hv h => by
    unfold SenderSettleMode.tryFrom at h
    obtain ⟨h0, h⟩ := ite_ok_err h
    obtain ⟨h1, h⟩ := ite_ok_err h
    obtain ⟨h2, h⟩ := ite_ok_err h
    injection h with h; subst h
    exact ⟨_, List.mem_singleton.2 rfl, unknown_ubyte hv (by simp [h0, h1, h2])⟩⟩
instance : FinalDec SenderSettleMode := ⟨fun env fmt => final_enum _ env fmt⟩
instance : TellsDec ReceiverSettleMode := ⟨fun env fmt j hf =>
  tells_enum (tells_ubyte env fmt j hf) fun v e hv h => by
    unfold ReceiverSettleMode.tryFrom at h
    obtain ⟨h0, h⟩ := ite_ok_err h
    obtain ⟨h1, h⟩ := ite_ok_err h
    injection h with h; subst h
    exact ⟨_, List.mem_singleton.2 rfl, unknown_ubyte hv (by simp [h0, h1])⟩⟩
instance : FinalDec ReceiverSettleMode := ⟨fun env fmt => final_enum _ env fmt⟩
instance : TellsDec AmqpError := ⟨fun env fmt j hf =>
  tells_enum (tells_symbol env fmt j hf) fun v e hv h => by
    unfold AmqpError.tryFrom at h
    obtain ⟨h0, h⟩ := ite_ok_err h
    obtain ⟨h1, h⟩ := ite_ok_err h
    obtain ⟨h2, h⟩ := ite_ok_err h
    obtain ⟨h3, h⟩ := ite_ok_err h
    obtain ⟨h4, h⟩ := ite_ok_err h
    obtain ⟨h5, h⟩ := ite_ok_err h
    obtain ⟨h6, h⟩ := ite_ok_err h
    obtain ⟨h7, h⟩ := ite_ok_err h
    obtain ⟨h8, h⟩ := ite_ok_err h
    obtain ⟨h9, h⟩ := ite_ok_err h
    obtain ⟨h10, h⟩ := ite_ok_err h
    obtain ⟨h11, h⟩ := ite_ok_err h
    obtain ⟨h12, h⟩ := ite_ok_err h
    injection h with h; subst h
    exact ⟨_, List.mem_singleton.2 rfl, _, ne_cons h0 <| ne_cons h1 <| ne_cons h2 <| ne_cons h3 <| ne_cons h4 <| ne_cons h5 <| ne_cons h6 <| ne_cons h7 <| ne_cons h8 <| ne_cons h9 <| ne_cons h10 <| ne_cons h11 <| ne_cons h12 <| ne_nil, hv⟩⟩
instance : FinalDec AmqpError := ⟨fun env fmt => final_enum _ env fmt⟩
instance : TellsDec ConnectionError := ⟨fun env fmt j hf =>
  tells_enum (tells_symbol env fmt j hf) fun v e hv h => by
    unfold ConnectionError.tryFrom at h
    obtain ⟨h0, h⟩ := ite_ok_err h
    obtain ⟨h1, h⟩ := ite_ok_err h
    obtain ⟨h2, h⟩ := ite_ok_err h
    injection h with h; subst h
    exact ⟨_, List.mem_singleton.2 rfl, _, ne_cons h0 <| ne_cons h1 <| ne_cons h2 <| ne_nil, hv⟩⟩
instance : FinalDec ConnectionError := ⟨fun env fmt => final_enum _ env fmt⟩
instance : TellsDec SessionError := ⟨fun env fmt j hf =>
  tells_enum (tells_symbol env fmt j hf) fun v e hv h => by
    unfold SessionError.tryFrom at h
    obtain ⟨h0, h⟩ := ite_ok_err h
    obtain ⟨h1, h⟩ := ite_ok_err h
    obtain ⟨h2, h⟩ := ite_ok_err h
    obtain ⟨h3, h⟩ := ite_ok_err h
    injection h with h; subst h
    exact ⟨_, List.mem_singleton.2 rfl, _, ne_cons h0 <| ne_cons h1 <| ne_cons h2 <| ne_cons h3 <| ne_nil, hv⟩⟩
instance : FinalDec SessionError := ⟨fun env fmt => final_enum _ env fmt⟩
instance : TellsDec LinkError := ⟨fun env fmt j hf =>
  tells_enum (tells_symbol env fmt j hf) fun v e hv h => by
    unfold LinkError.tryFrom at h
    obtain ⟨h0, h⟩ := ite_ok_err h
    obtain ⟨h1, h⟩ := ite_ok_err h
    obtain ⟨h2, h⟩ := ite_ok_err h
    obtain ⟨h3, h⟩ := ite_ok_err h
    obtain ⟨h4, h⟩ := ite_ok_err h
    injection h with h; subst h
    exact ⟨_, List.mem_singleton.2 rfl, _, ne_cons h0 <| ne_cons h1 <| ne_cons h2 <| ne_cons h3 <| ne_cons h4 <| ne_nil, hv⟩⟩
instance : FinalDec LinkError := ⟨fun env fmt => final_enum _ env fmt⟩
instance : TellsDec SaslCode := ⟨fun env fmt j hf =>
  tells_enum (tells_ubyte env fmt j hf) fun v e hv h => by
    unfold SaslCode.tryFrom at h
    obtain ⟨h0, h⟩ := ite_ok_err h
    obtain ⟨h1, h⟩ := ite_ok_err h
    obtain ⟨h2, h⟩ := ite_ok_err h
    obtain ⟨h3, h⟩ := ite_ok_err h
    obtain ⟨h4, h⟩ := ite_ok_err h
    injection h with h; subst h
    exact ⟨_, List.mem_singleton.2 rfl, unknown_ubyte hv (by simp [h0, h1, h2, h3, h4])⟩⟩
instance : FinalDec SaslCode := ⟨fun env fmt => final_enum _ env fmt⟩
instance : TellsDec TerminusDurability := ⟨fun env fmt j hf =>
  tells_enum (tells_u32 env fmt j hf) fun v e hv h => by
    unfold TerminusDurability.tryFrom at h
    obtain ⟨h0, h⟩ := ite_ok_err h
    obtain ⟨h1, h⟩ := ite_ok_err h
    obtain ⟨h2, h⟩ := ite_ok_err h
    injection h with h; subst h
    exact ⟨_, List.mem_singleton.2 rfl, unknown_uint hv (by simp [h0, h1, h2])⟩⟩
instance : FinalDec TerminusDurability := ⟨fun env fmt => final_enum _ env fmt⟩
instance : TellsDec TerminusExpiryPolicy := ⟨fun env fmt j hf =>
  tells_enum (tells_symbol env fmt j hf) fun v e hv h => by
    unfold TerminusExpiryPolicy.tryFrom at h
    obtain ⟨h0, h⟩ := ite_ok_err h
    obtain ⟨h1, h⟩ := ite_ok_err h
    obtain ⟨h2, h⟩ := ite_ok_err h
    obtain ⟨h3, h⟩ := ite_ok_err h
    injection h with h; subst h
    exact ⟨_, List.mem_singleton.2 rfl, _, ne_cons h0 <| ne_cons h1 <| ne_cons h2 <| ne_cons h3 <| ne_nil, hv⟩⟩
instance : FinalDec TerminusExpiryPolicy := ⟨fun env fmt => final_enum _ env fmt⟩

instance : TellsDec ErrorCondition := ⟨fun env fmt j hf =>
  (tells_symbol env fmt j hf).bind fun _ _ => Tells.pure trivial⟩
instance : FinalDec ErrorCondition := ⟨fun env fmt =>
  (FinalDec.final (α := Symbol) env fmt).bind (LawfulDec.loc env fmt) fun _ => Final.pure _⟩
instance : TellsDec DistributionMode := ⟨fun env fmt j hf =>
  (tells_symbol env fmt j hf).bind fun _ _ => Tells.pure trivial⟩
instance : FinalDec DistributionMode := ⟨fun env fmt =>
  (FinalDec.final (α := Symbol) env fmt).bind (LawfulDec.loc env fmt) fun _ => Final.pure _⟩
instance : TellsDec MessageId := ⟨fun env fmt j hf =>
  have u := (TellsDec.tells (α := UInt64) env fmt j hf).map (f := MessageId.Ulong)
    (R := fun _ => True) fun _ _ => trivial
  have v := (TellsDec.tells (α := Uuid) env fmt j hf).map (f := MessageId.Uuid)
    (R := fun _ => True) fun _ _ => trivial
  have b := (TellsDec.tells (α := Binary) env fmt j hf).map (f := MessageId.Binary)
    (R := fun _ => True) fun _ _ => trivial
  have s := (TellsDec.tells (α := RStr) env fmt j hf).map (f := MessageId.String)
    (R := fun _ => True) fun _ _ => trivial
  Tells.ite u (Tells.ite v (Tells.ite b (Tells.ite s (Tells.fail hf))))⟩
instance : FinalDec MessageId := ⟨fun env fmt =>
  Final.ite ((FinalDec.final env fmt).map _) (Final.ite ((FinalDec.final env fmt).map _)
    (Final.ite ((FinalDec.final env fmt).map _) (Final.ite ((FinalDec.final env fmt).map _)
      (Final.fail _))))⟩

theorem Error.fieldsTell : FieldsTell (Faulty.fields Error) (Faulty.options Error) 0
    (ListType.fields Error) := by
  unfold ListType.fields instListTypeError
  exact fieldsTell_req (by in_table) (by sub_table) (by sub_table) <|
    fieldsTell_opt (by sub_table) (by sub_table) <|
    fieldsTell_opt (by sub_table) (by sub_table) <|
    fieldsTell_nil
instance : TellsDec Error := listTellsDec Error.fieldsTell
instance : FinalDec Error := listFinalDec

theorem Open.fieldsTell : FieldsTell (Faulty.fields Open) (Faulty.options Open) 0
    (ListType.fields Open) := by
  unfold ListType.fields instListTypeOpen
  exact fieldsTell_req (by in_table) (by sub_table) (by sub_table) <|
    fieldsTell_opt (by sub_table) (by sub_table) <|
    fieldsTell_dflt (by sub_table) (by sub_table) <|
    fieldsTell_dflt (by sub_table) (by sub_table) <|
    fieldsTell_opt (by sub_table) (by sub_table) <|
    fieldsTell_opt (by sub_table) (by sub_table) <|
    fieldsTell_opt (by sub_table) (by sub_table) <|
    fieldsTell_opt (by sub_table) (by sub_table) <|
    fieldsTell_opt (by sub_table) (by sub_table) <|
    fieldsTell_opt (by sub_table) (by sub_table) <|
    fieldsTell_nil
instance : TellsDec Open := listTellsDec Open.fieldsTell
instance : FinalDec Open := listFinalDec

theorem Begin.fieldsTell : FieldsTell (Faulty.fields Begin) (Faulty.options Begin) 0
    (ListType.fields Begin) := by
  unfold ListType.fields instListTypeBegin
  exact fieldsTell_opt (by sub_table) (by sub_table) <|
    fieldsTell_req (by in_table) (by sub_table) (by sub_table) <|
    fieldsTell_req (by in_table) (by sub_table) (by sub_table) <|
    fieldsTell_req (by in_table) (by sub_table) (by sub_table) <|
    fieldsTell_dflt (by sub_table) (by sub_table) <|
    fieldsTell_opt (by sub_table) (by sub_table) <|
    fieldsTell_opt (by sub_table) (by sub_table) <|
    fieldsTell_opt (by sub_table) (by sub_table) <|
    fieldsTell_nil
instance : TellsDec Begin := listTellsDec Begin.fieldsTell
instance : FinalDec Begin := listFinalDec

theorem Accepted.fieldsTell : FieldsTell (Faulty.fields Accepted) (Faulty.options Accepted) 0
    (ListType.fields Accepted) := by
  unfold ListType.fields instListTypeAccepted
  exact fieldsTell_nil
instance : TellsDec Accepted := listTellsDec Accepted.fieldsTell
instance : FinalDec Accepted := listFinalDec

theorem Rejected.fieldsTell : FieldsTell (Faulty.fields Rejected) (Faulty.options Rejected) 0
    (ListType.fields Rejected) := by
  unfold ListType.fields instListTypeRejected
  exact fieldsTell_opt (by sub_table) (by sub_table) <|
    fieldsTell_nil
instance : TellsDec Rejected := listTellsDec Rejected.fieldsTell
instance : FinalDec Rejected := listFinalDec

theorem Released.fieldsTell : FieldsTell (Faulty.fields Released) (Faulty.options Released) 0
    (ListType.fields Released) := by
  unfold ListType.fields instListTypeReleased
  exact fieldsTell_nil
instance : TellsDec Released := listTellsDec Released.fieldsTell
instance : FinalDec Released := listFinalDec

theorem Modified.fieldsTell : FieldsTell (Faulty.fields Modified) (Faulty.options Modified) 0
    (ListType.fields Modified) := by
  unfold ListType.fields instListTypeModified
  exact fieldsTell_opt (by sub_table) (by sub_table) <|
    fieldsTell_opt (by sub_table) (by sub_table) <|
    fieldsTell_opt (by sub_table) (by sub_table) <|
    fieldsTell_nil
instance : TellsDec Modified := listTellsDec Modified.fieldsTell
instance : FinalDec Modified := listFinalDec

theorem Outcome.tells_dispatch (env : Env) (j : Bytes) (d : Descriptor)
    (hd : 0x00 ∈ j ∧ ∃ w, DescriptorForm d w ∧ w <:+: j) :
    Tells (Faulty.fields Outcome) (Faulty.options Outcome) j (fun _ => True) (Outcome.dispatch env d) := by
  unfold Outcome.dispatch
  repeat' apply Tells.ite
  all_goals first
    | exact Tells.fail hd
    | exact Tells.map (Q := fun _ => True) ((inner_tells Accepted.fieldsTell env j).mono (by sub_table) (by sub_table) fun _ h => h) fun _ _ => trivial
    | exact Tells.map (Q := fun _ => True) ((inner_tells Rejected.fieldsTell env j).mono (by sub_table) (by sub_table) fun _ h => h) fun _ _ => trivial
    | exact Tells.map (Q := fun _ => True) ((inner_tells Released.fieldsTell env j).mono (by sub_table) (by sub_table) fun _ h => h) fun _ _ => trivial
    | exact Tells.map (Q := fun _ => True) ((inner_tells Modified.fieldsTell env j).mono (by sub_table) (by sub_table) fun _ h => h) fun _ _ => trivial
theorem Outcome.final_dispatch (env : Env) (d : Descriptor) : Final (Outcome.dispatch env d) := by
  unfold Outcome.dispatch
  repeat' apply Final.ite
  all_goals first
    | exact Final.fail _
    | exact (final_decode _).map _
    | exact (inner_final (α := Amqp.Accepted) env).map _
    | exact (inner_final (α := Amqp.Rejected) env).map _
    | exact (inner_final (α := Amqp.Released) env).map _
    | exact (inner_final (α := Amqp.Modified) env).map _
instance : TellsDec Outcome := ⟨fun env _ j hf =>
  tells_matched hf fun d hd => Outcome.tells_dispatch env j d hd⟩
instance : FinalDec Outcome := ⟨fun env _ =>
  ((final_decode _).bind (loc_decode _) fun d => Outcome.final_dispatch env d).validateCode⟩

theorem Source.fieldsTell : FieldsTell (Faulty.fields Source) (Faulty.options Source) 0
    (ListType.fields Source) := by
  unfold ListType.fields instListTypeSource
  exact fieldsTell_opt (by sub_table) (by sub_table) <|
    fieldsTell_dflt (by sub_table) (by sub_table) <|
    fieldsTell_dflt (by sub_table) (by sub_table) <|
    fieldsTell_dflt (by sub_table) (by sub_table) <|
    fieldsTell_dflt (by sub_table) (by sub_table) <|
    fieldsTell_opt (by sub_table) (by sub_table) <|
    fieldsTell_opt (by sub_table) (by sub_table) <|
    fieldsTell_opt (by sub_table) (by sub_table) <|
    fieldsTell_opt (by sub_table) (by sub_table) <|
    fieldsTell_opt (by sub_table) (by sub_table) <|
    fieldsTell_opt (by sub_table) (by sub_table) <|
    fieldsTell_nil
instance : TellsDec Source := listTellsDec Source.fieldsTell
instance : FinalDec Source := listFinalDec

theorem Target.fieldsTell : FieldsTell (Faulty.fields Target) (Faulty.options Target) 0
    (ListType.fields Target) := by
  unfold ListType.fields instListTypeTarget
  exact fieldsTell_opt (by sub_table) (by sub_table) <|
    fieldsTell_dflt (by sub_table) (by sub_table) <|
    fieldsTell_dflt (by sub_table) (by sub_table) <|
    fieldsTell_dflt (by sub_table) (by sub_table) <|
    fieldsTell_dflt (by sub_table) (by sub_table) <|
    fieldsTell_opt (by sub_table) (by sub_table) <|
    fieldsTell_opt (by sub_table) (by sub_table) <|
    fieldsTell_nil
instance : TellsDec Target := listTellsDec Target.fieldsTell
instance : FinalDec Target := listFinalDec

theorem Attach.fieldsTell : FieldsTell (Faulty.fields Attach) (Faulty.options Attach) 0
    (ListType.fields Attach) := by
  unfold ListType.fields instListTypeAttach
  exact fieldsTell_req (by in_table) (by sub_table) (by sub_table) <|
    fieldsTell_req (by in_table) (by sub_table) (by sub_table) <|
    fieldsTell_req (by in_table) (by sub_table) (by sub_table) <|
    fieldsTell_dflt (by sub_table) (by sub_table) <|
    fieldsTell_dflt (by sub_table) (by sub_table) <|
    fieldsTell_opt (by sub_table) (by sub_table) <|
    fieldsTell_opt (by sub_table) (by sub_table) <|
    fieldsTell_opt (by sub_table) (by sub_table) <|
    fieldsTell_dflt (by sub_table) (by sub_table) <|
    fieldsTell_opt (by sub_table) (by sub_table) <|
    fieldsTell_opt (by sub_table) (by sub_table) <|
    fieldsTell_opt (by sub_table) (by sub_table) <|
    fieldsTell_opt (by sub_table) (by sub_table) <|
    fieldsTell_opt (by sub_table) (by sub_table) <|
    fieldsTell_nil
instance : TellsDec Attach := listTellsDec Attach.fieldsTell
instance : FinalDec Attach := listFinalDec

theorem Flow.fieldsTell : FieldsTell (Faulty.fields Flow) (Faulty.options Flow) 0
    (ListType.fields Flow) := by
  unfold ListType.fields instListTypeFlow
  exact fieldsTell_opt (by sub_table) (by sub_table) <|
    fieldsTell_req (by in_table) (by sub_table) (by sub_table) <|
    fieldsTell_req (by in_table) (by sub_table) (by sub_table) <|
    fieldsTell_req (by in_table) (by sub_table) (by sub_table) <|
    fieldsTell_opt (by sub_table) (by sub_table) <|
    fieldsTell_opt (by sub_table) (by sub_table) <|
    fieldsTell_opt (by sub_table) (by sub_table) <|
    fieldsTell_opt (by sub_table) (by sub_table) <|
    fieldsTell_dflt (by sub_table) (by sub_table) <|
    fieldsTell_dflt (by sub_table) (by sub_table) <|
    fieldsTell_opt (by sub_table) (by sub_table) <|
    fieldsTell_nil
instance : TellsDec Flow := listTellsDec Flow.fieldsTell
instance : FinalDec Flow := listFinalDec

theorem Received.fieldsTell : FieldsTell (Faulty.fields Received) (Faulty.options Received) 0
    (ListType.fields Received) := by
  unfold ListType.fields instListTypeReceived
  exact fieldsTell_req (by in_table) (by sub_table) (by sub_table) <|
    fieldsTell_req (by in_table) (by sub_table) (by sub_table) <|
    fieldsTell_nil
instance : TellsDec Received := listTellsDec Received.fieldsTell
instance : FinalDec Received := listFinalDec

theorem DeliveryState.tells_dispatch (env : Env) (j : Bytes) (d : Descriptor)
    (hd : 0x00 ∈ j ∧ ∃ w, DescriptorForm d w ∧ w <:+: j) :
    Tells (Faulty.fields DeliveryState) (Faulty.options DeliveryState) j (fun _ => True) (DeliveryState.dispatch env d) := by
  unfold DeliveryState.dispatch
  repeat' apply Tells.ite
  all_goals first
    | exact Tells.fail hd
    | exact Tells.map (Q := fun _ => True) ((inner_tells Received.fieldsTell env j).mono (by sub_table) (by sub_table) fun _ h => h) fun _ _ => trivial
    | exact Tells.map (Q := fun _ => True) ((inner_tells Accepted.fieldsTell env j).mono (by sub_table) (by sub_table) fun _ h => h) fun _ _ => trivial
    | exact Tells.map (Q := fun _ => True) ((inner_tells Rejected.fieldsTell env j).mono (by sub_table) (by sub_table) fun _ h => h) fun _ _ => trivial
    | exact Tells.map (Q := fun _ => True) ((inner_tells Released.fieldsTell env j).mono (by sub_table) (by sub_table) fun _ h => h) fun _ _ => trivial
    | exact Tells.map (Q := fun _ => True) ((inner_tells Modified.fieldsTell env j).mono (by sub_table) (by sub_table) fun _ h => h) fun _ _ => trivial
theorem DeliveryState.final_dispatch (env : Env) (d : Descriptor) : Final (DeliveryState.dispatch env d) := by
  unfold DeliveryState.dispatch
  repeat' apply Final.ite
  all_goals first
    | exact Final.fail _
    | exact (final_decode _).map _
    | exact (inner_final (α := Amqp.Received) env).map _
    | exact (inner_final (α := Amqp.Accepted) env).map _
    | exact (inner_final (α := Amqp.Rejected) env).map _
    | exact (inner_final (α := Amqp.Released) env).map _
    | exact (inner_final (α := Amqp.Modified) env).map _
instance : TellsDec DeliveryState := ⟨fun env _ j hf =>
  tells_matched hf fun d hd => DeliveryState.tells_dispatch env j d hd⟩
instance : FinalDec DeliveryState := ⟨fun env _ =>
  ((final_decode _).bind (loc_decode _) fun d => DeliveryState.final_dispatch env d).validateCode⟩

theorem TransferPerf.fieldsTell : FieldsTell (Faulty.fields TransferPerf) (Faulty.options TransferPerf) 0
    (ListType.fields TransferPerf) := by
  unfold ListType.fields instListTypeTransferPerf
  exact fieldsTell_req (by in_table) (by sub_table) (by sub_table) <|
    fieldsTell_opt (by sub_table) (by sub_table) <|
    fieldsTell_opt (by sub_table) (by sub_table) <|
    fieldsTell_opt (by sub_table) (by sub_table) <|
    fieldsTell_opt (by sub_table) (by sub_table) <|
    fieldsTell_dflt (by sub_table) (by sub_table) <|
    fieldsTell_opt (by sub_table) (by sub_table) <|
    fieldsTell_opt (by sub_table) (by sub_table) <|
    fieldsTell_dflt (by sub_table) (by sub_table) <|
    fieldsTell_dflt (by sub_table) (by sub_table) <|
    fieldsTell_dflt (by sub_table) (by sub_table) <|
    fieldsTell_nil
instance : TellsDec TransferPerf := listTellsDec TransferPerf.fieldsTell
instance : FinalDec TransferPerf := listFinalDec

theorem Transfer.tells_inner (env : Env) (j : Bytes) :
    Tells (Faulty.fields Transfer) (Faulty.options Transfer) j (fun _ => True) (Transfer.decInner env) :=
  (inner_tells TransferPerf.fieldsTell env j).bind fun t _ i hi => by
    unfold Transfer.withBody
    by_cases he : i.isEmpty = true
    · rw [if_pos he]; exact ⟨hi, trivial⟩
    · rw [if_neg he]; exact ⟨List.nil_infix, trivial⟩
theorem Transfer.final_inner (env : Env) : Final (Transfer.decInner env) :=
  (inner_final (α := TransferPerf) env).bind (local_inner (α := TransferPerf) env) fun t i e h => by
    unfold Transfer.withBody at h
    split at h <;> cases h
instance : TellsDec Transfer := ⟨fun env _ j hf => tells_describedAs hf (Transfer.tells_inner env j)⟩
instance : FinalDec Transfer := ⟨fun env _ => final_describedAs (Transfer.final_inner env) _ _ _ _⟩

theorem Disposition.fieldsTell : FieldsTell (Faulty.fields Disposition) (Faulty.options Disposition) 0
    (ListType.fields Disposition) := by
  unfold ListType.fields instListTypeDisposition
  exact fieldsTell_req (by in_table) (by sub_table) (by sub_table) <|
    fieldsTell_req (by in_table) (by sub_table) (by sub_table) <|
    fieldsTell_opt (by sub_table) (by sub_table) <|
    fieldsTell_dflt (by sub_table) (by sub_table) <|
    fieldsTell_opt (by sub_table) (by sub_table) <|
    fieldsTell_dflt (by sub_table) (by sub_table) <|
    fieldsTell_nil
instance : TellsDec Disposition := listTellsDec Disposition.fieldsTell
instance : FinalDec Disposition := listFinalDec

theorem Detach.fieldsTell : FieldsTell (Faulty.fields Detach) (Faulty.options Detach) 0
    (ListType.fields Detach) := by
  unfold ListType.fields instListTypeDetach
  exact fieldsTell_req (by in_table) (by sub_table) (by sub_table) <|
    fieldsTell_dflt (by sub_table) (by sub_table) <|
    fieldsTell_opt (by sub_table) (by sub_table) <|
    fieldsTell_nil
instance : TellsDec Detach := listTellsDec Detach.fieldsTell
instance : FinalDec Detach := listFinalDec

theorem End.fieldsTell : FieldsTell (Faulty.fields End) (Faulty.options End) 0
    (ListType.fields End) := by
  unfold ListType.fields instListTypeEnd
  exact fieldsTell_opt (by sub_table) (by sub_table) <|
    fieldsTell_nil
instance : TellsDec End := listTellsDec End.fieldsTell
instance : FinalDec End := listFinalDec

theorem Close.fieldsTell : FieldsTell (Faulty.fields Close) (Faulty.options Close) 0
    (ListType.fields Close) := by
  unfold ListType.fields instListTypeClose
  exact fieldsTell_opt (by sub_table) (by sub_table) <|
    fieldsTell_nil
instance : TellsDec Close := listTellsDec Close.fieldsTell
instance : FinalDec Close := listFinalDec

theorem SaslMechanisms.fieldsTell : FieldsTell (Faulty.fields SaslMechanisms) (Faulty.options SaslMechanisms) 0
    (ListType.fields SaslMechanisms) := by
  unfold ListType.fields instListTypeSaslMechanisms
  exact fieldsTell_req (by in_table) (by sub_table) (by sub_table) <|
    fieldsTell_nil
instance : TellsDec SaslMechanisms := listTellsDec SaslMechanisms.fieldsTell
instance : FinalDec SaslMechanisms := listFinalDec

theorem SaslInit.fieldsTell : FieldsTell (Faulty.fields SaslInit) (Faulty.options SaslInit) 0
    (ListType.fields SaslInit) := by
  unfold ListType.fields instListTypeSaslInit
  exact fieldsTell_req (by in_table) (by sub_table) (by sub_table) <|
    fieldsTell_opt (by sub_table) (by sub_table) <|
    fieldsTell_opt (by sub_table) (by sub_table) <|
    fieldsTell_nil
instance : TellsDec SaslInit := listTellsDec SaslInit.fieldsTell
instance : FinalDec SaslInit := listFinalDec

theorem SaslChallenge.fieldsTell : FieldsTell (Faulty.fields SaslChallenge) (Faulty.options SaslChallenge) 0
    (ListType.fields SaslChallenge) := by
  unfold ListType.fields instListTypeSaslChallenge
  exact fieldsTell_req (by in_table) (by sub_table) (by sub_table) <|
    fieldsTell_nil
instance : TellsDec SaslChallenge := listTellsDec SaslChallenge.fieldsTell
instance : FinalDec SaslChallenge := listFinalDec

theorem SaslResponse.fieldsTell : FieldsTell (Faulty.fields SaslResponse) (Faulty.options SaslResponse) 0
    (ListType.fields SaslResponse) := by
  unfold ListType.fields instListTypeSaslResponse
  exact fieldsTell_req (by in_table) (by sub_table) (by sub_table) <|
    fieldsTell_nil
instance : TellsDec SaslResponse := listTellsDec SaslResponse.fieldsTell
instance : FinalDec SaslResponse := listFinalDec

theorem SaslOutcome.fieldsTell : FieldsTell (Faulty.fields SaslOutcome) (Faulty.options SaslOutcome) 0
    (ListType.fields SaslOutcome) := by
  unfold ListType.fields instListTypeSaslOutcome
  exact fieldsTell_req (by in_table) (by sub_table) (by sub_table) <|
    fieldsTell_opt (by sub_table) (by sub_table) <|
    fieldsTell_nil
instance : TellsDec SaslOutcome := listTellsDec SaslOutcome.fieldsTell
instance : FinalDec SaslOutcome := listFinalDec

theorem Header.fieldsTell : FieldsTell (Faulty.fields Header) (Faulty.options Header) 0
    (ListType.fields Header) := by
  unfold ListType.fields instListTypeHeader
  exact fieldsTell_dflt (by sub_table) (by sub_table) <|
    fieldsTell_dflt (by sub_table) (by sub_table) <|
    fieldsTell_opt (by sub_table) (by sub_table) <|
    fieldsTell_dflt (by sub_table) (by sub_table) <|
    fieldsTell_dflt (by sub_table) (by sub_table) <|
    fieldsTell_nil
instance : TellsDec Header := listTellsDec Header.fieldsTell
instance : FinalDec Header := listFinalDec

theorem Properties.fieldsTell : FieldsTell (Faulty.fields Properties) (Faulty.options Properties) 0
    (ListType.fields Properties) := by
  unfold ListType.fields instListTypeProperties
  exact fieldsTell_opt (by sub_table) (by sub_table) <|
    fieldsTell_opt (by sub_table) (by sub_table) <|
    fieldsTell_opt (by sub_table) (by sub_table) <|
    fieldsTell_opt (by sub_table) (by sub_table) <|
    fieldsTell_opt (by sub_table) (by sub_table) <|
    fieldsTell_opt (by sub_table) (by sub_table) <|
    fieldsTell_opt (by sub_table) (by sub_table) <|
    fieldsTell_opt (by sub_table) (by sub_table) <|
    fieldsTell_opt (by sub_table) (by sub_table) <|
    fieldsTell_opt (by sub_table) (by sub_table) <|
    fieldsTell_opt (by sub_table) (by sub_table) <|
    fieldsTell_opt (by sub_table) (by sub_table) <|
    fieldsTell_opt (by sub_table) (by sub_table) <|
    fieldsTell_nil
instance : TellsDec Properties := listTellsDec Properties.fieldsTell
instance : FinalDec Properties := listFinalDec

theorem SaslFrameBody.tells_dispatch (env : Env) (j : Bytes) (d : Descriptor)
    (hd : 0x00 ∈ j ∧ ∃ w, DescriptorForm d w ∧ w <:+: j) :
    Tells (Faulty.fields SaslFrameBody) (Faulty.options SaslFrameBody) j (fun _ => True) (SaslFrameBody.dispatch env d) := by
  unfold SaslFrameBody.dispatch
  repeat' apply Tells.ite
  all_goals first
    | exact Tells.fail hd
    | exact Tells.map (Q := fun _ => True) ((inner_tells SaslMechanisms.fieldsTell env j).mono (by sub_table) (by sub_table) fun _ h => h) fun _ _ => trivial
    | exact Tells.map (Q := fun _ => True) ((inner_tells SaslInit.fieldsTell env j).mono (by sub_table) (by sub_table) fun _ h => h) fun _ _ => trivial
    | exact Tells.map (Q := fun _ => True) ((inner_tells SaslChallenge.fieldsTell env j).mono (by sub_table) (by sub_table) fun _ h => h) fun _ _ => trivial
    | exact Tells.map (Q := fun _ => True) ((inner_tells SaslResponse.fieldsTell env j).mono (by sub_table) (by sub_table) fun _ h => h) fun _ _ => trivial
    | exact Tells.map (Q := fun _ => True) ((inner_tells SaslOutcome.fieldsTell env j).mono (by sub_table) (by sub_table) fun _ h => h) fun _ _ => trivial
theorem SaslFrameBody.final_dispatch (env : Env) (d : Descriptor) : Final (SaslFrameBody.dispatch env d) := by
  unfold SaslFrameBody.dispatch
  repeat' apply Final.ite
  all_goals first
    | exact Final.fail _
    | exact (final_decode _).map _
    | exact (inner_final (α := Amqp.SaslMechanisms) env).map _
    | exact (inner_final (α := Amqp.SaslInit) env).map _
    | exact (inner_final (α := Amqp.SaslChallenge) env).map _
    | exact (inner_final (α := Amqp.SaslResponse) env).map _
    | exact (inner_final (α := Amqp.SaslOutcome) env).map _
instance : TellsDec SaslFrameBody := ⟨fun env _ j hf =>
  tells_matched hf fun d hd => SaslFrameBody.tells_dispatch env j d hd⟩
instance : FinalDec SaslFrameBody := ⟨fun env _ =>
  ((final_decode _).bind (loc_decode _) fun d => SaslFrameBody.final_dispatch env d).validateCode⟩

theorem Section.tells_dispatch (env : Env) (j : Bytes) (d : Descriptor)
    (hd : 0x00 ∈ j ∧ ∃ w, DescriptorForm d w ∧ w <:+: j) :
    Tells (Faulty.fields Section) (Faulty.options Section) j (fun _ => True) (Section.dispatch env d) := by
  unfold Section.dispatch
  repeat' apply Tells.ite
  all_goals first
    | exact Tells.fail hd
    | exact Tells.map (Q := fun _ => True) ((inner_tells Header.fieldsTell env j).mono (by sub_table) (by sub_table) fun _ h => h) fun _ _ => trivial
    | exact Tells.map (Q := fun _ => True) ((tells_decode (α := Amqp.DeliveryAnnotations) env j).mono (by sub_table) (by sub_table) fun _ h => h) fun _ _ => trivial
    | exact Tells.map (Q := fun _ => True) ((tells_decode (α := Amqp.MessageAnnotations) env j).mono (by sub_table) (by sub_table) fun _ h => h) fun _ _ => trivial
    | exact Tells.map (Q := fun _ => True) ((tells_decode (α := Amqp.ApplicationProperties) env j).mono (by sub_table) (by sub_table) fun _ h => h) fun _ _ => trivial
    | exact Tells.map (Q := fun _ => True) ((tells_decode (α := Amqp.Data) env j).mono (by sub_table) (by sub_table) fun _ h => h) fun _ _ => trivial
    | exact Tells.map (Q := fun _ => True) ((tells_decode (α := Amqp.AmqpSequence) env j).mono (by sub_table) (by sub_table) fun _ h => h) fun _ _ => trivial
    | exact Tells.map (Q := fun _ => True) ((tells_decode (α := Amqp.AmqpValue) env j).mono (by sub_table) (by sub_table) fun _ h => h) fun _ _ => trivial
    | exact Tells.map (Q := fun _ => True) ((tells_decode (α := Amqp.Footer) env j).mono (by sub_table) (by sub_table) fun _ h => h) fun _ _ => trivial
    | exact Tells.map (Q := fun _ => True) ((inner_tells Properties.fieldsTell env j).mono (by sub_table) (by sub_table) fun _ h => h) fun _ _ => trivial
theorem Section.final_dispatch (env : Env) (d : Descriptor) : Final (Section.dispatch env d) := by
  unfold Section.dispatch
  repeat' apply Final.ite
  all_goals first
    | exact Final.fail _
    | exact (final_decode _).map _
    | exact (inner_final (α := Amqp.Header) env).map _
    | exact (inner_final (α := Amqp.Properties) env).map _
instance : TellsDec Section := ⟨fun env _ j hf =>
  tells_matched hf fun d hd => Section.tells_dispatch env j d hd⟩
instance : FinalDec Section := ⟨fun env _ =>
  ((final_decode _).bind (loc_decode _) fun d => Section.final_dispatch env d).validateCode⟩

theorem Frame.tells_dispatch (env : Env) (j : Bytes) (d : Descriptor)
    (hd : 0x00 ∈ j ∧ ∃ w, DescriptorForm d w ∧ w <:+: j) :
    Tells (Faulty.fields Frame) (Faulty.options Frame) j (fun _ => True) (Frame.dispatch env d) := by
  unfold Frame.dispatch
  repeat' apply Tells.ite
  all_goals first
    | exact Tells.fail hd
    | exact Tells.map (Q := fun _ => True) ((inner_tells Open.fieldsTell env j).mono (by sub_table) (by sub_table) fun _ h => h) fun _ _ => trivial
    | exact Tells.map (Q := fun _ => True) ((inner_tells Begin.fieldsTell env j).mono (by sub_table) (by sub_table) fun _ h => h) fun _ _ => trivial
    | exact Tells.map (Q := fun _ => True) ((inner_tells Attach.fieldsTell env j).mono (by sub_table) (by sub_table) fun _ h => h) fun _ _ => trivial
    | exact Tells.map (Q := fun _ => True) ((inner_tells Flow.fieldsTell env j).mono (by sub_table) (by sub_table) fun _ h => h) fun _ _ => trivial
    | exact Tells.map (Q := fun _ => True) ((Transfer.tells_inner env j).mono (by sub_table) (by sub_table) fun _ h => h) fun _ _ => trivial
    | exact Tells.map (Q := fun _ => True) ((inner_tells Disposition.fieldsTell env j).mono (by sub_table) (by sub_table) fun _ h => h) fun _ _ => trivial
    | exact Tells.map (Q := fun _ => True) ((inner_tells Detach.fieldsTell env j).mono (by sub_table) (by sub_table) fun _ h => h) fun _ _ => trivial
    | exact Tells.map (Q := fun _ => True) ((inner_tells End.fieldsTell env j).mono (by sub_table) (by sub_table) fun _ h => h) fun _ _ => trivial
    | exact Tells.map (Q := fun _ => True) ((inner_tells Close.fieldsTell env j).mono (by sub_table) (by sub_table) fun _ h => h) fun _ _ => trivial
theorem Frame.final_dispatch (env : Env) (d : Descriptor) : Final (Frame.dispatch env d) := by
  unfold Frame.dispatch
  repeat' apply Final.ite
  all_goals first
    | exact Final.fail _
    | exact (Transfer.final_inner env).map _
    | exact (final_decode _).map _
    | exact (inner_final (α := Amqp.Open) env).map _
    | exact (inner_final (α := Amqp.Begin) env).map _
    | exact (inner_final (α := Amqp.Attach) env).map _
    | exact (inner_final (α := Amqp.Flow) env).map _
    | exact (inner_final (α := Amqp.Disposition) env).map _
    | exact (inner_final (α := Amqp.Detach) env).map _
    | exact (inner_final (α := Amqp.End) env).map _
    | exact (inner_final (α := Amqp.Close) env).map _

end Amqp
