import Verif.Proofs.Growth
import Verif.Framing
/-!
# What a received value takes when sent on: the types one by one

Support for C88.
-/
set_option autoImplicit false
namespace Amqp
open Dec

instance : FieldsGrow (ListType.fields Error) := inferInstanceAs (FieldsGrow [_, _, _])
instance : Grows Error := .of_list
instance : FieldsGrow (ListType.fields Received) := inferInstanceAs (FieldsGrow [_, _])
instance : Grows Received := .of_list
instance : FieldsGrow (ListType.fields Accepted) := inferInstanceAs (FieldsGrow [])
instance : Grows Accepted := .of_list
instance : FieldsGrow (ListType.fields Rejected) := inferInstanceAs (FieldsGrow [_])
instance : Grows Rejected := .of_list
instance : FieldsGrow (ListType.fields Released) := inferInstanceAs (FieldsGrow [])
instance : Grows Released := .of_list
instance : FieldsGrow (ListType.fields Modified) := inferInstanceAs (FieldsGrow [_, _, _])
instance : Grows Modified := .of_list

@[reducible] def extraOutcome : Nat := 
  max (listExtra Accepted) (max (listExtra Rejected) (max (listExtra Released) (max (listExtra Modified) 0)))
theorem Outcome.dispatch_grows (env : Env) (d : Descriptor) : Post (Outcome.dispatch env d)
    fun i r v => (enc v).length + 4 * r.length ≤ 4 * i.length + (extraOutcome + 12) := by
  unfold Outcome.dispatch
  repeat' apply Post.ite
  all_goals first
    | exact Post.fail _
    | (intro i r v h
       obtain ⟨x, h1, rfl⟩ := map_eq_ok.1 h
       exact Nat.le_trans (inner_grows (v := x) h1) (Nat.add_le_add_left (Nat.add_le_add_right (by decide) 12) _))
instance : Grows Outcome := ⟨extraOutcome, 0, fun env i r v h => by
  obtain ⟨c, t, rfl, h1⟩ := decode_ok h
  obtain ⟨_, h1⟩ := validateCode_ok h1
  obtain ⟨r1, d, h2, h3⟩ := bind_eq_ok.1 h1
  have g1 := descriptor_takes_two h2
  have g2 := Outcome.dispatch_grows env d _ _ _ h3
  simp only [List.length_cons]
  omega⟩

instance : FieldsGrow (ListType.fields Source) := inferInstanceAs (FieldsGrow [_, _, _, _, _, _, _, _, _, _, _])
instance : Grows Source := .of_list
instance : FieldsGrow (ListType.fields Target) := inferInstanceAs (FieldsGrow [_, _, _, _, _, _, _])
instance : Grows Target := .of_list

@[reducible] def extraDeliveryState : Nat := 
  max (listExtra Received) (max (listExtra Accepted) (max (listExtra Rejected) (max (listExtra Released) (max (listExtra Modified) 0))))
theorem DeliveryState.dispatch_grows (env : Env) (d : Descriptor) : Post (DeliveryState.dispatch env d)
    fun i r v => (enc v).length + 4 * r.length ≤ 4 * i.length + (extraDeliveryState + 12) := by
  unfold DeliveryState.dispatch
  repeat' apply Post.ite
  all_goals first
    | exact Post.fail _
    | (intro i r v h
       obtain ⟨x, h1, rfl⟩ := map_eq_ok.1 h
       exact Nat.le_trans (inner_grows (v := x) h1) (Nat.add_le_add_left (Nat.add_le_add_right (by decide) 12) _))
instance : Grows DeliveryState := ⟨extraDeliveryState, 0, fun env i r v h => by
  obtain ⟨c, t, rfl, h1⟩ := decode_ok h
  obtain ⟨_, h1⟩ := validateCode_ok h1
  obtain ⟨r1, d, h2, h3⟩ := bind_eq_ok.1 h1
  have g1 := descriptor_takes_two h2
  have g2 := DeliveryState.dispatch_grows env d _ _ _ h3
  simp only [List.length_cons]
  omega⟩

instance : FieldsGrow (ListType.fields Open) := inferInstanceAs (FieldsGrow [_, _, _, _, _, _, _, _, _, _])
instance : Grows Open := .of_list
instance : FieldsGrow (ListType.fields Begin) := inferInstanceAs (FieldsGrow [_, _, _, _, _, _, _, _])
instance : Grows Begin := .of_list
instance : FieldsGrow (ListType.fields Attach) := inferInstanceAs (FieldsGrow [_, _, _, _, _, _, _, _, _, _, _, _, _, _])
instance : Grows Attach := .of_list
instance : FieldsGrow (ListType.fields Flow) := inferInstanceAs (FieldsGrow [_, _, _, _, _, _, _, _, _, _, _])
instance : Grows Flow := .of_list
instance : FieldsGrow (ListType.fields TransferPerf) := inferInstanceAs (FieldsGrow [_, _, _, _, _, _, _, _, _, _, _])
instance : Grows TransferPerf := .of_list
instance : FieldsGrow (ListType.fields Disposition) := inferInstanceAs (FieldsGrow [_, _, _, _, _, _])
instance : Grows Disposition := .of_list
instance : FieldsGrow (ListType.fields Detach) := inferInstanceAs (FieldsGrow [_, _, _])
instance : Grows Detach := .of_list
instance : FieldsGrow (ListType.fields End) := inferInstanceAs (FieldsGrow [_])
instance : Grows End := .of_list
instance : FieldsGrow (ListType.fields Close) := inferInstanceAs (FieldsGrow [_])
instance : Grows Close := .of_list
instance : FieldsGrow (ListType.fields SaslMechanisms) := inferInstanceAs (FieldsGrow [_])
instance : Grows SaslMechanisms := .of_list
instance : FieldsGrow (ListType.fields SaslInit) := inferInstanceAs (FieldsGrow [_, _, _])
instance : Grows SaslInit := .of_list
instance : FieldsGrow (ListType.fields SaslChallenge) := inferInstanceAs (FieldsGrow [_])
instance : Grows SaslChallenge := .of_list
instance : FieldsGrow (ListType.fields SaslResponse) := inferInstanceAs (FieldsGrow [_])
instance : Grows SaslResponse := .of_list
instance : FieldsGrow (ListType.fields SaslOutcome) := inferInstanceAs (FieldsGrow [_, _])
instance : Grows SaslOutcome := .of_list
instance : FieldsGrow (ListType.fields Header) := inferInstanceAs (FieldsGrow [_, _, _, _, _])
instance : Grows Header := .of_list
instance : FieldsGrow (ListType.fields Properties) := inferInstanceAs (FieldsGrow [_, _, _, _, _, _, _, _, _, _, _, _, _])
instance : Grows Properties := .of_list

@[reducible] def extraSaslFrameBody : Nat := 
  max (listExtra SaslMechanisms) (max (listExtra SaslInit) (max (listExtra SaslChallenge) (max (listExtra SaslResponse) (max (listExtra SaslOutcome) 0))))
theorem SaslFrameBody.dispatch_grows (env : Env) (d : Descriptor) : Post (SaslFrameBody.dispatch env d)
    fun i r v => (enc v).length + 4 * r.length ≤ 4 * i.length + (extraSaslFrameBody + 12) := by
  unfold SaslFrameBody.dispatch
  repeat' apply Post.ite
  all_goals first
    | exact Post.fail _
    | (intro i r v h
       obtain ⟨x, h1, rfl⟩ := map_eq_ok.1 h
       exact Nat.le_trans (inner_grows (v := x) h1) (Nat.add_le_add_left (Nat.add_le_add_right (by decide) 12) _))
instance : Grows SaslFrameBody := ⟨extraSaslFrameBody, 0, fun env i r v h => by
  obtain ⟨c, t, rfl, h1⟩ := decode_ok h
  obtain ⟨_, h1⟩ := validateCode_ok h1
  obtain ⟨r1, d, h2, h3⟩ := bind_eq_ok.1 h1
  have g1 := descriptor_takes_two h2
  have g2 := SaslFrameBody.dispatch_grows env d _ _ _ h3
  simp only [List.length_cons]
  omega⟩

/-! ## Frames -/

@[reducible] def extraFrame : Nat := 24

theorem Transfer.withBody_grows {p : TransferPerf} {i r : Bytes} {t : Transfer}
    (h : Transfer.withBody p i = .ok (r, t)) :
    (enc t).length + r.length = (enc p).length + i.length := by
  unfold Transfer.withBody at h
  split at h
  · injection h with h; injection h with h1 h2
    subst h1 h2
    have e : enc ({ p with body := none } : Transfer) = enc p ++ [] := rfl
    rw [e, List.append_nil]
  · injection h with h; injection h with h1 h2
    subst h1 h2
    have e : enc ({ p with body := some (.Data ⟨i⟩) } : Transfer) =
      enc p ++ TransferBody.tenc (.Data ⟨i⟩) := rfl
    rw [e, TransferBody.tenc, List.length_append]
    rfl

theorem Transfer.inner_grows {env : Env} {i r : Bytes} {t : Transfer}
    (h : Transfer.decInner env i = .ok (r, t)) :
    (enc t).length + 4 * r.length ≤ 4 * i.length + (extraFrame + 12) := by
  obtain ⟨r1, p, h1, h2⟩ := bind_eq_ok.1 h
  have g1 := Amqp.inner_grows (v := p) h1
  have g2 := Transfer.withBody_grows h2
  have g3 : listExtra TransferPerf ≤ extraFrame := by decide
  have g4 : r.length ≤ r1.length := by
    unfold Transfer.withBody at h2
    split at h2 <;> cases h2 <;> simp
  omega

theorem Frame.dispatch_grows (env : Env) (d : Descriptor) : Post (Frame.dispatch env d)
    fun i r v => (enc v).length + 4 * r.length ≤ 4 * i.length + (extraFrame + 12) := by
  unfold Frame.dispatch
  repeat' apply Post.ite
  all_goals first
    | exact Post.fail _
    | (intro i r v h
       obtain ⟨x, h1, rfl⟩ := map_eq_ok.1 h
       exact Transfer.inner_grows h1)
    | (intro i r v h
       obtain ⟨x, h1, rfl⟩ := map_eq_ok.1 h
       exact Nat.le_trans (inner_grows (v := x) h1) (Nat.add_le_add_left (Nat.add_le_add_right (by decide) 12) _))

theorem Frame.grows {env : Env} {i r : Bytes} {f : Frame} (h : Frame.decode env i = .ok (r, f)) :
    (enc f).length + 4 * r.length ≤ 4 * i.length + 24 := by
  unfold Frame.decode at h
  split at h
  · injection h with h; injection h with h1 h2
    subst h1 h2
    have : (enc Frame.Empty).length = 0 := rfl
    omega
  · obtain ⟨r0, c, h0, h⟩ := bind_eq_ok.1 h
    have e : i.length = r0.length + 1 := by rw [readU8_ok h0]; rfl
    obtain ⟨_, h⟩ := validateCode_ok h
    obtain ⟨r1, d, h2, h3⟩ := bind_eq_ok.1 h
    have g1 := descriptor_takes_two h2
    have g2 := Frame.dispatch_grows env d _ _ _ h3
    unfold extraFrame at g2
    omega

theorem frameHeader_four {t : UInt8} {i r : Bytes} {c : UInt16}
    (h : decodeFrameHeader t i = .ok (r, c)) : r.length + 4 ≤ i.length := by
  unfold decodeFrameHeader at h
  split at h
  · cases h
  · simp only at h
    split at h
    · cases h
    · split at h
      · cases h
      · split at h
        · cases h
        · cases h
          rw [List.length_drop]
          omega

theorem AmqpFrame.grows {env : Env} {i r : Bytes} {f : AmqpFrame}
    (h : AmqpFrame.decode env i = .ok (r, f)) :
    (enc f).length + 4 * r.length ≤ 4 * (4 + i.length) := by
  obtain ⟨r1, ch, h1, h⟩ := bind_eq_ok.1 h
  obtain ⟨r2, p, h2, h⟩ := bind_eq_ok.1 h
  have g1 := frameHeader_four h1
  have g2 := Frame.grows h2
  cases h
  have e : (enc (AmqpFrame.mk ch p)).length = 8 + (enc p).length := by
    have : enc (AmqpFrame.mk ch p) = frameHeader (headerLen + size p) frameTypeAmqp ch ++ enc p := rfl
    rw [this, List.length_append]
    simp [frameHeader, beEnc_length]
  rw [e]
  omega

theorem SaslFrame.grows {env : Env} {i r : Bytes} {f : SaslFrame}
    (h : SaslFrame.decode env i = .ok (r, f)) :
    (enc f).length + 4 * r.length ≤ 4 * (4 + i.length) := by
  obtain ⟨r1, ch, h1, h⟩ := bind_eq_ok.1 h
  obtain ⟨r2, p, h2, h⟩ := bind_eq_ok.1 h
  have g1 := frameHeader_four h1
  have g2 := Grows.growsTo SaslFrameBody env _ _ _ h2
  cases h
  have e : (enc (SaslFrame.mk p)).length = 8 + (enc p).length := by
    have : enc (SaslFrame.mk p) = frameHeader (headerLen + size p) frameTypeSasl 0 ++ enc p := rfl
    rw [this, List.length_append]
    simp [frameHeader, beEnc_length]
  have e2 : Grows.extra SaslFrameBody ≤ 24 := by decide
  rw [e]
  omega

end Amqp
