import Verif.Spec.TravelFrames
import Verif.Proofs.TravelLists
/-!
# What becomes of frames on their way

Support for C86.
-/
set_option autoImplicit false
namespace Amqp
open Dec

theorem fate_transfer (env : Env) (t : Transfer) (h : held t.toTransferPerf)
    (hl : (enc t.toTransferPerf).length < 2 ^ 32) :
    (fate env t).Answer [] (decode Transfer env (enc t)) := by
  have h1 := FateLaw.law env t.toTransferPerf h hl (t.body.elim [] enc)
  rw [Transfer.enc_eq, decode_transfer_eq]
  have hb : arrivingBody t.body =
      if t.body.elim [] enc = [] then none else some (.Data ⟨t.body.elim [] enc⟩) := by
    cases t.body <;> rfl
  show ((fate env t.toTransferPerf).andThen fun p =>
    .arrives ({ p with body := arrivingBody t.body } : Transfer)).Answer _ _
  rw [hb]
  cases hq : fate env t.toTransferPerf with
  | arrives p =>
    rw [hq] at h1
    have h1 : decode TransferPerf env (enc t.toTransferPerf ++ t.body.elim [] enc) =
      .ok (t.body.elim [] enc, p) := h1
    rw [bind_ok h1, withBody_eq']
    exact rfl
  | refused =>
    rw [hq] at h1
    obtain ⟨e, h1⟩ := h1
    rw [bind_err h1]
    exact ⟨e, rfl⟩
  | crashes p =>
    rw [hq] at h1
    have h1 : decode TransferPerf env (enc t.toTransferPerf ++ t.body.elim [] enc) = .panic p := h1
    rw [bind_panic h1]
    exact rfl

theorem fate_alternative {α : Type} [DecodeF α] {mk : α → Frame} {c : UInt64} {n : String}
    (ha : Alternative Frame.decode (decode α) mk c n) (hc : c.toNat < 256) {env : Env}
    {w rest : Bytes} {s : Fate α} (hw : ∃ p, w = 0x00 :: ([0x53, c.toUInt8] ++ p))
    (h : s.Answer rest (decode α env w)) : (mk <$> s).Answer rest (Frame.decode env w) := by
  obtain ⟨p, rfl⟩ := hw
  have h1 := ha env [0x53, c.toUInt8] p _ (reads_small_descriptor env hc) (.inl rfl)
  rw [h1]
  cases s with
  | arrives a =>
    have h : decode α env (0x00 :: ([0x53, c.toUInt8] ++ p)) = .ok (rest, a) := h
    rw [h]; exact rfl
  | refused => obtain ⟨e, h⟩ := h; rw [h]; exact ⟨e, rfl⟩
  | crashes q =>
    have h : decode α env (0x00 :: ([0x53, c.toUInt8] ++ p)) = .panic q := h
    rw [h]; exact rfl

theorem enc_list_head {α : Type} [Encode α] [DecodeF α] [ListType α] (v : α) :
    ∃ p, enc v = 0x00 :: ([0x53, (ListType.code α).toUInt8] ++ p) := ⟨_, enc_list v⟩

theorem fate_frame_member {α : Type} [Encode α] [DecodeF α] [ListType α] [HasFate α] [Holdable α]
    [FateLaw α] {mk : α → Frame}
    (ha : Alternative Frame.decode (decode α) mk (ListType.code α) (ListType.name α)) {env : Env}
    (v : α) (h : held v) (hl : (enc v).length < 2 ^ 32) :
    (mk <$> fate env v).Answer [] (Frame.decode env (enc v)) := by
  have h1 := FateLaw.law env v h hl []
  rw [List.append_nil] at h1
  exact fate_alternative ha ListType.code_lt (enc_list_head v) h1

theorem fate_frame (env : Env) (f : Frame) (h : held f) (hl : (enc f).length < 2 ^ 32) :
    (fate env f).Answer [] (Frame.decode env (enc f)) := by
  cases f with
  | Open v => exact fate_frame_member (union_alternative frame_described Frame.Open (fun _ => rfl) (fun _ => rfl)) v h hl
  | Begin v => exact fate_frame_member (union_alternative frame_described Frame.Begin (fun _ => rfl) (fun _ => rfl)) v h hl
  | Attach v => exact fate_frame_member (union_alternative frame_described Frame.Attach (fun _ => rfl) (fun _ => rfl)) v h hl
  | Flow v => exact fate_frame_member (union_alternative frame_described Frame.Flow (fun _ => rfl) (fun _ => rfl)) v h hl
  | Disposition v => exact fate_frame_member (union_alternative frame_described Frame.Disposition (fun _ => rfl) (fun _ => rfl)) v h hl
  | Detach v => exact fate_frame_member (union_alternative frame_described Frame.Detach (fun _ => rfl) (fun _ => rfl)) v h hl
  | End v => exact fate_frame_member (union_alternative frame_described Frame.End (fun _ => rfl) (fun _ => rfl)) v h hl
  | Close v => exact fate_frame_member (union_alternative frame_described Frame.Close (fun _ => rfl) (fun _ => rfl)) v h hl
  | Empty => exact rfl
  | Transfer t =>
    have hl : (enc t).length < 2 ^ 32 := hl
    have h1 := fate_transfer env t h.1 (by
      rw [Transfer.enc_eq, List.length_append] at hl; omega)
    refine fate_alternative frame_transfer (by decide) ?_ h1
    obtain ⟨p, e⟩ := enc_list_head t.toTransferPerf
    refine ⟨p ++ t.body.elim [] enc, ?_⟩
    show enc t = _
    rw [Transfer.enc_eq, e]
    simp only [List.cons_append, List.append_assoc]
    rfl

theorem fate_amqpFrame (env : Env) (f : AmqpFrame) (h : held f) (hl : (enc f).length < 2 ^ 32) :
    (fate env f).Answer [] (AmqpFrame.decode env ((enc f).drop 4)) := by
  rw [amqpFrame_enc] at hl ⊢
  rw [List.length_append] at hl
  have h1 := fate_frame env f.performative h (by omega)
  show Fate.Answer _ _ ((decodeFrameHeader 0 >>= _) _)
  rw [bind_ok (decodeFrameHeader_enc _ _ _ _)]
  exact Fate.Answer.fmap (f := fun p => ({ channel_id := f.channel_id, performative := p } : AmqpFrame))
    (d := Frame.decode env) h1

theorem fate_saslFrame (env : Env) (f : SaslFrame) (h : held f) (hl : (enc f).length < 2 ^ 32) :
    (fate env f).Answer [] (SaslFrame.decode env ((enc f).drop 4)) := by
  rw [saslFrame_enc] at hl ⊢
  rw [List.length_append] at hl
  have h1 := FateLaw.law env f.body h (by omega) []
  rw [List.append_nil] at h1
  show Fate.Answer _ _ ((decodeFrameHeader 1 >>= _) _)
  rw [bind_ok (decodeFrameHeader_enc _ _ _ _)]
  exact Fate.Answer.fmap (f := fun p => ({ body := p } : SaslFrame))
    (d := decode SaslFrameBody env) h1

section
variable {T : Type} [Encode T] [HasFate T]

/-- One call of the codec on a frame. -/
theorem fate_codec {env : Env} {dec : Dec T} {f : T} (hw : IsFrame (enc f))
    (h : (fate env f).Answer [] (dec ((enc f).drop 4))) (rest : Bytes) :
    match fate env f with
    | .arrives g => codecDecode env dec .frameHeader (enc f ++ rest) =
        ⟨.frameHeader, rest, .some g⟩
    | .refused => ∃ st e, codecDecode env dec .frameHeader (enc f ++ rest) =
        ⟨st, rest, .err (.parse e)⟩
    | .crashes p => ∃ st, codecDecode env dec .frameHeader (enc f ++ rest) =
        ⟨st, rest, .panic p⟩ := by
  rw [frame_wire hw]
  cases hq : fate env f with
  | arrives g =>
    rw [hq] at h
    have h : dec ((enc f).drop 4) = .ok ([], g) := h
    simp only [h]
    rfl
  | refused =>
    rw [hq] at h
    obtain ⟨e, h⟩ := h
    simp only [h]
    exact ⟨_, e, rfl⟩
  | crashes p =>
    rw [hq] at h
    have h : dec ((enc f).drop 4) = .panic p := h
    simp only [h]
    exact ⟨_, rfl⟩

theorem fate_drain {env : Env} {dec : Dec T} : ∀ (fs : List T),
    (∀ f ∈ fs, IsFrame (enc f) ∧ (fate env f).Answer [] (dec ((enc f).drop 4))) →
    (drain env dec .frameHeader (fs.flatMap enc)).1 = (arrivals (fs.map (fate env))).1 ∧
    (arrivals (fs.map (fate env))).2.Ends (drain env dec .frameHeader (fs.flatMap enc)).2
  | [], _ => by
    rw [drain_stop (by intro a; simp [codecDecode, headerLen])]
    exact ⟨rfl, rfl, rfl⟩
  | f :: fs, h => by
    have h1 := fate_codec (h f (by simp)).1 (h f (by simp)).2 (fs.flatMap enc)
    have ih := fate_drain fs fun g hg => h g (by simp [hg])
    rw [List.flatMap_cons, List.map_cons]
    cases hq : fate env f with
    | arrives g =>
      rw [hq] at h1
      rw [drain_some h1]
      exact ⟨congrArg (g :: ·) ih.1, ih.2⟩
    | refused =>
      rw [hq] at h1
      obtain ⟨st, e, h1⟩ := h1
      rw [drain_stop (by rw [h1]; simp), h1]
      exact ⟨rfl, e, rfl⟩
    | crashes p =>
      rw [hq] at h1
      obtain ⟨st, h1⟩ := h1
      rw [drain_stop (by rw [h1]; simp), h1]
      exact ⟨rfl, rfl⟩
end

theorem amqpFrame_isFrame_exact {f : AmqpFrame} (h : f.performative.PayloadExact)
    (hl : (enc f).length < 2 ^ 32) : IsFrame (enc f) := by
  rw [amqpFrame_enc] at hl ⊢
  have hs := Frame.size_eq f.performative h
  refine isFrame_header (by rw [hs]) ?_
  rw [List.length_append, frameHeader_length] at hl
  omega

theorem plain_payload_exact {f : Frame} (h : f.PlainPayload) : f.PayloadExact := plain_exact h

end Amqp
