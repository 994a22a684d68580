import Verif.Proofs.FrameLaws
import Verif.Props.Performatives
import Verif.Props.Descriptors
/-!
# C25–C27: frames and transfers
-/
set_option autoImplicit false
namespace Amqp
open Dec

/-! ## C25 -/

/-- **C25**, AMQP frames: a frame with this layout is decoded to its channel and
whatever its body is decoded to; the data offset and the extended header, about
which nothing is said, have no effect. -/
theorem C25_amqp (env : Env) (input body : Bytes) (channel : UInt16)
    (h : FrameLayout input 0x00 channel body) :
    AmqpFrame.decode env input = match Frame.decode env body with
      | .ok (rest, performative) => .ok (rest, ⟨channel, performative⟩)
      | .err e => .err e
      | .panic p => .panic p := by
  show (decodeFrameHeader 0 >>= _) input = _
  rw [bind_ok (decodeFrameHeader_layout h), run_bind]
  cases Frame.decode env body <;> rfl

/-- **C25**, SASL frames: likewise, and the channel bytes are ignored too. -/
theorem C25_sasl (env : Env) (input body : Bytes) (ignored : UInt16)
    (h : FrameLayout input 0x01 ignored body) :
    SaslFrame.decode env input = match decode SaslFrameBody env body with
      | .ok (rest, content) => .ok (rest, ⟨content⟩)
      | .err e => .err e
      | .panic p => .panic p := by
  show (decodeFrameHeader 1 >>= _) input = _
  rw [bind_ok (decodeFrameHeader_layout h), run_bind]
  cases decode SaslFrameBody env body <;> rfl

/-- **C25**: an accepted AMQP frame has this layout. -/
theorem C25_amqp_only (env : Env) (input rest : Bytes) (f : AmqpFrame)
    (h : AmqpFrame.decode env input = .ok (rest, f)) :
    ∃ body, FrameLayout input 0x00 f.channel_id body ∧
      Frame.decode env body = .ok (rest, f.performative) := by
  obtain ⟨body, ch, h1, hA⟩ := bind_eq_ok.1 h
  obtain ⟨r, p, h2, hB⟩ := bind_eq_ok.1 hA
  cases hB
  exact ⟨body, decodeFrameHeader_ok h1, h2⟩

/-- **C25**: an accepted SASL frame has this layout. -/
theorem C25_sasl_only (env : Env) (input rest : Bytes) (f : SaslFrame)
    (h : SaslFrame.decode env input = .ok (rest, f)) :
    ∃ body ignored, FrameLayout input 0x01 ignored body ∧
      decode SaslFrameBody env body = .ok (rest, f.body) := by
  obtain ⟨body, ch, h1, hA⟩ := bind_eq_ok.1 h
  obtain ⟨r, p, h2, hB⟩ := bind_eq_ok.1 hA
  cases hB
  exact ⟨body, ch, decodeFrameHeader_ok h1, h2⟩

/-- **C25**: why a frame is rejected — too short, another type, a data offset
inside the header, or beyond the end. -/
theorem C25_reject (env : Env) (doff type c0 c1 : UInt8) (t short : Bytes)
    (hs : short.length < 4) :
    AmqpFrame.decode env short = .err (.incomplete 4) ∧
    SaslFrame.decode env short = .err (.incomplete 4) ∧
    (type ≠ 0x00 → AmqpFrame.decode env (doff :: type :: c0 :: c1 :: t) =
      .err (.unexpectedFrameType type)) ∧
    (type ≠ 0x01 → SaslFrame.decode env (doff :: type :: c0 :: c1 :: t) =
      .err (.unexpectedFrameType type)) ∧
    (doff.toNat < 2 → AmqpFrame.decode env (doff :: 0x00 :: c0 :: c1 :: t) = .err .invalidSize ∧
      SaslFrame.decode env (doff :: 0x01 :: c0 :: c1 :: t) = .err .invalidSize) ∧
    (2 ≤ doff.toNat → 8 + t.length < 4 * doff.toNat →
      AmqpFrame.decode env (doff :: 0x00 :: c0 :: c1 :: t) =
        .err (.incomplete (4 * doff.toNat - 4)) ∧
      SaslFrame.decode env (doff :: 0x01 :: c0 :: c1 :: t) =
        .err (.incomplete (4 * doff.toNat - 4))) := by
  have hsh : ∀ e, decodeFrameHeader e short = .err (.incomplete 4) := fun e => by
    unfold decodeFrameHeader; rw [if_pos hs]
  refine ⟨bind_err (hsh 0), bind_err (hsh 1), fun h => bind_err ?_, fun h => bind_err ?_,
    fun h => ⟨bind_err ?_, bind_err ?_⟩, fun h1 h2 => ⟨bind_err ?_, bind_err ?_⟩⟩
  · rw [decodeFrameHeader_eq, if_pos (show type ≠ frameTypeAmqp from h)]
  · rw [decodeFrameHeader_eq, if_pos (show type ≠ frameTypeSasl from h)]
  · rw [decodeFrameHeader_eq, if_neg (by simp [frameTypeAmqp]), if_pos h]
  · rw [decodeFrameHeader_eq, if_neg (by simp [frameTypeSasl]), if_pos h]
  · rw [decodeFrameHeader_eq, if_neg (by simp [frameTypeAmqp]), if_neg (by omega), if_pos (by omega)]
    congr 2; omega
  · rw [decodeFrameHeader_eq, if_neg (by simp [frameTypeSasl]), if_neg (by omega), if_pos (by omega)]
    congr 2; omega

/-- A heartbeat on channel 258 with four bytes of extended header. -/
example : AmqpFrame.decode debugEnv [3, 0, 1, 2, 9, 9, 9, 9] = .ok ([], ⟨258, .Empty⟩) :=
  C25_amqp debugEnv [3, 0, 1, 2, 9, 9, 9, 9] [] 258 ⟨3, 1, 2, [9, 9, 9, 9], rfl, rfl, rfl⟩
example : AmqpFrame.decode debugEnv [1, 0, 1, 2, 9, 9, 9, 9] = .err .invalidSize :=
  ((C25_reject debugEnv 1 0 1 2 [9, 9, 9, 9] [] (by decide)).2.2.2.2.1 (by decide)).1
example : SaslFrame.decode debugEnv ([3, 1, 7, 7, 9, 9, 9, 9] ++
    [0x00, 0x53, 0x42, 0xc0, 4, 1, 0xa0, 1, 5]) =
    .ok ([], ⟨.SaslChallenge ⟨⟨[5]⟩⟩⟩) :=
  (C25_sasl debugEnv ([3, 1, 7, 7, 9, 9, 9, 9] ++ [0x00, 0x53, 0x42, 0xc0, 4, 1, 0xa0, 1, 5])
    [0x00, 0x53, 0x42, 0xc0, 4, 1, 0xa0, 1, 5] 0x0707 ⟨3, 7, 7, [9, 9, 9, 9], rfl, rfl, rfl⟩).trans
    (by rfl)

/-! ## C26 -/

/-- **C26**: what is written for an AMQP frame is one frame, and is decoded,
after its length, to the same frame. -/
theorem C26_amqp (env : Env) (f : AmqpFrame) (hc : f.performative.ContentRoundTrips env)
    (hp : f.performative.PlainPayload) :
    AmqpFrame.decode env ((enc f).drop 4) = .ok ([], f) ∧
    ((enc f).length < 2 ^ 32 → IsFrame (enc f)) := by
  refine ⟨?_, amqpFrame_isFrame hp⟩
  rw [amqpFrame_decode hc, AmqpFrame.received, received_plain hp]

/-- **C26**: the same for SASL frames. -/
theorem C26_sasl (env : Env) (f : SaslFrame) (hc : RoundTrips env f.body) :
    SaslFrame.decode env ((enc f).drop 4) = .ok ([], f) ∧
    ((enc f).length < 2 ^ 32 → IsFrame (enc f)) :=
  ⟨saslFrame_decode hc, saslFrame_isFrame (LawfulEnc.size_eq f.body)⟩

/-- A heartbeat. -/
example : AmqpFrame.decode debugEnv ((enc (⟨7, .Empty⟩ : AmqpFrame)).drop 4) =
    .ok ([], ⟨7, .Empty⟩) :=
  (C26_amqp debugEnv ⟨7, .Empty⟩ trivial (fun _ _ h => by cases h)).1
/-- An open frame with all simple fields set. -/
example : IsFrame (enc (⟨7, .Open Open.sample⟩ : AmqpFrame)) :=
  (C26_amqp debugEnv ⟨7, .Open Open.sample⟩
    (C21_open _ _ (by decide) (fun _ => rfl) (fun _ => rfl) (fun _ => rfl) (fun _ => rfl)
      (fun _ => rfl)) (fun _ _ h => by cases h)).2 (by decide)
example : SaslFrame.decode debugEnv ((enc (⟨.SaslInit SaslInit.sample⟩ : SaslFrame)).drop 4) =
    .ok ([], ⟨.SaslInit SaslInit.sample⟩) :=
  (C26_sasl debugEnv ⟨.SaslInit SaslInit.sample⟩
    (C21_sasl_frame_body _ _ (C21_sasl_init _ _ (by decide)))).1

/-! ## C27 -/

/-- **C27**: whatever follows a transfer performative, in any form the
performative is accepted, is its payload; there is none iff nothing follows. -/
theorem C27_decode (env : Env) (u payload : Bytes) (p : TransferPerf) (h : Means env u p) :
    decode Transfer env (u ++ payload) =
      .ok ([], { p with body := if payload = [] then none else some (.Data ⟨payload⟩) }) := by
  rw [decode_transfer_eq, bind_ok (h payload), withBody_eq']

/-- **C27**: and nothing else is accepted as a transfer. -/
theorem C27_decode_only (env : Env) (input rest : Bytes) (t : Transfer)
    (h : decode Transfer env input = .ok (rest, t)) :
    ∃ u payload, input = u ++ payload ∧ Means env u t.toTransferPerf ∧ rest = [] ∧
      t.body = if payload = [] then none else some (.Data ⟨payload⟩) := by
  rw [decode_transfer_eq] at h
  obtain ⟨payload, p, h1, h2⟩ := bind_eq_ok.1 h
  obtain ⟨u, rfl, hu⟩ := loc_decode env _ _ _ h1
  rw [withBody_eq'] at h2
  cases h2
  exact ⟨u, payload, rfl, hu, rfl, rfl⟩

/-- **C27**: a transfer inside a frame is decoded as a transfer, so the same
holds there. -/
theorem C27_frame (env : Env) (d u payload : Bytes) (desc : Descriptor) (p : TransferPerf)
    (hd : Means env d desc) (hs : desc.Is 0x14 "amqp:transfer:list")
    (h : Means env (0x00 :: (d ++ u)) p) :
    Frame.decode env (0x00 :: (d ++ (u ++ payload))) = .ok ([], .Transfer
      { p with body := if payload = [] then none else some (.Data ⟨payload⟩) }) := by
  have h1 := C27_decode env _ payload p h
  rw [List.cons_append, List.append_assoc] at h1
  rw [frame_transfer env d (u ++ payload) desc hd hs, h1]

/-- **C27**: a payload given as bytes is written unchanged after the performative. -/
theorem C27_encode (p : TransferPerf) (payload : Binary) :
    enc ({ p with body := some (.Data payload) } : Transfer) = enc p ++ payload.data ∧
    enc ({ p with body := none } : Transfer) = enc p := by
  refine ⟨?_, ?_⟩
  · rw [Transfer.enc_eq]
    show enc p ++ TransferBody.tenc _ = _
    simp [TransferBody.tenc]
  · rw [Transfer.enc_eq]
    exact List.append_nil _

/-- **C27**: a payload given as a message is written as the message is, and comes
back as those bytes; an empty payload comes back as none. -/
theorem C27_messages (env : Env) (t : Transfer) (h : RoundTrips env t.toTransferPerf) :
    (∀ m : InMessage, t.body = some m.toIn → decode Transfer env (enc t) =
      .ok ([], { t with body := some (.Data ⟨enc m⟩) })) ∧
    (∀ m : OutMessage, t.body = some m.toOut → decode Transfer env (enc t) =
      .ok ([], { t with body := some (.Data ⟨enc m⟩) })) ∧
    (t.body = some (.Data ⟨[]⟩) → decode Transfer env (enc t) = .ok ([], { t with body := none })) := by
  refine ⟨fun m hm => ?_, fun m hm => ?_, fun hb => ?_⟩
  · rw [Transfer.enc_eq, hm, Option.elim_some, Message.toIn_enc, C27_decode env _ _ _ h, if_neg (enc_message_ne m)]
  · rw [Transfer.enc_eq, hm, Option.elim_some, Message.toOut_enc, C27_decode env _ _ _ h, if_neg (enc_message_ne m)]
  · rw [Transfer.enc_eq, hb, Option.elim_some, C27_decode env _ _ _ h]
    have : enc (TransferBody.Data ⟨[]⟩) = [] := by
      show TransferBody.tenc _ = _
      simp [TransferBody.tenc]
    rw [this]
    rfl

/-- **C27**, round trip of a whole AMQP frame carrying a transfer with a payload. -/
theorem C27_round_trip (env : Env) (channel : UInt16) (p : TransferPerf) (payload : Binary)
    (h : RoundTrips env p) (hp : payload.data ≠ []) :
    AmqpFrame.decode env
      ((enc (⟨channel, .Transfer { p with body := some (.Data payload) }⟩ : AmqpFrame)).drop 4) =
      .ok ([], ⟨channel, .Transfer { p with body := some (.Data payload) }⟩) :=
  (C26_amqp env ⟨channel, .Transfer { p with body := some (.Data payload) }⟩ h
    (fun t b ht hb => by
      cases ht
      cases hb
      exact ⟨payload, rfl, hp⟩)).1

theorem transferSample_roundTrips : RoundTrips debugEnv TransferPerf.sample :=
  C21_transfer _ _ (by decide) (fun _ => rfl)

example : decode Transfer debugEnv (enc TransferPerf.sample ++ [1, 2, 3]) =
    .ok ([], { TransferPerf.sample with body := some (.Data ⟨[1, 2, 3]⟩) }) :=
  C27_decode debugEnv (enc TransferPerf.sample) [1, 2, 3] _ transferSample_roundTrips
example : AmqpFrame.decode debugEnv
    ((enc (⟨1, .Transfer { TransferPerf.sample with body := some (.Data ⟨[1, 2, 3]⟩) }⟩ : AmqpFrame)).drop 4) =
    .ok ([], ⟨1, .Transfer { TransferPerf.sample with body := some (.Data ⟨[1, 2, 3]⟩) }⟩) :=
  C27_round_trip debugEnv 1 _ ⟨[1, 2, 3]⟩ transferSample_roundTrips (by decide)
/-- An empty message has a payload: its empty data section. -/
example : decode Transfer debugEnv (enc ({ TransferPerf.sample with
      body := some (Message.empty : InMessage).toIn } : Transfer)) =
    .ok ([], { TransferPerf.sample with body := some (.Data ⟨[0x00, 0x53, 0x75, 0xa0, 0]⟩) }) :=
  ((C27_messages debugEnv { TransferPerf.sample with
      body := some (Message.empty : InMessage).toIn } transferSample_roundTrips).1
    Message.empty rfl).trans (by
      have : enc (Message.empty : InMessage) = [0x00, 0x53, 0x75, 0xa0, 0] := by rfl
      rw [this])

end Amqp
