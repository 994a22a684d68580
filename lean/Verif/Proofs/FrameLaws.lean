import Verif.Spec.Frames
import Verif.Proofs.ListPrefix
import Verif.Proofs.IoLaws
/-!
# Lemmas for the properties of frames
-/
set_option autoImplicit false
namespace Amqp
open Dec

/-! ### Transfers -/

theorem decode_transfer_eq (env : Env) (i : Bytes) :
    decode Transfer env i = (decode TransferPerf env >>= Transfer.withBody) i := by
  cases i with
  | nil => rfl
  | cons c t =>
    have h1 : decF (α := Transfer) env c = describedAs env c 20 "amqp:transfer:list"
      (TransferPerf.decInner env >>= Transfer.withBody) := rfl
    have h2 : decF (α := TransferPerf) env c = describedAs env c 20 "amqp:transfer:list"
      (TransferPerf.decInner env) := rfl
    rw [run_bind, decode_cons, decode_cons, h1, h2, describedAs_eq, describedAs_eq]
    unfold validateCode
    split
    · rfl
    · rw [run_bind, run_bind]
      cases decode Descriptor env t with
      | err e => rfl
      | panic p => rfl
      | ok q =>
        obtain ⟨r, d⟩ := q
        simp only
        cases d.selects 20 "amqp:transfer:list" <;> rfl

theorem withBody_eq' (p : TransferPerf) (payload : Bytes) : Transfer.withBody p payload =
    .ok ([], { p with body := if payload = [] then none else some (.Data ⟨payload⟩) }) := by
  unfold Transfer.withBody
  cases payload <;> rfl

theorem enc_ulong_ne (c : UInt64) : enc (Descriptor.ulong c) ≠ [] := by
  intro h
  have : (enc (Descriptor.ulong c)).length = 0 := by rw [h]; rfl
  rw [← LawfulEnc.size_eq] at this
  simp [size] at this

theorem sectionEnc_ne {α : Type} [Encode α] (c : UInt64) (v : α) : sectionEnc c v ≠ [] := by
  simp [sectionEnc, enc_ulong_ne c]

/-- A message is never written as nothing. -/
theorem enc_message_ne {AP : Type} [Encode AP] (m : Message AP) : enc m ≠ [] := by
  intro h
  have h' : m.menc = [] := h
  simp only [Message.menc, List.append_eq_nil_iff] at h'
  obtain ⟨⟨-, h1⟩, -⟩ := h'
  unfold bodyEncOrEmpty at h1
  split at h1
  · simp at h1
  · rename_i hb
    apply hb
    simp only [bodyEncWith, List.append_eq_nil_iff] at h1
    obtain ⟨⟨⟨hd, hs⟩, hv⟩, hn⟩ := h1
    have e1 : m.data = [] := by
      cases hm : m.data with
      | nil => rfl
      | cons a t => rw [hm] at hd; simp [sectionEnc_ne] at hd
    have e2 : m.sequence = [] := by
      cases hm : m.sequence with
      | nil => rfl
      | cons a t => rw [hm] at hs; simp [sectionEnc_ne] at hs
    have e3 : m.value = none := by
      cases hm : m.value with
      | none => rfl
      | some a => rw [hm] at hv; exact absurd hv (sectionEnc_ne 119 a)
    have e4 : m.messages = [] := by
      cases hm : m.messages with
      | nil => rfl
      | cons a t => rw [hm] at hn; simp [nestedEnc, enc_ulong_ne 117] at hn
    simp [Message.bodySize, e1, e2, e3, e4, bodySizeWith, sectionsSize, nestedSize]

/-! ### Frames -/

theorem decode_frame_member {α : Type} [Encode α] [DecodeF α] [ListType α] {mk : α → Frame}
    {c : UInt64} {n : String} (ha : Alternative Frame.decode (decode α) mk c n)
    (hc : c = ListType.code α) {env : Env} (v : α) (h : RoundTrips env v) (rest : Bytes) :
    Frame.decode env (enc v ++ rest) = .ok (rest, mk v) := by
  subst hc
  have e : ∃ p, enc v = 0x00 :: ([0x53, (ListType.code α).toUInt8] ++ p) := by
    rw [ListType.enc_eq', listHdr, enc_ulong_small (ListType.code_pos (α := α)) ListType.code_lt]
    exact ⟨_, rfl⟩
  obtain ⟨p, hp⟩ := e
  have h1 := ha env [0x53, (ListType.code α).toUInt8] (p ++ rest) _
    (reads_small_descriptor env (ListType.code_lt (α := α))) (.inl rfl)
  have h2 := h rest
  rw [hp] at h2 ⊢
  simp only [List.cons_append, List.nil_append] at h1 h2 ⊢
  rw [h1, h2]

theorem decode_frame_transfer {env : Env} {v : TransferPerf} (h : RoundTrips env v)
    (payload : Bytes) : Frame.decode env (enc v ++ payload) = .ok ([], .Transfer
      { v with body := if payload = [] then none else some (.Data ⟨payload⟩) }) := by
  have e : ∃ p, enc v = 0x00 :: ([0x53, (ListType.code TransferPerf).toUInt8] ++ p) := by
    rw [ListType.enc_eq', listHdr, enc_ulong_small (ListType.code_pos (α := TransferPerf))
      ListType.code_lt]
    exact ⟨_, rfl⟩
  obtain ⟨p, hp⟩ := e
  have h1 := frame_transfer env [0x53, (ListType.code TransferPerf).toUInt8] (p ++ payload) _
    (reads_small_descriptor env (ListType.code_lt (α := TransferPerf))) (.inl rfl)
  have h2 := Dec.bind_ok (f := Transfer.withBody) (h payload)
  rw [← decode_transfer_eq, withBody_eq'] at h2
  rw [hp] at h2 ⊢
  simp only [List.cons_append, List.nil_append] at h1 h2 ⊢
  rw [h1, h2]

theorem transfer_received_body (t : Transfer) :
    t.received = { t.toTransferPerf with
      body := if t.body.elim [] enc = [] then none else some (.Data ⟨t.body.elim [] enc⟩) } := by
  obtain ⟨p, b⟩ := t
  cases b <;> rfl

/-- A frame whose content round-trips is decoded as it is received. -/
theorem decode_frame_content {env : Env} {f : Frame} (h : f.ContentRoundTrips env) :
    Frame.decode env (enc f) = .ok ([], f.received) := by
  have fin : ∀ {α : Type} [Encode α] [DecodeF α] [ListType α] {mk : α → Frame} (v : α),
      RoundTrips env v → Alternative Frame.decode (decode α) mk (ListType.code α) (ListType.name α) →
      Frame.decode env (enc v) = .ok ([], mk v) := fun v hv ha => by
    have := decode_frame_member ha rfl v hv []
    rwa [List.append_nil] at this
  cases f with
  | Open v => exact fin v h (union_alternative frame_described Frame.Open (fun _ => rfl) (fun _ => rfl))
  | Begin v => exact fin v h (union_alternative frame_described Frame.Begin (fun _ => rfl) (fun _ => rfl))
  | Attach v =>
    exact fin v h (union_alternative frame_described Frame.Attach (fun _ => rfl) (fun _ => rfl))
  | Flow v => exact fin v h (union_alternative frame_described Frame.Flow (fun _ => rfl) (fun _ => rfl))
  | Transfer t =>
    show Frame.decode env (enc t) = .ok ([], .Transfer t.received)
    rw [transfer_received_body, Transfer.enc_eq]
    exact decode_frame_transfer h _
  | Disposition v =>
    exact fin v h (union_alternative frame_described Frame.Disposition (fun _ => rfl) (fun _ => rfl))
  | Detach v =>
    exact fin v h (union_alternative frame_described Frame.Detach (fun _ => rfl) (fun _ => rfl))
  | End v => exact fin v h (union_alternative frame_described Frame.End (fun _ => rfl) (fun _ => rfl))
  | Close v => exact fin v h (union_alternative frame_described Frame.Close (fun _ => rfl) (fun _ => rfl))
  | Empty => rfl

theorem received_plain {f : Frame} (h : f.PlainPayload) : f.received = f := by
  cases f with
  | Transfer t =>
    obtain ⟨p, b⟩ := t
    cases b with
    | none => rfl
    | some b =>
      obtain ⟨d, rfl, hd⟩ := h _ b rfl rfl
      have : TransferBody.tenc (.Data d) = d.data := by simp [TransferBody.tenc]
      show Frame.Transfer { p with body := (if TransferBody.tenc (.Data d) = [] then none
        else some (.Data ⟨TransferBody.tenc (.Data d)⟩)) } = _
      rw [this, if_neg hd]
  | _ => rfl

theorem plain_exact {f : Frame} (h : f.PlainPayload) :
    ∀ t b, f = .Transfer t → t.body = some b → b.Exact := by
  intro t b hf hb
  obtain ⟨d, rfl, -⟩ := h t b hf hb
  show TransferBody.tsize _ = _
  simp [TransferBody.tsize, TransferBody.tenc]

theorem amqpFrame_enc (f : AmqpFrame) : enc f =
    frameHeader (8 + size f.performative) 0 f.channel_id ++ enc f.performative := rfl

theorem saslFrame_enc (f : SaslFrame) : enc f =
    frameHeader (8 + size f.body) 1 0 ++ enc f.body := rfl

theorem frameHeader_length (n : Nat) (t : UInt8) (c : UInt16) : (frameHeader n t c).length = 8 := by
  simp [frameHeader]

theorem amqpFrame_isFrame {f : AmqpFrame} (h : f.performative.PlainPayload)
    (hl : (enc f).length < 2 ^ 32) : IsFrame (enc f) := by
  rw [amqpFrame_enc] at hl ⊢
  have hs := Frame.size_eq f.performative (plain_exact h)
  refine isFrame_header (by rw [hs]) ?_
  rw [List.length_append, frameHeader_length] at hl
  omega

theorem saslFrame_isFrame {f : SaslFrame} (hs : size f.body = (enc f.body).length)
    (hl : (enc f).length < 2 ^ 32) : IsFrame (enc f) := by
  rw [saslFrame_enc] at hl ⊢
  refine isFrame_header (by rw [hs]) ?_
  rw [List.length_append, frameHeader_length] at hl
  omega

theorem amqpFrame_decode {env : Env} {f : AmqpFrame}
    (h : f.performative.ContentRoundTrips env) :
    AmqpFrame.decode env ((enc f).drop 4) = .ok ([], f.received) := by
  rw [amqpFrame_enc]
  show (decodeFrameHeader 0 >>= _) _ = _
  rw [bind_ok (decodeFrameHeader_enc _ _ _ _), bind_ok (decode_frame_content h)]
  rfl

theorem saslFrame_decode {env : Env} {f : SaslFrame} (h : RoundTrips env f.body) :
    SaslFrame.decode env ((enc f).drop 4) = .ok ([], f) := by
  rw [saslFrame_enc]
  show (decodeFrameHeader 1 >>= _) _ = _
  have h2 := h []
  rw [List.append_nil] at h2
  rw [bind_ok (decodeFrameHeader_enc _ _ _ _), bind_ok h2]
  rfl

/-! ### Frame headers -/

theorem decodeFrameHeader_ok {expected : UInt8} {input rest : Bytes} {ch : UInt16}
    (h : decodeFrameHeader expected input = .ok (rest, ch)) :
    FrameLayout input expected ch rest := by
  match input, h with
  | [], h => cases h
  | [_], h => cases h
  | [_, _], h => cases h
  | [_, _, _], h => cases h
  | doff :: type :: a :: b :: t, h =>
    rw [decodeFrameHeader_eq] at h
    split at h
    · cases h
    · rename_i ht
      split at h
      · cases h
      · split at h
        · cases h
        · injection h with h; injection h with h1 h2
          refine ⟨doff, a, b, t.take ((doff.toNat - 2) * 4), ?_, ?_, ?_⟩
          · rw [← h1, List.take_append_drop]
            simp only [ne_eq, Decidable.not_not] at ht
            rw [ht]
          · simp only [List.length_take]; omega
          · rw [← h2]
            have := a.toNat_lt
            have := b.toNat_lt
            simp only [UInt16.toNat_ofNat', Nat.reducePow] at *
            omega

theorem decodeFrameHeader_layout {expected : UInt8} {input rest : Bytes} {ch : UInt16}
    (h : FrameLayout input expected ch rest) :
    decodeFrameHeader expected input = .ok (rest, ch) := by
  obtain ⟨doff, a, b, ext, rfl, hl, hc⟩ := h.parts
  rw [decodeFrameHeader_eq]
  simp only [ne_eq, not_true_eq_false, if_false]
  rw [if_neg (by omega), if_neg (by simp only [List.length_append]; omega),
    show (doff.toNat - 2) * 4 = ext.length by omega, List.drop_left]
  congr 2
  apply UInt16.toNat_inj.1
  have := a.toNat_lt
  have := b.toNat_lt
  simp only [UInt16.toNat_ofNat', Nat.reducePow] at *
  omega

/-! ### Schedules -/

section
variable {T : Type}

theorem drain_congr {env : Env} {dec : Dec T} {st st' : DecodeState} {src src' : Bytes}
    (h : codecDecode env dec st src = codecDecode env dec st' src') :
    drain env dec st src = drain env dec st' src' := by
  rcases Answer.cases_some (codecDecode env dec st src).answer with ⟨x, hx⟩ | hx
  · have e : codecDecode env dec st src = ⟨(codecDecode env dec st src).state,
      (codecDecode env dec st src).src, .some x⟩ := by rw [← hx]
    have e' := e
    rw [h] at e'
    rw [drain_some e, drain_some e', h]
  · rw [drain_stop hx, drain_stop (h ▸ hx), h]

/-- What a session would have if it went on until it waits or fails. -/
def Session.finish (env : Env) (dec : Dec T) (s : Session T) (more : Bytes) :
    List T × Call CodecError T :=
  match s.call.answer with
  | .err e => (s.items, ⟨s.call.state, s.call.src ++ more, .err e⟩)
  | .panic p => (s.items, ⟨s.call.state, s.call.src ++ more, .panic p⟩)
  | _ => (s.items ++ (drain env dec s.call.state (s.call.src ++ more)).1,
      (drain env dec s.call.state (s.call.src ++ more)).2)

theorem Session.finish_step (env : Env) (dec : Dec T) (s : Session T) (e : Event) (more : Bytes) :
    (s.step env dec e).finish env dec more = s.finish env dec (e.bytes ++ more) := by
  cases e with
  | arrive b =>
    unfold Session.finish Session.step Event.bytes
    simp only
    cases s.call.answer <;> simp only [List.append_assoc]
  | poll =>
    have key : ∀ it : List T, Session.finish env dec
        (.record it (codecDecode env dec s.call.state s.call.src)) more =
        (it ++ (drain env dec s.call.state (s.call.src ++ more)).1,
          (drain env dec s.call.state (s.call.src ++ more)).2) := by
      intro it
      unfold Session.record
      cases ha : (codecDecode env dec s.call.state s.call.src).answer with
      | none =>
        have := drain_congr (codecDecode_resume ha more)
        simp only [Session.finish, ha, this]
      | some a =>
        have e' := codecDecode_more (by rw [ha]; simp) more (dec := dec) (env := env)
          (st := s.call.state) (src := s.call.src)
        rw [ha] at e'
        rw [drain_some e']
        simp only [Session.finish, ha, List.append_assoc, List.cons_append, List.nil_append]
      | err er =>
        have e' := codecDecode_more (by rw [ha]; simp) more (dec := dec) (env := env)
          (st := s.call.state) (src := s.call.src)
        rw [drain_stop (by rw [e', ha]; simp), e', ha]
        simp only [Session.finish, ha, List.append_nil]
      | panic p =>
        have e' := codecDecode_more (by rw [ha]; simp) more (dec := dec) (env := env)
          (st := s.call.state) (src := s.call.src)
        rw [drain_stop (by rw [e', ha]; simp), e', ha]
        simp only [Session.finish, ha, List.append_nil]
    simp only [Session.step, Event.bytes, List.nil_append]
    cases hs : s.call.answer with
    | none =>
      simp only
      rw [key]
      unfold Session.finish
      rw [hs]
    | some a =>
      simp only
      rw [key]
      unfold Session.finish
      rw [hs]
    | err er => simp only
    | panic p => simp only

theorem Session.finish_run (env : Env) (dec : Dec T) : ∀ (es : List Event) (s : Session T)
    (more : Bytes), (s.run env dec es).finish env dec more =
      s.finish env dec ((es.map Event.bytes).flatten ++ more)
  | [], s, more => rfl
  | e :: t, s, more => by
    have := finish_run env dec t (s.step env dec e) more
    rw [Session.finish_step] at this
    rw [List.map_cons, List.flatten_cons, List.append_assoc]
    exact this

end
end Amqp
