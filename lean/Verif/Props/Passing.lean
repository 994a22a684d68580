import Verif.Spec.Passing
import Verif.Proofs.PassingMessages
import Verif.Props.Travel
/-!
# C87: what was received and is sent on arrives unaltered or not at all
-/
set_option autoImplicit false
namespace Amqp
open Forwardable (fwd)

theorem passesOn {α : Type} [Encode α] [DecodeF α] [HasFate α] [Forwardable α] [Holdable α]
    [FateLaw α] [ReceivedHeld α] [Passes α] : PassesOn α := by
  intro env env' i r v h hl rest
  have hf := FateLaw.law env' v (ReceivedHeld.held_of env i r v h) hl rest
  obtain ⟨p1, p2⟩ := Passes.passes env i r v h
  refine ⟨fun r' w hw => ?_, fun hd hc => ?_⟩
  · cases hq : fate env' v with
    | arrives a =>
      rw [hq] at hf
      have hf : decode α env' (enc v ++ rest) = .ok (rest, a) := hf
      rw [hf] at hw
      cases hw
      obtain ⟨rfl, hc⟩ := p1 env' _ hq
      exact ⟨rfl, rfl, hc⟩
    | refused =>
      rw [hq] at hf
      obtain ⟨e, hf⟩ := hf
      rw [hf] at hw
      cases hw
    | crashes p =>
      rw [hq] at hf
      have hf : decode α env' (enc v ++ rest) = .panic p := hf
      rw [hf] at hw
      cases hw
  · rw [p2 env' hd hc] at hf
    exact hf

/-- **C87**: values of the types of the specification. -/
theorem C87_parts :
    PassesOn Variant ∧ PassesOn DateTime ∧ PassesOn Error ∧ PassesOn DeliveryState ∧
    PassesOn Outcome ∧ PassesOn Source ∧ PassesOn Target ∧ PassesOn Open ∧ PassesOn Begin ∧
    PassesOn Attach ∧ PassesOn Flow ∧ PassesOn TransferPerf ∧ PassesOn Disposition ∧
    PassesOn Detach ∧ PassesOn End ∧ PassesOn Close ∧ PassesOn SaslFrameBody ∧
    PassesOn Header ∧ PassesOn Properties ∧ PassesOn Section ∧ PassesOn ErrorCondition ∧
    PassesOn DistributionMode ∧ PassesOn Symbols ∧ PassesOn Fields ∧ PassesOn Annotations ∧
    PassesOn (HMap Variant Variant) :=
  ⟨passesOn, passesOn, passesOn, passesOn, passesOn, passesOn, passesOn, passesOn, passesOn,
    passesOn, passesOn, passesOn, passesOn, passesOn, passesOn, passesOn, passesOn, passesOn,
    passesOn, passesOn, passesOn, passesOn, passesOn, passesOn, passesOn, passesOn⟩

theorem yields_some {T : Type} {s : Fate T} {rest : Bytes} {c : Call CodecError T}
    (h : s.Yields rest c) {g : T} (hc : c.answer = .some g) :
    s = .arrives g ∧ c = ⟨.frameHeader, rest, .some g⟩ := by
  cases s with
  | arrives a =>
    have h : c = ⟨.frameHeader, rest, .some a⟩ := h
    subst h
    cases hc
    exact ⟨rfl, rfl⟩
  | refused => obtain ⟨st, e, rfl⟩ := h; cases hc
  | crashes p => obtain ⟨st, rfl⟩ := h; cases hc

theorem received_exact {env : Env} {i r : Bytes} {f : AmqpFrame}
    (h : AmqpFrame.decode env i = .ok (r, f)) : f.performative.PayloadExact := by
  obtain ⟨_, ch, _, h⟩ := Dec.bind_eq_ok.1 h
  obtain ⟨_, p, h1, h⟩ := Dec.bind_eq_ok.1 h
  cases h
  exact plain_payload_exact (Frame.decode_origin h1).plain

/-- **C87**, AMQP frames.  A frame was received, and is sent on: if the codec of the next
receiver, whatever follows, yields a frame then it is this one, it has taken exactly its bytes,
and the frame can be passed on. -/
theorem C87_frame (env env' : Env) (input rest0 : Bytes) (f : AmqpFrame)
    (h : AmqpFrame.decode env input = .ok (rest0, f)) (hl : (enc f).length < 2 ^ 32)
    (rest : Bytes) (g : AmqpFrame)
    (hg : (codecDecode env' (AmqpFrame.decode env') .frameHeader (enc f ++ rest)).answer = .some g) :
    g = f ∧ fwd env' f ∧
    codecDecode env' (AmqpFrame.decode env') .frameHeader (enc f ++ rest) =
      ⟨.frameHeader, rest, .some f⟩ := by
  obtain ⟨h1, h2⟩ := yields_some
    (C86_frame env' f ((C63_received_frames env input rest0).1 f h) (received_exact h) hl rest) hg
  obtain ⟨rfl, hc⟩ := (AmqpFrame.passing h).1 env' g h1
  exact ⟨rfl, hc, h2⟩

/-- **C87**, AMQP frames: it arrives exactly if it can be passed on, if the next receiver has
as much room on its stack. -/
theorem C87_frame_iff (env env' : Env) (input rest0 : Bytes) (f : AmqpFrame)
    (h : AmqpFrame.decode env input = .ok (rest0, f)) (hl : (enc f).length < 2 ^ 32)
    (hd : env.stackDepth ≤ env'.stackDepth) (rest : Bytes) :
    codecDecode env' (AmqpFrame.decode env') .frameHeader (enc f ++ rest) =
      ⟨.frameHeader, rest, .some f⟩ ↔ fwd env' f := by
  refine ⟨fun hg => (C87_frame env env' input rest0 f h hl rest f (by rw [hg])).2.1, fun hc => ?_⟩
  have := C86_frame env' f ((C63_received_frames env input rest0).1 f h) (received_exact h) hl rest
  rw [(AmqpFrame.passing h).2 env' hd hc] at this
  exact this

/-- **C87**, SASL frames. -/
theorem C87_sasl_frame (env env' : Env) (input rest0 : Bytes) (f : SaslFrame)
    (h : SaslFrame.decode env input = .ok (rest0, f)) (hl : (enc f).length < 2 ^ 32)
    (rest : Bytes) :
    (∀ g, (codecDecode env' (SaslFrame.decode env') .frameHeader (enc f ++ rest)).answer = .some g →
      g = f) ∧
    (codecDecode env' (SaslFrame.decode env') .frameHeader (enc f ++ rest) =
      ⟨.frameHeader, rest, .some f⟩ ↔ fwd env' f) := by
  have hy := C86_sasl_frame env' f ((C63_received_frames env input rest0).2 f h) hl rest
  refine ⟨fun g hg => ((SaslFrame.passing h).1 env' g (yields_some hy hg).1).1, fun hg => ?_,
    fun hc => ?_⟩
  · exact ((SaslFrame.passing h).1 env' f (yields_some hy (by rw [hg])).1).2
  · rcases C86_sasl_unaltered env' f with e | ⟨-, h1, m, h2, h3, h4⟩
    · rw [e] at hy; exact hy
    · have hc : fwd env' f.body := hc
      rw [h2] at hc
      exact absurd h4 (hc h1 h3)

theorem arrivals_passing {T : Type} [HasFate T] [Forwardable T] {env : Env} : ∀ (fs : List T),
    (∀ f ∈ fs, ∃ d, Passing d f) →
    ∃ back, fs = (arrivals (fs.map (fate env))).1 ++ back ∧
      (∀ f ∈ (arrivals (fs.map (fate env))).1, fwd env f) ∧
      ((back = [] ∧ (arrivals (fs.map (fate env))).2 = .arrives ()) ∨
        ∃ x t, back = x :: t ∧ (∀ w, fate env x ≠ .arrives w) ∧
          ∀ u, (arrivals (fs.map (fate env))).2 ≠ .arrives u)
  | [], _ => ⟨[], rfl, fun _ h => (List.not_mem_nil h).elim, .inl ⟨rfl, rfl⟩⟩
  | f :: t, h => by
    obtain ⟨d, p⟩ := h f (by simp)
    obtain ⟨back, h1, h2, h3⟩ := arrivals_passing (env := env) t fun x hx => h x (by simp [hx])
    rw [List.map_cons]
    cases hq : fate env f with
    | arrives g =>
      obtain ⟨rfl, hc⟩ := p.1 env g hq
      refine ⟨back, congrArg (g :: ·) h1, fun x hx => ?_, h3⟩
      rcases List.mem_cons.1 hx with rfl | hx
      · exact hc
      · exact h2 x hx
    | refused =>
      exact ⟨f :: t, rfl, fun _ h => (List.not_mem_nil h).elim, .inr ⟨f, t, rfl,
        (fun w e => by rw [hq] at e; cases e), (fun u e => by cases e)⟩⟩
    | crashes q =>
      exact ⟨f :: t, rfl, fun _ h => (List.not_mem_nil h).elim, .inr ⟨f, t, rfl,
        (fun w e => by rw [hq] at e; cases e), (fun u e => by cases e)⟩⟩

/-- **C87**, connections.  A program receives any bytes in any pieces and sends on every frame
it gets.  The next receiver gets the frames up to one that cannot be passed on, unaltered and in
order: if there is none it waits for more, at that one it reports an error or panics. -/
theorem C87_connection (env env' : Env) (slack : Growth) (chunksIn : List Bytes) (dst : Buf)
    (hd : env.stackDepth ≤ env'.stackDepth)
    (hl : ∀ f ∈ (receive env (AmqpFrame.decode env) .frameHeader [] chunksIn).1,
      (enc f).length < 2 ^ 32) :
    ∃ out, encodeAll slack (receive env (AmqpFrame.decode env) .frameHeader [] chunksIn).1 dst =
        .ok out ∧
      ∃ front back, (receive env (AmqpFrame.decode env) .frameHeader [] chunksIn).1 = front ++ back ∧
        (∀ f ∈ front, fwd env' f) ∧
        ∀ chunksOut : List Bytes, out.data = dst.data ++ chunksOut.flatten →
          (receive env' (AmqpFrame.decode env') .frameHeader [] chunksOut).1 = front ∧
          ((back = [] ∧
            (receive env' (AmqpFrame.decode env') .frameHeader [] chunksOut).2.answer = .none ∧
            (receive env' (AmqpFrame.decode env') .frameHeader [] chunksOut).2.src = []) ∨
          ((∃ x t, back = x :: t ∧ ¬ fwd env' x) ∧
            ((∃ e, (receive env' (AmqpFrame.decode env') .frameHeader [] chunksOut).2.answer =
              .err (.parse e)) ∨
            ∃ p, (receive env' (AmqpFrame.decode env') .frameHeader [] chunksOut).2.answer =
              .panic p))) := by
  have hdec : ∀ f ∈ (receive env (AmqpFrame.decode env) .frameHeader [] chunksIn).1,
      ∃ w, AmqpFrame.decode env w = .ok ([], f) := by
    intro f hm
    rw [receive_eq] at hm
    exact drain_decoded _ _ f hm
  generalize (receive env (AmqpFrame.decode env) .frameHeader [] chunksIn).1 = fs at *
  obtain ⟨out, h1, h2⟩ := C86_stream env' slack fs dst fun f hm => by
    obtain ⟨w, hw⟩ := hdec f hm
    exact ⟨(C63_received_frames env w []).1 f hw, received_exact hw, hl f hm⟩
  obtain ⟨back, e1, e2, e3⟩ := arrivals_passing (env := env') fs fun f hm => by
    obtain ⟨w, hw⟩ := hdec f hm
    exact ⟨_, AmqpFrame.passing hw⟩
  refine ⟨out, h1, _, back, e1, e2, fun chunks hc => ?_⟩
  obtain ⟨h3, h4⟩ := h2 chunks hc
  refine ⟨h3, ?_⟩
  rcases e3 with ⟨e3, e4⟩ | ⟨x, t, rfl, e4, e5⟩
  · rw [e4] at h4
    exact .inl ⟨e3, h4⟩
  · refine .inr ⟨⟨x, t, rfl, fun hx => ?_⟩, ?_⟩
    · obtain ⟨w, hw⟩ := hdec x (by rw [e1]; simp)
      exact e4 x ((AmqpFrame.passing hw).2 env' hd hx)
    · cases hq : (arrivals (fs.map (fate env'))).2 with
      | arrives u => exact absurd hq (e5 u)
      | refused => rw [hq] at h4; exact .inl h4
      | crashes p => rw [hq] at h4; exact .inr ⟨p, h4⟩

/-- What reaches the end of a chain of programs, each of which sends on what it receives.
Each may be built and run differently, and the bytes may be cut into any pieces. -/
inductive Relayed : List AmqpFrame → List AmqpFrame → Prop
  | start (frames : List AmqpFrame) : Relayed frames frames
  | hop {frames received : List AmqpFrame} (slack : Growth) (dst out : Buf) (env : Env)
      (chunks : List Bytes) : Relayed frames received → encodeAll slack received dst = .ok out →
      out.data = dst.data ++ chunks.flatten →
      Relayed frames (receive env (AmqpFrame.decode env) .frameHeader [] chunks).1

/-- **C87**, chains: whatever programs the frames pass through, on whatever machines, those that
come out at the end are the first of those that were received at the beginning, unaltered and in
order. -/
theorem C87_chain (env : Env) (chunksIn : List Bytes) (last : List AmqpFrame)
    (hl : ∀ f ∈ (receive env (AmqpFrame.decode env) .frameHeader [] chunksIn).1,
      (enc f).length < 2 ^ 32)
    (h : Relayed (receive env (AmqpFrame.decode env) .frameHeader [] chunksIn).1 last) :
    last <+: (receive env (AmqpFrame.decode env) .frameHeader [] chunksIn).1 := by
  have hdec : ∀ f ∈ (receive env (AmqpFrame.decode env) .frameHeader [] chunksIn).1,
      ∃ w, AmqpFrame.decode env w = .ok ([], f) := by
    intro f hm
    rw [receive_eq] at hm
    exact drain_decoded _ _ f hm
  generalize (receive env (AmqpFrame.decode env) .frameHeader [] chunksIn).1 = fs at *
  induction h with
  | start => exact List.prefix_refl _
  | @hop received slack dst out env' chunks hr ho hc ih =>
    obtain ⟨out', h1, h2⟩ := C86_stream env' slack received dst fun f hm => by
      obtain ⟨w, hw⟩ := hdec f (ih.subset hm)
      exact ⟨(C63_received_frames env w []).1 f hw, received_exact hw, hl f (ih.subset hm)⟩
    obtain ⟨back, e1, -, -⟩ := arrivals_passing (env := env') received fun f hm => by
      obtain ⟨w, hw⟩ := hdec f (ih.subset hm)
      exact ⟨_, AmqpFrame.passing hw⟩
    rw [ho] at h1
    cases h1
    rw [(h2 chunks hc).1]
    exact List.IsPrefix.trans ⟨back, e1.symm⟩ ih

/-- **C87**, messages: a received message that is sent on, if it is read at all, is read as it
was, except that one without a body has an empty data section; and it is read exactly if it can
be passed on, if the next receiver has as much room on its stack. -/
theorem C87_message (env env' : Env) (input rest : Bytes) (m : InMessage)
    (h : InMessage.decode env input = .ok (rest, m)) (hl : (enc m).length < 2 ^ 32) :
    (∀ r w, InMessage.decode env' (enc m) = .ok (r, w) → w = m.withBody ∧ fwd env' m) ∧
    (env.stackDepth ≤ env'.stackDepth →
      ((∃ r, InMessage.decode env' (enc m) = .ok (r, m.withBody)) ↔ fwd env' m)) := by
  obtain ⟨p1, p2⟩ := InMessage.passing h
  have hh := ((C63_received_messages env input rest).1 m h).1
  have hn : m.NestedExact := by
    intro b hb
    rw [(InMessage.allPassing h).messages] at hb
    exact (List.not_mem_nil hb).elim
  have ho := C86_in_message env' m hh hn hl
  have key : ∀ r w, InMessage.decode env' (enc m) = .ok (r, w) → w = m.withBody ∧ fwd env' m := by
    intro r w hw
    cases hq : m.travels env' with
    | arrives a =>
      rw [hq] at ho
      obtain ⟨r', ho⟩ := ho
      rw [ho] at hw
      cases hw
      exact p1 env' _ hq
    | refused =>
      rw [hq] at ho
      obtain ⟨e, ho⟩ := ho
      rw [ho] at hw
      cases hw
    | crashes p =>
      rw [hq] at ho
      have ho : InMessage.decode env' (enc m) = .panic p := ho
      rw [ho] at hw
      cases hw
  refine ⟨key, fun hd => ⟨fun ⟨r, hr⟩ => (key r _ hr).2, fun hc => ?_⟩⟩
  rw [p2 env' hd hc] at ho
  exact ho

/-! ### Examples -/

/-- A `close` as received, without its length: the error has a condition of the standard and
information in the wide form. -/
def receivedClose : Bytes :=
  [3, 0, 0, 5, 9, 9, 9, 9, 0x00, 0x53, 0x18, 0xc0, 41, 1, 0x00, 0x53, 0x1d, 0xc0, 35, 3,
    0xa3, 14, 97, 109, 113, 112, 58, 110, 111, 116, 45, 102, 111, 117, 110, 100, 0x40,
    0xd1, 0, 0, 0, 12, 0, 0, 0, 2, 0xa3, 1, 107, 0x70, 0, 0, 0, 7]

/-- What it is. -/
def theClose : AmqpFrame := ⟨5, .Close ⟨some ⟨.AmqpError .NotFound, none,
  some ⟨[(⟨.lit "k"⟩, .uint 7)]⟩⟩⟩⟩

set_option maxRecDepth 100000 in
theorem receivedClose_decodes : AmqpFrame.decode debugEnv receivedClose = .ok ([], theClose) := by rfl

theorem theClose_fwd : fwd releaseEnv theClose := by
  intro e he
  obtain rfl := Option.some.inj he
  refine ⟨trivial, fun m hm => ?_⟩
  obtain rfl := Option.some.inj hm
  intro x hx
  obtain rfl := List.mem_singleton.1 hx
  exact ⟨trivial, by simp [fwd, Variant.Plain]⟩

set_option maxRecDepth 100000 in
/-- It is sent on in other bytes, and arrives as it is. -/
example : codecDecode releaseEnv (AmqpFrame.decode releaseEnv) .frameHeader (enc theClose ++ [1]) =
    ⟨.frameHeader, [1], .some theClose⟩ :=
  (C87_frame_iff debugEnv releaseEnv _ _ theClose receivedClose_decodes (by decide +kernel)
    (by decide) [1]).2 theClose_fwd

set_option maxRecDepth 100000 in
example : (enc theClose).drop 4 ≠ receivedClose := by decide +kernel

set_option maxRecDepth 100000 in
/-- What does not arrive cannot be passed on: an `open` whose properties hold a list. -/
example : ∃ f, AmqpFrame.decode debugEnv openWithList = .ok ([], f) ∧ (enc f).length < 2 ^ 32 ∧
    ¬ fwd debugEnv f := by
  obtain ⟨f, h1, h2, h3⟩ := C62_violated_list
  refine ⟨f, h1, h2, fun hc => ?_⟩
  have h4 := (C62_frame_partial debugEnv _ _ f h1 hc h2).1
  rw [h3] at h4
  cases h4

/-- A message that is received without a body is sent on with one, and arrives so. -/
example : ∃ (m : InMessage) (r : Bytes),
    InMessage.decode debugEnv [0x00, 0x53, 0x70, 0xc0, 1, 0] = .ok (r, m) ∧
    (enc m).length < 2 ^ 32 ∧ m.withBody.data = [⟨[]⟩] ∧ fwd debugEnv m := by
  refine ⟨_, _, rfl, by decide +kernel, rfl, ?_⟩
  refine ⟨?_, ?_, ?_, ?_, ?_, ?_⟩ <;> intro x h <;> simp [Message.addSection, Message.empty] at h

example : ∀ g, (codecDecode releaseEnv (AmqpFrame.decode releaseEnv) .frameHeader (enc theClose ++ [1])).answer = .some g →
    g = theClose := fun g hg =>
  (C87_frame debugEnv releaseEnv _ _ theClose receivedClose_decodes (by decide +kernel) [1] g hg).1
example : ∃ f, SaslFrame.decode debugEnv [2, 1, 0, 0, 0x00, 0x53, 0x44, 0xc0, 3, 1, 0x50, 0] = .ok ([], f) ∧
    ∀ g, (codecDecode releaseEnv (SaslFrame.decode releaseEnv) .frameHeader (enc f ++ [1])).answer = .some g →
      g = f :=
  ⟨_, rfl, (C87_sasl_frame debugEnv releaseEnv [2, 1, 0, 0, 0x00, 0x53, 0x44, 0xc0, 3, 1, 0x50, 0] [] _ rfl
    (by decide +kernel) [1]).1⟩
example : ∃ r m, InMessage.decode debugEnv [0x00, 0x53, 0x75, 0xa0, 1, 9] = .ok (r, m) ∧
    ∀ r w, InMessage.decode releaseEnv (enc m) = .ok (r, w) → w = m.withBody ∧ Forwardable.fwd releaseEnv m :=
  ⟨_, _, rfl, (C87_message debugEnv releaseEnv [0x00, 0x53, 0x75, 0xa0, 1, 9] _ _ rfl (by decide +kernel)).1⟩

end Amqp
