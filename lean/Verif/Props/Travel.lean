import Verif.Proofs.TravelMessages
import Verif.Props.Frames
import Verif.Props.Streams
/-!
# C86: what becomes of every frame and every message between sender and receiver
-/
set_option autoImplicit false
namespace Amqp
open Dec

/-- **C86**, the parts of frames and messages: what becomes of every one of them. -/
theorem C86_parts :
    FateHolds Error ∧ FateHolds DeliveryState ∧ FateHolds Outcome ∧ FateHolds Source ∧
    FateHolds Target ∧ FateHolds Open ∧ FateHolds Begin ∧ FateHolds Attach ∧ FateHolds Flow ∧
    FateHolds TransferPerf ∧ FateHolds Disposition ∧ FateHolds Detach ∧ FateHolds End ∧
    FateHolds Close ∧ FateHolds SaslFrameBody ∧ FateHolds Header ∧ FateHolds Properties ∧
    FateHolds Section ∧ FateHolds ErrorCondition ∧ FateHolds DistributionMode ∧
    FateHolds Symbols ∧ FateHolds Fields ∧ FateHolds Annotations ∧ FateHolds FilterSet :=
  ⟨FateLaw.law, FateLaw.law, FateLaw.law, FateLaw.law, FateLaw.law, FateLaw.law, FateLaw.law,
    FateLaw.law, FateLaw.law, FateLaw.law, FateLaw.law, FateLaw.law, FateLaw.law, FateLaw.law,
    FateLaw.law, FateLaw.law, FateLaw.law, FateLaw.law, FateLaw.law, FateLaw.law, FateLaw.law,
    FateLaw.law, FateLaw.law, FateLaw.law⟩

theorem codec_yields {T : Type} [Encode T] [HasFate T] {env : Env} {dec : Dec T} {f : T}
    (hw : IsFrame (enc f)) (h : (fate env f).Answer [] (dec ((enc f).drop 4))) (rest : Bytes) :
    (fate env f).Yields rest (codecDecode env dec .frameHeader (enc f ++ rest)) := by
  have := fate_codec hw h rest
  revert this
  unfold Fate.Yields
  cases fate env f <;> exact id

/-- **C86**, AMQP frames: what the receiver's codec makes of the bytes of one, whatever
follows them. -/
theorem C86_frame (env : Env) (f : AmqpFrame) (h : held f) (hp : f.performative.PayloadExact)
    (hl : (enc f).length < 2 ^ 32) (rest : Bytes) :
    (fate env f).Yields rest
      (codecDecode env (AmqpFrame.decode env) .frameHeader (enc f ++ rest)) :=
  codec_yields (amqpFrame_isFrame_exact hp hl) (fate_amqpFrame env f h hl) rest

theorem saslFrame_isFrame_any {f : SaslFrame} (hl : (enc f).length < 2 ^ 32) : IsFrame (enc f) :=
  saslFrame_isFrame (LawfulEnc.size_eq f.body) hl

/-- **C86**, SASL frames. -/
theorem C86_sasl_frame (env : Env) (f : SaslFrame) (h : held f)
    (hl : (enc f).length < 2 ^ 32) (rest : Bytes) :
    (fate env f).Yields rest
      (codecDecode env (SaslFrame.decode env) .frameHeader (enc f ++ rest)) :=
  codec_yields (saslFrame_isFrame_any hl) (fate_saslFrame env f h hl) rest

theorem fate_stream {T : Type} [Encode T] [EncodeW T] [HasFate T] {env : Env} {dec : Dec T}
    (slack : Growth) (frames : List T) (dst : Buf)
    (hsz : ∀ f ∈ frames, (enc f).length ≤ size f)
    (h : ∀ f ∈ frames, IsFrame (enc f) ∧ (fate env f).Answer [] (dec ((enc f).drop 4))) :
    ∃ out, encodeAll slack frames dst = .ok out ∧ ∀ chunks : List Bytes,
      out.data = dst.data ++ chunks.flatten →
        (receive env dec .frameHeader [] chunks).1 = (arrivals (frames.map (fate env))).1 ∧
        (arrivals (frames.map (fate env))).2.Ends (receive env dec .frameHeader [] chunks).2 := by
  obtain ⟨out, h1, h2⟩ := encodeAll_ok slack frames dst hsz
  refine ⟨out, h1, fun chunks hc => ?_⟩
  rw [h2] at hc
  rw [receive_eq, List.nil_append, ← List.append_cancel_left hc]
  exact fate_drain frames h

/-- **C86**, streams of AMQP frames: encoding them succeeds, and however the bytes are cut into
pieces, the receiver gets, in order, what becomes of each up to the first that does not arrive;
there it ends with an error or a panic, as that frame demands. -/
theorem C86_stream (env : Env) (slack : Growth) (frames : List AmqpFrame) (dst : Buf)
    (h : ∀ f ∈ frames, held f ∧ f.performative.PayloadExact ∧ (enc f).length < 2 ^ 32) :
    ∃ out, encodeAll slack frames dst = .ok out ∧ ∀ chunks : List Bytes,
      out.data = dst.data ++ chunks.flatten →
        (receive env (AmqpFrame.decode env) .frameHeader [] chunks).1 =
          (arrivals (frames.map (fate env))).1 ∧
        (arrivals (frames.map (fate env))).2.Ends
          (receive env (AmqpFrame.decode env) .frameHeader [] chunks).2 :=
  fate_stream slack frames dst
    (fun f hm => by
      have hs := Frame.size_eq f.performative (h f hm).2.1
      rw [amqpFrame_enc, List.length_append, frameHeader_length]
      show _ ≤ headerLen + size f.performative
      rw [hs]
      exact Nat.le_refl _)
    fun f hm => ⟨amqpFrame_isFrame_exact (h f hm).2.1 (h f hm).2.2,
      fate_amqpFrame env f (h f hm).1 (h f hm).2.2⟩

/-- **C86**, streams of SASL frames. -/
theorem C86_sasl_stream (env : Env) (slack : Growth) (frames : List SaslFrame) (dst : Buf)
    (h : ∀ f ∈ frames, held f ∧ (enc f).length < 2 ^ 32) :
    ∃ out, encodeAll slack frames dst = .ok out ∧ ∀ chunks : List Bytes,
      out.data = dst.data ++ chunks.flatten →
        (receive env (SaslFrame.decode env) .frameHeader [] chunks).1 =
          (arrivals (frames.map (fate env))).1 ∧
        (arrivals (frames.map (fate env))).2.Ends
          (receive env (SaslFrame.decode env) .frameHeader [] chunks).2 :=
  fate_stream slack frames dst
    (fun f _ => by
      rw [saslFrame_enc, List.length_append, frameHeader_length]
      show _ ≤ headerLen + size f.body
      rw [LawfulEnc.size_eq]
      exact Nat.le_refl _)
    fun f hm => ⟨saslFrame_isFrame_any (h f hm).2, fate_saslFrame env f (h f hm).1 (h f hm).2⟩

/-- **C86**, messages that were received and are sent on. -/
theorem C86_in_message (env : Env) (m : InMessage) (h : held m) (hn : m.NestedExact)
    (hl : (enc m).length < 2 ^ 32) :
    (m.travels env).Opens (InMessage.decode env (enc m)) := by
  obtain ⟨⟨h1, h2, h3, h4, -, h5, h6, h7⟩, -⟩ := h
  exact message_fate env m h1 h2 h3 h4 h5 h7 h6 hn hl

/-- **C86**, messages made to be sent. -/
theorem C86_out_message (env : Env) (m : OutMessage) (h : held m) (hn : m.NestedExact)
    (hl : (enc m).length < 2 ^ 32) :
    (m.travels env).Opens (InMessage.decode env (enc m)) := by
  obtain ⟨⟨h1, h2, h3, h4, -, h5, h6, h7⟩, -⟩ := h
  exact message_fate env m h1 h2 h3 h4 h5 h7 h6 hn hl

/-- **C86**, what has arrived is settled: sent on, it arrives unaltered. -/
theorem C86_settled (env : Env) :
    (∀ f g : AmqpFrame, fate env f = .arrives g → fate env g = .arrives g) ∧
    (∀ f g : SaslFrame, fate env f = .arrives g → fate env g = .arrives g) :=
  ⟨Settled.settled env, Settled.settled env⟩

theorem opt_same {α : Type} [HasFate α] {env : Env} (h : ∀ v : α, fate env v = .arrives v)
    (o : Option α) : fate env o = .arrives o := by
  cases o with
  | none => rfl
  | some v =>
    show (fate env v >>= fun v => pure (some v)) = _
    rw [h]
    rfl

/-- **C86**, SASL frames arrive unaltered, except that a list of mechanisms whose names and
their lengths take exactly 254 bytes makes a receiver that checks for overflow panic. -/
theorem C86_sasl_unaltered (env : Env) (f : SaslFrame) : fate env f = .arrives f ∨
    (fate env f = .crashes .overflow ∧ env.overflowChecks = true ∧
      ∃ m, f.body = .SaslMechanisms m ∧ m.sasl_server_mechanisms.items.length ≠ 1 ∧
        (m.sasl_server_mechanisms.items.map fun s => 4 + s.str.bytes.length).sum = 254) := by
  obtain ⟨b⟩ := f
  cases b with
  | SaslMechanisms m =>
    by_cases h : env.overflowChecks = true ∧ m.sasl_server_mechanisms.items.length ≠ 1 ∧
        (m.sasl_server_mechanisms.items.map fun s => 4 + s.str.bytes.length).sum = 254
    · refine .inr ⟨?_, h.1, m, rfl, h.2⟩
      have e : fate env m.sasl_server_mechanisms = .crashes .overflow := if_pos h
      simp only [fate] at e ⊢
      rw [e]
      rfl
    · refine .inl ?_
      have e : fate env m.sasl_server_mechanisms = .arrives m.sasl_server_mechanisms := if_neg h
      simp only [fate] at e ⊢
      rw [e]
      rfl
  | SaslInit v =>
    refine .inl ?_
    have e1 : fate env v.initial_response = .arrives v.initial_response := opt_same (fun _ => rfl) _
    have e2 : fate env v.hostname = .arrives v.hostname := opt_same (fun _ => rfl) _
    show (((fate env v.mechanism >>= fun mechanism => fate env v.initial_response >>= fun r =>
      fate env v.hostname >>= fun h => pure (SaslInit.mk mechanism r h)) >>= fun v =>
        pure (SaslFrameBody.SaslInit v)) >>= fun b => pure (SaslFrame.mk b)) = _
    rw [e1, e2]
    rfl
  | SaslChallenge v => exact .inl rfl
  | SaslResponse v => exact .inl rfl
  | SaslOutcome v =>
    refine .inl ?_
    have e1 : fate env v.additional_data = .arrives v.additional_data := opt_same (fun _ => rfl) _
    show (((fate env v.code >>= fun c => fate env v.additional_data >>= fun r =>
      pure (SaslOutcome.mk c r)) >>= fun v =>
        pure (SaslFrameBody.SaslOutcome v)) >>= fun b => pure (SaslFrame.mk b)) = _
    rw [e1]
    rfl

/-! ### Examples -/

/-- An error whose information holds a static symbol: the symbol arrives as an ordinary one,
the condition named like a standard one as the standard one. -/
def alteredClose : AmqpFrame :=
  ⟨3, .Close ⟨some ⟨.Custom ⟨.lit "amqp:not-found"⟩, none,
    some ⟨[(⟨.lit "k"⟩, .staticSymbol (.lit "v"))]⟩⟩⟩⟩

example : fate debugEnv alteredClose = .arrives ⟨3, .Close ⟨some ⟨.AmqpError .NotFound, none,
    some ⟨[(⟨.lit "k"⟩, .symbol ⟨.lit "v"⟩)]⟩⟩⟩⟩ := by
  rfl

example : held alteredClose := by
  intro e he
  obtain rfl := Option.some.inj he
  refine ⟨trivial, nofun, fun m hm => ?_⟩
  obtain rfl := Option.some.inj hm
  refine ⟨fun x hx => ?_, List.pairwise_singleton _ _⟩
  obtain rfl := List.mem_singleton.mp hx
  refine ⟨rfl, ?_⟩
  show Variant.Valid _
  simp only [Variant.Valid]

example : (enc alteredClose).length < 2 ^ 32 := by decide +kernel

/-- A list in the properties of a connection: the frame is refused. -/
def refusedOpen : AmqpFrame :=
  ⟨0, .Open { Open.sample with properties := some ⟨[(⟨.lit "k"⟩, .list [])]⟩ }⟩

example : fate debugEnv refusedOpen = .refused := by rfl

/-- Capabilities that take 254 bytes: a debug build panics, a release build reads them. -/
def crashingOpen : AmqpFrame :=
  ⟨0, .Open { Open.sample with offered_capabilities := some symbols254 }⟩

set_option maxRecDepth 100000 in
example : fate debugEnv crashingOpen = .crashes .overflow := by rfl
set_option maxRecDepth 100000 in
example : fate releaseEnv crashingOpen = .arrives crashingOpen := by rfl

/-- What the receiver gets from three of them. -/
example : (arrivals ([alteredClose, refusedOpen, alteredClose].map (fate releaseEnv))) =
    ([⟨3, .Close ⟨some ⟨.AmqpError .NotFound, none,
      some ⟨[(⟨.lit "k"⟩, .symbol ⟨.lit "v"⟩)]⟩⟩⟩⟩], .refused) := by rfl

/-- An empty payload arrives as none. -/
example : arrivingBody (some (.Data ⟨[]⟩)) = none ∧
    arrivingBody (some (.Data ⟨[1]⟩)) = some (.Data ⟨[1]⟩) := ⟨rfl, rfl⟩

/-- A message to be sent with two application properties of the same name and no body. -/
def repeatedName : OutMessage :=
  { application_properties := some
      ⟨[(.lit "k", .ubyte 1), (.lit "k", .ubyte 2)]⟩ }

example : repeatedName.travels debugEnv = .arrives
    { application_properties := some ⟨[(.lit "k", .ubyte 2)]⟩
      data := [⟨[]⟩] } := by rfl

example : held repeatedName ∧ repeatedName.NestedExact ∧ (enc repeatedName).length < 2 ^ 32 := by
  have n : ∀ {α : Type} [Holdable α], held (none : Option α) := fun _ h => nomatch h
  refine ⟨⟨⟨n, n, n, n, ?_, n, fun _ h => (List.not_mem_nil h).elim, n⟩, ?_⟩,
    fun _ h => (List.not_mem_nil h).elim, by decide +kernel⟩
  · intro a ha
    obtain rfl := Option.some.inj ha
    intro e he
    rcases List.mem_cons.mp he with rfl | he
    · show Variant.Valid _
      simp only [Variant.Valid]
    · obtain rfl := List.mem_singleton.mp he
      show Variant.Valid _
      simp only [Variant.Valid]
  · exact trivial

end Amqp
