import Verif.Proofs.RefusalFrames
import Verif.Props.Lenient
/-!
# Which inputs are refused, and with which error

C93.  `Spec/Refusals.lean` writes down, for every type, the inputs for which its decoder returns an
error and the error.
-/
set_option autoImplicit false
namespace Amqp
open Dec
open Standard (Rep)

/-! ## Values -/

/-- **C93**, values of one format code or a few. -/
theorem C93_scalars (env : Env) :
    RefusesOn Bool env Refuse.boolean ∧ RefusesOn UInt8 env Refuse.ubyte ∧
    RefusesOn UInt16 env Refuse.ushort ∧ RefusesOn UInt32 env Refuse.uint ∧
    RefusesOn UInt64 env Refuse.ulong ∧ RefusesOn Int8 env Refuse.byte ∧
    RefusesOn Int16 env Refuse.int16 ∧ RefusesOn Int32 env Refuse.int32 ∧
    RefusesOn Int64 env Refuse.int64 ∧ RefusesOn F32 env Refuse.float ∧ RefusesOn F64 env Refuse.double ∧
    RefusesOn Char env Refuse.char ∧ RefusesOn DateTime env Refuse.timestamp ∧
    RefusesOn Uuid env Refuse.uuid ∧ RefusesOn Binary env Refuse.binary ∧ RefusesOn RStr env Refuse.string ∧
    RefusesOn Symbol env Refuse.symbol ∧ RefusesOn Descriptor env Refuse.descriptor ∧
    RefusesOn MessageId env Refuse.messageId :=
  ⟨refuses_bool, refuses_u8, refuses_u16, refuses_u32, refuses_u64, refuses_i8, refuses_i16, refuses_i32,
    refuses_i64, refuses_f32, refuses_f64, refuses_char, refuses_timestamp, refuses_uuid, refuses_binary,
    refuses_string, refuses_symbol, refuses_descriptor, refuses_messageId⟩

/-- **C93**, enumerations: what is not a value of the base type is refused as there, other values of
the base type by name. -/
theorem C93_enumerations (env : Env) :
    RefusesOn Role env (Refuse.role env) ∧ RefusesOn SenderSettleMode env Refuse.senderSettleMode ∧
    RefusesOn ReceiverSettleMode env Refuse.receiverSettleMode ∧
    RefusesOn TerminusDurability env Refuse.terminusDurability ∧
    RefusesOn TerminusExpiryPolicy env (Refuse.terminusExpiryPolicy env) ∧
    RefusesOn SaslCode env Refuse.saslCode ∧ RefusesOn AmqpError env (Refuse.amqpError env) ∧
    RefusesOn ConnectionError env (Refuse.connectionError env) ∧
    RefusesOn SessionError env (Refuse.sessionError env) ∧ RefusesOn LinkError env (Refuse.linkError env) :=
  ⟨refuses_role, refuses_senderSettleMode, refuses_receiverSettleMode, refuses_terminusDurability,
    refuses_terminusExpiryPolicy, refuses_saslCode, refuses_amqpError, refuses_connectionError,
    refuses_sessionError, refuses_linkError⟩

/-- **C93**, enumerations that are open: no symbol is refused. -/
theorem C93_open_enumerations (env : Env) :
    RefusesOn ErrorCondition env Refuse.symbol ∧ RefusesOn DistributionMode env Refuse.symbol :=
  ⟨refuses_errorCondition, refuses_distributionMode⟩

/-- **C93**, `Variant`. -/
theorem C93_variant (env : Env) : RefusesOn Variant env (Refuse.any env) := refuses_variant
/-- **C93**, `VList`. -/
theorem C93_list (env : Env) : RefusesOn VList env (Refuse.anyList env) := refuses_vlist
/-- **C93**, `Map`. -/
theorem C93_map (env : Env) : RefusesOn Map env (Refuse.anyMap env) := refuses_map
/-- **C93**, `Fields`. -/
theorem C93_fields (env : Env) : RefusesOn Fields env (Refuse.symbolMap env) := refuses_fields
/-- **C93**, `StringVariantMap`. -/
theorem C93_string_map (env : Env) : RefusesOn StringVariantMap env (Refuse.stringMap env) := refuses_stringMap
/-- **C93**, `FilterSet`. -/
theorem C93_filter_set (env : Env) : RefusesOn FilterSet env (Refuse.filterSet env) := refuses_filter
/-- **C93**, `VecVariantMap`. -/
theorem C93_vec_map (env : Env) : RefusesOn VecVariantMap env (Refuse.stringMap env) := refuses_vecMap
/-- **C93**, `Symbols`. -/
theorem C93_symbols (env : Env) : RefusesOn Symbols env (Refuse.symbols env) := refuses_symbols
/-- **C93**, arrays of any type. -/
theorem C93_array {α : Type} [DecodeF α] (env : Env) (L : Rep α) (R : Refusal) (h : Accepts α env L)
    (hr : RefusesOn α env R) : RefusesOn (Vec α) env (Refuse.array env L R) := refuses_vec hr h
/-- **C93**, values of any type, one or an array of them. -/
theorem C93_multiple {α : Type} [DecodeF α] (env : Env) (L : Rep α) (R : Refusal) (h : Accepts α env L)
    (hr : RefusesOn α env R) : RefusesOn (Multiple α) env (Refuse.multiple env L R) := refuses_multiple hr h
/-- **C93**, optional values of any type. -/
theorem C93_option {α : Type} [DecodeF α] (env : Env) (R : Refusal) (hr : RefusesOn α env R) :
    RefusesOn (Option α) env (Refuse.nullable R) := refuses_option hr

/-! ## Composite types -/

/-- **C93**, `Error`. -/
theorem C93_error (env : Env) : RefusesOn Error env (Refuse.one (Refuse.error env)) :=
  refuses_error
/-- **C93**, `Received`. -/
theorem C93_received (env : Env) : RefusesOn Received env (Refuse.one (Refuse.received env)) :=
  refuses_received
/-- **C93**, `Accepted`. -/
theorem C93_accepted (env : Env) : RefusesOn Accepted env (Refuse.one (Refuse.accepted env)) :=
  refuses_accepted
/-- **C93**, `Rejected`. -/
theorem C93_rejected (env : Env) : RefusesOn Rejected env (Refuse.one (Refuse.rejected env)) :=
  refuses_rejected
/-- **C93**, `Released`. -/
theorem C93_released (env : Env) : RefusesOn Released env (Refuse.one (Refuse.released env)) :=
  refuses_released
/-- **C93**, `Modified`. -/
theorem C93_modified (env : Env) : RefusesOn Modified env (Refuse.one (Refuse.modified env)) :=
  refuses_modified
/-- **C93**, `DeliveryState`. -/
theorem C93_delivery_state (env : Env) : RefusesOn DeliveryState env (Refuse.deliveryState env) :=
  refuses_deliveryState
/-- **C93**, `Outcome`. -/
theorem C93_outcome (env : Env) : RefusesOn Outcome env (Refuse.outcome env) :=
  refuses_outcome
/-- **C93**, `Source`. -/
theorem C93_source (env : Env) : RefusesOn Source env (Refuse.one (Refuse.source env)) :=
  refuses_source
/-- **C93**, `Target`. -/
theorem C93_target (env : Env) : RefusesOn Target env (Refuse.one (Refuse.target env)) :=
  refuses_target
/-- **C93**, `Open`. -/
theorem C93_open (env : Env) : RefusesOn Open env (Refuse.one (Refuse.opening env)) :=
  refuses_opening
/-- **C93**, `Begin`. -/
theorem C93_begin (env : Env) : RefusesOn Begin env (Refuse.one (Refuse.beginning env)) :=
  refuses_beginning
/-- **C93**, `Attach`. -/
theorem C93_attach (env : Env) : RefusesOn Attach env (Refuse.one (Refuse.attach env)) :=
  refuses_attach
/-- **C93**, `Flow`. -/
theorem C93_flow (env : Env) : RefusesOn Flow env (Refuse.one (Refuse.flow env)) :=
  refuses_flow
/-- **C93**, `TransferPerf`. -/
theorem C93_transfer_performative (env : Env) : RefusesOn TransferPerf env (Refuse.one (Refuse.transfer env)) :=
  refuses_transfer
/-- **C93**, `Disposition`. -/
theorem C93_disposition (env : Env) : RefusesOn Disposition env (Refuse.one (Refuse.disposition env)) :=
  refuses_disposition
/-- **C93**, `Detach`. -/
theorem C93_detach (env : Env) : RefusesOn Detach env (Refuse.one (Refuse.detach env)) :=
  refuses_detach
/-- **C93**, `End`. -/
theorem C93_end (env : Env) : RefusesOn End env (Refuse.one (Refuse.ending env)) :=
  refuses_ending
/-- **C93**, `Close`. -/
theorem C93_close (env : Env) : RefusesOn Close env (Refuse.one (Refuse.close env)) :=
  refuses_close
/-- **C93**, `SaslMechanisms`. -/
theorem C93_sasl_mechanisms (env : Env) : RefusesOn SaslMechanisms env (Refuse.one (Refuse.saslMechanisms env)) :=
  refuses_saslMechanisms
/-- **C93**, `SaslInit`. -/
theorem C93_sasl_init (env : Env) : RefusesOn SaslInit env (Refuse.one (Refuse.saslInit env)) :=
  refuses_saslInit
/-- **C93**, `SaslChallenge`. -/
theorem C93_sasl_challenge (env : Env) : RefusesOn SaslChallenge env (Refuse.one (Refuse.saslChallenge env)) :=
  refuses_saslChallenge
/-- **C93**, `SaslResponse`. -/
theorem C93_sasl_response (env : Env) : RefusesOn SaslResponse env (Refuse.one (Refuse.saslResponse env)) :=
  refuses_saslResponse
/-- **C93**, `SaslOutcome`. -/
theorem C93_sasl_outcome (env : Env) : RefusesOn SaslOutcome env (Refuse.one (Refuse.saslOutcome env)) :=
  refuses_saslOutcome
/-- **C93**, `SaslFrameBody`. -/
theorem C93_sasl_frame_body (env : Env) : RefusesOn SaslFrameBody env (Refuse.saslBody env) :=
  refuses_saslBody
/-- **C93**, `Transfer`, whatever its payload. -/
theorem C93_transfer (env : Env) : RefusesOn Transfer env (Refuse.one (Refuse.transfer env)) :=
  refuses_transferBody
/-- **C93**, `Header`. -/
theorem C93_header (env : Env) : RefusesOn Header env (Refuse.one (Refuse.headerSection env)) :=
  refuses_header
/-- **C93**, `Properties`. -/
theorem C93_properties (env : Env) : RefusesOn Properties env (Refuse.one (Refuse.propertiesSection env)) :=
  refuses_properties
/-- **C93**, `Section`. -/
theorem C93_section (env : Env) : RefusesOn Section env (Refuse.messageSection env) :=
  refuses_messageSection

/-! ## Frames and streams -/

/-- **C93**, bodies of frames. -/
theorem C93_frame_body (env : Env) (input : Bytes) (e : ParseError) :
    Frame.decode env input = .err e ↔ Refuse.frameBody env e input := refuses_frameBody input e

/-- **C93**, AMQP frames without their size. -/
theorem C93_amqp_frame (env : Env) (input : Bytes) (e : ParseError) :
    AmqpFrame.decode env input = .err e ↔ Refuse.frame 0x00 (Refuse.frameBody env) e input :=
  refuses_amqpFrame input e

/-- **C93**, SASL frames without their size. -/
theorem C93_sasl_frame (env : Env) (input : Bytes) (e : ParseError) :
    SaslFrame.decode env input = .err e ↔ Refuse.frame 0x01 (Refuse.saslBody env) e input :=
  refuses_saslFrame input e

/-- **C93**, the codec: one call.  (The bound is that of the address space.) -/
theorem C93_codec (env : Env) (src : Bytes) (hl : src.length < 2 ^ 63) (e : CodecError) :
    (codecDecode env (AmqpFrame.decode env) .frameHeader src).answer = .err e ↔
      Refuse.stream 0x00 (Refuse.amqpBody env) (Refuse.frameBody env) e src :=
  refuses_stream refuses_amqpFrame leaves_amqp src hl e

/-- **C93**, the codec of SASL frames: one call. -/
theorem C93_sasl_codec (env : Env) (src : Bytes) (hl : src.length < 2 ^ 63) (e : CodecError) :
    (codecDecode env (SaslFrame.decode env) .frameHeader src).answer = .err e ↔
      Refuse.stream 0x01 (Refuse.saslBodyRead env) (Refuse.saslBody env) e src :=
  refuses_stream refuses_saslFrame leaves_sasl src hl e

/-- **C93**, the codec: one call after the size `n` of what is left of the frame was read. -/
theorem C93_codec_pending (env : Env) (n : Nat) (src : Bytes) (e : CodecError) :
    (codecDecode env (AmqpFrame.decode env) (.frame n) src).answer = .err e ↔
      ∃ f rest, src = f ++ rest ∧ f.length = n ∧
        Refuse.whole 0x00 (Refuse.amqpBody env) (Refuse.frameBody env) e f :=
  frameStep_refuses refuses_amqpFrame leaves_amqp

/-- **C93**, the codec of SASL frames: one call after the size was read. -/
theorem C93_sasl_codec_pending (env : Env) (n : Nat) (src : Bytes) (e : CodecError) :
    (codecDecode env (SaslFrame.decode env) (.frame n) src).answer = .err e ↔
      ∃ f rest, src = f ++ rest ∧ f.length = n ∧
        Refuse.whole 0x01 (Refuse.saslBodyRead env) (Refuse.saslBody env) e f :=
  frameStep_refuses refuses_saslFrame leaves_sasl

/-- **C93**, streams: whatever arrives, in whatever pieces, the codec delivers these frames and then
returns this error iff it begins with encodings of them and goes on with something for which one call
returns it. -/
theorem C93_stream (env : Env) (chunks : List Bytes) (hl : chunks.flatten.length < 2 ^ 63)
    (frames : List AmqpFrame) (e : CodecError) :
    ((receive env (AmqpFrame.decode env) .frameHeader [] chunks).1 = frames ∧
      (receive env (AmqpFrame.decode env) .frameHeader [] chunks).2.answer = .err e) ↔
      ∃ (ws : List (AmqpFrame × Bytes)) (rest : Bytes), chunks.flatten = ws.flatMap Prod.snd ++ rest ∧
        (∀ w ∈ ws, Standard.amqpFrame (.lenient env) w.1 w.2) ∧ frames = ws.map Prod.fst ∧
        Refuse.stream 0x00 (Refuse.amqpBody env) (Refuse.frameBody env) e rest :=
  refuses_arrivals takes_amqpFrame refuses_amqpFrame leaves_amqp chunks hl e frames

/-- **C93**, streams of SASL frames. -/
theorem C93_sasl_stream (env : Env) (chunks : List Bytes) (hl : chunks.flatten.length < 2 ^ 63)
    (frames : List SaslFrame) (e : CodecError) :
    ((receive env (SaslFrame.decode env) .frameHeader [] chunks).1 = frames ∧
      (receive env (SaslFrame.decode env) .frameHeader [] chunks).2.answer = .err e) ↔
      ∃ (ws : List (SaslFrame × Bytes)) (rest : Bytes), chunks.flatten = ws.flatMap Prod.snd ++ rest ∧
        (∀ w ∈ ws, Standard.saslFrame (.lenient env) w.1 w.2) ∧ frames = ws.map Prod.fst ∧
        Refuse.stream 0x01 (Refuse.saslBodyRead env) (Refuse.saslBody env) e rest :=
  refuses_arrivals takes_saslFrame refuses_saslFrame leaves_sasl chunks hl e frames

/-! ## Messages -/

/-- **C93**, messages. -/
theorem C93_message (env : Env) (input : Bytes) (e : ParseError) :
    InMessage.decode env input = .err e ↔ Refuse.message env e input := refuses_message id input e

/-- **C93**, messages to be sent, in whatever order application properties are kept. -/
theorem C93_out_message (env : Env) (order : StringVariantMap → List (Str × Variant)) (input : Bytes)
    (e : ParseError) : OutMessage.decode env order input = .err e ↔ Refuse.message env e input :=
  refuses_message _ input e

/-! ## The rest -/

/-- **C93**: what is read (C72), what is refused, and what makes the decoder panic (C84) are three
sets of inputs that do not overlap, and there is no fourth: every input begins with an encoding of
one value, or is refused with one error, or panics for one reason. -/
theorem C93_total {α : Type} [DecodeF α] (env : Env) (L : Rep α) (R : Refusal) (C : Fault)
    (h : Accepts α env L) (hr : RefusesOn α env R) (hc : PanicsOn α env C) (input : Bytes) :
    (∃ a b rest, (input = b ++ rest ∧ L a b) ∧ decode α env input = .ok (rest, a) ∧
      (∀ a' b' rest', input = b' ++ rest' → L a' b' → a' = a ∧ b' = b) ∧
      (∀ e, ¬ R e input) ∧ ∀ p, ¬ C p input) ∨
    (∃ e, R e input ∧ decode α env input = .err e ∧ (∀ e', R e' input → e' = e) ∧
      (∀ a b rest, input = b ++ rest → ¬ L a b) ∧ ∀ p, ¬ C p input) ∨
    (∃ p, C p input ∧ decode α env input = .panic p ∧ (∀ q, C q input → q = p) ∧
      (∀ a b rest, input = b ++ rest → ¬ L a b) ∧ ∀ e, ¬ R e input) := by
  cases hd : decode α env input with
  | ok q =>
    obtain ⟨rest, a⟩ := q
    obtain ⟨b, rfl, hb⟩ := (h _ _ _).1 hd
    refine .inl ⟨a, b, rest, ⟨rfl, hb⟩, rfl, fun a' b' rest' e hb' => ?_, fun e he => ?_, fun p hp => ?_⟩
    · have h2 := (h (b ++ rest) rest' a').2 ⟨b', e, hb'⟩
      rw [hd] at h2
      cases h2
      exact ⟨rfl, (List.append_cancel_right e).symm⟩
    · have h2 := (hr _ _).2 he
      rw [hd] at h2; cases h2
    · have h2 := (hc _ _).2 hp
      rw [hd] at h2; cases h2
  | err e =>
    refine .inr (.inl ⟨e, (hr _ _).1 hd, rfl, fun e' he => ?_, fun a b rest hi hb => ?_, fun p hp => ?_⟩)
    · have h2 := (hr _ _).2 he
      rw [hd] at h2; cases h2; rfl
    · have h2 := (h input rest a).2 ⟨b, hi, hb⟩
      rw [hd] at h2; cases h2
    · have h2 := (hc _ _).2 hp
      rw [hd] at h2; cases h2
  | panic p =>
    refine .inr (.inr ⟨p, (hc _ _).1 hd, rfl, fun q hq => ?_, fun a b rest hi hb => ?_, fun e he => ?_⟩)
    · have h2 := (hc _ _).2 hq
      rw [hd] at h2; cases h2; rfl
    · have h2 := (h input rest a).2 ⟨b, hi, hb⟩
      rw [hd] at h2; cases h2
    · have h2 := (hr _ _).2 he
      rw [hd] at h2; cases h2

theorem codec_total {F : Type} {env : Env} {dec : Dec F} {L : Standard.Rep F} {R : CodecError → Bytes → Prop}
    {C : Fault} {src : Bytes} (hl : src.length < 2 ^ 63) (ht : TakesFrames env dec L)
    (he : ∀ e, (codecDecode env dec .frameHeader src).answer = .err e ↔ R e src)
    (hp : ∀ p, (codecDecode env dec .frameHeader src).answer = .panic p ↔ C p src) :
    (codecDecode env dec .frameHeader src).answer = .none ↔
      (¬ ∃ f b rest, src = b ++ rest ∧ L f b) ∧ (¬ ∃ e, R e src) ∧ ¬ ∃ p, C p src := by
  cases hd : (codecDecode env dec .frameHeader src).answer with
  | none =>
    refine ⟨fun _ => ⟨?_, ?_, ?_⟩, fun _ => rfl⟩
    · rintro ⟨f, b, rest, e, hf⟩
      have := (ht src rest f hl).2 ⟨b, e, hf⟩
      rw [this] at hd; cases hd
    · rintro ⟨e, h⟩
      have := (he e).2 h
      rw [hd] at this; cases this
    · rintro ⟨p, h⟩
      have := (hp p).2 h
      rw [hd] at this; cases this
  | some f =>
    refine ⟨nofun, fun h => absurd ?_ h.1⟩
    obtain ⟨st, rest, hc⟩ : ∃ st rest, codecDecode env dec .frameHeader src = ⟨st, rest, .some f⟩ :=
      ⟨_, _, by rw [← hd]⟩
    have hst : st = .frameHeader := codecDecode_state hc
    subst hst
    obtain ⟨b, e, hb⟩ := (ht src rest f hl).1 hc
    exact ⟨f, b, rest, e, hb⟩
  | err e => exact ⟨nofun, fun h => absurd ⟨e, (he e).1 hd⟩ h.2.1⟩
  | panic p => exact ⟨nofun, fun h => absurd ⟨p, (hp p).1 hd⟩ h.2.2⟩

/-- The same for a call of the codec: it waits, delivers a frame, returns an error or panics, and
which is known from the bytes. -/
theorem C93_codec_total (env : Env) (src : Bytes) (hl : src.length < 2 ^ 63) :
    ((codecDecode env (AmqpFrame.decode env) .frameHeader src).answer = .none ↔
      (¬ ∃ f b rest, src = b ++ rest ∧ Standard.amqpFrame (.lenient env) f b) ∧
      (¬ ∃ e, Refuse.stream 0x00 (Refuse.amqpBody env) (Refuse.frameBody env) e src) ∧
      ¬ ∃ p, Crash.stream env 0x00 (Crash.frameBody env) p src) :=
  codec_total hl takes_amqpFrame (C93_codec env src hl) fun p => panics_stream panics_amqpFrame src hl p

/-- The same for SASL frames. -/
theorem C93_sasl_codec_total (env : Env) (src : Bytes) (hl : src.length < 2 ^ 63) :
    ((codecDecode env (SaslFrame.decode env) .frameHeader src).answer = .none ↔
      (¬ ∃ f b rest, src = b ++ rest ∧ Standard.saslFrame (.lenient env) f b) ∧
      (¬ ∃ e, Refuse.stream 0x01 (Refuse.saslBodyRead env) (Refuse.saslBody env) e src) ∧
      ¬ ∃ p, Crash.stream env 0x01 (Crash.saslBody env) p src) :=
  codec_total hl takes_saslFrame (C93_sasl_codec env src hl) fun p => panics_stream panics_saslFrame src hl p

/-- The same for messages: every byte string is one message, or is refused with one error, or panics
for one reason. -/
theorem C93_message_total (env : Env) (input : Bytes) :
    (∃ m, Lenient.message (.lenient env) id m input ∧ (∀ m', Lenient.message (.lenient env) id m' input → m' = m) ∧
      (∀ e, ¬ Refuse.message env e input) ∧ ∀ p, ¬ Crash.message env p input) ∨
    (∃ e, Refuse.message env e input ∧ (∀ e', Refuse.message env e' input → e' = e) ∧
      (∀ m, ¬ Lenient.message (.lenient env) id m input) ∧ ∀ p, ¬ Crash.message env p input) ∨
    (∃ p, Crash.message env p input ∧ (∀ q, Crash.message env q input → q = p) ∧
      (∀ m, ¬ Lenient.message (.lenient env) id m input) ∧ ∀ e, ¬ Refuse.message env e input) := by
  have hm := C72_message_language env input
  have he := C93_message env input
  have hp : ∀ p, InMessage.decode env input = .panic p ↔ Crash.message env p input :=
    fun p => panics_message id input p
  cases hd : InMessage.decode env input with
  | ok q =>
    obtain ⟨rest, m⟩ := q
    refine .inl ⟨m, (hm m).1 ⟨rest, hd⟩, fun m' h => ?_, fun e h => ?_, fun p h => ?_⟩
    · obtain ⟨r, h⟩ := (hm m').2 h
      rw [hd] at h; cases h; rfl
    · have := (he e).2 h
      rw [hd] at this; cases this
    · have := (hp p).2 h
      rw [hd] at this; cases this
  | err e =>
    refine .inr (.inl ⟨e, (he e).1 hd, fun e' h => ?_, fun m h => ?_, fun p h => ?_⟩)
    · have := (he e').2 h
      rw [hd] at this; cases this; rfl
    · obtain ⟨r, h⟩ := (hm m).2 h
      rw [hd] at h; cases h
    · have := (hp p).2 h
      rw [hd] at this; cases this
  | panic p =>
    refine .inr (.inr ⟨p, (hp p).1 hd, fun q h => ?_, fun m h => ?_, fun e h => ?_⟩)
    · have := (hp q).2 h
      rw [hd] at this; cases this; rfl
    · obtain ⟨r, h⟩ := (hm m).2 h
      rw [hd] at h; cases h
    · have := (he e).2 h
      rw [hd] at this; cases this

/-! ## Examples -/

/-- A code of no type, and one of another type. -/
example (rest : Bytes) : Refuse.any debugEnv (.invalidFormatCode 0x41) (0x41 :: rest) ↔ False :=
  ⟨fun h => (nomatch (C93_variant debugEnv _ _).2 h), nofun⟩
example (rest : Bytes) : Refuse.any debugEnv (.invalidFormatCode 0xe0) (0xe0 :: rest) :=
  (C93_variant debugEnv _ _).1 rfl
example (rest : Bytes) : Refuse.uint (.invalidFormatCode 0x44) (0x44 :: rest) :=
  .other (by decide)

/-- A string of which two of three bytes are there; one that is not UTF-8. -/
example : Refuse.string (.incomplete 3) [0xa1, 3, 0x61, 0x62] :=
  .form (List.mem_cons_self ..) (.sized (.content (l := [3]) (k := 3) ⟨rfl, rfl⟩ (by decide)))
example (env : Env) : decode RStr env [0xa1, 1, 0xff] = .err (.utf8Error ⟨0, some 1⟩) :=
  ((C93_scalars env).2.2.2.2.2.2.2.2.2.2.2.2.2.2.2.1 _ _).2
    (.form (List.mem_cons_self ..) (.illFormed (l := [1]) (s := [0xff]) [] ⟨rfl, rfl⟩
      ((utf8Check_iff _ _).1 (by decide))))

/-- Seven is no settlement mode. -/
example (rest : Bytes) : Refuse.senderSettleMode (.unknownEnumOption "SenderSettleMode") (0x50 :: 7 :: rest) :=
  ((C93_enumerations debugEnv).2.1 _ _).1 rfl

/-- The handle of a `Detach` left out; `null` in its place. -/
example (rest : Bytes) : Refuse.one (Refuse.detach debugEnv) (.requiredFieldOmitted "handle")
    (0x00 :: ([0x53, 0x16] ++ (0x45 :: rest))) :=
  .kind (d := .ulong 0x16) ((Takes.reads (accepts_descriptor (env := debugEnv))).1 fun _ => rfl)
    (k := Refuse.detach debugEnv)
    (by simp) (.inl rfl) (Refuse.fieldList.empty rest (.missing rfl))
example : Refuse.one (Refuse.detach debugEnv) (.invalidFormatCode 0x40) [0x00, 0x53, 0x16, 0xc0, 2, 1, 0x40] :=
  (C93_detach debugEnv _ _).1 rfl

/-- The descriptor of a `Begin` where that of an `Open` is needed. -/
example (rest : Bytes) : Refuse.one (Refuse.opening debugEnv) (.invalidDescriptor (.ulong 0x11))
    (0x00 :: ([0x53, 0x11] ++ rest)) :=
  .other rest ((Takes.reads (accepts_descriptor (env := debugEnv))).1 fun _ => rfl) (by
    intro k hk
    rw [List.mem_singleton] at hk
    subst hk
    rintro (h | h) <;> cases h)

/-- A frame with two bytes after the `End` in it; one of type two. -/
example (rest : Bytes) : Refuse.stream 0x00 (Refuse.amqpBody debugEnv)
    (Refuse.frameBody debugEnv) .unparsedBytesLeft
    ([0, 0, 0, 14] ++ (2 :: 0 :: 0 :: 0 :: ([] ++ ([0x00, 0x53, 0x17, 0x45] ++ [9, 9])) ++ rest)) :=
  .mk rest ⟨rfl, rfl⟩ (by simp) (.left 0 0 rfl
    ⟨.End ⟨none⟩, (accepts_frameBody _ _).1 rfl, trivial⟩ nofun)
example : Refuse.stream 0x00 (Refuse.amqpBody debugEnv) (Refuse.frameBody debugEnv)
    (.parse (.unexpectedFrameType 2)) ([0, 0, 0, 8] ++ ([2, 2, 0, 0] ++ [])) :=
  .mk [] ⟨rfl, rfl⟩ (by decide) (.frame (.type [] (by decide)))

/-- A message of which the second section is missing its value; no message. -/
example : Refuse.message debugEnv (.incomplete 1)
    ([0x00, 0x53, 0x75, 0xa0, 1, 9] ++ [0x00, 0x53, 0x71]) := (C93_message _ _ _).1 rfl
example : Refuse.message debugEnv (.incomplete 1) [] := .mk [] (by simp) (.inl rfl) .empty

end Amqp
