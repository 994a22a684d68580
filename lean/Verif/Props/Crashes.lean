import Verif.Proofs.CrashFrames
/-!
# What makes a decoder panic

C84.  `Spec/Crashes.lean` writes down, for every type, the inputs on which its decoder panics
and the reason.
-/
set_option autoImplicit false
namespace Amqp
open Dec
open Standard (Rep)

/-! ## Values -/

/-- **C84**: on these types no input makes a decoder panic. -/
theorem C84_scalars (env : Env) :
    PanicsOn Bool env Crash.never ∧ PanicsOn UInt8 env Crash.never ∧ PanicsOn UInt16 env Crash.never ∧
    PanicsOn UInt32 env Crash.never ∧ PanicsOn UInt64 env Crash.never ∧ PanicsOn Int8 env Crash.never ∧
    PanicsOn Int16 env Crash.never ∧ PanicsOn Int32 env Crash.never ∧ PanicsOn Int64 env Crash.never ∧
    PanicsOn F32 env Crash.never ∧ PanicsOn F64 env Crash.never ∧ PanicsOn Char env Crash.never ∧
    PanicsOn Uuid env Crash.never ∧ PanicsOn Binary env Crash.never ∧ PanicsOn RStr env Crash.never ∧
    PanicsOn Symbol env Crash.never ∧ PanicsOn Descriptor env Crash.never :=
  ⟨panics_never, panics_never, panics_never, panics_never, panics_never, panics_never, panics_never,
    panics_never, panics_never, panics_never, panics_never, panics_never, panics_never, panics_never,
    panics_never, panics_never, panics_never⟩

/-- **C84**: nor on these. -/
theorem C84_enumerations (env : Env) :
    PanicsOn Role env Crash.never ∧ PanicsOn SenderSettleMode env Crash.never ∧
    PanicsOn ReceiverSettleMode env Crash.never ∧ PanicsOn TerminusDurability env Crash.never ∧
    PanicsOn TerminusExpiryPolicy env Crash.never ∧ PanicsOn SaslCode env Crash.never ∧
    PanicsOn AmqpError env Crash.never ∧ PanicsOn ConnectionError env Crash.never ∧
    PanicsOn SessionError env Crash.never ∧ PanicsOn LinkError env Crash.never ∧
    PanicsOn ErrorCondition env Crash.never ∧ PanicsOn DistributionMode env Crash.never ∧
    PanicsOn MessageId env Crash.never :=
  ⟨panics_never, panics_never, panics_never, panics_never, panics_never, panics_never, panics_never,
    panics_never, panics_never, panics_never, panics_never, panics_never, panics_never⟩

/-- **C84**, `DateTime`. -/
theorem C84_timestamp (env : Env) : PanicsOn DateTime env Crash.timestamp := panics_timestamp
/-- **C84**, `Variant`. -/
theorem C84_variant (env : Env) : PanicsOn Variant env (Crash.any env) := panics_variant
/-- **C84**, `VList`. -/
theorem C84_list (env : Env) : PanicsOn VList env (Crash.anyList env) := panics_vlist
/-- **C84**, `Map`. -/
theorem C84_map (env : Env) : PanicsOn Map env (Crash.anyMap env) := panics_map
/-- **C84**, `Fields`. -/
theorem C84_fields (env : Env) : PanicsOn Fields env (Crash.symbolMap env) := panics_fields
/-- **C84**, `StringVariantMap`. -/
theorem C84_string_map (env : Env) : PanicsOn StringVariantMap env (Crash.stringMap env) := panics_stringMap
/-- **C84**, `FilterSet`. -/
theorem C84_filter_set (env : Env) : PanicsOn FilterSet env (Crash.filterSet env) := panics_filter
/-- **C84**, `VecVariantMap`. -/
theorem C84_vec_map (env : Env) : PanicsOn VecVariantMap env (Crash.stringMap env) := panics_vecMap
/-- **C84**, `Symbols`. -/
theorem C84_symbols (env : Env) : PanicsOn Symbols env (Crash.symbols env) := panics_symbols
/-- **C84**, arrays of any type. -/
theorem C84_array {α : Type} [DecodeF α] (env : Env) (L : Rep α) (C : Fault) (h : Accepts α env L)
    (hc : PanicsOn α env C) : PanicsOn (Vec α) env (Crash.array env L C) := panics_vec hc h
/-- **C84**, optional values of any type. -/
theorem C84_option {α : Type} [DecodeF α] (env : Env) (C : Fault) (hc : PanicsOn α env C) :
    PanicsOn (Option α) env (Crash.nullable C) := panics_option hc

/-- **C84**: the keys on which hashing panics, and which are not accepted in maps of values of any
type, are those that contain a map, at whatever depth; symbols and strings can always be
hashed. -/
theorem C84_keys (v : Variant) (s : Symbol) (t : RStr) :
    HKey.hashOk v = !v.holdsMap ∧ HKey.hashOk s = true ∧ HKey.hashOk t = true := ⟨hashOk_eq v, rfl, rfl⟩

/-! ## Composite types -/

/-- **C84**, `Error`. -/
theorem C84_error (env : Env) : PanicsOn Error env (Crash.error env) := panics_error
/-- **C84**, `Received`. -/
theorem C84_received (env : Env) : PanicsOn Received env (Crash.received env) := panics_received
/-- **C84**, `Accepted`. -/
theorem C84_accepted (env : Env) : PanicsOn Accepted env (Crash.accepted env) := panics_accepted
/-- **C84**, `Rejected`. -/
theorem C84_rejected (env : Env) : PanicsOn Rejected env (Crash.rejected env) := panics_rejected
/-- **C84**, `Released`. -/
theorem C84_released (env : Env) : PanicsOn Released env (Crash.released env) := panics_released
/-- **C84**, `Modified`. -/
theorem C84_modified (env : Env) : PanicsOn Modified env (Crash.modified env) := panics_modified
/-- **C84**, `DeliveryState`. -/
theorem C84_delivery_state (env : Env) : PanicsOn DeliveryState env (Crash.deliveryState env) := panics_deliveryState
/-- **C84**, `Outcome`. -/
theorem C84_outcome (env : Env) : PanicsOn Outcome env (Crash.outcome env) := panics_outcome
/-- **C84**, `Source`. -/
theorem C84_source (env : Env) : PanicsOn Source env (Crash.source env) := panics_source
/-- **C84**, `Target`. -/
theorem C84_target (env : Env) : PanicsOn Target env (Crash.target env) := panics_target
/-- **C84**, `Open`. -/
theorem C84_open (env : Env) : PanicsOn Open env (Crash.opening env) := panics_opening
/-- **C84**, `Begin`. -/
theorem C84_begin (env : Env) : PanicsOn Begin env (Crash.beginning env) := panics_beginning
/-- **C84**, `Attach`. -/
theorem C84_attach (env : Env) : PanicsOn Attach env (Crash.attach env) := panics_attach
/-- **C84**, `Flow`. -/
theorem C84_flow (env : Env) : PanicsOn Flow env (Crash.flow env) := panics_flow
/-- **C84**, `TransferPerf`. -/
theorem C84_transfer_performative (env : Env) : PanicsOn TransferPerf env (Crash.transfer env) := panics_transfer
/-- **C84**, `Disposition`. -/
theorem C84_disposition (env : Env) : PanicsOn Disposition env (Crash.disposition env) := panics_disposition
/-- **C84**, `Detach`. -/
theorem C84_detach (env : Env) : PanicsOn Detach env (Crash.detach env) := panics_detach
/-- **C84**, `End`. -/
theorem C84_end (env : Env) : PanicsOn End env (Crash.ending env) := panics_ending
/-- **C84**, `Close`. -/
theorem C84_close (env : Env) : PanicsOn Close env (Crash.close env) := panics_close
/-- **C84**, `SaslMechanisms`. -/
theorem C84_sasl_mechanisms (env : Env) : PanicsOn SaslMechanisms env (Crash.saslMechanisms env) := panics_saslMechanisms
/-- **C84**, `SaslInit`. -/
theorem C84_sasl_init (env : Env) : PanicsOn SaslInit env (Crash.saslInit env) := panics_saslInit
/-- **C84**, `SaslChallenge`. -/
theorem C84_sasl_challenge (env : Env) : PanicsOn SaslChallenge env (Crash.saslChallenge env) := panics_saslChallenge
/-- **C84**, `SaslResponse`. -/
theorem C84_sasl_response (env : Env) : PanicsOn SaslResponse env (Crash.saslResponse env) := panics_saslResponse
/-- **C84**, `SaslOutcome`. -/
theorem C84_sasl_outcome (env : Env) : PanicsOn SaslOutcome env (Crash.saslOutcome env) := panics_saslOutcome
/-- **C84**, `SaslFrameBody`. -/
theorem C84_sasl_frame_body (env : Env) : PanicsOn SaslFrameBody env (Crash.saslBody env) := panics_saslBody
/-- **C84**, `Transfer`, whatever its payload. -/
theorem C84_transfer (env : Env) : PanicsOn Transfer env (Crash.transfer env) := panics_transferBody
/-- **C84**, `Header`. -/
theorem C84_header (env : Env) : PanicsOn Header env (Crash.headerSection env) := panics_header
/-- **C84**, `Properties`. -/
theorem C84_properties (env : Env) : PanicsOn Properties env (Crash.propertiesSection env) := panics_properties
/-- **C84**, `Section`. -/
theorem C84_section (env : Env) : PanicsOn Section env (Crash.messageSection env) := panics_messageSection

/-! ## Frames and streams -/

/-- **C84**, bodies of frames. -/
theorem C84_frame_body (env : Env) (input : Bytes) (p : Panic) :
    Frame.decode env input = .panic p ↔ Crash.frameBody env p input := panics_frameBody input p

/-- **C84**, AMQP frames without their size. -/
theorem C84_amqp_frame (env : Env) (input : Bytes) (p : Panic) :
    AmqpFrame.decode env input = .panic p ↔ Crash.frame 0x00 (Crash.frameBody env) p input :=
  panics_amqpFrame input p

/-- **C84**, SASL frames without their size. -/
theorem C84_sasl_frame (env : Env) (input : Bytes) (p : Panic) :
    SaslFrame.decode env input = .panic p ↔ Crash.frame 0x01 (Crash.saslBody env) p input :=
  panics_saslFrame input p

/-- **C84**, the codec: one call.  (The bound is that of the address space.) -/
theorem C84_codec (env : Env) (src : Bytes) (hl : src.length < 2 ^ 63) (p : Panic) :
    (codecDecode env (AmqpFrame.decode env) .frameHeader src).answer = .panic p ↔
      Crash.stream env 0x00 (Crash.frameBody env) p src := panics_stream panics_amqpFrame src hl p

/-- **C84**, the codec of SASL frames: one call. -/
theorem C84_sasl_codec (env : Env) (src : Bytes) (hl : src.length < 2 ^ 63) (p : Panic) :
    (codecDecode env (SaslFrame.decode env) .frameHeader src).answer = .panic p ↔
      Crash.stream env 0x01 (Crash.saslBody env) p src := panics_stream panics_saslFrame src hl p

/-- **C84**, the codec: one call after the size `n` of what is left of the frame was read. -/
theorem C84_codec_pending (env : Env) (n : Nat) (src : Bytes) (p : Panic) :
    (codecDecode env (AmqpFrame.decode env) (.frame n) src).answer = .panic p ↔
      ∃ f rest, src = f ++ rest ∧ f.length = n ∧ Crash.frame 0x00 (Crash.frameBody env) p f :=
  panics_pending panics_amqpFrame n src p

/-- **C84**, streams: whatever arrives, in whatever pieces, the codec delivers these frames and
then panics iff it begins with encodings of them and goes on with something that makes one call
panic. -/
theorem C84_stream (env : Env) (chunks : List Bytes) (hl : chunks.flatten.length < 2 ^ 63)
    (frames : List AmqpFrame) (p : Panic) :
    ((receive env (AmqpFrame.decode env) .frameHeader [] chunks).1 = frames ∧
      (receive env (AmqpFrame.decode env) .frameHeader [] chunks).2.answer = .panic p) ↔
      ∃ (ws : List (AmqpFrame × Bytes)) (rest : Bytes), chunks.flatten = ws.flatMap Prod.snd ++ rest ∧
        (∀ w ∈ ws, Standard.amqpFrame (.lenient env) w.1 w.2) ∧ frames = ws.map Prod.fst ∧
        Crash.stream env 0x00 (Crash.frameBody env) p rest :=
  panics_arrivals takes_amqpFrame panics_amqpFrame chunks hl p frames

/-- **C84**, streams of SASL frames. -/
theorem C84_sasl_stream (env : Env) (chunks : List Bytes) (hl : chunks.flatten.length < 2 ^ 63)
    (frames : List SaslFrame) (p : Panic) :
    ((receive env (SaslFrame.decode env) .frameHeader [] chunks).1 = frames ∧
      (receive env (SaslFrame.decode env) .frameHeader [] chunks).2.answer = .panic p) ↔
      ∃ (ws : List (SaslFrame × Bytes)) (rest : Bytes), chunks.flatten = ws.flatMap Prod.snd ++ rest ∧
        (∀ w ∈ ws, Standard.saslFrame (.lenient env) w.1 w.2) ∧ frames = ws.map Prod.fst ∧
        Crash.stream env 0x01 (Crash.saslBody env) p rest :=
  panics_arrivals takes_saslFrame panics_saslFrame chunks hl p frames

/-! ## Messages -/

/-- **C84**, messages. -/
theorem C84_message (env : Env) (input : Bytes) (p : Panic) :
    InMessage.decode env input = .panic p ↔ Crash.message env p input := panics_message id input p

/-- **C84**, messages to be sent, in whatever order application properties are kept. -/
theorem C84_out_message (env : Env) (order : StringVariantMap → List (Str × Variant)) (input : Bytes)
    (p : Panic) : OutMessage.decode env order input = .panic p ↔ Crash.message env p input :=
  panics_message _ input p

/-! ## The rest -/

/-- **C84**: so every input is of one of three kinds, known without the decoder: it begins with an
encoding of a value, it makes the decoder panic, or the decoder returns an error. -/
theorem C84_error_otherwise {α : Type} [DecodeF α] (env : Env) (L : Rep α) (C : Fault)
    (h : Accepts α env L) (hc : PanicsOn α env C) (input : Bytes) :
    (∃ e, decode α env input = .err e) ↔
      (¬ ∃ a b rest, input = b ++ rest ∧ L a b) ∧ ¬ ∃ p, C p input := by
  cases hd : decode α env input with
  | err e =>
    refine ⟨fun _ => ⟨?_, ?_⟩, fun _ => ⟨e, rfl⟩⟩
    · rintro ⟨a, b, rest, rfl, hL⟩
      have := (h _ rest a).2 ⟨b, rfl, hL⟩
      rw [hd] at this; cases this
    · rintro ⟨p, hC⟩
      have := (hc _ p).2 hC
      rw [hd] at this; cases this
  | panic p => exact ⟨fun h => (nomatch h.choose_spec), fun h => absurd ⟨p, (hc _ p).1 hd⟩ h.2⟩
  | ok q =>
    obtain ⟨rest, a⟩ := q
    refine ⟨fun h => (nomatch h.choose_spec), fun h' => absurd ?_ h'.1⟩
    obtain ⟨b, e, hL⟩ := (h _ _ _).1 hd
    exact ⟨a, b, rest, e, hL⟩

/-- **C84**: an input that makes a decoder panic does so for one reason, and is not the start of
anything that is read. -/
theorem C84_one_reason {α : Type} [DecodeF α] (env : Env) (L : Rep α) (C : Fault)
    (h : Accepts α env L) (hc : PanicsOn α env C) (input : Bytes) (p : Panic) (hp : C p input) :
    (∀ q, C q input → q = p) ∧ ∀ a b rest, input = b ++ rest → ¬ L a b := by
  have h1 := (hc _ p).2 hp
  refine ⟨fun q hq => ?_, fun a b rest e hL => ?_⟩
  · have h2 := (hc _ q).2 hq
    rw [h1] at h2
    injection h2 with h2; exact h2.symm
  · have h2 := (h _ rest a).2 ⟨b, e, hL⟩
    rw [h1] at h2; cases h2

/-! ## Examples -/

/-- A map that announces eight bytes after the count and has two. -/
theorem shortMap (c : Bool) (d : Nat) : Crash.any ⟨c, d + 1⟩ .sliceIndex [0xc1, 9, 2, 0x40, 0x40] :=
  .map (.short (hdr := [0xc1, 9, 2]) (body := [0x40, 0x40]) (size := 8) (count := 2)
    (.mk (w := 1) (k := 9) (s := [9]) (n := [2]) .narrow ⟨rfl, rfl⟩ (.exact 8) ⟨rfl, rfl⟩) (by decide))

example : decode Variant debugEnv [0xc1, 9, 2, 0x40, 0x40] = .panic .sliceIndex :=
  (C84_variant _ _ _).2 (shortMap _ _)

/-- A size of zero, with and without overflow checks. -/
example (d : Nat) (rest : Bytes) : Crash.any ⟨true, d + 1⟩ .overflow (0xc0 :: 0 :: 7 :: rest) :=
  .list (.header (.mk (w := 1) (k := 0) (s := [0]) (n := [7]) rest rfl .narrow ⟨rfl, rfl⟩ (by decide) rfl))
example (p : Panic) : ¬ Crash.any releaseEnv p [0xc0, 0, 0] := fun h =>
  nomatch (C84_variant _ _ _).2 h

/-- An array of symbols that ends before the code of its items. -/
example (c : Bool) (d : Nat) : Crash.symbols ⟨c, d⟩ .sliceIndex [0xe0, 1, 0] :=
  .missing (size := 0) (count := 0)
    (.mk (w := 1) (k := 1) (s := [1]) (n := [0]) .narrow ⟨rfl, rfl⟩ (.exact 0) ⟨rfl, rfl⟩)

/-- The first instant that is too late; the last that is not. -/
example (rest : Bytes) :
    Crash.timestamp .timestampRange (0x83 :: ([0x00, 0x1d, 0x2b, 0x39, 0x10, 0x65, 0x18, 0x00] ++ rest)) :=
  .mk (m := 8210298412800000) rest ⟨rfl, by decide +kernel⟩ (.inr (by decide))
example (p : Panic) : ¬ Crash.timestamp p [0x83, 0x00, 0x1d, 0x2b, 0x39, 0x10, 0x65, 0x17, 0xff] := fun h =>
  nomatch (C84_timestamp debugEnv _ _).2 h

/-- A map with a map as key. -/
example : Crash.any debugEnv .unimplemented [0xc1, 5, 2, 0xc1, 1, 0, 0x40] := (C84_variant _ _ _).1 rfl

/-- A value within two descriptors, with room for two levels. -/
example : Crash.any ⟨false, 2⟩ .stackOverflow [0x00, 0x53, 0x01, 0x00, 0x53, 0x01, 0x40] :=
  .described (db := [0x53, 0x01]) (d := .ulong 1) ((Takes.reads (accepts_descriptor (env := debugEnv))).1 fun _ => rfl)
    (.described (db := [0x53, 0x01]) (d := .ulong 1)
      ((Takes.reads (accepts_descriptor (env := debugEnv))).1 fun _ => rfl) ⟨rfl, by simp⟩)

/-- The properties of an `Open`, of which the first field is read and the others are null. -/
example : Crash.stream debugEnv 0x00 (Crash.frameBody debugEnv) .sliceIndex
    ([0, 0, 0, 30] ++ ([2, 0, 0, 0, 0x00, 0x53, 0x10, 0xc0, 17, 10, 0xa1, 1, 0x61,
      0x40, 0x40, 0x40, 0x40, 0x40, 0x40, 0x40, 0x40, 0xc1, 9, 2, 0xa3, 0] ++ [0, 0])) :=
  (C84_codec debugEnv _ (by decide) _).1 rfl

/-- Fewer than eight bytes make no call panic, whatever the size. -/
example (p : Panic) : ¬ Crash.stream debugEnv 0x00 (Crash.frameBody debugEnv) p [0, 0, 0, 0, 2, 0, 0] := fun h =>
  nomatch (C84_codec debugEnv _ (by decide) _).2 h

/-- A message of which the second section is wrong. -/
example : Crash.message debugEnv .sliceIndex ([0x00, 0x53, 0x75, 0xa0, 1, 9] ++ [0x00, 0x53, 0x71, 0xc1, 9, 2]) :=
  (C84_message _ _ _).1 rfl

end Amqp
