import Verif.Proofs.LenientFrames
import Verif.Props.Standard
/-!
# C72: exactly what is accepted

For every type of the crate: the byte strings its decoder accepts, and with which result,
are those of the language written down in `Verif.Spec.Lenient`; likewise for frames,
streams of frames and messages.  What is in that language but not in the standard is
what the crate tolerates; what is in the standard but not in that language is what it
cannot be sent.
-/
set_option autoImplicit false
namespace Amqp
open Dec
open Standard hiding Fill

/-! ## Values -/

/-- **C72** for `Bool`. -/
theorem C72_bool (env : Env) : Accepts Bool env Lenient.boolean := accepts_bool
/-- **C72** for `UInt8`. -/
theorem C72_u8 (env : Env) : Accepts UInt8 env ubyte := accepts_ubyte
/-- **C72** for `UInt16`. -/
theorem C72_u16 (env : Env) : Accepts UInt16 env ushort := accepts_ushort
/-- **C72** for `UInt32`. -/
theorem C72_u32 (env : Env) : Accepts UInt32 env uint := accepts_uint
/-- **C72** for `UInt64`. -/
theorem C72_u64 (env : Env) : Accepts UInt64 env ulong := accepts_ulong
/-- **C72** for `Int8`. -/
theorem C72_i8 (env : Env) : Accepts Int8 env (fun n => Prim (.byte n)) := accepts_decides decides_i8
/-- **C72** for `Int16`. -/
theorem C72_i16 (env : Env) : Accepts Int16 env (fun n => Prim (.short n)) := accepts_decides decides_i16
/-- **C72** for `Int32`. -/
theorem C72_i32 (env : Env) : Accepts Int32 env (fun n => Prim (.int n)) := accepts_decides decides_i32
/-- **C72** for `Int64`. -/
theorem C72_i64 (env : Env) : Accepts Int64 env (fun n => Prim (.long n)) := accepts_decides decides_i64
/-- **C72** for `F32`. -/
theorem C72_f32 (env : Env) : Accepts F32 env (fun x => Prim (.float x)) := accepts_decides decides_f32
/-- **C72** for `F64`. -/
theorem C72_f64 (env : Env) : Accepts F64 env (fun x => Prim (.double x)) := accepts_decides decides_f64
/-- **C72** for `Char`. -/
theorem C72_char (env : Env) : Accepts Char env (fun c => Prim (.char c)) := accepts_decides decides_char
/-- **C72** for `Uuid`. -/
theorem C72_uuid (env : Env) : Accepts Uuid env uuid := accepts_uuid
/-- **C72** for `Binary`. -/
theorem C72_binary (env : Env) : Accepts Binary env binary := accepts_binary
/-- **C72** for `RStr`. -/
theorem C72_string (env : Env) : Accepts RStr env string := accepts_string
/-- **C72** for `Symbol`. -/
theorem C72_symbol (env : Env) : Accepts Symbol env Lenient.symbol := accepts_symbol
/-- **C72** for `DateTime`. -/
theorem C72_timestamp (env : Env) : Accepts DateTime env Lenient.timestamp := accepts_timestamp
/-- **C72** for `Descriptor`. -/
theorem C72_descriptor (env : Env) : Accepts Descriptor env Lenient.descriptor := accepts_descriptor
/-- **C72** for `Variant`. -/
theorem C72_variant (env : Env) : Accepts Variant env (Lenient.any env) := accepts_variant
/-- **C72** for `VList`. -/
theorem C72_list (env : Env) : Accepts VList env (Scope.lenient env).list := accepts_list
/-- **C72** for `Map`. -/
theorem C72_map (env : Env) : Accepts Map env (Scope.lenient env).map := accepts_map
/-- **C72** for `Fields`. -/
theorem C72_fields (env : Env) : Accepts Fields env (Scope.lenient env).fields := accepts_fields
/-- **C72** for `Annotations`. -/
theorem C72_annotations (env : Env) : Accepts Annotations env (Scope.lenient env).annotations := accepts_annotations
/-- **C72** for `StringVariantMap`. -/
theorem C72_string_map (env : Env) : Accepts StringVariantMap env (Scope.lenient env).stringMap := accepts_stringMap
/-- **C72** for `FilterSet`. -/
theorem C72_filter_set (env : Env) : Accepts FilterSet env (Scope.lenient env).filterSet := accepts_filter
/-- **C72** for `VecVariantMap`. -/
theorem C72_vec_map (env : Env) : Accepts VecVariantMap env (fun m => Lenient.vecMap env string (Lenient.any env) m.entries) := accepts_vecMap
/-- **C72** for `Symbols`. -/
theorem C72_symbols (env : Env) : Accepts Symbols env (Scope.lenient env).symbols := accepts_symbols
/-- **C72** for `Role`. -/
theorem C72_role (env : Env) : Accepts Role env (Standard.role (.lenient env)) := accepts_role
/-- **C72** for `SenderSettleMode`. -/
theorem C72_sender_settle_mode (env : Env) : Accepts SenderSettleMode env senderSettleMode := accepts_senderSettleMode
/-- **C72** for `ReceiverSettleMode`. -/
theorem C72_receiver_settle_mode (env : Env) : Accepts ReceiverSettleMode env receiverSettleMode := accepts_receiverSettleMode
/-- **C72** for `TerminusDurability`. -/
theorem C72_terminus_durability (env : Env) : Accepts TerminusDurability env terminusDurability := accepts_terminusDurability
/-- **C72** for `TerminusExpiryPolicy`. -/
theorem C72_terminus_expiry_policy (env : Env) : Accepts TerminusExpiryPolicy env (terminusExpiryPolicy (.lenient env)) := accepts_terminusExpiryPolicy
/-- **C72** for `SaslCode`. -/
theorem C72_sasl_code (env : Env) : Accepts SaslCode env saslCode := accepts_saslCode
/-- **C72** for `AmqpError`. -/
theorem C72_amqp_error (env : Env) : Accepts AmqpError env (fun e => word (.lenient env) (Standard.amqpError e)) := accepts_amqpError
/-- **C72** for `ConnectionError`. -/
theorem C72_connection_error (env : Env) : Accepts ConnectionError env (fun e => word (.lenient env) (Standard.connectionError e)) := accepts_connectionError
/-- **C72** for `SessionError`. -/
theorem C72_session_error (env : Env) : Accepts SessionError env (fun e => word (.lenient env) (Standard.sessionError e)) := accepts_sessionError
/-- **C72** for `LinkError`. -/
theorem C72_link_error (env : Env) : Accepts LinkError env (fun e => word (.lenient env) (Standard.linkError e)) := accepts_linkError
/-- **C72** for `ErrorCondition`. -/
theorem C72_error_condition (env : Env) : Accepts ErrorCondition env (errorCondition (.lenient env)) := accepts_errorCondition
/-- **C72** for `DistributionMode`. -/
theorem C72_distribution_mode (env : Env) : Accepts DistributionMode env (distributionMode (.lenient env)) := accepts_distributionMode
/-- **C72** for `MessageId`. -/
theorem C72_message_id (env : Env) : Accepts MessageId env messageId := accepts_messageId

/-! ## Types of the protocol -/

/-- **C72** for `Error`. -/
theorem C72_error (env : Env) : Accepts Error env (Standard.error (.lenient env)) := accepts_error
/-- **C72** for `Received`. -/
theorem C72_received (env : Env) : Accepts Received env (Standard.received (.lenient env)) := accepts_received
/-- **C72** for `Accepted`. -/
theorem C72_accepted (env : Env) : Accepts Accepted env (Standard.accepted (.lenient env)) := accepts_accepted
/-- **C72** for `Rejected`. -/
theorem C72_rejected (env : Env) : Accepts Rejected env (Standard.rejected (.lenient env)) := accepts_rejected
/-- **C72** for `Released`. -/
theorem C72_released (env : Env) : Accepts Released env (Standard.released (.lenient env)) := accepts_released
/-- **C72** for `Modified`. -/
theorem C72_modified (env : Env) : Accepts Modified env (Standard.modified (.lenient env)) := accepts_modified
/-- **C72** for `DeliveryState`. -/
theorem C72_delivery_state (env : Env) : Accepts DeliveryState env (Standard.deliveryState (.lenient env)) := accepts_deliveryState
/-- **C72** for `Outcome`. -/
theorem C72_outcome (env : Env) : Accepts Outcome env (Standard.outcome (.lenient env)) := accepts_outcome
/-- **C72** for `Source`. -/
theorem C72_source (env : Env) : Accepts Source env (Standard.source (.lenient env)) := accepts_source
/-- **C72** for `Target`. -/
theorem C72_target (env : Env) : Accepts Target env (Standard.target (.lenient env)) := accepts_target
/-- **C72** for `Open`. -/
theorem C72_open (env : Env) : Accepts Open env (Standard.opening (.lenient env)) := accepts_opening
/-- **C72** for `Begin`. -/
theorem C72_begin (env : Env) : Accepts Begin env (Standard.beginning (.lenient env)) := accepts_beginning
/-- **C72** for `Attach`. -/
theorem C72_attach (env : Env) : Accepts Attach env (Standard.attach (.lenient env)) := accepts_attach
/-- **C72** for `Flow`. -/
theorem C72_flow (env : Env) : Accepts Flow env (Standard.flow (.lenient env)) := accepts_flow
/-- **C72** for `TransferPerf`. -/
theorem C72_transfer_performative (env : Env) : Accepts TransferPerf env (Standard.transfer (.lenient env)) := accepts_transfer
/-- **C72** for `Disposition`. -/
theorem C72_disposition (env : Env) : Accepts Disposition env (Standard.disposition (.lenient env)) := accepts_disposition
/-- **C72** for `Detach`. -/
theorem C72_detach (env : Env) : Accepts Detach env (Standard.detach (.lenient env)) := accepts_detach
/-- **C72** for `End`. -/
theorem C72_end (env : Env) : Accepts End env (Standard.ending (.lenient env)) := accepts_ending
/-- **C72** for `Close`. -/
theorem C72_close (env : Env) : Accepts Close env (Standard.close (.lenient env)) := accepts_close
/-- **C72** for `SaslMechanisms`. -/
theorem C72_sasl_mechanisms (env : Env) : Accepts SaslMechanisms env (Standard.saslMechanisms (.lenient env)) := accepts_saslMechanisms
/-- **C72** for `SaslInit`. -/
theorem C72_sasl_init (env : Env) : Accepts SaslInit env (Standard.saslInit (.lenient env)) := accepts_saslInit
/-- **C72** for `SaslChallenge`. -/
theorem C72_sasl_challenge (env : Env) : Accepts SaslChallenge env (Standard.saslChallenge (.lenient env)) := accepts_saslChallenge
/-- **C72** for `SaslResponse`. -/
theorem C72_sasl_response (env : Env) : Accepts SaslResponse env (Standard.saslResponse (.lenient env)) := accepts_saslResponse
/-- **C72** for `SaslOutcome`. -/
theorem C72_sasl_outcome (env : Env) : Accepts SaslOutcome env (Standard.saslOutcome (.lenient env)) := accepts_saslOutcome
/-- **C72** for `SaslFrameBody`. -/
theorem C72_sasl_frame_body (env : Env) : Accepts SaslFrameBody env (Standard.saslBody (.lenient env)) := accepts_saslBody
/-- **C72** for `Header`. -/
theorem C72_header (env : Env) : Accepts Header env (Standard.header (.lenient env)) := accepts_header
/-- **C72** for `Properties`. -/
theorem C72_properties (env : Env) : Accepts Properties env (Standard.properties (.lenient env)) := accepts_properties
/-- **C72** for `Section`. -/
theorem C72_section (env : Env) : Accepts Section env (Lenient.messageSection (.lenient env)) := accepts_messageSection

/-- **C72** for arrays of any type of which it holds. -/
theorem C72_array {α : Type} [DecodeF α] (env : Env) (L : Rep α) (h : Accepts α env L) :
    Accepts (Vec α) env fun v => Lenient.array env L v.items := accepts_vec h

/-- **C72** for values that may be null. -/
theorem C72_option {α : Type} [DecodeF α] (env : Env) (L : Rep α) (h : Accepts α env L) :
    Accepts (Option α) env (Lenient.nullable L) := accepts_option h

/-- **C72** for transfers with their payload, which is all that follows. -/
theorem C72_transfer (env : Env) (input rest : Bytes) (t : Transfer) :
    decode Transfer env input = .ok (rest, t) ↔
      rest = [] ∧ frameBody (.lenient env) (.Transfer t) input := by
  constructor
  · intro h
    obtain ⟨u, payload, rfl, hu, rfl, hb⟩ := C27_decode_only env _ _ _ h
    exact ⟨rfl, u, payload, (Takes.reads accepts_transfer).1 hu, rfl, hb⟩
  · rintro ⟨rfl, u, payload, hu, rfl, hb⟩
    have := C27_decode env u payload _ (accepts_transfer.means hu)
    rw [← hb] at this
    exact this

/-! ## Frames and streams -/

/-- **C72**, bodies of frames. -/
theorem C72_frame_body (env : Env) (f : Frame) (b : Bytes) :
    Frame.decode env b = .ok ([], f) ↔ frameBody (.lenient env) f b := accepts_frameBody f b

/-- **C72**, AMQP frames: the codec takes a frame off the stream iff the stream begins with
an encoding of this frame, and leaves what follows.  (The bound is that of the address
space.) -/
theorem C72_amqp_frame (env : Env) (src rest : Bytes) (f : AmqpFrame) (hl : src.length < 2 ^ 63) :
    codecDecode env (AmqpFrame.decode env) .frameHeader src = ⟨.frameHeader, rest, .some f⟩ ↔
      ∃ b, src = b ++ rest ∧ amqpFrame (.lenient env) f b := takes_amqpFrame src rest f hl

/-- **C72**, SASL frames. -/
theorem C72_sasl_frame (env : Env) (src rest : Bytes) (f : SaslFrame) (hl : src.length < 2 ^ 63) :
    codecDecode env (SaslFrame.decode env) .frameHeader src = ⟨.frameHeader, rest, .some f⟩ ↔
      ∃ b, src = b ++ rest ∧ saslFrame (.lenient env) f b := takes_saslFrame src rest f hl

/-- **C72**, streams: whatever arrives, in whatever pieces, the frames delivered are those
encoded at the start of it, in order, up to the point where there is no further frame. -/
theorem C72_delivered (env : Env) (chunks : List Bytes) (hl : chunks.flatten.length < 2 ^ 63) :
    ∃ (ws : List (AmqpFrame × Bytes)) (rest : Bytes), chunks.flatten = ws.flatMap Prod.snd ++ rest ∧
      (∀ p ∈ ws, amqpFrame (.lenient env) p.1 p.2) ∧
      (receive env (AmqpFrame.decode env) .frameHeader [] chunks).1 = ws.map Prod.fst ∧
      ∀ f b rest', rest = b ++ rest' → ¬ amqpFrame (.lenient env) f b := by
  rw [receive_eq, List.nil_append]
  obtain ⟨ws, rest, h1, h2, h3, h4⟩ := drain_split takes_amqpFrame _ hl
  refine ⟨ws, rest, h1, h2, by rw [h3], fun f b rest' e hf => ?_⟩
  have h5 : rest.length < 2 ^ 63 := by
    have := congrArg List.length h1
    rw [List.length_append] at this
    omega
  have := (takes_amqpFrame rest rest' f h5).2 ⟨b, e, hf⟩
  exact h4 f (by rw [this])

/-- **C72**, streams: all that arrives is consumed, and these frames are delivered, iff it
is a sequence of encodings of them. -/
theorem C72_stream (env : Env) (chunks : List Bytes) (hl : chunks.flatten.length < 2 ^ 63)
    (frames : List AmqpFrame) :
    receive env (AmqpFrame.decode env) .frameHeader [] chunks =
        (frames, ⟨.frameHeader, [], .none⟩) ↔
      ∃ ws : List (AmqpFrame × Bytes), chunks.flatten = ws.flatMap Prod.snd ∧
        (∀ p ∈ ws, amqpFrame (.lenient env) p.1 p.2) ∧ frames = ws.map Prod.fst :=
  stream_iff takes_amqpFrame chunks hl frames

/-- **C72**, streams of SASL frames. -/
theorem C72_sasl_stream (env : Env) (chunks : List Bytes) (hl : chunks.flatten.length < 2 ^ 63)
    (frames : List SaslFrame) :
    receive env (SaslFrame.decode env) .frameHeader [] chunks =
        (frames, ⟨.frameHeader, [], .none⟩) ↔
      ∃ ws : List (SaslFrame × Bytes), chunks.flatten = ws.flatMap Prod.snd ∧
        (∀ p ∈ ws, saslFrame (.lenient env) p.1 p.2) ∧ frames = ws.map Prod.fst :=
  stream_iff takes_saslFrame chunks hl frames

/-! ## Messages -/

/-- **C72**, messages: any sequence of sections, of which the last is returned as
remainder. -/
theorem C72_message (env : Env) (b rest : Bytes) (m : InMessage) :
    InMessage.decode env b = .ok (rest, m) ↔ ∃ items : List (Section × Bytes),
      (∀ p ∈ items, Lenient.messageSection (.lenient env) p.1 p.2) ∧ b = items.flatMap Prod.snd ∧
      m = Lenient.gathered id (items.map Prod.fst) ∧ some rest = items.getLast?.map Prod.snd :=
  takes_message id b rest m

/-- **C72**, messages to be sent, in whatever order application properties are kept. -/
theorem C72_out_message (env : Env) (order : StringVariantMap → List (Str × Variant)) (b rest : Bytes)
    (m : OutMessage) :
    OutMessage.decode env order b = .ok (rest, m) ↔ ∃ items : List (Section × Bytes),
      (∀ p ∈ items, Lenient.messageSection (.lenient env) p.1 p.2) ∧ b = items.flatMap Prod.snd ∧
      m = Lenient.gathered (fun a => ⟨order a⟩) (items.map Prod.fst) ∧
      some rest = items.getLast?.map Prod.snd := takes_message _ b rest m

/-- **C72**, messages: so a message is read from a byte string iff it is in the language of
messages. -/
theorem C72_message_language (env : Env) (b : Bytes) (m : InMessage) :
    (∃ rest, InMessage.decode env b = .ok (rest, m)) ↔ Lenient.message (.lenient env) id m b := by
  simp only [C72_message]
  constructor
  · rintro ⟨rest, items, h1, h2, h3, h4⟩
    exact ⟨items, (by intro e; subst e; cases h4), h1, h2, h3⟩
  · rintro ⟨items, h0, h1, h2, h3⟩
    exact ⟨(items.getLast h0).2, items, h1, h2, h3, by rw [List.getLast?_eq_some_getLast h0]; rfl⟩

/-! ## Consequences -/

/-- **C72**: no encoding is one of two values, nor the beginning of another encoding. -/
theorem C72_unambiguous {α : Type} [DecodeF α] (env : Env) (L : Rep α) (h : Accepts α env L)
    (a a' : α) (b more : Bytes) (hb : L a b) (hb' : L a' (b ++ more)) : a = a' ∧ more = [] := by
  have h1 := (h (b ++ more) more a).2 ⟨b, rfl, hb⟩
  have h2 := (h (b ++ more) [] a').2 ⟨b ++ more, by simp, hb'⟩
  rw [h1] at h2
  injection h2 with h2
  injection h2 with h2 h3
  exact ⟨h3, h2⟩

/-- **C72**: nor can frames be confused. -/
theorem C72_unambiguous_frames (env : Env) (f f' : AmqpFrame) (b more : Bytes)
    (hl : (b ++ more).length < 2 ^ 63) (hb : amqpFrame (.lenient env) f b)
    (hb' : amqpFrame (.lenient env) f' (b ++ more)) : f = f' ∧ more = [] := by
  have h1 := (C72_amqp_frame env (b ++ more) more f hl).2 ⟨b, rfl, hb⟩
  have h2 := (C72_amqp_frame env (b ++ more) [] f' hl).2 ⟨b ++ more, by simp, hb'⟩
  rw [h1] at h2
  injection h2 with _ h2 h3
  injection h3 with h3
  exact ⟨h3, h2⟩

/-- **C72**: the language contains all that the standard allows and the crate can be given
(C71). -/
theorem C72_legal_frames (env : Env) (f : AmqpFrame) (b : Bytes) (hl : b.length < 2 ^ 63)
    (h : amqpFrame (.accepted env) f b) : amqpFrame (.lenient env) f b := by
  have h1 := C71_read_amqp_frame_partial env f b [] h
  rw [List.append_nil] at h1
  obtain ⟨b', e, hb⟩ := (C72_amqp_frame env b [] f hl).1 h1
  rw [List.append_nil] at e
  exact e ▸ hb

/-- **C72**: likewise SASL frames. -/
theorem C72_legal_sasl_frames (env : Env) (f : SaslFrame) (b : Bytes) (hl : b.length < 2 ^ 63)
    (h : saslFrame .all f b) : saslFrame (.lenient env) f b := by
  have h1 := C71_read_sasl_frame env f b [] h
  rw [List.append_nil] at h1
  obtain ⟨b', e, hb⟩ := (C72_sasl_frame env b [] f hl).1 h1
  rw [List.append_nil] at e
  exact e ▸ hb

/-- **C72**: and messages. -/
theorem C72_legal_messages (env : Env) (m : Standard.Message) (b : Bytes)
    (h : message (.accepted env) m b) : Lenient.message (.lenient env) id (m.asReceived id) b :=
  (C72_message_language env b _).1 (C71_read_message_partial env m b h)

/-! ## Examples -/

example (env : Env) : amqpFrame (.lenient env) ⟨258, .Begin foreignBegin⟩
    ([0, 0, 0, 48] ++ [3, 0] ++ [1, 2] ++ [9, 9, 9, 9] ++ foreignBytes) :=
  C72_legal_frames env _ _ (by decide) (foreign_frame _)

example (env : Env) : decode Bool env [0x56, 7] = .ok ([], true) :=
  (C72_bool env _ _ _).2 ⟨_, rfl, .byte 7⟩

/-- A message may have a section twice, and sections in any order. -/
example (env : Env) : ∃ m, InMessage.decode env
    [0x00, 0x53, 0x75, 0xa0, 1, 9, 0x00, 0x53, 0x70, 0x45, 0x00, 0x53, 0x75, 0xa0, 0] =
      .ok ([0x00, 0x53, 0x75, 0xa0, 0], m) ∧ m.body.data = [⟨[9]⟩, ⟨[]⟩] := ⟨_, by rfl, by rfl⟩

/-- Something to be tolerated: an `accepted` of one field, though it has none, in a list
whose content is longer than that field. -/
def sloppyAccepted : Bytes := [0x00, 0x53, 0x24, 0xc0, 4, 1, 0x40, 0xff, 0xff]

example : Standard.accepted (.lenient debugEnv) {} sloppyAccepted :=
  ⟨[0x53, 0x24], [0xc0, 4, 1] ++ [0x40, 0xff, 0xff], .code (.smallulong ⟨rfl, rfl⟩),
    .list (.mk (c := 0xc0) (k := 4) (s := [4]) (n := [1]) .narrow ⟨rfl, rfl⟩ (.exact 3) ⟨rfl, rfl⟩)
      (.extra 1 _), rfl⟩

/-- **C72**: it is not legal, and accepted. -/
theorem C72_tolerated : ¬ Standard.accepted .all {} sloppyAccepted ∧
    ∀ env, decode Accepted env sloppyAccepted = .ok ([], {}) := by
  refine ⟨?_, fun env => ?_⟩
  · rintro ⟨db, u, -, hu, e⟩
    cases hu with
    | empty _ =>
      have : sloppyAccepted.getLast? = (0x00 :: (db ++ [0x45])).getLast? := by rw [e]
      rw [show (0x00 :: (db ++ [0x45])) = (0x00 :: db) ++ [0x45] from rfl, List.getLast?_append] at this
      cases this
    | list items hc hs hn hf =>
      cases hf with
      | done _ =>
        rename_i c w s n _
        have hz : (0x00 :: (db ++ c :: (s ++ n ++ ([] : List Bytes).flatten))).getLast? =
            some 0x00 := by
          obtain ⟨h1, h2⟩ := hn
          cases hc with
          | narrow =>
            match n, h1, h2 with
            | [x], _, h2 =>
              have : x = 0 := UInt8.toNat_inj.1 (by simpa [unsigned] using h2)
              simp [this, List.getLast?_cons, List.getLast?_append]
          | wide =>
            match n, h1, h2 with
            | [x, y, z, t], _, h2 =>
              have : t = 0 := UInt8.toNat_inj.1 (by simp [unsigned] at h2; simp; omega)
              simp [this, List.getLast?_cons, List.getLast?_append]
        rw [← e] at hz
        cases hz
  · exact (C72_accepted env sloppyAccepted [] {}).2 ⟨_, (List.append_nil _).symm, [0x53, 0x24], [0xc0, 4, 1] ++ [0x40, 0xff, 0xff],
      .code (.smallulong ⟨rfl, rfl⟩),
      .list (.mk (c := 0xc0) (k := 4) (s := [4]) (n := [1]) .narrow ⟨rfl, rfl⟩ (.exact 3) ⟨rfl, rfl⟩)
        (.extra 1 _), rfl⟩

example (env : Env) : Accepts (Vec Bool) env fun v => Lenient.array env Lenient.boolean v.items :=
  C72_array env _ (C72_bool env)
example (env : Env) : Accepts (Option Bool) env (Lenient.nullable Lenient.boolean) :=
  C72_option env _ (C72_bool env)
example (env : Env) (a : Bool) (h : Lenient.boolean a [0x56, 7]) : a = true :=
  (C72_unambiguous env Lenient.boolean (C72_bool env) a true [0x56, 7] [] h (.byte 7)).1

end Amqp
