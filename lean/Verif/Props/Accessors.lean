import Verif.Proofs.Accessors
import Verif.Props.Frames
import Verif.Props.Messages
import Verif.Props.Performatives
import Verif.Props.Descriptors
/-!
# C65 (what accessors and constructors give), C67 (copies of errors)

The accessors of the list types and the conversions to `Frame` are in
`Props/Getters.lean`, those to `Variant` in `Props/Views.lean`.
-/
set_option autoImplicit false
namespace Amqp
open Dec

/-! ## Frames -/

/-- **C65**: `channel_id()` and `performative()` of a received frame are what its
layout says, `into_parts()` gives both, and `AmqpFrame::new` puts them together
again. -/
theorem C65_frame_received (env : Env) (input rest : Bytes) (f : AmqpFrame)
    (h : AmqpFrame.decode env input = .ok (rest, f)) :
    (∃ body, FrameLayout input 0x00 f.getChannelId body ∧
      Frame.decode env body = .ok (rest, f.getPerformative)) ∧
    f.intoParts = (f.getChannelId, f.getPerformative) ∧
    AmqpFrame.new f.getChannelId f.getPerformative = f :=
  ⟨C25_amqp_only env input rest f h, rfl, rfl⟩

/-- **C65**: the parts of a frame made with `AmqpFrame::new` are those given, for the
sender and for the receiver. -/
theorem C65_frame_sent (env : Env) (channel : UInt16) (p : Frame)
    (hc : p.ContentRoundTrips env) (hp : p.PlainPayload) :
    (AmqpFrame.new channel p).intoParts = (channel, p) ∧
    ∃ f, AmqpFrame.decode env ((enc (AmqpFrame.new channel p)).drop 4) = .ok ([], f) ∧
      f.getChannelId = channel ∧ f.getPerformative = p ∧ f.intoParts = (channel, p) :=
  ⟨rfl, _, (C26_amqp env (AmqpFrame.new channel p) hc hp).1, rfl, rfl, rfl⟩

example : ∃ f, AmqpFrame.decode debugEnv ((enc (AmqpFrame.new 7 .Empty)).drop 4) = .ok ([], f) ∧
    f.getChannelId = 7 ∧ f.getPerformative = .Empty ∧ f.intoParts = (7, .Empty) :=
  (C65_frame_sent debugEnv 7 .Empty trivial (fun _ _ h => by cases h)).2
example : ∃ body, FrameLayout [2, 0, 1, 2] 0x00 0x0102 body :=
  let ⟨b, h, _⟩ := (C65_frame_received debugEnv [2, 0, 1, 2] [] ⟨0x0102, .Empty⟩ rfl).1
  ⟨b, h⟩

/-- **C65**: a SASL frame made from one of the five bodies holds that body, for the
sender and for the receiver. -/
theorem C65_sasl (env : Env) :
    (∀ x : SaslMechanisms, (SaslFrame.ofMechanisms x).body = .SaslMechanisms x ∧ (RoundTrips env x →
      SaslFrame.decode env ((enc (SaslFrame.ofMechanisms x)).drop 4) =
        .ok ([], ⟨.SaslMechanisms x⟩))) ∧
    (∀ x : SaslInit, (SaslFrame.ofInit x).body = .SaslInit x ∧ (RoundTrips env x →
      SaslFrame.decode env ((enc (SaslFrame.ofInit x)).drop 4) = .ok ([], ⟨.SaslInit x⟩))) ∧
    (∀ x : SaslChallenge, (SaslFrame.ofChallenge x).body = .SaslChallenge x ∧ (RoundTrips env x →
      SaslFrame.decode env ((enc (SaslFrame.ofChallenge x)).drop 4) = .ok ([], ⟨.SaslChallenge x⟩))) ∧
    (∀ x : SaslResponse, (SaslFrame.ofResponse x).body = .SaslResponse x ∧ (RoundTrips env x →
      SaslFrame.decode env ((enc (SaslFrame.ofResponse x)).drop 4) = .ok ([], ⟨.SaslResponse x⟩))) ∧
    ∀ x : SaslOutcome, (SaslFrame.ofOutcome x).body = .SaslOutcome x ∧ (RoundTrips env x →
      SaslFrame.decode env ((enc (SaslFrame.ofOutcome x)).drop 4) = .ok ([], ⟨.SaslOutcome x⟩)) :=
  ⟨fun x => ⟨rfl, fun h => (C26_sasl env (.ofMechanisms x) (C21_sasl_frame_body env _ h)).1⟩,
   fun x => ⟨rfl, fun h => (C26_sasl env (.ofInit x) (C21_sasl_frame_body env _ h)).1⟩,
   fun x => ⟨rfl, fun h => (C26_sasl env (.ofChallenge x) (C21_sasl_frame_body env _ h)).1⟩,
   fun x => ⟨rfl, fun h => (C26_sasl env (.ofResponse x) (C21_sasl_frame_body env _ h)).1⟩,
   fun x => ⟨rfl, fun h => (C26_sasl env (.ofOutcome x) (C21_sasl_frame_body env _ h)).1⟩⟩

example : SaslFrame.decode debugEnv ((enc (SaslFrame.ofInit SaslInit.sample)).drop 4) =
    .ok ([], ⟨.SaslInit SaslInit.sample⟩) := by
  refine (C65_sasl debugEnv).2.1 SaslInit.sample |>.2 ?_
  exact C21_sasl_init _ _ (by decide)

/-! ## Collections -/

/-- **C65**: `Multiple` and `List` show the items they were made of, in order, and
say how many there are; editing through `DerefMut` edits just the items. -/
theorem C65_items {α : Type} (l : List α) (v : List Variant) (f : List α → List α) :
    (Multiple.ofVec l).iter = l ∧ (Multiple.ofVec l).len = l.length ∧
    ((Multiple.ofVec l).isEmpty = true ↔ l = []) ∧ (Multiple.default : Multiple α).iter = [] ∧
    (Multiple.modify f (Multiple.ofVec l)).iter = f l ∧
    (VList.mk v).iter = v ∧ (VList.mk v).len = v.length ∧ ((VList.mk v).isEmpty = true ↔ v = []) :=
  ⟨rfl, rfl, List.isEmpty_iff, rfl, rfl, rfl, rfl, List.isEmpty_iff⟩

/-- **C65**: the entries of a `VecVariantMap`. -/
theorem C65_entries (l : List (Str × Variant)) (f : List (Str × Variant) → List (Str × Variant)) :
    VecVariantMap.default.deref = [] ∧ (VecVariantMap.mk l).deref = l ∧
    ((VecVariantMap.mk l).modify f).deref = f l := ⟨rfl, rfl, rfl⟩

example : (Multiple.modify (· ++ [3]) (Multiple.ofVec [1, 2])).iter = [1, 2, 3] :=
  (C65_items [1, 2] [] (· ++ [3])).2.2.2.2.1

/-! ## Messages -/

/-- **C65**: what the accessors of a received message give: of the header, the
properties, the application properties and the value the last one received; of the
data sections the first one. -/
theorem C65_message_received {AP : Type} (env : Env) (conv : StringVariantMap → AP)
    (secs : List (Bytes × Section)) (hne : secs ≠ []) (h : ∀ p ∈ secs, Means env p.1 p.2) :
    ∃ rest m, Message.decodeWith env conv (secs.flatMap Prod.fst) = .ok (rest, m) ∧
      m.getHeader = (secs.filterMap fun | (_, .Header v) => some v | _ => none).getLast? ∧
      m.getProperties = (secs.filterMap fun | (_, .Properties v) => some v | _ => none).getLast? ∧
      m.getValue = (secs.filterMap fun | (_, .AmqpValue v) => some v | _ => none).getLast? ∧
      m.body.getValue = m.getValue ∧
      m.body.first = (secs.filterMap fun | (_, .Data v) => some v | _ => none).head? := by
  obtain ⟨rest, hr⟩ := C39_sections env conv secs hne h
  have key : ∀ {α : Type} (f : Section → Option α) (g : Bytes × Section → Option α),
      (∀ p, g p = f p.2) → (secs.map Prod.snd).filterMap f = secs.filterMap g := by
    intro α f g hg
    rw [List.filterMap_map]
    congr 1
    funext p
    exact (hg p).symm
  refine ⟨rest, _, hr, ?_, ?_, ?_, rfl, ?_⟩
  · show (List.filterMap _ _).getLast? = _
    rw [key]; rintro ⟨b, s⟩; cases s <;> rfl
  · show (List.filterMap _ _).getLast? = _
    rw [key]; rintro ⟨b, s⟩; cases s <;> rfl
  · show (List.filterMap _ _).getLast? = _
    rw [key]; rintro ⟨b, s⟩; cases s <;> rfl
  · show (List.filterMap _ _).head? = _
    rw [key]; rintro ⟨b, s⟩; cases s <;> rfl

/-- **C65**: and what the accessors give after the setters. -/
theorem C65_message_set {AP : Type} (m : Message AP) (o : OutMessage) (h : Header)
    (f : Properties → Properties) (v : Variant) (k : Str) (d : Binary) (ms : List TransferBody) :
    (m.setHeader h).getHeader = some h ∧
    (∃ p, (m.setProperties f).getProperties = some (f p)) ∧
    (m.setValue v).getValue = some v ∧ (m.setValue v).body.getValue = some v ∧
    (m.setBody fun b => b.setData d).body.first = some d ∧
    (Message.withBody d : Message AP).body.first = some d ∧
    (Message.withMessages ms : Message AP).body.first = none ∧
    (o.setAppPropertyOut k v).appProperties.map VecVariantMap.deref =
      some ((o.appProperties.elim [] VecVariantMap.deref) ++ [(k, v)]) :=
  ⟨rfl, ⟨_, rfl⟩, rfl, rfl, rfl, rfl, rfl, rfl⟩

/-- Two data sections around a value. -/
example : ∃ rest m, InMessage.decode debugEnv [0, 0x53, 0x75, 0xa0, 1, 5, 0, 0x53, 0x77, 0x41,
    0, 0x53, 0x75, 0xa0, 1, 6] = .ok (rest, m) ∧ m.body.first = some ⟨[5]⟩ ∧
    m.getValue = some (.boolean true) ∧ m.getHeader.isNone := by
  obtain ⟨rest, m, h1, h2, _, h3, _, h4⟩ := C65_message_received debugEnv
    (id : StringVariantMap → StringVariantMap)
    [([0, 0x53, 0x75, 0xa0, 1, 5], .Data ⟨[5]⟩), ([0, 0x53, 0x77, 0x41], .AmqpValue (.boolean true)),
      ([0, 0x53, 0x75, 0xa0, 1, 6], .Data ⟨[6]⟩)] (by simp) (by
        intro p hp more
        simp only [List.mem_cons, List.not_mem_nil, or_false] at hp
        rcases hp with rfl | rfl | rfl <;> rfl)
  exact ⟨rest, m, h1, h4, h3, by rw [h2]; rfl⟩

/-- **C65**: as transfer bodies, raw bytes have no message format, messages have
theirs; a body is written as what it was made from, and `len()` is the
`encoded_size()` of that. -/
theorem C65_transfer_body (b : Binary) (i : InMessage) (o : OutMessage) :
    (into b : TransferBody).messageFormat = none ∧
    (into i : TransferBody).messageFormat = i.message_format ∧
    (into o : TransferBody).messageFormat = o.message_format ∧
    enc (into b : TransferBody) = b.data ∧ enc (into i : TransferBody) = enc i ∧
    enc (into o : TransferBody) = enc o ∧
    (into b : TransferBody).len = b.data.length ∧ (into i : TransferBody).len = size i ∧
    (into o : TransferBody).len = size o :=
  ⟨rfl, rfl, rfl, by
      show TransferBody.tenc (.Data b) = _
      rw [TransferBody.tenc], Message.toIn_enc i, Message.toOut_enc o, by
      show TransferBody.tsize (.Data b) = _
      rw [TransferBody.tsize], Message.toIn_size i, Message.toOut_size o⟩

example : (into ({ message_format := some 7 } : OutMessage) : TransferBody).messageFormat =
    some 7 := (C65_transfer_body ⟨[]⟩ {} { message_format := some 7 }).2.2.1

/-- **C65**: `as_str()` and `as_bytes_str()` agree: the text of strings and symbols,
and nothing else. -/
theorem C65_text (v : Variant) : v.asBytesStr = v.asStr ∧ ∀ s, v.asStr = some s ↔
    v = .string s ∨ v = .symbol ⟨s⟩ := by
  refine ⟨by cases v <;> rfl, fun s => ?_⟩
  cases v <;> simp [Variant.asStr]
  case symbol x => cases x; simp

/-! ## C67 -/

/-- **C67** as it should hold: an error's clone is the error. -/
def C67_statement : Prop := ∀ (E : Type) (e : AmqpCodecError E), e.clone = e

/-- **C67** is violated: the clone of an I/O error does not say what went wrong, and
the clones of any two I/O errors are the same. -/
theorem C67_violated_io {E : Type} (e e' : E) :
    (AmqpCodecError.ofIo e).clone ≠ .ofIo e ∧
    (AmqpCodecError.ofIo e).clone = (AmqpCodecError.ofIo e').clone :=
  ⟨fun h => (by cases h), rfl⟩

theorem C67_violated : ¬ C67_statement := fun h => (C67_violated_io () ()).1 (h Unit _)

/-- **C67** for the errors that decoding and encoding return, all but I/O errors: the
error a caller is handed names the parse error that happened, their clones are the same
error; and cloning a clone changes nothing. -/
theorem C67_codec_partial {E : Type} (e : CodecError) (x : AmqpCodecError E) :
    (∀ p, (e.toRust : AmqpCodecError E) = .ParseError p ↔ e = .parse p) ∧
    ((e.toRust : AmqpCodecError E) = .UnparsedBytesLeft ↔ e = .unparsedBytesLeft) ∧
    (e.toRust : AmqpCodecError E).clone = e.toRust ∧ x.clone.clone = x.clone ∧
    (x.clone = x ↔ ∀ i, x ≠ .Io (some i)) := by
  refine ⟨fun p => ?_, ?_, by cases e <;> rfl, by cases x <;> rfl, ?_⟩
  · cases e <;> simp [CodecError.toRust, into, Into.into]
  · cases e <;> simp [CodecError.toRust, into, Into.into]
  cases x with
  | Io o => cases o <;> simp [AmqpCodecError.clone]
  | _ => simp [AmqpCodecError.clone]

example : ((CodecError.parse (.invalidFormatCode 7)).toRust : AmqpCodecError Nat).clone =
    .ParseError (.invalidFormatCode 7) := (C67_codec_partial _ .UnparsedBytesLeft).2.2.1

end Amqp
