import Verif.Proofs.CacheLaws
import Verif.Props.Streams
import Verif.Props.Values
/-!
# C35–C40: messages
-/
set_option autoImplicit false
namespace Amqp
open Dec

/-! ## C35 -/

/-- **C35**, exactly: the `encoded_size` of a message exceeds what is written by
three bytes for every header section in it and in the messages nested in it, at
any depth.  (The size caches in it must not be stale, see C36.) -/
theorem C35_excess {AP : Type} [Encode AP] (hAP : SizeExact AP) (m : Message AP)
    (hc : m.Coherent) : size m = (enc m).length + 3 * m.headers := by
  haveI : LawfulEnc AP := ⟨hAP⟩
  rw [Message.size_coherent m hc, Message.enc_coherent m hc, Message.msize_eq _ m.clear_fresh,
    Message.clear_headers]

/-- **C35** for messages without header sections.

Missing: messages with header sections, for which it is false. -/
theorem C35_no_headers_partial {AP : Type} [Encode AP] (hAP : SizeExact AP) (m : Message AP)
    (hc : m.Coherent) (hh : m.headers = 0) : size m = (enc m).length := by
  rw [C35_excess hAP m hc, hh]; rfl

/-- The two kinds of application properties report their exact size. -/
theorem C35_app_properties : SizeExact StringVariantMap ∧ SizeExact VecVariantMap :=
  ⟨LawfulEnc.size_eq, LawfulEnc.size_eq⟩

/-- **C35** is violated by every message with a header section. -/
theorem C35_violated {AP : Type} [Encode AP] (hAP : SizeExact AP) (m : Message AP)
    (hc : m.Coherent) (hh : 0 < m.headers) : size m ≠ (enc m).length := by
  rw [C35_excess hAP m hc]; omega

/-- A message with a header, as in the tests of the repository. -/
def headerMessage : InMessage := Message.empty.setHeader Header.sample

example : size headerMessage = (enc headerMessage).length + 3 := by decide
example : size headerMessage ≠ (enc headerMessage).length :=
  C35_violated LawfulEnc.size_eq _ ⟨.inl rfl, trivial⟩ (by decide)
example : size (Message.empty.setProperties fun p => { p with group_sequence := some 5 } : OutMessage) =
    (enc (Message.empty.setProperties fun p => { p with group_sequence := some 5 } : OutMessage)).length :=
  C35_no_headers_partial LawfulEnc.size_eq _ ⟨.inl rfl, trivial⟩ rfl

/-- The frame that carries it. -/
def headerFrame : AmqpFrame :=
  ⟨0, .Transfer { TransferPerf.sample with body := some headerMessage.toIn }⟩

set_option maxRecDepth 8000 in
/-- **C35**, the consequence for frames: a frame with such a message announces
three bytes more than it has, so that its receiver waits for three more bytes,
which are taken from the next frame. -/
theorem C35_violated_frame : ¬ IsFrame (enc headerFrame) ∧ ∀ env,
    (codecDecode env (AmqpFrame.decode env) .frameHeader (enc headerFrame)).answer = .none := by
  refine ⟨fun h => absurd h.2 (by decide +kernel), fun env => ?_⟩
  refine (C30_none_header env _ _ (fun _ => by decide +kernel)).1.2 (.inr (by decide +kernel))

/-- **C35**, the consequence for nested messages: the data section that holds
such a message announces three bytes too many, so the outer message cannot be
read back. -/
theorem C35_violated_nested :
    InMessage.decode debugEnv (enc (Message.withMessages [headerMessage.toIn] : InMessage)) =
      .err (.incomplete 28) := by rfl

/-! ## C36 -/

/-- `set_app_property` of incoming messages forgets the size. -/
theorem setAppPropertyIn_cache (m : InMessage) (k : Str) (v : Variant) :
    (m.setAppPropertyIn k v).cache = 0 ∧ (m.setAppPropertyIn k v).messages = m.messages :=
  ⟨rfl, rfl⟩
/-- `set_app_property` of outgoing messages forgets the size. -/
theorem setAppPropertyOut_cache (m : OutMessage) (k : Str) (v : Variant) :
    (m.setAppPropertyOut k v).cache = 0 ∧ (m.setAppPropertyOut k v).messages = m.messages :=
  ⟨rfl, rfl⟩

/-- **C36** for histories without `set_value` after `encoded_size`: `encoded_size`
is that of the same content with all caches unset, and so are the bytes written.
The history may start with any message with right caches, in particular with a
new or a decoded one, and may nest such messages.

Missing: `set_value` after `encoded_size`, for which it is false. -/
theorem C36_history_partial {AP : Type} [Encode AP]
    (setApp : Message AP → Str → Variant → Message AP)
    (hset : ∀ m k v, (setApp m k v).cache = 0 ∧ (setApp m k v).messages = m.messages)
    (m : Message AP) (h : m.Coherent) (ops : List Op) (ho : ∀ op ∈ ops, op.Honest)
    (hn : NoStaleValue (m.cache != 0) ops) :
    size (runOps setApp m ops) = size (runOps setApp m ops).clear ∧
    enc (runOps setApp m ops) = enc (runOps setApp m ops).clear ∧
    (runOps setApp m ops).Coherent := by
  have hc := runOps_coherent setApp hset ops m _ h ho (by simp) hn
  exact ⟨Message.size_coherent _ hc, Message.enc_coherent _ hc, hc⟩

/-- **C36**: new messages have right caches, as have decoded ones. -/
theorem C36_start {AP : Type} [Encode AP] (env : Env) (conv : StringVariantMap → AP)
    (input rest : Bytes) (m : Message AP) (b : Binary) (ms : List TransferBody)
    (h : Message.decodeWith env conv input = .ok (rest, m)) (hms : CoherentAll ms) :
    (Message.empty : Message AP).Coherent ∧ (Message.withBody b : Message AP).Coherent ∧
    (Message.withMessages ms : Message AP).Coherent ∧ m.Coherent := by
  refine ⟨⟨.inl rfl, trivial⟩, ⟨.inl rfl, trivial⟩, ⟨.inl rfl, hms⟩, ?_⟩
  rw [Message.decodeWith_eq] at h
  obtain ⟨ws, l, -, -, -, rfl⟩ := Message.resume_ok conv _ _ _ _ h
  have key : ∀ (secs : List Section) (m : Message AP), m.cache = 0 ∧ m.messages = [] →
      (secs.foldl (Message.addSection conv) m).cache = 0 ∧
      (secs.foldl (Message.addSection conv) m).messages = [] := by
    intro secs
    induction secs with
    | nil => exact fun m h => h
    | cons s t ih =>
      intro m h
      refine ih _ ?_
      cases s <;> exact h
  obtain ⟨h1, h2⟩ := key _ _ (show (Message.empty : Message AP).cache = 0 ∧ _ from ⟨rfl, rfl⟩)
  exact ⟨.inl h1, by rw [h2]; trivial⟩

/-- **C36** is violated by `set_value` after `encoded_size`: whatever the message
and the value, `encoded_size` stays what it was. -/
theorem C36_violated_set_value {AP : Type} [Encode AP] (m : Message AP) (h : m.Coherent)
    (v : Variant) : size (m.touch.setValue v) = size m.clear := by
  have h1 : (m.touch.setValue v).cache = size m := m.touch_cache
  have h2 : size m.clear ≠ 0 := by
    rw [msize_clear]; exact Message.freshSize_pos _ _
  rw [Message.size_coherent m h] at h1
  show Message.msize _ = _
  unfold Message.msize
  rw [h1, if_pos h2]

/-- **C36** is violated: the size of a new message is asked for, then a value is
set, and the size is that of the message without value. -/
theorem C36_violated : ∃ ops : List Op, (∀ op ∈ ops, op.Honest) ∧
    size (runOps Message.setAppPropertyIn Message.empty ops) ≠
      size (runOps Message.setAppPropertyIn Message.empty ops).clear :=
  ⟨[.size, .setValue (.ulong 7000)], by simp [Op.Honest], by decide⟩

theorem transferFrame_size (ch : UInt16) (p : TransferPerf) (b : TransferBody) :
    size (⟨ch, .Transfer { p with body := some b }⟩ : AmqpFrame) = 8 + (size p + size b) := rfl
theorem transferFrame_length (ch : UInt16) (p : TransferPerf) (b : TransferBody) :
    (enc (⟨ch, .Transfer { p with body := some b }⟩ : AmqpFrame)).length =
      8 + ((enc p).length + (enc b).length) := by
  rw [amqpFrame_enc, List.length_append, frameHeader_length]
  congr 1
  show (enc p ++ enc b).length = _
  rw [List.length_append]

/-- **C36**, the consequence: encoding a frame with such a message panics in
`BytesMut` when the value is longer than what was reserved. -/
theorem C36_violated_overrun (n : Nat) (hn : 2 ^ 15 + 32 ≤ n) :
    let m : OutMessage := Message.empty.touch.setValue (.binary ⟨List.replicate n 0⟩)
    codecEncode (fun _ _ => 0) (⟨0, .Transfer { TransferPerf.sample with body := some m.toOut }⟩ : AmqpFrame)
      ⟨[], 0, Nat.le_refl _⟩ = .panic .bufferFull := by
  intro m
  have hs : size m = 5 := C36_violated_set_value (Message.empty : OutMessage) ⟨.inl rfl, trivial⟩ _
  have he : n ≤ (enc m).length := by
    show n ≤ (Message.menc _).length
    have : bodyEncWith m.data m.sequence m.value (nestedEnc m.messages) =
        sectionEnc 119 (Variant.binary ⟨List.replicate n 0⟩) := by
      show [].flatMap _ ++ [].flatMap _ ++ _ ++ _ = _
      have : nestedEnc m.messages = [] := by
        show nestedEnc (touchAll []) = []
        simp [touchAll, nestedEnc]
      rw [this, List.append_nil]
      rfl
    have hb : m.bodySize ≠ 0 := by
      unfold Message.bodySize bodySizeWith
      show _ + _ + _ + (_ + sectionPrefixLength) ≠ 0
      unfold sectionPrefixLength
      omega
    unfold Message.menc
    rw [bodyEncOrEmpty, if_neg hb, this]
    simp only [List.length_append, sectionEnc_length (c := 119) (by decide)]
    have : n ≤ size (Variant.binary ⟨List.replicate n 0⟩) := by
      have h1 := varSize_ge (List.replicate n (0 : UInt8)).length
      have h2 : varSize (List.replicate n (0 : UInt8)).length ≤
          size (Variant.binary ⟨List.replicate n 0⟩) := by
        show _ ≤ Variant.vsize _
        simp only [Variant.vsize]
        exact Nat.le_refl _
      rw [List.length_replicate] at h1 h2
      exact Nat.le_trans h1 h2
    omega
  apply C34_needs_size
  · have h1 : ∀ w ∈ writes TransferPerf.sample, w.isPut = true := by decide
    have h2 : ∀ w ∈ writes m.toOut, w.isPut = true := by
      have e : TransferBody.twrites m.toOut = bodyWritesOrEmpty m.bodySize
          (sectionWrites 119 (Variant.binary ⟨List.replicate n 0⟩)) := by
        have : nestedWrites m.messages = [] := by
          show nestedWrites (touchAll []) = []
          simp [touchAll, nestedWrites]
        show [] ++ bodyWritesOrEmpty m.bodySize (bodyWritesWith m.data m.sequence m.value
          (nestedWrites m.messages)) ++ [] = _
        rw [this, List.nil_append, List.append_nil]
        show bodyWritesOrEmpty _ ([] ++ sectionWrites _ _ ++ []) = _
        rw [List.nil_append, List.append_nil]
      intro w hw
      replace hw : w ∈ TransferBody.twrites m.toOut := hw
      rw [e, bodyWritesOrEmpty] at hw
      split at hw
      · simp only [List.mem_singleton] at hw
        rw [hw]; rfl
      · have : w ∈ Write.put _ :: Variant.vwrites _ := hw
        simp only [Variant.vwrites, List.mem_cons] at this
        rcases this with rfl | h
        · rfl
        · have : w ∈ [Write.put _] := h
          simp only [List.mem_singleton] at this
          rw [this]; rfl
    intro w hw
    have hw' : w ∈ Write.put _ :: (writes TransferPerf.sample ++ writes m.toOut) := hw
    simp only [List.mem_cons, List.mem_append] at hw'
    rcases hw' with rfl | hw' | hw'
    · rfl
    · exact h1 w hw'
    · exact h2 w hw'
  · rw [transferFrame_size, transferFrame_length]
    have e3 : size TransferPerf.sample = (enc TransferPerf.sample).length := LawfulEnc.size_eq _
    rw [Message.toOut_size, Message.toOut_enc, hs, e3]
    omega
  · rfl

/-- A history with all kinds of calls. -/
example : NoStaleValue false [.setFormat (some 1), .setValue .null, .size, .setHeader Header.sample,
    .setValue (.uint 5), .setBody fun b => b.setData ⟨[1]⟩, .encode, .sizeNested 0 [], .encodeNested 0 [1],
    .setAppProperty (.lit "k") .null, .size] := by simp [NoStaleValue]
example : size (runOps Message.setAppPropertyOut Message.empty [.setFormat (some 1),
      .setValue .null, .size, .setHeader Header.sample, .setValue (.uint 5),
      .setAppProperty (.lit "k") .null, .size]) =
    size (runOps Message.setAppPropertyOut Message.empty [.setFormat (some 1),
      .setValue .null, .size, .setHeader Header.sample, .setValue (.uint 5),
      .setAppProperty (.lit "k") .null, .size]).clear :=
  (C36_history_partial Message.setAppPropertyOut setAppPropertyOut_cache Message.empty
    ⟨.inl rfl, trivial⟩ _ (by simp [Op.Honest]) (by simp [NoStaleValue, Message.empty])).1

/-! ## C37 -/

theorem decode_sections {AP BP : Type} [Encode AP] [AppProps AP] {env : Env}
    (conv : StringVariantMap → BP) (m : Message AP) (h : ∀ s ∈ m.sections, RoundTrips env s)
    (hn : ∀ b ∈ m.messages, b.Exact) :
    Message.decodeWith env conv (enc m) =
      .ok (enc (m.sections.getLast m.sections_ne), m.received conv) := by
  have hw := Message.resume_wires (env := env) conv
    (m.sections.dropLast.map fun s => (enc s, s))
    (enc (m.sections.getLast m.sections_ne), m.sections.getLast m.sections_ne) Message.empty (by
      intro p hp
      have : ∃ s ∈ m.sections, p = (enc s, s) := by
        simp only [List.mem_append, List.mem_map, List.mem_singleton] at hp
        rcases hp with ⟨s, hs, rfl⟩ | rfl
        · exact ⟨s, List.dropLast_subset _ hs, rfl⟩
        · exact ⟨_, List.getLast_mem _, rfl⟩
      obtain ⟨s, hs, rfl⟩ := this
      exact ⟨enc_ne_nil_of_head s, h s hs⟩)
  have e : (m.sections.dropLast.map fun s => (enc s, s)) ++
      [(enc (m.sections.getLast m.sections_ne), m.sections.getLast m.sections_ne)] =
      m.sections.map fun s => (enc s, s) := by
    conv => rhs; rw [← List.dropLast_concat_getLast m.sections_ne]
    simp
  rw [e] at hw
  rw [Message.menc_eq m hn, Message.decodeWith_eq, ← Message.foldl_sections]
  simpa [List.flatMap_map, List.map_map, Function.comp_def] using hw

/-- The parts of a message, except its application properties, round-trip, and
the messages in it are as long as they say and not too long. -/
structure Message.PartsRoundTrip {AP : Type} (env : Env) (m : Message AP) : Prop where
  header : ∀ x, m.header = some x → RoundTrips env x
  delivery_annotations : ∀ x, m.delivery_annotations = some x → RoundTrips env x
  message_annotations : ∀ x, m.message_annotations = some x → RoundTrips env x
  properties : ∀ x, m.properties = some x → RoundTrips env x
  footer : ∀ x, m.footer = some x → RoundTrips env x
  data : ∀ x ∈ m.data, RoundTrips env x
  sequence : ∀ x ∈ m.sequence, RoundTrips env x
  value : ∀ x, m.value = some x → RoundTrips env x
  messages : ∀ b ∈ m.messages, size b = (enc b).length ∧ (enc b).length < 2 ^ 32

theorem Message.PartsRoundTrip.sections {AP : Type} [Encode AP] [AppProps AP] {env : Env}
    {m : Message AP} (h : m.PartsRoundTrip env)
    (ha : ∀ x, m.application_properties = some x → RoundTrips env (AppProps.toMap x)) :
    ∀ s ∈ m.sections, RoundTrips env s := by
  intro s hs
  apply C21_section
  simp only [Message.sections, MsgHead.preSections, List.mem_append, List.mem_map,
    Option.mem_toList] at hs
  rcases hs with (((((⟨x, hx, rfl⟩ | ⟨x, hx, rfl⟩) | ⟨x, hx, rfl⟩) | ⟨x, hx, rfl⟩) |
    ⟨x, hx, rfl⟩) | hs) | ⟨x, hx, rfl⟩
  · exact h.header x hx
  · exact h.delivery_annotations x hx
  · exact h.message_annotations x hx
  · exact h.properties x hx
  · exact ha x hx
  · unfold Message.bodySections at hs
    split at hs
    · simp only [List.mem_singleton] at hs
      subst hs
      exact SmallRT.rt env (⟨[]⟩ : Binary) (by decide)
    · simp only [List.mem_append, List.mem_map, Option.mem_toList] at hs
      rcases hs with ((⟨x, hx, rfl⟩ | ⟨x, hx, rfl⟩) | ⟨x, hx, rfl⟩) | ⟨x, hx, rfl⟩
      · exact h.data x hx
      · exact h.sequence x hx
      · exact h.value x hx
      · exact LawfulCodec.rt env (⟨x.tenc⟩ : Binary) (h.messages x hx).2
  · exact h.footer x hx

theorem received_data {AP : Type} (m : Message AP) :
    (if m.bodySize = 0 then [⟨[]⟩] else m.data ++ m.messages.map fun b => (⟨b.tenc⟩ : Binary)) =
      if m.data = [] ∧ m.sequence = [] ∧ m.value.isNone ∧ m.messages = [] then [⟨[]⟩]
      else m.data ++ m.messages.map fun b => (⟨enc b⟩ : Binary) := by
  by_cases hb : m.bodySize = 0
  · obtain ⟨h1, h2, h3, h4⟩ := Message.bodySize_zero hb
    rw [if_pos hb, if_pos ⟨h1, h2, by rw [h3]; rfl, h4⟩]
  · rw [if_neg hb, if_neg]
    · rfl
    · rintro ⟨h1, h2, h3, h4⟩
      rw [Option.isNone_iff_eq_none] at h3
      apply hb
      simp [Message.bodySize, h1, h2, h3, h4, bodySizeWith, sectionsSize, nestedSize]

/-- **C37** for incoming messages. -/
theorem C37_in (env : Env) (m : InMessage) (h : m.PartsRoundTrip env)
    (ha : ∀ x, m.application_properties = some x → RoundTrips env x) :
    ∃ rest, InMessage.decode env (enc m) = .ok (rest, {
      header := m.header
      delivery_annotations := m.delivery_annotations
      message_annotations := m.message_annotations
      properties := m.properties
      application_properties := m.application_properties
      footer := m.footer
      data := if m.data = [] ∧ m.sequence = [] ∧ m.value.isNone ∧ m.messages = [] then [⟨[]⟩]
        else m.data ++ m.messages.map fun b => ⟨enc b⟩
      sequence := m.sequence
      value := m.value }) := by
  have hd := decode_sections id m (h.sections ha) (fun b hb => (h.messages b hb).1)
  rw [← received_data]
  refine ⟨enc (m.sections.getLast m.sections_ne), hd.trans ?_⟩
  congr 2
  unfold Message.received
  congr 2
  cases m.application_properties <;> rfl

/-- **C37** for outgoing messages, read by a receiver as an incoming message: the
properties must have distinct keys. -/
theorem C37_out_in (env : Env) (m : OutMessage) (h : m.PartsRoundTrip env)
    (ha : ∀ x, m.application_properties = some x →
      RoundTrips env (⟨x.entries⟩ : StringVariantMap)) :
    ∃ rest, InMessage.decode env (enc m) = .ok (rest, {
      header := m.header
      delivery_annotations := m.delivery_annotations
      message_annotations := m.message_annotations
      properties := m.properties
      application_properties := m.application_properties.map fun x => ⟨x.entries⟩
      footer := m.footer
      data := if m.data = [] ∧ m.sequence = [] ∧ m.value.isNone ∧ m.messages = [] then [⟨[]⟩]
        else m.data ++ m.messages.map fun b => ⟨enc b⟩
      sequence := m.sequence
      value := m.value }) := by
  have hd := decode_sections (id : StringVariantMap → StringVariantMap) m (h.sections ha)
    (fun b hb => (h.messages b hb).1)
  rw [← received_data]
  refine ⟨enc (m.sections.getLast m.sections_ne), hd.trans ?_⟩
  congr 2

/-- **C37** for outgoing messages: the application properties come back in an
order given by the iteration over a `HashMap`, `order`. -/
theorem C37_out (env : Env) (order : StringVariantMap → List (Str × Variant)) (m : OutMessage)
    (h : m.PartsRoundTrip env)
    (ha : ∀ x, m.application_properties = some x →
      RoundTrips env (⟨x.entries⟩ : StringVariantMap))
    (hord : ∀ x : StringVariantMap, (order x).Perm x.entries) :
    ∃ rest ap, OutMessage.decode env order (enc m) = .ok (rest, {
      header := m.header
      delivery_annotations := m.delivery_annotations
      message_annotations := m.message_annotations
      properties := m.properties
      application_properties := ap
      footer := m.footer
      data := if m.data = [] ∧ m.sequence = [] ∧ m.value.isNone ∧ m.messages = [] then [⟨[]⟩]
        else m.data ++ m.messages.map fun b => ⟨enc b⟩
      sequence := m.sequence
      value := m.value }) ∧
      (m.application_properties = none → ap = none) ∧
      (∀ x, m.application_properties = some x → ∃ y, ap = some y ∧ y.entries.Perm x.entries) := by
  have hd := decode_sections (fun m => (⟨order m⟩ : VecVariantMap)) m (h.sections ha)
    (fun b hb => (h.messages b hb).1)
  rw [← received_data]
  refine ⟨_, _, hd.trans rfl, ?_, ?_⟩
  · intro hn; rw [hn]; rfl
  · intro x hx; rw [hx]; exact ⟨_, rfl, hord _⟩

/-- **C37**, nested messages: a message nested in another one is read back from
the data section it became. -/
theorem C37_nested (env : Env) (m n : InMessage) (i : Nat) (h : m.PartsRoundTrip env)
    (ha : ∀ x, m.application_properties = some x → RoundTrips env x)
    (hi : m.messages[i]? = some n.toIn) :
    ∃ rest m' d, InMessage.decode env (enc m) = .ok (rest, m') ∧
      m'.data[m.data.length + i]? = some d ∧ InMessage.decode env d.data = InMessage.decode env (enc n) := by
  obtain ⟨rest, hr⟩ := C37_in env m h ha
  refine ⟨rest, _, _, hr, ?_, rfl⟩
  have hne : m.messages ≠ [] := by intro e; rw [e] at hi; simp at hi
  show (if m.data = [] ∧ m.sequence = [] ∧ m.value.isNone ∧ m.messages = [] then [⟨[]⟩]
        else m.data ++ m.messages.map fun b => (⟨enc b⟩ : Binary))[m.data.length + i]? =
    some ⟨enc n⟩
  rw [if_neg (fun h => hne h.2.2.2), List.getElem?_append_right (by omega),
    Nat.add_sub_cancel_left, List.getElem?_map, hi]
  show some (⟨enc n.toIn⟩ : Binary) = _
  rw [Message.toIn_enc]

/-- A message with a header, properties, data and a value. -/
def richMessage : InMessage :=
  { header := some Header.sample, properties := some Properties.sample,
    data := [⟨[1, 2]⟩, ⟨[]⟩], value := some (.uint 5) }

theorem richMessage_parts : richMessage.PartsRoundTrip debugEnv where
  header x hx := by cases hx; exact C21_header _ _ (by decide)
  delivery_annotations x hx := by cases hx
  message_annotations x hx := by cases hx
  properties x hx := by cases hx; exact C21_properties _ _ (by decide) (fun _ => rfl) (fun _ => rfl)
  footer x hx := by cases hx
  data x hx := SmallRT.rt debugEnv x (by revert x; decide)
  sequence x hx := by cases hx
  value x hx := by
    cases hx
    exact C14_round_trip_partial debugEnv _ (by simp [Variant.Survives]) (by decide) (by decide)
  messages b hb := by cases hb

example : ∃ rest, InMessage.decode debugEnv (enc richMessage) = .ok (rest, richMessage) :=
  C37_in debugEnv richMessage richMessage_parts (fun x hx => by cases hx)
/-- An empty message gets an empty data section. -/
example : ∃ rest, InMessage.decode debugEnv (enc (Message.empty : InMessage)) =
    .ok (rest, Message.withBody ⟨[]⟩) :=
  C37_in debugEnv Message.empty ⟨fun _ h => (by cases h), fun _ h => (by cases h),
    fun _ h => (by cases h), fun _ h => (by cases h), fun _ h => (by cases h), fun _ h => (by cases h),
    fun _ h => (by cases h), fun _ h => (by cases h), fun _ h => (by cases h)⟩ (fun x hx => by cases hx)

/-! ## C38 -/

/-- What C38 says of incoming messages: what is left is what was not interpreted,
so nothing is left of the encoding of a message. -/
def C38_statement : Prop := ∀ (env : Env) (m m' : InMessage) (rest : Bytes),
  InMessage.decode env (enc m) = .ok (rest, m') → rest = []

/-- **C38** is violated always: whenever a message is decoded, the bytes of the
last section are reported as left over, though they have been interpreted. -/
theorem C38_violated_always {AP : Type} (env : Env) (conv : StringVariantMap → AP)
    (input rest : Bytes) (m : Message AP) (h : Message.decodeWith env conv input = .ok (rest, m)) :
    rest ≠ [] ∧ ∃ before last, input = before ++ rest ∧ Means env rest (last : Section) := by
  rw [Message.decodeWith_eq] at h
  obtain ⟨ws, l, h1, rfl, rfl, -⟩ := Message.resume_ok conv _ _ _ _ h
  obtain ⟨h2, h3⟩ := h1 l (by simp)
  exact ⟨h2, ws.flatMap Prod.fst, l.2, by simp, h3⟩

/-- **C38** is violated, for both kinds of messages. -/
theorem C38_violated (env : Env) (order : StringVariantMap → List (Str × Variant)) :
    (∀ input rest m, InMessage.decode env input = .ok (rest, m) → rest ≠ []) ∧
    (∀ input rest m, OutMessage.decode env order input = .ok (rest, m) → rest ≠ []) :=
  ⟨fun i r m h => (C38_violated_always env _ i r m h).1,
    fun i r m h => (C38_violated_always env _ i r m h).1⟩

theorem C38_violated_witness : ¬ C38_statement := by
  intro h
  obtain ⟨rest, hr⟩ := C37_in debugEnv richMessage richMessage_parts (fun x hx => by cases hx)
  exact (C38_violated_always debugEnv _ _ _ _ hr).1 (h debugEnv _ _ _ hr)

/-! ## C39 -/

theorem ofSections_concat {AP : Type} (conv : StringVariantMap → AP) (secs : List Section)
    (s : Section) : Message.ofSections conv (secs ++ [s]) =
      (Message.ofSections conv secs).addSection conv s := by
  unfold Message.ofSections
  cases s <;> simp [Message.addSection, List.filterMap_append]

theorem foldl_ofSections {AP : Type} (conv : StringVariantMap → AP) (secs : List Section) :
    secs.foldl (Message.addSection conv) Message.empty = Message.ofSections conv secs := by
  suffices h : ∀ r : List Section, r.reverse.foldl (Message.addSection conv) Message.empty =
      Message.ofSections conv r.reverse by
    have := h secs.reverse
    rwa [List.reverse_reverse] at this
  intro r
  induction r with
  | nil => rfl
  | cons s t ih => rw [List.reverse_cons, List.foldl_append, ih, ofSections_concat]; rfl

/-- **C39**: sections, in any form and any order, make up the message given by
`Message.ofSections`; `conv` is the identity for incoming messages. -/
theorem C39_sections {AP : Type} (env : Env) (conv : StringVariantMap → AP)
    (secs : List (Bytes × Section)) (hne : secs ≠ []) (h : ∀ p ∈ secs, Means env p.1 p.2) :
    ∃ rest, Message.decodeWith env conv (secs.flatMap Prod.fst) =
      .ok (rest, Message.ofSections conv (secs.map Prod.snd)) := by
  have hne' : ∀ p ∈ secs, p.1 ≠ [] := by
    intro p hp he
    have h1 := h p hp []
    rw [he] at h1
    cases h1
  have e := List.dropLast_concat_getLast hne
  have hw := Message.resume_wires (env := env) conv secs.dropLast (secs.getLast hne) Message.empty
    (by rw [e]; exact fun p hp => ⟨hne' p hp, h p hp⟩)
  rw [e, foldl_ofSections] at hw
  exact ⟨_, hw⟩

/-- **C39**: and messages are decoded only from sequences of sections. -/
theorem C39_only {AP : Type} (env : Env) (conv : StringVariantMap → AP) (input rest : Bytes)
    (m : Message AP) (h : Message.decodeWith env conv input = .ok (rest, m)) :
    ∃ secs : List (Bytes × Section), secs ≠ [] ∧ (∀ p ∈ secs, Means env p.1 p.2) ∧
      input = secs.flatMap Prod.fst ∧ m = Message.ofSections conv (secs.map Prod.snd) := by
  rw [Message.decodeWith_eq] at h
  obtain ⟨ws, l, h1, rfl, -, rfl⟩ := Message.resume_ok conv _ _ _ _ h
  exact ⟨ws ++ [l], by simp, fun p hp => (h1 p hp).2, rfl, foldl_ofSections conv _⟩

/-- **C39**: sections of different kinds can be exchanged. -/
theorem C39_exchange {AP : Type} (env : Env) (conv : StringVariantMap → AP)
    (before after : List (Bytes × Section)) (p q : Bytes × Section)
    (h : ∀ r ∈ before ++ [p, q] ++ after, Means env r.1 r.2) (hk : ¬ p.2.sameKind q.2) :
    ∃ rest rest' m,
      Message.decodeWith env conv ((before ++ [p, q] ++ after).flatMap Prod.fst) = .ok (rest, m) ∧
      Message.decodeWith env conv ((before ++ [q, p] ++ after).flatMap Prod.fst) =
        .ok (rest', (m : Message AP)) := by
  obtain ⟨r1, h1⟩ := C39_sections env conv (before ++ [p, q] ++ after) (by simp) h
  obtain ⟨r2, h2⟩ := C39_sections env conv (before ++ [q, p] ++ after) (by simp) (by
    intro r hr
    apply h
    simp only [List.mem_append, List.mem_cons, List.not_mem_nil, or_false] at hr ⊢
    rcases hr with (hr | hr | hr) | hr
    · exact .inl (.inl hr)
    · exact .inl (.inr (.inr hr))
    · exact .inl (.inr (.inl hr))
    · exact .inr hr)
  refine ⟨r1, r2, _, h1, ?_⟩
  rw [h2]
  congr 2
  have key : Message.ofSections conv ((before.map Prod.snd ++ [q.2, p.2]) ++ after.map Prod.snd) =
      Message.ofSections conv ((before.map Prod.snd ++ [p.2, q.2]) ++ after.map Prod.snd) := by
    rw [← foldl_ofSections, ← foldl_ofSections, List.foldl_append, List.foldl_append,
      List.foldl_append, List.foldl_append]
    congr 1
    simp only [List.foldl_cons, List.foldl_nil]
    generalize List.foldl _ _ _ = m
    revert hk
    generalize p.2 = s
    generalize q.2 = t
    intro hk
    cases s <;> cases t <;> first | rfl | exact absurd trivial hk
  simpa using key

/-- The value is given before the data and the header is repeated. -/
example : ∃ rest, InMessage.decode debugEnv
    ([0x00, 0x53, 0x77, 0x41] ++ [0x00, 0x53, 0x75, 0xa0, 1, 7] ++ [0x00, 0x53, 0x70, 0x45] ++
      [0x00, 0x53, 0x70, 0xc0, 2, 1, 0x41]) =
    .ok (rest, {
      value := some (.boolean true), data := [⟨[7]⟩],
      header := some ⟨true, 4, none, false, 0⟩ }) := ⟨_, rfl⟩

/-! ## C40 -/

/-- **C40**: a reply has no properties if the message has none, and otherwise
only a correlation id, the message's id; it has nothing else. -/
theorem C40_reply {AP : Type} (m : Message AP) :
    m.reply = { properties := m.properties.map fun p =>
      { message_id := none, user_id := none, to := none, subject := none, reply_to := none,
        correlation_id := p.message_id, content_type := none, content_encoding := none,
        absolute_expiry_time := none, creation_time := none, group_id := none,
        group_sequence := none, reply_to_group_id := none } } := by
  unfold Message.reply Message.ifSome
  cases m.properties <;> rfl

example : (richMessage.reply.properties.map Properties.correlation_id) =
    some (some (.String (.lit "id"))) := by rw [C40_reply]; rfl

end Amqp
