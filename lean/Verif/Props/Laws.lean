import Verif.Spec.Types
import Verif.Proofs.IoLaws
import Verif.Props.Scalars
import Verif.Props.Times
/-!
# Laws shared by all codecs

C03 (sizes), C05 (prefixes), C06 (truncation), C07 (unambiguity), C08 (scalar
decoders do not panic), C45 (re-encoding).
-/
set_option autoImplicit false
namespace Amqp
open Dec

theorem everyType {P : ∀ (α : Type) [Encode α] [DecodeF α], Prop}
    (h : ∀ (α : Type) [Encode α] [DecodeF α] [LawfulEnc α] [LawfulDec α], P α) : EveryType P :=
  ⟨h _, h _, h _, h _, h _, h _, h _, h _, h _, h _, h _, h _, h _, h _, h _, h _, h _, h _, h
  _, h _, h _, h _, h _, h _, h _, h _, h _, h _, h _, h _, h _, h _, h _, h _, h _, h _, h _,
  h _, h _, h _, h _, h _, h _, h _, h _, h _, h _, h _, h _, h _, h _, h _, h _, h _, h _, h
  _, h _, h _, h _, h _, h _, h _⟩

/-! ## C03 -/

/-- **C03.** For every value of every type, `encoded_size` is the number of
bytes `encode` writes. -/
theorem C03_size_exact : EveryType (fun α _ _ => SizeExact α) :=
  everyType fun _ _ _ _ _ v => LawfulEnc.size_eq v

/-- **C03** for the generic types: options, arrays, multiple values and maps
inherit it from what they contain. -/
theorem C03_size_exact_generic :
    (∀ (α : Type) [Encode α], SizeExact α → SizeExact (Option α)) ∧
    (∀ (α : Type) [ArrayEncode α], (∀ v : α, asize v = (aenc v).length) → SizeExact (Vec α)) ∧
    (∀ (α : Type) [Encode α] [ArrayEncode α], SizeExact α →
      (∀ v : α, asize v = (aenc v).length) → SizeExact (Multiple α)) ∧
    (∀ (K V : Type) [Encode K] [Encode V], SizeExact K → SizeExact V → SizeExact (HMap K V)) := by
  have hc : ∀ (α : Type) [ArrayEncode α], (∀ v : α, asize v = (aenc v).length) →
      ∀ l : List α, arrayContentSize l = (arrayContent l).length := by
    intro α _ h l
    induction l with
    | nil => rfl
    | cons a t ih => simp [arrayContentSize, arrayContent, h, ih]
  have hv : ∀ (α : Type) [ArrayEncode α], (∀ v : α, asize v = (aenc v).length) →
      SizeExact (Vec α) := by
    intro α _ h v
    simp only [size, enc, hc α h]; split <;> simp <;> omega
  refine ⟨fun α _ h o => ?_, hv, fun α _ _ h1 h2 m => ?_, fun K V _ _ hk hv' m => ?_⟩
  · cases o with
    | none => rfl
    | some v => exact h v
  · obtain ⟨items⟩ := m
    simp only [size, enc]
    split
    · exact h1 _
    · exact hv α h2 (Vec.mk items)
  · have := mapContent_length (ks := size) (vs := size) (ke := enc) (ve := enc) m.entries
      (fun e _ => hk _) (fun e _ => hv' _)
    have h2 := compoundHdr_length FC.map8 FC.map32 (mapContentSize size size m.entries)
      (m.entries.length * 2)
    show compoundSize (mapContentSize size size m.entries) = (_ ++ _ : Bytes).length
    rw [← h2, List.length_append, ← this]

/-- A message anywhere in the body makes sizes inexact (C35); a data body does not. -/
def Transfer.NoMessage (t : Transfer) : Prop := ∀ b, t.body = some b → ∃ d, b = .Data d

/-- **C03** for transfers, frames and the two kinds of complete frames, as long
as a transfer carries no message built in memory (C35). -/
theorem C03_size_exact_frames :
    (∀ t : Transfer, t.NoMessage → size t = (enc t).length) ∧
    (∀ f : Frame, (∀ t, f = .Transfer t → t.NoMessage) → size f = (enc f).length) ∧
    (∀ f : AmqpFrame, (∀ t, f.performative = .Transfer t → t.NoMessage) →
      size f = (enc f).length) ∧
    (∀ f : SaslFrame, size f = (enc f).length) := by
  have ht : ∀ t : Transfer, t.NoMessage → ∀ b, t.body = some b → b.Exact := by
    intro t h b hb
    obtain ⟨d, rfl⟩ := h b hb
    rfl
  have hf : ∀ f : Frame, (∀ t, f = .Transfer t → t.NoMessage) → size f = (enc f).length :=
    fun f h => Frame.size_eq f fun t b e hb => ht t (h t e) b hb
  refine ⟨fun t h => Transfer.size_eq t (ht t h), hf, fun f h => ?_, fun f => ?_⟩
  · show headerLen + size f.performative = (frameHeader _ _ _ ++ _ : Bytes).length
    rw [hf f.performative h]; simp [frameHeader, headerLen]; omega
  · show headerLen + size f.body = (frameHeader _ _ _ ++ _ : Bytes).length
    rw [LawfulEnc.size_eq f.body]; simp [frameHeader, headerLen]; omega

/-- An attach-like value with a 32-bit list header, and a map. -/
example : (enc (⟨[(.lit "k", .uint 7)]⟩ : VecVariantMap)) =
      [0xc1, 6, 2, 0xa1, 1, 107, 0x52, 7] ∧
    size (⟨[(.lit "k", .uint 7)]⟩ : VecVariantMap) = 8 := by decide

/-! ## C05 -/

/-- **C05.** Decoding reads a non-empty prefix of its input and does not look at
what follows, for every type. -/
theorem C05_reads_prefix : EveryType (fun α _ _ => ReadsPrefix α) := by
  refine everyType fun α _ _ _ _ env i r v h => ?_
  obtain ⟨w, rfl, k⟩ := loc_decode env i r v h
  refine ⟨w, ?_, rfl, k⟩
  rintro rfl
  have := progress_decode (fun f => LawfulDec.loc env f) _ _ _ h
  simp at this

/-- A successful `decF`, the decoder proper, behaves the same way; it may consume
nothing after the format code. -/
def ItemReadsPrefix (α : Type) [DecodeF α] : Prop :=
  ∀ (env : Env) (fmt : UInt8) (input rest : Bytes) (v : α), decF env fmt input = .ok (rest, v) →
    ∃ used, input = used ++ rest ∧ ∀ more, decF env fmt (used ++ more) = .ok (more, v)

theorem ReadsPrefix.of_item {α : Type} [DecodeF α] (h : ItemReadsPrefix α) : ReadsPrefix α := by
  intro env i r v hd
  obtain ⟨c, t, rfl, ht⟩ := decode_ok hd
  obtain ⟨w, rfl, k⟩ := h env c t r v ht
  exact ⟨c :: w, by simp, rfl, k⟩

theorem ReadsPrefix.item {α : Type} [DecodeF α] (h : ReadsPrefix α) : ItemReadsPrefix α := by
  intro env c t r v hd
  obtain ⟨w, hw, e, k⟩ := h env (c :: t) r v hd
  cases w with
  | nil => exact absurd rfl hw
  | cons c' w => injection e with e1 e2; subst e1; exact ⟨w, e2, k⟩

/-- **C05** for the generic types: options, arrays and multiple values inherit it
from their items; maps have it whatever they contain, since the decoder is
confined to the declared number of bytes. -/
theorem C05_reads_prefix_generic :
    (∀ (α : Type) [DecodeF α], ReadsPrefix α →
      ReadsPrefix (Option α) ∧ ReadsPrefix (Vec α) ∧ ReadsPrefix (Multiple α)) ∧
    (∀ (K V : Type) [HKey K] [DecodeF K] [DecodeF V], ReadsPrefix (HMap K V)) := by
  have key : ∀ (α : Type) [DecodeF α] [LawfulDec α], ReadsPrefix α := by
    intro α _ _ env i r v h
    obtain ⟨w, rfl, k⟩ := loc_decode env i r v h
    refine ⟨w, ?_, rfl, k⟩
    rintro rfl
    have := progress_decode (fun f => LawfulDec.loc env f) _ _ _ h
    simp at this
  refine ⟨fun α _ h => ?_, fun K V _ _ _ => key _⟩
  haveI : LawfulDec α := ⟨fun env fmt i r v hd => h.item env fmt i r v hd⟩
  exact ⟨key _, key _, key _⟩

example : decode Variant debugEnv [0xc1, 6, 2, 0xa1, 1, 107, 0x52, 7, 1, 2, 3] =
    .ok ([1, 2, 3], .map [(.string (.lit "k"), .uint 7)]) := rfl

/-! ## C06 -/

/-- If a byte string decodes as a whole, none of its proper prefixes decodes. -/
def NoTruncation (α : Type) [DecodeF α] : Prop :=
  ∀ (env : Env) (w : Bytes) (v : α), decode α env w = .ok ([], v) →
    ∀ p s, w = p ++ s → s ≠ [] → ∀ r, decode α env p ≠ .ok r

theorem ReadsPrefix.noTruncation {α : Type} [DecodeF α] (h : ReadsPrefix α) : NoTruncation α := by
  rintro env w v hw p s rfl hs ⟨r, a⟩ hp
  obtain ⟨u, _, rfl, k⟩ := h env p r a hp
  rw [List.append_assoc, k] at hw
  injection hw with hw; injection hw with hw _
  simp at hw
  exact hs hw.2

/-- **C06.** A truncated encoding is never accepted, whichever encoding of the
value was used. -/
theorem C06_no_truncation : EveryType (fun α _ _ => NoTruncation α) := by
  refine everyType fun α _ _ _ _ => ReadsPrefix.noTruncation fun env i r v h => ?_
  obtain ⟨w, rfl, k⟩ := loc_decode env i r v h
  refine ⟨w, ?_, rfl, k⟩
  rintro rfl
  have := progress_decode (fun f => LawfulDec.loc env f) _ _ _ h
  simp at this

/-- **C06** for the generic types. -/
theorem C06_no_truncation_generic :
    (∀ (α : Type) [DecodeF α], ReadsPrefix α →
      NoTruncation (Option α) ∧ NoTruncation (Vec α) ∧ NoTruncation (Multiple α)) ∧
    (∀ (K V : Type) [HKey K] [DecodeF K] [DecodeF V], NoTruncation (HMap K V)) :=
  ⟨fun α _ h => have g := C05_reads_prefix_generic.1 α h
     ⟨g.1.noTruncation, g.2.1.noTruncation, g.2.2.noTruncation⟩,
   fun K V _ _ _ => (C05_reads_prefix_generic.2 K V).noTruncation⟩

/-- **C06** for what the encoder writes: cutting any number of bytes off the end
of the encoding of a value that round-trips leaves something not decodable. -/
theorem C06_encoder_output {α : Type} [Encode α] [DecodeF α] (hα : ReadsPrefix α) (env : Env)
    (v : α) (h : RoundTrips env v) (n : Nat) (hn : n < (enc v).length) :
    ∀ r, decode α env ((enc v).take n) ≠ .ok r := by
  have h0 := h []
  rw [List.append_nil] at h0
  refine hα.noTruncation env (enc v) v h0 _ ((enc v).drop n) (List.take_append_drop n _).symm ?_
  intro h
  have := congrArg List.length h
  simp at this; omega

example : decode Symbol debugEnv (enc (Symbol.mk (.lit "abc"))) = .ok ([], ⟨.lit "abc"⟩) ∧
    decode Symbol debugEnv ((enc (Symbol.mk (.lit "abc"))).take 4) = .err (.incomplete 3) := by
  decide

/-! ## C07 -/

/-- **C07.** Encodings are injective and prefix-free. -/
theorem C07_unambiguous {α : Type} [Encode α] [DecodeF α] (env : Env) (v w : α) (m n : Bytes)
    (hv : RoundTrips env v) (hw : RoundTrips env w) (h : enc v ++ m = enc w ++ n) :
    v = w ∧ m = n :=
  Reads.inj hv hw h

/-- Decode one value after the other, as often as `n` says. -/
def decodeSeq (α : Type) [DecodeF α] (env : Env) : Nat → Bytes → Res ParseError (Bytes × List α)
  | 0, i => .ok (i, [])
  | n + 1, i => match decode α env i with
    | .ok (r, v) => match decodeSeq α env n r with
      | .ok (r', vs) => .ok (r', v :: vs)
      | .err e => .err e
      | .panic p => .panic p
    | .err e => .err e
    | .panic p => .panic p

/-- **C07.** A concatenation of encodings decodes back to exactly the sequence of values. -/
theorem C07_sequence {α : Type} [Encode α] [DecodeF α] (env : Env) (vs : List α)
    (h : ∀ v ∈ vs, RoundTrips env v) (rest : Bytes) :
    decodeSeq α env vs.length (vs.flatMap enc ++ rest) = .ok (rest, vs) := by
  induction vs with
  | nil => rfl
  | cons v t ih =>
    have h1 := h v (by simp) (t.flatMap enc ++ rest)
    simp only [List.length_cons, decodeSeq, List.flatMap_cons, List.append_assoc, h1,
      ih (fun v hv => h v (by simp [hv]))]

/-- **C07.** Sequences of values, of whatever lengths, with the same concatenated
encodings are the same. -/
theorem C07_sequence_unambiguous {α : Type} [Encode α] [DecodeF α] (env : Env) (vs ws : List α)
    (hv : ∀ v ∈ vs, RoundTrips env v) (hw : ∀ w ∈ ws, RoundTrips env w)
    (h : vs.flatMap enc = ws.flatMap enc) : vs = ws := by
  have ne : ∀ v : α, RoundTrips env v → enc v ≠ [] := by
    intro v hv e
    have := hv []
    rw [e] at this
    cases this
  induction vs generalizing ws with
  | nil =>
    cases ws with
    | nil => rfl
    | cons w t => simp at h; exact absurd h.1 (ne w (hw w (by simp)))
  | cons v t ih =>
    cases ws with
    | nil => simp at h; exact absurd h.1 (ne v (hv v (by simp)))
    | cons w t' =>
      simp only [List.flatMap_cons] at h
      obtain ⟨rfl, h2⟩ := C07_unambiguous env v w _ _ (hv v (by simp)) (hw w (by simp)) h
      rw [ih t' (fun v hv' => hv v (by simp [hv'])) (fun v hv' => hw v (by simp [hv'])) h2]

example : decodeSeq UInt32 debugEnv 3 [0x43, 0x52, 9, 0x70, 0, 0, 1, 0, 5] =
    .ok ([5], [0, 9, 256]) := by decide

/-! ## C08 -/

/-- **C08.** The decoders of fixed-width types, text, descriptors, message ids,
enumerations and conditions return `Ok` or `Err` on every input. -/
theorem C08_never_panics :
    NeverPanics Bool ∧ NeverPanics UInt8 ∧ NeverPanics UInt16 ∧ NeverPanics UInt32 ∧
    NeverPanics UInt64 ∧ NeverPanics Int8 ∧ NeverPanics Int16 ∧ NeverPanics Int32 ∧
    NeverPanics Int64 ∧ NeverPanics F32 ∧ NeverPanics F64 ∧ NeverPanics Char ∧ NeverPanics Uuid ∧
    NeverPanics Binary ∧ NeverPanics Str ∧ NeverPanics Symbol ∧ NeverPanics Descriptor ∧
    NeverPanics MessageId ∧ NeverPanics Role ∧ NeverPanics SenderSettleMode ∧
    NeverPanics ReceiverSettleMode ∧ NeverPanics AmqpError ∧ NeverPanics ConnectionError ∧
    NeverPanics SessionError ∧ NeverPanics LinkError ∧ NeverPanics SaslCode ∧
    NeverPanics TerminusDurability ∧ NeverPanics TerminusExpiryPolicy ∧
    NeverPanics ErrorCondition ∧ NeverPanics DistributionMode := by
  have key : ∀ (α : Type) [DecodeF α] [SafeDec α], NeverPanics α := fun α _ _ env i p =>
    safe_decode (fun f => SafeDec.safe env f) i p
  exact ⟨key _, key _, key _, key _, key _, key _, key _, key _, key _, key _, key _, key _, key _,
    key _, key _, key _, key _, key _, key _, key _, key _, key _, key _, key _, key _, key _,
    key _, key _, key _, key _⟩

/-- **C08.** An optional value panics only if the value itself does. -/
theorem C08_optional (α : Type) [DecodeF α] (h : NeverPanics α) : NeverPanics (Option α) := by
  intro env i p
  cases i with
  | nil => intro h; cases h
  | cons c t =>
    have := fun p => h env (c :: t) p
    simp only [decode_cons] at this ⊢
    by_cases hc : c = FC.null
    · rw [show decF (α := Option α) env c t = .ok (t, none) from by
        rw [show decF (α := Option α) env c = pure none from if_pos hc]; rfl]
      simp
    · rw [show decF (α := Option α) env c = some <$> decF env c from if_neg hc, run_map]
      cases hd : decF (α := α) env c t with
      | ok q => simp
      | err e => simp
      | panic p => exact absurd hd (this p)

/-- Timestamps are the one fixed-width type that is not in the list (C12). -/
example : decode DateTime releaseEnv [0x83, 0x7f, 0xff, 0xff, 0xff, 0xff, 0xff, 0xff, 0xff] =
    .panic .timestampRange := by decide

/-! ## C45 -/

/-- Every value that comes out of the decoder survives being encoded and decoded
again. -/
def DecodedRoundTrips (α : Type) [Encode α] [DecodeF α] : Prop :=
  ∀ (env : Env) (input rest : Bytes) (v : α), decode α env input = .ok (rest, v) →
    RoundTrips env v

theorem decoded_text8 {i r b : Bytes} (h : readBytesU8 i = .ok (r, b)) : b.length < 2 ^ 32 := by
  have := (readBytesU8_ok h).1; omega

theorem decoded_binary : DecodedRoundTrips Binary := by
  intro env i r v h
  obtain ⟨c, t, rfl, hd⟩ := decode_ok h
  refine LawfulCodec.rt env v ?_
  show v.data.length < 2 ^ 32
  simp only [decF] at hd
  split at hd
  · obtain ⟨b, g, rfl⟩ := map_eq_ok.1 hd; exact decoded_text8 g
  · split at hd
    · obtain ⟨b, g, rfl⟩ := map_eq_ok.1 hd; exact (readBytesU32_ok g).1
    · cases hd

theorem decoded_str_len {env : Env} {i r : Bytes} {v : Str} (h : decode Str env i = .ok (r, v)) :
    v.bytes.length < 2 ^ 32 := by
  obtain ⟨c, t, rfl, hd⟩ := decode_ok h
  simp only [decF] at hd
  split at hd
  · obtain ⟨r', b, h, h2⟩ := bind_eq_ok.1 hd
    obtain ⟨rfl, rfl⟩ := fromUtf8_ok h2
    exact decoded_text8 h
  · split at hd
    · obtain ⟨r', b, h, h2⟩ := bind_eq_ok.1 hd
      obtain ⟨rfl, rfl⟩ := fromUtf8_ok h2
      exact (readBytesU32_ok h).1
    · cases hd

theorem decoded_symbol_len {env : Env} {i r : Bytes} {v : Symbol}
    (h : decode Symbol env i = .ok (r, v)) : v.str.bytes.length < 2 ^ 32 := by
  obtain ⟨c, t, rfl, hd⟩ := decode_ok h
  simp only [decF] at hd
  split at hd
  · obtain ⟨s, g, rfl⟩ := map_eq_ok.1 hd
    obtain ⟨r', b, h, h2⟩ := bind_eq_ok.1 g
    obtain ⟨rfl, rfl⟩ := fromUtf8_ok h2
    exact decoded_text8 h
  · split at hd
    · obtain ⟨s, g, rfl⟩ := map_eq_ok.1 hd
      obtain ⟨r', b, h, h2⟩ := bind_eq_ok.1 g
      obtain ⟨rfl, rfl⟩ := fromUtf8_ok h2
      exact (readBytesU32_ok h).1
    · cases hd

theorem decoded_datetime : DecodedRoundTrips DateTime := by
  intro env i r v h
  obtain ⟨c, t, rfl, hd⟩ := decode_ok h
  obtain ⟨_, hd⟩ := validateCode_ok hd
  obtain ⟨r', n, _, hd⟩ := bind_eq_ok.1 hd
  generalize (UInt64.ofNat n).toInt64.toInt = m at hd
  rw [C12_round_trip_iff]
  rw [datetimeFromMillis_eq] at hd
  have key : ∀ (s : Int) (n : Nat) i, utcTimestamp s n i = .ok (r, v) → v.secs = s ∧ v.nanos = n := by
    intro s n i hs
    rw [utcTimestamp] at hs
    split at hs
    · injection hs with hs; injection hs with _ hs; subst hs; exact ⟨rfl, rfl⟩
    · cases hs
  split at hd
  · have := key _ _ _ hd; omega
  · split at hd
    · have := key _ _ _ hd; omega
    · have := key _ _ _ hd; omega

theorem decoded_messageId : DecodedRoundTrips MessageId := by
  intro env i r v h
  obtain ⟨c, t, rfl, hd⟩ := decode_ok h
  refine LawfulCodec.rt env v ?_
  have h2 : (∃ u, v = .Ulong u) ∨ (∃ u, v = .Uuid u) ∨
      (∃ u, v = .Binary u ∧ decF env c t = .ok (r, u)) ∨
      (∃ u, v = .String u ∧ decF env c t = .ok (r, u)) := by
    simp only [decF] at hd
    split at hd
    · obtain ⟨b, g, rfl⟩ := map_eq_ok.1 hd; exact .inl ⟨_, rfl⟩
    · split at hd
      · obtain ⟨b, g, rfl⟩ := map_eq_ok.1 hd; exact .inr (.inl ⟨_, rfl⟩)
      · split at hd
        · obtain ⟨b, g, rfl⟩ := map_eq_ok.1 hd; exact .inr (.inr (.inl ⟨_, rfl, g⟩))
        · split at hd
          · obtain ⟨b, g, rfl⟩ := map_eq_ok.1 hd; exact .inr (.inr (.inr ⟨_, rfl, g⟩))
          · cases hd
  rcases h2 with ⟨u, rfl⟩ | ⟨u, rfl⟩ | ⟨u, rfl, g⟩ | ⟨u, rfl, g⟩
  · trivial
  · trivial
  · have := decoded_binary env (c :: t) r u g
    simp only [decF] at g
    show u.data.length < 2 ^ 32
    split at g
    · obtain ⟨b, g', rfl⟩ := map_eq_ok.1 g; exact decoded_text8 g'
    · split at g
      · obtain ⟨b, g', rfl⟩ := map_eq_ok.1 g; exact (readBytesU32_ok g').1
      · cases g
  · exact decoded_str_len (env := env) (i := c :: t) g

theorem decoded_errorCondition : DecodedRoundTrips ErrorCondition := by
  intro env i r v h
  rw [decode_errorCondition] at h
  obtain ⟨s, g, rfl⟩ := map_eq_ok.1 h
  refine LawfulCodec.rt env (ErrorCondition.ofSymbol s) ⟨?_, fun s' hs' => ?_⟩
  · rw [ErrorCondition.symbol_ofSymbol]; exact decoded_symbol_len g
  · have := ErrorCondition.symbol_ofSymbol s
    rw [hs'] at this
    have e : s' = s := this
    subst e; exact hs'

theorem decoded_distributionMode : DecodedRoundTrips DistributionMode := by
  intro env i r v h
  rw [decode_distributionMode] at h
  obtain ⟨s, g, rfl⟩ := map_eq_ok.1 h
  refine LawfulCodec.rt env (DistributionMode.ofSymbol s) ⟨?_, fun s' hs' => ?_⟩
  · rw [DistributionMode.symbol_ofSymbol]; exact decoded_symbol_len g
  · have := DistributionMode.symbol_ofSymbol s
    rw [hs'] at this
    have e : s' = s := this
    subst e; exact hs'

/-- **C45** for scalars, text, message ids, conditions: decode, encode, decode is
decode, also from inputs the encoder itself would not have written. -/
theorem C45_decoded_round_trips :
    DecodedRoundTrips Bool ∧ DecodedRoundTrips UInt8 ∧ DecodedRoundTrips UInt16 ∧
    DecodedRoundTrips UInt32 ∧ DecodedRoundTrips UInt64 ∧ DecodedRoundTrips Int8 ∧
    DecodedRoundTrips Int16 ∧ DecodedRoundTrips Int32 ∧ DecodedRoundTrips Int64 ∧
    DecodedRoundTrips F32 ∧ DecodedRoundTrips F64 ∧ DecodedRoundTrips Char ∧
    DecodedRoundTrips Uuid ∧ DecodedRoundTrips DateTime ∧ DecodedRoundTrips Binary ∧
    DecodedRoundTrips Str ∧ DecodedRoundTrips Symbol ∧ DecodedRoundTrips MessageId ∧
    DecodedRoundTrips ErrorCondition ∧ DecodedRoundTrips DistributionMode :=
  ⟨fun env _ _ v _ => LawfulCodec.rt env v trivial, fun env _ _ v _ => LawfulCodec.rt env v trivial,
   fun env _ _ v _ => LawfulCodec.rt env v trivial, fun env _ _ v _ => LawfulCodec.rt env v trivial,
   fun env _ _ v _ => LawfulCodec.rt env v trivial, fun env _ _ v _ => LawfulCodec.rt env v trivial,
   fun env _ _ v _ => LawfulCodec.rt env v trivial, fun env _ _ v _ => LawfulCodec.rt env v trivial,
   fun env _ _ v _ => LawfulCodec.rt env v trivial, fun env _ _ v _ => LawfulCodec.rt env v trivial,
   fun env _ _ v _ => LawfulCodec.rt env v trivial, fun env _ _ v _ => LawfulCodec.rt env v trivial,
   fun env _ _ v _ => LawfulCodec.rt env v trivial, decoded_datetime, decoded_binary,
   fun env _ _ v h => LawfulCodec.rt env v (decoded_str_len h),
   fun env _ _ v h => LawfulCodec.rt env v (decoded_symbol_len h), decoded_messageId,
   decoded_errorCondition, decoded_distributionMode⟩

theorem shortest_f32 : ShortestEncoding F32 := by
  refine shortest_of_fixed 4 (fun _ => by simp [enc, aenc]) fun env c i r v h => ?_
  obtain ⟨_, h⟩ := validateCode_ok h
  obtain ⟨b, h, _⟩ := map_eq_ok.1 h
  obtain ⟨b, rfl, hl, _⟩ := readBE_ok h
  simp; omega
theorem shortest_f64 : ShortestEncoding F64 := by
  refine shortest_of_fixed 8 (fun _ => by simp [enc, aenc]) fun env c i r v h => ?_
  obtain ⟨_, h⟩ := validateCode_ok h
  obtain ⟨b, h, _⟩ := map_eq_ok.1 h
  obtain ⟨b, rfl, hl, _⟩ := readBE_ok h
  simp; omega
theorem shortest_char : ShortestEncoding Char := by
  refine shortest_of_fixed 4 (fun _ => by simp [enc, aenc]) fun env c i r v h => ?_
  obtain ⟨_, h⟩ := validateCode_ok h
  obtain ⟨r', b, h, h2⟩ := bind_eq_ok.1 h
  obtain ⟨b, rfl, hl, _⟩ := readBE_ok h
  cases ho : charFromU32 (beDec b) with
  | some x =>
    simp only [*] at h2
    injection h2 with h2; injection h2 with h2 _; subst h2
    simp; omega
  | none => simp only [*] at h2; cases h2
theorem shortest_datetime : ShortestEncoding DateTime := by
  refine shortest_of_fixed 8 (fun _ => by simp [enc, aenc]) fun env c i r v h => ?_
  obtain ⟨_, h⟩ := validateCode_ok h
  obtain ⟨r', b, h, h2⟩ := bind_eq_ok.1 h
  obtain ⟨b, rfl, hl, _⟩ := readBE_ok h
  have key : ∀ s n, utcTimestamp s n r' = .ok (r, v) → r = r' := by
    intro s n hs
    rw [utcTimestamp] at hs
    split at hs
    · injection hs with hs; injection hs with hs _; exact hs.symm
    · cases hs
  have : r = r' := by
    unfold datetimeFromMillis at h2
    split at h2
    · exact key _ _ h2
    · exact key _ _ h2
  subst this
  simp; omega
theorem shortest_uuid : ShortestEncoding Uuid := by
  refine shortest_of_fixed 16 (fun v => by simp [enc, aenc, v.len]) fun env c i r v h => ?_
  obtain ⟨_, h⟩ := validateCode_ok h
  obtain ⟨r', b, h, h2⟩ := bind_eq_ok.1 h
  obtain ⟨rfl, hl⟩ := takeN_ok h
  rw [uuidOf, dif_pos hl] at h2
  injection h2 with h2; injection h2 with h2 _; subst h2
  simp; omega

/-- **C45.** The re-encoding of a scalar or text is never longer than the bytes
it was decoded from (for integers, booleans and text this is C04). -/
theorem C45_not_longer :
    ShortestEncoding F32 ∧ ShortestEncoding F64 ∧ ShortestEncoding Char ∧
    ShortestEncoding DateTime ∧ ShortestEncoding Uuid :=
  ⟨shortest_f32, shortest_f64, shortest_char, shortest_datetime, shortest_uuid⟩

example : decode UInt64 debugEnv [0x80, 0, 0, 0, 0, 0, 0, 0, 5, 9] = .ok ([9], 5) ∧
    enc (5 : UInt64) = [0x53, 5] := by decide

end Amqp
