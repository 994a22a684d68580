import Verif.Spec.Growth
import Verif.Proofs.GrowthPlain
import Verif.Proofs.GrowthMessages
import Verif.Proofs.GrowthTight
import Verif.Props.Passing
/-!
# C88: what was received takes at most four times the bytes when it is sent on
-/
set_option autoImplicit false
namespace Amqp
open Dec Forwardable

/-- **C88**: a value takes at most three times the bytes. -/
theorem C88_value : GrowsTo 3 0 Variant ∧ GrowsTo 3 0 VList ∧ GrowsTo 3 0 Fields ∧
    GrowsTo 3 0 Annotations ∧ GrowsTo 3 0 StringVariantMap ∧ GrowsTo 3 0 Map ∧
    GrowsTo 3 0 FilterSet :=
  have hs := three_of_shortest shortest_symbol
  have ht := three_of_shortest shortest_str
  ⟨growsTo_variant, growsTo_list, growsTo_map hs growsTo_variant, growsTo_map hs growsTo_variant,
    growsTo_map ht growsTo_variant, growsTo_map growsTo_variant growsTo_variant,
    growsTo_map hs (growsTo_option (by omega) ht)⟩

/-- **C88**: no smaller factor will do: an empty list received as one byte takes three. -/
theorem C88_value_tight (env : Env) (h : 0 < env.stackDepth) :
    decode Variant env [0x45] = .ok ([], .list []) ∧ (enc (Variant.list [])).length = 3 := by
  refine ⟨?_, rfl⟩
  obtain ⟨n, hn⟩ : ∃ n, env.stackDepth = n + 1 := ⟨env.stackDepth - 1, by omega⟩
  have e : decode Variant env [0x45] = decVariant env env.stackDepth 0x45 [] := rfl
  rw [e, hn]
  rfl

/-- **C88**: performatives and what they consist of take at most four times the bytes, and as
many bytes more as fields that were left out take that are written by the encoder. -/
theorem C88_parts : GrowsTo 4 0 Symbols ∧ GrowsTo 4 0 Error ∧ GrowsTo 4 0 DeliveryState ∧
    GrowsTo 4 0 Outcome ∧ GrowsTo 4 19 Source ∧ GrowsTo 4 15 Target ∧ GrowsTo 4 0 Open ∧
    GrowsTo 4 0 Begin ∧ GrowsTo 4 24 Attach ∧ GrowsTo 4 0 Flow ∧ GrowsTo 4 0 TransferPerf ∧
    GrowsTo 4 0 Disposition ∧ GrowsTo 4 0 Detach ∧ GrowsTo 4 0 End ∧ GrowsTo 4 0 Close ∧
    GrowsTo 4 0 SaslFrameBody ∧ GrowsTo 4 2 Header ∧ GrowsTo 4 9 Properties ∧
    GrowsTo 4 9 Section :=
  ⟨Grows.growsTo Symbols, Grows.growsTo Error, Grows.growsTo DeliveryState, Grows.growsTo Outcome,
    Grows.growsTo Source, Grows.growsTo Target, Grows.growsTo Open, Grows.growsTo Begin,
    Grows.growsTo Attach, Grows.growsTo Flow, Grows.growsTo TransferPerf, Grows.growsTo Disposition,
    Grows.growsTo Detach, Grows.growsTo End, Grows.growsTo Close, Grows.growsTo SaslFrameBody,
    Grows.growsTo Header, Grows.growsTo Properties, fun env i r s h => by
      have h1 := Section.grows h
      have h2 : s.filled ≤ 9 := by cases s <;> simp [Section.filled]
      omega⟩

/-- **C88**: what can be passed on does not get longer, if the receiver checks for overflow. -/
theorem C88_plain (env : Env) (input rest : Bytes) (v : Variant)
    (ho : env.overflowChecks = true) (h : decode Variant env input = .ok (rest, v))
    (hp : v.Plain) : (enc v).length + rest.length ≤ input.length := plain_no_longer ho h hp

/-- **C88**: a frame takes at most four times the bytes it had on the wire.  (`input` is the
frame without its length, as the codec passes it to the decoder.) -/
theorem C88_frame (env : Env) (input rest : Bytes) (f : AmqpFrame)
    (h : AmqpFrame.decode env input = .ok (rest, f)) :
    (enc f).length + 4 * rest.length ≤ 4 * (4 + input.length) := AmqpFrame.grows h

/-- **C88**: the same for SASL frames. -/
theorem C88_sasl_frame (env : Env) (input rest : Bytes) (f : SaslFrame)
    (h : SaslFrame.decode env input = .ok (rest, f)) :
    (enc f).length + 4 * rest.length ≤ 4 * (4 + input.length) := SaslFrame.grows h

/-- **C88**: messages.  (A message without a body gets an empty data section.) -/
theorem C88_message (env : Env) (input rest : Bytes) (m : InMessage)
    (h : InMessage.decode env input = .ok (rest, m)) :
    (enc m).length ≤ 4 * input.length + 16 := InMessage.grows h

/-- **C88**: no smaller factor will do for SASL frames: on every machine there are frames as long
as one likes that miss it by 90 bytes. -/
theorem C88_sasl_tight (env : Env) (n : Nat) (h1 : 64 ≤ n) (h2 : n + 14 < 2 ^ 32) :
    ∃ input f, SaslFrame.decode env input = .ok ([], f) ∧ 4 + input.length = n + 30 ∧
      (enc f).length + 90 = 4 * (4 + input.length) := by
  refine ⟨_, _, manyMechanisms_decodes env h2, ?_, ?_⟩
  · rw [manyMechanisms_length]; omega
  · rw [manyMechanisms_length, manyMechanisms_sent h1]; omega

/-- **C88**: nor for AMQP frames. -/
theorem C88_frame_tight (env : Env) (n : Nat) (h1 : 64 ≤ n) (h2 : n + 20 < 2 ^ 32) :
    ∃ input f, AmqpFrame.decode env input = .ok ([], f) ∧ 4 + input.length = n + 36 ∧
      (enc f).length + 98 = 4 * (4 + input.length) := by
  refine ⟨_, _, manyLocales_decodes env h2, ?_, ?_⟩
  · rw [manyLocales_length]; omega
  · rw [manyLocales_length, manyLocales_sent h1]; omega

/-- **C88**: a frame within 512 bytes, which every peer must accept, may be longer when it is
sent on. -/
theorem C88_max_frame_size (env : Env) : ∃ input f, AmqpFrame.decode env input = .ok ([], f) ∧
    4 + input.length ≤ 512 ∧ 512 < (enc f).length := by
  obtain ⟨input, f, h1, h2, h3⟩ := C88_frame_tight env 400 (by decide) (by decide)
  exact ⟨input, f, h1, by omega, by omega⟩

/-! ## Connections -/

/-- The bytes of a frame's length, if they have been read before the rest of the frame. -/
def DecodeState.read : DecodeState → Nat
  | .frameHeader => 0
  | .frame _ => 4

theorem drain_grows {T : Type} [Encode T] {env : Env} {dec : Dec T}
    (hg : ∀ w a, dec w = .ok ([], a) → (enc a).length ≤ 4 * (4 + w.length))
    (st : DecodeState) (src : Bytes) :
    total (fun a => (enc a).length) (drain env dec st src).1 ≤ 4 * (src.length + st.read) := by
  induction hm : drainMeasure st src using Nat.strongRecOn generalizing st src with
  | ind n ih =>
    rcases Answer.cases_some (codecDecode env dec st src).answer with ⟨x, hx⟩ | hx
    · have e : codecDecode env dec st src = ⟨(codecDecode env dec st src).state,
        (codecDecode env dec st src).src, .some x⟩ := by rw [← hx]
      have g := ih _ (hm ▸ codecDecode_some_lt e) _ _ rfl
      rw [drain_some e]
      have key : ∀ (n : Nat) (src1 : Bytes) (s1 : DecodeState) (s2 : Bytes),
          frameStep dec n src1 = ⟨s1, s2, .some x⟩ →
          (enc x).length + 4 * (s2.length + s1.read) ≤ 4 * (4 + src1.length) := by
        intro n src1 s1 s2 h
        obtain ⟨rfl, rfl, h1, h2⟩ := frameStep_some h
        have h3 := hg _ _ h2
        rw [List.length_take] at h3
        rw [List.length_drop]
        simp only [DecodeState.read]
        omega
      have g2 : (enc x).length + 4 * ((codecDecode env dec st src).src.length +
          (codecDecode env dec st src).state.read) ≤ 4 * (src.length + st.read) := by
        cases st with
        | frame k =>
          have := key _ _ _ _ e
          simp only [DecodeState.read] at this ⊢
          omega
        | frameHeader =>
          generalize (codecDecode env dec .frameHeader src).state = s1 at e ⊢
          generalize (codecDecode env dec .frameHeader src).src = s2 at e ⊢
          simp only [codecDecode, headerLen] at e
          split at e
          · simp at e
          · split at e
            · simp at e
            · split at e
              · simp at e
              · have := key _ _ _ _ e
                rw [List.length_drop] at this
                simp only [DecodeState.read] at this ⊢
                omega
      have e2 : ∀ (a : T) (l : List T), total (fun a => (enc a).length) (a :: l) =
          (enc a).length + total (fun a => (enc a).length) l := by
        intro a l; simp [total]
      simp only [e2]
      omega
    · rw [drain_stop hx]; simp [total]

theorem received_sum {env : Env} (chunks : List Bytes) :
    total (fun f => (enc f).length) (receive env (AmqpFrame.decode env) .frameHeader [] chunks).1 ≤
      4 * chunks.flatten.length := by
  rw [receive_eq, List.nil_append]
  refine drain_grows (fun w a h => ?_) _ _
  have := AmqpFrame.grows h
  omega

theorem mem_total {α : Type} {w : α → Nat} {l : List α} {a : α} (h : a ∈ l) : w a ≤ total w l := by
  induction l with
  | nil => cases h
  | cons b t ih =>
    simp only [total, List.map_cons, List.sum_cons] at ih ⊢
    rcases List.mem_cons.1 h with rfl | h
    · omega
    · have := ih h
      omega

/-- **C88**, connections: a program that sends on every frame it receives, however the bytes came,
can write them all, and writes at most four times the bytes it received. -/
theorem C88_connection (env : Env) (slack : Growth) (chunks : List Bytes) (dst : Buf) :
    ∃ out sent, encodeAll slack (receive env (AmqpFrame.decode env) .frameHeader [] chunks).1 dst =
        .ok out ∧ out.data = dst.data ++ sent ∧ sent.length ≤ 4 * chunks.flatten.length := by
  obtain ⟨out, h1, h2⟩ := encodeAll_ok slack
    (receive env (AmqpFrame.decode env) .frameHeader [] chunks).1 dst fun f hm => by
      rw [receive_eq] at hm
      obtain ⟨w, hw⟩ := drain_decoded _ _ f hm
      have hs := Frame.size_eq f.performative (received_exact hw)
      rw [amqpFrame_enc, List.length_append, frameHeader_length]
      show _ ≤ headerLen + size f.performative
      rw [hs]
      exact Nat.le_refl _
  refine ⟨out, _, h1, h2, ?_⟩
  rw [total_flatMap]
  exact received_sum chunks

/-- **C88**, connections: the same for SASL frames. -/
theorem C88_sasl_connection (env : Env) (slack : Growth) (chunks : List Bytes) (dst : Buf) :
    ∃ out sent, encodeAll slack (receive env (SaslFrame.decode env) .frameHeader [] chunks).1 dst =
        .ok out ∧ out.data = dst.data ++ sent ∧ sent.length ≤ 4 * chunks.flatten.length := by
  obtain ⟨out, h1, h2⟩ := encodeAll_ok slack
    (receive env (SaslFrame.decode env) .frameHeader [] chunks).1 dst fun f _ => by
      have e : enc f = frameHeader (headerLen + size f.body) frameTypeSasl 0 ++ enc f.body := rfl
      rw [e, List.length_append, frameHeader_length, ← LawfulEnc.size_eq]
      exact Nat.le_refl _
  refine ⟨out, _, h1, h2, ?_⟩
  rw [total_flatMap, receive_eq, List.nil_append]
  refine drain_grows (fun w a h => ?_) _ _
  have := SaslFrame.grows h
  omega

/-- **C88**, so C62, C86 and C87 apply to all frames received if they came as less than 1 GiB: no
frame sent on reaches 4 GiB, where its length would be cut off. -/
theorem C88_short (env : Env) (chunks : List Bytes) (h : chunks.flatten.length < 2 ^ 30) :
    ∀ f ∈ (receive env (AmqpFrame.decode env) .frameHeader [] chunks).1, (enc f).length < 2 ^ 32 := by
  intro f hf
  have h1 := received_sum (env := env) chunks
  have h2 := mem_total (w := fun f => (enc f).length) hf
  omega

/-- **C88**, chains: they do not get longer at every step.  Whatever programs the frames pass
through, those that come out at the end, sent on once more, take at most four times the bytes
received at the beginning. -/
theorem C88_chain (env : Env) (chunksIn : List Bytes) (last : List AmqpFrame)
    (hl : chunksIn.flatten.length < 2 ^ 30)
    (h : Relayed (receive env (AmqpFrame.decode env) .frameHeader [] chunksIn).1 last) :
    (last.flatMap enc).length ≤ 4 * chunksIn.flatten.length := by
  obtain ⟨t, ht⟩ := C87_chain env chunksIn last (C88_short env chunksIn hl) h
  have h1 := received_sum (env := env) chunksIn
  rw [← ht, total_append] at h1
  rw [total_flatMap]
  omega

/-! ## What gets longer without need -/

/-- A map of one name and one binary as received: its size is given as 0. -/
def wrappedMap : Bytes := [0xc1, 0, 2, 0xa3, 1, 97, 0xa0, 250] ++ List.replicate 250 7

set_option maxRecDepth 100000 in
/-- **C88**: without overflow checks a map with size 0 is taken for one of 255 bytes, and written
with a longer header. -/
theorem C88_release : ∃ v, decode Variant releaseEnv wrappedMap = .ok ([], v) ∧ v.Plain ∧
    wrappedMap.length < (enc v).length := by
  refine ⟨.map [(.symbol ⟨.lit "a"⟩, .binary ⟨List.replicate 250 7⟩)], ?_, ?_, ?_⟩
  · rfl
  · simp [Variant.Plain, plainMap]
  · decide +kernel

/-! ## Frames received and sent on -/

/-- A `begin` with no more than the fields it must have: 18 bytes received, 26 sent on. -/
example : ∃ f, AmqpFrame.decode debugEnv [2, 0, 0, 0, 0x00, 0x53, 0x11, 0xc0, 5, 4, 0x40, 0x43, 0x43, 0x43] =
    .ok ([], f) ∧ (enc f).length = 26 ∧ (enc f).length ≤ 4 * (4 + 14) := by
  refine ⟨_, rfl, rfl, ?_⟩
  exact (C88_frame debugEnv [2, 0, 0, 0, 0x00, 0x53, 0x11, 0xc0, 5, 4, 0x40, 0x43, 0x43, 0x43] [] _ rfl)

/-- A map with a list in it: 7 bytes received, 9 sent on. -/
example : ∃ v, decode Variant debugEnv [0xc1, 5, 2, 0xa3, 1, 97, 0x45] = .ok ([], v) ∧
    (enc v).length = 9 ∧ (enc v).length ≤ 3 * 7 := by
  refine ⟨_, rfl, rfl, ?_⟩
  exact C88_value.1 debugEnv [0xc1, 5, 2, 0xa3, 1, 97, 0x45] [] _ rfl

example : ∃ v, decode Variant debugEnv [0xc1, 5, 2, 0xa3, 1, 97, 0x40] = .ok ([], v) ∧ (enc v).length ≤ 7 :=
  ⟨.map [(.symbol ⟨.lit "a"⟩, .null)], rfl,
    C88_plain debugEnv [0xc1, 5, 2, 0xa3, 1, 97, 0x40] []
      (.map [(.symbol ⟨.lit "a"⟩, .null)]) rfl rfl (by simp [Variant.Plain, plainMap])⟩
example : ∃ f, SaslFrame.decode debugEnv [2, 1, 0, 0, 0x00, 0x53, 0x44, 0xc0, 3, 1, 0x50, 0] = .ok ([], f) ∧
    (enc f).length ≤ 64 :=
  ⟨_, rfl, C88_sasl_frame debugEnv [2, 1, 0, 0, 0x00, 0x53, 0x44, 0xc0, 3, 1, 0x50, 0] [] _ rfl⟩
example : ∃ r m, InMessage.decode debugEnv [0x00, 0x53, 0x75, 0xa0, 2, 1, 2] = .ok (r, m) ∧ (enc m).length ≤ 44 :=
  ⟨_, _, rfl, C88_message debugEnv [0x00, 0x53, 0x75, 0xa0, 2, 1, 2] _ _ rfl⟩
example : ∃ input f, SaslFrame.decode debugEnv input = .ok ([], f) ∧ 4 + input.length = 130 ∧
      (enc f).length + 90 = 4 * (4 + input.length) := C88_sasl_tight debugEnv 100 (by decide) (by decide)
example : ∃ input f, AmqpFrame.decode debugEnv input = .ok ([], f) ∧ 4 + input.length = 136 ∧
      (enc f).length + 98 = 4 * (4 + input.length) := C88_frame_tight debugEnv 100 (by decide) (by decide)
example : ∀ f ∈ (receive debugEnv (AmqpFrame.decode debugEnv) .frameHeader []
      [[0, 0, 0, 8, 2, 0], [0, 1]]).1, (enc f).length < 2 ^ 32 :=
  C88_short debugEnv [[0, 0, 0, 8, 2, 0], [0, 1]] (by decide)
/-- Nobody in between. -/
example : ((receive debugEnv (AmqpFrame.decode debugEnv) .frameHeader []
      [[0, 0, 0, 12, 3, 0], [0, 1, 9, 9, 9, 9]]).1.flatMap enc).length ≤ 4 * 12 :=
  C88_chain debugEnv [[0, 0, 0, 12, 3, 0], [0, 1, 9, 9, 9, 9]] _ (by decide) (.start _)

end Amqp
