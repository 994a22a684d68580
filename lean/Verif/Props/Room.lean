import Verif.Proofs.RoomLaws
import Verif.Proofs.ListInstances
import Verif.Proofs.FrameLaws
/-!
# C79: the room encoding needs
-/
set_option autoImplicit false
namespace Amqp
open Spec

/-- **C79**: with room for the encoding, `encode` succeeds, appends exactly the
encoding, and leaves the buffer where it is: its capacity does not change. -/
theorem C79_room {ε α : Type} [Encode α] [EncodeW α] (grow : Growth) (v : α) (b : Buf)
    (h : (enc v).length ≤ b.remainingMut) :
    ∃ b', (encodeInto grow v b : Res ε Buf) = .ok b' ∧ b'.data = b.data ++ enc v ∧
      b'.capacity = b.capacity := by
  have := Buf.run_ok (ε := ε) grow (writes v) b (by rw [EncodeW.output]; exact h)
  rw [EncodeW.output] at this
  exact this

/-- **C79**: a new buffer of `encoded_size` bytes is enough, and it is full afterwards. -/
theorem C79_exact_size {ε α : Type} [Encode α] [EncodeW α] [LawfulEnc α] (grow : Growth) (v : α) :
    ∃ b', (encodeInto grow v ⟨[], size v, Nat.zero_le _⟩ : Res ε Buf) = .ok b' ∧
      b'.data = enc v ∧ b'.capacity = size v ∧ b'.remainingMut = 0 := by
  obtain ⟨b', h1, h2, h3⟩ := C79_room (ε := ε) grow v ⟨[], size v, Nat.zero_le _⟩ (by
    rw [← LawfulEnc.size_eq]; exact Nat.le_refl _)
  refine ⟨b', h1, h2, h3, ?_⟩
  unfold Buf.remainingMut
  rw [h2, h3, LawfulEnc.size_eq]
  simp

/-- **C79**: without that room, what is in the buffer is never cut short: either there is a
panic, or everything has been appended. -/
theorem C79_all_or_panic {ε α : Type} [Encode α] [EncodeW α] (grow : Growth) (v : α) (b : Buf) :
    (∃ b', (encodeInto grow v b : Res ε Buf) = .ok b' ∧ b'.data = b.data ++ enc v) ∨
    ((encodeInto grow v b : Res ε Buf) = .panic .bufferFull ∧ b.remainingMut < (enc v).length) := by
  have := Buf.run_cases (ε := ε) grow (writes v) b
  rw [EncodeW.output] at this
  exact this

/-- Encoding `v` panics in every buffer that has no room for it, whatever its
allocation policy. -/
def PanicsWithoutRoom {α : Type} [Encode α] [EncodeW α] (v : α) : Prop :=
  ∀ (grow : Growth) (b : Buf), b.remainingMut < (enc v).length →
    (encodeInto grow v b : Res CodecError Buf) = .panic .bufferFull

theorem AllPuts.panics {α : Type} [Encode α] [EncodeW α] {v : α} (h : AllPuts (writes v)) :
    PanicsWithoutRoom v := by
  intro grow b hb
  unfold encodeInto
  rw [Buf.run_puts _ _ _ h, EncodeW.output, Buf.putSlice_full hb]

/-- **C79**: a frame that holds no UUID panics without room. -/
theorem C79_frame_partial (f : AmqpFrame) (h : ¬ InFrame f.performative) : PanicsWithoutRoom f :=
  AllPuts.panics ((allPuts_put _ _).mpr (puts_frame _ h))

/-- **C79**: SASL frames always do. -/
theorem C79_sasl (f : SaslFrame) : PanicsWithoutRoom f := (PutsAll.puts f).panics

/-- **C79**: so do the values of every type that cannot hold a UUID. -/
theorem C79_plain {α : Type} [Encode α] [EncodeW α] [PutsAll α] (v : α) : PanicsWithoutRoom v :=
  (PutsAll.puts v).panics

/-- **C79**: such types are the scalar types other than UUIDs, text, binaries, descriptors and the
enumerations. -/
theorem C79_scalars :
    (∀ v : Bool, PanicsWithoutRoom v) ∧
    (∀ v : UInt8, PanicsWithoutRoom v) ∧
    (∀ v : UInt16, PanicsWithoutRoom v) ∧
    (∀ v : UInt32, PanicsWithoutRoom v) ∧
    (∀ v : UInt64, PanicsWithoutRoom v) ∧
    (∀ v : Int8, PanicsWithoutRoom v) ∧
    (∀ v : Int16, PanicsWithoutRoom v) ∧
    (∀ v : Int32, PanicsWithoutRoom v) ∧
    (∀ v : Int64, PanicsWithoutRoom v) ∧
    (∀ v : F32, PanicsWithoutRoom v) ∧
    (∀ v : F64, PanicsWithoutRoom v) ∧
    (∀ v : Char, PanicsWithoutRoom v) ∧
    (∀ v : DateTime, PanicsWithoutRoom v) ∧
    (∀ v : Binary, PanicsWithoutRoom v) ∧
    (∀ v : RStr, PanicsWithoutRoom v) ∧
    (∀ v : Symbol, PanicsWithoutRoom v) ∧
    (∀ v : Descriptor, PanicsWithoutRoom v) ∧
    (∀ v : Role, PanicsWithoutRoom v) ∧
    (∀ v : SenderSettleMode, PanicsWithoutRoom v) ∧
    (∀ v : ReceiverSettleMode, PanicsWithoutRoom v) ∧
    (∀ v : AmqpError, PanicsWithoutRoom v) ∧
    (∀ v : ConnectionError, PanicsWithoutRoom v) ∧
    (∀ v : SessionError, PanicsWithoutRoom v) ∧
    (∀ v : LinkError, PanicsWithoutRoom v) ∧
    (∀ v : SaslCode, PanicsWithoutRoom v) ∧
    (∀ v : TerminusDurability, PanicsWithoutRoom v) ∧
    (∀ v : TerminusExpiryPolicy, PanicsWithoutRoom v) ∧
    (∀ v : ErrorCondition, PanicsWithoutRoom v) ∧
    (∀ v : DistributionMode, PanicsWithoutRoom v) :=
  ⟨C79_plain, C79_plain, C79_plain, C79_plain, C79_plain, C79_plain, C79_plain, C79_plain,
    C79_plain, C79_plain, C79_plain, C79_plain, C79_plain, C79_plain, C79_plain, C79_plain,
    C79_plain, C79_plain, C79_plain, C79_plain, C79_plain, C79_plain, C79_plain, C79_plain,
    C79_plain, C79_plain, C79_plain, C79_plain, C79_plain⟩

/-- **C79**: so are arrays, single-or-several items, options and maps of such values. -/
theorem C79_arrays :
    (∀ v : Vec Bool, PanicsWithoutRoom v) ∧
    (∀ v : Vec UInt8, PanicsWithoutRoom v) ∧
    (∀ v : Vec UInt16, PanicsWithoutRoom v) ∧
    (∀ v : Vec UInt32, PanicsWithoutRoom v) ∧
    (∀ v : Vec UInt64, PanicsWithoutRoom v) ∧
    (∀ v : Vec Int8, PanicsWithoutRoom v) ∧
    (∀ v : Vec Int16, PanicsWithoutRoom v) ∧
    (∀ v : Vec Int32, PanicsWithoutRoom v) ∧
    (∀ v : Vec Int64, PanicsWithoutRoom v) ∧
    (∀ v : Vec F32, PanicsWithoutRoom v) ∧
    (∀ v : Vec F64, PanicsWithoutRoom v) ∧
    (∀ v : Vec Char, PanicsWithoutRoom v) ∧
    (∀ v : Vec DateTime, PanicsWithoutRoom v) ∧
    (∀ v : Vec Binary, PanicsWithoutRoom v) ∧
    (∀ v : Vec RStr, PanicsWithoutRoom v) ∧
    (∀ v : Vec Symbol, PanicsWithoutRoom v) ∧
    (∀ v : Vec (HMap Symbol RStr), PanicsWithoutRoom v) ∧
    (∀ v : Multiple Symbol, PanicsWithoutRoom v) ∧
    (∀ v : Option UInt32, PanicsWithoutRoom v) ∧
    (∀ v : HMap Symbol UInt64, PanicsWithoutRoom v) :=
  ⟨C79_plain, C79_plain, C79_plain, C79_plain, C79_plain, C79_plain, C79_plain, C79_plain,
    C79_plain, C79_plain, C79_plain, C79_plain, C79_plain, C79_plain, C79_plain, C79_plain,
    C79_plain, C79_plain, C79_plain, C79_plain⟩

/-- **C79**: a message that holds no UUID panics without room. -/
theorem C79_message_partial {AP : Type} [Encode AP] [EncodeW AP] {values : AP → List Variant}
    (hap : ∀ a : AP, ¬ (∃ v ∈ values a, HoldsUuid v) → AllPuts (writes a)) (m : Message AP)
    (h : ¬ InHead values m.toMsgHead) (hm : ∀ b ∈ m.messages, ¬ InBody b) : PanicsWithoutRoom m :=
  AllPuts.panics (puts_head hap m.toMsgHead h _ _ (puts_nested _ hm))

/-- **C79**: in particular a message as received and one to be sent. -/
theorem C79_messages_partial :
    (∀ m : InMessage, ¬ InBody (.MessageIn m.toMsgHead m.messages) → PanicsWithoutRoom m) ∧
    (∀ m : OutMessage, ¬ InBody (.MessageOut m.toMsgHead m.messages) → PanicsWithoutRoom m) :=
  ⟨fun m h => C79_message_partial puts_in m (fun x => h (.headIn x)) (fun _ hb x => h (.nestedIn hb x)),
   fun m h => C79_message_partial puts_out m (fun x => h (.headOut x)) (fun _ hb x => h (.nestedOut hb x))⟩

/-- **C79**: a section that holds no UUID. -/
theorem C79_section_partial (s : Section) (h : ¬ InSection s) : PanicsWithoutRoom s :=
  AllPuts.panics (puts_sec s h)

theorem uuid_grows (ws p t : List Write) (u : Uuid) (e : ws = p ++ .extend u.bytes :: t) :
    ∃ (grow : Growth) (b b' : Buf), b.remainingMut < (outputOf ws).length ∧
      (b.run grow ws : Res CodecError Buf) = .ok b' ∧ b.capacity < b'.capacity := by
  subst e
  refine ⟨fun _ _ => (outputOf t).length, ⟨[], (outputOf p).length, Nat.zero_le _⟩, ?_⟩
  obtain ⟨b1, h1, h2, h3⟩ := Buf.run_ok (ε := CodecError) (fun _ _ => (outputOf t).length) p
    ⟨[], (outputOf p).length, Nat.zero_le _⟩ (Nat.le_refl _)
  simp only [List.nil_append] at h2 h3
  have hr : b1.remainingMut = 0 := by unfold Buf.remainingMut; rw [h2, h3]; simp
  have hc : (b1.extendFromSlice (outputOf t).length u.bytes).capacity =
      b1.data.length + 16 + (outputOf t).length := by
    show (b1.reserve _ _).capacity = _
    unfold Buf.reserve
    rw [if_neg (by rw [hr, u.len]; omega), u.len]
  obtain ⟨b2, h4, -, h6⟩ := Buf.run_ok (ε := CodecError) (fun _ _ => (outputOf t).length) t
    (b1.extendFromSlice (outputOf t).length u.bytes) (by
      unfold Buf.remainingMut
      rw [hc]
      show _ ≤ _ - (b1.data ++ u.bytes).length
      rw [List.length_append, u.len]; omega)
  refine ⟨b2, ?_, ?_, ?_⟩
  · simp only [Buf.remainingMut, outputOf_append, outputOf_extend, List.length_append, u.len,
      List.length_nil]
    omega
  · rw [Buf.run_append, h1]; exact h4
  · rw [h6, hc]
    show (outputOf p).length < _
    rw [h2]; omega

/-- **C79**: a value panics without room exactly if it holds no UUID. -/
theorem C79_variant_iff (v : Variant) : PanicsWithoutRoom v ↔ ¬ HoldsUuid v := by
  refine ⟨fun h hu => ?_, fun h => (puts_variant v h).panics⟩
  obtain ⟨p, u, t, e⟩ := vwrites_split hu
  obtain ⟨grow, b, b', h1, h2, -⟩ := uuid_grows _ p t u e
  have h3 := h grow b (by rw [← EncodeW.output (α := Variant)]; exact h1)
  have h4 : (b.run grow v.vwrites : Res CodecError Buf) = .panic .bufferFull := h3
  rw [h2] at h4
  cases h4

/-- **C79** is violated by UUIDs: with a byte of room for the format code, whatever the UUID,
the buffer and its allocation policy, there is no panic; the buffer grows. -/
theorem C79_violated_uuid (grow : Growth) (u : Uuid) (b : Buf) (h1 : 1 ≤ b.remainingMut)
    (h2 : b.remainingMut < 17) :
    ∃ b', (encodeInto grow u b : Res CodecError Buf) = .ok b' ∧ b'.data = b.data ++ enc u ∧
      (enc u).length = 17 ∧ b.capacity < b'.capacity := by
  have hl : (enc u).length = 17 := by
    rw [← EncodeW.output (α := Uuid)]
    show ([FC.uuid] ++ (u.bytes ++ [])).length = 17
    simp [u.len]
  have hb : (encodeInto grow u b : Res CodecError Buf) =
      b.putSlice [FC.uuid] >>= fun b => .ok (b.extendFromSlice (grow b u.bytes.length) u.bytes) := rfl
  unfold Buf.putSlice at hb
  rw [dif_pos (by simpa using h1), Res.bind_ok] at hb
  refine ⟨_, hb, ?_, hl, ?_⟩
  · rw [← EncodeW.output (α := Uuid)]
    show (b.data ++ [FC.uuid]) ++ u.bytes = b.data ++ ([FC.uuid] ++ (u.bytes ++ []))
    simp
  · show b.capacity < (Buf.reserve _ _ u.bytes.length).capacity
    unfold Buf.reserve
    have := b.fits
    rw [if_neg (by simp only [Buf.remainingMut, u.len, List.length_append, List.length_singleton] at h2 ⊢; omega)]
    simp only [Buf.remainingMut, u.len, List.length_append, List.length_singleton] at h1 h2 ⊢
    omega

/-! ### Cases -/

/-- A string of 3 bytes into 4 bytes of room, and into 5. -/
example : (encodeInto (fun _ _ => 0) (RStr.lit "abc") ⟨[9], 5, by decide⟩ : Res CodecError Buf) =
    .panic .bufferFull :=
  C79_plain _ _ _ (by decide)

example : ∃ b', (encodeInto (fun _ _ => 0) (RStr.lit "abc") ⟨[9], 6, by decide⟩ : Res CodecError Buf) =
    .ok b' ∧ b'.data = [9, 0xa1, 3, 97, 98, 99] ∧ b'.capacity = 6 :=
  C79_room _ _ _ (by decide)

/-- A frame with a map that holds no UUID, and 10 bytes of room. -/
example : (encodeInto (fun _ _ => 100)
    (⟨3, .End ⟨some ⟨.AmqpError .NotFound, none, some ⟨[(⟨RStr.lit "k"⟩, .ulong 7)]⟩⟩⟩⟩ : AmqpFrame)
    ⟨[], 10, by decide⟩ : Res CodecError Buf) = .panic .bufferFull := by
  refine C79_frame_partial _ ?_ _ _ (by decide +kernel)
  rintro ⟨e, he, m, hm, x, hx, hu⟩
  cases he; cases hm
  simp only [List.mem_singleton] at hx
  subst hx
  cases hu

/-- A list that holds a UUID under a descriptor. -/
example (u : Uuid) : HoldsUuid (.list [.null, .described (.ulong 3) (.uuid u)]) :=
  .item (v := .described (.ulong 3) (.uuid u)) (by simp) (.described (.here u))

example : PanicsWithoutRoom (Section.AmqpValue (.uint 7)) :=
  C79_section_partial _ (fun h => by cases h)
example (u : Uuid) : ∃ b', (encodeInto (fun _ _ => 0) u ⟨[9], 5, by decide⟩ : Res CodecError Buf) = .ok b' ∧
    b'.data = 9 :: enc u ∧ 5 < b'.capacity :=
  have ⟨b, h1, h2, _, h3⟩ := C79_violated_uuid (fun _ _ => 0) u ⟨[9], 5, by decide⟩ (by decide) (by decide)
  ⟨b, h1, h2, h3⟩

end Amqp
