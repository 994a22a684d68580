import Verif.Spec.WorkFrames
import Verif.Proofs.WorkMessages
import Verif.Proofs.FrameLaws
/-!
# C64 for frames
-/
set_option autoImplicit false
namespace Amqp

/-! ## The counting encoders compute the same -/

theorem transfer_same (t : Transfer) : (measureC t).val = size t ∧ (writeC t).val = enc t := by
  obtain ⟨p, body⟩ := t
  cases body with
  | none =>
    exact ⟨(Keen.same_size p).trans (Nat.add_zero _).symm,
      (Keen.same_enc p).trans (List.append_nil _).symm⟩
  | some b =>
    refine ⟨?_, ?_⟩
    · exact congrArg (· + size b) (Keen.same_size p)
    · exact congrArg (· ++ enc b) (Keen.same_enc p)

theorem frame_same (p : Frame) : (measureC p).val = size p ∧ (writeC p).val = enc p := by
  cases p with
  | Transfer t => exact transfer_same t
  | Empty => exact ⟨rfl, rfl⟩
  | Open v | Begin v | Attach v | Flow v | Disposition v | Detach v | End v | Close v =>
    exact ⟨Keen.same_size v, Keen.same_enc v⟩

theorem frame_touch (p : Frame) : size p.touch = size p ∧ enc p.touch = enc p := by
  cases p with
  | Transfer t =>
    obtain ⟨p, body⟩ := t
    cases body with
    | none => exact ⟨rfl, rfl⟩
    | some b =>
      refine ⟨?_, ?_⟩
      · exact congrArg (size p + ·) (touch_tsize b)
      · exact congrArg (enc p ++ ·) (touch_tenc b)
  | _ => exact ⟨rfl, rfl⟩

/-- **C64**: counting changes neither size nor encoding of a frame, and what is handed to the
codec is written the same. -/
theorem C64_same_frames (f : AmqpFrame) : (measureC f).val = size f ∧ (writeC f).val = enc f ∧
    f.sendC.val = enc f := by
  obtain ⟨c, p⟩ := f
  have h1 := frame_same p
  have h2 := frame_same p.touch
  have h3 := frame_same p.touch.touch
  have t1 := frame_touch p
  have t2 := frame_touch p.touch
  refine ⟨?_, ?_, ?_⟩
  · show headerLen + (measureC p).val = headerLen + size p
    rw [h1.1]
  · show frameHeader (headerLen + (measureC p).val) _ _ ++ (writeC p.touch).val =
      frameHeader (headerLen + size p) _ _ ++ enc p
    rw [h1.1, h2.2, t1.2]
  · show frameHeader (headerLen + (measureC p.touch).val) _ _ ++ (writeC p.touch.touch).val =
      frameHeader (headerLen + size p) _ _ ++ enc p
    rw [h2.1, h3.2, t2.2, t1.2, t1.1]; rfl

/-- **C64**: nor of a SASL frame. -/
theorem C64_same_sasl (f : SaslFrame) : (measureC f).val = size f ∧ f.sendC.val = enc f := by
  obtain ⟨b⟩ := f
  refine ⟨?_, ?_⟩
  · show headerLen + (measureC b).val = headerLen + size b
    rw [Keen.same_size]
  · show frameHeader (headerLen + (measureC b).val) _ _ ++ (writeC b).val =
      frameHeader (headerLen + size b) _ _ ++ enc b
    rw [Keen.same_size, Keen.same_enc]

/-! ## Performatives and sections -/

/-- **C64** for performatives, sections and their fields: measuring takes at most three calls per
byte, and writing at most three for each byte and level. -/
theorem C64_fields_partial {α : Type} [Encode α] [EncodeC α] [Nesting α] [LawfulEnc α] [Keen α]
    (v : α) : (measureC v).calls ≤ 3 * (enc v).length ∧
      (writeC v).calls ≤ 3 * (fixed α + nest v + 1) * (enc v).length := by
  have h := Keen.bound v
  rw [LawfulEnc.size_eq] at h
  have h1 := h.measure
  have h2 := h.write
  rw [Nat.mul_assoc]
  omega

/-- Measuring takes at most three calls per byte, writing three for each byte and level. -/
def BoundedCalls (α : Type) [Encode α] [EncodeC α] [Nesting α] : Prop :=
  ∀ v : α, (measureC v).calls ≤ 3 * (enc v).length ∧
    (writeC v).calls ≤ 3 * (fixed α + nest v + 1) * (enc v).length

/-- **C64**, type by type: `C64_fields_partial` holds of lists, maps, values, every performative,
every section and what they consist of. -/
theorem C64_types_partial : BoundedCalls VList ∧ BoundedCalls VecVariantMap ∧ BoundedCalls Variant
    ∧ BoundedCalls Error ∧ BoundedCalls Open ∧ BoundedCalls Begin ∧ BoundedCalls Attach ∧
    BoundedCalls Flow ∧ BoundedCalls TransferPerf ∧ BoundedCalls Disposition ∧ BoundedCalls Detach
    ∧ BoundedCalls End ∧ BoundedCalls Close ∧ BoundedCalls Source ∧ BoundedCalls Target ∧
    BoundedCalls Outcome ∧ BoundedCalls DeliveryState ∧ BoundedCalls Header ∧ BoundedCalls
    Properties ∧ BoundedCalls Section :=
  ⟨C64_fields_partial, C64_fields_partial, C64_fields_partial, C64_fields_partial,
    C64_fields_partial, C64_fields_partial, C64_fields_partial, C64_fields_partial,
    C64_fields_partial, C64_fields_partial, C64_fields_partial, C64_fields_partial,
    C64_fields_partial, C64_fields_partial, C64_fields_partial, C64_fields_partial,
    C64_fields_partial, C64_fields_partial, C64_fields_partial, C64_fields_partial⟩

/-- What it takes to measure twice and write once. -/
theorem send_bound {k m w s L : Nat} (h : Under k m w s) (hk : k ≤ L) :
    m + m + w ≤ 3 * ((L + 3) * s) := by
  have h1 := h.measure
  have h2 := (h.mono hk).write
  have : (L + 3) * s = (L + 1) * s + 2 * s := by rw [← Nat.add_mul]
  omega

theorem keen_send {α : Type} [Encode α] [EncodeC α] [Nesting α] [LawfulEnc α] [Keen α] (v : α)
    (hf : fixed α ≤ 5) : (measureC v).calls + (measureC v).calls + (writeC v).calls ≤
      3 * ((nest v + 8) * (enc v).length) := by
  have h := Keen.bound v
  rw [LawfulEnc.size_eq] at h
  exact send_bound (L := nest v + 5) h (by omega)

theorem frame_send (p : Frame) : (measureC p).calls + (measureC p.touch).calls +
    (writeC p.touch.touch).calls ≤ 3 * ((p.levels + 8) * (enc p).length) + 10 := by
  cases p with
  | Transfer t =>
    obtain ⟨p, body⟩ := t
    have hp := keen_send p (by decide)
    cases body with
    | none =>
      have e : enc (Frame.Transfer ⟨p, none⟩) = enc p := List.append_nil _
      have l : (Frame.Transfer ⟨p, none⟩).levels = nest p := Nat.max_zero _
      rw [e, l]
      exact Nat.le_trans hp (Nat.le_add_right _ _)
    | some b =>
      have e : (enc (Frame.Transfer ⟨p, some b⟩)).length = (enc p).length + b.tenc.length :=
        List.length_append
      have l : (Frame.Transfer ⟨p, some b⟩).levels = max (nest p) b.levels := rfl
      rw [e, l]
      show ((measureC p).calls + b.sizeCalls) + ((measureC p).calls + b.touch.sizeCalls) +
        ((writeC p).calls + b.touch.touch.encCalls) ≤ _
      have h1 := body_send b
      rw [(touch_cached b).1, Nat.mul_add]
      have h4 : (b.levels + 4) * b.tenc.length ≤ (max (nest p) b.levels + 8) * b.tenc.length :=
        Nat.mul_le_mul_right _ (by omega)
      have h5 : (nest p + 8) * (enc p).length ≤ (max (nest p) b.levels + 8) * (enc p).length :=
        Nat.mul_le_mul_right _ (by omega)
      omega
  | Empty => exact by decide
  | Open v | Begin v | Attach v | Flow v | Disposition v | Detach v | End v | Close v =>
    exact Nat.le_trans (keen_send v (by decide)) (Nat.le_add_right _ _)

/-- **C64** for messages, with the calls inside their sections: at most twelve for each byte, and
three more for each level of lists and maps in a section. -/
theorem C64_sections_partial (b : TransferBody) :
    (measureC b).calls ≤ 3 * (b.levels + 4) * (enc b).length + 8 ∧
    (writeC b).calls ≤ 3 * (b.levels + 4) * (enc b).length + 6 := by
  rw [Nat.mul_assoc]
  exact body_write b

/-- **C64** for frames: sending one takes at most twenty-four calls for each byte written, and
three more for each level of lists and maps in fields of any type, and in the sections of the
message it carries.  Missing for the full
statement: a bound that does not depend on those; see `C64_violated_frames`. -/
theorem C64_frames_partial (f : AmqpFrame) :
    f.sendC.calls ≤ 3 * (f.performative.levels + 8) * (enc f).length := by
  have h := frame_send f.performative
  have e : (enc f).length = 8 + (enc f.performative).length := by
    show (frameHeader _ _ _ ++ _).length = _
    rw [List.length_append, frameHeader_length]
  rw [e, Nat.mul_assoc, Nat.mul_add]
  show (1 + (measureC f.performative).calls) + (1 + (1 + (measureC f.performative.touch).calls) +
    (writeC f.performative.touch.touch).calls) ≤ _
  omega

/-- **C64** for frames without values of any type in them. -/
theorem C64_frames_flat (f : AmqpFrame) (h : f.performative.levels = 0) :
    f.sendC.calls ≤ 24 * (enc f).length := by
  have := C64_frames_partial f
  rwa [h] at this

/-- **C64** for SASL frames, in full. -/
theorem C64_sasl : LinearWork SaslFrame.sendC := by
  refine ⟨24, fun f => ?_⟩
  rw [(C64_same_sasl f).2]
  have h := keen_send f.body (by decide)
  have hn : nest f.body = 0 := by
    obtain ⟨b⟩ := f
    cases b with
    | SaslInit v =>
      obtain ⟨_, a, b⟩ := v
      cases a <;> cases b <;> rfl
    | SaslOutcome v =>
      obtain ⟨_, a⟩ := v
      cases a <;> rfl
    | _ => rfl
  rw [hn] at h
  have e : (enc f).length = 8 + (enc f.body).length := by
    show (frameHeader _ _ _ ++ _).length = _
    rw [List.length_append, frameHeader_length]
  rw [e]
  show (1 + (measureC f.body).calls) + (1 + (1 + (measureC f.body).calls) +
    (writeC f.body).calls) ≤ _
  omega

theorem deepOpen_length (n : Nat) : (enc (deepOpen n)).length ≤ 10 * n + 60 := by
  have h := nestedMaps_size n
  show (frameHeader _ _ _ ++ _).length ≤ _
  rw [List.length_append, frameHeader_length]
  show _ + (enc (α := Open) _).length ≤ _
  rw [← LawfulEnc.size_eq]
  have l : ∀ k, listSize k ≤ k + 12 := fun k => by unfold listSize; split <;> omega
  have c : ∀ k, compoundSize k ≤ k + 9 := fun k => by unfold compoundSize; split <;> omega
  have := c (3 + (nestedMaps n).vsize + 0)
  have := l (3 + 1 + 5 + 3 + 1 + 1 + 1 + 1 + 1 + compoundSize (3 + (nestedMaps n).vsize + 0))
  show 8 + listSize (3 + 1 + 5 + 3 + 1 + 1 + 1 + 1 + 1 + compoundSize (3 + (nestedMaps n).vsize + 0)) ≤ _
  omega

/-- **C64** fails for frames: an Open whose properties have maps in maps takes a number of calls
quadratic in the number of bytes. -/
theorem C64_violated_frames : ¬ LinearWork AmqpFrame.sendC ∧ ∀ n,
    n * n ≤ (deepOpen n).sendC.calls ∧ (enc (deepOpen n)).length ≤ 10 * n + 60 := by
  have hc : ∀ n, n * n ≤ (deepOpen n).sendC.calls := fun n => by
    have h : (nestedMaps n).encC.calls ≤ (deepOpen n).sendC.calls := by
      show _ ≤ _ + (_ + (3 + _ + (_ + (1 + (1 + _ + (1 + (nestedMaps n).encC.calls + 0))))))
      omega
    rw [nestedMaps_encC] at h
    omega
  refine ⟨?_, fun n => ⟨hc n, deepOpen_length n⟩⟩
  rintro ⟨c, h⟩
  have h := h (deepOpen (10 * c + 61))
  rw [(C64_same_frames _).2.2] at h
  have h1 := hc (10 * c + 61)
  have h2 := Nat.mul_le_mul_left c (Nat.add_le_add_right (deepOpen_length (10 * c + 61)) 1)
  have e1 : (10 * c + 61) * (10 * c + 61) = 100 * (c * c) + 1220 * c + 3721 := by
    rw [Nat.add_mul, Nat.mul_add, Nat.mul_add, Nat.mul_mul_mul_comm]; omega
  have e2 : c * (10 * (10 * c + 61) + 60 + 1) = 100 * (c * c) + 671 * c := by
    rw [Nat.mul_add, Nat.mul_add, Nat.mul_left_comm c 10, Nat.mul_add, Nat.mul_left_comm c 10]; omega
  omega

/-- The full statement. -/
def C64_statement : Prop := LinearWork Variant.encC ∧ LinearWork TransferBody.encC ∧
  LinearWork AmqpFrame.sendC ∧ LinearWork SaslFrame.sendC

/-- **C64** is false of the code as stated. -/
theorem C64_violated : ¬ C64_statement := fun h => C64_violated_nested.1 h.1

/-! ## Examples -/

example : (deepOpen 0).sendC.calls = 66 ∧ (enc (deepOpen 0)).length = 38 := by decide +kernel
/-- A transfer with a message in a message. -/
def nestedTransfer : AmqpFrame :=
  ⟨1, .Transfer {
    handle := 0, delivery_id := some 1, delivery_tag := some ⟨[1]⟩, message_format := none,
    settled := some true, more := false, rcv_settle_mode := none, state := none, resume := false,
    aborted := false, batchable := false,
    body := some (.MessageIn {} [.MessageOut { data := [⟨[1, 2, 3]⟩], value := some (.list [.list []]) } []]) }⟩
example : nestedTransfer.performative.levels = 2 ∧ nestedTransfer.sendC.calls ≤ 3 * 10 * 64 :=
  ⟨by decide +kernel, Nat.le_trans (C64_frames_partial nestedTransfer) (by decide +kernel)⟩
example : (deepOpen 10).performative.levels = 10 := by decide +kernel
example : (⟨.SaslMechanisms ⟨⟨[⟨.lit "PLAIN"⟩, ⟨.lit "ANONYMOUS"⟩]⟩⟩⟩ : SaslFrame).sendC.calls = 26 := by
  decide +kernel

example : (deepOpen 0).sendC.calls ≤ 24 * 38 := C64_frames_flat (deepOpen 0) (by decide +kernel)

end Amqp
