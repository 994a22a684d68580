import Verif.Props.Streams
import Verif.Spec.Buffers
/-!
# C59: memory held for frames that are still arriving
-/
set_option autoImplicit false
namespace Amqp

theorem frameStepBuf_same {T : Type} (dec : Dec T) (n : Nat) (src : Buf) :
    (⟨(frameStepBuf dec n src).state, (frameStepBuf dec n src).src.data,
      (frameStepBuf dec n src).answer⟩ : Call CodecError T) = frameStep dec n src.data := by
  unfold frameStepBuf frameStep
  split
  · rfl
  · simp only
    cases dec (src.data.take n) with
    | ok q => simp only; split <;> rfl
    | err e => rfl
    | panic p => rfl

/-- **C59**: what a call does to the bytes, the state and the answer does not
depend on the capacity of the buffer; it is what C28 to C32 speak of. -/
theorem C59_same {T : Type} (env : Env) (slack : Nat) (dec : Dec T) (st : DecodeState) (src : Buf) :
    (⟨(codecDecodeBuf env slack dec st src).state, (codecDecodeBuf env slack dec st src).src.data,
      (codecDecodeBuf env slack dec st src).answer⟩ : Call CodecError T) =
      codecDecode env dec st src.data := by
  cases st with
  | frame n => exact frameStepBuf_same dec n src
  | frameHeader =>
    unfold codecDecodeBuf codecDecode
    simp only
    split
    · rfl
    · split
      · rfl
      · split
        · congr 1
          simp only
          split
          · rw [Buf.reserve_data]; rfl
          · rfl
        · exact frameStepBuf_same dec _ _

theorem Buf.splitTo_room (b : Buf) (n : Nat) (h : n ≤ b.data.length) :
    (b.splitTo n).remainingMut = b.remainingMut := by
  have := b.fits
  simp only [Buf.remainingMut, Buf.splitTo, List.length_drop]
  omega

theorem Buf.reserve_room_le (slack n m : Nat) (b : Buf) (h : b.remainingMut ≤ m)
    (h' : n + slack ≤ m) : (b.reserve slack n).remainingMut ≤ m := by
  unfold Buf.reserve
  split
  · exact h
  · simp only [Buf.remainingMut]; omega

theorem frameStepBuf_room {T : Type} (dec : Dec T) (n : Nat) (src : Buf) :
    (frameStepBuf dec n src).src.remainingMut = src.remainingMut := by
  unfold frameStepBuf
  split
  · rfl
  · rename_i h
    have := src.splitTo_room n (by omega)
    simp only
    cases dec (src.data.take n) with
    | ok q => simp only; split <;> exact this
    | err e => exact this
    | panic p => exact this

/-- **C59**: a call leaves at most as much free room as there was, or 32 KiB and
what the allocator adds, whatever length the peer announces. -/
theorem C59_call {T : Type} (env : Env) (slack : Nat) (dec : Dec T) (st : DecodeState) (src : Buf) :
    (codecDecodeBuf env slack dec st src).src.remainingMut ≤
      max src.remainingMut (32768 + slack) := by
  cases st with
  | frame n =>
    have := frameStepBuf_room dec n src
    show (frameStepBuf dec n src).src.remainingMut ≤ _
    omega
  | frameHeader =>
    unfold codecDecodeBuf headerLen
    simp only
    split
    · exact Nat.le_max_left _ _
    · rename_i h8
      have h4 := src.splitTo_room 4 (by omega)
      split
      · exact Nat.le_max_left _ _
      · split
        · simp only
          split
          · exact Buf.reserve_room_le _ _ _ _ (by omega) (by unfold sizeHighWm; omega)
          · omega
        · rw [frameStepBuf_room]; omega

/-- **C59**: over any time, whatever arrives and whenever `decode` is called: the
memory of the buffer is at most what has been received and not yet consumed, plus
32 KiB, plus what the allocator adds (or the free room there was at first). -/
theorem C59_memory {T : Type} (env : Env) (slack : Nat) (dec : Dec T) (es : List Event)
    (r : Receiver) :
    (r.run env slack dec es).src.capacity ≤ (r.run env slack dec es).src.data.length +
      max r.src.remainingMut (32768 + slack) := by
  suffices h : (r.run env slack dec es).src.remainingMut ≤ max r.src.remainingMut (32768 + slack) by
    unfold Buf.remainingMut at h ⊢
    omega
  induction es generalizing r with
  | nil => exact Nat.le_max_left _ _
  | cons e es ih =>
    have := ih (r.step env slack dec e)
    refine Nat.le_trans this ?_
    suffices h : (r.step env slack dec e).src.remainingMut ≤ max r.src.remainingMut (32768 + slack) by
      omega
    cases e with
    | arrive b =>
      have := r.src.fits
      show (Buf.reserve slack r.src b.length).capacity - (r.src.data ++ b).length ≤
        max (r.src.capacity - r.src.data.length) (32768 + slack)
      unfold Buf.reserve
      rw [List.length_append]
      split
      · omega
      · simp only; omega
    | poll =>
      unfold Receiver.step
      simp only
      split
      · exact C59_call env slack dec r.state r.src
      · exact Nat.le_max_left _ _

/-- **C59**: and what has been received and not yet consumed is less than a frame,
which is less than 4 GiB, once `decode` waits. -/
theorem C59_waiting {T : Type} (env : Env) (slack : Nat) (dec : Dec T) (src : Buf)
    (h4 : 8 ≤ src.data.length → 4 ≤ beDec (src.data.take 4))
    (h : (codecDecodeBuf env slack dec .frameHeader src).answer = .none) :
    src.data.length < 8 ∨ src.data.length < beDec (src.data.take 4) ∧
      beDec (src.data.take 4) < 2 ^ 32 := by
  have hs := C59_same env slack dec .frameHeader src
  have := congrArg Call.answer hs
  rw [show (_ : Answer CodecError T) = _ from h] at this
  rcases (C30_none_header env dec src.data h4).1.1 this.symm with h | h
  · exact .inl h
  · refine .inr ⟨h, ?_⟩
    by_cases h8 : src.data.length < 8
    · have := beDec_lt (src.data.take 4)
      have hl : (src.data.take 4).length ≤ 4 := by rw [List.length_take]; omega
      exact Nat.lt_of_lt_of_le this (Nat.pow_le_pow_right (n := 256) (by decide) hl)
    · have := beDec_lt (src.data.take 4)
      rw [List.length_take, Nat.min_eq_left (by omega)] at this
      exact this

/-- What C59 should say as well, by the comment in the code: when a call waits for
the rest of a frame, the buffer has room for it. -/
def C59_statement : Prop := ∀ {T : Type} (env : Env) (slack : Nat) (dec : Dec T) (src : Buf),
  8 ≤ src.data.length → 4 ≤ beDec (src.data.take 4) →
  (codecDecodeBuf env slack dec .frameHeader src).answer = .none →
  beDec (src.data.take 4) - src.data.length ≤
    (codecDecodeBuf env slack dec .frameHeader src).src.remainingMut

/-- **C59**, the part that holds: there is room for the rest of the frame, or for
32 KiB of it. -/
theorem C59_fit_partial {T : Type} (env : Env) (slack : Nat) (dec : Dec T) (src : Buf)
    (h8 : 8 ≤ src.data.length) (h4 : 4 ≤ beDec (src.data.take 4))
    (h : (codecDecodeBuf env slack dec .frameHeader src).answer = .none) :
    min 32768 (beDec (src.data.take 4) - src.data.length) ≤
      (codecDecodeBuf env slack dec .frameHeader src).src.remainingMut := by
  have hs := congrArg Call.answer (C59_same env slack dec .frameHeader src)
  rw [show (_ : Answer CodecError T) = _ from h] at hs
  have hl : src.data.length < beDec (src.data.take 4) := by
    rcases (C30_none_header env dec src.data fun _ => h4).1.1 hs.symm with h | h
    · omega
    · exact h
  unfold codecDecodeBuf headerLen
  simp only
  rw [if_neg (by omega), if_neg (by omega), if_pos hl]
  simp only
  split
  · have := Buf.reserve_room slack sizeHighWm (src.splitTo 4)
    unfold sizeHighWm at this ⊢
    omega
  · unfold sizeLowWm at *
    omega

/-- A peer announces a frame of 64 KiB. -/
def announced : Buf := ⟨[0, 1, 0, 0, 2, 0, 0, 0], 8, by decide⟩

/-- **C59** is violated: the comment says that the buffer is extended to fit the
whole frame, but it is extended by 32 KiB. -/
theorem C59_violated : ¬ C59_statement := by
  intro h
  have h1 : (codecDecodeBuf debugEnv 0 (AmqpFrame.decode debugEnv) .frameHeader announced).answer =
      .none := rfl
  have h2 := h debugEnv 0 (AmqpFrame.decode debugEnv) announced (by decide) (by decide) h1
  have h3 := C59_call debugEnv 0 (AmqpFrame.decode debugEnv) .frameHeader announced
  have e1 : beDec (announced.data.take 4) - announced.data.length = 65528 := by decide
  have e2 : max announced.remainingMut (32768 + 0) = 32768 := by decide
  rw [e1] at h2
  rw [e2] at h3
  omega

/-- 32 KiB of the frame do fit. -/
example : 32768 ≤ (codecDecodeBuf debugEnv 0 (AmqpFrame.decode debugEnv) .frameHeader
    announced).src.remainingMut := by
  have := C59_fit_partial debugEnv 0 (AmqpFrame.decode debugEnv) announced (by decide) (by decide) rfl
  have e1 : beDec (announced.data.take 4) - announced.data.length = 65528 := by decide
  rw [e1] at this
  omega
/-- A peer that announces 4 GiB and sends nothing holds 32 KiB. -/
example : ((⟨.frameHeader, ⟨[], 0, by decide⟩, true⟩ : Receiver).run debugEnv 0
    (AmqpFrame.decode debugEnv)
    [.arrive [255, 255, 255, 255, 2, 0, 0, 0], .poll]).src.capacity ≤ 32772 :=
  C59_memory debugEnv 0 (AmqpFrame.decode debugEnv)
    [.arrive [255, 255, 255, 255, 2, 0, 0, 0], .poll] ⟨.frameHeader, ⟨[], 0, by decide⟩, true⟩

/-- Twelve bytes of a frame of sixteen. -/
example : ∀ src : Buf, src.data = [0, 0, 0, 16, 2, 0, 0, 0, 0, 0, 0, 0] →
    (codecDecodeBuf debugEnv 0 (AmqpFrame.decode debugEnv) .frameHeader src).answer = .none →
    src.data.length < 8 ∨ src.data.length < 16 := by
  intro src e h
  have e1 : beDec (src.data.take 4) = 16 := by rw [e]; rfl
  have := C59_waiting debugEnv 0 (AmqpFrame.decode debugEnv) src (by rw [e1]; omega) h
  rw [e1] at this
  omega

end Amqp
