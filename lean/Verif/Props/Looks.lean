import Verif.Spec.Looks
import Verif.Proofs.CacheLaws
import Verif.Proofs.RoomLaws
/-!
# C81: looking at a message does not change what is written
-/
set_option autoImplicit false
namespace Amqp

mutual
theorem settle_tsize : ∀ b : TransferBody, b.settle.tsize = b.tsize
  | .Data _ => by simp [TransferBody.settle]
  | .MessageIn m ms => by
    have h : TransferBody.tsize (.MessageIn m ms) ≠ 0 := by
      simp only [TransferBody.tsize]
      split
      · assumption
      · exact Message.freshSize_pos _ _
    simp only [TransferBody.settle]
    conv => lhs; unfold TransferBody.tsize
    exact if_pos h
  | .MessageOut m ms => by
    have h : TransferBody.tsize (.MessageOut m ms) ≠ 0 := by
      simp only [TransferBody.tsize]
      split
      · assumption
      · exact Message.freshSize_pos _ _
    simp only [TransferBody.settle]
    conv => lhs; unfold TransferBody.tsize
    exact if_pos h
theorem settleAll_nestedSize : ∀ ms : List TransferBody, nestedSize (settleAll ms) = nestedSize ms
  | [] => by simp [settleAll]
  | b :: t => by simp only [settleAll, nestedSize, settle_tsize b, settleAll_nestedSize t]
end

mutual
theorem settle_twrites : ∀ b : TransferBody, b.settle.twrites = b.twrites
  | .Data _ => by simp [TransferBody.settle]
  | .MessageIn m ms => by
    simp only [TransferBody.settle, TransferBody.twrites, settleAll_nestedSize, settleAll_writes ms]
    rfl
  | .MessageOut m ms => by
    simp only [TransferBody.settle, TransferBody.twrites, settleAll_nestedSize, settleAll_writes ms]
    rfl
theorem settleAll_writes : ∀ ms : List TransferBody, nestedWrites (settleAll ms) = nestedWrites ms
  | [] => by simp [settleAll]
  | b :: t => by simp only [settleAll, nestedWrites, settle_tsize b, settle_twrites b, settleAll_writes t]
end

mutual
theorem touch_twrites : ∀ b : TransferBody, b.touch.twrites = b.twrites
  | .Data _ => by simp [TransferBody.touch]
  | .MessageIn m ms => by
    simp only [TransferBody.touch]
    split
    · rfl
    · simp only [TransferBody.twrites, touchAll_nestedSize, touchAll_nestedWrites ms]; rfl
  | .MessageOut m ms => by
    simp only [TransferBody.touch]
    split
    · rfl
    · simp only [TransferBody.twrites, touchAll_nestedSize, touchAll_nestedWrites ms]; rfl
theorem touchAll_nestedWrites : ∀ ms : List TransferBody, nestedWrites (touchAll ms) = nestedWrites ms
  | [] => by simp [touchAll]
  | b :: t => by simp only [touchAll, nestedWrites, touch_tsize b, touch_twrites b, touchAll_nestedWrites t]
end

theorem afterEncode_tsize (b : TransferBody) : b.afterEncode.tsize = b.tsize := by
  cases b with
  | Data _ => rfl
  | MessageIn m ms => simp only [TransferBody.afterEncode, TransferBody.tsize, settleAll_nestedSize]
  | MessageOut m ms => simp only [TransferBody.afterEncode, TransferBody.tsize, settleAll_nestedSize]

theorem afterEncode_twrites (b : TransferBody) : b.afterEncode.twrites = b.twrites := by
  cases b with
  | Data _ => rfl
  | MessageIn m ms =>
    simp only [TransferBody.afterEncode, TransferBody.twrites, settleAll_nestedSize, settleAll_writes]
  | MessageOut m ms =>
    simp only [TransferBody.afterEncode, TransferBody.twrites, settleAll_nestedSize, settleAll_writes]

/-- A change that does not show in what is written. -/
def Unseen (f : TransferBody → TransferBody) : Prop :=
  ∀ b, (f b).tsize = b.tsize ∧ (f b).twrites = b.twrites

theorem unseen_touch : Unseen .touch := fun b => ⟨touch_tsize b, touch_twrites b⟩
theorem unseen_encode : Unseen .afterEncode := fun b => ⟨afterEncode_tsize b, afterEncode_twrites b⟩

theorem Unseen.modify {f : TransferBody → TransferBody} (h : Unseen f) :
    ∀ (i : Nat) (ms : List TransferBody), nestedSize (ms.modify i f) = nestedSize ms ∧
      nestedWrites (ms.modify i f) = nestedWrites ms
  | _, [] => by simp
  | 0, b :: t => by
    simp only [List.modify_zero_cons, nestedSize, nestedWrites, (h b).1, (h b).2, and_self]
  | i + 1, b :: t => by
    simp only [List.modify_succ_cons, nestedSize, nestedWrites, (h.modify i t).1, (h.modify i t).2,
      and_self]

theorem Unseen.modifyAt {f : TransferBody → TransferBody} (h : Unseen f) :
    ∀ p : List Nat, Unseen (.modifyAt f p)
  | [], b => h b
  | _ :: _, .Data _ => ⟨rfl, rfl⟩
  | i :: p, .MessageIn m ms => by
    have := (h.modifyAt p).modify i ms
    simp only [TransferBody.modifyAt, TransferBody.tsize, TransferBody.twrites, this.1, this.2, and_self]
  | i :: p, .MessageOut m ms => by
    have := (h.modifyAt p).modify i ms
    simp only [TransferBody.modifyAt, TransferBody.tsize, TransferBody.twrites, this.1, this.2, and_self]

theorem writtenAlike_of {α : Type} [Encode α] [EncodeW α] {a b : α} (hs : size a = size b)
    (hw : writes a = writes b) : WrittenAlike a b :=
  ⟨hs, by rw [← EncodeW.output a, ← EncodeW.output b, hw], hw⟩

/-- **C81.** Asking a transfer body, or anything nested in it, for its size, or encoding it,
however often and in whatever state, changes neither the size it announces nor what it writes,
nor its content. -/
theorem C81_body (looks : List Look) : ∀ b : TransferBody,
    WrittenAlike (b.afterLooks looks) b ∧ (b.afterLooks looks).clear = b.clear := by
  induction looks with
  | nil => exact fun b => ⟨⟨rfl, rfl, rfl⟩, rfl⟩
  | cons l t ih =>
    intro b
    have h := ih (l.apply b)
    have hl : (l.apply b).tsize = b.tsize ∧ (l.apply b).twrites = b.twrites ∧
        (l.apply b).clear = b.clear := by
      cases l with
      | size p =>
        exact ⟨(unseen_touch.modifyAt p b).1, (unseen_touch.modifyAt p b).2,
          clear_modifyAt _ touch_clear p b⟩
      | encode p =>
        exact ⟨(unseen_encode.modifyAt p b).1, (unseen_encode.modifyAt p b).2,
          clear_modifyAt _ afterEncode_clear p b⟩
    exact ⟨writtenAlike_of (h.1.1.trans hl.1) (h.1.2.2.trans hl.2.1), h.2.trans hl.2.2⟩

/-- **C81.** The same for messages. -/
theorem C81_message {AP : Type} [Encode AP] [EncodeW AP]
    (setApp : Message AP → Str → Variant → Message AP) (ops : List Op) :
    ∀ m : Message AP, (∀ op ∈ ops, op.Looks) →
      WrittenAlike (runOps setApp m ops) m ∧ (runOps setApp m ops).clear = m.clear := by
  induction ops with
  | nil => exact fun m _ => ⟨⟨rfl, rfl, rfl⟩, rfl⟩
  | cons op t ih =>
    intro m hl
    have h := ih (op.apply setApp m) fun o ho => hl o (List.mem_cons_of_mem _ ho)
    have nested : ∀ ms : List TransferBody, nestedSize ms = nestedSize m.messages →
        nestedWrites ms = nestedWrites m.messages → clearAll ms = clearAll m.messages →
        WrittenAlike { m with messages := ms } m ∧ ({ m with messages := ms } : Message AP).clear = m.clear := by
      intro ms h1 h2 h3
      refine ⟨writtenAlike_of ?_ ?_, ?_⟩
      · show (if m.cache ≠ 0 then m.cache else m.freshSize (bodySizeWith m.data m.sequence m.value (nestedSize ms)))
          = (if m.cache ≠ 0 then m.cache else m.freshSize (bodySizeWith m.data m.sequence m.value (nestedSize m.messages)))
        rw [h1]
      · show m.writesPre ++ bodyWritesOrEmpty (bodySizeWith m.data m.sequence m.value (nestedSize ms))
            (bodyWritesWith m.data m.sequence m.value (nestedWrites ms)) ++ m.writesPost = _
        rw [h1, h2]; rfl
      · show { m with cache := 0, messages := clearAll ms } = _
        rw [h3]; rfl
    have one : WrittenAlike (op.apply setApp m) m ∧ (op.apply setApp m).clear = m.clear := by
      cases op with
      | size =>
        refine ⟨writtenAlike_of ?_ ?_, Message.touch_clear m⟩
        · show m.touch.msize = m.msize
          unfold Message.msize
          rw [Message.touch_cache]
          show (if m.msize ≠ 0 then m.msize else _) = m.msize
          refine if_pos ?_
          unfold Message.msize
          split
          · assumption
          · exact Message.freshSize_pos _ _
        · show writes m.touch = writes m
          unfold Message.touch
          split
          · rfl
          · exact (nested (touchAll m.messages) (touchAll_nestedSize _) (touchAll_nestedWrites _)
              (touchAll_clear _)).1.2.2
      | encode => exact nested _ (settleAll_nestedSize _) (settleAll_writes _) (settleAll_clear _)
      | sizeNested i p =>
        exact nested _ ((unseen_touch.modifyAt p).modify i _).1 ((unseen_touch.modifyAt p).modify i _).2
          (clearAll_modify _ (clear_modifyAt _ touch_clear p) i _)
      | encodeNested i p =>
        exact nested _ ((unseen_encode.modifyAt p).modify i _).1
          ((unseen_encode.modifyAt p).modify i _).2
          (clearAll_modify _ (clear_modifyAt _ afterEncode_clear p) i _)
      | _ => exact absurd (hl _ (List.mem_cons_self ..)) id
    exact ⟨writtenAlike_of (h.1.1.trans one.1.1) (h.1.2.2.trans one.1.2.2), h.2.trans one.2⟩

/-- **C81.** A frame goes out the same, whatever looks were taken at what it carries. -/
theorem C81_frame (f : AmqpFrame) (looks : List Look) :
    WrittenAlike { f with performative := f.performative.afterLooks looks } f := by
  have h : WrittenAlike (f.performative.afterLooks looks) f.performative := by
    cases f.performative with
    | Transfer t =>
      obtain ⟨p, body⟩ := t
      cases body with
      | none => exact ⟨rfl, rfl, rfl⟩
      | some b =>
        have hb := (C81_body looks b).1
        refine writtenAlike_of ?_ ?_
        · show size p + size (b.afterLooks looks) = size p + size b
          rw [hb.1]
        · show writes p ++ writes (b.afterLooks looks) = writes p ++ writes b
          rw [hb.2.2]
    | _ => exact ⟨rfl, rfl, rfl⟩
  refine writtenAlike_of ?_ ?_
  · show headerLen + _ = headerLen + _
    rw [h.1]
  · obtain ⟨c, p⟩ := f
    show Write.put (frameHeader (headerLen + size (p.afterLooks looks)) frameTypeAmqp c) ::
      writes (p.afterLooks looks) = _
    rw [h.1, h.2.2]; rfl

/-- **C81.** So the codec does the same with it, to the same buffer. -/
theorem C81_codec (f : AmqpFrame) (looks : List Look) (slack : Growth) (dst : Buf) :
    codecEncode slack { f with performative := f.performative.afterLooks looks } dst =
      codecEncode slack f dst := by
  have h := C81_frame f looks
  unfold codecEncode encodeInto
  rw [h.1, h.2.2]

/-- A message with a message inside that is asked for its size and encoded: the looks do
change the remembered sizes. -/
def looked : OutMessage :=
  Message.withMessages [.MessageOut { value := some .null } [.Data ⟨[1, 2]⟩]]
example : ∀ op ∈ [Op.sizeNested 0 [], .encode, .encodeNested 0 [0], .size], op.Looks := by
  simp [Op.Looks]
example : (runOps Message.setAppPropertyOut looked [.sizeNested 0 [], .encode, .size]).cache ≠
    looked.cache := by decide +kernel
example : ∃ b : TransferBody, ∃ m ms, b.afterLooks [.encode [], .size [0]] = .MessageOut m ms ∧
    (∃ m' ms', ms = [.MessageOut m' ms'] ∧ m'.cache ≠ 0) ∧ m.cache = 0 :=
  ⟨looked.toOut, _, _, rfl, ⟨_, _, rfl, by decide +kernel⟩, rfl⟩

end Amqp
