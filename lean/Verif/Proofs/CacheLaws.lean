import Verif.Proofs.MessageLaws
/-!
# Laws of the size caches of messages
-/
set_option autoImplicit false
namespace Amqp

mutual
theorem clear_fresh : ∀ b : TransferBody, b.clear.Fresh
  | .Data _ => by simp [TransferBody.clear, TransferBody.Fresh]
  | .MessageIn m ms => by
    simp only [TransferBody.clear, TransferBody.Fresh]; exact ⟨trivial, clearAll_fresh ms⟩
  | .MessageOut m ms => by
    simp only [TransferBody.clear, TransferBody.Fresh]; exact ⟨trivial, clearAll_fresh ms⟩
theorem clearAll_fresh : ∀ ms : List TransferBody, FreshAll (clearAll ms)
  | [] => by simp [clearAll, FreshAll]
  | b :: t => by simp only [clearAll, FreshAll]; exact ⟨clear_fresh b, clearAll_fresh t⟩
end

mutual
theorem clear_headers : ∀ b : TransferBody, b.clear.headers = b.headers
  | .Data _ => by simp [TransferBody.clear]
  | .MessageIn m ms => by
    simp only [TransferBody.clear, TransferBody.headers, clearAll_headers ms]
  | .MessageOut m ms => by
    simp only [TransferBody.clear, TransferBody.headers, clearAll_headers ms]
theorem clearAll_headers : ∀ ms : List TransferBody, headersAll (clearAll ms) = headersAll ms
  | [] => by simp [clearAll]
  | b :: t => by simp only [clearAll, headersAll, clear_headers b, clearAll_headers t]
end

mutual
theorem clear_clear : ∀ b : TransferBody, b.clear.clear = b.clear
  | .Data _ => by simp [TransferBody.clear]
  | .MessageIn m ms => by simp only [TransferBody.clear, clearAll_clearAll ms]
  | .MessageOut m ms => by simp only [TransferBody.clear, clearAll_clearAll ms]
theorem clearAll_clearAll : ∀ ms : List TransferBody, clearAll (clearAll ms) = clearAll ms
  | [] => by simp [clearAll]
  | b :: t => by simp only [clearAll, clear_clear b, clearAll_clearAll t]
end

theorem tsize_in_clear (m : MsgHead StringVariantMap) (ms : List TransferBody) :
    size (TransferBody.MessageIn m ms).clear =
      m.freshSize (bodySizeWith m.data m.sequence m.value (nestedSize (clearAll ms))) := by
  show TransferBody.tsize _ = _
  simp only [TransferBody.clear, TransferBody.tsize, ne_eq, not_true_eq_false, if_false]
  rfl

theorem tsize_out_clear (m : MsgHead VecVariantMap) (ms : List TransferBody) :
    size (TransferBody.MessageOut m ms).clear =
      m.freshSize (bodySizeWith m.data m.sequence m.value (nestedSize (clearAll ms))) := by
  show TransferBody.tsize _ = _
  simp only [TransferBody.clear, TransferBody.tsize, ne_eq, not_true_eq_false, if_false]
  rfl

theorem msize_clear {AP : Type} [Encode AP] (m : Message AP) :
    size m.clear = m.freshSize (bodySizeWith m.data m.sequence m.value
      (nestedSize (clearAll m.messages))) := by
  show Message.msize _ = _
  simp only [Message.msize, Message.clear, ne_eq, not_true_eq_false, if_false]
  rfl

mutual
/-- Coherent caches are as good as unset ones. -/
theorem tsize_coherent : ∀ b : TransferBody, b.Coherent → b.tsize = b.clear.tsize
  | .Data _, _ => by simp [TransferBody.clear]
  | .MessageIn m ms, h => by
    simp only [TransferBody.Coherent] at h
    obtain ⟨hc, hn⟩ := h
    have hs : TransferBody.tsize (TransferBody.MessageIn m ms).clear = _ := tsize_in_clear m ms
    have ih := nestedSize_coherent ms hn
    by_cases h0 : m.cache = 0
    · rw [hs, ← ih]
      simp only [TransferBody.tsize, h0, ne_eq, not_true_eq_false, if_false]
    · have : m.cache = TransferBody.tsize (TransferBody.MessageIn m ms).clear := hc.resolve_left h0
      rw [← this]
      simp only [TransferBody.tsize, ne_eq, h0, not_false_eq_true, if_true]
  | .MessageOut m ms, h => by
    simp only [TransferBody.Coherent] at h
    obtain ⟨hc, hn⟩ := h
    have hs : TransferBody.tsize (TransferBody.MessageOut m ms).clear = _ := tsize_out_clear m ms
    have ih := nestedSize_coherent ms hn
    by_cases h0 : m.cache = 0
    · rw [hs, ← ih]
      simp only [TransferBody.tsize, h0, ne_eq, not_true_eq_false, if_false]
    · have : m.cache = TransferBody.tsize (TransferBody.MessageOut m ms).clear := hc.resolve_left h0
      rw [← this]
      simp only [TransferBody.tsize, ne_eq, h0, not_false_eq_true, if_true]
theorem nestedSize_coherent : ∀ ms : List TransferBody, CoherentAll ms →
    nestedSize ms = nestedSize (clearAll ms)
  | [], _ => by simp [clearAll]
  | b :: t, h => by
    simp only [CoherentAll] at h
    simp only [clearAll, nestedSize, tsize_coherent b h.1, nestedSize_coherent t h.2]
end

mutual
theorem tenc_coherent : ∀ b : TransferBody, b.Coherent → b.tenc = b.clear.tenc
  | .Data _, _ => by simp [TransferBody.clear]
  | .MessageIn m ms, h => by
    simp only [TransferBody.Coherent] at h
    simp only [TransferBody.clear, TransferBody.tenc, nestedSize_coherent ms h.2,
      nestedEnc_coherent ms h.2]
    rfl
  | .MessageOut m ms, h => by
    simp only [TransferBody.Coherent] at h
    simp only [TransferBody.clear, TransferBody.tenc, nestedSize_coherent ms h.2,
      nestedEnc_coherent ms h.2]
    rfl
theorem nestedEnc_coherent : ∀ ms : List TransferBody, CoherentAll ms →
    nestedEnc ms = nestedEnc (clearAll ms)
  | [], _ => by simp [clearAll]
  | b :: t, h => by
    simp only [CoherentAll] at h
    simp only [clearAll, nestedEnc, tsize_coherent b h.1, tenc_coherent b h.1,
      nestedEnc_coherent t h.2]
end

mutual
theorem touch_clear : ∀ b : TransferBody, b.touch.clear = b.clear
  | .Data _ => by simp [TransferBody.touch]
  | .MessageIn m ms => by
    simp only [TransferBody.touch]
    split
    · rfl
    · simp only [TransferBody.clear, touchAll_clear ms]
  | .MessageOut m ms => by
    simp only [TransferBody.touch]
    split
    · rfl
    · simp only [TransferBody.clear, touchAll_clear ms]
theorem touchAll_clear : ∀ ms : List TransferBody, clearAll (touchAll ms) = clearAll ms
  | [] => by simp [touchAll]
  | b :: t => by simp only [touchAll, clearAll, touch_clear b, touchAll_clear t]
end

mutual
theorem touch_coherent : ∀ b : TransferBody, b.Coherent → b.touch.Coherent
  | .Data _, _ => by simp [TransferBody.touch, TransferBody.Coherent]
  | .MessageIn m ms, h => by
    have h' := h
    simp only [TransferBody.Coherent] at h'
    simp only [TransferBody.touch]
    split
    · exact h
    · simp only [TransferBody.Coherent]
      refine ⟨.inr ?_, touchAll_coherent ms h'.2⟩
      rw [tsize_in_clear, touchAll_clear, ← nestedSize_coherent ms h'.2]
      rfl
  | .MessageOut m ms, h => by
    have h' := h
    simp only [TransferBody.Coherent] at h'
    simp only [TransferBody.touch]
    split
    · exact h
    · simp only [TransferBody.Coherent]
      refine ⟨.inr ?_, touchAll_coherent ms h'.2⟩
      rw [tsize_out_clear, touchAll_clear, ← nestedSize_coherent ms h'.2]
      rfl
theorem touchAll_coherent : ∀ ms : List TransferBody, CoherentAll ms → CoherentAll (touchAll ms)
  | [], _ => by simp [touchAll, CoherentAll]
  | b :: t, h => by
    simp only [CoherentAll] at h
    simp only [touchAll, CoherentAll]
    exact ⟨touch_coherent b h.1, touchAll_coherent t h.2⟩
end

mutual
theorem settle_clear : ∀ b : TransferBody, b.settle.clear = b.clear
  | .Data _ => by simp [TransferBody.settle]
  | .MessageIn m ms => by simp only [TransferBody.settle, TransferBody.clear, settleAll_clear ms]
  | .MessageOut m ms => by simp only [TransferBody.settle, TransferBody.clear, settleAll_clear ms]
theorem settleAll_clear : ∀ ms : List TransferBody, clearAll (settleAll ms) = clearAll ms
  | [] => by simp [settleAll]
  | b :: t => by simp only [settleAll, clearAll, settle_clear b, settleAll_clear t]
end

mutual
theorem settle_coherent : ∀ b : TransferBody, b.Coherent → b.settle.Coherent
  | .Data _, _ => by simp [TransferBody.settle, TransferBody.Coherent]
  | .MessageIn m ms, h => by
    have hs := tsize_coherent _ h
    simp only [TransferBody.Coherent] at h
    simp only [TransferBody.settle, TransferBody.Coherent]
    refine ⟨.inr ?_, settleAll_coherent ms h.2⟩
    rw [hs]
    simp only [TransferBody.clear, settleAll_clear]
    rfl
  | .MessageOut m ms, h => by
    have hs := tsize_coherent _ h
    simp only [TransferBody.Coherent] at h
    simp only [TransferBody.settle, TransferBody.Coherent]
    refine ⟨.inr ?_, settleAll_coherent ms h.2⟩
    rw [hs]
    simp only [TransferBody.clear, settleAll_clear]
    rfl
theorem settleAll_coherent : ∀ ms : List TransferBody, CoherentAll ms → CoherentAll (settleAll ms)
  | [], _ => by simp [settleAll, CoherentAll]
  | b :: t, h => by
    simp only [CoherentAll] at h
    simp only [settleAll, CoherentAll]
    exact ⟨settle_coherent b h.1, settleAll_coherent t h.2⟩
end

theorem Message.freshSize_pos {AP : Type} [Encode AP] (m : MsgHead AP) (b : Nat) : m.freshSize b ≠ 0 := by
  unfold MsgHead.freshSize sectionPrefixLength
  split <;> omega

mutual
theorem touch_tsize : ∀ b : TransferBody, b.touch.tsize = b.tsize
  | .Data _ => by simp [TransferBody.touch]
  | .MessageIn m ms => by
    simp only [TransferBody.touch]
    split
    · rfl
    · rename_i h
      simp only [TransferBody.tsize]
      rw [if_pos (Message.freshSize_pos _ _), if_neg h]
  | .MessageOut m ms => by
    simp only [TransferBody.touch]
    split
    · rfl
    · rename_i h
      simp only [TransferBody.tsize]
      rw [if_pos (Message.freshSize_pos _ _), if_neg h]
theorem touchAll_nestedSize : ∀ ms : List TransferBody, nestedSize (touchAll ms) = nestedSize ms
  | [] => by simp [touchAll]
  | b :: t => by simp only [touchAll, nestedSize, touch_tsize b, touchAll_nestedSize t]
end

mutual
theorem settle_touch : ∀ b : TransferBody, b.touch.settle = b.settle
  | .Data _ => by simp [TransferBody.touch]
  | .MessageIn m ms => by
    have h0 := touch_tsize (.MessageIn m ms)
    have h1 := settleAll_touch ms
    by_cases h : m.cache ≠ 0
    · simp only [TransferBody.touch, if_pos h]
    · simp only [TransferBody.touch, if_neg h] at h0 ⊢
      simp only [TransferBody.settle, h0, h1]
  | .MessageOut m ms => by
    have h0 := touch_tsize (.MessageOut m ms)
    have h1 := settleAll_touch ms
    by_cases h : m.cache ≠ 0
    · simp only [TransferBody.touch, if_pos h]
    · simp only [TransferBody.touch, if_neg h] at h0 ⊢
      simp only [TransferBody.settle, h0, h1]
theorem settleAll_touch : ∀ ms : List TransferBody, settleAll (touchAll ms) = settleAll ms
  | [] => by simp [touchAll]
  | b :: t => by simp only [touchAll, settleAll, settle_touch b, settleAll_touch t]
end

/-- `settle` is `encoded_size` and then `encode`. -/
theorem settle_eq (b : TransferBody) : b.settle = b.touch.afterEncode := by
  cases b with
  | Data _ => simp [TransferBody.touch, TransferBody.settle, TransferBody.afterEncode]
  | MessageIn m ms =>
    by_cases h : m.cache ≠ 0
    · simp only [TransferBody.touch, TransferBody.settle, TransferBody.tsize, if_pos h,
        TransferBody.afterEncode]
    · simp only [TransferBody.touch, TransferBody.settle, TransferBody.tsize, if_neg h,
        TransferBody.afterEncode, settleAll_touch]
  | MessageOut m ms =>
    by_cases h : m.cache ≠ 0
    · simp only [TransferBody.touch, TransferBody.settle, TransferBody.tsize, if_pos h,
        TransferBody.afterEncode]
    · simp only [TransferBody.touch, TransferBody.settle, TransferBody.tsize, if_neg h,
        TransferBody.afterEncode, settleAll_touch]

theorem afterEncode_clear (b : TransferBody) : b.afterEncode.clear = b.clear := by
  cases b <;> simp only [TransferBody.afterEncode, TransferBody.clear, settleAll_clear]

theorem afterEncode_coherent (b : TransferBody) (h : b.Coherent) : b.afterEncode.Coherent := by
  cases b with
  | Data _ => exact h
  | MessageIn m ms =>
    simp only [TransferBody.Coherent, TransferBody.afterEncode, TransferBody.clear,
      settleAll_clear] at h ⊢
    exact ⟨h.1, settleAll_coherent _ h.2⟩
  | MessageOut m ms =>
    simp only [TransferBody.Coherent, TransferBody.afterEncode, TransferBody.clear,
      settleAll_clear] at h ⊢
    exact ⟨h.1, settleAll_coherent _ h.2⟩

theorem clearAll_modify (f : TransferBody → TransferBody) (hf : ∀ b, (f b).clear = b.clear) :
    ∀ (i : Nat) (ms : List TransferBody), clearAll (ms.modify i f) = clearAll ms
  | _, [] => by simp
  | 0, b :: t => by simp only [List.modify_zero_cons, clearAll, hf]
  | i + 1, b :: t => by simp only [List.modify_succ_cons, clearAll, clearAll_modify f hf i t]

theorem coherent_modify (f : TransferBody → TransferBody) (hf : ∀ b, b.Coherent → (f b).Coherent) :
    ∀ (i : Nat) (ms : List TransferBody), CoherentAll ms → CoherentAll (ms.modify i f)
  | i, [], h => by cases i <;> exact h
  | 0, b :: t, h => by
    simp only [CoherentAll] at h
    simp only [List.modify_zero_cons, CoherentAll]
    exact ⟨hf b h.1, h.2⟩
  | i + 1, b :: t, h => by
    simp only [CoherentAll] at h
    simp only [List.modify_succ_cons, CoherentAll]
    exact ⟨h.1, coherent_modify f hf i t h.2⟩

theorem clear_modifyAt (f : TransferBody → TransferBody) (hf : ∀ b, (f b).clear = b.clear) :
    ∀ (p : List Nat) (b : TransferBody), (b.modifyAt f p).clear = b.clear
  | [], b => hf b
  | _ :: _, .Data _ => rfl
  | i :: p, .MessageIn m ms => by
    simp only [TransferBody.modifyAt, TransferBody.clear,
      clearAll_modify _ (clear_modifyAt f hf p)]
  | i :: p, .MessageOut m ms => by
    simp only [TransferBody.modifyAt, TransferBody.clear,
      clearAll_modify _ (clear_modifyAt f hf p)]

theorem coherent_modifyAt (f : TransferBody → TransferBody) (hc : ∀ b, (f b).clear = b.clear)
    (hf : ∀ b, b.Coherent → (f b).Coherent) :
    ∀ (p : List Nat) (b : TransferBody), b.Coherent → (b.modifyAt f p).Coherent
  | [], b, h => hf b h
  | _ :: _, .Data _, h => h
  | i :: p, .MessageIn m ms, h => by
    simp only [TransferBody.Coherent, TransferBody.modifyAt, TransferBody.clear,
      clearAll_modify _ (clear_modifyAt f hc p)] at h ⊢
    exact ⟨h.1, coherent_modify _ (coherent_modifyAt f hc hf p) i ms h.2⟩
  | i :: p, .MessageOut m ms, h => by
    simp only [TransferBody.Coherent, TransferBody.modifyAt, TransferBody.clear,
      clearAll_modify _ (clear_modifyAt f hc p)] at h ⊢
    exact ⟨h.1, coherent_modify _ (coherent_modifyAt f hc hf p) i ms h.2⟩

section
variable {AP : Type} [Encode AP]

theorem Message.clear_fresh (m : Message AP) : m.clear.Fresh := ⟨rfl, clearAll_fresh _⟩

theorem Message.clear_headers (m : Message AP) : m.clear.headers = m.headers := by
  show _ + headersAll (clearAll m.messages) = _ + _
  rw [clearAll_headers]
  rfl

theorem Message.size_coherent (m : Message AP) (h : m.Coherent) : size m = size m.clear := by
  obtain ⟨hc, hn⟩ := h
  by_cases h0 : m.cache = 0
  · rw [msize_clear, ← nestedSize_coherent _ hn]
    show m.msize = _
    simp only [Message.msize, h0, ne_eq, not_true_eq_false, if_false]
    rfl
  · rw [← hc.resolve_left h0]
    show m.msize = _
    simp only [Message.msize, ne_eq, h0, not_false_eq_true, if_true]

theorem Message.enc_coherent (m : Message AP) (h : m.Coherent) : enc m = enc m.clear := by
  show m.menc = m.clear.menc
  simp only [Message.menc, Message.bodySize, nestedSize_coherent _ h.2, nestedEnc_coherent _ h.2]
  rfl

theorem Message.touch_cache (m : Message AP) : m.touch.cache = size m := by
  show _ = m.msize
  unfold Message.touch Message.msize
  split <;> rfl

theorem Message.touch_clear (m : Message AP) : m.touch.clear = m.clear := by
  unfold Message.touch
  split
  · rfl
  · show { m with cache := 0, messages := clearAll (touchAll m.messages) } = _
    rw [touchAll_clear]; rfl

/-- One honest call keeps the caches coherent, unless it is `set_value` on a
message with a cached size. -/
theorem apply_coherent (setApp : Message AP → Str → Variant → Message AP)
    (hset : ∀ m k v, (setApp m k v).cache = 0 ∧ (setApp m k v).messages = m.messages)
    (m : Message AP) (h : m.Coherent) (op : Op) (ho : op.Honest)
    (hv : ∀ v, op = .setValue v → m.cache = 0) : (op.apply setApp m).Coherent := by
  have keep : ∀ m' : Message AP, m'.cache = 0 → m'.messages = m.messages → m'.Coherent :=
    fun m' h1 h2 => ⟨.inl h1, by rw [h2]; exact h.2⟩
  cases op with
  | setFormat f => exact ⟨h.1, h.2⟩
  | setHeader x => exact keep _ rfl rfl
  | setProperties f => exact keep _ rfl rfl
  | setAppProperty k v => exact keep _ (hset m k v).1 (hset m k v).2
  | reset => exact keep _ rfl rfl
  | setValue v => exact keep _ (hv v rfl) rfl
  | setBody f => exact ⟨.inl rfl, ho _ h.2⟩
  | size =>
    show m.touch.Coherent
    unfold Message.touch
    split
    · exact h
    · refine ⟨.inr ?_, touchAll_coherent _ h.2⟩
      rw [msize_clear]
      show m.freshSize (bodySizeWith _ _ _ _) = m.freshSize (bodySizeWith _ _ _ (nestedSize
        (clearAll (touchAll m.messages))))
      rw [touchAll_clear, ← nestedSize_coherent _ h.2]
  | encode =>
    refine ⟨?_, settleAll_coherent _ h.2⟩
    have : (Op.encode.apply setApp m).clear = m.clear := by
      show { m with cache := 0, messages := clearAll (settleAll m.messages) } = _
      rw [settleAll_clear]; rfl
    rw [this]
    exact h.1
  | sizeNested i p =>
    refine ⟨?_, coherent_modify _ (coherent_modifyAt _ touch_clear touch_coherent p) i _ h.2⟩
    have : ((Op.sizeNested i p).apply setApp m).clear = m.clear := by
      show { m with cache := 0, messages := clearAll (m.messages.modify i _) } = _
      rw [clearAll_modify _ (clear_modifyAt _ touch_clear p)]; rfl
    rw [this]
    exact h.1
  | encodeNested i p =>
    refine ⟨?_, coherent_modify _ (coherent_modifyAt _ afterEncode_clear afterEncode_coherent p) i _ h.2⟩
    have : ((Op.encodeNested i p).apply setApp m).clear = m.clear := by
      show { m with cache := 0, messages := clearAll (m.messages.modify i _) } = _
      rw [clearAll_modify _ (clear_modifyAt _ afterEncode_clear p)]; rfl
    rw [this]
    exact h.1

theorem runOps_coherent (setApp : Message AP → Str → Variant → Message AP)
    (hset : ∀ m k v, (setApp m k v).cache = 0 ∧ (setApp m k v).messages = m.messages) :
    ∀ (ops : List Op) (m : Message AP) (asked : Bool), m.Coherent → (∀ op ∈ ops, op.Honest) →
      (asked = false → m.cache = 0) → NoStaleValue asked ops →
      (runOps setApp m ops).Coherent
  | [], m, _, h, _, _, _ => h
  | op :: t, m, asked, h, ho, ha, hn => by
    have h1 := ho op (by simp)
    have hrec : ∀ asked', (asked' = false → (op.apply setApp m).cache = 0) →
        NoStaleValue asked' t → (∀ v, op = .setValue v → m.cache = 0) →
        (runOps setApp m (op :: t)).Coherent := fun asked' ha' hn' hv =>
      runOps_coherent setApp hset t (op.apply setApp m) asked'
        (apply_coherent setApp hset m h op h1 hv) (fun o hm => ho o (by simp [hm])) ha' hn'
    cases op with
    | setFormat f => exact hrec asked ha hn (by simp)
    | setHeader x => exact hrec false (fun _ => rfl) hn (by simp)
    | setProperties f => exact hrec false (fun _ => rfl) hn (by simp)
    | setAppProperty k v => exact hrec false (fun _ => (hset m k v).1) hn (by simp)
    | reset => exact hrec false (fun _ => rfl) hn (by simp)
    | setValue v => exact hrec asked ha hn.2 (fun _ _ => ha hn.1)
    | setBody f => exact hrec false (fun _ => rfl) hn (by simp)
    | size => exact hrec true (by simp) hn (by simp)
    | encode => exact hrec asked ha hn (by simp)
    | sizeNested i p => exact hrec asked ha hn (by simp)
    | encodeNested i p => exact hrec asked ha hn (by simp)

end
end Amqp
