import Verif.Proofs.EqualityFrames
import Verif.Proofs.EqualityReceivedLists
import Verif.Props.Forwarding
/-!
# C63: equality of values, performatives, frames and messages

`==` should be an equivalence that goes by content.  It is one on all values a
program can hold, and it goes by content except for messages: the derived
`PartialEq` of `InMessage` and `OutMessage` also compares the remembered size.
-/
set_option autoImplicit false
namespace Amqp
open Dec

theorem lawful_of {α : Type} [REq α] [Holdable α] [LawfulREq α] : EqualityLawful α :=
  ⟨LawfulREq.refl, LawfulREq.symm, LawfulREq.trans⟩
theorem sizes_of {α : Type} [REq α] [Holdable α] [Encode α] [SizeREq α] : EqualSizes α :=
  SizeREq.size_eq

/-! ## An equivalence -/

/-- **C63**: `==` is an equivalence on frames and messages. -/
theorem C63_equivalence : EqualityLawful AmqpFrame ∧ EqualityLawful SaslFrame ∧
    EqualityLawful Frame ∧ EqualityLawful SaslFrameBody ∧ EqualityLawful Section ∧
    EqualityLawful InMessage ∧ EqualityLawful OutMessage ∧ EqualityLawful TransferBody :=
  ⟨lawful_of, lawful_of, lawful_of, lawful_of, lawful_of, lawful_of, lawful_of, lawful_of⟩

/-- **C63**: and on performatives and what they consist of. -/
theorem C63_performatives : EqualityLawful Open ∧ EqualityLawful Begin ∧ EqualityLawful Attach ∧
    EqualityLawful Flow ∧ EqualityLawful Transfer ∧ EqualityLawful Disposition ∧
    EqualityLawful Detach ∧ EqualityLawful End ∧ EqualityLawful Close ∧ EqualityLawful Error ∧
    EqualityLawful Source ∧ EqualityLawful Target ∧ EqualityLawful DeliveryState ∧
    EqualityLawful Outcome ∧ EqualityLawful Header ∧ EqualityLawful Properties ∧
    EqualityLawful SaslMechanisms ∧ EqualityLawful SaslInit ∧ EqualityLawful SaslChallenge ∧
    EqualityLawful SaslResponse ∧ EqualityLawful SaslOutcome :=
  ⟨lawful_of, lawful_of, lawful_of, lawful_of, lawful_of, lawful_of, lawful_of, lawful_of, lawful_of,
    lawful_of, lawful_of, lawful_of, lawful_of, lawful_of, lawful_of, lawful_of, lawful_of, lawful_of,
    lawful_of, lawful_of, lawful_of⟩

/-- **C63**: equal values announce the same size. -/
theorem C63_sizes : EqualSizes AmqpFrame ∧ EqualSizes SaslFrame ∧ EqualSizes Section ∧
    EqualSizes InMessage ∧ EqualSizes OutMessage ∧ EqualSizes TransferBody ∧ EqualSizes Variant :=
  ⟨sizes_of, sizes_of, sizes_of, sizes_of, sizes_of, sizes_of, sizes_of⟩

/-! ## Maps -/

/-- **C63**: maps are equal exactly if a reordering of the second has, entry by
entry, equal keys and equal values.  (`Fields`, `Annotations`, application
properties, filter sets, and maps of variants.) -/
theorem C63_maps {K V : Type} [HKey K] [LawfulKey K] [REq V] [Holdable V] (a b : HMap K V)
    (ha : held a) (hb : held b) : req a b = true ↔
      ∃ b' : List (K × V), b'.Perm b.entries ∧ a.entries.length = b'.length ∧
        ∀ i (h1 : i < a.entries.length) (h2 : i < b'.length),
          HKey.keq a.entries[i].1 b'[i].1 = true ∧ req a.entries[i].2 b'[i].2 = true := by
  refine (mapReq_iff (held_entries ha) (held_entries hb)).trans ?_
  constructor
  · rintro ⟨b', p, h⟩
    exact ⟨b', p, h.length, fun i h1 h2 => All2.getElem h i h1 h2⟩
  · rintro ⟨b', p, hl, h⟩
    exact ⟨b', p, All2.of_getElem hl h⟩

/-- **C63**: the order of the entries does not matter. -/
theorem C63_map_order {K V : Type} [HKey K] [LawfulKey K] [REq V] [Holdable V] [LawfulREq V]
    (a b : HMap K V) (p : a.entries.Perm b.entries) (ha : held a) (hb : held b) : req a b = true :=
  (C63_maps a b ha hb).2 ⟨a.entries, p, rfl, fun i h1 _ =>
    have h := ha.1 _ (List.getElem_mem h1)
    ⟨LawfulKey.refl h.1, LawfulREq.refl _ h.2⟩⟩

/-- Two orders of the same two entries. -/
example : req (⟨[(⟨.lit "a"⟩, .uint 1), (⟨.lit "b"⟩, .null)]⟩ : Fields)
    ⟨[(⟨.lit "b"⟩, .null), (⟨.lit "a"⟩, .uint 1)]⟩ = true := by decide +kernel

/-! ## What was received -/

/-- **C63**: whatever is received is among the values a program can hold, so the
laws above apply to it. -/
theorem C63_received_frames (env : Env) (i r : Bytes) :
    (∀ f, AmqpFrame.decode env i = .ok (r, f) → held f) ∧
    (∀ f, SaslFrame.decode env i = .ok (r, f) → held f) := by
  refine ⟨fun f h => ?_, fun f h => ?_⟩
  · obtain ⟨_, ch, _, h⟩ := bind_eq_ok.1 h
    obtain ⟨_, p, h1, h⟩ := bind_eq_ok.1 h
    cases h
    have ho := Frame.decode_origin h1
    show held p
    cases p with
    | Open x => obtain ⟨i, r, h⟩ := ho; exact Open.receivedInner env i r x h
    | Begin x => obtain ⟨i, r, h⟩ := ho; exact Begin.receivedInner env i r x h
    | Attach x => obtain ⟨i, r, h⟩ := ho; exact Attach.receivedInner env i r x h
    | Flow x => obtain ⟨i, r, h⟩ := ho; exact Flow.receivedInner env i r x h
    | Transfer x =>
      obtain ⟨⟨i, r, h⟩, hb⟩ := ho
      refine ⟨TransferPerf.receivedInner env i r _ h, fun b e => ?_⟩
      obtain ⟨d, rfl, _⟩ := hb b e
      show TransferBody.Held _
      simp [TransferBody.Held]
    | Disposition x => obtain ⟨i, r, h⟩ := ho; exact Disposition.receivedInner env i r x h
    | Detach x => obtain ⟨i, r, h⟩ := ho; exact Detach.receivedInner env i r x h
    | End x => obtain ⟨i, r, h⟩ := ho; exact End.receivedInner env i r x h
    | Close x => obtain ⟨i, r, h⟩ := ho; exact Close.receivedInner env i r x h
    | Empty => trivial
  · obtain ⟨_, ch, _, h⟩ := bind_eq_ok.1 h
    obtain ⟨_, p, h1, h⟩ := bind_eq_ok.1 h
    cases h
    exact ReceivedHeld.held_of (α := SaslFrameBody) env _ _ p h1

theorem held_list_snoc {α : Type} [Holdable α] {l : List α} {a : α} (h : held l) (ha : held a) :
    held (l ++ [a]) := by
  intro x hx
  rcases List.mem_append.1 hx with hx | hx
  · exact h x hx
  · rw [List.mem_singleton.1 hx]; exact ha

theorem held_some {α : Type} [Holdable α] {a : α} (h : held a) : held (some a) := by
  intro b e; cases e; exact h

section
variable {AP : Type} [Holdable AP] {conv : StringVariantMap → AP}

theorem addSection_held (hc : ∀ m, held m → held (conv m)) {m : Message AP} (hm : held m)
    {s : Section} (hs : held s) : held (m.addSection conv s) := by
  obtain ⟨⟨h1, h2, h3, h4, h5, h6, h7, h8⟩, h9⟩ := hm
  cases s with
  | Header v => exact ⟨⟨held_some hs, h2, h3, h4, h5, h6, h7, h8⟩, h9⟩
  | DeliveryAnnotations v => exact ⟨⟨h1, held_some hs, h3, h4, h5, h6, h7, h8⟩, h9⟩
  | MessageAnnotations v => exact ⟨⟨h1, h2, held_some hs, h4, h5, h6, h7, h8⟩, h9⟩
  | ApplicationProperties v => exact ⟨⟨h1, h2, h3, h4, held_some (hc v hs), h6, h7, h8⟩, h9⟩
  | Data v => exact ⟨⟨h1, h2, h3, h4, h5, h6, h7, h8⟩, h9⟩
  | AmqpSequence v => exact ⟨⟨h1, h2, h3, h4, h5, h6, held_list_snoc h7 hs, h8⟩, h9⟩
  | AmqpValue v => exact ⟨⟨h1, h2, h3, h4, h5, h6, h7, held_some hs⟩, h9⟩
  | Footer v => exact ⟨⟨h1, h2, h3, h4, h5, held_some hs, h7, h8⟩, h9⟩
  | Properties v => exact ⟨⟨h1, h2, h3, held_some hs, h5, h6, h7, h8⟩, h9⟩

theorem addSection_fresh {m : Message AP} (hm : m.Fresh) (s : Section) : (m.addSection conv s).Fresh := by
  cases s <;> exact hm

theorem loop_held (hc : ∀ m, held m → held (conv m)) (env : Env) : ∀ (n : Nat) (m : Message AP)
    (i r : Bytes) (m' : Message AP), held m → m.Fresh → Message.loop env conv n m i = .ok (r, m') →
    held m' ∧ m'.Fresh
  | 0, _, _, _, _, _, _, h => by cases h
  | n + 1, m, i, r, m', hm, hf, h => by
    simp only [Message.loop] at h
    cases hd : decode Section env i with
    | err e => rw [hd] at h; cases h
    | panic p => rw [hd] at h; cases h
    | ok q =>
      obtain ⟨buf, sec⟩ := q
      rw [hd] at h
      simp only at h
      have hs := ReceivedHeld.held_of env i buf sec hd
      split at h
      · cases h
        exact ⟨addSection_held hc hm hs, addSection_fresh hf sec⟩
      · exact loop_held hc env n _ _ _ _ (addSection_held hc hm hs) (addSection_fresh hf sec) h

theorem empty_held : held (Message.empty : Message AP) := by
  refine ⟨⟨?_, ?_, ?_, ?_, ?_, ?_, ?_, ?_⟩, ?_⟩
  all_goals first
    | (intro a e; cases e; done)
    | exact True.intro

end

/-- **C63**: likewise received messages; and no size is remembered in them. -/
theorem C63_received_messages (env : Env) (i r : Bytes) :
    (∀ m, InMessage.decode env i = .ok (r, m) → held m ∧ m.Fresh) ∧
    (∀ (order : StringVariantMap → List (Str × Variant)) m, (∀ a, (order a).Perm a.entries) →
      OutMessage.decode env order i = .ok (r, m) → held m ∧ m.Fresh) := by
  refine ⟨fun m h => loop_held (fun _ h => h) env _ _ _ _ _ empty_held ⟨rfl, trivial⟩ h,
    fun order m ho h => loop_held (fun a ha e he => ?_) env _ _ _ _ _ empty_held ⟨rfl, trivial⟩ h⟩
  exact (ha.1 e ((ho a).mem_iff.1 he)).2

/-! ## Messages: content and remembered sizes -/

theorem teqList_iff (l m : List TransferBody) : teqList l m = true ↔ req l m = true := by
  have : ∀ l m : List TransferBody, teqList l m = listReq req l m := by
    intro l
    induction l with
    | nil => intro m; cases m <;> simp [teqList, listReq]
    | cons a l ih =>
      intro m
      cases m with
      | nil => simp [teqList, listReq]
      | cons b m => simp only [teqList, listReq, ih]; rfl
  rw [this]; rfl

mutual
theorem clear_of_fresh : ∀ b : TransferBody, b.Fresh → b.clear = b
  | .Data b, _ => by simp [TransferBody.clear]
  | .MessageIn m ms, h => by
    simp only [TransferBody.Fresh] at h
    simp only [TransferBody.clear, clearAll_of_fresh ms h.2]
    rw [← h.1]
  | .MessageOut m ms, h => by
    simp only [TransferBody.Fresh] at h
    simp only [TransferBody.clear, clearAll_of_fresh ms h.2]
    rw [← h.1]
theorem clearAll_of_fresh : ∀ l : List TransferBody, FreshAll l → clearAll l = l
  | [], _ => by simp [clearAll]
  | b :: t, h => by
    simp only [FreshAll] at h
    simp only [clearAll, clear_of_fresh b h.1, clearAll_of_fresh t h.2]
end

mutual
theorem teq_clear : ∀ a b : TransferBody, a.teq b = true → a.clear.teq b.clear = true
  | .Data a, b, h => by
    cases b with
    | Data b => simpa [TransferBody.clear] using h
    | _ => simp [TransferBody.teq] at h
  | .MessageIn m ms, b, h => by
    cases b with
    | MessageIn m' ms' =>
      simp only [TransferBody.teq, TransferBody.clear, Bool.and_eq_true] at h ⊢
      exact ⟨MsgHead.heq_forget h.1, teqList_clear ms ms' h.2⟩
    | _ => simp [TransferBody.teq] at h
  | .MessageOut m ms, b, h => by
    cases b with
    | MessageOut m' ms' =>
      simp only [TransferBody.teq, TransferBody.clear, Bool.and_eq_true] at h ⊢
      exact ⟨MsgHead.heq_forget h.1, teqList_clear ms ms' h.2⟩
    | _ => simp [TransferBody.teq] at h
theorem teqList_clear : ∀ l m : List TransferBody, teqList l m = true →
    teqList (clearAll l) (clearAll m) = true
  | [], m, h => by
    cases m with
    | nil => simp [clearAll, teqList]
    | cons => simp [teqList] at h
  | b :: t, m, h => by
    cases m with
    | nil => simp [teqList] at h
    | cons b' t' =>
      simp only [teqList, clearAll, Bool.and_eq_true] at h ⊢
      exact ⟨teq_clear b b' h.1, teqList_clear t t' h.2⟩
end

section
variable {AP : Type} [REq AP]

theorem Message.sameContent_iff (a b : Message AP) :
    a.SameContent b ↔ req a.clear b.clear = true := by
  rw [Message.req_iff, MsgHead.heq_iff, teqList_iff]
  unfold Message.SameContent Message.clear
  simp only [and_assoc, true_and]

/-- **C63**: equal messages have the same content. -/
theorem C63_equal_content (a b : Message AP) (h : req a b = true) : a.SameContent b := by
  rw [Message.req_iff] at h
  rw [Message.sameContent_iff, Message.req_iff]
  exact ⟨MsgHead.heq_forget h.1, teqList_clear _ _ h.2⟩

theorem Message.clear_of_fresh {m : Message AP} (h : m.Fresh) : m.clear = m := by
  obtain ⟨⟨_, _, _, _, _, _, _, _, _, _, c⟩, ms⟩ := m
  obtain ⟨h1, h2⟩ := h
  simp only at h1 h2
  simp only [Message.clear, clearAll_of_fresh _ h2, h1]

/-- What `==` of messages should be: equality of content. -/
def C63_statement (AP : Type) [REq AP] [Holdable AP] : Prop :=
  ∀ a b : Message AP, held a → held b → a.SameContent b → req a b = true

/-- **C63** for messages in which no size is remembered (fresh from
a constructor or a decoder, or built from such a one): equality goes by content.  Missing for the full statement: messages whose `encoded_size` was
called; see `C63_violated_sized`. -/
theorem C63_content_partial (a b : Message AP) (ha : a.Fresh) (hb : b.Fresh) :
    req a b = true ↔ a.SameContent b := by
  rw [Message.sameContent_iff, Message.clear_of_fresh ha, Message.clear_of_fresh hb]

variable [Encode AP]

/-- **C63**: after `encoded_size`, a message that had no remembered size differs
from what it was before, although the content is the same. -/
theorem C63_violated_sized [Holdable AP] [LawfulREq AP] (m : Message AP) (hm : held m)
    (h0 : m.cache = 0) : m.SameContent m.touch ∧ req m m.touch = false ∧ req m.touch m = false := by
  have hne : m.touch.cache ≠ m.cache := by
    rw [Message.touch_cache, h0]
    show m.msize ≠ 0
    unfold Message.msize
    rw [if_neg (by simp [h0])]
    exact Message.freshSize_pos _ _
  refine ⟨?_, ?_, ?_⟩
  · rw [Message.sameContent_iff, Message.touch_clear]
    have : m.SameContent m := C63_equal_content m m (LawfulREq.refl m hm)
    exact (Message.sameContent_iff m m).1 this
  · cases h : req m m.touch with
    | false => rfl
    | true => exact absurd (MsgHead.heq_cache ((Message.req_iff _ _).1 h).1).symm hne
  · cases h : req m.touch m with
    | false => rfl
    | true => exact absurd (MsgHead.heq_cache ((Message.req_iff _ _).1 h).1) hne

end

mutual
theorem touch_held : ∀ b : TransferBody, b.Held → b.touch.Held
  | .Data b, h => by simp [TransferBody.touch, TransferBody.Held]
  | .MessageIn m ms, h => by
    simp only [TransferBody.touch]
    split
    · exact h
    · simp only [TransferBody.Held] at h ⊢
      exact ⟨h.1, touchAll_held ms h.2⟩
  | .MessageOut m ms, h => by
    simp only [TransferBody.touch]
    split
    · exact h
    · simp only [TransferBody.Held] at h ⊢
      exact ⟨h.1, touchAll_held ms h.2⟩
theorem touchAll_held : ∀ l : List TransferBody, bodiesHeld l → bodiesHeld (touchAll l)
  | [], _ => by simp [touchAll, bodiesHeld]
  | b :: t, h => by
    simp only [bodiesHeld] at h
    simp only [touchAll, bodiesHeld]
    exact ⟨touch_held b h.1, touchAll_held t h.2⟩
end

theorem Message.touch_held {AP : Type} [Encode AP] [Holdable AP] (m : Message AP) (h : held m) :
    held m.touch := by
  unfold Message.touch
  split
  · exact h
  · exact ⟨h.1, touchAll_held _ h.2⟩

/-- **C63** fails for messages of either kind. -/
theorem C63_violated : ¬ C63_statement StringVariantMap ∧ ¬ C63_statement VecVariantMap := by
  constructor <;> intro h
  · have v := C63_violated_sized (AP := StringVariantMap) .empty empty_held rfl
    have := h _ _ empty_held (Message.touch_held _ empty_held) v.1
    rw [v.2.1] at this; cases this
  · have v := C63_violated_sized (AP := VecVariantMap) .empty empty_held rfl
    have := h _ _ empty_held (Message.touch_held _ empty_held) v.1
    rw [v.2.1] at this; cases this

mutual
theorem teq_touch : ∀ a b : TransferBody, a.Held → b.Held → a.Fresh → b.Fresh → a.teq b = true →
    a.touch.teq b.touch = true
  | .Data a, b, _, _, _, _, h => by
    cases b with
    | Data b => simpa [TransferBody.touch] using h
    | _ => simp [TransferBody.teq] at h
  | .MessageIn m ms, b, ha, hb, fa, fb, h => by
    cases b with
    | MessageIn m' ms' =>
      simp only [TransferBody.Held, TransferBody.Fresh] at ha hb fa fb
      simp only [TransferBody.teq, Bool.and_eq_true] at h
      simp only [TransferBody.touch]
      rw [if_neg (by simp [fa.1]), if_neg (by simp [fb.1])]
      simp only [TransferBody.teq, Bool.and_eq_true]
      refine ⟨?_, teqList_touch ms ms' ha.2 hb.2 fa.2 fb.2 h.2⟩
      have h1 := (MsgHead.heq_iff _ _).1 h.1
      rw [MsgHead.heq_iff]
      refine ⟨h1.1, h1.2.1, h1.2.2.1, h1.2.2.2.1, h1.2.2.2.2.1, h1.2.2.2.2.2.1, h1.2.2.2.2.2.2.1,
        h1.2.2.2.2.2.2.2.1, h1.2.2.2.2.2.2.2.2.1, h1.2.2.2.2.2.2.2.2.2.1, ?_⟩
      show MsgHead.freshSize _ _ = MsgHead.freshSize _ _
      rw [teqList_size ms ms' ha.2 hb.2 h.2]
      exact MsgHead.fresh_congr m m' ha.1 hb.1 (MsgHead.heq_forget h.1) _
    | _ => simp [TransferBody.teq] at h
  | .MessageOut m ms, b, ha, hb, fa, fb, h => by
    cases b with
    | MessageOut m' ms' =>
      simp only [TransferBody.Held, TransferBody.Fresh] at ha hb fa fb
      simp only [TransferBody.teq, Bool.and_eq_true] at h
      simp only [TransferBody.touch]
      rw [if_neg (by simp [fa.1]), if_neg (by simp [fb.1])]
      simp only [TransferBody.teq, Bool.and_eq_true]
      refine ⟨?_, teqList_touch ms ms' ha.2 hb.2 fa.2 fb.2 h.2⟩
      have h1 := (MsgHead.heq_iff _ _).1 h.1
      rw [MsgHead.heq_iff]
      refine ⟨h1.1, h1.2.1, h1.2.2.1, h1.2.2.2.1, h1.2.2.2.2.1, h1.2.2.2.2.2.1, h1.2.2.2.2.2.2.1,
        h1.2.2.2.2.2.2.2.1, h1.2.2.2.2.2.2.2.2.1, h1.2.2.2.2.2.2.2.2.2.1, ?_⟩
      show MsgHead.freshSize _ _ = MsgHead.freshSize _ _
      rw [teqList_size ms ms' ha.2 hb.2 h.2]
      exact MsgHead.fresh_congr m m' ha.1 hb.1 (MsgHead.heq_forget h.1) _
    | _ => simp [TransferBody.teq] at h
theorem teqList_touch : ∀ l m : List TransferBody, bodiesHeld l → bodiesHeld m → FreshAll l →
    FreshAll m → teqList l m = true → teqList (touchAll l) (touchAll m) = true
  | [], m, _, _, _, _, h => by
    cases m with
    | nil => simp [touchAll, teqList]
    | cons => simp [teqList] at h
  | b :: t, m, hl, hm, fl, fm, h => by
    cases m with
    | nil => simp [teqList] at h
    | cons b' t' =>
      simp only [bodiesHeld, FreshAll] at hl hm fl fm
      simp only [teqList, touchAll, Bool.and_eq_true] at h ⊢
      exact ⟨teq_touch b b' hl.1 hm.1 fl.1 fm.1 h.1, teqList_touch t t' hl.2 hm.2 fl.2 fm.2 h.2⟩
end

/-- **C63**: if `encoded_size` was called on both messages, equality goes by
content again. -/
theorem C63_sized_both_partial {AP : Type} [REq AP] [Holdable AP] [Encode AP] [SizeREq AP]
    (a b : Message AP) (ha : held a) (hb : held b) (fa : a.Fresh) (fb : b.Fresh) :
    req a.touch b.touch = true ↔ a.SameContent b := by
  constructor
  · intro h
    have := C63_equal_content _ _ h
    rw [Message.sameContent_iff, Message.touch_clear, Message.touch_clear] at this
    exact (Message.sameContent_iff a b).2 this
  · intro h
    rw [← C63_content_partial a b fa fb, Message.req_iff] at h
    unfold Message.touch
    rw [if_neg (by simp [fa.1]), if_neg (by simp [fb.1]), Message.req_iff]
    refine ⟨?_, teqList_touch _ _ ha.2 hb.2 fa.2 fb.2 h.2⟩
    have h1 := (MsgHead.heq_iff _ _).1 h.1
    rw [MsgHead.heq_iff]
    refine ⟨h1.1, h1.2.1, h1.2.2.1, h1.2.2.2.1, h1.2.2.2.2.1, h1.2.2.2.2.2.1, h1.2.2.2.2.2.2.1,
      h1.2.2.2.2.2.2.2.1, h1.2.2.2.2.2.2.2.2.1, h1.2.2.2.2.2.2.2.2.2.1, ?_⟩
    show Message.fresh _ = Message.fresh _
    unfold Message.fresh Message.bodySize
    rw [teqList_size _ _ ha.2 hb.2 h.2]
    exact MsgHead.fresh_congr _ _ ha.1 hb.1 (MsgHead.heq_forget h.1) _

/-! ## Sent and received transfers -/

/-- **C63**: a transfer carrying a message in structured form differs from every
frame that can be received: payloads are received as bytes. -/
theorem C63_violated_transfer (env : Env) (i r : Bytes) (f g : AmqpFrame) (t : Transfer)
    (b : TransferBody) (hg : AmqpFrame.decode env i = .ok (r, g))
    (hf : f.performative = .Transfer t) (hb : t.body = some b) (hm : b.IsMessage) :
    req f g = false ∧ req g f = false := by
  obtain ⟨_, ch, _, h⟩ := bind_eq_ok.1 hg
  obtain ⟨_, p, h1, h⟩ := bind_eq_ok.1 h
  cases h
  have ho := Frame.decode_origin h1
  have key : ∀ u : Transfer, p = .Transfer u → ∀ c, u.body = some c → ∃ d, c = .Data d := by
    rintro u rfl c hc
    obtain ⟨d, h, _⟩ := ho.2 c hc
    exact ⟨d, h⟩
  have kb : ∀ d, b ≠ .Data d := by rintro d rfl; exact hm
  constructor
  · cases h : req f ⟨ch, p⟩ with
    | false => rfl
    | true =>
      exfalso
      have h := ((AmqpFrame.req_iff _ _).1 h).2
      rw [hf] at h
      cases p with
      | Transfer u =>
        have h := ((Transfer.req_iff t u).1 h).2
        rw [hb] at h
        cases hu : u.body with
        | none => rw [hu] at h; cases h
        | some c =>
          obtain ⟨d, rfl⟩ := key u rfl c hu
          rw [hu] at h
          have h : b.teq (.Data d) = true := h
          cases b with
          | Data d => exact kb d rfl
          | _ => simp [TransferBody.teq] at h
      | _ => cases h
  · cases h : req (⟨ch, p⟩ : AmqpFrame) f with
    | false => rfl
    | true =>
      exfalso
      have h := ((AmqpFrame.req_iff _ _).1 h).2
      rw [hf] at h
      cases p with
      | Transfer u =>
        have h := ((Transfer.req_iff u t).1 h).2
        rw [hb] at h
        cases hu : u.body with
        | none => rw [hu] at h; cases h
        | some c =>
          obtain ⟨d, rfl⟩ := key u rfl c hu
          rw [hu] at h
          have h : (TransferBody.Data d).teq b = true := h
          cases b with
          | Data d => exact kb d rfl
          | _ => simp [TransferBody.teq] at h
      | _ => cases h

/-! ## Non-vacuity -/

/-- A message with a body: held, fresh, unequal to itself once sized. -/
example : req (Message.withBody ⟨[1, 2]⟩ : OutMessage) (Message.withBody ⟨[1, 2]⟩) = true ∧
    req (Message.withBody ⟨[1, 2]⟩ : OutMessage) (Message.withBody ⟨[1, 2]⟩ : OutMessage).touch = false := by
  decide +kernel

/-- A frame that can be received. -/
example : AmqpFrame.decode debugEnv [2, 0, 0, 3, 0x00, 0x53, 0x17, 0x45] =
    .ok ([], ⟨3, .End { error := none }⟩) := rfl

example : held (⟨[(⟨.lit "a"⟩, .uint 1), (⟨.lit "b"⟩, .null)]⟩ : Fields) ∧
    held (⟨[(⟨.lit "b"⟩, .null), (⟨.lit "a"⟩, .uint 1)]⟩ : Fields) := by
  constructor <;> refine ⟨?_, by unfold NodupKeys; decide⟩ <;>
    simp [HKey.hashOk, held, Variant.Valid]
example : (Message.withBody ⟨[1, 2]⟩ : OutMessage).SameContent (Message.withBody ⟨[1, 2]⟩) :=
  C63_equal_content _ _ (by decide +kernel)
example (f : AmqpFrame) (t : Transfer) (m : OutMessage) (hf : f.performative = .Transfer t)
    (hb : t.body = some m.toOut) : ∃ g, AmqpFrame.decode debugEnv [2, 0, 0, 3, 0x00, 0x53, 0x17, 0x45] = .ok ([], g) ∧
    req f g = false :=
  ⟨_, rfl, (C63_violated_transfer debugEnv [2, 0, 0, 3, 0x00, 0x53, 0x17, 0x45] [] f _ t _ rfl hf hb trivial).1⟩

end Amqp
