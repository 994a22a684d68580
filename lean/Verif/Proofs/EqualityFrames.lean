import Verif.Spec.EqualityFrames
import Verif.Proofs.EqualityLists
import Verif.Proofs.CacheLaws
/-!
# Laws of `==` of messages and frames
-/
set_option autoImplicit false
namespace Amqp

section
variable {AP : Type} [REq AP]

theorem MsgHead.heq_iff (a b : MsgHead AP) : a.heq b = true ↔
    req a.message_format b.message_format = true ∧
    req a.header b.header = true ∧
    req a.delivery_annotations b.delivery_annotations = true ∧
    req a.message_annotations b.message_annotations = true ∧
    req a.properties b.properties = true ∧
    req a.application_properties b.application_properties = true ∧
    req a.footer b.footer = true ∧
    req a.data b.data = true ∧
    req a.sequence b.sequence = true ∧
    req a.value b.value = true ∧ a.cache = b.cache := by
  unfold MsgHead.heq
  simp only [Bool.and_eq_true, and_assoc, beq_iff_eq]

variable [Holdable AP] [LawfulREq AP]

theorem MsgHead.heq_refl (a : MsgHead AP) (h : held a) : a.heq a = true :=
  (MsgHead.heq_iff _ _).2 ⟨LawfulREq.refl _ (fun _ _ => trivial),
    LawfulREq.refl _ h.1,
    LawfulREq.refl _ h.2.1,
    LawfulREq.refl _ h.2.2.1,
    LawfulREq.refl _ h.2.2.2.1,
    LawfulREq.refl _ h.2.2.2.2.1,
    LawfulREq.refl _ h.2.2.2.2.2.1,
    LawfulREq.refl _ (fun _ _ => trivial),
    LawfulREq.refl _ h.2.2.2.2.2.2.1,
    LawfulREq.refl _ h.2.2.2.2.2.2.2, rfl⟩
theorem MsgHead.heq_symm (a b : MsgHead AP) (ha : held a) (hb : held b) (h : a.heq b = true) :
    b.heq a = true := by
  rw [MsgHead.heq_iff] at h ⊢
  exact ⟨LawfulREq.symm _ _ (fun _ _ => trivial) (fun _ _ => trivial) h.1,
    LawfulREq.symm _ _ ha.1 hb.1 h.2.1,
    LawfulREq.symm _ _ ha.2.1 hb.2.1 h.2.2.1,
    LawfulREq.symm _ _ ha.2.2.1 hb.2.2.1 h.2.2.2.1,
    LawfulREq.symm _ _ ha.2.2.2.1 hb.2.2.2.1 h.2.2.2.2.1,
    LawfulREq.symm _ _ ha.2.2.2.2.1 hb.2.2.2.2.1 h.2.2.2.2.2.1,
    LawfulREq.symm _ _ ha.2.2.2.2.2.1 hb.2.2.2.2.2.1 h.2.2.2.2.2.2.1,
    LawfulREq.symm _ _ (fun _ _ => trivial) (fun _ _ => trivial) h.2.2.2.2.2.2.2.1,
    LawfulREq.symm _ _ ha.2.2.2.2.2.2.1 hb.2.2.2.2.2.2.1 h.2.2.2.2.2.2.2.2.1,
    LawfulREq.symm _ _ ha.2.2.2.2.2.2.2 hb.2.2.2.2.2.2.2 h.2.2.2.2.2.2.2.2.2.1, h.2.2.2.2.2.2.2.2.2.2.symm⟩
theorem MsgHead.heq_trans (a b c : MsgHead AP) (ha : held a) (hb : held b) (hc : held c)
    (h : a.heq b = true) (h' : b.heq c = true) : a.heq c = true := by
  rw [MsgHead.heq_iff] at h h' ⊢
  exact ⟨LawfulREq.trans _ _ _ (fun _ _ => trivial) (fun _ _ => trivial) (fun _ _ => trivial) h.1 h'.1,
    LawfulREq.trans _ _ _ ha.1 hb.1 hc.1 h.2.1 h'.2.1,
    LawfulREq.trans _ _ _ ha.2.1 hb.2.1 hc.2.1 h.2.2.1 h'.2.2.1,
    LawfulREq.trans _ _ _ ha.2.2.1 hb.2.2.1 hc.2.2.1 h.2.2.2.1 h'.2.2.2.1,
    LawfulREq.trans _ _ _ ha.2.2.2.1 hb.2.2.2.1 hc.2.2.2.1 h.2.2.2.2.1 h'.2.2.2.2.1,
    LawfulREq.trans _ _ _ ha.2.2.2.2.1 hb.2.2.2.2.1 hc.2.2.2.2.1 h.2.2.2.2.2.1 h'.2.2.2.2.2.1,
    LawfulREq.trans _ _ _ ha.2.2.2.2.2.1 hb.2.2.2.2.2.1 hc.2.2.2.2.2.1 h.2.2.2.2.2.2.1 h'.2.2.2.2.2.2.1,
    LawfulREq.trans _ _ _ (fun _ _ => trivial) (fun _ _ => trivial) (fun _ _ => trivial) h.2.2.2.2.2.2.2.1 h'.2.2.2.2.2.2.2.1,
    LawfulREq.trans _ _ _ ha.2.2.2.2.2.2.1 hb.2.2.2.2.2.2.1 hc.2.2.2.2.2.2.1 h.2.2.2.2.2.2.2.2.1 h'.2.2.2.2.2.2.2.2.1,
    LawfulREq.trans _ _ _ ha.2.2.2.2.2.2.2 hb.2.2.2.2.2.2.2 hc.2.2.2.2.2.2.2 h.2.2.2.2.2.2.2.2.2.1 h'.2.2.2.2.2.2.2.2.2.1, h.2.2.2.2.2.2.2.2.2.2.trans h'.2.2.2.2.2.2.2.2.2.2⟩

end

mutual
theorem teq_refl : ∀ a : TransferBody, a.Held → a.teq a = true
  | .Data b, _ => by simp [TransferBody.teq, req]
  | .MessageIn m ms, h => by
    simp only [TransferBody.Held] at h
    simp only [TransferBody.teq, Bool.and_eq_true]
    exact ⟨m.heq_refl h.1, teqList_refl ms h.2⟩
  | .MessageOut m ms, h => by
    simp only [TransferBody.Held] at h
    simp only [TransferBody.teq, Bool.and_eq_true]
    exact ⟨m.heq_refl h.1, teqList_refl ms h.2⟩
theorem teqList_refl : ∀ l : List TransferBody, bodiesHeld l → teqList l l = true
  | [], _ => by simp [teqList]
  | b :: t, h => by
    simp only [bodiesHeld] at h
    simp only [teqList, Bool.and_eq_true]
    exact ⟨teq_refl b h.1, teqList_refl t h.2⟩
end

mutual
theorem teq_symm : ∀ a b : TransferBody, a.Held → b.Held → a.teq b = true → b.teq a = true
  | .Data a, b, _, _, h => by
    cases b with
    | Data b => simp only [TransferBody.teq, req, decide_eq_true_eq] at h ⊢; exact h.symm
    | _ => simp [TransferBody.teq] at h
  | .MessageIn m ms, b, ha, hb, h => by
    cases b with
    | MessageIn m' ms' =>
      simp only [TransferBody.Held] at ha hb
      simp only [TransferBody.teq, Bool.and_eq_true] at h ⊢
      exact ⟨m.heq_symm m' ha.1 hb.1 h.1, teqList_symm ms ms' ha.2 hb.2 h.2⟩
    | _ => simp [TransferBody.teq] at h
  | .MessageOut m ms, b, ha, hb, h => by
    cases b with
    | MessageOut m' ms' =>
      simp only [TransferBody.Held] at ha hb
      simp only [TransferBody.teq, Bool.and_eq_true] at h ⊢
      exact ⟨m.heq_symm m' ha.1 hb.1 h.1, teqList_symm ms ms' ha.2 hb.2 h.2⟩
    | _ => simp [TransferBody.teq] at h
theorem teqList_symm : ∀ l m : List TransferBody, bodiesHeld l → bodiesHeld m →
    teqList l m = true → teqList m l = true
  | [], m, _, _, h => by
    cases m with
    | nil => exact h
    | cons => simp [teqList] at h
  | b :: t, m, hl, hm, h => by
    cases m with
    | nil => simp [teqList] at h
    | cons b' t' =>
      simp only [bodiesHeld] at hl hm
      simp only [teqList, Bool.and_eq_true] at h ⊢
      exact ⟨teq_symm b b' hl.1 hm.1 h.1, teqList_symm t t' hl.2 hm.2 h.2⟩
end

mutual
theorem teq_trans : ∀ a b c : TransferBody, a.Held → b.Held → c.Held → a.teq b = true →
    b.teq c = true → a.teq c = true
  | .Data a, b, c, _, _, _, h, h' => by
    cases b with
    | Data b =>
      cases c with
      | Data c => simp only [TransferBody.teq, req, decide_eq_true_eq] at h h' ⊢; exact h.trans h'
      | _ => simp [TransferBody.teq] at h'
    | _ => simp [TransferBody.teq] at h
  | .MessageIn m ms, b, c, ha, hb, hc, h, h' => by
    cases b with
    | MessageIn m' ms' =>
      cases c with
      | MessageIn m'' ms'' =>
        simp only [TransferBody.Held] at ha hb hc
        simp only [TransferBody.teq, Bool.and_eq_true] at h h' ⊢
        exact ⟨m.heq_trans m' m'' ha.1 hb.1 hc.1 h.1 h'.1,
          teqList_trans ms ms' ms'' ha.2 hb.2 hc.2 h.2 h'.2⟩
      | _ => simp [TransferBody.teq] at h'
    | _ => simp [TransferBody.teq] at h
  | .MessageOut m ms, b, c, ha, hb, hc, h, h' => by
    cases b with
    | MessageOut m' ms' =>
      cases c with
      | MessageOut m'' ms'' =>
        simp only [TransferBody.Held] at ha hb hc
        simp only [TransferBody.teq, Bool.and_eq_true] at h h' ⊢
        exact ⟨m.heq_trans m' m'' ha.1 hb.1 hc.1 h.1 h'.1,
          teqList_trans ms ms' ms'' ha.2 hb.2 hc.2 h.2 h'.2⟩
      | _ => simp [TransferBody.teq] at h'
    | _ => simp [TransferBody.teq] at h
theorem teqList_trans : ∀ l m n : List TransferBody, bodiesHeld l → bodiesHeld m → bodiesHeld n →
    teqList l m = true → teqList m n = true → teqList l n = true
  | [], m, n, _, _, _, h, h' => by
    cases m with
    | nil => exact h'
    | cons => simp [teqList] at h
  | b :: t, m, n, hl, hm, hn, h, h' => by
    cases m with
    | nil => simp [teqList] at h
    | cons b' t' =>
      cases n with
      | nil => simp [teqList] at h'
      | cons b'' t'' =>
        simp only [bodiesHeld] at hl hm hn
        simp only [teqList, Bool.and_eq_true] at h h' ⊢
        exact ⟨teq_trans b b' b'' hl.1 hm.1 hn.1 h.1 h'.1,
          teqList_trans t t' t'' hl.2 hm.2 hn.2 h.2 h'.2⟩
end

instance : LawfulREq TransferBody := ⟨teq_refl, teq_symm, teq_trans⟩

theorem Message.req_iff {AP : Type} [REq AP] (a b : Message AP) : req a b = true ↔
    a.toMsgHead.heq b.toMsgHead = true ∧ teqList a.messages b.messages = true :=
  Bool.and_eq_true_iff

instance {AP : Type} [REq AP] [Holdable AP] [LawfulREq AP] : LawfulREq (Message AP) where
  refl a h := (Message.req_iff _ _).2 ⟨MsgHead.heq_refl _ h.1, teqList_refl _ h.2⟩
  symm a b ha hb h := by
    rw [Message.req_iff] at h ⊢
    exact ⟨MsgHead.heq_symm _ _ ha.1 hb.1 h.1, teqList_symm _ _ ha.2 hb.2 h.2⟩
  trans a b c ha hb hc h h' := by
    rw [Message.req_iff] at h h' ⊢
    exact ⟨MsgHead.heq_trans _ _ _ ha.1 hb.1 hc.1 h.1 h'.1, teqList_trans _ _ _ ha.2 hb.2 hc.2 h.2 h'.2⟩

theorem Transfer.req_iff (a b : Transfer) : req a b = true ↔
    req a.toTransferPerf b.toTransferPerf = true ∧ req a.body b.body = true :=
  Bool.and_eq_true_iff

instance : LawfulREq Transfer where
  refl a h := (Transfer.req_iff _ _).2 ⟨LawfulREq.refl _ h.1, LawfulREq.refl _ h.2⟩
  symm a b ha hb h := by
    rw [Transfer.req_iff] at h ⊢
    exact ⟨LawfulREq.symm _ _ ha.1 hb.1 h.1, LawfulREq.symm _ _ ha.2 hb.2 h.2⟩
  trans a b c ha hb hc h h' := by
    rw [Transfer.req_iff] at h h' ⊢
    exact ⟨LawfulREq.trans _ _ _ ha.1 hb.1 hc.1 h.1 h'.1, LawfulREq.trans _ _ _ ha.2 hb.2 hc.2 h.2 h'.2⟩

/-! ### Sizes -/

theorem optSize_congr {α : Type} [REq α] [Holdable α] [Encode α] [SizeREq α] (n : Nat)
    (a b : Option α) (ha : held a) (hb : held b) (h : req a b = true) : optSize n a = optSize n b := by
  cases a with
  | none => cases b with
    | none => rfl
    | some => exact Bool.noConfusion h
  | some a => cases b with
    | none => exact Bool.noConfusion h
    | some b =>
      simp only [optSize]
      rw [SizeREq.size_eq a b (ha a rfl) (hb b rfl) h]

theorem sectionsSize_congr {α : Type} [REq α] [Holdable α] [Encode α] [SizeREq α]
    (a b : List α) (ha : held a) (hb : held b) (h : req a b = true) :
    sectionsSize a = sectionsSize b := by
  have key : ∀ {a b : List α}, All2 (fun x y => req x y = true) a b → (∀ x ∈ a, held x) →
      (∀ x ∈ b, held x) → sectionsSize a = sectionsSize b := by
    intro a b h
    induction h with
    | nil => intros; rfl
    | @cons x y _ _ h _ ih =>
      intro ha hb
      simp only [sectionsSize]
      rw [SizeREq.size_eq x y (ha x (by simp)) (hb y (by simp)) h,
        ih (fun x hx => ha x (by simp [hx])) (fun x hx => hb x (by simp [hx]))]
  exact key ((listReq_iff _ _ _).1 h) ha hb

section
variable {AP : Type} [REq AP] [Holdable AP] [Encode AP] [SizeREq AP]

/-- The sizes of messages with equal heads but for the remembered sizes. -/
theorem MsgHead.fresh_congr (a b : MsgHead AP) (ha : held a) (hb : held b)
    (h : { a with cache := 0 }.heq { b with cache := 0 } = true) (n : Nat) :
    a.freshSize (bodySizeWith a.data a.sequence a.value n) =
      b.freshSize (bodySizeWith b.data b.sequence b.value n) := by
  rw [MsgHead.heq_iff] at h
  simp only at h
  obtain ⟨_, h1, h2, h3, h4, h5, h6, h7, h8, h9, _⟩ := h
  have hbody : bodySizeWith a.data a.sequence a.value n = bodySizeWith b.data b.sequence b.value n := by
    have hv : optSize sectionPrefixLength a.value = optSize sectionPrefixLength b.value :=
      optSize_congr _ _ _ ha.2.2.2.2.2.2.2 hb.2.2.2.2.2.2.2 h9
    simp only [bodySizeWith]
    rw [sectionsSize_congr a.data b.data (fun _ _ => trivial) (fun _ _ => trivial) h7,
      sectionsSize_congr a.sequence b.sequence ha.2.2.2.2.2.2.1 hb.2.2.2.2.2.2.1 h8]
    congr 1
    cases e : a.value <;> cases e' : b.value <;> rw [e, e'] at hv <;> exact hv
  simp only [MsgHead.freshSize]
  rw [hbody, optSize_congr _ _ _ ha.1 hb.1 h1, optSize_congr _ _ _ ha.2.1 hb.2.1 h2,
    optSize_congr _ _ _ ha.2.2.1 hb.2.2.1 h3, optSize_congr _ _ _ ha.2.2.2.1 hb.2.2.2.1 h4,
    optSize_congr _ _ _ ha.2.2.2.2.1 hb.2.2.2.2.1 h5, optSize_congr _ _ _ ha.2.2.2.2.2.1 hb.2.2.2.2.2.1 h6]

omit [Holdable AP] [Encode AP] [SizeREq AP] in
theorem MsgHead.heq_forget {a b : MsgHead AP} (h : a.heq b = true) :
    { a with cache := 0 }.heq { b with cache := 0 } = true := by
  rw [MsgHead.heq_iff] at h ⊢
  exact ⟨h.1, h.2.1, h.2.2.1, h.2.2.2.1, h.2.2.2.2.1, h.2.2.2.2.2.1, h.2.2.2.2.2.2.1,
    h.2.2.2.2.2.2.2.1, h.2.2.2.2.2.2.2.2.1, h.2.2.2.2.2.2.2.2.2.1, rfl⟩

omit [Holdable AP] [Encode AP] [SizeREq AP] in
theorem MsgHead.heq_cache {a b : MsgHead AP} (h : a.heq b = true) : a.cache = b.cache :=
  ((MsgHead.heq_iff a b).1 h).2.2.2.2.2.2.2.2.2.2

end

mutual
theorem teq_size : ∀ a b : TransferBody, a.Held → b.Held → a.teq b = true → a.tsize = b.tsize
  | .Data a, b, _, _, h => by
    cases b with
    | Data b => simp only [TransferBody.teq, req, decide_eq_true_eq] at h; rw [h]
    | _ => simp [TransferBody.teq] at h
  | .MessageIn m ms, b, ha, hb, h => by
    cases b with
    | MessageIn m' ms' =>
      simp only [TransferBody.Held] at ha hb
      simp only [TransferBody.teq, Bool.and_eq_true] at h
      simp only [TransferBody.tsize]
      rw [teqList_size ms ms' ha.2 hb.2 h.2, MsgHead.fresh_congr m m' ha.1 hb.1 (MsgHead.heq_forget h.1),
        MsgHead.heq_cache h.1]
    | _ => simp [TransferBody.teq] at h
  | .MessageOut m ms, b, ha, hb, h => by
    cases b with
    | MessageOut m' ms' =>
      simp only [TransferBody.Held] at ha hb
      simp only [TransferBody.teq, Bool.and_eq_true] at h
      simp only [TransferBody.tsize]
      rw [teqList_size ms ms' ha.2 hb.2 h.2, MsgHead.fresh_congr m m' ha.1 hb.1 (MsgHead.heq_forget h.1),
        MsgHead.heq_cache h.1]
    | _ => simp [TransferBody.teq] at h
theorem teqList_size : ∀ l m : List TransferBody, bodiesHeld l → bodiesHeld m →
    teqList l m = true → nestedSize l = nestedSize m
  | [], m, _, _, h => by
    cases m with
    | nil => rfl
    | cons => simp [teqList] at h
  | b :: t, m, hl, hm, h => by
    cases m with
    | nil => simp [teqList] at h
    | cons b' t' =>
      simp only [bodiesHeld] at hl hm
      simp only [teqList, Bool.and_eq_true] at h
      simp only [nestedSize]
      rw [teq_size b b' hl.1 hm.1 h.1, teqList_size t t' hl.2 hm.2 h.2]
end

instance : SizeREq TransferBody := ⟨teq_size⟩

instance {AP : Type} [REq AP] [Holdable AP] [Encode AP] [SizeREq AP] : SizeREq (Message AP) where
  size_eq a b ha hb h := by
    rw [Message.req_iff] at h
    show a.msize = b.msize
    unfold Message.msize Message.fresh Message.bodySize
    rw [teqList_size _ _ ha.2 hb.2 h.2,
      MsgHead.fresh_congr a.toMsgHead b.toMsgHead ha.1 hb.1 (MsgHead.heq_forget h.1),
      MsgHead.heq_cache h.1]

instance : SizeREq Transfer where
  size_eq a b ha hb h := by
    rw [Transfer.req_iff] at h
    show size a.toTransferPerf + a.body.elim 0 size = size b.toTransferPerf + b.body.elim 0 size
    rw [SizeREq.size_eq _ _ ha.1 hb.1 h.1]
    congr 1
    have := optSize_congr 0 _ _ ha.2 hb.2 h.2
    cases e : a.body <;> cases e' : b.body <;> rw [e, e'] at this <;> exact this

instance : LawfulREq Frame where
  refl a h := by
    cases a with
    | Open a => exact LawfulREq.refl a h
    | Begin a => exact LawfulREq.refl a h
    | Attach a => exact LawfulREq.refl a h
    | Flow a => exact LawfulREq.refl a h
    | Transfer a => exact LawfulREq.refl a h
    | Disposition a => exact LawfulREq.refl a h
    | Detach a => exact LawfulREq.refl a h
    | End a => exact LawfulREq.refl a h
    | Close a => exact LawfulREq.refl a h
    | Empty => rfl
  symm a b ha hb h := by
    cases a with
    | Open a => cases b with
      | Open b => exact LawfulREq.symm a b ha hb h
      | _ => exact Bool.noConfusion h
    | Begin a => cases b with
      | Begin b => exact LawfulREq.symm a b ha hb h
      | _ => exact Bool.noConfusion h
    | Attach a => cases b with
      | Attach b => exact LawfulREq.symm a b ha hb h
      | _ => exact Bool.noConfusion h
    | Flow a => cases b with
      | Flow b => exact LawfulREq.symm a b ha hb h
      | _ => exact Bool.noConfusion h
    | Transfer a => cases b with
      | Transfer b => exact LawfulREq.symm a b ha hb h
      | _ => exact Bool.noConfusion h
    | Disposition a => cases b with
      | Disposition b => exact LawfulREq.symm a b ha hb h
      | _ => exact Bool.noConfusion h
    | Detach a => cases b with
      | Detach b => exact LawfulREq.symm a b ha hb h
      | _ => exact Bool.noConfusion h
    | End a => cases b with
      | End b => exact LawfulREq.symm a b ha hb h
      | _ => exact Bool.noConfusion h
    | Close a => cases b with
      | Close b => exact LawfulREq.symm a b ha hb h
      | _ => exact Bool.noConfusion h
    | Empty => cases b with
      | Empty => rfl
      | _ => exact Bool.noConfusion h
  trans a b c ha hb hc h h' := by
    cases a with
    | Open a => cases b with
      | Open b => cases c with
        | Open c => exact LawfulREq.trans a b c ha hb hc h h'
        | _ => exact Bool.noConfusion h'
      | _ => exact Bool.noConfusion h
    | Begin a => cases b with
      | Begin b => cases c with
        | Begin c => exact LawfulREq.trans a b c ha hb hc h h'
        | _ => exact Bool.noConfusion h'
      | _ => exact Bool.noConfusion h
    | Attach a => cases b with
      | Attach b => cases c with
        | Attach c => exact LawfulREq.trans a b c ha hb hc h h'
        | _ => exact Bool.noConfusion h'
      | _ => exact Bool.noConfusion h
    | Flow a => cases b with
      | Flow b => cases c with
        | Flow c => exact LawfulREq.trans a b c ha hb hc h h'
        | _ => exact Bool.noConfusion h'
      | _ => exact Bool.noConfusion h
    | Transfer a => cases b with
      | Transfer b => cases c with
        | Transfer c => exact LawfulREq.trans a b c ha hb hc h h'
        | _ => exact Bool.noConfusion h'
      | _ => exact Bool.noConfusion h
    | Disposition a => cases b with
      | Disposition b => cases c with
        | Disposition c => exact LawfulREq.trans a b c ha hb hc h h'
        | _ => exact Bool.noConfusion h'
      | _ => exact Bool.noConfusion h
    | Detach a => cases b with
      | Detach b => cases c with
        | Detach c => exact LawfulREq.trans a b c ha hb hc h h'
        | _ => exact Bool.noConfusion h'
      | _ => exact Bool.noConfusion h
    | End a => cases b with
      | End b => cases c with
        | End c => exact LawfulREq.trans a b c ha hb hc h h'
        | _ => exact Bool.noConfusion h'
      | _ => exact Bool.noConfusion h
    | Close a => cases b with
      | Close b => cases c with
        | Close c => exact LawfulREq.trans a b c ha hb hc h h'
        | _ => exact Bool.noConfusion h'
      | _ => exact Bool.noConfusion h
    | Empty => cases b with
      | Empty => exact h'
      | _ => exact Bool.noConfusion h
instance : SizeREq Frame where
  size_eq a b ha hb h := by
    cases a with
    | Open a => cases b with
      | Open b => exact SizeREq.size_eq a b ha hb h
      | _ => exact Bool.noConfusion h
    | Begin a => cases b with
      | Begin b => exact SizeREq.size_eq a b ha hb h
      | _ => exact Bool.noConfusion h
    | Attach a => cases b with
      | Attach b => exact SizeREq.size_eq a b ha hb h
      | _ => exact Bool.noConfusion h
    | Flow a => cases b with
      | Flow b => exact SizeREq.size_eq a b ha hb h
      | _ => exact Bool.noConfusion h
    | Transfer a => cases b with
      | Transfer b => exact SizeREq.size_eq a b ha hb h
      | _ => exact Bool.noConfusion h
    | Disposition a => cases b with
      | Disposition b => exact SizeREq.size_eq a b ha hb h
      | _ => exact Bool.noConfusion h
    | Detach a => cases b with
      | Detach b => exact SizeREq.size_eq a b ha hb h
      | _ => exact Bool.noConfusion h
    | End a => cases b with
      | End b => exact SizeREq.size_eq a b ha hb h
      | _ => exact Bool.noConfusion h
    | Close a => cases b with
      | Close b => exact SizeREq.size_eq a b ha hb h
      | _ => exact Bool.noConfusion h
    | Empty => cases b with
      | Empty => rfl
      | _ => exact Bool.noConfusion h

theorem AmqpFrame.req_iff (a b : AmqpFrame) : req a b = true ↔
    req a.channel_id b.channel_id = true ∧ req a.performative b.performative = true :=
  Bool.and_eq_true_iff

instance : LawfulREq AmqpFrame where
  refl a h := (AmqpFrame.req_iff _ _).2 ⟨LawfulREq.refl _ trivial, LawfulREq.refl _ h⟩
  symm a b ha hb h := by
    rw [AmqpFrame.req_iff] at h ⊢
    exact ⟨LawfulREq.symm _ _ trivial trivial h.1, LawfulREq.symm _ _ ha hb h.2⟩
  trans a b c ha hb hc h h' := by
    rw [AmqpFrame.req_iff] at h h' ⊢
    exact ⟨LawfulREq.trans _ _ _ trivial trivial trivial h.1 h'.1,
      LawfulREq.trans _ _ _ ha hb hc h.2 h'.2⟩
instance : SizeREq AmqpFrame where
  size_eq a b ha hb h := by
    rw [AmqpFrame.req_iff] at h
    show headerLen + size a.performative = headerLen + size b.performative
    rw [SizeREq.size_eq a.performative b.performative ha hb h.2]

instance : LawfulREq SaslFrame :=
  ⟨fun a h => LawfulREq.refl a.body h, fun a b ha hb h => LawfulREq.symm a.body b.body ha hb h,
    fun a b c ha hb hc h h' => LawfulREq.trans a.body b.body c.body ha hb hc h h'⟩
instance : SizeREq SaslFrame where
  size_eq a b ha hb h := by
    show headerLen + size a.body = headerLen + size b.body
    rw [SizeREq.size_eq a.body b.body ha hb h]

end Amqp
