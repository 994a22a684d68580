import Verif.Proofs.ListInstances
import Verif.Proofs.OversizeLaws
import Verif.Spec.Incomplete
/-!
# Decoders on input that ends too early
-/
set_option autoImplicit false
namespace Amqp
namespace Dec
variable {α β : Type}

/-- Cutting the input inside what `d` reads leads to `Incomplete`, or to a slice
panic if the value decoded satisfies `Q`. -/
def Cuts (Q : α → Prop) (d : Dec α) : Prop :=
  ∀ i r a, d i = .ok (r, a) → ∀ p q, i = p ++ q → r.length < q.length →
    (∃ n, d p = .err (.incomplete n) ∧ n ≤ i.length) ∨ (Q a ∧ d p = .panic .sliceIndex)

theorem Cuts.mono {Q Q' : α → Prop} {d : Dec α} (h : Cuts Q d) (hq : ∀ a, Q a → Q' a) :
    Cuts Q' d := fun i r a hd p q e hl =>
  (h i r a hd p q e hl).imp id fun k => ⟨hq _ k.1, k.2⟩

/-- A decoder that reads nothing. -/
theorem Cuts.still {Q : α → Prop} {d : Dec α} (h : ∀ i r a, d i = .ok (r, a) → r = i) :
    Cuts Q d := by
  intro i r a hd p q e hl
  have := h _ _ _ hd
  subst this
  rw [e, List.length_append] at hl
  omega

theorem Cuts.pure {Q : α → Prop} (a : α) : Cuts Q (Pure.pure a : Dec α) :=
  Cuts.still fun i r b h => by
    simp only [run_pure, Res.ok.injEq, Prod.mk.injEq] at h
    exact h.1.symm
theorem Cuts.fail {Q : α → Prop} (e : ParseError) : Cuts Q (Dec.fail e : Dec α) :=
  Cuts.still fun _ _ _ h => by cases h
theorem Cuts.abort {Q : α → Prop} (e : Panic) : Cuts Q (Dec.abort e : Dec α) :=
  Cuts.still fun _ _ _ h => by cases h

theorem Cuts.bind {P : α → Prop} {Q : β → Prop} {d : Dec α} {f : α → Dec β}
    (hd : Cuts P d) (ld : Local d) (hf : ∀ a, Cuts Q (f a))
    (hpq : ∀ a, P a → ∀ i r b, f a i = .ok (r, b) → Q b) : Cuts Q (d >>= f) := by
  intro i r b h p q e hl
  obtain ⟨s, a, h1, h2⟩ := bind_eq_ok.1 h
  obtain ⟨u, hu, k⟩ := ld _ _ _ h1
  by_cases hs : s.length < q.length
  · rcases hd i s a h1 p q e hs with ⟨n, hn, hle⟩ | ⟨hp, hn⟩
    · exact .inl ⟨n, bind_err hn, hle⟩
    · exact .inr ⟨hpq a hp _ _ _ h2, bind_panic hn⟩
  · have he : u ++ s = p ++ q := hu.symm.trans e
    have hlen : u.length + s.length = p.length + q.length := by
      simpa using congrArg List.length he
    have hu' : u = (p ++ q).take u.length := by rw [← he]; simp
    have hp : p = u ++ p.drop u.length := by
      rw [List.take_append_of_le_length (by omega)] at hu'
      conv => lhs; rw [← List.take_append_drop u.length p, ← hu']
    generalize p.drop u.length = s' at hp
    subst hp
    have hs' : s = s' ++ q := by
      rw [List.append_assoc] at he; exact List.append_cancel_left he
    subst hs'
    rw [bind_ok (k s')]
    rcases hf a _ _ _ h2 s' q rfl hl with ⟨n, hn, hle⟩ | ⟨hp, hn⟩
    · refine .inl ⟨n, hn, Nat.le_trans hle ?_⟩
      rw [hu]; simp
    · exact .inr ⟨hp, hn⟩

/-- The parts never panic. -/
abbrev Never (α : Type) : α → Prop := fun _ => False

theorem Cuts.seq {Q : β → Prop} {d : Dec α} {f : α → Dec β}
    (hd : Cuts (Never α) d) (ld : Local d) (hf : ∀ a, Cuts Q (f a)) : Cuts Q (d >>= f) :=
  hd.bind ld hf fun _ h => h.elim

theorem Cuts.map {P : α → Prop} {Q : β → Prop} {d : Dec α} (f : α → β) (hd : Cuts P d)
    (h : ∀ a, P a → Q (f a)) : Cuts Q (f <$> d) := by
  intro i r b hb p q e hl
  obtain ⟨a, h1, rfl⟩ := map_eq_ok.1 hb
  rcases hd i r a h1 p q e hl with ⟨n, hn, hle⟩ | ⟨hp, hn⟩
  · exact .inl ⟨n, by rw [run_map, hn], hle⟩
  · exact .inr ⟨h a hp, by rw [run_map, hn]⟩

theorem Cuts.ite {Q : α → Prop} {c : Prop} [Decidable c] {d e : Dec α} (hd : Cuts Q d)
    (he : Cuts Q e) : Cuts Q (if c then d else e) := by split <;> assumption
theorem Cuts.dite {Q : α → Prop} {c : Prop} [Decidable c] {d : c → Dec α} {e : ¬ c → Dec α}
    (hd : ∀ h, Cuts Q (d h)) (he : ∀ h, Cuts Q (e h)) :
    Cuts Q (if h : c then d h else e h) := by
  split
  · exact hd _
  · exact he _

theorem Cuts.takeN {Q : Bytes → Prop} (n : Nat) : Cuts Q (Amqp.takeN n) := by
  intro i r a h p q e hl
  obtain ⟨hn, rfl, rfl⟩ : n ≤ i.length ∧ r = i.drop n ∧ a = i.take n := by
    unfold Amqp.takeN at h
    split at h
    · cases h
    · cases h; exact ⟨by omega, rfl, rfl⟩
  refine .inl ⟨n, ?_, hn⟩
  subst e
  simp only [List.length_drop, List.length_append] at hl hn
  unfold Amqp.takeN
  rw [if_pos (by omega)]

theorem Cuts.readU8 {Q : UInt8 → Prop} : Cuts Q Amqp.readU8 := by
  intro i r a h p q e hl
  cases i with
  | nil => cases h
  | cons b t =>
    cases h
    have : p = [] := by
      cases p with
      | nil => rfl
      | cons x xs =>
        have := congrArg List.length e
        simp at this; omega
    subst this
    exact .inl ⟨1, rfl, by simp⟩

theorem Cuts.indexU8 : Cuts (fun _ => True) Amqp.indexU8 := by
  intro i r a h p q e hl
  cases i with
  | nil => cases h
  | cons b t =>
    cases h
    have : p = [] := by
      cases p with
      | nil => rfl
      | cons x xs =>
        have := congrArg List.length e
        simp at this; omega
    subst this
    exact .inr ⟨trivial, rfl⟩

theorem Cuts.readI8 {Q : Int8 → Prop} : Cuts Q Amqp.readI8 :=
  (Cuts.readU8 (Q := Never _)).map _ fun _ h => h.elim
theorem Cuts.readBE {Q : Nat → Prop} (k : Nat) : Cuts Q (Amqp.readBE k) :=
  (Cuts.takeN (Q := Never _) k).map _ fun _ h => h.elim
theorem Cuts.readBytesU8 {Q : Bytes → Prop} : Cuts Q Amqp.readBytesU8 :=
  Cuts.readU8.seq Local.readU8 fun _ => Cuts.takeN _
theorem Cuts.readBytesU32 {Q : Bytes → Prop} : Cuts Q Amqp.readBytesU32 :=
  (Cuts.readBE 4).seq (Local.readBE 4) fun _ => Cuts.takeN _
theorem Cuts.fromUtf8 {Q : RStr → Prop} (b : Bytes) : Cuts Q (Amqp.fromUtf8 b) :=
  Cuts.dite (fun _ => Cuts.pure _) fun _ => Cuts.fail _
theorem Cuts.subChecked {Q : Nat → Prop} (env : Env) (b x y : Nat) :
    Cuts Q (Amqp.subChecked env b x y) :=
  Cuts.ite (Cuts.pure _) (Cuts.ite (Cuts.abort _) (Cuts.pure _))
theorem Cuts.decodeCompound8 {Q : CompoundHeader → Prop} (env : Env) :
    Cuts Q (Amqp.decodeCompound8 env) :=
  (Cuts.takeN 2).seq (Local.takeN 2) fun _ =>
    (Cuts.subChecked env _ _ _).seq (Local.subChecked env _ _ _) fun _ => Cuts.pure _
theorem Cuts.decodeCompound32 {Q : CompoundHeader → Prop} (env : Env) :
    Cuts Q (Amqp.decodeCompound32 env) :=
  (Cuts.takeN 8).seq (Local.takeN 8) fun _ =>
    (Cuts.subChecked env _ _ _).seq (Local.subChecked env _ _ _) fun _ => Cuts.pure _
theorem Cuts.decodeArrayHeader {Q : CompoundHeader → Prop} (env : Env) (fmt : UInt8) :
    Cuts Q (Amqp.decodeArrayHeader env fmt) :=
  Cuts.ite (Cuts.decodeCompound8 env) (Cuts.ite (Cuts.decodeCompound32 env) (Cuts.fail _))
theorem Cuts.decodeListHeader {Q : CompoundHeader → Prop} (env : Env) (fmt : UInt8) :
    Cuts Q (Amqp.decodeListHeader env fmt) :=
  Cuts.ite (Cuts.pure _) (Cuts.ite (Cuts.decodeCompound8 env)
    (Cuts.ite (Cuts.decodeCompound32 env) (Cuts.fail _)))
theorem Cuts.decodeMapHeader {Q : CompoundHeader → Prop} (env : Env) (fmt : UInt8) :
    Cuts Q (Amqp.decodeMapHeader env fmt) :=
  Cuts.ite (Cuts.decodeCompound8 env) (Cuts.ite (Cuts.decodeCompound32 env) (Cuts.fail _))

/-- A slice that is not all there panics. -/
theorem Cuts.withSlice (n : Nat) (d : Dec α) : Cuts (fun _ => True) (Amqp.withSlice n d) := by
  intro i r a h p q e hl
  refine .inr ⟨trivial, ?_⟩
  unfold Amqp.withSlice at h ⊢
  split at h
  · cases h
  · rename_i hn
    cases hd : d (i.take n) with
    | ok x =>
      rw [hd] at h
      injection h with h; injection h with h1 h2
      subst h1
      rw [if_pos]
      subst e
      simp only [List.length_drop, List.length_append] at hl hn
      omega
    | err e => rw [hd] at h; cases h
    | panic e => rw [hd] at h; cases h

theorem Cuts.decodeN {P : α → Prop} {d : Dec α} (hd : Cuts P d) (ld : Local d) :
    ∀ n, Cuts (fun l => ∃ a ∈ l, P a) (Amqp.decodeN d n)
  | 0 => Cuts.pure _
  | n + 1 => by
    refine hd.bind ld (fun a => ?_) ?_
    · refine (Cuts.decodeN hd ld n).bind (Local.decodeN ld n) (fun l => Cuts.pure _) ?_
      rintro l ⟨b, hb, hp⟩ i r c hc
      cases hc
      exact ⟨b, List.mem_cons_of_mem _ hb, hp⟩
    · intro a hp i r l hl
      obtain ⟨s, l', _, h2⟩ := bind_eq_ok.1 hl
      cases h2
      exact ⟨a, List.mem_cons_self .., hp⟩

theorem Cuts.validateCode {Q : α → Prop} {d : Dec α} (fmt c : UInt8) (h : Cuts Q d) :
    Cuts Q (validateCode fmt c d) := Cuts.ite (Cuts.fail _) h

end Dec
open Dec

/-- The decoder of `α` answers `Incomplete` to input that ends too early. -/
class CutDec (α : Type) [DecodeF α] : Prop where
  cut : ∀ env fmt, Cuts (Never α) (decF (α := α) env fmt)

/-- The decoder of `α` answers `Incomplete` to input that ends too early, or
panics on an index out of range. -/
class SliceDec (α : Type) [DecodeF α] : Prop where
  cut : ∀ env fmt, Cuts (fun _ => True) (decF (α := α) env fmt)

instance (priority := low) cutSlice {α : Type} [DecodeF α] [CutDec α] : SliceDec α :=
  ⟨fun env fmt => (CutDec.cut env fmt).mono fun _ h => h.elim⟩

theorem cuts_decode {α : Type} [DecodeF α] {Q : α → Prop} (env : Env)
    (h : ∀ fmt, Cuts Q (decF (α := α) env fmt)) : Cuts Q (decode α env) :=
  Cuts.readU8.seq Local.readU8 h

theorem CutDec.asks {α : Type} [DecodeF α] [CutDec α] : AsksForMore α := by
  intro env i r v h p q e hl
  rcases cuts_decode env (CutDec.cut (α := α) env) i r v h p q e hl with h | h
  · exact h
  · exact h.1.elim

theorem SliceDec.asks {α : Type} [DecodeF α] [SliceDec α] : AsksForMoreOrPanics α := by
  intro env i r v h p q e hl
  exact (cuts_decode env (SliceDec.cut (α := α) env) i r v h p q e hl).imp id (·.2)

section
variable {α β : Type}

/-- Constructor applied to a value decoded. -/
theorem CutDec.wrap {Q : β → Prop} [DecodeF α] [CutDec α] (f : α → β) (env : Env) (fmt : UInt8) :
    Cuts Q (f <$> decF (α := α) env fmt) := (CutDec.cut env fmt).map f fun _ h => h.elim

instance : CutDec Bool := ⟨fun _ _ => Cuts.ite (Cuts.readU8.map (P := Never _) _ fun _ h => h.elim)
  (Cuts.ite (Cuts.pure _) (Cuts.ite (Cuts.pure _) (Cuts.fail _)))⟩

theorem Cuts.mapU8 {Q : β → Prop} (f : UInt8 → β) : Cuts Q (f <$> readU8) :=
  (Cuts.readU8 (Q := Never _)).map f fun _ h => h.elim
theorem Cuts.mapI8 {Q : β → Prop} (f : Int8 → β) : Cuts Q (f <$> readI8) :=
  (Cuts.readI8 (Q := Never _)).map f fun _ h => h.elim
theorem Cuts.mapBE {Q : β → Prop} (f : Nat → β) (k : Nat) : Cuts Q (f <$> readBE k) :=
  (Cuts.readBE (Q := Never _) k).map f fun _ h => h.elim
theorem Cuts.map8 {Q : β → Prop} (f : Bytes → β) : Cuts Q (f <$> readBytesU8) :=
  (Cuts.readBytesU8 (Q := Never _)).map f fun _ h => h.elim
theorem Cuts.map32 {Q : β → Prop} (f : Bytes → β) : Cuts Q (f <$> readBytesU32) :=
  (Cuts.readBytesU32 (Q := Never _)).map f fun _ h => h.elim

instance : CutDec UInt8 := ⟨fun _ _ => Cuts.validateCode _ _ Cuts.readU8⟩
instance : CutDec UInt16 := ⟨fun _ _ => Cuts.validateCode _ _ (Cuts.mapBE _ _)⟩
instance : CutDec UInt32 := ⟨fun _ _ => Cuts.ite (Cuts.mapBE _ _)
  (Cuts.ite (Cuts.mapU8 _) (Cuts.ite (Cuts.pure _) (Cuts.fail _)))⟩
instance : CutDec UInt64 := ⟨fun _ _ => Cuts.ite (Cuts.mapBE _ _)
  (Cuts.ite (Cuts.mapU8 _) (Cuts.ite (Cuts.pure _) (Cuts.fail _)))⟩
instance : CutDec Int8 := ⟨fun _ _ => Cuts.validateCode _ _ Cuts.readI8⟩
instance : CutDec Int16 := ⟨fun _ _ => Cuts.validateCode _ _ (Cuts.mapBE _ _)⟩
instance : CutDec Int32 := ⟨fun _ _ => Cuts.ite (Cuts.mapBE _ _)
  (Cuts.ite (Cuts.mapI8 _) (Cuts.fail _))⟩
instance : CutDec Int64 := ⟨fun _ _ => Cuts.ite (Cuts.mapBE _ _)
  (Cuts.ite (Cuts.mapI8 _) (Cuts.fail _))⟩
instance : CutDec F32 := ⟨fun _ _ => Cuts.validateCode _ _ (Cuts.mapBE _ _)⟩
instance : CutDec F64 := ⟨fun _ _ => Cuts.validateCode _ _ (Cuts.mapBE _ _)⟩
instance : CutDec Char := ⟨fun _ _ => Cuts.validateCode _ _
  ((Cuts.readBE _).seq (Local.readBE _) fun o => by
    cases charFromU32 o
    · exact Cuts.fail _
    · exact Cuts.pure _)⟩
theorem Cuts.utcTimestamp {Q : DateTime → Prop} (s : Int) (n : Nat) :
    Cuts Q (Amqp.utcTimestamp s n) :=
  Cuts.dite (fun _ => Cuts.pure _) fun _ => Cuts.abort _
instance : CutDec DateTime := ⟨fun _ _ => Cuts.validateCode _ _
  ((Cuts.readBE _).seq (Local.readBE _) fun _ =>
    Cuts.ite (Cuts.utcTimestamp _ _) (Cuts.utcTimestamp _ _))⟩
instance : CutDec Uuid := ⟨fun _ _ => Cuts.validateCode _ _
  ((Cuts.takeN _).seq (Local.takeN _) fun _ =>
    Cuts.dite (fun _ => Cuts.pure _) fun _ => Cuts.abort _)⟩
instance : CutDec Binary := ⟨fun _ _ => Cuts.ite (Cuts.map8 _)
  (Cuts.ite (Cuts.map32 _) (Cuts.fail _))⟩
instance : CutDec RStr := ⟨fun _ _ =>
  Cuts.ite (Cuts.readBytesU8.seq Local.readBytesU8 fun _ => Cuts.fromUtf8 _)
  (Cuts.ite (Cuts.readBytesU32.seq Local.readBytesU32 fun _ => Cuts.fromUtf8 _) (Cuts.fail _))⟩
instance : CutDec Symbol := ⟨fun _ _ =>
  Cuts.ite ((Cuts.readBytesU8.seq (Q := Never _) Local.readBytesU8 fun _ => Cuts.fromUtf8 _).map _
    fun _ h => h.elim)
  (Cuts.ite ((Cuts.readBytesU32.seq (Q := Never _) Local.readBytesU32 fun _ =>
    Cuts.fromUtf8 _).map _ fun _ h => h.elim) (Cuts.fail _))⟩
instance [DecodeF α] [CutDec α] : CutDec (Option α) := ⟨fun env fmt =>
  Cuts.ite (Cuts.pure _) (CutDec.wrap _ env fmt)⟩
instance [DecodeF α] [SliceDec α] : SliceDec (Option α) := ⟨fun env fmt =>
  Cuts.ite (Cuts.pure _) ((SliceDec.cut env fmt).map _ fun _ h => h)⟩
instance : CutDec Descriptor := ⟨fun env fmt =>
  Cuts.ite (CutDec.wrap _ env fmt) (Cuts.ite (CutDec.wrap _ env fmt)
  (Cuts.ite (CutDec.wrap _ env fmt) (Cuts.ite (CutDec.wrap _ env fmt) (Cuts.fail _))))⟩
instance : CutDec MessageId := ⟨fun env fmt =>
  Cuts.ite (CutDec.wrap _ env fmt) (Cuts.ite (CutDec.wrap _ env fmt)
  (Cuts.ite (CutDec.wrap _ env fmt) (Cuts.ite (CutDec.wrap _ env fmt) (Cuts.fail _))))⟩
instance : CutDec ErrorCondition := ⟨fun env fmt =>
  (CutDec.cut (α := Symbol) env fmt).seq (LawfulDec.loc env fmt) fun _ => Cuts.pure _⟩
instance : CutDec DistributionMode := ⟨fun env fmt =>
  (CutDec.cut (α := Symbol) env fmt).seq (LawfulDec.loc env fmt) fun _ => Cuts.pure _⟩

theorem enumCutDec [DecodeF α] [DecodeF β] [Encode α] [Encode β] [EnumType α β] [LawfulDec β]
    [CutDec β] : CutDec α := ⟨fun env fmt => by
  rw [EnumType.decF_eq]
  refine (CutDec.cut (α := β) env fmt).seq (LawfulDec.loc env fmt) fun b => ?_
  cases EnumType.tryFrom (E := α) b with
  | ok a => exact Cuts.pure _
  | err e => exact Cuts.fail _
  | panic e => exact Cuts.abort _⟩

/-- A list checks that its body is there before it looks at the fields. -/
theorem cuts_listInner {Q : α → Prop} (env : Env) (fields : FieldDec α) :
    Cuts Q (listInner env fields) := by
  refine Cuts.readU8.seq Local.readU8 fun _ =>
    (Cuts.decodeListHeader _ _).seq (Local.decodeListHeader _ _) fun h =>
    (Cuts.takeN _).seq (Local.takeN _) fun body => ?_
  cases fields (h.count, body) with
  | ok p => exact Cuts.pure _
  | err e => exact Cuts.fail _
  | panic p => exact Cuts.abort _

theorem cuts_describedAs {Q : α → Prop} {env : Env} {fmt : UInt8} {code : UInt64} {name : String}
    {d : Dec α} (h : Cuts Q d) : Cuts Q (describedAs env fmt code name d) := by
  refine Cuts.validateCode _ _ ((cuts_decode env (CutDec.cut env)).seq (loc_decode env) fun x => ?_)
  exact Cuts.ite (Cuts.fail _) h

theorem listCutDec [Encode α] [DecodeF α] [ListType α] : CutDec α := ⟨fun env fmt => by
  rw [ListType.decF_eq, ListType.inner_eq]; exact cuts_describedAs (cuts_listInner _ _)⟩
end

instance : CutDec Role := enumCutDec
instance : CutDec SenderSettleMode := enumCutDec
instance : CutDec ReceiverSettleMode := enumCutDec
instance : CutDec AmqpError := enumCutDec
instance : CutDec ConnectionError := enumCutDec
instance : CutDec SessionError := enumCutDec
instance : CutDec LinkError := enumCutDec
instance : CutDec SaslCode := enumCutDec
instance : CutDec TerminusDurability := enumCutDec
instance : CutDec TerminusExpiryPolicy := enumCutDec

instance : CutDec Error := listCutDec
instance : CutDec Received := listCutDec
instance : CutDec Accepted := listCutDec
instance : CutDec Rejected := listCutDec
instance : CutDec Released := listCutDec
instance : CutDec Modified := listCutDec
instance : CutDec Source := listCutDec
instance : CutDec Target := listCutDec
instance : CutDec Open := listCutDec
instance : CutDec Begin := listCutDec
instance : CutDec Attach := listCutDec
instance : CutDec Flow := listCutDec
instance : CutDec Disposition := listCutDec
instance : CutDec Detach := listCutDec
instance : CutDec End := listCutDec
instance : CutDec Close := listCutDec
instance : CutDec TransferPerf := listCutDec
instance : CutDec SaslMechanisms := listCutDec
instance : CutDec SaslInit := listCutDec
instance : CutDec SaslChallenge := listCutDec
instance : CutDec SaslResponse := listCutDec
instance : CutDec SaslOutcome := listCutDec
instance : CutDec Header := listCutDec
instance : CutDec Properties := listCutDec

theorem Cuts.inner {α β : Type} {Q : β → Prop} {d : Dec α} (f : α → β) (h : Cuts (Never α) d) :
    Cuts Q (f <$> d) := h.map f fun _ h => h.elim

instance : CutDec DeliveryState := ⟨fun env fmt => Cuts.validateCode _ _
  ((cuts_decode env (CutDec.cut env)).seq (loc_decode env) fun d => by
    unfold DeliveryState.dispatch
    repeat' apply Cuts.ite
    all_goals first
      | exact Cuts.fail _
      | exact Cuts.inner _ (cuts_listInner _ _))⟩
instance : CutDec Outcome := ⟨fun env fmt => Cuts.validateCode _ _
  ((cuts_decode env (CutDec.cut env)).seq (loc_decode env) fun d => by
    unfold Outcome.dispatch
    repeat' apply Cuts.ite
    all_goals first
      | exact Cuts.fail _
      | exact Cuts.inner _ (cuts_listInner _ _))⟩
instance : CutDec SaslFrameBody := ⟨fun env fmt => Cuts.validateCode _ _
  ((cuts_decode env (CutDec.cut env)).seq (loc_decode env) fun d => by
    unfold SaslFrameBody.dispatch
    repeat' apply Cuts.ite
    all_goals first
      | exact Cuts.fail _
      | exact Cuts.inner _ (cuts_listInner _ _))⟩

/-! ### Compound values -/

theorem holdsMapList_iff : ∀ l : List Variant, holdsMapList l = true ↔ ∃ v ∈ l, v.holdsMap = true
  | [] => by simp [holdsMapList]
  | v :: t => by
    have := holdsMapList_iff t
    simp [holdsMapList, Bool.or_eq_true, this]

theorem Cuts.decodeListWith {vd : Dec Variant} (h : Cuts (fun v => v.holdsMap = true) vd)
    (l : Local vd) (env : Env) (fmt : UInt8) :
    Cuts (fun l => holdsMapList l = true) (Amqp.decodeListWith vd env fmt) :=
  (Cuts.decodeListHeader env fmt).seq (Local.decodeListHeader env fmt) fun _ =>
    (Cuts.decodeN h l _).mono fun l h => (holdsMapList_iff l).2 h

theorem Cuts.decodeMapWith {K V : Type} [HKey K] (kd : Dec K) (vd : Dec V) (env : Env)
    (fmt : UInt8) : Cuts (fun _ => True) (Amqp.decodeMapWith kd vd env fmt) :=
  (Cuts.decodeMapHeader env fmt).seq (Local.decodeMapHeader env fmt) fun _ => Cuts.withSlice _ _

theorem cuts_variant (env : Env) : ∀ (n : Nat) (fmt : UInt8),
    Cuts (fun v => v.holdsMap = true) (decVariant env n fmt)
  | 0, _ => Cuts.abort _
  | n + 1, fmt => by
    have ih := cuts_variant env n
    have hl : Local (formatCode >>= fun f => decVariant env n f) :=
      Local.readU8.bind fun f => local_variant env n f
    have hv : Cuts (fun v => v.holdsMap = true) (formatCode >>= fun f => decVariant env n f) :=
      Cuts.readU8.seq Local.readU8 ih
    unfold decVariant
    dsimp only
    repeat' apply Cuts.ite
    all_goals first
      | exact Cuts.pure _
      | exact Cuts.fail _
      | exact CutDec.wrap _ env fmt
      | exact (Cuts.decodeListWith hv hl env fmt).map _ fun l h => by simpa [Variant.holdsMap]
      | exact (Cuts.decodeMapWith _ _ env fmt).map _ fun l h => by simp [Variant.holdsMap]
      | exact (cuts_decode env (CutDec.cut env)).seq (loc_decode env) fun d =>
          hv.bind hl (fun v => Cuts.pure _) fun v h i r b hb => by
            cases hb; simpa [Variant.holdsMap]

instance : SliceDec Variant := ⟨fun env fmt => (cuts_variant env _ fmt).mono fun _ _ => trivial⟩
instance : SliceDec VList := ⟨fun env fmt =>
  (Cuts.decodeListWith (cuts_decode env fun f => cuts_variant env _ f) (loc_decode env) env fmt).map
    _ fun _ _ => trivial⟩
instance {α : Type} [DecodeF α] [SliceDec α] [LawfulDec α] : SliceDec (Vec α) := ⟨fun env fmt =>
  (Cuts.decodeArrayHeader env fmt).seq (Local.decodeArrayHeader env fmt) fun h =>
    Cuts.indexU8.bind Local.indexU8 (fun f =>
      (Cuts.decodeN (SliceDec.cut env f) (LawfulDec.loc env f) _).bind
        (Local.decodeN (LawfulDec.loc env f) _) (fun _ => Cuts.pure _) fun _ _ _ _ _ _ => trivial)
      fun _ _ _ _ _ _ => trivial⟩
instance {α : Type} [DecodeF α] [SliceDec α] [LawfulDec α] : SliceDec (Multiple α) :=
  ⟨fun env fmt => Cuts.ite ((SliceDec.cut (α := Vec α) env fmt).map _ fun _ h => h)
    ((SliceDec.cut (α := α) env fmt).map _ fun _ h => h)⟩
instance {K V : Type} [HKey K] [DecodeF K] [DecodeF V] : SliceDec (HMap K V) :=
  ⟨fun env fmt => (Cuts.decodeMapWith _ _ env fmt).map _ fun _ h => h⟩
instance : SliceDec VecVariantMap := ⟨fun env fmt =>
  (Cuts.decodeMapHeader env fmt).seq (Local.decodeMapHeader env fmt) fun _ =>
    (Cuts.withSlice _ _).map _ fun _ h => h⟩
instance : SliceDec Section := ⟨fun env fmt => Cuts.validateCode _ _
  ((cuts_decode env (CutDec.cut env)).seq (loc_decode env) fun d => by
    unfold Section.dispatch
    repeat' apply Cuts.ite
    all_goals first
      | exact Cuts.fail _
      | exact Cuts.inner _ (cuts_listInner _ _)
      | exact (cuts_decode env (SliceDec.cut env)).map _ fun _ h => h)⟩

end Amqp
