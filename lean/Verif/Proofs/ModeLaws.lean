import Verif.Proofs.PanicFrames
import Verif.Spec.Modes
/-!
# Decoders in different builds
-/
set_option autoImplicit false
namespace Amqp
namespace Dec
variable {α β : Type} {a b : Env}

/-- The decoders have the same outcome in builds `a` and `b` on all inputs. -/
def Same (a b : Env) (d d' : Dec α) : Prop := ∀ i, SameOutcome a b (d i) (d' i)

theorem Same.refl (d : Dec α) : Same a b d d := fun _ => .inl rfl

theorem Same.bind {d d' : Dec α} {f f' : α → Dec β} (hd : Same a b d d')
    (hf : ∀ x, Same a b (f x) (f' x)) : Same a b (d >>= f) (d' >>= f') := by
  intro i
  rcases hd i with h | ⟨p, hp, h⟩
  · rw [run_bind, run_bind, h]
    cases hx : d i with
    | ok x => exact hf x.2 x.1
    | err e => exact .inl rfl
    | panic p => exact .inl rfl
  · exact .inr ⟨p, hp, bind_panic h⟩

theorem Same.map {d d' : Dec α} (f : α → β) (hd : Same a b d d') :
    Same a b (f <$> d) (f <$> d') := by
  rw [map_eq_pure_bind, map_eq_pure_bind]
  exact hd.bind fun _ => Same.refl _

theorem Same.ite {c : Prop} [Decidable c] {d d' e e' : Dec α} (hd : Same a b d d')
    (he : Same a b e e') : Same a b (if c then d else e) (if c then d' else e') := by
  split <;> assumption

theorem Same.validateCode {d d' : Dec α} (fmt c : UInt8) (h : Same a b d d') :
    Same a b (validateCode fmt c d) (validateCode fmt c d') := Same.ite (Same.refl _) h

theorem Same.subChecked (h : a.Relaxed b) (bits x y : Nat) :
    Same a b (Amqp.subChecked a bits x y) (Amqp.subChecked b bits x y) := by
  unfold Amqp.subChecked
  refine Same.ite (Same.refl _) ?_
  intro i
  cases ha : a.overflowChecks with
  | false =>
    have hb : b.overflowChecks = false := by
      cases hb : b.overflowChecks with
      | false => rfl
      | true => rw [h.2 hb] at ha; cases ha
    rw [hb]
    exact .inl rfl
  | true =>
    cases hb : b.overflowChecks with
    | true => exact .inl rfl
    | false => exact .inr ⟨.overflow, .inr ⟨rfl, ha, hb⟩, rfl⟩

theorem Same.decodeCompound8 (h : a.Relaxed b) :
    Same a b (Amqp.decodeCompound8 a) (Amqp.decodeCompound8 b) :=
  (Same.refl _).bind fun _ => (Same.subChecked h _ _ _).bind fun _ => Same.refl _
theorem Same.decodeCompound32 (h : a.Relaxed b) :
    Same a b (Amqp.decodeCompound32 a) (Amqp.decodeCompound32 b) :=
  (Same.refl _).bind fun _ => (Same.subChecked h _ _ _).bind fun _ => Same.refl _
theorem Same.decodeArrayHeader (h : a.Relaxed b) (fmt : UInt8) :
    Same a b (Amqp.decodeArrayHeader a fmt) (Amqp.decodeArrayHeader b fmt) :=
  Same.ite (Same.decodeCompound8 h) (Same.ite (Same.decodeCompound32 h) (Same.refl _))
theorem Same.decodeListHeader (h : a.Relaxed b) (fmt : UInt8) :
    Same a b (Amqp.decodeListHeader a fmt) (Amqp.decodeListHeader b fmt) :=
  Same.ite (Same.refl _) (Same.ite (Same.decodeCompound8 h)
    (Same.ite (Same.decodeCompound32 h) (Same.refl _)))
theorem Same.decodeMapHeader (h : a.Relaxed b) (fmt : UInt8) :
    Same a b (Amqp.decodeMapHeader a fmt) (Amqp.decodeMapHeader b fmt) :=
  Same.ite (Same.decodeCompound8 h) (Same.ite (Same.decodeCompound32 h) (Same.refl _))

theorem Same.decodeN {d d' : Dec α} (h : Same a b d d') :
    ∀ n, Same a b (Amqp.decodeN d n) (Amqp.decodeN d' n)
  | 0 => Same.refl _
  | n + 1 => h.bind fun _ => (Same.decodeN h n).bind fun _ => Same.refl _

theorem Same.withSlice {d d' : Dec α} (n : Nat) (h : Same a b d d') :
    Same a b (Amqp.withSlice n d) (Amqp.withSlice n d') := by
  intro i
  unfold Amqp.withSlice
  split
  · exact .inl rfl
  · rcases h (i.take n) with h | ⟨p, hp, h⟩
    · rw [h]; exact .inl rfl
    · exact .inr ⟨p, hp, by rw [h]⟩

theorem Same.mapLoop {K V : Type} [HKey K] {kd kd' : Dec K} {vd vd' : Dec V}
    (hk : Same a b kd kd') (hv : Same a b vd vd') :
    ∀ n acc, Same a b (Amqp.mapLoop kd vd n acc) (Amqp.mapLoop kd' vd' n acc)
  | 0, _ => Same.refl _
  | n + 1, _ => hk.bind fun _ => hv.bind fun _ =>
      Same.ite (Same.mapLoop hk hv n _) (Same.refl _)

theorem Same.decodeMapWith {K V : Type} [HKey K] {kd kd' : Dec K} {vd vd' : Dec V}
    (h : a.Relaxed b) (hk : Same a b kd kd') (hv : Same a b vd vd') (fmt : UInt8) :
    Same a b (Amqp.decodeMapWith kd vd a fmt) (Amqp.decodeMapWith kd' vd' b fmt) :=
  (Same.decodeMapHeader h fmt).bind fun _ => Same.withSlice _ (Same.mapLoop hk hv _ _)

theorem Same.decodeListWith {vd vd' : Dec Variant} (h : a.Relaxed b) (hv : Same a b vd vd')
    (fmt : UInt8) : Same a b (Amqp.decodeListWith vd a fmt) (Amqp.decodeListWith vd' b fmt) :=
  (Same.decodeListHeader h fmt).bind fun _ => Same.decodeN hv _

end Dec
open Dec

/-- The decoder of `α` has the same outcome in all builds. -/
class ModeDec (α : Type) [DecodeF α] : Prop where
  same : ∀ {a b : Env}, a.Relaxed b → ∀ fmt, Same a b (decF (α := α) a fmt) (decF b fmt)

section
variable {α β : Type}

theorem same_decode [DecodeF α] [ModeDec α] {a b : Env} (h : a.Relaxed b) :
    Same a b (decode α a) (decode α b) := (Same.refl _).bind fun fmt => ModeDec.same h fmt

instance : ModeDec Bool := ⟨fun _ _ => Same.refl _⟩
instance : ModeDec UInt8 := ⟨fun _ _ => Same.refl _⟩
instance : ModeDec UInt16 := ⟨fun _ _ => Same.refl _⟩
instance : ModeDec UInt32 := ⟨fun _ _ => Same.refl _⟩
instance : ModeDec UInt64 := ⟨fun _ _ => Same.refl _⟩
instance : ModeDec Int8 := ⟨fun _ _ => Same.refl _⟩
instance : ModeDec Int16 := ⟨fun _ _ => Same.refl _⟩
instance : ModeDec Int32 := ⟨fun _ _ => Same.refl _⟩
instance : ModeDec Int64 := ⟨fun _ _ => Same.refl _⟩
instance : ModeDec F32 := ⟨fun _ _ => Same.refl _⟩
instance : ModeDec F64 := ⟨fun _ _ => Same.refl _⟩
instance : ModeDec Char := ⟨fun _ _ => Same.refl _⟩
instance : ModeDec DateTime := ⟨fun _ _ => Same.refl _⟩
instance : ModeDec Uuid := ⟨fun _ _ => Same.refl _⟩
instance : ModeDec Binary := ⟨fun _ _ => Same.refl _⟩
instance : ModeDec RStr := ⟨fun _ _ => Same.refl _⟩
instance : ModeDec Symbol := ⟨fun _ _ => Same.refl _⟩
instance : ModeDec Descriptor := ⟨fun _ _ => Same.refl _⟩
instance : ModeDec MessageId := ⟨fun _ _ => Same.refl _⟩
instance : ModeDec ErrorCondition := ⟨fun _ _ => Same.refl _⟩
instance : ModeDec DistributionMode := ⟨fun _ _ => Same.refl _⟩
instance : ModeDec Role := ⟨fun _ _ => Same.refl _⟩
instance : ModeDec SenderSettleMode := ⟨fun _ _ => Same.refl _⟩
instance : ModeDec ReceiverSettleMode := ⟨fun _ _ => Same.refl _⟩
instance : ModeDec AmqpError := ⟨fun _ _ => Same.refl _⟩
instance : ModeDec ConnectionError := ⟨fun _ _ => Same.refl _⟩
instance : ModeDec SessionError := ⟨fun _ _ => Same.refl _⟩
instance : ModeDec LinkError := ⟨fun _ _ => Same.refl _⟩
instance : ModeDec SaslCode := ⟨fun _ _ => Same.refl _⟩
instance : ModeDec TerminusDurability := ⟨fun _ _ => Same.refl _⟩
instance : ModeDec TerminusExpiryPolicy := ⟨fun _ _ => Same.refl _⟩

instance [DecodeF α] [ModeDec α] : ModeDec (Option α) := ⟨fun h fmt =>
  Same.ite (Same.refl _) ((ModeDec.same h fmt).map _)⟩
instance {K V : Type} [HKey K] [DecodeF K] [DecodeF V] [ModeDec K] [ModeDec V] :
    ModeDec (HMap K V) := ⟨fun h fmt =>
  (Same.decodeMapWith h (same_decode h) (same_decode h) fmt).map _⟩
instance [DecodeF α] [ModeDec α] : ModeDec (Vec α) := ⟨fun h fmt =>
  (Same.decodeArrayHeader h fmt).bind fun _ => (Same.refl _).bind fun f =>
    (Same.decodeN (ModeDec.same h f) _).bind fun _ => Same.refl _⟩
instance [DecodeF α] [ModeDec α] : ModeDec (Multiple α) := ⟨fun h fmt =>
  Same.ite ((ModeDec.same (α := Vec α) h fmt).map _) ((ModeDec.same h fmt).map _)⟩
end

theorem same_variant {a b : Env} (h : a.Relaxed b) : ∀ (n m : Nat), n ≤ m →
    (n < m → a.stackDepth < b.stackDepth) → ∀ fmt, Same a b (decVariant a n fmt) (decVariant b m fmt)
  | 0, 0, _, _, _ => Same.refl _
  | 0, m + 1, _, hs, _ => fun _ => .inr ⟨.stackOverflow, .inl ⟨rfl, hs (by omega)⟩, rfl⟩
  | n + 1, 0, hn, _, _ => by omega
  | n + 1, m + 1, hn, hs, fmt => by
    have ih := same_variant h n m (by omega) fun k => hs (by omega)
    have hv : Same a b (formatCode >>= fun f => decVariant a n f)
        (formatCode >>= fun f => decVariant b m f) := (Same.refl _).bind ih
    unfold decVariant
    dsimp only
    repeat' apply Same.ite
    all_goals first
      | exact Same.refl _
      | exact (ModeDec.same h fmt).map _
      | exact (Same.decodeListWith h hv fmt).map _
      | exact (Same.decodeMapWith h hv hv fmt).map _
      | exact (same_decode h).bind fun _ => hv.bind fun _ => Same.refl _

instance : ModeDec Variant := ⟨fun h fmt => same_variant h _ _ h.1 id fmt⟩
instance : ModeDec VList := ⟨fun h fmt => (Same.decodeListWith h (same_decode h) fmt).map _⟩
instance : ModeDec VecVariantMap := ⟨fun h fmt =>
  (Same.decodeMapHeader h fmt).bind fun _ => (Same.withSlice _ (Same.decodeN
    ((same_decode h).bind fun _ => (same_decode h).bind fun _ => Same.refl _) _)).map _⟩

/-! ## List types -/

/-- The decoders of all the fields have the same outcome in all builds. -/
class FieldsMode (fs : List Field) : Prop where
  same : ∀ {a b : Env}, a.Relaxed b → ∀ f ∈ fs, Same a b (f.dec a) (f.dec b)

instance : FieldsMode [] := ⟨fun _ _ h => by cases h⟩

section
variable {α : Type} [Encode α] [DecodeF α] [LawfulEnc α] [LawfulDec α] [NonNull α] [ModeDec α]
  {fs : List Field} [hfs : FieldsMode fs]

instance (name : String) : FieldsMode (.req α name :: fs) := ⟨fun k f h => by
  rcases List.mem_cons.1 h with rfl | h
  · exact same_decode (α := α) k
  · exact hfs.same k f h⟩
instance : FieldsMode (.opt α :: fs) := ⟨fun k f h => by
  rcases List.mem_cons.1 h with rfl | h
  · exact same_decode (α := Option α) k
  · exact hfs.same k f h⟩
instance (d : α) : FieldsMode (.dflt α d :: fs) := ⟨fun k f h => by
  rcases List.mem_cons.1 h with rfl | h
  · exact (same_decode (α := Option α) k).map _
  · exact hfs.same k f h⟩
end

theorem same_getFields {a b : Env} : ∀ {fs : List Field}
    (_ : ∀ f ∈ fs, Same a b (f.dec a) (f.dec b)) (s : Nat × Bytes),
    SameOutcome a b (getFields a fs s) (getFields b fs s)
  | [], _, _ => .inl rfl
  | f :: fs, h, (0, w) => by
    simp only [getFields, FieldDec.run_bind, f.get_zero]
    cases f.missing with
    | err e => exact .inl rfl
    | panic p => exact .inl rfl
    | ok x =>
      simp only
      rcases same_getFields (fun f hf => h f (List.mem_cons_of_mem _ hf)) (0, w) with e | ⟨p, hp, e⟩
      · rw [e]; exact .inl rfl
      · rw [e]; exact .inr ⟨p, hp, rfl⟩
  | f :: fs, h, (n + 1, w) => by
    simp only [getFields, FieldDec.run_bind, f.get_succ, present]
    rcases h f (List.mem_cons_self ..) w with e | ⟨p, hp, e⟩
    · rw [e]
      cases f.dec a w with
      | err e => exact .inl rfl
      | panic p => exact .inl rfl
      | ok x =>
        simp only
        rcases same_getFields (fun f hf => h f (List.mem_cons_of_mem _ hf)) (n, x.1) with
          e | ⟨p, hp, e⟩
        · rw [e]; exact .inl rfl
        · rw [e]; exact .inr ⟨p, hp, rfl⟩
    · rw [e]; exact .inr ⟨p, hp, rfl⟩

theorem same_listInner {α : Type} {a b : Env} (h : a.Relaxed b) {f f' : FieldDec α}
    (hf : ∀ s, SameOutcome a b (f s) (f' s)) : Same a b (listInner a f) (listInner b f') :=
  (Same.refl _).bind fun fmt => (Same.decodeListHeader h fmt).bind fun hdr =>
    (Same.refl _).bind fun body i => by
      rcases hf (hdr.count, body) with e | ⟨p, hp, e⟩
      · simp only [e]; exact .inl rfl
      · simp only [e]; exact .inr ⟨p, hp, rfl⟩

theorem same_describedAs {α : Type} {a b : Env} (h : a.Relaxed b) {fmt : UInt8} {code : UInt64}
    {name : String} {d d' : Dec α} (hd : Same a b d d') :
    Same a b (describedAs a fmt code name d) (describedAs b fmt code name d') := by
  rw [describedAs_eq, describedAs_eq]
  exact Same.validateCode _ _ ((same_decode h).bind fun _ => Same.ite (Same.refl _) hd)

section
variable {α : Type} [Encode α] [DecodeF α] [ListType α] [hf : FieldsMode (ListType.fields α)]

theorem same_inner {a b : Env} (h : a.Relaxed b) :
    Same a b (ListType.inner (α := α) a) (ListType.inner b) := by
  rw [ListType.inner_eq, ListType.inner_eq]
  refine same_listInner h fun s => ?_
  rw [FieldDec.run_map, FieldDec.run_map]
  rcases same_getFields (hf.same h) s with e | ⟨p, hp, e⟩
  · rw [e]; exact .inl rfl
  · rw [e]; exact .inr ⟨p, hp, rfl⟩

theorem listModeDec : ModeDec α := ⟨fun h fmt => by
  rw [ListType.decF_eq, ListType.decF_eq]
  exact same_describedAs h (same_inner h)⟩
end

instance : FieldsMode (ListType.fields Error) := by
  unfold ListType.fields instListTypeError; dsimp only; infer_instance
instance : ModeDec Error := listModeDec

instance : FieldsMode (ListType.fields Received) := by
  unfold ListType.fields instListTypeReceived; dsimp only; infer_instance
instance : ModeDec Received := listModeDec

instance : FieldsMode (ListType.fields Accepted) := by
  unfold ListType.fields instListTypeAccepted; dsimp only; infer_instance
instance : ModeDec Accepted := listModeDec

instance : FieldsMode (ListType.fields Rejected) := by
  unfold ListType.fields instListTypeRejected; dsimp only; infer_instance
instance : ModeDec Rejected := listModeDec

instance : FieldsMode (ListType.fields Released) := by
  unfold ListType.fields instListTypeReleased; dsimp only; infer_instance
instance : ModeDec Released := listModeDec

instance : FieldsMode (ListType.fields Modified) := by
  unfold ListType.fields instListTypeModified; dsimp only; infer_instance
instance : ModeDec Modified := listModeDec

theorem DeliveryState.same_dispatch {a b : Env} (h : a.Relaxed b) (d : Descriptor) :
    Same a b (DeliveryState.dispatch a d) (DeliveryState.dispatch b d) := by
  unfold DeliveryState.dispatch
  repeat' apply Same.ite
  all_goals first
    | exact Same.refl _
    | exact (same_inner (α := Amqp.Received) h).map _
    | exact (same_inner (α := Amqp.Accepted) h).map _
    | exact (same_inner (α := Amqp.Rejected) h).map _
    | exact (same_inner (α := Amqp.Released) h).map _
    | exact (same_inner (α := Amqp.Modified) h).map _
    | exact (same_decode h).map _
instance : ModeDec DeliveryState := ⟨fun h _ => Same.validateCode _ _
  ((same_decode h).bind fun d => DeliveryState.same_dispatch h d)⟩

theorem Outcome.same_dispatch {a b : Env} (h : a.Relaxed b) (d : Descriptor) :
    Same a b (Outcome.dispatch a d) (Outcome.dispatch b d) := by
  unfold Outcome.dispatch
  repeat' apply Same.ite
  all_goals first
    | exact Same.refl _
    | exact (same_inner (α := Amqp.Accepted) h).map _
    | exact (same_inner (α := Amqp.Rejected) h).map _
    | exact (same_inner (α := Amqp.Released) h).map _
    | exact (same_inner (α := Amqp.Modified) h).map _
    | exact (same_decode h).map _
instance : ModeDec Outcome := ⟨fun h _ => Same.validateCode _ _
  ((same_decode h).bind fun d => Outcome.same_dispatch h d)⟩

instance : FieldsMode (ListType.fields Source) := by
  unfold ListType.fields instListTypeSource; dsimp only; infer_instance
instance : ModeDec Source := listModeDec

instance : FieldsMode (ListType.fields Target) := by
  unfold ListType.fields instListTypeTarget; dsimp only; infer_instance
instance : ModeDec Target := listModeDec

instance : FieldsMode (ListType.fields Open) := by
  unfold ListType.fields instListTypeOpen; dsimp only; infer_instance
instance : ModeDec Open := listModeDec

instance : FieldsMode (ListType.fields Begin) := by
  unfold ListType.fields instListTypeBegin; dsimp only; infer_instance
instance : ModeDec Begin := listModeDec

instance : FieldsMode (ListType.fields Attach) := by
  unfold ListType.fields instListTypeAttach; dsimp only; infer_instance
instance : ModeDec Attach := listModeDec

instance : FieldsMode (ListType.fields Flow) := by
  unfold ListType.fields instListTypeFlow; dsimp only; infer_instance
instance : ModeDec Flow := listModeDec

instance : FieldsMode (ListType.fields Disposition) := by
  unfold ListType.fields instListTypeDisposition; dsimp only; infer_instance
instance : ModeDec Disposition := listModeDec

instance : FieldsMode (ListType.fields Detach) := by
  unfold ListType.fields instListTypeDetach; dsimp only; infer_instance
instance : ModeDec Detach := listModeDec

instance : FieldsMode (ListType.fields End) := by
  unfold ListType.fields instListTypeEnd; dsimp only; infer_instance
instance : ModeDec End := listModeDec

instance : FieldsMode (ListType.fields Close) := by
  unfold ListType.fields instListTypeClose; dsimp only; infer_instance
instance : ModeDec Close := listModeDec

instance : FieldsMode (ListType.fields TransferPerf) := by
  unfold ListType.fields instListTypeTransferPerf; dsimp only; infer_instance
instance : ModeDec TransferPerf := listModeDec

instance : FieldsMode (ListType.fields SaslMechanisms) := by
  unfold ListType.fields instListTypeSaslMechanisms; dsimp only; infer_instance
instance : ModeDec SaslMechanisms := listModeDec

instance : FieldsMode (ListType.fields SaslInit) := by
  unfold ListType.fields instListTypeSaslInit; dsimp only; infer_instance
instance : ModeDec SaslInit := listModeDec

instance : FieldsMode (ListType.fields SaslChallenge) := by
  unfold ListType.fields instListTypeSaslChallenge; dsimp only; infer_instance
instance : ModeDec SaslChallenge := listModeDec

instance : FieldsMode (ListType.fields SaslResponse) := by
  unfold ListType.fields instListTypeSaslResponse; dsimp only; infer_instance
instance : ModeDec SaslResponse := listModeDec

instance : FieldsMode (ListType.fields SaslOutcome) := by
  unfold ListType.fields instListTypeSaslOutcome; dsimp only; infer_instance
instance : ModeDec SaslOutcome := listModeDec

theorem SaslFrameBody.same_dispatch {a b : Env} (h : a.Relaxed b) (d : Descriptor) :
    Same a b (SaslFrameBody.dispatch a d) (SaslFrameBody.dispatch b d) := by
  unfold SaslFrameBody.dispatch
  repeat' apply Same.ite
  all_goals first
    | exact Same.refl _
    | exact (same_inner (α := Amqp.SaslMechanisms) h).map _
    | exact (same_inner (α := Amqp.SaslInit) h).map _
    | exact (same_inner (α := Amqp.SaslChallenge) h).map _
    | exact (same_inner (α := Amqp.SaslResponse) h).map _
    | exact (same_inner (α := Amqp.SaslOutcome) h).map _
    | exact (same_decode h).map _
instance : ModeDec SaslFrameBody := ⟨fun h _ => Same.validateCode _ _
  ((same_decode h).bind fun d => SaslFrameBody.same_dispatch h d)⟩

instance : FieldsMode (ListType.fields Header) := by
  unfold ListType.fields instListTypeHeader; dsimp only; infer_instance
instance : ModeDec Header := listModeDec

instance : FieldsMode (ListType.fields Properties) := by
  unfold ListType.fields instListTypeProperties; dsimp only; infer_instance
instance : ModeDec Properties := listModeDec

theorem Section.same_dispatch {a b : Env} (h : a.Relaxed b) (d : Descriptor) :
    Same a b (Section.dispatch a d) (Section.dispatch b d) := by
  unfold Section.dispatch
  repeat' apply Same.ite
  all_goals first
    | exact Same.refl _
    | exact (same_inner (α := Amqp.Header) h).map _
    | exact (same_inner (α := Amqp.Properties) h).map _
    | exact (same_decode h).map _
instance : ModeDec Section := ⟨fun h _ => Same.validateCode _ _
  ((same_decode h).bind fun d => Section.same_dispatch h d)⟩

/-! ## Transfers, frames and messages -/

theorem Transfer.same_inner {a b : Env} (h : a.Relaxed b) :
    Same a b (Transfer.decInner a) (Transfer.decInner b) :=
  (Amqp.same_inner (α := TransferPerf) h).bind fun _ => Same.refl _
instance : ModeDec Transfer := ⟨fun h _ => same_describedAs h (Transfer.same_inner h)⟩

theorem Frame.same_dispatch {a b : Env} (h : a.Relaxed b) (d : Descriptor) :
    Same a b (Frame.dispatch a d) (Frame.dispatch b d) := by
  unfold Frame.dispatch
  repeat' apply Same.ite
  all_goals first
    | exact Same.refl _
    | exact (Transfer.same_inner h).map _
    | exact (same_inner (α := Amqp.Open) h).map _
    | exact (same_inner (α := Amqp.Begin) h).map _
    | exact (same_inner (α := Amqp.Attach) h).map _
    | exact (same_inner (α := Amqp.Flow) h).map _
    | exact (same_inner (α := Amqp.Disposition) h).map _
    | exact (same_inner (α := Amqp.Detach) h).map _
    | exact (same_inner (α := Amqp.End) h).map _
    | exact (same_inner (α := Amqp.Close) h).map _

theorem Frame.same {a b : Env} (h : a.Relaxed b) : Same a b (Frame.decode a) (Frame.decode b) := by
  intro i
  unfold Frame.decode
  split
  · exact .inl rfl
  · exact ((Same.refl _).bind fun fmt => Same.validateCode _ _
      ((same_decode h).bind fun d => Frame.same_dispatch h d)) i

theorem AmqpFrame.same {a b : Env} (h : a.Relaxed b) :
    Same a b (AmqpFrame.decode a) (AmqpFrame.decode b) :=
  (Same.refl _).bind fun _ => (Frame.same h).bind fun _ => Same.refl _
theorem SaslFrame.same {a b : Env} (h : a.Relaxed b) :
    Same a b (SaslFrame.decode a) (SaslFrame.decode b) :=
  (Same.refl _).bind fun _ => (same_decode h).bind fun _ => Same.refl _

theorem Message.same_loop {AP : Type} {a b : Env} (h : a.Relaxed b) (conv : StringVariantMap → AP) :
    ∀ (n : Nat) (m : Message AP), Same a b (Message.loop a conv n m) (Message.loop b conv n m)
  | 0, _ => Same.refl _
  | n + 1, m => fun i => by
    simp only [Message.loop]
    rcases same_decode (α := Section) h i with e | ⟨p, hp, e⟩
    · rw [e]
      cases decode Section a i with
      | err e => exact .inl rfl
      | panic p => exact .inl rfl
      | ok x =>
        simp only
        split
        · exact .inl rfl
        · exact Message.same_loop h conv n _ _
    · exact .inr ⟨p, hp, by rw [e]⟩

theorem Message.same {AP : Type} {a b : Env} (h : a.Relaxed b) (conv : StringVariantMap → AP) :
    Same a b (Message.decodeWith a conv) (Message.decodeWith b conv) :=
  fun i => Message.same_loop h conv _ _ i

end Amqp
