import Verif.Spec.Travel
import Verif.Proofs.SentLaws
import Verif.Props.Conditions
import Verif.Proofs.FrameLaws
/-!
# What becomes of fields on their way: the generic part

Support for C86.
-/
set_option autoImplicit false
namespace Amqp
open Dec

namespace Fate
variable {α β γ : Type}

theorem bind_eq (s : Fate α) (f : α → Fate β) : (s >>= f) = s.andThen f := rfl
theorem pure_bind (a : α) (f : α → Fate β) : ((pure a : Fate α) >>= f) = f a := rfl
theorem bind_assoc (s : Fate α) (f : α → Fate β) (g : β → Fate γ) :
    (s >>= f) >>= g = s >>= fun a => f a >>= g := by cases s <;> rfl
theorem map_bind (h : β → γ) (s : Fate α) (f : α → Fate β) :
    h <$> (s >>= f) = s >>= fun a => h <$> f a := by cases s <;> rfl
theorem map_pure (f : α → β) (a : α) : f <$> (pure a : Fate α) = pure (f a) := rfl
theorem map_eq (f : α → β) (s : Fate α) : f <$> s = s.andThen fun a => .arrives (f a) := rfl

theorem Answer.fmap {s : Fate α} {f : α → β} {d : Dec α} {i rest : Bytes}
    (h : s.Answer rest (d i)) : (f <$> s).Answer rest ((f <$> d) i) := Fate.Answer.map h

theorem Answer.unmap {s : Fate α} {f : α → β} (hf : ∀ a b, f a = f b → a = b) {d : Dec α}
    {i rest : Bytes} (h : (f <$> s).Answer rest ((f <$> d) i)) : s.Answer rest (d i) := by
  rw [run_map] at h
  cases s with
  | arrives a =>
    cases hd : d i with
    | ok p =>
      obtain ⟨t, b⟩ := p
      rw [hd] at h
      have h : Res.ok (t, f b) = .ok (rest, f a) := h
      injection h with h
      injection h with h1 h2
      rw [h1, hf _ _ h2]
      exact rfl
    | err e => rw [hd] at h; cases h
    | panic p => rw [hd] at h; cases h
  | refused =>
    cases hd : d i with
    | ok p => rw [hd] at h; obtain ⟨e, h⟩ := h; cases h
    | err e => exact ⟨e, rfl⟩
    | panic p => rw [hd] at h; obtain ⟨e, h⟩ := h; cases h
  | crashes q =>
    cases hd : d i with
    | ok p => rw [hd] at h; cases h
    | err e => rw [hd] at h; cases h
    | panic p =>
      rw [hd] at h
      have h : (Res.panic p : Res ParseError (Bytes × β)) = .panic q := h
      injection h with h
      rw [h]
      exact rfl

end Fate

/-- What decoding makes of the encoding of a value that can exist. -/
class FateLaw (α : Type) [Encode α] [DecodeF α] [HasFate α] [Holdable α] : Prop where
  law : ∀ (env : Env) (v : α), held v → (enc v).length < 2 ^ 32 → ∀ rest,
    (fate env v).Answer rest (decode α env (enc v ++ rest))

instance : FateLaw Bool := ⟨fun env v _ h => SmallRT.rt env v h⟩
instance : FateLaw UInt8 := ⟨fun env v _ h => SmallRT.rt env v h⟩
instance : FateLaw UInt16 := ⟨fun env v _ h => SmallRT.rt env v h⟩
instance : FateLaw UInt32 := ⟨fun env v _ h => SmallRT.rt env v h⟩
instance : FateLaw UInt64 := ⟨fun env v _ h => SmallRT.rt env v h⟩
instance : FateLaw RStr := ⟨fun env v _ h => SmallRT.rt env v h⟩
instance : FateLaw Symbol := ⟨fun env v _ h => SmallRT.rt env v h⟩
instance : FateLaw Binary := ⟨fun env v _ h => SmallRT.rt env v h⟩
instance : FateLaw MessageId := ⟨fun env v _ h => SmallRT.rt env v h⟩
instance : FateLaw Role := ⟨fun env v _ h => SmallRT.rt env v h⟩
instance : FateLaw SenderSettleMode := ⟨fun env v _ h => SmallRT.rt env v h⟩
instance : FateLaw ReceiverSettleMode := ⟨fun env v _ h => SmallRT.rt env v h⟩
instance : FateLaw SaslCode := ⟨fun env v _ h => SmallRT.rt env v h⟩
instance : FateLaw TerminusDurability := ⟨fun env v _ h => SmallRT.rt env v h⟩
instance : FateLaw TerminusExpiryPolicy := ⟨fun env v _ h => SmallRT.rt env v h⟩

instance : FateLaw DateTime := ⟨fun env t _ _ => sent_datetime env t⟩
instance : FateLaw Variant := ⟨fun env v _ h => sent_variant env v (by
  have : v.vsize = (enc v).length := v.vsize_eq
  omega) env.stackDepth⟩

/-! ### Maps -/

theorem sizeExact_of {α : Type} [Encode α] [LawfulEnc α] : SizeExact α := LawfulEnc.size_eq

theorem mem_content {K V : Type} [Encode K] [Encode V] {m : List (K × V)} {e : K × V} (h : e ∈ m) :
    size e.1 + size e.2 ≤ mapContentSize size size m := by
  induction m with
  | nil => cases h
  | cons y t ih =>
    obtain ⟨k, v⟩ := y
    simp only [mapContentSize]
    rcases List.mem_cons.1 h with rfl | h
    · simp only; omega
    · have := ih h; omega

theorem fate_hmap {K : Type} [HKey K] [Encode K] [DecodeF K] [LawfulEnc K] [SmallRT K]
    (env : Env) (m : HMap K Variant) (h : held m) (hl : (enc m).length < 2 ^ 32) (rest : Bytes) :
    ((sentValues env.stackDepth m.entries).andThen fun l => .arrives (HMap.mk l)).Answer rest
      (decode (HMap K Variant) env (enc m ++ rest)) := by
  have hs := small_of_length (sizeExact_of (α := K)) (fun v : Variant => v.vsize_eq) hl
  refine sent_hmap sizeExact_of env m (fun e he => ⟨SmallRT.rt env _ ?_, (h.1 e he).1⟩) h.2 hs rest
  have := mem_content he
  rw [LawfulEnc.size_eq e.1] at this
  omega

instance : FateLaw (HMap Symbol Variant) := ⟨fun env m h hl rest => fate_hmap env m h hl rest⟩
instance : FateLaw (HMap Str Variant) := ⟨fun env m h hl rest => fate_hmap env m h hl rest⟩

instance : FateLaw (HMap Variant Variant) := ⟨fun env m h hl rest => by
  obtain ⟨m⟩ := m
  have hz : (Variant.map m).vsize < 2 ^ 32 := by
    rw [(Variant.map m).vsize_eq]
    have : enc (HMap.mk m) = (Variant.map m).venc := by
      simp only [enc, Variant.venc, vencMap_eq, vsizeMap_eq]; rfl
    rwa [← this]
  have key := sent_variant env (.map m) hz (env.stackDepth + 1) rest
  have e0 : (Variant.map m).venc = enc (HMap.mk m) := by
    simp only [enc, Variant.venc, vencMap_eq, vsizeMap_eq]; rfl
  rw [e0] at key
  have e1 : decVar env (env.stackDepth + 1) (enc (HMap.mk m) ++ rest) =
      ((fun m : HMap Variant Variant => Variant.map m.entries) <$>
        decode (HMap Variant Variant) env) (enc (HMap.mk m) ++ rest) := by
    obtain ⟨c, t, e, hc⟩ := compoundHdr_head FC.map8 FC.map32 (mapContentSize size size m)
      (m.length * 2) (mapContent enc enc m)
    have e : enc (HMap.mk m) = c :: t := e
    rw [e, List.cons_append, decVar_cons, run_map, decode_cons]
    have e2 : decVariant env (env.stackDepth + 1) c =
        Variant.map <$> decodeMapWith (decVar env env.stackDepth) (decVar env env.stackDepth) env c := by
      rcases hc with rfl | rfl <;> rfl
    have e3 : decF (α := HMap Variant Variant) env c =
        HMap.mk <$> decodeMapWith (decVar env env.stackDepth) (decVar env env.stackDepth) env c := rfl
    rw [e2, e3, run_map, run_map]
    cases decodeMapWith (decVar env env.stackDepth) (decVar env env.stackDepth) env c (t ++ rest) <;> rfl
  rw [e1] at key
  refine Fate.Answer.unmap (f := fun m : HMap Variant Variant => Variant.map m.entries)
    (fun a b h => by cases a; cases b; cases h; rfl) ?_
  have e4 : ((fun m : HMap Variant Variant => Variant.map m.entries) <$> fate env (HMap.mk m)) =
      (Variant.map m).sent (env.stackDepth + 1) := by
    simp only [Variant.sent, fate]
    cases sentMap env.stackDepth m <;> rfl
  rw [e4]
  exact key⟩

instance : FateLaw FilterSet := ⟨fun env m h hl rest => by
  have hs := small_of_length (sizeExact_of (α := Symbol)) (sizeExact_of (α := Option ByteStr)) hl
  refine C16_same_order sizeExact_of sizeExact_of env m (fun e he => (h.1 e he).1) h.2
    (fun e he => ?_) hl rest
  have := mem_content he
  rw [LawfulEnc.size_eq e.1, LawfulEnc.size_eq e.2] at this
  exact ⟨SmallRT.rt env _ (by omega), SmallRT.rt env _ (by omega)⟩⟩

instance : FateLaw VList := ⟨fun env l _ _ rest => by
  obtain ⟨l⟩ := l
  obtain ⟨c, t, e, hc⟩ := compoundHdr_head FC.array8 FC.array32 (vsizeList l) l.length
    (vencList l)
  rw [show enc (VList.mk l) = c :: t from e]
  rcases hc with rfl | rfl <;> exact ⟨_, rfl⟩⟩

/-! ### Several symbols, error conditions, distribution modes -/

theorem arrayItems_length (l : List Symbol) :
    (l.flatMap aenc).length = (l.map fun s => 4 + s.str.bytes.length).sum := by
  induction l with
  | nil => rfl
  | cons a t ih =>
    simp only [List.flatMap_cons, List.length_append, List.map_cons, List.sum_cons, ih,
      symbol_item_length]

theorem symbolsContent_length (l : List Symbol) :
    (arrayContent l).length = (l.flatMap aenc).length := by
  induction l with
  | nil => rfl
  | cons a t ih => simp only [arrayContent, List.flatMap_cons, List.length_append, ih]

theorem multiple_overflow {env : Env} (h : env.overflowChecks = true) (a : UInt8) (t : Bytes) :
    decode (Multiple Symbol) env (0xe0 :: 0 :: a :: t) = .panic .overflow := by
  have h1 : decodeCompound8 env (0 :: a :: t) = .panic .overflow := by
    show (subChecked env 8 0 1 >>= _) t = _
    have : subChecked env 8 0 1 = Dec.abort .overflow := by
      unfold subChecked; rw [if_neg (by decide), if_pos h]
    rw [this]; rfl
  have h2 : decF (α := Vec Symbol) env 0xe0 (0 :: a :: t) = .panic .overflow := by
    show (decodeCompound8 env >>= _) _ = _
    exact bind_panic h1
  rw [decode_cons]
  show ((fun v : Vec Symbol => (⟨v.items⟩ : Multiple Symbol)) <$> decF env 0xe0) (0 :: a :: t) = _
  rw [run_map, h2]

instance : FateLaw (Multiple Symbol) := ⟨fun env m _ hl rest => by
  have hsz : ItemSizeExact Symbol := C18_item_sizes.2.2.2.2.2.2.2.2.2.2.2.2.2.2.2.2
  obtain ⟨l⟩ := m
  by_cases h1 : ∃ a, l = [a]
  · obtain ⟨a, rfl⟩ := h1
    have hr : RoundTrips env a := SmallRT.rt env a hl
    have := (C18_multiple_round_trip_partial hsz symbol_head env ⟨[a]⟩
      (fun b hb => by simp at hb; subst hb; exact hr) (fun h => absurd rfl h)).1 rest
    have e : fate env (Multiple.mk [a]) = .arrives ⟨[a]⟩ := if_neg (by simp)
    rw [e]
    exact this
  · have hne : l.length ≠ 1 := fun h => h1 (List.length_eq_one_iff.1 h)
    have eenc : enc (Multiple.mk l) = enc (Vec.mk l) := by
      match l, hne with
      | [], _ => rfl
      | [a], h => exact absurd rfl h
      | a :: b :: t, _ => rfl
    rw [eenc] at hl ⊢
    have hc : (l.flatMap aenc).length + 5 < 2 ^ 32 := by
      by_cases hb : arrayContentSize l + 1 > 255
      · simp only [enc] at hl
        rw [if_pos hb] at hl
        have := arrayContentSize_flatMap hsz l
        simp only [List.length_append, List.length_cons] at hl
        have h2 := symbolsContent_length l
        have h3 : (beEnc 4 (arrayContentSize l + 5)).length = 4 := beEnc_length ..
        have h4 : (beEnc 4 l.length).length = 4 := beEnc_length ..
        omega
      · have := arrayContentSize_flatMap hsz l
        omega
    have hmem : ∀ a ∈ l, ItemRoundTrips env a := fun a ha => by
      obtain ⟨l1, l2, e⟩ := List.append_of_mem ha
      refine (C02_text_items_round_trip env).2.2 a ?_
      have := symbol_item_length a
      rw [e] at hc
      simp only [List.flatMap_append, List.flatMap_cons, List.length_append] at hc
      omega
    by_cases h254 : env.overflowChecks = true ∧ (l.flatMap aenc).length = 254
    · have e : fate env (Multiple.mk l) = .crashes .overflow :=
        if_pos ⟨h254.1, hne, by rw [← arrayItems_length]; exact h254.2⟩
      rw [e]
      have e2 : enc (Vec.mk l) = 0xe0 :: 0 :: UInt8.ofNat l.length ::
          (ArrayEncode.code Symbol :: arrayContent l) := by
        simp only [enc]
        rw [arrayContentSize_flatMap hsz, h254.2]; rfl
      rw [e2]
      exact multiple_overflow h254.1 _ _
    · have e : fate env (Multiple.mk l) = .arrives ⟨l⟩ :=
        if_neg fun h => h254 ⟨h.1, by rw [arrayItems_length]; exact h.2.2⟩
      rw [e]
      exact multiple_of_vec ((C18_array_iff hsz env ⟨l⟩ hmem hc).2 h254 rest)⟩

theorem standard_found : ∀ d ∈ standardConditions,
    standardConditions.find? (fun e => conditionName e = conditionName d) = some d ∧
      ErrorCondition.ofSymbol (conditionName d) = d := by
  decide +kernel

theorem condition_found (c : ErrorCondition) :
    (standardConditions.find? fun d => conditionName d = conditionName c).getD c =
      ErrorCondition.ofSymbol (conditionName c) := by
  by_cases h : ∃ d ∈ standardConditions, conditionName d = conditionName c
  · obtain ⟨d, hd, e⟩ := h
    rw [← e, (standard_found d hd).1, (standard_found d hd).2]
    rfl
  · have hn : standardConditions.find? (fun d => conditionName d = conditionName c) = none := by
      rw [List.find?_eq_none]
      exact fun d hd e => h ⟨d, hd, by simpa using e⟩
    rw [hn]
    cases c with
    | Custom s =>
      refine (ofSymbol_custom ?_).symm
      rintro (⟨e, rfl⟩ | ⟨e, rfl⟩ | ⟨e, rfl⟩ | ⟨e, rfl⟩)
      · exact h ⟨.AmqpError e, by cases e <;> decide, by cases e <;> rfl⟩
      · exact h ⟨.ConnectionError e, by cases e <;> decide, by cases e <;> rfl⟩
      · exact h ⟨.SessionError e, by cases e <;> decide, by cases e <;> rfl⟩
      · exact h ⟨.LinkError e, by cases e <;> decide, by cases e <;> rfl⟩
    | AmqpError e => exact absurd ⟨_, by cases e <;> decide, rfl⟩ h
    | ConnectionError e => exact absurd ⟨_, by cases e <;> decide, rfl⟩ h
    | SessionError e => exact absurd ⟨_, by cases e <;> decide, rfl⟩ h
    | LinkError e => exact absurd ⟨_, by cases e <;> decide, rfl⟩ h

theorem enc_condition (c : ErrorCondition) : enc c = enc (conditionName c) := by
  cases c with
  | Custom s => rfl
  | AmqpError e => cases e <;> rfl
  | ConnectionError e => cases e <;> rfl
  | SessionError e => cases e <;> rfl
  | LinkError e => cases e <;> rfl

instance : FateLaw ErrorCondition := ⟨fun env c _ hl rest => by
  show (Fate.arrives _).Answer rest _
  rw [condition_found, decode_errorCondition, enc_condition]
  rw [enc_condition] at hl
  exact map_ok (SmallRT.rt env (conditionName c) hl rest)⟩

theorem mode_found (c : DistributionMode) :
    ([DistributionMode.Move, .Copy].find? fun d => modeName d = modeName c).getD c =
      DistributionMode.ofSymbol (modeName c) := by
  cases c with
  | Move => decide
  | Copy => decide
  | Custom s =>
    by_cases h1 : s = ⟨.lit "move"⟩
    · subst h1; decide
    · by_cases h2 : s = ⟨.lit "copy"⟩
      · subst h2; decide
      · have e1 : DistributionMode.ofSymbol s = .Custom s := by
          unfold DistributionMode.ofSymbol
          rw [if_neg (fun e => h1 (Symbol.eq_of_str e)), if_neg (fun e => h2 (Symbol.eq_of_str e))]
        have e2 : [DistributionMode.Move, .Copy].find?
            (fun d => modeName d = modeName (.Custom s)) = none := by
          rw [List.find?_eq_none]
          intro d hd
          rw [decide_eq_true_eq]
          simp only [List.mem_cons, List.not_mem_nil, or_false] at hd
          rcases hd with rfl | rfl
          · exact fun e => h1 e.symm
          · exact fun e => h2 e.symm
        rw [e2]
        exact e1.symm

instance : FateLaw DistributionMode := ⟨fun env c _ hl rest => by
  show (Fate.arrives _).Answer rest _
  have e : enc c = enc (modeName c) := by cases c <;> rfl
  rw [mode_found, decode_distributionMode, e]
  rw [e] at hl
  exact map_ok (SmallRT.rt env (modeName c) hl rest)⟩

/-! ### Options -/

theorem decode_some {α : Type} [Encode α] [DecodeF α] [NonNull α] (env : Env) (v : α) (rest : Bytes) :
    decode (Option α) env (enc v ++ rest) = (some <$> decode α env) (enc v ++ rest) := by
  obtain ⟨c, w, e, hc⟩ := NonNull.head v
  rw [e, List.cons_append, decode_cons]
  show (if c = FC.null then _ else _ : Dec (Option α)) _ = _
  rw [if_neg hc]
  rfl

instance {α : Type} [Encode α] [DecodeF α] [NonNull α] [HasFate α] [Holdable α] [FateLaw α] :
    FateLaw (Option α) := ⟨fun env o h hl rest => by
  cases o with
  | none => exact rfl
  | some v =>
    show (some <$> fate env v).Answer rest (decode (Option α) env (enc v ++ rest))
    rw [decode_some]
    exact (FateLaw.law env v (h v rfl) hl rest).fmap⟩

/-! ### Fields -/

/-- What becomes of a field. -/
structure FieldFate (f : Field) where
  fate : Env → f.T → Fate f.T
  ok : f.T → Prop
  law : ∀ env v, ok v → (f.enc v).length < 2 ^ 32 → ∀ rest,
    (fate env v).Answer rest (f.dec env (f.enc v ++ rest))

section
variable {α : Type} [Encode α] [DecodeF α] [LawfulEnc α] [LawfulDec α] [NonNull α] [HasFate α]
  [Holdable α] [FateLaw α]

def FieldFate.req {name : String} : FieldFate (.req α name) where
  fate := Amqp.fate (α := α)
  ok := held (α := α)
  law := FateLaw.law (α := α)

def FieldFate.opt : FieldFate (.opt α) where
  fate := Amqp.fate (α := Option α)
  ok := held (α := Option α)
  law := FateLaw.law (α := Option α)

def FieldFate.dflt {d : α} : FieldFate (.dflt α d) where
  fate := Amqp.fate (α := α)
  ok := held (α := α)
  law env (v : α) h hl rest := by
    show (Amqp.fate (α := α) env v).Answer rest
      (((fun o : Option α => o.getD d) <$> decode (Option α) env) (enc v ++ rest))
    have e : ((fun o : Option α => o.getD d) <$> decode (Option α) env) (enc v ++ rest) =
        decode α env (enc v ++ rest) := by
      rw [run_map, decode_some, run_map]
      cases decode α env (enc v ++ rest) <;> rfl
    rw [e]
    exact FateLaw.law env v h hl rest
end

/-- What becomes of each of a sequence of fields. -/
def FateFields : List Field → Type
  | [] => Unit
  | f :: fs => FieldFate f × FateFields fs

def fateFields : (fs : List Field) → FateFields fs → Env → Tuple fs → Fate (Tuple fs)
  | [], _, _, _ => pure ()
  | _ :: fs, gs, env, t => do
    let a ← gs.1.fate env t.1
    let t ← fateFields fs gs.2 env t.2
    pure (a, t)

/-- The same with what is made of the fields. -/
def fateThen {β : Type} : (fs : List Field) → FateFields fs → Env → Tuple fs →
    (Tuple fs → Fate β) → Fate β
  | [], _, _, t, k => k t
  | _ :: fs, gs, env, t, k =>
    gs.1.fate env t.1 >>= fun a => fateThen fs gs.2 env t.2 fun t => k (a, t)

theorem fateThen_eq {β : Type} {env : Env} : ∀ (fs : List Field) (gs : FateFields fs)
    (t : Tuple fs) (k : Tuple fs → Fate β),
    fateThen fs gs env t k = fateFields fs gs env t >>= k
  | [], _, _, _ => rfl
  | f :: fs, (g, gs), (a, t), k => by
    have e1 : fateThen (f :: fs) (g, gs) env (a, t) k =
        g.fate env a >>= fun a => fateThen fs gs env t fun t => k (a, t) := rfl
    have e2 : fateFields (f :: fs) (g, gs) env (a, t) =
        g.fate env a >>= fun a => fateFields fs gs env t >>= fun t => pure (a, t) := rfl
    rw [e1, e2]
    refine Eq.trans ?_ (Fate.bind_assoc (g.fate env a)
      (fun a => fateFields fs gs env t >>= fun t => pure (a, t)) k).symm
    refine congrArg (g.fate env a >>= ·) (funext fun a => ?_)
    refine Eq.trans (fateThen_eq fs gs t _) ?_
    exact (Fate.bind_assoc (fateFields fs gs env t) (fun t => pure (a, t)) k).symm

def okFields : (fs : List Field) → FateFields fs → Tuple fs → Prop
  | [], _, _ => True
  | _ :: fs, gs, t => gs.1.ok t.1 ∧ okFields fs gs.2 t.2

/-- The same for the decoder of fields. -/
def Fate.Fields {α : Type} (s : Fate α) (r : Res ParseError ((Nat × Bytes) × α)) : Prop :=
  match s with
  | .arrives a => ∃ st, r = .ok (st, a)
  | .refused => ∃ e, r = .err e
  | .crashes p => r = .panic p

theorem fate_fields {env : Env} : ∀ (fs : List Field) (gs : FateFields fs) (t : Tuple fs),
    okFields fs gs t → sizeFields fs t < 2 ^ 32 →
    (fateFields fs gs env t).Fields (getFields env fs (fs.length, encFields fs t))
  | [], _, _, _, _ => ⟨_, rfl⟩
  | f :: fs, (g, gs), (a, t), h, hl => by
    have hl : f.size a + sizeFields fs t < 2 ^ 32 := hl
    have ih := fate_fields (env := env) fs gs t h.2 (by omega)
    have h1 := g.law env a h.1 (by rw [← f.size_eq]; omega) (encFields fs t)
    show (g.fate env a >>= fun a => fateFields fs gs env t >>= fun t => pure (a, t)).Fields
      (getFields env (f :: fs) (fs.length + 1, f.enc a ++ encFields fs t))
    simp only [getFields, FieldDec.run_bind, f.get_succ, present]
    cases hg : g.fate env a with
    | refused =>
      rw [hg] at h1
      obtain ⟨e, h1⟩ := h1
      rw [h1]
      exact ⟨e, rfl⟩
    | crashes p =>
      rw [hg] at h1
      have h1 : f.dec env (f.enc a ++ encFields fs t) = .panic p := h1
      rw [h1]
      exact rfl
    | arrives a' =>
      rw [hg] at h1
      have h1 : f.dec env (f.enc a ++ encFields fs t) = .ok (encFields fs t, a') := h1
      rw [h1]
      show ((fateFields fs gs env t).andThen fun t => .arrives (a', t)).Fields _
      simp only
      cases hf : fateFields fs gs env t with
      | refused =>
        rw [hf] at ih
        obtain ⟨e, ih⟩ := ih
        rw [ih]
        exact ⟨e, rfl⟩
      | crashes p =>
        rw [hf] at ih
        have ih : getFields env fs (fs.length, encFields fs t) = .panic p := ih
        rw [ih]
        exact rfl
      | arrives t' =>
        rw [hf] at ih
        obtain ⟨st, ih⟩ := ih
        rw [ih]
        exact ⟨_, rfl⟩

/-! ### List types -/

class ListFate (α : Type) [Encode α] [DecodeF α] [ListType α] [HasFate α] [Holdable α] where
  ff : FateFields (ListType.fields α)
  fate_eq : ∀ env (v : α), fate env v =
    fateThen _ ff env (ListType.toT v) fun t => pure (ListType.ofT t)
  held_ok : ∀ v : α, held v → okFields _ ff (ListType.toT v)

section
variable {α : Type} [Encode α] [DecodeF α] [ListType α] [HasFate α] [Holdable α] [ListFate α]
open ListType

theorem fate_inner (env : Env) (v : α) (h : held v)
    (hl : sizeFields (fields α) (toT v) + 4 < 2 ^ 32) (rest : Bytes) :
    (fate env v).Answer rest (inner env (compoundHdr FC.list8 FC.list32
      (sizeFields (fields α) (toT v)) (fields α).length ++ encFields (fields α) (toT v) ++ rest)) := by
  have hf := fate_fields (env := env) _ (ListFate.ff (α := α)) (toT v) (ListFate.held_ok v h)
    (by omega)
  have hw := listHdrWire hl (length_le_sizeFields (fields α) (toT v))
  have e : listInner env (ofT (α := α) <$> getFields env (fields α)) =
      (formatCode >>= decodeListHeader env) >>= fun header =>
      takeN header.size >>= fun body =>
        match (ofT (α := α) <$> getFields env (fields α)) (header.count, body) with
        | .ok (_, a) => pure a
        | .err e => Dec.fail e
        | .panic p => Dec.abort p := by
    simp only [listInner, bind_assoc]
    rfl
  rw [inner_eq, e, List.append_assoc, bind_ok (hw.reads env _), encFields_length,
    bind_ok (Reads.takeN (encFields (fields α) (toT v)) rfl rest), FieldDec.run_map,
    ListFate.fate_eq, fateThen_eq]
  cases hq : fateFields (fields α) ListFate.ff env (toT v) with
  | refused =>
    rw [hq] at hf
    obtain ⟨e, hf⟩ := hf
    rw [hf]
    exact ⟨e, rfl⟩
  | crashes p =>
    rw [hq] at hf
    have hf : getFields env (fields α) ((fields α).length, encFields (fields α) (toT v)) =
      .panic p := hf
    rw [hf]
    exact rfl
  | arrives t =>
    rw [hq] at hf
    obtain ⟨st, hf⟩ := hf
    rw [hf]
    exact rfl

omit [HasFate α] [Holdable α] [ListFate α] in
theorem fields_small {v : α} (hl : (enc v).length < 2 ^ 32) :
    sizeFields (fields α) (toT v) + 4 < 2 ^ 32 := by
  haveI : LawfulEnc α := listLawfulEnc
  rw [← LawfulEnc.size_eq, size_eq'] at hl
  unfold listSize at hl
  split at hl <;> omega

omit [HasFate α] [Holdable α] [ListFate α] in
theorem enc_list (v : α) : enc v = FC.described :: ([FC.smallUlong, (code α).toUInt8] ++
    (compoundHdr FC.list8 FC.list32 (sizeFields (fields α) (toT v)) (fields α).length ++
      encFields (fields α) (toT v))) := by
  rw [enc_eq', listHdr, enc_ulong_small (code_pos (α := α)) code_lt]
  simp only [List.cons_append, List.nil_append]

theorem listFateLaw : FateLaw α := ⟨fun env v h hl rest => by
  have key := fate_inner env v h (fields_small hl) rest
  rw [enc_list, List.cons_append, decode_cons, decF_eq, describedAs_eq, validateCode_self,
    List.append_assoc, bind_ok (reads_small_descriptor env (code_lt (α := α)) _)]
  have hsel : (Descriptor.ulong (code α)).selects (code α) (name α) = true := by
    simp [Descriptor.selects]
  rw [hsel]
  exact key⟩

/-- A member of a choice. -/
theorem fate_union_list {U : Type} [DecodeF U] {env : Env} (mk : α → U)
    (disp : Descriptor → Dec U) (v : α) (h : held v) (hl : (enc v).length < 2 ^ 32) (rest : Bytes)
    (hU : decF (α := U) env FC.described = validateCode FC.described FC.described
      (decode Descriptor env >>= disp))
    (hd : disp (.ulong (code α)) = mk <$> inner env) :
    (mk <$> fate env v).Answer rest (decode U env (enc v ++ rest)) := by
  have key := fate_inner env v h (fields_small hl) rest
  rw [enc_list, List.cons_append, decode_cons, hU, validateCode_self,
    List.append_assoc, bind_ok (reads_small_descriptor env (code_lt (α := α)) _), hd]
  exact key.fmap
end

theorem fate_restricted {U α : Type} [DecodeF U] [Encode α] [DecodeF α] [HasFate α] [Holdable α]
    [FateLaw α] {env : Env} (mk : α → U) (disp : Descriptor → Dec U) (c : UInt64)
    (hc : 0 < c.toNat ∧ c.toNat < 256) (v : α) (h : held v)
    (hl : (enc (Descriptor.ulong c) ++ enc v).length < 2 ^ 32) (rest : Bytes)
    (hU : decF (α := U) env FC.described = validateCode FC.described FC.described
      (decode Descriptor env >>= disp))
    (hd : disp (.ulong c) = mk <$> decode α env) :
    (mk <$> fate env v).Answer rest (decode U env ((enc (Descriptor.ulong c) ++ enc v) ++ rest)) := by
  have key := FateLaw.law env v h (by rw [List.length_append] at hl; omega) rest
  have e : (enc (Descriptor.ulong c) ++ enc v) ++ rest =
      FC.described :: ([FC.smallUlong, c.toUInt8] ++ (enc v ++ rest)) := by
    rw [enc_ulong_small hc.1 hc.2]; simp
  rw [e, decode_cons, hU, validateCode_self, bind_ok (reads_small_descriptor env hc.2 _), hd]
  exact key.fmap

end Amqp
