import Verif.Spec.Standard
import Verif.Props.Descriptors
import Verif.Props.Wire
import Verif.Props.Frames
/-!
# Legal encodings are read
-/
set_option autoImplicit false
namespace Amqp
open Dec Standard

/-! ### Values that are not null -/

/-- The decoder does not accept null. -/
class RefusesNull (α : Type) [DecodeF α] : Prop where
  null : ∀ env i r a, decF (α := α) env 0x40 i ≠ .ok (r, a)

theorem means_some {α : Type} [DecodeF α] [RefusesNull α] {env : Env} {b : Bytes} {a : α}
    (h : Means env b a) : Means env b (some a) := by
  intro more
  have h1 := h more
  cases hb : b ++ more with
  | nil => rw [hb] at h1; cases h1
  | cons c t =>
    rw [hb] at h1
    have hc : c ≠ FC.null := by
      rintro rfl
      exact RefusesNull.null env _ _ _ h1
    show (if c = FC.null then pure none else some <$> decF env c : Dec (Option α)) t = _
    rw [if_neg hc]
    exact map_ok (f := some) h1

instance : RefusesNull Bool := ⟨fun _ _ _ _ h => by cases h⟩
instance : RefusesNull UInt8 := ⟨fun _ _ _ _ h => by cases h⟩
instance : RefusesNull UInt16 := ⟨fun _ _ _ _ h => by cases h⟩
instance : RefusesNull UInt32 := ⟨fun _ _ _ _ h => by cases h⟩
instance : RefusesNull UInt64 := ⟨fun _ _ _ _ h => by cases h⟩
instance : RefusesNull Binary := ⟨fun _ _ _ _ h => by cases h⟩
instance : RefusesNull RStr := ⟨fun _ _ _ _ h => by cases h⟩
instance : RefusesNull Symbol := ⟨fun _ _ _ _ h => by cases h⟩
instance : RefusesNull DateTime := ⟨fun _ _ _ _ h => by cases h⟩
instance : RefusesNull MessageId := ⟨fun _ _ _ _ h => by cases h⟩
instance : RefusesNull Symbols := ⟨fun _ _ _ _ h => by cases h⟩
instance : RefusesNull ErrorCondition := ⟨fun _ _ _ _ h => by cases h⟩
instance : RefusesNull DistributionMode := ⟨fun _ _ _ _ h => by cases h⟩
instance : RefusesNull DeliveryState := ⟨fun _ _ _ _ h => by cases h⟩
instance : RefusesNull Outcome := ⟨fun _ _ _ _ h => by cases h⟩
instance {K V : Type} [HKey K] [DecodeF K] [DecodeF V] : RefusesNull (HMap K V) :=
  ⟨fun _ _ _ _ h => by cases h⟩
theorem RefusesNull.list {α : Type} [Encode α] [DecodeF α] [ListType α] : RefusesNull α :=
  ⟨fun env _ _ _ h => by rw [ListType.decF_eq] at h; cases h⟩
theorem RefusesNull.enum {E β : Type} [Encode E] [DecodeF E] [Encode β] [DecodeF β] [EnumType E β]
    [RefusesNull β] : RefusesNull E := ⟨fun env _ _ _ h => by
  rw [EnumType.decF_eq] at h
  obtain ⟨_, _, h1, -⟩ := bind_eq_ok.1 h
  exact RefusesNull.null _ _ _ _ h1⟩
instance : RefusesNull ReceiverSettleMode := .enum
instance : RefusesNull SenderSettleMode := .enum
instance : RefusesNull TerminusDurability := .enum
instance : RefusesNull TerminusExpiryPolicy := .enum
instance : RefusesNull Error := .list
instance : RefusesNull Source := .list
instance : RefusesNull Target := .list

/-! ### Composite types -/

/-- The field can be read from every legal encoding of it. -/
structure FitsSlot (env : Env) (f : Field) (s : Slot) (a : f.T) : Prop where
  legal : ∀ b, s.legal b → Reads (f.dec env) b a
  absent : s.absent → f.missing = .ok a

inductive FitsAll (env : Env) : (fs : List Field) → List Slot → Tuple fs → Prop
  | nil : FitsAll env [] [] ()
  | cons {f : Field} {fs : List Field} {s : Slot} {ss : List Slot} {a : f.T} {t : Tuple fs} :
      FitsSlot env f s a → FitsAll env fs ss t → FitsAll env (f :: fs) (s :: ss) (a, t)

section
variable {α : Type} [Encode α] [DecodeF α] [LawfulEnc α] [LawfulDec α] [NonNull α] {env : Env}

theorem fits_req {L : Rep α} {a : α} {n : String} (h : ∀ b, L a b → Means env b a) :
    FitsSlot env (.req α n) (mandatory L a) a := ⟨h, nofun⟩

theorem fits_opt [RefusesNull α] {L : Rep α} {o : Option α}
    (h : ∀ a b, L a b → Means env b a) : FitsSlot env (.opt α) (optional L o) o :=
  ⟨fun b ⟨a, ha, hb⟩ => by subst ha; exact means_some (h a b hb), fun h => by
    show Res.ok none = .ok o
    rw [show o = none from h]⟩

theorem fits_dflt [RefusesNull α] {L : Rep α} {d a : α} (h : ∀ b, L a b → Means env b a) :
    FitsSlot env (.dflt α d) (Standard.default L d a) a :=
  ⟨fun b hb => (Reads.map (fun o : Option α => o.getD d) (means_some (h b hb)) :), fun h => by
    show Res.ok d = .ok a
    rw [show a = d from h]⟩

end

theorem allMissing_of {env : Env} {fs : List Field} {ss : List Slot} {t : Tuple fs}
    (h : FitsAll env fs ss t) (ha : ∀ s ∈ ss, s.absent) : AllMissing fs t := by
  induction h with
  | nil => trivial
  | cons hf _ ih => exact ⟨hf.absent (ha _ (by simp)), ih fun s hs => ha s (by simp [hs])⟩

theorem fieldsWire_of {env : Env} {fs : List Field} {ss : List Slot} {t : Tuple fs}
    (h : FitsAll env fs ss t) {items : List Bytes} (hi : Fill ss items) :
    FieldsWire env fs items.length items.flatten t := by
  induction h generalizing items with
  | nil =>
    cases hi
    exact .extra _ _
  | @cons f fs s ss a t hf hr ih =>
    cases hi with
    | done ha => exact .absent _ (allMissing_of (.cons hf hr) ha)
    | null ha hi =>
      exact .given (u := [0x40]) (f.null_eq env a (hf.absent ha)) (ih hi)
    | given hl hi => exact .given (hf.legal _ hl) (ih hi)

theorem means_desc (env : Env) {c : UInt64} {n : String} {b : Bytes} (hc : c ≠ 0)
    (h : Desc c n b) : ∃ d : Descriptor, Means env b d ∧ d.Is c n := by
  cases h with
  | code h =>
    refine ⟨.ulong c, means_descriptor env (d := .ulong c) h ?_, .inl rfl⟩
    rintro rfl
    cases h
    exact hc rfl
  | name h =>
    refine ⟨.symbol ⟨.lit n⟩, means_descriptor env (d := .symbol _) h ?_, .inr rfl⟩
    intro e
    cases h with
    | symbol hs => cases hs <;> cases e

theorem num1 {b : Bytes} {n : Nat} (h : Num 1 b n) : b = [UInt8.ofNat n] := by
  obtain ⟨x, rfl, rfl⟩ := h.one
  simp

theorem listHeader_of {c : UInt8} {w size count : Nat} {s n : Bytes} (hc : Sized 0xc0 0xd0 c w)
    (hs : Num w s (w + size)) (hn : Num w n count) : ListHeaderWire (c :: (s ++ n)) size count := by
  have h1 := hs.lt
  have h2 := hn.lt
  cases hc with
  | narrow =>
    rw [num1 hs, num1 hn, Nat.add_comm 1 size]
    exact .list8 (by omega) (by omega)
  | wide =>
    rw [hs.eq, hn.eq, Nat.add_comm 4 size]
    exact .list32 (by omega) (by omega)

section
variable {α : Type} [Encode α] [DecodeF α] [ListType α] {env : Env}

theorem means_composite {c : UInt64} {nm : String} {slots : List Slot} {v : α}
    (hf : FitsAll env (ListType.fields α) slots (ListType.toT v))
    (hc : ListType.code α = c) (hn : ListType.name α = nm) {b : Bytes}
    (h : composite (.accepted env) c nm slots b) : Means env b v := by
  subst hc hn
  obtain ⟨db, u, hd, hu, rfl⟩ := h
  have h0 : ListType.code α ≠ 0 := by
    intro h; have := ListType.code_pos (α := α); rw [h] at this; cases this
  obtain ⟨d, h1, h2⟩ := means_desc env h0 hd
  rw [← ListType.ofT_toT v]
  cases hu with
  | empty hi =>
    have := reads_listType (α := α) (env := env) h1 h2 .list0 (w := []) (fieldsWire_of hf hi)
    exact this
  | list items hc hs hn hi =>
    have := reads_listType (α := α) (env := env) h1 h2 (listHeader_of hc hs hn) (fieldsWire_of hf hi)
    rw [List.cons_append] at this
    exact this

end

/-- Members of unions. -/
theorem means_member {U α : Type} [DecodeF U] [DecodeF α] {mk : α → U} {c : UInt64} {n : String}
    (ha : Alternative (decode U) (decode α) mk c n) {env : Env} {v : α} {body : Bytes → Prop}
    (hc : c ≠ 0) {b : Bytes} (hb : described c n body b) (h : Means env b v) : Means env b (mk v) := by
  obtain ⟨db, u, hd, -, rfl⟩ := hb
  obtain ⟨d, h1, h2⟩ := means_desc env hc hd
  intro more
  have h3 := ha env db (u ++ more) d h1 h2
  rw [← List.append_assoc, ← List.cons_append, h more] at h3
  exact h3

theorem means_memberOf {U α : Type} [DecodeF U] [DecodeF α] {mk : α → U} {c : UInt64} {n : String}
    (ha : AlternativeOf (decode U) (decode α) mk c n) {env : Env} {v : α} {body : Bytes → Prop}
    (hc : c ≠ 0) {b : Bytes} (hb : described c n body b) (h : ∀ u, body u → Means env u v) :
    Means env b (mk v) := by
  obtain ⟨db, u, hd, hu, rfl⟩ := hb
  obtain ⟨d, h1, h2⟩ := means_desc env hc hd
  intro more
  have h3 := ha env db (u ++ more) d h1 h2
  rw [h u hu more, ← List.append_assoc, ← List.cons_append] at h3
  exact h3

/-! ### Simple types -/

section
variable {env : Env}

theorem read_boolean (a : Bool) (b : Bytes) (h : boolean a b) : Means env b a := by
  refine (means_bool env b a).2 ?_
  cases h with
  | true => exact .inl rfl
  | false => exact .inl rfl
  | boolTrue => exact .inr ⟨1, rfl, rfl⟩
  | boolFalse => exact .inr ⟨0, rfl, rfl⟩
theorem read_ubyte (a : UInt8) (b : Bytes) (h : ubyte a b) : Means env b a := (decides_u8 env b a).2 h
theorem read_ushort (a : UInt16) (b : Bytes) (h : ushort a b) : Means env b a :=
  (decides_u16 env b a).2 h
theorem read_uint (a : UInt32) (b : Bytes) (h : uint a b) : Means env b a := (decides_u32 env b a).2 h
theorem read_ulong (a : UInt64) (b : Bytes) (h : ulong a b) : Means env b a := (decides_u64 env b a).2 h
theorem read_uuid (a : Uuid) (b : Bytes) (h : uuid a b) : Means env b a := (decides_uuid env b a).2 h
theorem read_binary (a : Binary) (b : Bytes) (h : binary a b) : Means env b a :=
  (decides_binary env b a).2 h
theorem read_string (a : RStr) (b : Bytes) (h : string a b) : Means env b a :=
  (decides_string env b a).2 h
theorem read_symbol (a : Symbol) (b : Bytes) (h : symbol a b) : Means env b a := by
  cases h with
  | symbol hs hl => exact (means_symbol env _ a).2 ⟨_, _, _, hs, hl, rfl⟩
theorem read_timestamp (a : DateTime) (b : Bytes) (h : timestamp (.accepted env) a b) :
    Means env b a := by
  cases h with
  | prim h => cases h
  | timestamp h1 h2 h3 => exact reads_timestamp env h1 h2 h3
theorem read_any (a : Variant) (b : Bytes) (h : any (.accepted env) a b) : Means env b a :=
  C50_decode_partial env a b h.1 h.2
theorem read_fields (a : Fields) (b : Bytes) (h : fields (.accepted env) a b) : Means env b a :=
  means_hmap (fun _ _ _ hu => read_symbol _ _ hu) (fun _ _ _ hu => read_any _ _ hu)
    (fun _ _ => rfl) h
theorem read_stringMap (a : StringVariantMap) (b : Bytes) (h : stringMap (.accepted env) a b) :
    Means env b a :=
  means_hmap (fun _ _ _ hu => read_string _ _ hu) (fun _ _ _ hu => read_any _ _ hu)
    (fun _ _ => rfl) h
theorem read_map (a : Map) (b : Bytes) (h : map (.accepted env) a b) : Means env b a :=
  means_hmap (fun _ _ _ hu => read_any _ _ hu) (fun _ _ _ hu => read_any _ _ hu) h.2 h.1
theorem read_filter (a : FilterSet) (b : Bytes) (h : filterSet a b) : Means env b a :=
  means_hmap (fun _ _ _ hu => read_symbol _ _ hu)
    (fun _ _ _ hu => by obtain ⟨h1, rfl⟩ := hu; rw [h1]; exact fun _ => rfl) (fun _ _ => rfl) h
theorem read_list (a : VList) (b : Bytes) (h : list (.accepted env) a b) : Means env b a := by
  obtain ⟨l⟩ := a
  obtain ⟨h1, h2⟩ := h
  simp only at h1 h2
  generalize hv : Variant.list l = v at h1
  cases h1 with
  | prim h => subst hv; cases h
  | timestamp => cases hv
  | list0 => cases hv; exact fun _ => rfl
  | list items hc hs hn hi =>
    cases hv
    have h1 := reads_decodeN (d := decode Variant env) items fun p hp =>
      read_any p.1 p.2 ⟨hi p hp, h2 _ (List.mem_map_of_mem hp)⟩
    have h2 := (reads_sizedHeader (hd := decodeListHeader env) rfl rfl hc hs hn).bind
      (f := fun h => decodeN (decode Variant env) h.count) h1
    exact reads_decode (h2.map VList.mk)
  | map => cases hv
  | described => cases hv
theorem read_symbols (a : Symbols) (b : Bytes) (h : symbols a b) : Means env b a := by
  cases h with
  | @one x b h =>
    have h1 := h
    have h2 := read_symbol (env := env) x b h
    cases h1 with
    | symbol hs =>
      cases hs <;> exact fun more => map_ok (f := fun x => (⟨[x]⟩ : Symbols)) (h2 more)
  | array h => exact (C50_array _ env _ b (fun a _ u hu => read_symbol a u hu) h).2

/-! ### Choices -/

theorem read_enum {E β : Type} [Encode E] [DecodeF E] [Encode β] [DecodeF β] [EnumType E β]
    {e : E} {b : Bytes} (h : Means env b (EnumType.base e)) : Means env b e := by
  intro more
  have h1 := h more
  cases hb : b ++ more with
  | nil => rw [hb] at h1; cases h1
  | cons c t =>
    rw [hb] at h1
    show decF env c t = _
    rw [EnumType.decF_eq]
    show (decF env c >>= _) t = _
    rw [bind_ok (show decF env c t = _ from h1), EnumType.tryFrom_base]
    rfl

theorem read_role (a : Role) (b : Bytes) (h : role (.accepted env) a b) : Means env b a :=
  read_enum (by cases a <;> exact read_boolean _ _ h)
theorem read_senderSettleMode (a : SenderSettleMode) (b : Bytes) (h : senderSettleMode a b) :
    Means env b a := read_enum (by cases a <;> exact read_ubyte _ _ h)
theorem read_receiverSettleMode (a : ReceiverSettleMode) (b : Bytes) (h : receiverSettleMode a b) :
    Means env b a := read_enum (by cases a <;> exact read_ubyte _ _ h)
theorem read_terminusDurability (a : TerminusDurability) (b : Bytes) (h : terminusDurability a b) :
    Means env b a := read_enum (by cases a <;> exact read_uint _ _ h)
theorem read_terminusExpiryPolicy (a : TerminusExpiryPolicy) (b : Bytes)
    (h : terminusExpiryPolicy (.accepted env) a b) : Means env b a :=
  read_enum (by cases a <;> exact read_symbol _ _ h)
theorem read_saslCode (a : SaslCode) (b : Bytes) (h : saslCode a b) :
    Means env b a := read_enum (by cases a <;> exact read_ubyte _ _ h)

theorem amqpError_base (e : AmqpError) : EnumType.base e = Symbol.mk (.lit (amqpError e)) := by
  cases e <;> rfl
theorem connectionError_base (e : ConnectionError) :
    EnumType.base e = Symbol.mk (.lit (connectionError e)) := by cases e <;> rfl
theorem sessionError_base (e : SessionError) :
    EnumType.base e = Symbol.mk (.lit (sessionError e)) := by cases e <;> rfl
theorem linkError_base (e : LinkError) : EnumType.base e = Symbol.mk (.lit (linkError e)) := by
  cases e <;> rfl

theorem ofSymbol_custom_std {s : Symbol} (h : ¬ StandardCondition s) :
    ErrorCondition.ofSymbol s = .Custom s := by
  have h1 := ErrorCondition.symbol_ofSymbol s
  cases hc : ErrorCondition.ofSymbol s with
  | Custom t => rw [hc] at h1; exact congrArg _ h1
  | AmqpError e =>
    rw [hc] at h1; exact absurd (.inl ⟨e, h1.symm.trans (amqpError_base e)⟩) h
  | ConnectionError e =>
    rw [hc] at h1; exact absurd (.inr (.inl ⟨e, h1.symm.trans (connectionError_base e)⟩)) h
  | SessionError e =>
    rw [hc] at h1; exact absurd (.inr (.inr (.inl ⟨e, h1.symm.trans (sessionError_base e)⟩))) h
  | LinkError e =>
    rw [hc] at h1; exact absurd (.inr (.inr (.inr ⟨e, h1.symm.trans (linkError_base e)⟩))) h

theorem read_errorCondition (a : ErrorCondition) (b : Bytes) (h : errorCondition (.accepted env) a b) :
    Means env b a := by
  have key : ∀ s, symbol s b → Means env b (ErrorCondition.ofSymbol s) := fun s hs => by
    unfold Means
    rw [decode_errorCondition]
    exact Reads.map ErrorCondition.ofSymbol (read_symbol s b hs)
  cases a with
  | AmqpError e =>
    have := key _ h
    rwa [← amqpError_base, show ErrorCondition.ofSymbol (EnumType.base e) = _ from
      ErrorCondition.ofSymbol_amqp e] at this
  | ConnectionError e =>
    have := key _ h
    rwa [← connectionError_base, show ErrorCondition.ofSymbol (EnumType.base e) = _ from
      ErrorCondition.ofSymbol_connection e] at this
  | SessionError e =>
    have := key _ h
    rwa [← sessionError_base, show ErrorCondition.ofSymbol (EnumType.base e) = _ from
      ErrorCondition.ofSymbol_session e] at this
  | LinkError e =>
    have := key _ h
    rwa [← linkError_base, show ErrorCondition.ofSymbol (EnumType.base e) = _ from
      ErrorCondition.ofSymbol_link e] at this
  | Custom s =>
    have := key _ h.2
    rwa [ofSymbol_custom_std h.1] at this

theorem read_distributionMode (a : DistributionMode) (b : Bytes) (h : distributionMode (.accepted env) a b) :
    Means env b a := by
  have key : ∀ s, symbol s b → Means env b (DistributionMode.ofSymbol s) := fun s hs => by
    intro more
    have h1 := read_symbol (env := env) s b hs more
    cases hb : b ++ more with
    | nil => rw [hb] at h1; cases h1
    | cons c t =>
      rw [hb] at h1
      show (decF env c >>= fun r => pure (DistributionMode.ofSymbol r) : Dec DistributionMode) t = _
      rw [bind_ok (show decF env c t = _ from h1)]
      rfl
  cases a with
  | Move => exact key _ h
  | Copy => exact key _ h
  | Custom s =>
    have h1 := key _ h.2.2
    have e1 : s.str ≠ .lit "move" := fun e => h.1 (by cases s; cases e; rfl)
    have e2 : s.str ≠ .lit "copy" := fun e => h.2.1 (by cases s; cases e; rfl)
    rwa [DistributionMode.ofSymbol, if_neg e1, if_neg e2] at h1

theorem read_messageId (a : MessageId) (b : Bytes) (h : messageId a b) : Means env b a := by
  cases a with
  | Ulong v =>
    have h1 := h
    have h2 := read_ulong (env := env) v b h
    cases h1 <;> exact fun more => map_ok (f := MessageId.Ulong) (h2 more)
  | Uuid v =>
    have h1 := h
    have h2 := read_uuid (env := env) v b h
    cases h1 <;> exact fun more => map_ok (f := MessageId.Uuid) (h2 more)
  | Binary v =>
    have h1 := h
    have h2 := read_binary (env := env) v b h
    cases h1 with
    | binary hs => cases hs <;> exact fun more => map_ok (f := MessageId.Binary) (h2 more)
  | String v =>
    have h1 := h
    have h2 := read_string (env := env) v b h
    cases h1 with
    | string hs => cases hs <;> exact fun more => map_ok (f := MessageId.String) (h2 more)

end
end Amqp
