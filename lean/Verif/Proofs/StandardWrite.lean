import Verif.Proofs.StandardRead
/-!
# What is written is legal
-/
set_option autoImplicit false
namespace Amqp
open Dec Standard

/-! ### Composite types -/

/-- What is written for the field is legal. -/
def Writes (f : Field) (s : Slot) (a : f.T) : Prop :=
  (f.enc a).length < 2 ^ 32 → s.legal (f.enc a) ∨ (s.absent ∧ f.enc a = null)

inductive WritesAll : (fs : List Field) → List Slot → Tuple fs → Prop
  | nil : WritesAll [] [] ()
  | cons {f : Field} {fs : List Field} {s : Slot} {ss : List Slot} {a : f.T} {t : Tuple fs} :
      Writes f s a → WritesAll fs ss t → WritesAll (f :: fs) (s :: ss) (a, t)

section
variable {α : Type} [Encode α] [DecodeF α] [LawfulEnc α] [LawfulDec α] [NonNull α]

theorem writes_req {L : Rep α} {a : α} {n : String} (h : (enc a).length < 2 ^ 32 → L a (enc a)) :
    Writes (.req α n) (mandatory L a) a := fun hs => .inl (h hs)

theorem writes_opt {L : Rep α} {o : Option α}
    (h : ∀ a, o = some a → (enc a).length < 2 ^ 32 → L a (enc a)) :
    Writes (.opt α) (optional L o) o := fun hs => by
  cases o with
  | none => exact .inr ⟨rfl, rfl⟩
  | some a => exact .inl ⟨a, rfl, h a rfl hs⟩

theorem writes_dflt {L : Rep α} {d a : α} (h : (enc a).length < 2 ^ 32 → L a (enc a)) :
    Writes (.dflt α d) (Standard.default L d a) a := fun hs => .inl (h hs)

end

theorem fill_of {fs : List Field} {ss : List Slot} {t : Tuple fs} (h : WritesAll fs ss t)
    (hs : (encFields fs t).length < 2 ^ 32) :
    ∃ items, Fill ss items ∧ items.flatten = encFields fs t ∧ items.length = fs.length := by
  induction h with
  | nil => exact ⟨[], .done nofun, rfl, rfl⟩
  | @cons f fs s ss a t hf _ ih =>
    have e : encFields (f :: fs) (a, t) = f.enc a ++ encFields fs t := rfl
    rw [e] at hs ⊢
    rw [List.length_append] at hs
    obtain ⟨items, h1, h2, h3⟩ := ih (by omega)
    refine ⟨f.enc a :: items, ?_, by rw [List.flatten_cons, h2], by rw [List.length_cons, h3]; rfl⟩
    rcases hf (by omega) with h | ⟨h, hn⟩
    · exact .given h h1
    · rw [hn]; exact .null h h1

theorem desc_small {c : UInt64} (n : String) (hlt : c.toNat < 256) :
    Desc c n [0x53, c.toUInt8] := by
  refine .code (.smallulong ?_)
  have e : c.toUInt8.toNat = c.toNat := by simp; omega
  have := num_one c.toUInt8
  rwa [e] at this

section
variable {α : Type} [Encode α] [DecodeF α] [ListType α]

theorem written_composite {c : UInt64} {nm : String} {slots : List Slot} {v : α}
    (hf : WritesAll (ListType.fields α) slots (ListType.toT v))
    (hc : ListType.code α = c) (hs : (enc v).length < 2 ^ 32) : composite .all c nm slots (enc v) := by
  subst hc
  rw [ListType.enc_eq', listHdr, enc_ulong_small (ListType.code_pos (α := α)) ListType.code_lt] at hs ⊢
  have hl := compoundHdr_length FC.list8 FC.list32
    (sizeFields (ListType.fields α) (ListType.toT v)) (ListType.fields α).length
  simp only [List.length_append, List.length_cons, List.length_nil, ← encFields_length] at hs
  have hn : sizeFields (ListType.fields α) (ListType.toT v) + 4 < 2 ^ 32 := by
    unfold compoundSize at hl; split at hl <;> omega
  obtain ⟨items, h1, h2, h3⟩ := fill_of hf (by rw [← encFields_length]; omega)
  obtain ⟨c, w, s, m, g1, g2, g3, g4⟩ := sized_compoundHdr FC.list8 FC.list32 hn
    (length_le_sizeFields (ListType.fields α) (ListType.toT v))
  refine ⟨[0x53, (ListType.code α).toUInt8], _, desc_small nm ListType.code_lt,
    .list items (s := s) (n := m) g1 ?_ ?_ h1, ?_⟩
  · rw [h2, ← encFields_length]; exact g2
  · rw [h3]; exact g3
  · rw [g4, h2]; simp [FC.described, FC.smallUlong]

end

theorem written_described {α : Type} [Encode α] {c : UInt64} {nm : String} {v : α}
    {body : Bytes → Prop} (hc : 0 < c.toNat ∧ c.toNat < 256)
    (h : (enc v).length < 2 ^ 32 → body (enc v))
    (hs : (enc (Descriptor.ulong c) ++ enc v).length < 2 ^ 32) :
    described c nm body (enc (Descriptor.ulong c) ++ enc v) := by
  rw [List.length_append] at hs
  refine ⟨_, _, desc_small nm hc.2, h (by omega), ?_⟩
  rw [enc_ulong_small hc.1 hc.2]; rfl

/-! ### Simple types -/

theorem write_boolean (a : Bool) : boolean a (enc a) := by cases a <;> constructor
theorem write_ubyte (a : UInt8) : ubyte a (enc a) :=
  (decides_u8 debugEnv _ _).1 (LawfulCodec.rt debugEnv a trivial)
theorem write_ushort (a : UInt16) : ushort a (enc a) :=
  (decides_u16 debugEnv _ _).1 (LawfulCodec.rt debugEnv a trivial)
theorem write_uint (a : UInt32) : uint a (enc a) :=
  (decides_u32 debugEnv _ _).1 (LawfulCodec.rt debugEnv a trivial)
theorem write_ulong (a : UInt64) : ulong a (enc a) :=
  (decides_u64 debugEnv _ _).1 (LawfulCodec.rt debugEnv a trivial)
theorem write_uuid (a : Uuid) : uuid a (enc a) :=
  (decides_uuid debugEnv _ _).1 (LawfulCodec.rt debugEnv a trivial)

theorem varEnc_le (c8 c32 : UInt8) (b : Bytes) : b.length ≤ (varEnc c8 c32 b).length := by
  unfold varEnc; split <;> simp <;> omega

theorem write_binary (a : Binary) (hs : (enc a).length < 2 ^ 32) : binary a (enc a) := by
  have hl : a.data.length < 2 ^ 32 := Nat.lt_of_le_of_lt (varEnc_le _ _ a.data) hs
  obtain ⟨c, w, l, h1, h2, h3⟩ := sized_varEnc FC.binary8 FC.binary32 hl
  show Prim _ (varEnc _ _ _)
  rw [h3]; exact .binary h1 h2
theorem write_string (a : RStr) (hs : (enc a).length < 2 ^ 32) : string a (enc a) := by
  have hl : a.bytes.length < 2 ^ 32 := Nat.lt_of_le_of_lt (varEnc_le _ _ a.bytes) hs
  obtain ⟨c, w, l, h1, h2, h3⟩ := sized_varEnc FC.string8 FC.string32 hl
  show Prim _ (varEnc _ _ _)
  rw [h3]; exact .string h1 h2
theorem write_symbol (a : Symbol) (h : canSymbol a) (hs : (enc a).length < 2 ^ 32) :
    symbol a (enc a) := by
  have hl : a.str.bytes.length < 2 ^ 32 := Nat.lt_of_le_of_lt (varEnc_le _ _ a.str.bytes) hs
  obtain ⟨c, w, l, h1, h2, h3⟩ := sized_varEnc FC.symbol8 FC.symbol32 hl
  show Prim _ (varEnc _ _ _)
  rw [h3]; exact .symbol h1 h2 h
theorem write_any (a : Variant) (h : canValue a) (hs : (enc a).length < 2 ^ 32) :
    any .all a (enc a) := by
  have := C50_encode_partial a h.1 hs
  rw [h.2] at this
  exact ⟨this, trivial⟩
theorem write_timestamp (a : DateTime) (h : canTimestamp a) : timestamp .all a (enc a) := by
  have h1 := C50_encode_partial (.timestamp a) h (by
    show (enc a).length < _
    rw [← LawfulEnc.size_eq]
    show 9 < _
    decide)
  exact h1

theorem mapEntry_lt {K V : Type} [HKey K] [Encode K] [Encode V] {m : HMap K V}
    (hs : (enc m).length < 2 ^ 32) {e : K × V} (he : e ∈ m.entries) :
    (enc e.1).length < 2 ^ 32 ∧ (enc e.2).length < 2 ^ 32 := by
  have h1 : (mapContent enc enc m.entries).length ≤ (enc m).length := by
    show _ ≤ (_ ++ mapContent enc enc m.entries).length
    simp
  have h2 : ∀ l : List (K × V), e ∈ l → (enc e.1).length + (enc e.2).length ≤
      (mapContent enc enc l).length := by
    intro l
    induction l with
    | nil => intro h; cases h
    | cons x t ih =>
      intro h
      simp only [mapContent, List.length_append]
      rcases List.mem_cons.1 h with rfl | h
      · omega
      · have := ih h; omega
  have := h2 _ he
  omega

theorem write_hmap {K V : Type} [HKey K] [Encode K] [Encode V] [LawfulEnc K] [LawfulEnc V]
    {LK : Rep K} {LV : Rep V} (m : HMap K V) (hne : ∀ e ∈ m.entries, enc e.1 ≠ [] ∧ enc e.2 ≠ [])
    (hk : ∀ e ∈ m.entries, (enc e.1).length < 2 ^ 32 → LK e.1 (enc e.1))
    (hv : ∀ e ∈ m.entries, (enc e.2).length < 2 ^ 32 → LV e.2 (enc e.2))
    (hd : NodupKeys m.entries) (hs : (enc m).length < 2 ^ 32) : WireMap LK LV m.entries (enc m) :=
  C50_map_written LawfulEnc.size_eq LawfulEnc.size_eq LK LV m
    (fun e he => ⟨hk e he (mapEntry_lt hs he).1, hv e he (mapEntry_lt hs he).2⟩) hne hd hs

theorem enc_variant_ne (v : Variant) : enc v ≠ [] := v.venc_ne

theorem write_fields (a : Fields) (h : canFields a) (hs : (enc a).length < 2 ^ 32) :
    fields .all a (enc a) :=
  write_hmap a (fun _ _ => ⟨enc_ne_nil_of_head _, enc_variant_ne _⟩)
    (fun e he => write_symbol _ (h.2 e he).1) (fun e he => write_any _ (h.2 e he).2) h.1 hs
theorem write_stringMap (a : StringVariantMap) (h : canStringMap a) (hs : (enc a).length < 2 ^ 32) :
    stringMap .all a (enc a) :=
  write_hmap a (fun _ _ => ⟨enc_ne_nil_of_head _, enc_variant_ne _⟩)
    (fun _ _ => write_string _) (fun e he => write_any _ (h.2 e he)) h.1 hs
theorem write_map (a : Map) (h : canMap a) (hs : (enc a).length < 2 ^ 32) :
    map .all a (enc a) :=
  ⟨write_hmap a (fun _ _ => ⟨enc_variant_ne _, enc_variant_ne _⟩)
    (fun e he => write_any _ (h.2 e he).1) (fun e he => write_any _ (h.2 e he).2) h.1 hs,
    fun _ _ => trivial⟩
theorem write_filter (a : FilterSet) (h : canFilter a) (hs : (enc a).length < 2 ^ 32) :
    filterSet a (enc a) :=
  write_hmap a (fun e he => ⟨enc_ne_nil_of_head _, by rw [(h.2 e he).2]; exact nofun⟩)
    (fun e he => write_symbol _ (h.2 e he).1)
    (fun e he _ => by rw [(h.2 e he).2]; exact ⟨rfl, rfl⟩) h.1 hs

theorem flatMap_aenc_length (l : List Symbol) : (l.flatMap aenc).length =
    (l.map fun s => 4 + s.str.bytes.length).sum := by
  induction l with
  | nil => rfl
  | cons a t ih =>
    rw [List.flatMap_cons, List.length_append, ih, List.map_cons, List.sum_cons]
    simp [aenc, RStr.len]

theorem write_symbols (a : Symbols) (h : canSymbols a) (hs : (enc a).length < 2 ^ 32) :
    symbols a (enc a) := by
  obtain ⟨l⟩ := a
  have arr : (hl : (enc (Vec.mk l)).length < 2 ^ 32) → l.length ≠ 1 → symbols ⟨l⟩ (enc (Vec.mk l)) := by
    intro hl hn
    have hsum := h.2.resolve_left hn
    rw [← flatMap_aenc_length] at hsum
    have e : (enc (Vec.mk l)).length = (if arrayContentSize l + 1 > 255 then 9 else 3) +
        (1 + (l.flatMap aenc).length) := by
      show (_ ++ (_ :: arrayContent l)).length = _
      rw [arrayContent_eq]
      split <;> simp <;> omega
    have hc : arrayContentSize l = (l.flatMap aenc).length := by
      clear hsum hn hl h hs e
      induction l with
      | nil => rfl
      | cons a t ih => simp only [arrayContentSize, List.flatMap_cons, List.length_append, ih]; simp [asize, aenc, RStr.len]
    refine .array ((C50_array_written_partial (α := Symbol) ?_ symbol ⟨l⟩ ?_ ?_).2 hsum)
    · exact fun s => ⟨by simp [asize, aenc, RStr.len], by simp [aenc]; omega⟩
    · intro s hsm
      have hlen : s.str.bytes.length < 2 ^ 32 := by
        have : (aenc s).length ≤ (l.flatMap aenc).length := by
          rw [List.flatMap_def]
          exact List.Sublist.length_le (List.sublist_flatten_of_mem (List.mem_map_of_mem hsm))
        have h3 : (aenc s).length = 4 + s.str.bytes.length := by simp [aenc]
        omega
      exact .symbol .wide (num_beEnc hlen) (h.1 s hsm)
    · show (l.flatMap aenc).length + 5 < _
      split at e <;> omega
  match l, h, hs, arr with
  | [x], h, hs, _ => exact .one (write_symbol x (h.1 x (by simp)) hs)
  | [], h, hs, arr => exact arr hs (by simp)
  | x :: y :: t, h, hs, arr => exact arr hs (by simp)

/-! ### Choices -/

theorem write_role (a : Role) : role .all a (enc a) := by cases a <;> exact write_boolean _
theorem write_senderSettleMode (a : SenderSettleMode) : senderSettleMode a (enc a) := by
  cases a <;> exact write_ubyte _
theorem write_receiverSettleMode (a : ReceiverSettleMode) : receiverSettleMode a (enc a) := by
  cases a <;> exact write_ubyte _
theorem write_terminusDurability (a : TerminusDurability) : terminusDurability a (enc a) := by
  cases a <;> exact write_uint _
theorem write_saslCode (a : SaslCode) : saslCode a (enc a) := by cases a <;> exact write_ubyte _

theorem write_word {E : Type} [Encode E] [DecodeF E] [EnumType E Symbol] (a : E) (s : String)
    (h : EnumType.base a = Symbol.mk (.lit s)) (hs : (RStr.lit s).Ascii) (hl : (enc a).length < 2 ^ 32) :
    word .all s (enc a) := by
  rw [EnumType.enc_eq, h] at hl ⊢
  exact write_symbol ⟨.lit s⟩ hs hl

theorem write_terminusExpiryPolicy (a : TerminusExpiryPolicy) : terminusExpiryPolicy .all a (enc a) := by
  cases a <;> exact write_word _ _ rfl (by unfold RStr.Ascii; decide) (by decide)

theorem write_errorCondition (a : ErrorCondition) (h : canCondition a) (hs : (enc a).length < 2 ^ 32) :
    errorCondition .all a (enc a) := by
  cases a with
  | AmqpError e =>
    exact write_word e _ (amqpError_base e) (by cases e <;> (unfold RStr.Ascii; decide)) hs
  | ConnectionError e =>
    exact write_word e _ (connectionError_base e) (by cases e <;> (unfold RStr.Ascii; decide)) hs
  | SessionError e =>
    exact write_word e _ (sessionError_base e) (by cases e <;> (unfold RStr.Ascii; decide)) hs
  | LinkError e =>
    exact write_word e _ (linkError_base e) (by cases e <;> (unfold RStr.Ascii; decide)) hs
  | Custom s => exact ⟨h.2, write_symbol s h.1 hs⟩

theorem write_distributionMode (a : DistributionMode) (h : canMode a) (hs : (enc a).length < 2 ^ 32) :
    distributionMode .all a (enc a) := by
  cases a with
  | Move => exact write_symbol _ (by unfold canSymbol RStr.Ascii; decide) hs
  | Copy => exact write_symbol _ (by unfold canSymbol RStr.Ascii; decide) hs
  | Custom s => exact ⟨h.2.1, h.2.2, write_symbol s h.1 hs⟩

theorem write_messageId (a : MessageId) (hs : (enc a).length < 2 ^ 32) : messageId a (enc a) := by
  cases a with
  | Ulong v => exact write_ulong v
  | Uuid v => exact write_uuid v
  | Binary v => exact write_binary v hs
  | String v => exact write_string v hs

end Amqp
