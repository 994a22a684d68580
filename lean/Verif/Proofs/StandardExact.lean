import Verif.Proofs.StandardFrames
import Verif.Proofs.WireExact
/-!
# What is written is legal only if it can be written
-/
set_option autoImplicit false
namespace Amqp
open Dec Standard

/-- A legal encoding of a value that starts like what is written for it, or the other
way round, is what is written; and then the value can be written. -/
def Sharp {α : Type} [Encode α] (L : Rep α) (can : α → Prop) : Prop :=
  ∀ a u r r', (enc a).length < 2 ^ 32 → L a u → u ++ r = enc a ++ r' → u = enc a ∧ can a

/-- The same for a field. -/
def SharpField (f : Field) (s : Slot) (a : f.T) (P : Prop) : Prop :=
  (f.enc a).length < 2 ^ 32 → ∀ u r r', (s.legal u ∨ (s.absent ∧ u = null)) →
    u ++ r = f.enc a ++ r' → u = f.enc a ∧ P

inductive SharpAll : (fs : List Field) → List Slot → Tuple fs → Prop → Prop
  | nil : SharpAll [] [] () True
  | cons {f : Field} {fs : List Field} {s : Slot} {ss : List Slot} {a : f.T} {t : Tuple fs} {P Q : Prop} :
      SharpField f s a P → SharpAll fs ss t Q → SharpAll (f :: fs) (s :: ss) (a, t) (P ∧ Q)

section
variable {α : Type} [Encode α] [DecodeF α] [LawfulEnc α] [LawfulDec α] [NonNull α]

theorem sharp_req {L : Rep α} {can : α → Prop} {a : α} {n : String} (h : Sharp L can) :
    SharpField (.req α n) (mandatory L a) a (can a) := fun hs u r r' hu e => by
  rcases hu with hu | hu
  · exact h a u r r' hs hu e
  · exact hu.1.elim

theorem sharp_opt {L : Rep α} {can : α → Prop} {o : Option α} (h : Sharp L can) :
    SharpField (.opt α) (optional L o) o (IfGiven can o) := fun hs u r r' hu e => by
  rcases hu with ⟨a, rfl, hu⟩ | ⟨ho, rfl⟩
  · have := h a u r r' hs hu e
    exact ⟨this.1, fun b hb => by cases hb; exact this.2⟩
  · cases (show o = none from ho)
    exact ⟨rfl, fun b hb => by cases hb⟩

theorem sharp_dflt {L : Rep α} {can : α → Prop} {d a : α} (h : Sharp L can) :
    SharpField (.dflt α d) (Standard.default L d a) a (can a) := fun hs u r r' hu e => by
  rcases hu with hu | ⟨_, rfl⟩
  · exact h a u r r' hs hu e
  · obtain ⟨c, w, hc, hn⟩ := NonNull.head a
    have e : [0x40] ++ r = enc a ++ r' := e
    rw [hc] at e
    injection e with e
    exact absurd e.symm hn

end

theorem sharp_fill {fs : List Field} {ss : List Slot} {t : Tuple fs} {P : Prop} (h : SharpAll fs ss t P)
    {items : List Bytes} (hf : Fill ss items) (hn : items.length = fs.length)
    (he : items.flatten = encFields fs t) (hs : (encFields fs t).length < 2 ^ 32) : P := by
  induction h generalizing items with
  | nil => trivial
  | @cons f fs s ss a t P Q h1 _ ih =>
    have e : encFields (f :: fs) (a, t) = f.enc a ++ encFields fs t := rfl
    rw [e] at hs he
    rw [List.length_append] at hs
    cases hf with
    | done _ => cases hn
    | null ha hf =>
      have := h1 (by omega) _ _ _ (.inr ⟨ha, rfl⟩) he
      rw [List.flatten_cons, this.1] at he
      exact ⟨this.2, ih hf (Nat.succ.inj hn) (List.append_cancel_left he) (by omega)⟩
    | given hl hf =>
      have := h1 (by omega) _ _ _ (.inl hl) he
      rw [List.flatten_cons, this.1] at he
      exact ⟨this.2, ih hf (Nat.succ.inj hn) (List.append_cancel_left he) (by omega)⟩

/-- Two compound values that start alike. -/
theorem compound_align {c8 c32 c : UInt8} {w cnt N k : Nat} {s n x y r r' : Bytes} (hne : c8 ≠ c32)
    (hc : Sized c8 c32 c w) (hs : Num w s (w + x.length)) (hn : Num w n cnt)
    (hy : y.length = N) (hN : N + 4 < 2 ^ 32) (hk : k ≤ N)
    (e : c :: (s ++ n ++ x) ++ r = compoundHdr c8 c32 N k ++ y ++ r') :
    x = y ∧ cnt = k ∧ c :: (s ++ n ++ x) = compoundHdr c8 c32 N k ++ y := by
  obtain ⟨c', w', s', m', h1, h2, h3, h4⟩ := sized_compoundHdr c8 c32 hN hk
  rw [h4] at e ⊢
  simp only [List.cons_append, List.append_assoc] at e ⊢
  injection e with e0 e
  subst e0
  have hw : w = w' := by
    cases hc <;> cases h1 <;> first | rfl | exact absurd rfl hne
  subst hw
  obtain ⟨e1, e'⟩ := List.append_inj e (hs.width.trans h2.width.symm)
  obtain ⟨e2, e''⟩ := List.append_inj e' (hn.width.trans h3.width.symm)
  subst e1 e2
  have hl := hs.unique h2
  obtain ⟨e3, _⟩ := List.append_inj e'' (by omega)
  exact ⟨e3, hn.unique h3, by rw [e3]⟩

theorem skips_desc {c : UInt64} {n : String} {b : Bytes} (h : Desc c n b) : Skips b := by
  cases h with
  | code h => exact skips_prim h
  | name h => exact skips_prim h

section
variable {α : Type} [Encode α] [DecodeF α] [ListType α]

theorem sharp_composite {c : UInt64} {nm : String} {slots : α → List Slot} {P : α → Prop} {can : α → Prop}
    (hf : ∀ v, SharpAll (ListType.fields α) (slots v) (ListType.toT v) (P v))
    (hp : ∀ v, P v → can v) : Sharp (fun v => composite .all c nm (slots v)) can := by
  intro v u r r' hs hu e
  rw [ListType.enc_eq', listHdr, enc_ulong_small (ListType.code_pos (α := α)) ListType.code_lt] at hs e ⊢
  have hl := compoundHdr_length FC.list8 FC.list32
    (sizeFields (ListType.fields α) (ListType.toT v)) (ListType.fields α).length
  simp only [List.length_append, List.length_cons, List.length_nil, ← encFields_length] at hs
  have hn : sizeFields (ListType.fields α) (ListType.toT v) + 4 < 2 ^ 32 := by
    unfold compoundSize at hl; split at hl <;> omega
  obtain ⟨db, x, hd, hx, rfl⟩ := hu
  simp only [List.cons_append, List.nil_append, List.append_assoc] at e ⊢
  injection e with _ e
  have e : db ++ (x ++ r) = [0x53, (ListType.code α).toUInt8] ++ (compoundHdr FC.list8 FC.list32
    (sizeFields (ListType.fields α) (ListType.toT v)) (ListType.fields α).length ++
    (encFields (ListType.fields α) (ListType.toT v) ++ r')) := e
  obtain ⟨e1, e⟩ := skips_unique (skips_desc hd) (skips_of (by decide) fun r => rfl) e
  rw [← List.append_assoc (compoundHdr ..)] at e
  cases hx with
  | empty =>
    unfold compoundHdr at e
    split at e <;> (simp only [List.cons_append] at e; injection e with e _; exact absurd e (by decide))
  | list items g1 g2 g3 g4 =>
    obtain ⟨e2, e3, e4⟩ := compound_align (by decide) g1 g2 g3 (encFields_length _ _).symm hn
      (length_le_sizeFields (ListType.fields α) (ListType.toT v)) e
    refine ⟨?_, hp v (sharp_fill (hf v) g4 e3 e2 (by rw [← encFields_length]; omega))⟩
    rw [e1, e4]
    rfl

end

/-! ### Simple types -/

theorem sharp_prim {α : Type} [Encode α] {L : Rep α} (hL : ∀ a u, L a u → Skips u)
    (hw : ∀ a, (enc a).length < 2 ^ 32 → L a (enc a)) : Sharp L fun _ => True :=
  fun a _ _ _ hs hu e => ⟨(skips_unique (hL a _ hu) (hL a _ (hw a hs)) e).1, trivial⟩

theorem sharp_boolean : Sharp boolean fun _ => True :=
  sharp_prim (fun _ _ => skips_prim) fun a _ => write_boolean a
theorem sharp_ubyte : Sharp ubyte fun _ => True :=
  sharp_prim (fun _ _ => skips_prim) fun a _ => write_ubyte a
theorem sharp_ushort : Sharp ushort fun _ => True :=
  sharp_prim (fun _ _ => skips_prim) fun a _ => write_ushort a
theorem sharp_uint : Sharp uint fun _ => True :=
  sharp_prim (fun _ _ => skips_prim) fun a _ => write_uint a
theorem sharp_ulong : Sharp ulong fun _ => True :=
  sharp_prim (fun _ _ => skips_prim) fun a _ => write_ulong a
theorem sharp_binary : Sharp binary fun _ => True :=
  sharp_prim (fun _ _ => skips_prim) write_binary
theorem sharp_string : Sharp string fun _ => True :=
  sharp_prim (fun _ _ => skips_prim) write_string
theorem sharp_messageId : Sharp messageId fun _ => True :=
  sharp_prim (fun a _ h => by cases a <;> exact skips_prim h) write_messageId
theorem sharp_role : Sharp (role .all) fun _ => True :=
  sharp_prim (fun a _ h => by cases a <;> exact skips_prim h) fun a _ => write_role a
theorem sharp_senderSettleMode : Sharp senderSettleMode fun _ => True :=
  sharp_prim (fun a _ h => by cases a <;> exact skips_prim h) fun a _ => write_senderSettleMode a
theorem sharp_receiverSettleMode : Sharp receiverSettleMode fun _ => True :=
  sharp_prim (fun a _ h => by cases a <;> exact skips_prim h) fun a _ => write_receiverSettleMode a
theorem sharp_terminusDurability : Sharp terminusDurability fun _ => True :=
  sharp_prim (fun a _ h => by cases a <;> exact skips_prim h) fun a _ => write_terminusDurability a
theorem sharp_terminusExpiryPolicy : Sharp (terminusExpiryPolicy .all) fun _ => True :=
  sharp_prim (fun a _ h => by cases a <;> exact skips_prim (v := .symbol _) h)
    fun a _ => write_terminusExpiryPolicy a
theorem sharp_saslCode : Sharp saslCode fun _ => True :=
  sharp_prim (fun a _ h => by cases a <;> exact skips_prim h) fun a _ => write_saslCode a

theorem skips_symbol (s : Symbol) (hs : (enc s).length < 2 ^ 32) : Skips (enc s) :=
  skips_var (Nat.lt_of_le_of_lt (varEnc_le FC.symbol8 FC.symbol32 s.str.bytes) hs) (by decide) (by decide)
    (fun _ => rfl) (fun _ => rfl)

theorem sharp_symbol : Sharp symbol canSymbol := fun a u r r' hs hu e =>
  ⟨(skips_unique (skips_prim hu) (skips_symbol a hs) e).1, by
    cases hu with
    | symbol _ _ ha => exact ha⟩

theorem sharp_timestamp : Sharp (timestamp .all) canTimestamp := fun a u r r' hs hu e => by
  have hz : (Variant.timestamp a).vsize < 2 ^ 32 := by
    rw [Variant.vsize_eq, show (Variant.timestamp a).venc = enc a by simp only [Variant.venc]]
    exact hs
  have ev : enc a = (Variant.timestamp a).venc := by simp only [Variant.venc]
  have hk := skips_venc (.timestamp a) hz
  rw [ev] at e ⊢
  have e := (skips_unique (skips_wire hu) hk e).1
  subst e
  have := writable_of_wire (.timestamp a) hz (by simp only [Variant.canon]; exact hu)
  simp only [Variant.Writable] at this
  exact ⟨rfl, this⟩

/-- Legal values hold no static symbols. -/
theorem wire_canon {D : Dialect} {v : Variant} {b : Bytes} (h : Wire D v b) : v.canon = v := by
  have list : ∀ l : List Variant, (∀ v ∈ l, v.canon = v) → canonList l = l := fun l h => by
    induction l with
    | nil => simp [canonList]
    | cons v t ih =>
      rw [canonList, h v List.mem_cons_self, ih fun w hw => h w (List.mem_cons_of_mem _ hw)]
  induction h with
  | prim h => cases h <;> simp only [Variant.canon]
  | timestamp => simp only [Variant.canon]
  | list0 => simp only [Variant.canon, canonList]
  | list items _ _ _ _ ih =>
    simp only [Variant.canon]
    rw [list]
    intro v hv
    obtain ⟨p, hp, rfl⟩ := List.mem_map.1 hv
    exact ih p hp
  | map items _ _ _ _ _ _ _ ih1 ih2 =>
    simp only [Variant.canon]
    rw [canonMap_eq]
    congr 1
    rw [List.map_map]
    apply List.map_congr_left
    intro p hp
    simp only [Function.comp, ih1 p hp, ih2 p hp]
  | described _ _ ih => simp only [Variant.canon, ih]

theorem sharp_any : Sharp (any .all) canValue := fun a u r r' hs hu e => by
  have hs' : a.vsize < 2 ^ 32 := by rw [a.vsize_eq]; exact hs
  have hc := wire_canon hu.1
  have e := (skips_unique (skips_wire hu.1) (skips_venc a hs') e).1
  have hw := hu.1
  rw [e, ← hc] at hw
  rw [hc] at hw
  exact ⟨e, writable_of_wire a hs' (by rw [hc]; exact hw), hc⟩

/-! ### Maps -/

theorem sharp_entries {K V : Type} [Encode K] [Encode V] {LK : Rep K} {LV : Rep V} {ck : K → Prop}
    {cv : V → Prop} (hK : Sharp LK ck) (hV : Sharp LV cv) {l : List (K × V)}
    {items : List ((K × Bytes) × (V × Bytes))} (hi : items.map (fun p => (p.1.1, p.2.1)) = l)
    (hb : items.flatMap (fun p => p.1.2 ++ p.2.2) = mapContent enc enc l)
    (hl : ∀ p ∈ items, LK p.1.1 p.1.2 ∧ LV p.2.1 p.2.2)
    (hs : ∀ e ∈ l, (enc e.1).length < 2 ^ 32 ∧ (enc e.2).length < 2 ^ 32) :
    ∀ e ∈ l, ck e.1 ∧ cv e.2 := by
  subst hi
  induction items with
  | nil => intro e he; cases he
  | cons p q ih =>
    simp only [List.flatMap_cons, List.map_cons, mapContent, List.append_assoc] at hb
    have hp := hs _ List.mem_cons_self
    have hw := hl p List.mem_cons_self
    obtain ⟨e1, c1⟩ := hK _ _ _ _ hp.1 hw.1 hb
    rw [e1] at hb
    have hb := List.append_cancel_left hb
    obtain ⟨e2, c2⟩ := hV _ _ _ _ hp.2 hw.2 hb
    rw [e2] at hb
    have hb := List.append_cancel_left hb
    intro e he
    rcases List.mem_cons.1 he with rfl | he
    · exact ⟨c1, c2⟩
    · exact ih (fun p hp => hl p (List.mem_cons_of_mem _ hp)) hb
        (fun e he => hs e (List.mem_cons_of_mem _ he)) e he

theorem sharp_hmap {K V : Type} [HKey K] [Encode K] [Encode V] [LawfulEnc K] [LawfulEnc V]
    {LK : Rep K} {LV : Rep V} {ck : K → Prop} {cv : V → Prop} (hK : Sharp LK ck) (hV : Sharp LV cv)
    (hnk : ∀ k : K, enc k ≠ []) (hnv : ∀ v : V, enc v ≠ []) :
    Sharp (fun (m : HMap K V) b => WireMap LK LV m.entries b)
      fun m => NodupKeys m.entries ∧ ∀ e ∈ m.entries, ck e.1 ∧ cv e.2 := by
  intro m u r r' hs hu e
  have hmem := fun e (he : e ∈ m.entries) => mapEntry_lt hs he
  have hlen : (mapContent enc enc m.entries).length = mapContentSize size size m.entries :=
    (mapContent_length m.entries (fun e _ => LawfulEnc.size_eq e.1) (fun e _ => LawfulEnc.size_eq e.2)).symm
  have hsz : mapContentSize size size m.entries + 4 < 2 ^ 32 := by
    have : (compoundHdr FC.map8 FC.map32 (mapContentSize size size m.entries) (m.entries.length * 2) ++
      mapContent enc enc m.entries).length < 2 ^ 32 := hs
    rw [List.length_append, hlen, compoundHdr_length] at this
    exact compoundSize_small this
  have hk : m.entries.length * 2 ≤ mapContentSize size size m.entries :=
    mapContentSize_ge m.entries
      (fun e _ => by rw [LawfulEnc.size_eq]; exact List.length_pos_iff.2 (hnk e.1))
      (fun e _ => by rw [LawfulEnc.size_eq]; exact List.length_pos_iff.2 (hnv e.2))
  obtain ⟨l⟩ := m
  cases hu with
  | mk items g1 g2 g3 g4 g5 =>
    obtain ⟨e1, _, e2⟩ := compound_align (by decide) g1 g2 g3 hlen hsz hk e
    exact ⟨e2, g5, sharp_entries hK hV rfl e1 g4 hmem⟩

theorem enc_opt_ne {α : Type} [Encode α] (h : ∀ a : α, enc a ≠ []) (o : Option α) : enc o ≠ [] := by
  cases o with
  | none => exact nofun
  | some a => exact h a

theorem sharp_fields : Sharp (fields .all) canFields :=
  sharp_hmap sharp_symbol sharp_any enc_ne_nil_of_head enc_variant_ne
theorem sharp_stringMap : Sharp (stringMap .all) canStringMap := fun a u r r' hs hu e =>
  have h := sharp_hmap sharp_string sharp_any enc_ne_nil_of_head enc_variant_ne a u r r' hs hu e
  ⟨h.1, h.2.1, fun e he => (h.2.2 e he).2⟩
theorem sharp_map : Sharp (map .all) canMap := fun a u r r' hs hu e =>
  sharp_hmap sharp_any sharp_any enc_variant_ne enc_variant_ne a u r r' hs hu.1 e
theorem sharp_filter : Sharp filterSet canFilter :=
  sharp_hmap sharp_symbol (cv := fun v => v = none)
    (fun a u r r' _ hu _ => by obtain ⟨rfl, rfl⟩ := hu; exact ⟨rfl, rfl⟩)
    enc_ne_nil_of_head (enc_opt_ne enc_ne_nil_of_head)

/-! ### Arrays of symbols -/

theorem sharp_symbols : Sharp symbols canSymbols := by
  intro a u r r' hs hu e
  cases hu with
  | @one x b hx =>
    have := sharp_symbol x u r r' hs hx e
    exact ⟨this.1, fun s h => by rw [List.mem_singleton] at h; subst h; exact this.2, .inl rfl⟩
  | @array l b hl =>
    have hnot : ∀ x, l ≠ [x] := fun x h => by
      subst h
      have e : u ++ r = varEnc 0xa3 0xb3 x.str.bytes ++ r' := e
      generalize [x] = l at hl
      cases hl with
      | mk items hc _ _ _ =>
        unfold varEnc at e
        cases hc <;> (split at e <;> (simp only [List.cons_append] at e; injection e with e _; exact absurd e (by decide)))
    have he : enc (⟨l⟩ : Symbols) = enc (Vec.mk l) := by
      match l, hnot with
      | [], _ => rfl
      | [x], h => exact absurd rfl (h x)
      | x :: y :: t, _ => rfl
    rw [he] at hs e ⊢
    have hcs : arrayContentSize l = (l.flatMap aenc).length :=
      arrayContentSize_flatMap (fun s => ⟨by simp [asize, aenc, RStr.len], by simp [aenc]; omega⟩) l
    have ev : enc (Vec.mk l) = (if arrayContentSize l + 1 > 255 then
        FC.array32 :: (beEnc 4 (arrayContentSize l + 5) ++ beEnc 4 l.length)
      else [FC.array8, UInt8.ofNat (arrayContentSize l + 2), UInt8.ofNat l.length]) ++
      (FC.symbol32 :: arrayContent l) := rfl
    rw [ev] at hs e ⊢
    rw [arrayContent_eq] at hs e ⊢
    rw [hcs] at hs e ⊢
    have key : ∀ (items : List (Symbol × Bytes)) (k : UInt8), items.map Prod.fst = l →
        (∀ p ∈ items, symbol p.1 (k :: p.2)) → ∀ s ∈ l, canSymbol s := by
      intro items k h1 h2 s hm
      subst h1
      obtain ⟨p, hp, rfl⟩ := List.mem_map.1 hm
      have := h2 p hp
      generalize k :: p.2 = b at this
      cases this with
      | symbol _ _ ha => exact ha
    have hl : ∃ l', l' = l ∧ WireArray symbol l' u := ⟨l, rfl, hl⟩
    obtain ⟨l', hl', hl⟩ := hl
    cases hl with
    | @mk items c k w s n hc h1 h2 h3 =>
      have hlen : (c :: (s ++ n ++ k :: items.flatMap Prod.snd)).length =
          1 + w + w + 1 + (items.flatMap Prod.snd).length := by
        simp only [List.length_cons, List.length_append, h1.width, h2.width]; omega
      by_cases hb : (l.flatMap aenc).length + 1 > 255
      · rw [if_pos hb] at hs e ⊢
        simp only [List.length_append, List.length_cons, beEnc_length] at hs
        simp only [List.cons_append, List.append_assoc] at e
        injection e with e0 e
        have hw : w = 4 := by cases hc; exact absurd e0 (by decide); rfl
        subst hw
        have e1 := (List.append_inj e (h1.width.trans (beEnc_length _ _).symm)).1
        have := h1.unique (e1 ▸ num_beEnc (by omega))
        refine ⟨?_, key items k hl' h3, .inr ?_⟩
        · refine (List.append_inj (s₁ := c :: (s ++ n ++ k :: items.flatMap Prod.snd)) (t₁ := r) (t₂ := r') ?_ ?_).1
          · simp only [List.cons_append, List.append_assoc, e0, e]
          · rw [hlen]
            simp only [List.length_append, List.length_cons, beEnc_length]
            omega
        · rw [← flatMap_aenc_length]; show (l.flatMap aenc).length ≠ 254; omega
      · rw [if_neg hb] at hs e ⊢
        simp only [List.cons_append, List.nil_append, List.append_assoc] at e
        injection e with e0 e
        have hw : w = 1 := by cases hc; rfl; exact absurd e0 (by decide)
        subst hw
        have e1 := (List.append_inj (s₂ := [UInt8.ofNat ((l.flatMap aenc).length + 2)]) e h1.width).1
        have h254 : (l.flatMap aenc).length ≠ 254 := fun h => by
          rw [h] at e1
          have := h1.unique (e1 ▸ num_one 0)
          simp at this
        have := h1.unique (e1 ▸ num_ofNat (by omega))
        refine ⟨?_, key items k hl' h3, .inr ?_⟩
        · refine (List.append_inj (s₁ := c :: (s ++ n ++ k :: items.flatMap Prod.snd)) (t₁ := r) (t₂ := r') ?_ ?_).1
          · simp only [List.cons_append, List.nil_append, List.append_assoc, e0, e]
          · rw [hlen]
            simp only [List.length_append, List.length_cons, List.length_nil]
            omega
        · rw [← flatMap_aenc_length]; exact h254

/-! ### Choices -/

theorem sharp_errorCondition : Sharp (errorCondition .all) canCondition := fun a u r r' hs hu e => by
  have std : canCondition a → (∀ b, errorCondition .all a b → Skips b) → u = enc a ∧ canCondition a :=
    fun hc hk => ⟨(skips_unique (hk _ hu) (hk _ (write_errorCondition a hc hs)) e).1, hc⟩
  cases a with
  | Custom s =>
    have := sharp_symbol s u r r' hs hu.2 e
    exact ⟨this.1, this.2, hu.1⟩
  | _ => exact std trivial fun b h => skips_prim (v := .symbol _) h

theorem sharp_distributionMode : Sharp (distributionMode .all) canMode := fun a u r r' hs hu e => by
  have std : canMode a → (∀ b, distributionMode .all a b → Skips b) → u = enc a ∧ canMode a :=
    fun hc hk => ⟨(skips_unique (hk _ hu) (hk _ (write_distributionMode a hc hs)) e).1, hc⟩
  cases a with
  | Custom s =>
    have := sharp_symbol s u r r' hs hu.2.2 e
    exact ⟨this.1, this.2, hu.1, hu.2.1⟩
  | _ => exact std trivial fun b h => skips_prim (v := .symbol _) h

/-! ### Composite types and unions -/

theorem sharp_error : Sharp (error .all) canError :=
  sharp_composite (α := Error) (fun _ => id <|
    .cons (sharp_req sharp_errorCondition) <|
    .cons (sharp_opt sharp_string) <|
    .cons (sharp_opt sharp_fields) <| .nil) (fun _ q => ⟨q.1, q.2.2.1⟩)
theorem sharp_received : Sharp (received .all) fun _ => True :=
  sharp_composite (α := Received) (fun _ => id <|
    .cons (sharp_req sharp_uint) <|
    .cons (sharp_req sharp_ulong) <| .nil) (fun _ _ => trivial)
theorem sharp_accepted : Sharp (accepted .all) fun _ => True :=
  sharp_composite (α := Accepted) (fun _ => .nil) (fun _ _ => trivial)
theorem sharp_rejected : Sharp (rejected .all) canRejected :=
  sharp_composite (α := Rejected) (fun _ => id <|
    .cons (sharp_opt sharp_error) <| .nil) (fun _ q => q.1)
theorem sharp_released : Sharp (released .all) fun _ => True :=
  sharp_composite (α := Released) (fun _ => .nil) (fun _ _ => trivial)
theorem sharp_modified : Sharp (modified .all) canModified :=
  sharp_composite (α := Modified) (fun _ => id <|
    .cons (sharp_opt sharp_boolean) <|
    .cons (sharp_opt sharp_boolean) <|
    .cons (sharp_opt sharp_fields) <| .nil) (fun _ q => q.2.2.1)
theorem sharp_deliveryState : Sharp (Standard.deliveryState .all) canState := fun a u r r' hs hu e => by
  cases a with
  | Received v => exact sharp_received v u r r' hs hu e
  | Accepted v => exact sharp_accepted v u r r' hs hu e
  | Rejected v => exact sharp_rejected v u r r' hs hu e
  | Released v => exact sharp_released v u r r' hs hu e
  | Modified v => exact sharp_modified v u r r' hs hu e
theorem sharp_outcome : Sharp (Standard.outcome .all) canOutcome := fun a u r r' hs hu e => by
  cases a with
  | Accepted v => exact sharp_accepted v u r r' hs hu e
  | Rejected v => exact sharp_rejected v u r r' hs hu e
  | Released v => exact sharp_released v u r r' hs hu e
  | Modified v => exact sharp_modified v u r r' hs hu e
theorem sharp_source : Sharp (source .all) canSource :=
  sharp_composite (α := Source) (fun _ => id <|
    .cons (sharp_opt sharp_string) <|
    .cons (sharp_dflt sharp_terminusDurability) <|
    .cons (sharp_dflt sharp_terminusExpiryPolicy) <|
    .cons (sharp_dflt sharp_uint) <|
    .cons (sharp_dflt sharp_boolean) <|
    .cons (sharp_opt sharp_fields) <|
    .cons (sharp_opt sharp_distributionMode) <|
    .cons (sharp_opt sharp_filter) <|
    .cons (sharp_opt sharp_outcome) <|
    .cons (sharp_opt sharp_symbols) <|
    .cons (sharp_opt sharp_symbols) <| .nil) (fun _ q => ⟨q.2.2.2.2.2.1, q.2.2.2.2.2.2.1, q.2.2.2.2.2.2.2.1, q.2.2.2.2.2.2.2.2.1, q.2.2.2.2.2.2.2.2.2.1, q.2.2.2.2.2.2.2.2.2.2.1⟩)
theorem sharp_target : Sharp (target .all) canTarget :=
  sharp_composite (α := Target) (fun _ => id <|
    .cons (sharp_opt sharp_string) <|
    .cons (sharp_dflt sharp_terminusDurability) <|
    .cons (sharp_dflt sharp_terminusExpiryPolicy) <|
    .cons (sharp_dflt sharp_uint) <|
    .cons (sharp_dflt sharp_boolean) <|
    .cons (sharp_opt sharp_fields) <|
    .cons (sharp_opt sharp_symbols) <| .nil) (fun _ q => ⟨q.2.2.2.2.2.1, q.2.2.2.2.2.2.1⟩)
theorem sharp_opening : Sharp (opening .all) canOpen :=
  sharp_composite (α := Open) (fun _ => id <|
    .cons (sharp_req sharp_string) <|
    .cons (sharp_opt sharp_string) <|
    .cons (sharp_dflt sharp_uint) <|
    .cons (sharp_dflt sharp_ushort) <|
    .cons (sharp_opt sharp_uint) <|
    .cons (sharp_opt sharp_symbols) <|
    .cons (sharp_opt sharp_symbols) <|
    .cons (sharp_opt sharp_symbols) <|
    .cons (sharp_opt sharp_symbols) <|
    .cons (sharp_opt sharp_fields) <| .nil) (fun _ q => ⟨q.2.2.2.2.2.1, q.2.2.2.2.2.2.1, q.2.2.2.2.2.2.2.1, q.2.2.2.2.2.2.2.2.1, q.2.2.2.2.2.2.2.2.2.1⟩)
theorem sharp_beginning : Sharp (beginning .all) canBegin :=
  sharp_composite (α := Begin) (fun _ => id <|
    .cons (sharp_opt sharp_ushort) <|
    .cons (sharp_req sharp_uint) <|
    .cons (sharp_req sharp_uint) <|
    .cons (sharp_req sharp_uint) <|
    .cons (sharp_dflt sharp_uint) <|
    .cons (sharp_opt sharp_symbols) <|
    .cons (sharp_opt sharp_symbols) <|
    .cons (sharp_opt sharp_fields) <| .nil) (fun _ q => ⟨q.2.2.2.2.2.1, q.2.2.2.2.2.2.1, q.2.2.2.2.2.2.2.1⟩)
theorem sharp_attach : Sharp (attach .all) canAttach :=
  sharp_composite (α := Attach) (fun _ => id <|
    .cons (sharp_req sharp_string) <|
    .cons (sharp_req sharp_uint) <|
    .cons (sharp_req sharp_role) <|
    .cons (sharp_dflt sharp_senderSettleMode) <|
    .cons (sharp_dflt sharp_receiverSettleMode) <|
    .cons (sharp_opt sharp_source) <|
    .cons (sharp_opt sharp_target) <|
    .cons (sharp_opt sharp_map) <|
    .cons (sharp_dflt sharp_boolean) <|
    .cons (sharp_opt sharp_uint) <|
    .cons (sharp_opt sharp_ulong) <|
    .cons (sharp_opt sharp_symbols) <|
    .cons (sharp_opt sharp_symbols) <|
    .cons (sharp_opt sharp_fields) <| .nil) (fun _ q => ⟨q.2.2.2.2.2.1, q.2.2.2.2.2.2.1, q.2.2.2.2.2.2.2.1, q.2.2.2.2.2.2.2.2.2.2.2.1, q.2.2.2.2.2.2.2.2.2.2.2.2.1, q.2.2.2.2.2.2.2.2.2.2.2.2.2.1⟩)
theorem sharp_flow : Sharp (flow .all) canFlow :=
  sharp_composite (α := Flow) (fun _ => id <|
    .cons (sharp_opt sharp_uint) <|
    .cons (sharp_req sharp_uint) <|
    .cons (sharp_req sharp_uint) <|
    .cons (sharp_req sharp_uint) <|
    .cons (sharp_opt sharp_uint) <|
    .cons (sharp_opt sharp_uint) <|
    .cons (sharp_opt sharp_uint) <|
    .cons (sharp_opt sharp_uint) <|
    .cons (sharp_dflt sharp_boolean) <|
    .cons (sharp_dflt sharp_boolean) <|
    .cons (sharp_opt sharp_fields) <| .nil) (fun _ q => q.2.2.2.2.2.2.2.2.2.2.1)
theorem sharp_transfer : Sharp (transfer .all) canTransfer :=
  sharp_composite (α := TransferPerf) (fun _ => id <|
    .cons (sharp_req sharp_uint) <|
    .cons (sharp_opt sharp_uint) <|
    .cons (sharp_opt sharp_binary) <|
    .cons (sharp_opt sharp_uint) <|
    .cons (sharp_opt sharp_boolean) <|
    .cons (sharp_dflt sharp_boolean) <|
    .cons (sharp_opt sharp_receiverSettleMode) <|
    .cons (sharp_opt sharp_deliveryState) <|
    .cons (sharp_dflt sharp_boolean) <|
    .cons (sharp_dflt sharp_boolean) <|
    .cons (sharp_dflt sharp_boolean) <| .nil) (fun _ q => q.2.2.2.2.2.2.2.1)
theorem sharp_disposition : Sharp (disposition .all) canDisposition :=
  sharp_composite (α := Disposition) (fun _ => id <|
    .cons (sharp_req sharp_role) <|
    .cons (sharp_req sharp_uint) <|
    .cons (sharp_opt sharp_uint) <|
    .cons (sharp_dflt sharp_boolean) <|
    .cons (sharp_opt sharp_deliveryState) <|
    .cons (sharp_dflt sharp_boolean) <| .nil) (fun _ q => q.2.2.2.2.1)
theorem sharp_detach : Sharp (detach .all) canDetach :=
  sharp_composite (α := Detach) (fun _ => id <|
    .cons (sharp_req sharp_uint) <|
    .cons (sharp_dflt sharp_boolean) <|
    .cons (sharp_opt sharp_error) <| .nil) (fun _ q => q.2.2.1)
theorem sharp_ending : Sharp (ending .all) canEnd :=
  sharp_composite (α := End) (fun _ => id <|
    .cons (sharp_opt sharp_error) <| .nil) (fun _ q => q.1)
theorem sharp_close : Sharp (close .all) canClose :=
  sharp_composite (α := Close) (fun _ => id <|
    .cons (sharp_opt sharp_error) <| .nil) (fun _ q => q.1)
theorem sharp_saslMechanisms : Sharp (saslMechanisms .all) (fun a => canSymbols a.sasl_server_mechanisms) :=
  sharp_composite (α := SaslMechanisms) (fun _ => id <|
    .cons (sharp_req sharp_symbols) <| .nil) (fun _ q => q.1)
theorem sharp_saslInit : Sharp (saslInit .all) (fun a => canSymbol a.mechanism) :=
  sharp_composite (α := SaslInit) (fun _ => id <|
    .cons (sharp_req sharp_symbol) <|
    .cons (sharp_opt sharp_binary) <|
    .cons (sharp_opt sharp_string) <| .nil) (fun _ q => q.1)
theorem sharp_saslChallenge : Sharp (saslChallenge .all) fun _ => True :=
  sharp_composite (α := SaslChallenge) (fun _ => id <|
    .cons (sharp_req sharp_binary) <| .nil) (fun _ _ => trivial)
theorem sharp_saslResponse : Sharp (saslResponse .all) fun _ => True :=
  sharp_composite (α := SaslResponse) (fun _ => id <|
    .cons (sharp_req sharp_binary) <| .nil) (fun _ _ => trivial)
theorem sharp_saslOutcome : Sharp (saslOutcome .all) fun _ => True :=
  sharp_composite (α := SaslOutcome) (fun _ => id <|
    .cons (sharp_req sharp_saslCode) <|
    .cons (sharp_opt sharp_binary) <| .nil) (fun _ _ => trivial)
theorem sharp_header : Sharp (header .all) fun _ => True :=
  sharp_composite (α := Header) (fun _ => id <|
    .cons (sharp_dflt sharp_boolean) <|
    .cons (sharp_dflt sharp_ubyte) <|
    .cons (sharp_opt sharp_uint) <|
    .cons (sharp_dflt sharp_boolean) <|
    .cons (sharp_dflt sharp_uint) <| .nil) (fun _ _ => trivial)
theorem sharp_properties : Sharp (properties .all) canProperties :=
  sharp_composite (α := Properties) (fun _ => id <|
    .cons (sharp_opt sharp_messageId) <|
    .cons (sharp_opt sharp_binary) <|
    .cons (sharp_opt sharp_string) <|
    .cons (sharp_opt sharp_string) <|
    .cons (sharp_opt sharp_string) <|
    .cons (sharp_opt sharp_messageId) <|
    .cons (sharp_opt sharp_symbol) <|
    .cons (sharp_opt sharp_symbol) <|
    .cons (sharp_opt sharp_timestamp) <|
    .cons (sharp_opt sharp_timestamp) <|
    .cons (sharp_opt sharp_string) <|
    .cons (sharp_opt sharp_uint) <|
    .cons (sharp_opt sharp_string) <| .nil) (fun _ q => ⟨q.2.2.2.2.2.2.1, q.2.2.2.2.2.2.2.1, q.2.2.2.2.2.2.2.2.1, q.2.2.2.2.2.2.2.2.2.1⟩)
theorem sharp_saslBody : Sharp (Standard.saslBody .all) canSasl := fun a u r r' hs hu e => by
  cases a with
  | SaslMechanisms v => exact sharp_saslMechanisms v u r r' hs hu e
  | SaslInit v => exact sharp_saslInit v u r r' hs hu e
  | SaslChallenge v => exact sharp_saslChallenge v u r r' hs hu e
  | SaslResponse v => exact sharp_saslResponse v u r r' hs hu e
  | SaslOutcome v => exact sharp_saslOutcome v u r r' hs hu e

/-! ### Frames -/

theorem sharp_only {α : Type} [Encode α] {L : Rep α} {can : α → Prop} (h : Sharp L can) (a : α)
    (hs : (enc a).length < 2 ^ 32) (hl : L a (enc a)) : can a :=
  (h a (enc a) [] [] hs hl rfl).2

theorem only_frameBody (f : Frame) (hs : (enc f).length < 2 ^ 32) (h : frameBody .all f (enc f)) :
    canFrame f := by
  cases f with
  | Empty => trivial
  | Open v => exact sharp_only sharp_opening v hs h
  | Begin v => exact sharp_only sharp_beginning v hs h
  | Attach v => exact sharp_only sharp_attach v hs h
  | Flow v => exact sharp_only sharp_flow v hs h
  | Transfer v =>
    have hs : (enc v).length < 2 ^ 32 := hs
    obtain ⟨p, payload, h1, h2, h3⟩ := h
    have h2 : enc v = p ++ payload := h2
    rw [Transfer.enc_eq, List.length_append] at hs
    rw [Transfer.enc_eq] at h2
    refine ⟨(sharp_transfer _ _ _ _ (by omega) h1 h2.symm).2, fun q hq => ?_⟩
    rw [hq] at h3
    split at h3
    · cases h3
    · injection h3 with h3
      exact ⟨_, h3, by assumption⟩
  | Disposition v => exact sharp_only sharp_disposition v hs h
  | Detach v => exact sharp_only sharp_detach v hs h
  | End v => exact sharp_only sharp_ending v hs h
  | Close v => exact sharp_only sharp_close v hs h

theorem framed_only {type type' : UInt8} {two : Bytes} {ch : UInt16} {n : Nat} {u : Bytes}
    {body : Bytes → Prop} (h : Framed type two body (frameHeader n type' ch ++ u)) : body u := by
  generalize hb : frameHeader n type' ch ++ u = b at h
  cases h with
  | @mk s ext b doff h1 h2 h3 h4 =>
    simp only [frameHeader, List.append_assoc] at hb
    have hb1 := (List.append_inj hb ((beEnc_length _ _).trans h3.width.symm)).2
    simp only [List.cons_append, List.nil_append] at hb1
    injection hb1 with e hb2
    injection hb2 with _ hb3
    subst e
    have : ext = [] := List.eq_nil_of_length_eq_zero (by
      have : (2 : UInt8).toNat = 2 := rfl
      omega)
    subst this
    have hb4 := (List.append_inj hb3 ((beEnc_length _ _).trans h1.symm)).2
    rw [hb4]; exact h4

theorem only_amqpFrame (f : AmqpFrame) (hs : (enc f).length < 2 ^ 32) (h : amqpFrame .all f (enc f)) :
    canFrame f.performative := by
  rw [amqpFrame_enc] at hs h
  rw [List.length_append] at hs
  obtain ⟨two, _, h⟩ := h
  exact only_frameBody _ (by omega) (framed_only h)

theorem only_saslFrame (f : SaslFrame) (hs : (enc f).length < 2 ^ 32) (h : saslFrame .all f (enc f)) :
    canSasl f.body := by
  rw [saslFrame_enc] at hs h
  rw [List.length_append] at hs
  obtain ⟨two, h⟩ := h
  exact sharp_only sharp_saslBody _ (by omega) (framed_only h)

end Amqp
