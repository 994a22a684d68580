import Verif.Proofs.ListInstances
import Verif.Proofs.Inversion
import Verif.Spec.Lists
import Verif.Protocol.Frame
/-!
# Lemmas for the properties of described lists and enumerations
-/
set_option autoImplicit false
namespace Amqp
open Dec

/-! ### Values that round-trip whenever their encoding fits -/

/-- Every value of the type whose encoding is shorter than 4 GiB round-trips. -/
class SmallRT (α : Type) [Encode α] [DecodeF α] : Prop where
  rt : ∀ (env : Env) (v : α), (enc v).length < 2 ^ 32 → RoundTrips env v

instance : SmallRT Bool := ⟨fun env v _ => LawfulCodec.rt env v trivial⟩
instance : SmallRT UInt8 := ⟨fun env v _ => LawfulCodec.rt env v trivial⟩
instance : SmallRT UInt16 := ⟨fun env v _ => LawfulCodec.rt env v trivial⟩
instance : SmallRT UInt32 := ⟨fun env v _ => LawfulCodec.rt env v trivial⟩
instance : SmallRT UInt64 := ⟨fun env v _ => LawfulCodec.rt env v trivial⟩
instance : SmallRT Uuid := ⟨fun env v _ => LawfulCodec.rt env v trivial⟩
theorem varEnc_small {c8 c32 : UInt8} {b : Bytes} (h : (varEnc c8 c32 b).length < 2 ^ 32) :
    b.length < 2 ^ 32 := by
  unfold varEnc at h; split at h <;> simp at h <;> omega
instance : SmallRT Binary := ⟨fun env v h => LawfulCodec.rt env v (varEnc_small h)⟩
instance : SmallRT RStr := ⟨fun env v h => LawfulCodec.rt env v (varEnc_small h)⟩
instance : SmallRT Symbol := ⟨fun env v h => LawfulCodec.rt env v (varEnc_small h)⟩
instance : SmallRT MessageId := ⟨fun env v h => LawfulCodec.rt env v (by
  cases v with
  | Ulong v => exact trivial
  | Uuid v => exact trivial
  | Binary v => exact varEnc_small h
  | String v => exact varEnc_small h)⟩
instance : SmallRT Role := ⟨fun env v _ => LawfulCodec.rt env v trivial⟩
instance : SmallRT SenderSettleMode := ⟨fun env v _ => LawfulCodec.rt env v trivial⟩
instance : SmallRT ReceiverSettleMode := ⟨fun env v _ => LawfulCodec.rt env v trivial⟩
instance : SmallRT SaslCode := ⟨fun env v _ => LawfulCodec.rt env v trivial⟩
instance : SmallRT TerminusDurability := ⟨fun env v _ => LawfulCodec.rt env v trivial⟩
instance : SmallRT TerminusExpiryPolicy := ⟨fun env v _ => LawfulCodec.rt env v trivial⟩
instance {α : Type} [Encode α] [DecodeF α] [NonNull α] [SmallRT α] : SmallRT (Option α) :=
  ⟨fun env o h => by
    cases o with
    | none => exact fun _ => rfl
    | some v => exact roundTrips_some (SmallRT.rt env v h)⟩

/-! ### Lists of which only a prefix of the fields is present -/

/-- The bytes `us` stand one by one for the fields' values. -/
def Given (env : Env) : (fs : List Field) → List Bytes → Tuple fs → Prop
  | [], [], _ => True
  | f :: fs, u :: us, t => Reads (f.dec env) u t.1 ∧ Given env fs us t.2
  | _, _, _ => False

/-- What the fields decode to when only the first `k` are present. -/
def outcome : (fs : List Field) → Nat → Tuple fs → Res ParseError (Tuple fs)
  | [], _, _ => .ok ()
  | f :: fs, 0, t => f.missing >>= fun a => outcome fs 0 t.2 >>= fun t' => .ok (a, t')
  | _ :: fs, k + 1, t => outcome fs k t.2 >>= fun t' => .ok (t.1, t')

/-- Forget the state after the fields. -/
def valOf {σ α : Type} : Res ParseError (σ × α) → Res ParseError α
  | .ok p => .ok p.2
  | .err e => .err e
  | .panic p => .panic p

theorem valOf_getFields {env : Env} : ∀ {fs : List Field} {us : List Bytes} {t : Tuple fs},
    Given env fs us t → ∀ (k : Nat) (x : Bytes),
    valOf (getFields env fs (k, (us.take k).flatten ++ x)) = outcome fs k t
  | [], [], _, _, _, _ => rfl
  | [], _ :: _, _, h, _, _ => h.elim
  | _ :: _, [], _, h, _, _ => h.elim
  | f :: fs, u :: us, (a, t), h, 0, x => by
    have ih := valOf_getFields h.2 0 x
    simp only [List.take_zero, List.flatten_nil, List.nil_append] at ih ⊢
    simp only [getFields, FieldDec.run_bind, f.get_zero, outcome, ← ih]
    cases f.missing with
    | err e => rfl
    | panic p => rfl
    | ok b =>
      simp only
      cases getFields env fs (0, x) <;> rfl
  | f :: fs, u :: us, (a, t), h, k + 1, x => by
    have ih := valOf_getFields h.2 k x
    have h1 : f.get env (k + 1, u ++ ((us.take k).flatten ++ x)) =
        .ok ((k, (us.take k).flatten ++ x), a) := by
      rw [f.get_succ, present, h.1]
    simp only [List.take_succ_cons, List.flatten_cons, List.append_assoc]
    simp only [getFields, FieldDec.run_bind, h1, outcome, ← ih]
    cases getFields env fs (k, (us.take k).flatten ++ x) <;> rfl

theorem ListHeader.wire {h : Bytes} {s c : Nat} (hw : ListHeader h s c) : ListHeaderWire h s c := by
  cases hw with
  | list0 => exact .list0
  | list8 hs hc => exact .list8 hs hc
  | list32 hs hc => exact .list32 hs hc

section
variable {α : Type} [Encode α] [DecodeF α] [ListType α]
open ListType

theorem decode_described {env : Env} {u p : Bytes} {d : Descriptor} (hd : Means env u d) :
    decode α env (0x00 :: (u ++ p)) =
      if d.selects (code α) (name α) then inner env p else .err (.invalidDescriptor d) := by
  show decF env FC.described (u ++ p) = _
  rw [decF_eq, describedAs_eq, validateCode_self, Dec.bind_ok (hd p)]
  cases d.selects (code α) (name α) <;> rfl

theorem decode_fields {env : Env} {u hdr extra rest : Bytes} {d : Descriptor} {k : Nat}
    {us : List Bytes} {t : Tuple (fields α)} (hd : Means env u d) (hc : d.Is (code α) (name α))
    (hg : Given env (fields α) us t)
    (hh : ListHeader hdr ((us.take k).flatten ++ extra).length k) :
    decode α env (0x00 :: (u ++ (hdr ++ ((us.take k).flatten ++ (extra ++ rest))))) =
      (outcome (fields α) k t >>= fun t => .ok (rest, ofT t)) := by
  rw [decode_described hd, if_pos (Descriptor.selects_iff.2 hc), inner_eq]
  simp only [listInner]
  have h1 := hh.wire.reads env ((us.take k).flatten ++ (extra ++ rest))
  have h2 := valOf_getFields hg k extra
  rw [← bind_assoc, Dec.bind_ok h1]
  rw [← List.append_assoc _ extra, Dec.bind_ok (Reads.takeN _ rfl rest)]
  simp only [FieldDec.run_map]
  rw [← h2]
  cases getFields env (fields α) (k, (us.take k).flatten ++ extra) <;> rfl

theorem listInner_ok {β : Type} {env : Env} {fields : FieldDec β} {i r : Bytes} {a : β}
    (h : listInner env fields i = .ok (r, a)) :
    ∃ hdr body, i = hdr ++ (body ++ r) ∧ TakenSize env hdr body.length := by
  unfold listInner at h
  obtain ⟨i1, fmt, h1, hA⟩ := bind_eq_ok.1 h
  obtain ⟨i2, hd, h2, hB⟩ := bind_eq_ok.1 hA
  obtain ⟨i3, body, h3, hC⟩ := bind_eq_ok.1 hB
  obtain rfl := readU8_ok h1
  obtain ⟨e3, hl⟩ := takeN_ok h3
  have : i3 = r := by
    cases e : fields (hd.count, body) with
    | ok p => rw [e] at hC; cases hC; rfl
    | err p => rw [e] at hC; cases hC
    | panic p => rw [e] at hC; cases hC
  subst this
  subst e3
  unfold decodeListHeader at h2
  split at h2
  · rename_i hf
    subst hf
    cases h2
    exact ⟨[0x45], body, rfl, by rw [hl]; exact .list0⟩
  · split at h2
    · rename_i hf
      subst hf
      obtain ⟨j1, b, g1, hD⟩ := bind_eq_ok.1 h2
      obtain ⟨j2, n, g2, hE⟩ := bind_eq_ok.1 hD
      obtain ⟨rfl, hb⟩ := takeN_ok g1
      match b, hb with
      | [s, c], _ =>
        cases hE
        unfold subChecked at g2
        split at g2
        · cases g2
          exact ⟨[0xc0, s, c], body, rfl, by rw [hl]; exact .list8 s c ‹_›⟩
        · split at g2
          · cases g2
          · cases g2
            have : s = 0 := by
              apply UInt8.toNat_inj.1
              rename_i hs _
              simp at hs ⊢; omega
            subst this
            exact ⟨[0xc0, 0, c], body, rfl, by
              rw [hl]; exact .list8Wrapped c (by simpa using ‹¬ env.overflowChecks = true›)⟩
    · split at h2
      · rename_i hf
        subst hf
        obtain ⟨j1, b, g1, hD⟩ := bind_eq_ok.1 h2
        obtain ⟨j2, n, g2, hE⟩ := bind_eq_ok.1 hD
        obtain ⟨rfl, hb⟩ := takeN_ok g1
        cases hE
        unfold subChecked at g2
        have l1 : (b.take 4).length = 4 := by simp; omega
        have l2 : (b.drop 4).length = 4 := by simp; omega
        have hb2 : b.take 4 ++ b.drop 4 = b := List.take_append_drop 4 b
        split at g2
        · cases g2
          exact ⟨0xd0 :: (b.take 4 ++ b.drop 4), body, by rw [hb2]; simp; rfl, by
            rw [hl]; exact .list32 _ _ l1 l2 ‹_›⟩
        · split at g2
          · cases g2
          · cases g2
            exact ⟨0xd0 :: (b.take 4 ++ b.drop 4), body, by rw [hb2]; simp; rfl, by
              rw [hl, Nat.add_comm (beDec _)]
              exact .list32Wrapped _ _ l1 l2 (by omega)
                (by simpa using ‹¬ env.overflowChecks = true›)⟩
      · cases h2

theorem listConsumes : ConsumesDeclared α := by
  intro env input rest v h
  obtain ⟨c, i, e, h0⟩ := decode_ok h
  subst e
  rw [decF_eq, describedAs_eq] at h0
  obtain ⟨rfl, h1⟩ := validateCode_ok h0
  obtain ⟨i1, d, h2, h3⟩ := bind_eq_ok.1 h1
  obtain ⟨desc, rfl, hm⟩ := loc_decode env _ _ _ h2
  have h4 : inner (α := α) env i1 = .ok (rest, v) := by
    split at h3
    · cases h3
    · exact h3
  rw [inner_eq] at h4
  obtain ⟨hdr, body, rfl, hs⟩ := listInner_ok h4
  exact ⟨desc, hdr, body, rfl, ⟨d, hm⟩, hs⟩

theorem listSelected : SelectedBy α (code α) (name α) where
  agree env u u' payload d d' hu hu' hd hd' := by
    rw [decode_described hu, decode_described hu', if_pos (Descriptor.selects_iff.2 hd),
      if_pos (Descriptor.selects_iff.2 hd')]
  reject env u payload d hu hd := by
    rw [decode_described hu, if_neg (fun h => hd (Descriptor.selects_iff.1 h))]
  other env c payload hc := by
    show decF env c payload = _
    rw [decF_eq, describedAs_eq]
    unfold validateCode
    rw [if_pos (show c ≠ FC.described from hc)]
    rfl

end

theorem small_of_list {α : Type} [Encode α] [DecodeF α] [ListType α] (v : α)
    (h : (enc v).length < 2 ^ 32) :
    sizeFields (ListType.fields α) (ListType.toT v) + 4 < 2 ^ 32 := by
  have := (listLawfulEnc (α := α)).size_eq v
  rw [ListType.size_eq'] at this
  unfold listSize at this
  split at this <;> omega

/-! ### Unions -/

theorem Descriptor.is_sym {c : UInt64} {n : String} {d : Descriptor} :
    d.Is c n ↔ d = .ulong c ∨ d = .sym n := Iff.rfl

theorem union_decode {U : Type} [DecodeF U] {disp : Env → Descriptor → Dec U}
    (hU : ∀ env fmt, decF (α := U) env fmt = validateCode fmt FC.described
      (decode Descriptor env >>= disp env)) {env : Env} {u p : Bytes} {d : Descriptor}
    (hd : Means env u d) : decode U env (0x00 :: (u ++ p)) = disp env d p := by
  show decF env FC.described (u ++ p) = _
  rw [hU, validateCode_self, Dec.bind_ok (hd p)]

theorem union_alternative {U α : Type} [Encode α] [DecodeF α] [ListType α]
    {dec : Env → Dec U} {disp : Env → Descriptor → Dec U}
    (hdec : ∀ env u p d, Means env u d → dec env (0x00 :: (u ++ p)) = disp env d p)
    (mk : α → U)
    (h1 : ∀ env, disp env (.ulong (ListType.code α)) = mk <$> ListType.inner env)
    (h2 : ∀ env, disp env (.sym (ListType.name α)) = mk <$> ListType.inner env) :
    Alternative dec (decode α) mk (ListType.code α) (ListType.name α) := by
  intro env u p d hu hd
  have h3 : disp env d = mk <$> ListType.inner env := by
    rcases hd with rfl | rfl
    · exact h1 env
    · exact h2 env
  rw [hdec env u p d hu, decode_described hu, if_pos (Descriptor.selects_iff.2 hd), h3, run_map]
  cases ListType.inner (α := α) env p <;> rfl

theorem union_restricted {U α : Type} [DecodeF α] {dec : Env → Dec U}
    {disp : Env → Descriptor → Dec U}
    (hdec : ∀ env u p d, Means env u d → dec env (0x00 :: (u ++ p)) = disp env d p)
    (mk : α → U) {code : UInt64} {name : String}
    (h1 : ∀ env, disp env (.ulong code) = mk <$> decode α env)
    (h2 : ∀ env, disp env (.sym name) = mk <$> decode α env) :
    AlternativeOf dec (decode α) mk code name := by
  intro env u p d hu hd
  have h3 : disp env d = mk <$> decode α env := by
    rcases hd with rfl | rfl
    · exact h1 env
    · exact h2 env
  rw [hdec env u p d hu, h3, run_map]
  cases decode α env p <;> rfl

theorem roundTrips_member {U α : Type} [Encode U] [DecodeF U] [Encode α] [DecodeF α] [ListType α]
    {mk : α → U} {c : UInt64} {n : String} (ha : Alternative (decode U) (decode α) mk c n)
    (hc : c = ListType.code α) {env : Env} (v : α) (h : RoundTrips env v)
    (he : enc (mk v) = enc v) : RoundTrips env (mk v) := by
  subst hc
  intro rest
  have e : ∃ p, enc v = 0x00 :: ([0x53, (ListType.code α).toUInt8] ++ p) := by
    rw [ListType.enc_eq', listHdr, enc_ulong_small (ListType.code_pos (α := α)) ListType.code_lt]
    exact ⟨_, rfl⟩
  obtain ⟨p, hp⟩ := e
  have h1 := ha env [0x53, (ListType.code α).toUInt8] (p ++ rest) _
    (reads_small_descriptor env (ListType.code_lt (α := α))) (.inl rfl)
  have h2 := h rest
  rw [he]
  rw [hp] at h2 ⊢
  simp only [List.cons_append, List.nil_append] at h1 h2 ⊢
  rw [h1, h2]

theorem roundTrips_restricted {U α : Type} [Encode U] [DecodeF U] [Encode α] [DecodeF α]
    {mk : α → U} {c : UInt64} {n : String} (ha : AlternativeOf (decode U) (decode α) mk c n)
    (hc : 0 < c.toNat ∧ c.toNat < 256) {env : Env} (v : α) (h : RoundTrips env v)
    (he : enc (mk v) = enc (Descriptor.ulong c) ++ enc v) : RoundTrips env (mk v) := by
  intro rest
  have h1 := ha env [0x53, c.toUInt8] (enc v ++ rest) _ (reads_small_descriptor env hc.2) (.inl rfl)
  rw [he, enc_ulong_small hc.1 hc.2]
  simp only [List.cons_append, List.nil_append, List.append_assoc, h rest] at h1 ⊢
  exact h1

theorem noOther {U : Type} [DecodeF U] {disp : Env → Descriptor → Dec U}
    (hU : ∀ env fmt, decF (α := U) env fmt = validateCode fmt FC.described
      (decode Descriptor env >>= disp env)) {table : List (UInt64 × String)}
    (hd : ∀ env d, (∀ e ∈ table, ¬ d.Is e.1 e.2) → disp env d = Dec.fail (.invalidDescriptor d)) :
    NoOther (decode U) table where
  reject env u p d hu h := by rw [union_decode hU hu, hd env d h]; rfl
  other env c p hc := by
    show decF env c p = _
    rw [hU]
    unfold validateCode
    rw [if_pos (show c ≠ FC.described from hc)]
    rfl

theorem frame_described (env : Env) (u p : Bytes) (d : Descriptor) (hd : Means env u d) :
    Frame.decode env (0x00 :: (u ++ p)) = Frame.dispatch env d p := by
  show (validateCode FC.described FC.described
    (Amqp.decode Descriptor env >>= Frame.dispatch env)) (u ++ p) = _
  rw [validateCode_self, Dec.bind_ok (hd p)]

theorem frame_other (env : Env) (c : UInt8) (p : Bytes) (hc : c ≠ 0x00) :
    Frame.decode env (c :: p) = .err (.invalidFormatCode c) := by
  show (validateCode c FC.described (Amqp.decode Descriptor env >>= Frame.dispatch env)) p = _
  unfold validateCode
  rw [if_pos (show c ≠ FC.described from hc)]
  rfl

theorem transfer_described {env : Env} {u p : Bytes} {d : Descriptor} (hd : Means env u d) :
    decode Transfer env (0x00 :: (u ++ p)) =
      if d.selects 20 "amqp:transfer:list" then Transfer.decInner env p
      else .err (.invalidDescriptor d) := by
  show describedAs env FC.described 20 "amqp:transfer:list" (Transfer.decInner env) (u ++ p) = _
  rw [describedAs_eq, validateCode_self, Dec.bind_ok (hd p)]
  cases d.selects 20 "amqp:transfer:list" <;> rfl

theorem frame_transfer : Alternative Frame.decode (decode Transfer) Frame.Transfer 20
    "amqp:transfer:list" := by
  intro env u p d hu hd
  have h3 : Frame.dispatch env d = Frame.Transfer <$> Transfer.decInner env := by
    rcases hd with rfl | rfl <;> rfl
  rw [frame_described env u p d hu, transfer_described hu,
    if_pos (Descriptor.selects_iff.2 hd), h3, run_map]
  cases Transfer.decInner env p <;> rfl

/-! ### Enumerations -/

theorem enumerates {E β : Type} [Encode E] [DecodeF E] [Encode β] [DecodeF β] [EnumType E β]
    {name : String} {value : E → β} (hrt : ∀ (env : Env) (e : E), RoundTrips env e)
    (hv : ∀ e, value e = EnumType.base e)
    (hu : ∀ b, (∀ e : E, EnumType.tryFrom b ≠ .ok e) →
      EnumType.tryFrom (E := E) b = .err (.unknownEnumOption name)) : Enumerates E β name value where
  written e := by rw [hv, EnumType.enc_eq]
  roundTrips := hrt
  member env u e h rest := by
    rw [decode_enum, Dec.bind_ok (h rest)]
    simp only [hv, EnumType.tryFrom_base]
    rfl
  unknown env u rest b h hb := by
    rw [decode_enum, Dec.bind_ok (h rest)]
    simp only [hu b (fun e he => hb e (by rw [hv]; exact (EnumType.base_of b e he).symm))]
    rfl
  malformed env input e h := by rw [decode_enum, Dec.bind_err h]

theorem ite_ok_or {α : Type} {c : Prop} [Decidable c] {x : α} {y : Res ParseError α}
    {r : Res ParseError α} (h : (∀ e, (if c then .ok x else y) ≠ .ok e))
    (hy : (∀ e, y ≠ .ok e) → y = r) : (if c then .ok x else y) = r := by
  split
  · rename_i hc; exact absurd (if_pos hc) (h x)
  · rename_i hc; exact hy (fun e he => h e (by rw [if_neg hc]; exact he))

end Amqp
