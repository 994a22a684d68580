import Verif.Spec.Generated
import Verif.Proofs.FrameLaws
/-!
# Laws of generated list types, enumerations and unions, for every specification
-/
set_option autoImplicit false
namespace Amqp.Codegen
open Dec Encode

/-! ## Descriptors -/

theorem reads_code (env : Env) {c : UInt64} (h : c ≠ 0) :
    Reads (decode Descriptor env) (enc c) (.ulong c) :=
  reads_descriptor env (.ulong c) h

theorem enc_code_length {c : UInt64} :
    (enc c : Bytes).length = if c = 0 then 1 else if c.toNat ≤ 255 then 2 else 9 := by
  simp only [enc]
  by_cases h : c = 0
  · rw [if_pos h, if_pos h]; rfl
  · rw [if_neg h, if_neg h]
    by_cases h2 : c.toNat > 255
    · rw [if_pos h2, if_neg (by omega)]; simp
    · rw [if_neg h2, if_pos (by omega)]; rfl

theorem enc_descriptor_code (c : UInt64) :
    enc (Descriptor.ulong c) = FC.described :: enc c := rfl

/-! ## Fields -/

theorem RustType.RoundTrips.ne_nil {T : RustType} {env : Env} {v : T.carrier}
    (h : T.RoundTrips env v) : T.enc v ≠ [] := by
  intro e
  have := h []
  rw [e] at this
  cases this

theorem RustType.RoundTrips.some {T : RustType} {env : Env} {v : T.carrier}
    (h : T.RoundTrips env v) (hn : T.NotNull v) :
    Reads (decode (Option T.carrier) env) (T.enc v) (some v) := by
  intro more
  have h1 := h more
  unfold RustType.NotNull at hn
  cases e : T.enc v with
  | nil => exact absurd e h.ne_nil
  | cons c w =>
    rw [e] at h1 hn
    have hc : c ≠ FC.null := by simpa using hn
    have h2 : T.decF env c (w ++ more) = .ok (more, v) := h1
    show DecodeF.decF (α := Option T.carrier) env c (w ++ more) = _
    simp only [DecodeF.decF, if_neg hc]
    exact map_ok h2

namespace TField

theorem enc_ne_nil {env : Env} {f : TField} {v : f.Value} (h : f.Good env v) : f.enc v ≠ [] := by
  cases f with
  | optional ty =>
    cases v with
    | none => exact List.cons_ne_nil _ _
    | some x => exact (h x rfl).1.ne_nil
  | mandatory n ty => exact RustType.RoundTrips.ne_nil h
  | default ty d => exact h.1.ne_nil

theorem size_eq {f : TField} {v : f.Value} (h : f.Sized v) : f.size v = (f.enc v).length := by
  cases f with
  | optional ty =>
    cases v with
    | none => rfl
    | some x => exact h x rfl
  | mandatory n ty => exact h
  | default ty d => exact h

theorem dec_ok {env : Env} {f : TField} {v : f.Value} (h : f.Good env v) (n : Nat) (w : Bytes) :
    f.dec env (n + 1, f.enc v ++ w) = .ok ((n, w), v) := by
  cases f with
  | optional ty =>
    cases v with
    | none => rfl
    | some x =>
      have := (h x rfl).1.some (h x rfl).2 w
      show present _ n (ty.enc x ++ w) = _
      rw [present, this]
      rfl
  | mandatory m ty =>
    show present _ n (ty.enc v ++ w) = _
    rw [present, h w]
    rfl
  | default ty d =>
    have := (h.1.some h.2).map (fun o : Option ty.carrier => o.getD d) w
    show present _ n (ty.enc v ++ w) = _
    rw [present, this]
    rfl

end TField

theorem contentSize_eq : ∀ {fs : List TField} {v : Struct fs}, StructSized fs v →
    contentSize fs v = (contentEnc fs v).length
  | [], _, _ => rfl
  | f :: t, v, h => by
    simp only [contentSize, contentEnc, List.length_append, f.size_eq h.1, contentSize_eq h.2]

theorem length_le_contentEnc {env : Env} : ∀ {fs : List TField} {v : Struct fs},
    StructGood env fs v → fs.length ≤ (contentEnc fs v).length
  | [], _, _ => Nat.le_refl _
  | f :: t, v, h => by
    have h1 := length_le_contentEnc h.2
    have h2 := List.length_pos_iff.2 (f.enc_ne_nil h.1)
    simp only [contentEnc, List.length_cons, List.length_append]
    omega

theorem decFields_ok {env : Env} : ∀ {fs : List TField} {v : Struct fs}, StructGood env fs v →
    ∀ (n : Nat) (w : Bytes),
      decFields env fs (fs.length + n, contentEnc fs v ++ w) = .ok ((n, w), v)
  | [], (), _, n, w => by
    show Res.ok _ = _
    simp [contentEnc]
  | f :: t, (a, r), h, n, w => by
    have h1 := f.dec_ok h.1 (t.length + n) (contentEnc t r ++ w)
    have h2 := decFields_ok h.2 n w
    have e : (f :: t).length + n = t.length + n + 1 := by simp; omega
    simp only [decFields, contentEnc, List.append_assoc, e, FieldDec.run_bind, h1, h2]
    rfl

/-! ## Lists -/

namespace TList
variable {L : TList}

theorem decInner_ok {env : Env} {v : Struct L.fields} (h : L.Good env v) :
    Reads (L.decInner env) (compoundHdr FC.list8 FC.list32 (contentSize L.fields v)
      L.fields.length ++ contentEnc L.fields v) v := by
  obtain ⟨hg, hs, hl⟩ := h
  rw [contentSize_eq hs]
  have := decFields_ok hg 0 []
  rw [List.append_nil] at this
  exact reads_listInner (listHdrWire hl (length_le_contentEnc hg)) this

theorem enc_eq (v : Struct L.fields) : L.enc v = FC.described :: (Amqp.enc L.code ++
    (compoundHdr FC.list8 FC.list32 (contentSize L.fields v) L.fields.length ++
      contentEnc L.fields v)) := by
  simp only [TList.enc, listHdr, enc_descriptor_code, List.cons_append, List.append_assoc]

theorem round_trip (hc : L.code ≠ 0) {env : Env} {v : Struct L.fields} (h : L.Good env v) :
    L.type.RoundTrips env v := by
  intro more
  show Amqp.decode _ env (L.enc v ++ more) = _
  rw [enc_eq]
  have := reads_describedAs (code := L.code) (name := L.name) (reads_code env hc)
    (by simp [Descriptor.selects]) (decInner_ok h) more
  exact this

theorem enc_length (v : Struct L.fields) : (L.enc v).length + contentSize L.fields v =
    1 + (Amqp.enc L.code : Bytes).length + compoundSize (contentSize L.fields v) +
      (contentEnc L.fields v).length := by
  rw [enc_eq, ← compoundHdr_length FC.list8 FC.list32 _ L.fields.length]
  simp only [List.length_cons, List.length_append]
  omega

theorem size_iff {v : Struct L.fields} (h : StructSized L.fields v) :
    L.size v = (L.enc v).length ↔ 1 ≤ L.code.toNat ∧ L.code.toNat ≤ 255 := by
  have h1 := L.enc_length v
  have h2 : L.size v = compoundSize (contentSize L.fields v) + 3 := by
    simp only [TList.size, listSize, compoundSize]; split <;> omega
  rw [← contentSize_eq h, enc_code_length] at h1
  have h3 : L.code = 0 ↔ L.code.toNat = 0 := by
    rw [← UInt64.toNat_inj]; rfl
  rw [h2]
  by_cases hc : L.code = 0
  · rw [if_pos hc] at h1
    have := h3.1 hc
    omega
  · rw [if_neg hc] at h1
    have := mt h3.2 hc
    by_cases h5 : L.code.toNat ≤ 255
    · rw [if_pos h5] at h1; omega
    · rw [if_neg h5] at h1; omega

theorem notNull (v : Struct L.fields) : L.type.NotNull v := by
  show (L.enc v).head? ≠ _
  rw [enc_eq]
  simp only [List.head?_cons]
  decide

end TList

/-- Code 0 is written as `ulong0`, which no descriptor is read from. -/
theorem code_zero_unreadable (env : Env) (w : Bytes) :
    decode Descriptor env (enc (0 : UInt64) ++ w) = .err (.invalidFormatCode FC.ulong0) := rfl

theorem TList.code_zero {L : TList} (hc : L.code = 0) (env : Env) (v : Struct L.fields)
    (more : Bytes) :
    decode L.type.carrier env (L.type.enc v ++ more) = .err (.invalidFormatCode FC.ulong0) := by
  show decode _ env (L.enc v ++ more) = _
  rw [enc_eq, hc]
  rfl

/-! ## Transfers -/

theorem TList.decBodyInner_ok {L : TList} {env : Env} {v : Struct L.fields} {w : Bytes}
    (h : Reads (L.decInner env) w v) (more : Bytes) :
    L.decBodyInner env (w ++ more) = .ok ([], (v, if more = [] then none
      else some (.Data ⟨more⟩))) := by
  refine bind_eq_ok.2 ⟨more, v, h more, ?_⟩
  cases more with
  | nil => rfl
  | cons b t => rfl

theorem TList.body_decode {L : TList} (hc : L.code ≠ 0) {env : Env} {v : Struct L.fields}
    (h : L.Good env v) (more : Bytes) :
    L.decBodyF env FC.described ((L.enc v).tail ++ more) =
      .ok ([], (v, if more = [] then none else some (.Data ⟨more⟩))) := by
  rw [enc_eq]
  simp only [List.tail_cons, List.append_assoc]
  rw [TList.decBodyF, describedAs_eq, validateCode_self]
  refine bind_eq_ok.2 ⟨_, _, reads_code env hc _, ?_⟩
  have := TList.decBodyInner_ok (decInner_ok h) more
  rw [List.append_assoc] at this
  simpa [Descriptor.selects] using this

/-! ## Enumerations -/

section
variable {β : Type} [DecidableEq β]

theorem TEnum.tryFrom_value (e : TEnum β) (hd : e.values.Nodup) (i : Fin e.values.length) :
    e.tryFrom (e.values[i]) = .ok i := by
  have : e.values.finIdxOf? (e.values[i]) = some i := by
    rw [List.finIdxOf?_eq_some_iff]
    refine ⟨rfl, fun j hj he => ?_⟩
    have := (List.nodup_iff_pairwise_ne.1 hd)
    rw [List.pairwise_iff_getElem] at this
    exact this j.1 i.1 j.2 i.2 hj he
  simp only [TEnum.tryFrom, this]

theorem TEnum.tryFrom_iff (e : TEnum β) (hd : e.values.Nodup) (b : β) (i : Fin e.values.length) :
    e.tryFrom b = .ok i ↔ b = e.values[i] := by
  constructor
  · intro h
    unfold TEnum.tryFrom at h
    split at h
    · rename_i j hj
      injection h with h; subst h
      rw [List.finIdxOf?_eq_some_iff] at hj
      exact hj.1.symm
    · cases h
  · rintro rfl; exact e.tryFrom_value hd i

theorem TEnum.tryFrom_none (e : TEnum β) (b : β) (h : b ∉ e.values) :
    e.tryFrom b = .err (.unknownEnumOption e.name) := by
  have : e.values.finIdxOf? b = none := by
    rw [List.finIdxOf?_eq_none_iff]; exact h
  simp only [TEnum.tryFrom, this]

end

theorem decodeEnum_ok {β E : Type} [DecodeF β] {tf : β → Res ParseError E} {env : Env} {c : UInt8} {w r : Bytes}
    {b : β} {e : E} (h : DecodeF.decF env c w = .ok (r, b)) (ht : tf b = .ok e) :
    decodeEnum tf env c w = .ok (r, e) := by
  refine bind_eq_ok.2 ⟨r, b, h, ?_⟩
  rw [ht]; rfl

theorem TEnum.round_trip {β : Type} [DecidableEq β] [Encode β] [DecodeF β] (e : TEnum β) (hd : e.values.Nodup) {env : Env}
    (i : Fin e.values.length)
    (h : ∀ more, decode β env (Encode.enc (e.values[i]) ++ more) = .ok (more, e.values[i]))
    (c : UInt8) (w : Bytes) (he : Encode.enc (e.values[i]) = c :: w) (more : Bytes) :
    e.decF env c (w ++ more) = .ok (more, i) := by
  have h1 := h more
  rw [he] at h1
  exact decodeEnum_ok h1 (e.tryFrom_value hd i)

/-! ## Unions -/

theorem Union.at_mem : ∀ {os : List TOption} (u : Union os), u.at.1 ∈ os
  | _ :: _, .inl _ => List.mem_cons_self
  | _ :: _, .inr u => List.mem_cons_of_mem _ (Union.at_mem u)

theorem unionSize_eq : ∀ {os : List TOption} (u : Union os), unionSize os u = u.at.1.innerSize u.at.2
  | _ :: _, .inl _ => rfl
  | _ :: _, .inr u => unionSize_eq u

theorem unionEnc_eq : ∀ {os : List TOption} (u : Union os), unionEnc os u = u.at.1.innerEnc u.at.2
  | _ :: _, .inl _ => rfl
  | _ :: _, .inr u => unionEnc_eq u

theorem map_ok' {α β : Type} {d : Dec α} {f : α → β} {i r : Bytes} {a : α}
    (h : d i = .ok (r, a)) : (f <$> d) i = .ok (r, f a) := map_eq_ok.2 ⟨a, h, rfl⟩

/-- What the first arms do with the code of the option a value lies in, when no option before
has the same code. -/
theorem byCode_at {env : Env} : ∀ {os : List TOption} (_ : (os.map TOption.code).Nodup)
    (u : Union os) {w more : Bytes} (_ : u.at.1.decInner env w = .ok (more, u.at.2)),
    ∃ d, byCode env (.ulong u.at.1.code) os = some d ∧ d w = .ok (more, u)
  | o :: t, hd, .inl v, w, more, h =>
    ⟨_, if_pos rfl, map_ok' h⟩
  | o :: t, hd, .inr u, w, more, h => by
    rw [List.map_cons, List.nodup_cons] at hd
    obtain ⟨d, h1, h2⟩ := byCode_at hd.2 u h
    refine ⟨_, ?_, map_ok' h2⟩
    have : ¬ (Descriptor.ulong (Union.at u).1.code = Descriptor.ulong o.code) := by
      intro e
      injection e with e
      exact hd.1 (e ▸ List.mem_map_of_mem (Union.at_mem u))
    show (if Descriptor.ulong (Union.at u).1.code = _ then _ else _) = _
    rw [if_neg this]
    exact congrArg (Option.map fun x => Sum.inr <$> x) h1

theorem TList.option_good {L : TList} {env : Env} {v : Struct L.fields} (h : L.Good env v) :
    L.option.Good env v := by
  refine ⟨_, ?_, decInner_ok h⟩
  show L.enc v = _
  simp only [TList.enc, listHdr, List.append_assoc]
  rfl

theorem TOption.restricted_good {ty : RustType} {code : UInt64} {name : String} {env : Env}
    {v : ty.carrier} (h : ty.RoundTrips env v) : (TOption.restricted ty code name).Good env v :=
  ⟨ty.enc v, rfl, h⟩

theorem union_round_trip {os : List TOption} (hd : (os.map TOption.code).Nodup) {env : Env}
    (u : Union os) (hc : u.at.1.code ≠ 0) (hg : u.at.1.Good env u.at.2) :
    ∃ w, unionEnc os u = FC.described :: w ∧
      ∀ more, unionDecF os env FC.described (w ++ more) = .ok (more, u) := by
  obtain ⟨w, h1, h2⟩ := hg
  refine ⟨Encode.enc u.at.1.code ++ w, ?_, fun more => ?_⟩
  · rw [unionEnc_eq, h1, enc_descriptor_code]; rfl
  · rw [unionDecF, validateCode_self, List.append_assoc]
    refine bind_eq_ok.2 ⟨_, _, reads_code env hc _, ?_⟩
    obtain ⟨d, h3, h4⟩ := byCode_at hd u (h2 more)
    simp only [dispatch, h3]
    exact h4

/-- The first of two options with the same code takes what was written for the second. -/
theorem byCode_first {env : Env} {o : TOption} {t : List TOption} :
    byCode env (.ulong o.code) (o :: t) = some (Sum.inl <$> o.decInner env) := if_pos rfl

end Amqp.Codegen
