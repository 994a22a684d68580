import Verif.Spec.Extended
import Verif.Proofs.CodegenLaws
/-!
# Lemmas about versions of a specification
-/
set_option autoImplicit false
namespace Amqp.Codegen
open Dec Encode

/-- The added fields of a value. -/
def Struct.rest : {fs gs : List TField} → Struct (fs ++ gs) → Struct gs
  | [], _, v => v
  | _ :: t, _, v => Struct.rest (fs := t) v.2

theorem contentEnc_known : ∀ {fs gs : List TField} (v : Struct (fs ++ gs)),
    contentEnc (fs ++ gs) v = contentEnc fs v.known ++ contentEnc gs v.rest
  | [], _, _ => rfl
  | f :: t, gs, v => by
    show f.enc v.1 ++ contentEnc (t ++ gs) v.2 = f.enc v.1 ++ contentEnc t _ ++ _
    rw [contentEnc_known (fs := t) (gs := gs) v.2, List.append_assoc]
    rfl

theorem structGood_known {env : Env} : ∀ {fs gs : List TField} {v : Struct (fs ++ gs)},
    StructGood env (fs ++ gs) v → StructGood env fs v.known
  | [], _, _, _ => trivial
  | _ :: t, gs, _, h => ⟨h.1, structGood_known (fs := t) (gs := gs) h.2⟩

theorem decFields_append (env : Env) : ∀ (fs gs : List TField) (s : Nat × Bytes),
    decFields env (fs ++ gs) s = match decFields env fs s with
      | .ok (t, a) => match decFields env gs t with
        | .ok (u, b) => .ok (u, Struct.plus a b)
        | .err e => .err e
        | .panic p => .panic p
      | .err e => .err e
      | .panic p => .panic p
  | [], gs, s => by
    show decFields env gs s = match decFields env gs s with
        | .ok (u, b) => .ok (u, b)
        | .err e => .err e
        | .panic p => .panic p
    cases decFields env gs s <;> rfl
  | f :: t, gs, s => by
    show decFields env (f :: (t ++ gs)) s = _
    simp only [decFields, FieldDec.run_bind]
    cases f.dec env s with
    | err e => rfl
    | panic p => rfl
    | ok x =>
      obtain ⟨s1, a⟩ := x
      simp only [decFields_append env t gs s1]
      cases decFields env t s1 with
      | err e => rfl
      | panic p => rfl
      | ok y =>
        obtain ⟨s2, b⟩ := y
        dsimp only
        change _ = match decFields env gs s2 with
          | .ok (u, r) => Res.ok (u, Struct.plus (fs := f :: t) (a, b) r)
          | .err e => Res.err e
          | .panic p => Res.panic p
        cases decFields env gs s2 <;> rfl

theorem dec_leftOut (env : Env) (f : TField) (w : Bytes) : f.dec env (0, w) =
    match f.leftOut with
    | .ok a => .ok ((0, w), a)
    | .error n => .err (.requiredFieldOmitted n) := by
  cases f <;> rfl

theorem decFields_leftOut (env : Env) : ∀ (fs : List TField) (w : Bytes),
    decFields env fs (0, w) = match leftOut fs with
    | .ok a => .ok ((0, w), a)
    | .error n => .err (.requiredFieldOmitted n)
  | [], _ => rfl
  | f :: t, w => by
    simp only [decFields, FieldDec.run_bind, dec_leftOut, leftOut]
    cases f.leftOut with
    | error n => rfl
    | ok a =>
      simp only [decFields_leftOut env t w]
      cases leftOut t <;> rfl

/-- What the fields refuse, the list refuses. -/
theorem listInner_err {α : Type} {env : Env} {fields : FieldDec α} {h w : Bytes} {count : Nat}
    {x : ParseError} (hw : ListHeaderWire h w.length count)
    (hf : fields (count, w) = .err x) (more : Bytes) :
    listInner env fields (h ++ w ++ more) = .err x := by
  have e : listInner env fields = (formatCode >>= decodeListHeader env) >>= fun header =>
      takeN header.size >>= fun body => match fields (header.count, body) with
        | .ok (_, a) => pure a
        | .err e => Dec.fail e
        | .panic p => Dec.abort p := by
    simp only [listInner, bind_assoc]
    rfl
  rw [e, List.append_assoc, run_bind, hw.reads env]
  show (takeN w.length >>= _) (w ++ more) = _
  rw [run_bind, Reads.takeN w rfl more]
  simp only [hf]
  rfl

namespace TList
variable {L : TList}

theorem decode_enc {M : TList} (hc : L.code ≠ 0) (hm : M.code = L.code) (env : Env)
    (v : Struct M.fields) (more : Bytes) :
    decode L.type.carrier env (M.type.enc v ++ more) = L.decInner env
      (compoundHdr FC.list8 FC.list32 (contentSize M.fields v) M.fields.length ++
        contentEnc M.fields v ++ more) := by
  show decode _ env (M.enc v ++ more) = _
  rw [enc_eq]
  show L.decF env FC.described (Amqp.enc M.code ++ _ ++ more) = _
  rw [TList.decF, describedAs_eq, validateCode_self, List.append_assoc, run_bind, hm,
    reads_code env hc _]
  simp only [Descriptor.selects, beq_self_eq_true, Bool.not_true]
  rfl

/-- What a newer version writes, read by an older one. -/
theorem known_ok {env : Env} {gs : List TField} {name : String}
    {v : Struct (L.fields ++ gs)} (h : (L.extend name gs).Good env v) :
    Reads (L.decInner env) (compoundHdr FC.list8 FC.list32 (contentSize (L.fields ++ gs) v)
      (L.fields ++ gs).length ++ contentEnc (L.fields ++ gs) v) v.known := by
  obtain ⟨hg, hs, hl⟩ := h
  have hg' : StructGood env (L.fields ++ gs) v := hg
  have hs' : StructSized (L.fields ++ gs) v := hs
  have hl' : (contentEnc (L.fields ++ gs) v).length + 4 < 2 ^ 32 := hl
  rw [contentSize_eq hs']
  have := decFields_ok (structGood_known hg') gs.length (contentEnc gs v.rest)
  rw [← contentEnc_known, ← List.length_append] at this
  exact reads_listInner (listHdrWire hl' (length_le_contentEnc hg')) this

/-- What an older version writes, read by a newer one. -/
theorem plus_ok {env : Env} {gs : List TField} {name : String} {v : Struct L.fields}
    (h : L.Good env v) {a : Struct gs} (ha : leftOut gs = .ok a) :
    Reads ((L.extend name gs).decInner env) (compoundHdr FC.list8 FC.list32
      (contentSize L.fields v) L.fields.length ++ contentEnc L.fields v) (v.plus a) := by
  obtain ⟨hg, hs, hl⟩ := h
  rw [contentSize_eq hs]
  have h1 := decFields_ok hg 0 []
  rw [List.append_nil] at h1
  have h2 : decFields env (L.fields ++ gs) (L.fields.length, contentEnc L.fields v) =
      .ok ((0, []), v.plus a) := by
    rw [decFields_append, show L.fields.length = L.fields.length + 0 from rfl, h1]
    simp only [decFields_leftOut, ha]
  exact reads_listInner (listHdrWire hl (length_le_contentEnc hg)) h2

theorem plus_err {env : Env} {gs : List TField} {name : String} {v : Struct L.fields}
    (h : L.Good env v) {n : String} (ha : leftOut gs = .error n) (more : Bytes) :
    (L.extend name gs).decInner env (compoundHdr FC.list8 FC.list32
      (contentSize L.fields v) L.fields.length ++ contentEnc L.fields v ++ more) =
      .err (.requiredFieldOmitted n) := by
  obtain ⟨hg, hs, hl⟩ := h
  rw [contentSize_eq hs]
  have h1 := decFields_ok hg 0 []
  rw [List.append_nil] at h1
  have h2 : decFields env (L.fields ++ gs) (L.fields.length, contentEnc L.fields v) =
      .err (.requiredFieldOmitted n) := by
    rw [decFields_append, show L.fields.length = L.fields.length + 0 from rfl, h1]
    simp only [decFields_leftOut, ha]
  exact listInner_err (listHdrWire hl (length_le_contentEnc hg)) h2 more

end TList

universe u₁ u₂

theorem mapM_append_some {α : Type u₁} {β : Type u₂} {f : α → Option β} : ∀ {l m : List α} {r s : List β},
    l.mapM f = some r → (l ++ m).mapM f = some s → ∃ t, m.mapM f = some t ∧ s = r ++ t
  | [], m, r, s, h, hs => by
    simp only [List.mapM_nil] at h
    injection h with h; subst h
    exact ⟨s, hs, rfl⟩
  | a :: l, m, r, s, h, hs => by
    simp only [List.cons_append, List.mapM_cons] at h hs
    cases ha : f a with
    | none => rw [ha] at h; cases h
    | some b =>
      rw [ha] at h hs
      cases hl : l.mapM f with
      | none => rw [hl] at h; cases h
      | some r' =>
        cases hm : (l ++ m).mapM f with
        | none => rw [hm] at hs; cases hs
        | some s' =>
          rw [hl] at h; rw [hm] at hs
          cases h; cases hs
          obtain ⟨t, h1, h2⟩ := mapM_append_some hl hm
          exact ⟨t, h1, by rw [h2]; rfl⟩

/-! ## Enumerations -/

theorem decodeEnum_err {β E : Type} [DecodeF β] {tf : β → Res ParseError E} {env : Env}
    {c : UInt8} {w r : Bytes} {b : β} {x : ParseError} (h : DecodeF.decF env c w = .ok (r, b))
    (ht : tf b = .err x) : decodeEnum tf env c w = .err x := by
  unfold decodeEnum
  rw [run_bind, h]
  simp only [ht]
  rfl

theorem TEnum.tryFrom_at {β : Type} [DecidableEq β] (e : TEnum β) (hd : e.values.Nodup) {b : β}
    {i : Nat} (h : e.values[i]? = some b) :
    ∃ j : Fin e.values.length, j.1 = i ∧ e.tryFrom b = .ok j := by
  obtain ⟨hi, hb⟩ := List.getElem?_eq_some_iff.1 h
  refine ⟨⟨i, hi⟩, rfl, ?_⟩
  rw [← hb]
  exact e.tryFrom_value hd ⟨i, hi⟩

section
variable {β : Type} [DecidableEq β] [Encode β] [DecodeF β] (t : TEnum β) {u : TEnum β}
  {vs : List β}

theorem TEnum.extended_old (hv : u.values = t.values ++ vs) (hd : u.values.Nodup) {env : Env}
    {i : Fin t.values.length} {c : UInt8} {w : Bytes}
    (hr : ∀ more, decode β env (Encode.enc (t.values[i]) ++ more) = .ok (more, t.values[i]))
    (hw : Encode.enc (t.values[i]) = c :: w) (more : Bytes) :
    ∃ k : Fin u.values.length, k.1 = i.1 ∧ u.decF env c (w ++ more) = .ok (more, k) := by
  have h1 := hr more
  rw [hw] at h1
  obtain ⟨k, hk, hk'⟩ := u.tryFrom_at hd (b := t.values[i]) (i := i.1) (by
    rw [hv, List.getElem?_append_left i.2]
    exact List.getElem?_eq_getElem i.2)
  exact ⟨k, hk, decodeEnum_ok h1 hk'⟩

theorem TEnum.extended_new (hv : u.values = t.values ++ vs) (hd : u.values.Nodup) {env : Env}
    {k : Fin u.values.length} {c : UInt8} {w : Bytes}
    (hr : ∀ more, decode β env (Encode.enc (u.values[k]) ++ more) = .ok (more, u.values[k]))
    (hw : Encode.enc (u.values[k]) = c :: w) (more : Bytes) :
    if h : k.1 < t.values.length then t.decF env c (w ++ more) = .ok (more, ⟨k.1, h⟩)
    else t.decF env c (w ++ more) = .err (.unknownEnumOption t.name) := by
  have h1 := hr more
  rw [hw] at h1
  have hk : (t.values ++ vs)[k.1]? = some (u.values[k]) := by
    rw [← hv]; exact List.getElem?_eq_getElem k.2
  have hd' := hd
  rw [hv, List.nodup_append] at hd'
  by_cases h : k.1 < t.values.length
  · rw [dif_pos h]
    rw [List.getElem?_append_left h] at hk
    obtain ⟨j, hj, hj'⟩ := t.tryFrom_at hd'.1 hk
    have : j = ⟨k.1, h⟩ := Fin.ext hj
    exact decodeEnum_ok h1 (this ▸ hj')
  · rw [dif_neg h]
    rw [List.getElem?_append_right (by omega)] at hk
    exact decodeEnum_err h1 (t.tryFrom_none _ fun hm =>
      hd'.2.2 _ hm _ (List.mem_of_getElem? hk) rfl)

end

/-! ## Unions -/

theorem Union.at_added : ∀ {os ps : List TOption} (u : Union ps),
    (u.added : Union (os ++ ps)).at = u.at
  | [], _, _ => rfl
  | _ :: t, ps, u => Union.at_added (os := t) (ps := ps) u

theorem Union.at_widen : ∀ {os ps : List TOption} (u : Union os),
    (u.widen : Union (os ++ ps)).at = u.at
  | _ :: _, _, .inl _ => rfl
  | _ :: t, ps, .inr u => Union.at_widen (os := t) (ps := ps) u

theorem unionEnc_widen {os ps : List TOption} (u : Union os) :
    unionEnc (os ++ ps) u.widen = unionEnc os u := by
  rw [unionEnc_eq, unionEnc_eq, Union.at_widen]

theorem byCode_none {env : Env} {c : UInt64} : ∀ {os : List TOption},
    c ∉ os.map TOption.code → byCode env (.ulong c) os = none
  | [], _ => rfl
  | o :: t, h => by
    rw [List.map_cons, List.mem_cons, not_or] at h
    have : ¬ (Descriptor.ulong c = .ulong o.code) := fun e => h.1 (by injection e)
    simp only [byCode, if_neg this, byCode_none h.2, Option.map_none]

theorem byName_code {env : Env} {c : UInt64} : ∀ {os : List TOption},
    byName env (.ulong c) os = none
  | [] => rfl
  | o :: t => by
    have : ¬ (Descriptor.ulong c = .sym o.name) := by intro e; cases e
    simp only [byName, if_neg this, byName_code, Option.map_none]

theorem dispatch_unknown {env : Env} {c : UInt64} {os : List TOption}
    (h : c ∉ os.map TOption.code) (w : Bytes) :
    dispatch os env (.ulong c) w = .err (.invalidDescriptor (.ulong c)) := by
  simp only [dispatch, byCode_none h, byName_code]
  rfl

end Amqp.Codegen
