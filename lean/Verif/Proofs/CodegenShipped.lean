import Verif.Spec.Generated
import Verif.Proofs.CodegenList
/-!
# Comparing generated code with the model of the shipped code
-/
set_option autoImplicit false
namespace Amqp.Codegen
open Dec Encode

theorem map_fail {α β : Type} (f : α → β) (e : ParseError) :
    f <$> (Dec.fail e : Dec α) = Dec.fail e := rfl

theorem map_describedAs {α β : Type} (f : α → β) (env : Env) (fmt : UInt8) (c : UInt64)
    (n : String) (d : Dec α) :
    f <$> describedAs env fmt c n d = describedAs env fmt c n (f <$> d) := by
  rw [describedAs_eq, describedAs_eq]
  unfold validateCode
  by_cases h : fmt ≠ FC.described
  · rw [if_pos h, if_pos h]; rfl
  · rw [if_neg h, if_neg h, map_bind]
    congr 1
    funext x
    cases x.selects c n <;> rfl

theorem map_listInner {α β : Type} (f : α → β) (env : Env) (g : FieldDec α) :
    f <$> listInner env g = listInner env (f <$> g) := by
  simp only [listInner, map_bind]
  congr 1; funext fmt; congr 1; funext h; congr 1; funext body
  rw [FieldDec.run_map]
  cases g (h.count, body) with
  | ok p => obtain ⟨s, a⟩ := p; rfl
  | err e => rfl
  | panic p => rfl

theorem generates {α : Type} [Encode α] [DecodeF α] [ListType α] {L : TList}
    {to : α → Struct L.fields} (back : Struct L.fields → α) (h1 : ∀ v, back (to v) = v)
    (h2 : ∀ s, to (back s) = s) (hc : ListType.code α = L.code) (hn : ListType.name α = L.name)
    (hd : ∀ env, to <$> (ListType.ofT (α := α) <$> getFields env (ListType.fields α)) =
      decFields env L.fields)
    (hs : ∀ v, sizeFields (ListType.fields α) (ListType.toT v) = contentSize L.fields (to v))
    (hl : (ListType.fields α).length = L.fields.length)
    (he : ∀ v, encFields (ListType.fields α) (ListType.toT v) = contentEnc L.fields (to v)) :
    Generates L to where
  bijective := ⟨back, h1, h2⟩
  decode env fmt := by
    rw [ListType.decF_eq, map_describedAs, ListType.inner_eq, map_listInner, hd, hc, hn]
    rfl
  size v := by rw [ListType.size_eq', hs]; rfl
  enc v := by rw [ListType.enc_eq', hs, he, hc, hl]; rfl

theorem map_map_id {α β : Type} (to : α → β) (of : β → α) (h : ∀ s, to (of s) = s)
    (g : FieldDec β) : to <$> (of <$> g) = g := by
  rw [← comp_map]
  have : to ∘ of = id := funext h
  rw [this, id_map]

theorem generates_inner {α : Type} [Encode α] [DecodeF α] [ListType α] {L : TList}
    {to : α → Struct L.fields}
    (hd : ∀ env, to <$> (ListType.ofT (α := α) <$> getFields env (ListType.fields α)) =
      decFields env L.fields) (env : Env) :
    L.decInner env = to <$> ListType.inner (α := α) env := by
  rw [ListType.inner_eq, map_listInner, hd]
  rfl

/-! ## Enumerations -/

theorem enum_agrees {E β : Type} [DecidableEq β] [Encode E] [DecodeF E] [Encode β] [DecodeF β]
    [EnumType E β] {e : TEnum β} {to : E → Fin e.values.length} (back : Fin e.values.length → E)
    (h2 : ∀ s, to (back s) = s) (hn : e.values.Nodup)
    (hv : ∀ x, e.values[to x] = EnumType.base x)
    (hu : ∀ b, (∀ x : E, EnumType.tryFrom b ≠ .ok x) →
      EnumType.tryFrom (E := E) b = .err (.unknownEnumOption e.name)) (env : Env) (fmt : UInt8) :
    e.decF env fmt = to <$> DecodeF.decF env fmt := by
  rw [EnumType.decF_eq]
  unfold TEnum.decF decodeEnum
  rw [map_bind]
  congr 1
  funext b
  by_cases h : ∃ x : E, EnumType.tryFrom b = .ok x
  · obtain ⟨x, hx⟩ := h
    have hb := EnumType.base_of b x hx
    rw [hx, (e.tryFrom_iff hn b (to x)).2 (by rw [hv]; exact hb)]
    rfl
  · rw [hu b (fun x hx => h ⟨x, hx⟩), e.tryFrom_none b ?_]
    · rfl
    · intro hm
      obtain ⟨i, hi, rfl⟩ := List.getElem_of_mem hm
      refine h ⟨back ⟨i, hi⟩, ?_⟩
      have := hv (back ⟨i, hi⟩)
      simp only [h2] at this
      rw [show e.values[i] = _ from this]
      exact EnumType.tryFrom_base _

/-! ## Unions -/

theorem map_validateCode {α β : Type} (f : α → β) (fmt c : UInt8) (d : Dec α) :
    f <$> validateCode fmt c d = validateCode fmt c (f <$> d) := by
  unfold validateCode
  by_cases h : fmt ≠ c
  · rw [if_pos h, if_pos h]; rfl
  · rw [if_neg h, if_neg h]

theorem union_agrees {U : Type} {os : List TOption} {to : U → Union os}
    {disp : Env → Descriptor → Dec U} (h : ∀ env d, dispatch os env d = to <$> disp env d)
    (env : Env) (fmt : UInt8) :
    unionDecF os env fmt =
      to <$> validateCode fmt FC.described (Amqp.decode Descriptor env >>= disp env) := by
  rw [map_validateCode, map_bind]
  unfold unionDecF
  congr 1
  congr 1
  funext d
  exact h env d

theorem byCode_cons_ne {env : Env} {d : Descriptor} {o : TOption} {t : List TOption}
    (h : ¬ d = .ulong o.code) (ht : byCode env d t = none) : byCode env d (o :: t) = none := by
  simp only [byCode]
  rw [if_neg h, ht]
  rfl

theorem byName_cons_ne {env : Env} {d : Descriptor} {o : TOption} {t : List TOption}
    (h : ¬ d = .sym o.name) (ht : byName env d t = none) : byName env d (o :: t) = none := by
  simp only [byName]
  rw [if_neg h, ht]
  rfl

theorem byCode_here {env : Env} {d : Descriptor} {o : TOption} {t : List TOption}
    (h : d = .ulong o.code) :
    byCode env d (o :: t) = some ((fun a => (.inl a : o.carrier ⊕ Union t)) <$> o.decInner env) := by
  simp only [byCode]
  rw [if_pos h]
  rfl

theorem byName_here {env : Env} {d : Descriptor} {o : TOption} {t : List TOption}
    (h : d = .sym o.name) :
    byName env d (o :: t) = some ((fun a => (.inl a : o.carrier ⊕ Union t)) <$> o.decInner env) := by
  simp only [byName]
  rw [if_pos h]
  rfl

theorem byCode_there {env : Env} {d : Descriptor} {o : TOption} {t : List TOption} {α : Type}
    {inj : α → Union t} {x : Dec α} (h : ¬ d = .ulong o.code)
    (ht : byCode env d t = some (inj <$> x)) :
    byCode env d (o :: t) = some ((fun a => (.inr (inj a) : o.carrier ⊕ Union t)) <$> x) := by
  simp only [byCode]
  rw [if_neg h, ht]
  exact congrArg some (comp_map inj (Sum.inr : Union t → o.carrier ⊕ Union t) x).symm

theorem byName_there {env : Env} {d : Descriptor} {o : TOption} {t : List TOption} {α : Type}
    {inj : α → Union t} {x : Dec α} (h : ¬ d = .sym o.name)
    (ht : byName env d t = some (inj <$> x)) :
    byName env d (o :: t) = some ((fun a => (.inr (inj a) : o.carrier ⊕ Union t)) <$> x) := by
  simp only [byName]
  rw [if_neg h, ht]
  exact congrArg some (comp_map inj (Sum.inr : Union t → o.carrier ⊕ Union t) x).symm

theorem byCode_sym {env : Env} {s : Symbol} : ∀ (os : List TOption),
    byCode env (.symbol s) os = none
  | [] => rfl
  | _ :: t => byCode_cons_ne (by intro h; cases h) (byCode_sym t)

theorem dispatch_code {os : List TOption} {env : Env} {d : Descriptor} {x : Dec (Union os)}
    (h : byCode env d os = some x) : dispatch os env d = x := by
  simp only [dispatch, h]

theorem dispatch_name {os : List TOption} {env : Env} {n : String} {x : Dec (Union os)}
    (h : byName env (.sym n) os = some x) : dispatch os env (.sym n) = x := by
  simp only [dispatch, Descriptor.sym, byCode_sym] at h ⊢
  rw [h]

theorem option_agrees {U α : Type} {os : List TOption} {o : TOption} {inj : o.carrier → Union os}
    {to : U → Union os} {mk : α → U} {f : α → o.carrier} {d : Dec o.carrier} {d' : Dec α}
    (h : d = f <$> d') (hm : ∀ a, to (mk a) = inj (f a)) :
    inj <$> d = to <$> (mk <$> d') := by
  rw [h, ← comp_map, ← comp_map]
  congr 1
  funext a
  exact (hm a).symm

theorem option_agrees' {U α β : Type} {os : List TOption} {inj : β → Union os}
    {back : Union os → U} {mk : α → U} {f : α → β} {d : Dec β} {d' : Dec α}
    (h : d = f <$> d') (hm : ∀ a, back (inj (f a)) = mk a) :
    back <$> (inj <$> d) = mk <$> d' := by
  rw [h, ← comp_map, ← comp_map]
  congr 1
  funext a
  exact hm a

end Amqp.Codegen
