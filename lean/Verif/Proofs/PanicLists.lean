import Verif.Proofs.PanicLaws
import Verif.Proofs.ListInstances
/-!
# Panics of maps, arrays, list types and unions

`PanicLaw` for the compound types and, generically, for the list types.
-/
set_option autoImplicit false
namespace Amqp
open Dec

/-! ## Maps, lists and arrays -/

theorem Dec.Safe.decodeN {α : Type} {x : Dec α} (h : Safe x) : ∀ n, Safe (Amqp.decodeN x n)
  | 0 => Safe.pure _
  | n + 1 => h.bind fun _ => (Safe.decodeN h n).bind fun _ => Safe.pure _

theorem keyBlames_variant (env : Env) : KeyBlames (decode Variant env) := by
  intro i r v h hh
  obtain ⟨f, i', rfl, h1⟩ := decode_ok h
  exact variant_key env _ f _ _ _ h1 hh

theorem keyBlames_symbol (dec : Dec Symbol) : KeyBlames dec := fun _ _ _ _ h => by cases h
theorem keyBlames_str (dec : Dec RStr) : KeyBlames dec := fun _ _ _ _ h => by cases h

theorem panicLaw_map {K V : Type} [HKey K] [DecodeF K] [DecodeF V] [LawfulDec K] [LawfulDec V]
    [PanicLaw K] [PanicLaw V] (hk : ∀ env, KeyBlames (decode K env)) : PanicLaw (HMap K V) :=
  ⟨fun env fmt i p h =>
    (decodeMapWith_panic (blames_decode env) (blames_decode env) (loc_decode env) (loc_decode env)
      (hk env) (map_eq_panic.1 h)).anti (Nat.le_succ _)⟩

instance {V : Type} [DecodeF V] [LawfulDec V] [PanicLaw V] : PanicLaw (HMap Variant V) :=
  panicLaw_map keyBlames_variant
instance {V : Type} [DecodeF V] [LawfulDec V] [PanicLaw V] : PanicLaw (HMap Symbol V) :=
  panicLaw_map fun _ => keyBlames_symbol _
instance {V : Type} [DecodeF V] [LawfulDec V] [PanicLaw V] : PanicLaw (HMap RStr V) :=
  panicLaw_map fun _ => keyBlames_str _

instance : PanicLaw VList := ⟨fun env fmt i p h =>
  (decodeListWith_panic (blames_decode env) (loc_decode env) (map_eq_panic.1 h)).anti
    (Nat.le_succ _)⟩

instance : PanicLaw VecVariantMap := ⟨fun env fmt i p h => by
  have h' : (decodeMapHeader env fmt >>= fun header => VecVariantMap.mk <$>
      withSlice header.size (decodeN (decodePairs (decode Str env) (decode Variant env))
        (header.count / 2))) i = .panic p := h
  rcases bind_eq_panic.1 h' with h1 | ⟨r, hdr, h1, h2⟩
  · exact mapHeader_panic h1
  · obtain ⟨hf, w, rfl, -⟩ := mapHeader_shape h1
    rcases withSlice_panic (map_eq_panic.1 h2) with rfl | h3
    · exact ⟨fmt, by rcases hf with rfl | rfl <;> simp, by simp⟩
    · have hb : Blames env.overflowChecks env.stackDepth
          (decodeN (decodePairs (decode Str env) (decode Variant env)) (hdr.count / 2)) :=
        Blames.decodeN ((blames_decode env).bind (loc_decode env) fun _ =>
          (blames_decode env).bind (loc_decode env) fun _ => Blames.pure _)
          ((loc_decode env).bind fun _ => (loc_decode env).bind fun _ => Local.pure _) _
      refine (hb _ _ h3).mono ⟨fmt :: w, r.drop hdr.size, ?_⟩
      simp⟩

instance {α : Type} [DecodeF α] [SafeDec α] : PanicLaw (Vec α) := ⟨fun env fmt i p h => by
  have h' : (decodeArrayHeader env fmt >>= fun header => indexU8 >>= fun itemFmt =>
      decodeN (decF (α := α) env itemFmt) header.count >>= fun items =>
      pure (⟨items⟩ : Vec α)) i = .panic p := h
  rcases bind_eq_panic.1 h' with h1 | ⟨r, hdr, h1, h2⟩
  · exact arrayHeader_panic h1
  · have hf := arrayHeader_ok h1
    rcases bind_eq_panic.1 h2 with h3 | ⟨r', f, h3, h4⟩
    · cases r with
      | nil =>
        injection h3 with h3; subst h3
        exact ⟨fmt, by rcases hf with rfl | rfl <;> simp, by simp⟩
      | cons => cases h3
    · rcases bind_eq_panic.1 h4 with h5 | ⟨r'', x, -, h6⟩
      · exact absurd h5 (Safe.decodeN (SafeDec.safe env f) _ _ _)
      · cases h6⟩

instance {α : Type} [DecodeF α] [SafeDec α] : PanicLaw (Multiple α) := ⟨fun env fmt i p h => by
  have h' : (if fmt = FC.array8 ∨ fmt = FC.array32 then
      (fun v : Vec α => (⟨v.items⟩ : Multiple α)) <$> decF env fmt
    else (fun x => ⟨[x]⟩) <$> decF env fmt) i = .panic p := h
  split at h'
  · exact PanicLaw.blame env fmt i p (map_eq_panic.1 h')
  · exact absurd (map_eq_panic.1 h') (SafeDec.safe env fmt i p)⟩

/-! ## Enumerations -/

instance : PanicLaw Role := panicLaw_of_safe _
instance : PanicLaw SenderSettleMode := panicLaw_of_safe _
instance : PanicLaw ReceiverSettleMode := panicLaw_of_safe _
instance : PanicLaw AmqpError := panicLaw_of_safe _
instance : PanicLaw ConnectionError := panicLaw_of_safe _
instance : PanicLaw SessionError := panicLaw_of_safe _
instance : PanicLaw LinkError := panicLaw_of_safe _
instance : PanicLaw SaslCode := panicLaw_of_safe _
instance : PanicLaw TerminusDurability := panicLaw_of_safe _
instance : PanicLaw TerminusExpiryPolicy := panicLaw_of_safe _
instance : PanicLaw ErrorCondition := panicLaw_of_safe _
instance : PanicLaw DistributionMode := panicLaw_of_safe _
instance : PanicLaw MessageId := panicLaw_of_safe _

/-! ## List types -/

/-- The decoders of all the fields have their panics explained. -/
class FieldsBlame (fs : List Field) : Prop where
  blame : ∀ env, ∀ f ∈ fs, Blames env.overflowChecks env.stackDepth (f.dec env)

instance : FieldsBlame [] := ⟨fun _ _ h => by cases h⟩

section
variable {α : Type} [Encode α] [DecodeF α] [LawfulEnc α] [LawfulDec α] [NonNull α] [PanicLaw α]
  {fs : List Field} [hfs : FieldsBlame fs]

instance (name : String) : FieldsBlame (.req α name :: fs) := ⟨fun env f h => by
  rcases List.mem_cons.1 h with rfl | h
  · exact blames_decode (α := α) env
  · exact hfs.blame env f h⟩
instance : FieldsBlame (.opt α :: fs) := ⟨fun env f h => by
  rcases List.mem_cons.1 h with rfl | h
  · exact blames_decode (α := Option α) env
  · exact hfs.blame env f h⟩
instance (d : α) : FieldsBlame (.dflt α d :: fs) := ⟨fun env f h => by
  rcases List.mem_cons.1 h with rfl | h
  · exact (blames_decode (α := Option α) env).map _
  · exact hfs.blame env f h⟩
end

theorem getFields_panic {env : Env} {c : Bool} {d : Nat} : ∀ {fs : List Field}
    (_ : ∀ f ∈ fs, Blames c d (f.dec env)) {n : Nat} {w : Bytes} {p : Panic},
    getFields env fs (n, w) = .panic p → PanicCause c d w p
  | [], _, _, _, _, h => by cases h
  | f :: fs, hb, 0, w, p, h => by
    simp only [getFields, FieldDec.run_bind, f.get_zero] at h
    cases hm : f.missing with
    | err e => rw [hm] at h; cases h
    | panic p => exact absurd hm (f.missing_ne p)
    | ok b =>
      rw [hm] at h
      simp only at h
      cases hg : getFields env fs (0, w) with
      | err e => rw [hg] at h; cases h
      | ok q => rw [hg] at h; cases h
      | panic q =>
        rw [hg] at h
        injection h with h; subst h
        exact getFields_panic (fun f hf => hb f (List.mem_cons_of_mem _ hf)) hg
  | f :: fs, hb, n + 1, w, p, h => by
    simp only [getFields, FieldDec.run_bind, f.get_succ, present] at h
    cases hd : f.dec env w with
    | err e => rw [hd] at h; cases h
    | panic q =>
      rw [hd] at h
      injection h with h; subst h
      exact hb f (List.mem_cons_self ..) _ _ hd
    | ok q =>
      obtain ⟨r, b⟩ := q
      rw [hd] at h
      simp only at h
      cases hg : getFields env fs (n, r) with
      | err e => rw [hg] at h; cases h
      | ok q => rw [hg] at h; cases h
      | panic q =>
        rw [hg] at h
        injection h with h; subst h
        obtain ⟨u, rfl, hu⟩ := f.loc env _ _ _ hd
        exact (getFields_panic (fun f hf => hb f (List.mem_cons_of_mem _ hf)) hg).mono
          ⟨u, [], by simp⟩

theorem listInner_blames {α : Type} {env : Env} {d : Nat} {fields : FieldDec α}
    (hf : ∀ n w p, fields (n, w) = .panic p → PanicCause env.overflowChecks d w p) :
    Blames env.overflowChecks d (listInner env fields) := by
  intro i p h
  rcases bind_eq_panic.1 h with h1 | ⟨r1, fmt, h1, h2⟩
  · exact absurd h1 (Safe.readU8 _ _)
  · have := readU8_ok h1
    subst this
    rcases bind_eq_panic.1 h2 with h3 | ⟨r2, hdr, h3, h4⟩
    · exact listHeader_panic h3
    · obtain ⟨w, rfl, -⟩ := Local.decodeListHeader env fmt _ _ _ h3
      rcases bind_eq_panic.1 h4 with h5 | ⟨r3, body, h5, h6⟩
      · exact absurd h5 (Safe.takeN _ _ _)
      · obtain ⟨rfl, -⟩ := takeN_ok h5
        cases hg : fields (hdr.count, body) with
        | err e => rw [hg] at h6; cases h6
        | ok q => rw [hg] at h6; cases h6
        | panic q =>
          rw [hg] at h6
          injection h6 with h6; subst h6
          exact (hf _ _ _ hg).mono ⟨fmt :: w, r3, by simp⟩

theorem validateCode_fmtBlames {α : Type} {c : Bool} {d : Nat} {fmt k : UInt8} {x : Dec α}
    (h : FmtBlames c d fmt x) : FmtBlames c d fmt (validateCode fmt k x) :=
  FmtBlames.ite (fun _ _ h => by cases h) h

theorem describedAs_fmtBlames {α : Type} {env : Env} {fmt : UInt8} {code : UInt64} {name : String}
    {x : Dec α} (h : Blames env.overflowChecks env.stackDepth x) :
    FmtBlames env.overflowChecks env.stackDepth fmt (describedAs env fmt code name x) := by
  rw [describedAs_eq]
  exact validateCode_fmtBlames (FmtBlames.of_blames
    ((blames_decode env).bind (loc_decode env) fun _ => Blames.ite (Blames.fail _) h))

section
variable {α : Type} [Encode α] [DecodeF α] [ListType α] [hf : FieldsBlame (ListType.fields α)]

theorem inner_blames (env : Env) :
    Blames env.overflowChecks env.stackDepth (ListType.inner (α := α) env) := by
  rw [ListType.inner_eq]
  refine listInner_blames fun n w p h => ?_
  rw [FieldDec.run_map] at h
  cases hg : getFields env (ListType.fields α) (n, w) with
  | err e => rw [hg] at h; cases h
  | ok q => rw [hg] at h; cases h
  | panic q =>
    rw [hg] at h
    injection h with h; subst h
    exact getFields_panic (hf.blame env) hg

theorem listPanicLaw : PanicLaw α := ⟨fun env fmt i p h => by
  rw [ListType.decF_eq] at h
  exact describedAs_fmtBlames (inner_blames env) i p h⟩
end

end Amqp
