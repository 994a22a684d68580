import Verif.Proofs.Views
/-!
# C66: typed and dynamic views of the same bytes
-/
set_option autoImplicit false
namespace Amqp
open Dec

/-- **C66**: what is read as a `bool` … is read as `Variant::from` of it, and the
other way round. -/
theorem C66_scalars : SameView Bool Variant ∧ SameView UInt8 Variant ∧ SameView UInt16 Variant ∧
    SameView UInt32 Variant ∧ SameView UInt64 Variant ∧ SameView Int8 Variant ∧
    SameView Int16 Variant ∧ SameView Int32 Variant ∧ SameView Int64 Variant ∧
    SameView F32 Variant ∧ SameView F64 Variant ∧ SameView Char Variant ∧
    SameView DateTime Variant ∧ SameView Uuid Variant := by
  refine ⟨?_, ?_, ?_, ?_, ?_, ?_, ?_, ?_, ?_, ?_, ?_, ?_, ?_, ?_⟩
  · refine view_variant [0x56, 0x41, 0x42] .boolean ?_ (fun _ => rfl) (fun _ _ h => by injection h) ?_ ?_
      (fun _ => rfl) (fun _ => rfl)
    · intro c; unfold kindOfCode; split <;> simp
    · intro env d c hc
      simp only [List.mem_cons, List.not_mem_nil, or_false] at hc
      rcases hc with rfl | rfl | rfl <;> rfl
    · exact fun _ _ h => reject3 h
  · refine view_variant [0x50] .ubyte ?_ (fun _ => rfl) (fun _ _ h => by injection h) ?_
      (fun _ _ h => reject1 h) (fun _ => rfl) (fun _ => rfl)
    · intro c; unfold kindOfCode; split <;> simp
    · intro env d c hc; cases List.mem_singleton.1 hc; rfl
  · refine view_variant [0x60] .ushort ?_ (fun _ => rfl) (fun _ _ h => by injection h) ?_
      (fun _ _ h => reject1 h) (fun _ => rfl) (fun _ => rfl)
    · intro c; unfold kindOfCode; split <;> simp
    · intro env d c hc; cases List.mem_singleton.1 hc; rfl
  · refine view_variant [0x70, 0x52, 0x43] .uint ?_ (fun _ => rfl) (fun _ _ h => by injection h) ?_ ?_
      (fun _ => rfl) (fun _ => rfl)
    · intro c; unfold kindOfCode; split <;> simp
    · intro env d c hc
      simp only [List.mem_cons, List.not_mem_nil, or_false] at hc
      rcases hc with rfl | rfl | rfl <;> rfl
    · exact fun _ _ h => reject3 h
  · refine view_variant [0x80, 0x53, 0x44] .ulong ?_ (fun _ => rfl) (fun _ _ h => by injection h) ?_ ?_
      (fun _ => rfl) (fun _ => rfl)
    · intro c; unfold kindOfCode; split <;> simp
    · intro env d c hc
      simp only [List.mem_cons, List.not_mem_nil, or_false] at hc
      rcases hc with rfl | rfl | rfl <;> rfl
    · exact fun _ _ h => reject3 h
  · refine view_variant [0x51] .byte ?_ (fun _ => rfl) (fun _ _ h => by injection h) ?_
      (fun _ _ h => reject1 h) (fun _ => rfl) (fun _ => rfl)
    · intro c; unfold kindOfCode; split <;> simp
    · intro env d c hc; cases List.mem_singleton.1 hc; rfl
  · refine view_variant [0x61] .short ?_ (fun _ => rfl) (fun _ _ h => by injection h) ?_
      (fun _ _ h => reject1 h) (fun _ => rfl) (fun _ => rfl)
    · intro c; unfold kindOfCode; split <;> simp
    · intro env d c hc; cases List.mem_singleton.1 hc; rfl
  · refine view_variant [0x71, 0x54] .int ?_ (fun _ => rfl) (fun _ _ h => by injection h) ?_ ?_
      (fun _ => rfl) (fun _ => rfl)
    · intro c; unfold kindOfCode; split <;> simp
    · intro env d c hc
      simp only [List.mem_cons, List.not_mem_nil, or_false] at hc
      rcases hc with rfl | rfl <;> rfl
    · exact fun _ _ h => reject2 h
  · refine view_variant [0x81, 0x55] .long ?_ (fun _ => rfl) (fun _ _ h => by injection h) ?_ ?_
      (fun _ => rfl) (fun _ => rfl)
    · intro c; unfold kindOfCode; split <;> simp
    · intro env d c hc
      simp only [List.mem_cons, List.not_mem_nil, or_false] at hc
      rcases hc with rfl | rfl <;> rfl
    · exact fun _ _ h => reject2 h
  · refine view_variant [0x72] .float ?_ (fun _ => rfl) (fun _ _ h => by injection h) ?_
      (fun _ _ h => reject1 h) (fun _ => rfl) (fun _ => rfl)
    · intro c; unfold kindOfCode; split <;> simp
    · intro env d c hc; cases List.mem_singleton.1 hc; rfl
  · refine view_variant [0x82] .double ?_ (fun _ => rfl) (fun _ _ h => by injection h) ?_
      (fun _ _ h => reject1 h) (fun _ => rfl) (fun _ => rfl)
    · intro c; unfold kindOfCode; split <;> simp
    · intro env d c hc; cases List.mem_singleton.1 hc; rfl
  · refine view_variant [0x73] .char ?_ (fun _ => rfl) (fun _ _ h => by injection h) ?_
      (fun _ _ h => reject1 h) (fun _ => rfl) (fun _ => rfl)
    · intro c; unfold kindOfCode; split <;> simp
    · intro env d c hc; cases List.mem_singleton.1 hc; rfl
  · refine view_variant [0x83] .timestamp ?_ (fun _ => rfl) (fun _ _ h => by injection h) ?_
      (fun _ _ h => reject1 h) (fun _ => rfl) (fun _ => rfl)
    · intro c; unfold kindOfCode; split <;> simp
    · intro env d c hc; cases List.mem_singleton.1 hc; rfl
  · refine view_variant [0x98] .uuid ?_ (fun _ => rfl) (fun _ _ h => by injection h) ?_
      (fun _ _ h => reject1 h) (fun _ => rfl) (fun _ => rfl)
    · intro c; unfold kindOfCode; split <;> simp
    · intro env d c hc; cases List.mem_singleton.1 hc; rfl

/-- **C66** for binary data, strings and symbols. -/
theorem C66_text : SameView Binary Variant ∧ SameView Str Variant ∧ SameView Symbol Variant := by
  refine ⟨?_, ?_, ?_⟩
  · refine view_variant [0xa0, 0xb0] .binary ?_ (fun _ => rfl) (fun _ _ h => by injection h) ?_ ?_
      (fun _ => rfl) (fun _ => rfl)
    · intro c; unfold kindOfCode; split <;> simp
    · intro env d c hc
      simp only [List.mem_cons, List.not_mem_nil, or_false] at hc
      rcases hc with rfl | rfl <;> rfl
    · exact fun _ _ h => reject2 h
  · refine view_variant [0xa1, 0xb1] .string ?_ (fun _ => rfl) (fun _ _ h => by injection h) ?_ ?_
      (fun _ => rfl) (fun _ => rfl)
    · intro c; unfold kindOfCode; split <;> simp
    · intro env d c hc
      simp only [List.mem_cons, List.not_mem_nil, or_false] at hc
      rcases hc with rfl | rfl <;> rfl
    · exact fun _ _ h => reject2 h
  · refine view_variant [0xa3, 0xb3] .symbol ?_ (fun _ => rfl) (fun _ _ h => by injection h) ?_ ?_
      (fun _ => rfl) (fun _ => rfl)
    · intro c; unfold kindOfCode; split <;> simp
    · intro env d c hc
      simp only [List.mem_cons, List.not_mem_nil, or_false] at hc
      rcases hc with rfl | rfl <;> rfl
    · exact fun _ _ h => reject2 h

/-- **C66** for lists. -/
theorem C66_list : SameCompoundView VList where
  read env input rest x := by
    refine compound_view VList.mk VList.items Variant.list [0x45, 0xc0, 0xd0] .list
      (fun _ => rfl) (fun _ => rfl) (fun _ _ h => by injection h) ?_ (fun _ => rfl)
      env (fun c => decodeListWith (decode Variant env) env c) (fun _ => rfl) ?_ ?_ input rest x
    · intro c; unfold kindOfCode; split <;> simp
    · intro c hc
      simp only [List.mem_cons, List.not_mem_nil, or_false] at hc
      rcases hc with rfl | rfl | rfl
      · rfl
      · show _ <$> decodeListWith (decVar env.deeper env.stackDepth) _ _ = _
        rw [decVar_deeper]; rfl
      · show _ <$> decodeListWith (decVar env.deeper env.stackDepth) _ _ = _
        rw [decVar_deeper]; rfl
    · exact fun c hc => list_rejects hc
  write _ := rfl
  size _ := rfl

/-- **C66** for maps of values. -/
theorem C66_map : SameCompoundView (HMap Variant Variant) where
  read env input rest x := by
    refine compound_view HMap.mk HMap.entries Variant.map [0xc1, 0xd1] .map
      (fun _ => rfl) (fun _ => rfl) (fun _ _ h => by injection h) ?_ (fun _ => rfl)
      env (fun c => decodeMapWith (decode Variant env) (decode Variant env) env c)
      (fun _ => rfl) ?_ ?_ input rest x
    · intro c; unfold kindOfCode; split <;> simp
    · intro c hc
      simp only [List.mem_cons, List.not_mem_nil, or_false] at hc
      rcases hc with rfl | rfl <;>
      · show _ <$> decodeMapWith (decVar env.deeper env.stackDepth)
          (decVar env.deeper env.stackDepth) _ _ = _
        rw [decVar_deeper]; rfl
    · exact fun c hc => map_rejects hc
  write m := by
    show Variant.venc (.map m.entries) = _
    rw [Variant.venc, vsizeMap_view, vencMap_view]; rfl
  size m := by
    show Variant.vsize (.map m.entries) = _
    rw [Variant.vsize, vsizeMap_view]; rfl

/-- **C66** for maps with symbols or strings as keys. -/
theorem C66_keyed : SameMapView Symbol ∧ SameMapView Str := by
  refine ⟨?_, ?_⟩
  · exact keyed_view ⟨fun _ _ h => by injection h,
      fun a b => by rfl, fun _ => rfl, fun _ => rfl,
      fun v a h => by cases v <;> first | exact ⟨_, rfl⟩ | cases h⟩ C66_text.2.2
  · exact keyed_view ⟨fun _ _ h => by injection h,
      fun a b => by rfl, fun _ => rfl, fun _ => rfl,
      fun v a h => by cases v <;> first | exact ⟨_, rfl⟩ | cases h⟩ C66_text.2.1

/-- **C66** for `VecVariantMap`: it reads what `HashMap<Str, Variant>` reads, keeping
all entries; the hash map has the last value of each key. -/
theorem C66_vec_map (env : Env) (input : Bytes) :
    (∀ rest m, decode VecVariantMap env input = .ok (rest, m) →
      ∃ h, decode (HMap Str Variant) env input = .ok (rest, h) ∧
        ∀ k, valueOf k h.entries = lastValueOf k m.entries) ∧
    (∀ rest h, decode (HMap Str Variant) env input = .ok (rest, h) →
      ∃ m, decode VecVariantMap env input = .ok (rest, m) ∧
        ∀ k, valueOf k h.entries = lastValueOf k m.entries) ∧
    (∀ e, decode VecVariantMap env input = .err e ↔ decode (HMap Str Variant) env input = .err e) ∧
    ∀ p, decode VecVariantMap env input = .panic p ↔
      decode (HMap Str Variant) env input = .panic p := by
  have hv : ∀ (m : VecVariantMap) k, valueOf k (insertAll [] m.entries) = lastValueOf k m.entries := by
    intro m k
    rw [insertAll_valueOf rfl _ _ (by simp) (fun _ _ => rfl)]
    simp [valueOf]
  rw [vecMap_hash, run_map]
  cases decode VecVariantMap env input with
  | ok p =>
    obtain ⟨r, m⟩ := p
    refine ⟨fun _ _ h => ?_, fun _ _ h => ?_, fun _ => ⟨fun h => ?_, fun h => ?_⟩,
      fun _ => ⟨fun h => ?_, fun h => ?_⟩⟩ <;> cases h
    · exact ⟨_, rfl, hv m⟩
    · exact ⟨_, rfl, hv m⟩
  | err e => exact ⟨fun _ _ h => (by cases h), fun _ _ h => (by cases h), fun _ => (by simp), fun _ => (by simp)⟩
  | panic e => exact ⟨fun _ _ h => (by cases h), fun _ _ h => (by cases h), fun _ => (by simp), fun _ => (by simp)⟩

/-- **C66** for optional values: `None` is `Variant::Null`. -/
theorem C66_option {α : Type} [Encode α] [DecodeF α] [Into α Variant] (view : SameView α Variant)
    (hn : ∀ x : α, (into x : Variant) ≠ .null) (env : Env) (h0 : 0 < env.stackDepth)
    (input rest : Bytes) (o : Option α) :
    (decode (Option α) env input = .ok (rest, o) ↔
      decode Variant env input = .ok (rest, o.elim .null into)) ∧
    enc (o.elim .null into : Variant) = enc o ∧ size (o.elim .null into : Variant) = size o := by
  obtain ⟨d, hd⟩ : ∃ d, env.stackDepth = d + 1 := ⟨env.stackDepth - 1, by omega⟩
  have hnull : decVariant env env.stackDepth FC.null = (pure .null : Dec Variant) := by
    rw [hd]; rfl
  refine ⟨?_, ?_, ?_⟩
  · cases input with
    | nil => exact ⟨fun h => (by cases h), fun h => (by cases h)⟩
    | cons c t =>
      have eo : decode (Option α) env (c :: t) =
        (if c = FC.null then pure none else some <$> decF env c : Dec (Option α)) t := rfl
      have ev : decode Variant env (c :: t) = decVariant env env.stackDepth c t := rfl
      by_cases hc : c = FC.null
      · subst hc
        rw [eo, ev, if_pos rfl, hnull]
        cases o with
        | none => exact ⟨fun h => (by cases h; rfl), fun h => (by cases h; rfl)⟩
        | some x =>
          refine ⟨fun h => (by cases h), fun h => ?_⟩
          injection h with h
          injection h with _ h
          exact absurd h.symm (hn x)
      · rw [eo, if_neg hc]
        cases o with
        | none =>
          refine ⟨fun h => ?_, fun h => ?_⟩
          · obtain ⟨_, _, h⟩ := map_eq_ok.1 h; cases h
          · exfalso
            have := C60_code env c t rest .null h
            revert this
            unfold kindOfCode
            split <;> simp_all [Variant.kind, FC.null]
        | some x =>
          show _ ↔ decode Variant env (c :: t) = .ok (rest, into x)
          rw [← view.read env _ _ _ h0, decode_cons]
          refine ⟨fun h => ?_, fun h => map_eq_ok.2 ⟨x, h, rfl⟩⟩
          obtain ⟨y, h, e⟩ := map_eq_ok.1 h
          cases e
          exact h
  · cases o with
    | none => rfl
    | some x => exact view.write x
  · cases o with
    | none => rfl
    | some x => exact view.size x

/-- **C66** for message identifiers. -/
theorem C66_message_id : SameView UInt64 MessageId ∧ SameView Uuid MessageId ∧
    SameView Binary MessageId ∧ SameView ByteStr MessageId := by
  refine ⟨?_, ?_, ?_, ?_⟩
  · refine view_of [0x80, 0x53, 0x44] (fun _ _ h => by injection h) ?_ ?_
      (fun _ _ h => reject3 h) (fun _ => rfl) (fun _ => rfl)
    · intro env _ c hc
      simp only [List.mem_cons, List.not_mem_nil, or_false] at hc
      rcases hc with rfl | rfl | rfl <;> rfl
    · intro env c hc i r x
      refine iteDec_ne (fun h => absurd ?_ hc) fun _ => iteDec_ne (fun _ => map_ne (by simp [into])) fun _ =>
        iteDec_ne (fun _ => map_ne (by simp [into])) fun _ => iteDec_ne (fun _ => map_ne (by simp [into]))
        fun _ => fail_ne
      rcases h with rfl | rfl | rfl <;> decide
  · refine view_of [0x98] (fun _ _ h => by injection h) ?_ ?_
      (fun _ _ h => reject1 h) (fun _ => rfl) (fun _ => rfl)
    · intro env _ c hc
      cases List.mem_singleton.1 hc; rfl
    · intro env c hc i r x
      refine iteDec_ne (fun _ => map_ne (by simp [into])) fun _ => iteDec_ne (fun h => absurd ?_ hc) fun _ =>
        iteDec_ne (fun _ => map_ne (by simp [into])) fun _ => iteDec_ne (fun _ => map_ne (by simp [into]))
        fun _ => fail_ne
      rw [h]; decide
  · refine view_of [0xa0, 0xb0] (fun _ _ h => by injection h) ?_ ?_
      (fun _ _ h => reject2 h) (fun _ => rfl) (fun _ => rfl)
    · intro env _ c hc
      simp only [List.mem_cons, List.not_mem_nil, or_false] at hc
      rcases hc with rfl | rfl <;> rfl
    · intro env c hc i r x
      refine iteDec_ne (fun _ => map_ne (by simp [into])) fun _ => iteDec_ne (fun _ => map_ne (by simp [into]))
        fun _ => iteDec_ne (fun h => absurd ?_ hc) fun _ => iteDec_ne (fun _ => map_ne (by simp [into]))
        fun _ => fail_ne
      rcases h with rfl | rfl <;> decide
  · refine view_of [0xa1, 0xb1] (fun _ _ h => by injection h) ?_ ?_
      (fun _ _ h => reject2 h) (fun _ => rfl) (fun _ => rfl)
    · intro env _ c hc
      simp only [List.mem_cons, List.not_mem_nil, or_false] at hc
      rcases hc with rfl | rfl <;> rfl
    · intro env c hc i r x
      refine iteDec_ne (fun _ => map_ne (by simp [into])) fun _ => iteDec_ne (fun _ => map_ne (by simp [into]))
        fun _ => iteDec_ne (fun _ => map_ne (by simp [into])) fun _ => iteDec_ne (fun h => absurd ?_ hc)
        fun _ => fail_ne
      rcases h with rfl | rfl <;> decide

example : decode Variant debugEnv [0x52, 7, 9] = .ok ([9], .uint 7) :=
  (C66_scalars.2.2.2.1.read debugEnv [0x52, 7, 9] [9] 7 (by decide)).1 rfl
example : decode Str debugEnv [0xa1, 1, 104] = .ok ([], .lit "h") :=
  (C66_text.2.1.read debugEnv [0xa1, 1, 104] [] (.lit "h") (by decide)).2 rfl
example : decode Variant debugEnv.deeper [0xc0, 3, 2, 0x41, 0x40] = .ok ([], .list [.boolean true, .null]) :=
  (C66_list.read debugEnv [0xc0, 3, 2, 0x41, 0x40] [] ⟨[.boolean true, .null]⟩).1 rfl
example : decode (HMap Variant Variant) debugEnv [0xc1, 3, 2, 0x41, 0x40] =
    .ok ([], ⟨[(.boolean true, .null)]⟩) :=
  (C66_map.read debugEnv [0xc1, 3, 2, 0x41, 0x40] [] ⟨[(.boolean true, .null)]⟩).2 rfl
example : decode (HMap Symbol Variant) debugEnv [0xc1, 5, 2, 0xa3, 1, 107, 0x40] =
    .ok ([], ⟨[(⟨.lit "k"⟩, .null)]⟩) :=
  (C66_keyed.1.read debugEnv [0xc1, 5, 2, 0xa3, 1, 107, 0x40] [] ⟨[(⟨.lit "k"⟩, .null)]⟩).2 rfl
/-- A key given twice. -/
example : ∃ h, decode (HMap Str Variant) debugEnv
      [0xc1, 9, 4, 0xa1, 1, 107, 0x40, 0xa1, 1, 107, 0x41] = .ok ([], h) ∧
    ∀ k, valueOf k h.entries = lastValueOf k [(.lit "k", .null), (.lit "k", .boolean true)] :=
  (C66_vec_map debugEnv [0xc1, 9, 4, 0xa1, 1, 107, 0x40, 0xa1, 1, 107, 0x41]).1 []
    ⟨[(.lit "k", .null), (.lit "k", .boolean true)]⟩ rfl
example : decode Variant debugEnv [0x40] = .ok ([], .null) :=
  ((C66_option C66_scalars.2.2.2.1 (fun _ h => by cases h) debugEnv (by decide) [0x40] [] none).1).1 rfl
example : decode MessageId debugEnv [0x53, 7] = .ok ([], .Ulong 7) :=
  (C66_message_id.1.read debugEnv [0x53, 7] [] 7 (by decide)).1 rfl

end Amqp
