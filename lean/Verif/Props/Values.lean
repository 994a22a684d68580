import Verif.Proofs.MapLaws
/-!
# Variants, maps and arrays

C14 (variants), C15 (lists), C16, C17 (maps), C18 (arrays), C43 (equality),
C45 (re-encoding a decoded variant), C46 (`VecVariantMap`).
-/
set_option autoImplicit false
namespace Amqp
open Dec

/-! ## C14: variants -/

/-- **C14.** Among the variants whose encoding is shorter than 4 GiB, exactly
those round-trip that contain no list, no static symbol, no descriptor 0, only
representable timestamps, and are not nested deeper than the stack allows. -/
theorem C14_round_trip_iff (env : Env) (v : Variant) (hs : (enc v).length < 2 ^ 32) :
    RoundTrips env v ↔ v.Survives ∧ v.depth ≤ env.stackDepth := by
  have hs' : v.vsize < 2 ^ 32 := by rw [v.vsize_eq]; exact hs
  constructor
  · intro h
    obtain ⟨h1, h2, _⟩ := faithful env v hs' env.stackDepth [] [] (h [])
    exact ⟨h1, h2⟩
  · intro h
    exact reads_variant env v (h.1.good v hs') _ h.2

/-- **C14** (full statement): every variant that a program can hold round-trips
when the stack suffices. -/
def C14_statement : Prop := ∀ (env : Env) (v : Variant), v.Valid → (enc v).length < 2 ^ 32 →
  v.depth ≤ env.stackDepth → RoundTrips env v

/-- **C14**, the part that holds.  Missing from `C14_statement`: variants
containing lists, static symbols, descriptor 0, or timestamps that C12 excludes. -/
theorem C14_round_trip_partial (env : Env) (v : Variant) (h : v.Survives)
    (hs : (enc v).length < 2 ^ 32) (hd : v.depth ≤ env.stackDepth) : RoundTrips env v :=
  (C14_round_trip_iff env v hs).2 ⟨h, hd⟩

/-- A map with a described value and a nested map, keyed by a float and a symbol. -/
def sampleVariant : Variant :=
  .map [(.symbol ⟨.lit "a"⟩, .described (.ulong 7) (.map [(.null, .uint 300)])),
    (.float ⟨0x7fc00000⟩, .timestamp ⟨1, 5000000, by decide⟩)]

example : sampleVariant.Survives ∧ sampleVariant.depth ≤ debugEnv.stackDepth ∧
    (enc sampleVariant).length < 2 ^ 32 := by
  refine ⟨?_, by decide, by decide⟩
  simp [sampleVariant, Variant.Survives, survivesMap, NodupKeys, Variant.hashOk,
    DateTime.Survives, HKey.keq, Variant.veq]
example : RoundTrips debugEnv sampleVariant := C14_round_trip_partial _ _ (by
  simp [sampleVariant, Variant.Survives, survivesMap, NodupKeys, Variant.hashOk,
    DateTime.Survives, HKey.keq, Variant.veq]) (by decide) (by decide)

/-- **C14 violated**: no variant that contains a list, a static symbol, a
descriptor 0 or an unrepresentable timestamp anywhere round-trips. -/
theorem C14_violated (env : Env) (v : Variant) (hs : (enc v).length < 2 ^ 32)
    (h : ¬ v.Survives) : ¬ RoundTrips env v :=
  fun hr => h ((C14_round_trip_iff env v hs).1 hr).1

/-- Such variants exist, so C14 as stated is false. -/
theorem C14_violated_witness : ¬ C14_statement := by
  intro h
  refine C14_violated debugEnv (.list [.null]) (by decide) (by simp [Variant.Survives]) ?_
  exact h debugEnv _ (by simp [Variant.Valid, validList]) (by decide) (by decide)

example : ¬ RoundTrips debugEnv (Variant.map [(.null, .staticSymbol (.lit "a"))]) :=
  C14_violated _ _ (by decide) (by simp [Variant.Survives, survivesMap])
example : ¬ RoundTrips debugEnv (Variant.described (.ulong 0) .null) :=
  C14_violated _ _ (by decide) (by simp [Variant.Survives])
example : ¬ RoundTrips debugEnv (Variant.timestamp ⟨0, 1, by decide⟩) :=
  C14_violated _ _ (by decide) (by simp [Variant.Survives, DateTime.Survives])

/-- **C14 violated**: a static symbol of any length below 4 GiB comes back as a
symbol with the same text, which compares unequal. -/
theorem C14_violated_static_symbol (env : Env) (s : RStr) (hs : s.bytes.length < 2 ^ 32)
    (hd : 0 < env.stackDepth) (rest : Bytes) :
    decode Variant env (enc (Variant.staticSymbol s) ++ rest) = .ok (rest, .symbol ⟨s⟩) ∧
      (Variant.symbol ⟨s⟩).veq (.staticSymbol s) = false := by
  refine ⟨?_, by simp [Variant.veq]⟩
  exact reads_variant env (.symbol ⟨s⟩) (by simpa [Variant.Good] using hs) _
    (by simp [Variant.depth]; omega) rest

example : (RStr.lit "abc").bytes.length < 2 ^ 32 ∧ 0 < debugEnv.stackDepth := by decide

/-! ## C15: lists -/

theorem list_head (l : List Variant) : ∃ c w, (enc (Variant.list l) = c :: w) ∧
    (c = 0xe0 ∨ c = 0xf0) := compoundHdr_head FC.array8 FC.array32 (vsizeList l) l.length (vencList l)

/-- **C15** (full statement): every list of round-tripping variants round-trips. -/
def C15_statement : Prop := ∀ (env : Env) (l : List Variant), (∀ v ∈ l, RoundTrips env v) →
  (enc (Variant.list l)).length < 2 ^ 32 → depthList l < env.stackDepth →
  RoundTrips env (Variant.list l)

/-- **C15 violated** for every list, whatever its items: it is written with an
array format code, which the variant decoder and the list decoder reject. -/
theorem C15_violated_every_list (env : Env) (l : List Variant) (rest : Bytes)
    (hd : 0 < env.stackDepth) : ∃ c, (c = 0xe0 ∨ c = 0xf0) ∧
      decode Variant env (enc (Variant.list l) ++ rest) = .err (.invalidFormatCode c) ∧
      decode VList env (enc (⟨l⟩ : VList) ++ rest) = .err (.invalidFormatCode c) := by
  obtain ⟨c, w, e, hc⟩ := list_head l
  refine ⟨c, hc, ?_, ?_⟩
  · rw [e]
    show decVariant env env.stackDepth c (w ++ rest) = _
    obtain ⟨n, hn⟩ : ∃ n, env.stackDepth = n + 1 := ⟨env.stackDepth - 1, by omega⟩
    rw [hn]
    rcases hc with rfl | rfl <;> rfl
  · have e' : enc (⟨l⟩ : VList) = c :: w := e
    rw [e']
    rcases hc with rfl | rfl <;> rfl

theorem C15_violated_witness : ¬ C15_statement := by
  intro h
  obtain ⟨c, _, h1, _⟩ := C15_violated_every_list debugEnv [] [] (by decide)
  have := h debugEnv [] (by simp) (by decide) (by decide) []
  rw [h1] at this
  cases this

/-- **C15 violated**: no amqp-sequence body section can be decoded either. -/
theorem C15_violated_sequence_section (env : Env) (l : VList) (rest : Bytes) :
    ∃ c, (c = 0xe0 ∨ c = 0xf0) ∧
      decode Section env (enc (Section.AmqpSequence l) ++ rest) = .err (.invalidFormatCode c) := by
  obtain ⟨c, w, e, hc⟩ := list_head l.items
  refine ⟨c, hc, ?_⟩
  have e' : enc (Section.AmqpSequence l) = (0x00 :: 0x53 :: 0x76 :: c :: w) := by
    show _ ++ enc l = _
    rw [show enc l = c :: w from e]; rfl
  rw [e']
  rcases hc with rfl | rfl <;> rfl

/-- What the decoder does accept as a list: the list format codes, in all three
widths; a list of round-tripping items behind one of them is read back. -/
theorem C15_decodes_list8 (env : Env) (l : List Variant) (rest : Bytes)
    (hi : ∀ v ∈ l, RoundTrips env v) (hs : (l.flatMap enc).length + 1 ≤ 255) :
    decode VList env ([0xc0, UInt8.ofNat ((l.flatMap enc).length + 1), UInt8.ofNat l.length] ++
      l.flatMap enc ++ rest) = .ok (rest, ⟨l⟩) := by
  have hlen : l.length ≤ (l.flatMap (enc (α := Variant))).length := by
    clear hi hs
    induction l with
    | nil => simp
    | cons a t ih =>
      have := List.length_pos_iff.2 (NonEmptyEnc.ne a)
      simp only [List.flatMap_cons, List.length_append, List.length_cons]
      omega
  have hr := reads_compound8 env (n := (l.flatMap (enc (α := Variant))).length) (k := l.length)
    (by omega) (by omega)
  have h2 := Reads.decodeN (d := decode Variant env) enc l hi
  have := (Reads.bind hr (f := fun header => decodeN (decode Variant env) header.count) h2).map
    VList.mk rest
  rw [List.append_assoc] at this ⊢
  exact this

example : decode VList debugEnv [0xc0, 3, 2, 0x40, 0x41, 9] = .ok ([9], ⟨[.null, .boolean true]⟩) := by
  rfl

/-! ## C16: maps, whatever the iteration order -/

section
variable {K V : Type} [HKey K] [Encode K] [Encode V] [DecodeF K] [DecodeF V]

theorem small_of_length (hK : SizeExact K) (hV : SizeExact V) {m : HMap K V}
    (h : (enc m).length < 2 ^ 32) : mapContentSize size size m.entries + 4 < 2 ^ 32 := by
  haveI : LawfulEnc K := ⟨hK⟩
  haveI : LawfulEnc V := ⟨hV⟩
  have e : compoundSize (mapContentSize size size m.entries) = (enc m).length := LawfulEnc.size_eq m
  exact compoundSize_small (by rw [e]; exact h)

theorem reads_hmap (hK : SizeExact K) (hV : SizeExact V) (env : Env) (l : List (K × V))
    (hk : ∀ e ∈ l, HKey.hashOk e.1 = true)
    (hr : ∀ e ∈ l, RoundTrips env e.1 ∧ RoundTrips env e.2)
    (hs : mapContentSize size size l + 4 < 2 ^ 32) (rest : Bytes) :
    decode (HMap K V) env (enc (⟨l⟩ : HMap K V) ++ rest) = .ok (rest, ⟨insertAll [] l⟩) := by
  obtain ⟨c, w, e, _, hr⟩ := reads_map (kd := decode K env) (vd := decode V env) (ks := size)
    (vs := size) (ke := enc) (ve := enc) (l := l) env
    (fun e he => ⟨(hr e he).1, hK _, hK _ ▸ pos_of_roundTrips (hr e he).1, hk e he⟩)
    (fun e he => ⟨(hr e he).2, hV _, hV _ ▸ pos_of_roundTrips (hr e he).2⟩) hs
  have e' : enc (⟨l⟩ : HMap K V) = c :: w := e
  rw [e']
  exact (hr.map HMap.mk) rest

/-- **C16.** A `HashMap` (distinct, hashable keys) whose keys and values
round-trip is read back from its encoding in any iteration order `order`; the
result holds exactly the same entries, gives every key the same value, and the
encoded size does not depend on the order. -/
theorem C16_map_round_trip [LawfulKey K] (hK : SizeExact K) (hV : SizeExact V) (env : Env) (m : HMap K V) (order : List (K × V))
    (hp : order.Perm m.entries)
    (hk : ∀ e ∈ m.entries, HKey.hashOk e.1 = true) (hn : NodupKeys m.entries)
    (hr : ∀ e ∈ m.entries, RoundTrips env e.1 ∧ RoundTrips env e.2)
    (hs : (enc m).length < 2 ^ 32) (rest : Bytes) :
    ∃ out : HMap K V, decode (HMap K V) env (enc (⟨order⟩ : HMap K V) ++ rest) = .ok (rest, out) ∧
      out.entries.Perm m.entries ∧
      (∀ k, HKey.hashOk k = true → valueOf k out.entries = valueOf k m.entries) ∧
      size (⟨order⟩ : HMap K V) = size m := by
  have hk' : ∀ e ∈ order, HKey.hashOk e.1 = true := fun e he => hk e (hp.mem_iff.1 he)
  have hn' : NodupKeys order := nodupKeys_perm hp.symm hk hn
  have hsz : mapContentSize size size order = mapContentSize size size m.entries :=
    mapContentSize_perm _ _ hp
  refine ⟨⟨order⟩, ?_, hp, fun k h => valueOf_perm hp hk' hn' h, ?_⟩
  · rw [reads_hmap hK hV env order hk' (fun e he => hr e (hp.mem_iff.1 he))
      (by rw [hsz]; exact small_of_length hK hV hs), insertAll_fresh order [] hn']
    rfl
  · show compoundSize _ = compoundSize _
    rw [hsz]

/-- **C16**, with the entries in the order in which they were written. -/
theorem C16_same_order (hK : SizeExact K) (hV : SizeExact V) (env : Env) (m : HMap K V)
    (hk : ∀ e ∈ m.entries, HKey.hashOk e.1 = true) (hn : NodupKeys m.entries)
    (hr : ∀ e ∈ m.entries, RoundTrips env e.1 ∧ RoundTrips env e.2)
    (hs : (enc m).length < 2 ^ 32) : RoundTrips env m := fun rest => by
  obtain ⟨l⟩ := m
  rw [reads_hmap hK hV env l hk hr (small_of_length hK hV hs), insertAll_fresh l [] hn]
  rfl

/-! ## C17: repeated keys -/

omit [Encode K] [Encode V] in
/-- **C17**, uniqueness: whatever the input, a decoded map never holds two equal
keys. -/
theorem C17_keys_unique (env : Env) (input rest : Bytes) (m : HMap K V)
    (h : decode (HMap K V) env input = .ok (rest, m)) :
    NodupKeys m.entries ∧ ∀ e ∈ m.entries, HKey.hashOk e.1 = true := by
  obtain ⟨c, t, rfl, h1⟩ := decode_ok h
  obtain ⟨l, h2, rfl⟩ := map_eq_ok.1 h1
  obtain ⟨r1, hd, _, h3⟩ := bind_eq_ok.1 h2
  obtain ⟨_, rfl, r', h4⟩ := withSlice_ok h3
  exact mapLoop_nodup _ _ _ _ _ List.Pairwise.nil (by simp) h4

/-- **C17**, last value wins: if the entries `l`, with any number of repeated
keys, are encoded one after the other, the decoded map gives every key the value
of its last occurrence in `l`, and no value to keys not in `l`. -/
theorem C17_last_value_wins [LawfulKey K] (hK : SizeExact K) (hV : SizeExact V) (env : Env) (l : List (K × V)) (rest : Bytes)
    (hk : ∀ e ∈ l, HKey.hashOk e.1 = true)
    (hr : ∀ e ∈ l, RoundTrips env e.1 ∧ RoundTrips env e.2)
    (hs : (enc (⟨l⟩ : HMap K V)).length < 2 ^ 32) :
    ∃ m : HMap K V, decode (HMap K V) env (enc (⟨l⟩ : HMap K V) ++ rest) = .ok (rest, m) ∧
      NodupKeys m.entries ∧
      ∀ k, HKey.hashOk k = true → valueOf k m.entries = lastValueOf k l := by
  refine ⟨⟨insertAll [] l⟩, reads_hmap hK hV env l hk hr (small_of_length hK hV hs) rest,
    insertAll_nodup l [] List.Pairwise.nil, fun k h => ?_⟩
  rw [insertAll_valueOf h l [] (by simp) hk]
  simp [valueOf]

end

/-- A three-entry map with string keys, and another iteration order of it. -/
example : decode (HMap Symbol UInt32) debugEnv
    (enc (⟨[(⟨.lit "b"⟩, 2), (⟨.lit "a"⟩, 1)]⟩ : HMap Symbol UInt32) ++ [7]) =
    .ok ([7], ⟨[(⟨.lit "b"⟩, 2), (⟨.lit "a"⟩, 1)]⟩) := by decide +kernel
example : ∃ out : HMap Symbol UInt32, decode (HMap Symbol UInt32) debugEnv
    (enc (⟨[(⟨.lit "b"⟩, 2), (⟨.lit "a"⟩, 1)]⟩ : HMap Symbol UInt32) ++ [7]) = .ok ([7], out) ∧
    out.entries.Perm [(⟨.lit "a"⟩, 1), (⟨.lit "b"⟩, 2)] :=
  let ⟨o, h1, h2, _⟩ := C16_map_round_trip LawfulEnc.size_eq LawfulEnc.size_eq debugEnv
    (⟨[(⟨.lit "a"⟩, 1), (⟨.lit "b"⟩, 2)]⟩ : HMap Symbol UInt32)
    [(⟨.lit "b"⟩, 2), (⟨.lit "a"⟩, 1)] (List.Perm.swap _ _ _) (by decide +kernel)
    (by unfold NodupKeys; decide +kernel)
    (fun e he => ⟨(C02_text_round_trip debugEnv).2.2 e.1 (by
        revert e; decide +kernel), (C01_fixed_round_trip debugEnv).2.2.2.1 e.2⟩)
    (by decide +kernel) [7]
  ⟨o, h1, h2⟩

/-- The repeated key `a` keeps its last value. -/
example : decode (HMap Symbol UInt32) debugEnv
    (enc (⟨[(⟨.lit "a"⟩, 2), (⟨.lit "b"⟩, 1), (⟨.lit "a"⟩, 3)]⟩ : HMap Symbol UInt32)) =
    .ok ([], ⟨[(⟨.lit "a"⟩, 3), (⟨.lit "b"⟩, 1)]⟩) := by decide +kernel

/-- **C17** for variants, at every depth: the maps inside any decoded variant have
distinct, hashable keys. -/
theorem C17_variant_keys_unique (env : Env) (input rest : Bytes) (v : Variant)
    (h : decode Variant env input = .ok (rest, v)) : v.Valid :=
  (yield_decVar env env.stackDepth input rest v h).1.valid

example : (Variant.map [(.symbol ⟨.lit "k"⟩, .map [(.null, .null)])]).Valid :=
  C17_variant_keys_unique debugEnv [0xc1, 11, 2, 0xa3, 1, 107, 0xc1, 5, 4, 0x40, 0x41, 0x40, 0x40] []
    _ rfl

/-- **C17** for variant maps: last value wins. -/
theorem C17_variant_last_value_wins (env : Env) (l : List (Variant × Variant)) (rest : Bytes)
    (hk : ∀ e ∈ l, e.1.hashOk = true)
    (hr : ∀ e ∈ l, e.1.Survives ∧ e.2.Survives)
    (hd : depthMap l < env.stackDepth)
    (hs : (enc (Variant.map l)).length < 2 ^ 32) :
    ∃ m, decode Variant env (enc (Variant.map l) ++ rest) = .ok (rest, .map m) ∧
      NodupKeys m ∧ ∀ k : Variant, k.hashOk = true → valueOf k m = lastValueOf k l := by
  obtain ⟨n, hn⟩ : ∃ n, env.stackDepth = n + 1 := ⟨env.stackDepth - 1, by omega⟩
  have hd' := depthMap_le (m := l) (d := n) (by omega)
  have hs0 : (Variant.map l).vsize < 2 ^ 32 := by rw [Variant.vsize_eq]; exact hs
  have hs' : vsizeMap l + 4 < 2 ^ 32 := compoundSize_small (by simpa only [Variant.vsize] using hs0)
  have hlt : ∀ e ∈ l, e.1.vsize < 2 ^ 32 ∧ e.2.vsize < 2 ^ 32 := fun e he => by
    have := vsizeMap_mem he; omega
  obtain ⟨c, w, e, hc, hr⟩ := reads_map (kd := decVar env n) (vd := decVar env n)
    (ks := Variant.vsize) (vs := Variant.vsize) (ke := Variant.venc) (ve := Variant.venc) (l := l) env
    (fun e he => ⟨reads_variant env e.1 ((hr e he).1.good _ (hlt e he).1) _ (hd' e he).1,
      e.1.vsize_eq, e.1.vsize_eq ▸ List.length_pos_iff.2 e.1.venc_ne, hk e he⟩)
    (fun e he => ⟨reads_variant env e.2 ((hr e he).2.good _ (hlt e he).2) _ (hd' e he).2,
      e.2.vsize_eq, e.2.vsize_eq ▸ List.length_pos_iff.2 e.2.venc_ne⟩)
    (by rw [← vsizeMap_eq]; exact hs')
  refine ⟨insertAll [] l, ?_, insertAll_nodup l [] List.Pairwise.nil, fun k h => ?_⟩
  · have e' : enc (Variant.map l) = c :: w := by
      show (Variant.map l).venc = _
      rw [← e, ← vsizeMap_eq, ← vencMap_eq]
      simp only [Variant.venc]
    rw [e']
    show decVariant env env.stackDepth c (w ++ rest) = _
    rw [hn]
    have h2 := (hr.map Variant.map) rest
    rcases hc with rfl | rfl <;> exact h2
  · rw [insertAll_valueOf h l [] (by simp) hk]
    simp [valueOf]

example : ∃ m, decode Variant debugEnv (enc (Variant.map
    [(.float ⟨0⟩, .uint 1), (.null, .null), (.float ⟨0x80000000⟩, .uint 2)]) ++ [9]) =
      .ok ([9], .map m) ∧ valueOf (Variant.float ⟨0⟩) m = some (.uint 2) := by
  obtain ⟨m, h1, _, h2⟩ := C17_variant_last_value_wins debugEnv
    [(.float ⟨0⟩, .uint 1), (.null, .null), (.float ⟨0x80000000⟩, .uint 2)] [9]
    (by simp [Variant.hashOk]) (by simp [Variant.Survives]) (by decide) (by decide)
  exact ⟨m, h1, h2 _ rfl⟩

/-- **C16** for variant maps: if one iteration order of a map survives, every
order does; the results compare equal and have the same encoded size. -/
theorem C16_variant_order (env : Env) (m order : List (Variant × Variant)) (hp : order.Perm m)
    (hm : (Variant.map m).Survives) (hd : (Variant.map m).depth ≤ env.stackDepth)
    (hs : (enc (Variant.map m)).length < 2 ^ 32) :
    RoundTrips env (Variant.map order) ∧ size (Variant.map order) = size (Variant.map m) ∧
      ((Variant.map m).Valid → (Variant.map order).veq (.map m) = true) := by
  simp only [Variant.Survives, survivesMap_iff] at hm
  have hko : KeysOk order := KeysOk.perm hp.symm ⟨hm.2.1, hm.2.2⟩
  have hsz : size (Variant.map order) = size (Variant.map m) := by
    show (Variant.map order).vsize = (Variant.map m).vsize
    simp only [Variant.vsize, vsizeMap_eq, mapContentSize_perm _ _ hp]
  have hdep : depthMap order ≤ depthMap m := depthMap_le_of fun e he =>
    depthMap_le (Nat.le_refl _) e (hp.mem_iff.1 he)
  refine ⟨?_, hsz, fun hv => ?_⟩
  · apply C14_round_trip_partial
    · simp only [Variant.Survives, survivesMap_iff]
      exact ⟨fun e he => hm.1 e (hp.mem_iff.1 he), hko.1, hko.2⟩
    · have h1 : size (Variant.map order) = (enc (Variant.map order)).length := LawfulEnc.size_eq _
      have h2 : size (Variant.map m) = (enc (Variant.map m)).length := LawfulEnc.size_eq _
      omega
    · simp only [Variant.depth] at hd ⊢; omega
  · simp only [Variant.Valid, validMap_iff] at hv
    refine (veq_map_iff hko ⟨hm.2.1, hm.2.2⟩).2 ⟨order, hp, All2.refl fun e he => ?_⟩
    have := hv.1 e (hp.mem_iff.1 he)
    exact ⟨veq_refl _ this.1, veq_refl _ this.2⟩

example : (Variant.map [(.null, .uint 1), (.uint 0, .null)]).Survives ∧
    [(Variant.uint 0, Variant.null), (.null, .uint 1)].Perm [(.null, .uint 1), (.uint 0, .null)] :=
  ⟨by simp [Variant.Survives, survivesMap, Variant.hashOk, NodupKeys, HKey.keq, Variant.veq],
    List.Perm.swap _ _ _⟩

/-! ## C18: arrays -/

section
variable {α : Type} [ArrayEncode α] [DecodeF α]

omit [DecodeF α] in
theorem arrayContentSize_flatMap (hsz : ItemSizeExact α) (l : List α) :
    arrayContentSize l = (l.flatMap aenc).length := by
  induction l with
  | nil => rfl
  | cons a t ih => simp only [arrayContentSize, ih, (hsz a).1, List.flatMap_cons, List.length_append]

/-- **C18.** An array of round-tripping items with less than 4 GiB of item bytes
round-trips, unless the build checks for overflow and the items take exactly
254 bytes; in that case it does not. -/
theorem C18_array_iff (hsz : ItemSizeExact α) (env : Env) (v : Vec α)
    (hi : ∀ a ∈ v.items, ItemRoundTrips env a) (hs : (v.items.flatMap aenc).length + 5 < 2 ^ 32) :
    RoundTrips env v ↔
      ¬ (env.overflowChecks = true ∧ (v.items.flatMap aenc).length = 254) := by
  letI : HasWf α := ⟨fun _ _ => False⟩
  haveI : LawfulArray α := ⟨fun v => (hsz v).1, fun v => by rw [(hsz v).1]; exact (hsz v).2,
    fun _ _ h => h.elim⟩
  have e := arrayContentSize_flatMap hsz v.items
  constructor
  · rintro h ⟨h1, h2⟩
    have h3 := h []
    have : enc v = 0xe0 :: 0 :: UInt8.ofNat v.items.length ::
        (ArrayEncode.code α :: arrayContent v.items) := by
      simp only [enc]
      rw [e, h2]; rfl
    rw [this] at h3
    have h4 : ∀ (a : UInt8) (t : Bytes), decode (Vec α) env (0xe0 :: 0 :: a :: t) =
        .panic .overflow := by
      intro a t
      rw [decode_cons]
      show (decodeCompound8 env >>= _) _ = _
      have : decodeCompound8 env (0 :: a :: t) = .panic .overflow := by
        show (subChecked env 8 0 1 >>= _) t = _
        have : subChecked env 8 0 1 = Dec.abort .overflow := by
          unfold subChecked; rw [if_neg (by decide), if_pos h1]
        rw [this]; rfl
      exact bind_panic this
    rw [List.cons_append, List.cons_append, List.cons_append, h4] at h3
    cases h3
  · intro h
    exact LawfulCodec.rt env v ⟨hi, by omega, fun h1 h2 => h ⟨h1, by omega⟩⟩

/-- **C18** (full statement). -/
def C18_statement (α : Type) [ArrayEncode α] [DecodeF α] : Prop := ∀ (env : Env) (v : Vec α),
  (∀ a ∈ v.items, ItemRoundTrips env a) → (v.items.flatMap aenc).length + 5 < 2 ^ 32 →
  RoundTrips env v

/-- **C18**, the part that holds of `C18_statement`.  Missing: builds with
overflow checks and exactly 254 bytes of items. -/
theorem C18_array_round_trip_partial (hsz : ItemSizeExact α) (env : Env) (v : Vec α)
    (hi : ∀ a ∈ v.items, ItemRoundTrips env a) (hs : (v.items.flatMap aenc).length + 5 < 2 ^ 32)
    (h254 : env.overflowChecks = true → (v.items.flatMap aenc).length ≠ 254) :
    RoundTrips env v :=
  (C18_array_iff hsz env v hi hs).2 fun h => h254 h.1 h.2

theorem multiple_of_vec {env : Env} {items : List α} {rest : Bytes}
    (h : decode (Vec α) env (enc (Vec.mk items) ++ rest) = .ok (rest, ⟨items⟩)) :
    decode (Multiple α) env (enc (Vec.mk items) ++ rest) = .ok (rest, ⟨items⟩) := by
  have key : ∀ c w, enc (Vec.mk items) = c :: w → (c = FC.array8 ∨ c = FC.array32) →
      decode (Multiple α) env (enc (Vec.mk items) ++ rest) = .ok (rest, ⟨items⟩) := by
    intro c w e hc
    rw [e] at h ⊢
    rw [List.cons_append, decode_cons] at h ⊢
    have : decF (α := Multiple α) env c = (fun v : Vec α => ⟨v.items⟩) <$> decF env c := if_pos hc
    rw [this]
    exact map_ok h
  by_cases hc : arrayContentSize items + 1 > 255
  · exact key FC.array32 _ (by simp only [enc]; rw [if_pos hc]; rfl) (.inr rfl)
  · exact key FC.array8 _ (by simp only [enc]; rw [if_neg hc]; rfl) (.inl rfl)

/-- **C18**: a `Multiple` holding one item is written as the item itself and read
back; any other number of items is written as an array. -/
theorem C18_multiple_round_trip_partial [Encode α] (hsz : ItemSizeExact α)
    (hcode : ∀ (a : α) c w, enc a = c :: w → c ≠ 0xe0 ∧ c ≠ 0xf0) (env : Env) (m : Multiple α)
    (h1 : ∀ a, m.items = [a] → RoundTrips env a)
    (hn : m.items.length ≠ 1 → (∀ a ∈ m.items, ItemRoundTrips env a) ∧
      (m.items.flatMap aenc).length + 5 < 2 ^ 32 ∧
      (env.overflowChecks = true → (m.items.flatMap aenc).length ≠ 254)) :
    RoundTrips env m ∧ (∀ a, m.items = [a] → enc m = enc a) ∧
      (m.items.length ≠ 1 → enc m = enc (Vec.mk m.items)) := by
  obtain ⟨items⟩ := m
  match items, h1, hn with
  | [a], h1, _ =>
    refine ⟨?_, fun b hb => by simp at hb; subst hb; rfl, fun h => absurd rfl h⟩
    intro rest
    have hr := h1 a rfl
    cases e : enc a with
    | nil => have := hr []; rw [e] at this; cases this
    | cons c w =>
      have h2 := hr rest
      rw [e] at h2
      have hc := hcode a c w e
      show Amqp.decode (Multiple α) env (c :: w ++ rest) = _
      rw [List.cons_append, decode_cons]
      have : decF (α := Multiple α) env c = (fun x => ⟨[x]⟩) <$> decF env c :=
        if_neg (fun h => h.elim hc.1 hc.2)
      rw [this]
      exact map_ok h2
  | [], _, hn =>
    obtain ⟨g1, g2, g3⟩ := hn (by simp)
    have := C18_array_round_trip_partial hsz env ⟨[]⟩ g1 g2 g3
    refine ⟨?_, fun a h => by simp at h, fun _ => rfl⟩
    intro rest
    exact multiple_of_vec (this rest)
  | a :: b :: t, _, hn =>
    obtain ⟨g1, g2, g3⟩ := hn (by simp)
    have := C18_array_round_trip_partial hsz env ⟨a :: b :: t⟩ g1 g2 g3
    refine ⟨?_, fun a h => by simp at h, fun _ => rfl⟩
    intro rest
    exact multiple_of_vec (this rest)

end

/-- **C18** for the item types the protocol uses. -/
theorem C18_item_sizes :
    ItemSizeExact Bool ∧ ItemSizeExact UInt8 ∧ ItemSizeExact UInt16 ∧ ItemSizeExact UInt32 ∧
    ItemSizeExact UInt64 ∧ ItemSizeExact Int8 ∧ ItemSizeExact Int16 ∧ ItemSizeExact Int32 ∧
    ItemSizeExact Int64 ∧ ItemSizeExact F32 ∧ ItemSizeExact F64 ∧ ItemSizeExact Char ∧
    ItemSizeExact DateTime ∧ ItemSizeExact Uuid ∧ ItemSizeExact Binary ∧ ItemSizeExact Str ∧
    ItemSizeExact Symbol := by
  have h : ∀ (α : Type) [ArrayEncode α] [DecodeF α] [HasWf α] [LawfulArray α], ItemSizeExact α :=
    fun α _ _ _ _ v => ⟨LawfulArray.asize_eq v, LawfulArray.asize_eq v ▸ LawfulArray.asize_pos v⟩
  exact ⟨h _, h _, h _, h _, h _, h _, h _, h _, h _, h _, h _, h _, h _, h _, h _, h _, h _⟩

theorem symbol_item_length (s : Symbol) : (aenc s).length = 4 + s.str.bytes.length := by
  simp [aenc]

theorem symbol_head (a : Symbol) (c : UInt8) (w : Bytes) (h : enc a = c :: w) :
    c ≠ 0xe0 ∧ c ≠ 0xf0 := by
  obtain ⟨c', w', e, h1, h2⟩ := NonArray.head a
  rw [e] at h
  injection h with h _
  subst h
  exact ⟨h1, h2⟩

/-- **C18** for `Multiple<Symbol>`, the type of every multiple-valued protocol
field: symbols whose array items take less than 4 GiB together (and, with overflow
checks, not exactly 254 bytes unless it is a single symbol) survive. -/
theorem C18_symbols_round_trip_partial (env : Env) (m : Multiple Symbol)
    (hs : (m.items.flatMap aenc).length + 5 < 2 ^ 32)
    (h254 : env.overflowChecks = true → m.items.length ≠ 1 →
      (m.items.flatMap aenc).length ≠ 254) : RoundTrips env m := by
  have hmem : ∀ a ∈ m.items, (aenc a).length ≤ (m.items.flatMap aenc).length := by
    intro a ha
    obtain ⟨l1, l2, e⟩ := List.append_of_mem ha
    rw [e]; simp only [List.flatMap_append, List.flatMap_cons, List.length_append]; omega
  have hlen : ∀ a ∈ m.items, a.str.bytes.length < 2 ^ 32 := fun a ha => by
    have h1 := hmem a ha
    rw [symbol_item_length] at h1; omega
  exact (C18_multiple_round_trip_partial C18_item_sizes.2.2.2.2.2.2.2.2.2.2.2.2.2.2.2.2
    symbol_head env m
    (fun a ha => (C02_text_round_trip env).2.2 a (hlen a (by rw [ha]; simp)))
    (fun hn => ⟨fun a ha => (C02_text_items_round_trip env).2.2 a (hlen a ha), hs,
      fun h => h254 h hn⟩)).1

/-- Two symbols, ordinary case. -/
example : RoundTrips debugEnv (⟨[⟨.lit "PLAIN"⟩, ⟨.lit "EXTERNAL"⟩]⟩ : Multiple Symbol) :=
  C18_symbols_round_trip_partial _ _ (by decide +kernel) (by decide +kernel)

/-- Two symbols whose items take 254 bytes: 250 letters and the empty symbol
(`4 + 246 + 4`). -/
def symbols254 : Multiple Symbol :=
  ⟨[⟨⟨List.replicate 246 97, by decide +kernel⟩⟩, ⟨.lit ""⟩]⟩

/-- **C18 violated**: with overflow checks the decoder panics on the encoding of a
`Multiple` of two short symbols; without them it reads them back. -/
theorem C18_violated_254 :
    (∀ a ∈ symbols254.items, ItemRoundTrips debugEnv a) ∧
    (symbols254.items.flatMap aenc).length = 254 ∧
    decode (Multiple Symbol) debugEnv (enc symbols254) = .panic .overflow ∧
    RoundTrips releaseEnv symbols254 := by
  refine ⟨fun a ha => (C02_text_items_round_trip debugEnv).2.2 a ?_, by decide +kernel,
    by decide +kernel, C18_symbols_round_trip_partial _ _ (by decide +kernel) (by decide)⟩
  revert a
  decide +kernel

/-- So C18 as stated is false. -/
theorem C18_violated_witness : ¬ C18_statement Symbol := by
  intro h
  have h1 := h debugEnv ⟨symbols254.items⟩ C18_violated_254.1 (by rw [C18_violated_254.2.1]; decide)
  exact (C18_array_iff C18_item_sizes.2.2.2.2.2.2.2.2.2.2.2.2.2.2.2.2 debugEnv
    ⟨symbols254.items⟩ C18_violated_254.1 (by rw [C18_violated_254.2.1]; decide)).1 h1
    ⟨rfl, C18_violated_254.2.1⟩

/-! ## C43: equality of variants -/

/-- **C43.** `==` is an equivalence on the values a program can hold. -/
theorem C43_equivalence :
    (∀ a : Variant, a.Valid → a.veq a = true) ∧
    (∀ a b : Variant, a.Valid → b.Valid → a.veq b = true → b.veq a = true) ∧
    (∀ a b c : Variant, a.Valid → b.Valid → c.Valid → a.veq b = true → b.veq c = true →
      a.veq c = true) :=
  ⟨veq_refl, veq_symm, veq_trans⟩

/-- **C43**: two maps are equal exactly if some reordering of the second matches
the first entry by entry; in particular iteration order does not matter. -/
theorem C43_map_equality (a b : List (Variant × Variant)) (ha : (Variant.map a).Valid)
    (hb : (Variant.map b).Valid) :
    (Variant.map a).veq (.map b) = true ↔ ∃ b' : List (Variant × Variant), b'.Perm b ∧ a.length = b'.length ∧
      ∀ i (h1 : i < a.length) (h2 : i < b'.length),
        a[i].1.veq b'[i].1 = true ∧ a[i].2.veq b'[i].2 = true := by
  simp only [Variant.Valid] at ha hb
  rw [veq_map_iff ⟨ha.2.1, ha.2.2⟩ ⟨hb.2.1, hb.2.2⟩]
  constructor
  · rintro ⟨b', p, h⟩
    exact ⟨b', p, h.length, fun i h1 h2 => All2.getElem h i h1 h2⟩
  · rintro ⟨b', p, hl, h⟩
    exact ⟨b', p, All2.of_getElem hl h⟩

/-- **C43**: reordering a map gives an equal map. -/
theorem C43_order_irrelevant (a b : List (Variant × Variant)) (p : a.Perm b)
    (hb : (Variant.map b).Valid) : (Variant.map a).veq (.map b) = true := by
  have hb' := hb
  simp only [Variant.Valid, validMap_iff] at hb'
  have ha : (Variant.map a).Valid := by
    have := KeysOk.perm p.symm ⟨hb'.2.1, hb'.2.2⟩
    simp only [Variant.Valid, validMap_iff]
    exact ⟨fun e he => hb'.1 e (p.mem_iff.1 he), this.1, this.2⟩
  rw [C43_map_equality a b ha hb]
  refine ⟨a, p, rfl, fun i h1 _ => ?_⟩
  have := hb'.1 a[i] (p.mem_iff.1 (List.getElem_mem h1))
  exact ⟨veq_refl _ this.1, veq_refl _ this.2⟩

/-- **C43**: floats. NaNs (any payload, any sign) equal each other and nothing
else; the two zeros are equal; otherwise equality is equality of bits. -/
theorem C43_floats (x y : F32) (u w : F64) :
    ((Variant.float x).veq (.float y) = true ↔
      (x.isNaN = true ∧ y.isNaN = true) ∨ (x.isNaN = false ∧ y.isNaN = false ∧
        (x = y ∨ ((x.bits = 0 ∨ x.bits = 0x80000000) ∧ (y.bits = 0 ∨ y.bits = 0x80000000))))) ∧
    ((Variant.double u).veq (.double w) = true ↔
      (u.isNaN = true ∧ w.isNaN = true) ∨ (u.isNaN = false ∧ w.isNaN = false ∧
        (u = w ∨ ((u.bits = 0 ∨ u.bits = 0x8000000000000000) ∧
          (w.bits = 0 ∨ w.bits = 0x8000000000000000))))) := by
  have z32 : ∀ b : UInt32, b.toNat % 0x80000000 = 0 ↔ b = 0 ∨ b = 0x80000000 := by
    intro b
    rw [← UInt32.toNat_inj, ← UInt32.toNat_inj]
    have := b.toNat_lt
    simp only [UInt32.reduceToNat, UInt32.toNat_zero]
    omega
  have z64 : ∀ b : UInt64, b.toNat % 0x8000000000000000 = 0 ↔ b = 0 ∨ b = 0x8000000000000000 := by
    intro b
    rw [← UInt64.toNat_inj, ← UInt64.toNat_inj]
    have := b.toNat_lt
    simp only [UInt64.reduceToNat, UInt64.toNat_zero]
    omega
  have e32 : ∀ x y : F32, x = y ↔ x.bits = y.bits := by
    rintro ⟨a⟩ ⟨b⟩; simp
  have e64 : ∀ x y : F64, x = y ↔ x.bits = y.bits := by
    rintro ⟨a⟩ ⟨b⟩; simp
  constructor
  · simp only [Variant.veq, F32.feq]
    cases x.isNaN <;> cases y.isNaN <;> simp [z32, e32]
  · simp only [Variant.veq, F64.feq]
    cases u.isNaN <;> cases w.isNaN <;> simp [z64, e64]

/-- **C43**: which bits are NaN: sign, then all ones in the exponent, then anything but zero. -/
theorem C43_nan (x : F32) (u : F64) :
    (x.isNaN = true ↔ ∃ sign mantissa, sign < 2 ∧ 0 < mantissa ∧ mantissa < 2 ^ 23 ∧
      x.bits.toNat = sign * 2 ^ 31 + 255 * 2 ^ 23 + mantissa) ∧
    (u.isNaN = true ↔ ∃ sign mantissa, sign < 2 ∧ 0 < mantissa ∧ mantissa < 2 ^ 52 ∧
      u.bits.toNat = sign * 2 ^ 63 + 2047 * 2 ^ 52 + mantissa) := by
  have h32 := x.bits.toNat_lt
  have h64 := u.bits.toNat_lt
  simp only [F32.isNaN, F64.isNaN, decide_eq_true_eq]
  generalize x.bits.toNat = n at *
  generalize u.bits.toNat = m at *
  constructor
  · constructor
    · intro h
      exact ⟨n / 2 ^ 31, n % 2 ^ 31 - 255 * 2 ^ 23, by omega, by omega, by omega, by omega⟩
    · rintro ⟨s, t, h1, h2, h3, rfl⟩; omega
  · constructor
    · intro h
      exact ⟨m / 2 ^ 63, m % 2 ^ 63 - 2047 * 2 ^ 52, by omega, by omega, by omega, by omega⟩
    · rintro ⟨s, t, h1, h2, h3, rfl⟩; omega

example : (Variant.float ⟨0x7fc00000⟩).veq (.float ⟨0xffc00001⟩) = true ∧
    (Variant.double ⟨0⟩).veq (.double ⟨0x8000000000000000⟩) = true ∧
    (Variant.float ⟨1⟩).veq (.float ⟨2⟩) = false := by decide
example : sampleVariant.Valid := by
  simp [sampleVariant, Variant.Valid, validMap, NodupKeys, Variant.hashOk, HKey.keq, Variant.veq]

/-! ## C45 for variants -/

/-- **C45**: a variant decoded from any input below 1.4 GB, if it contains no list
and no descriptor 0, round-trips; and its encoding is at most three times as long
as the bytes it was read from. -/
theorem C45_decoded_variant (env : Env) (input rest : Bytes) (v : Variant)
    (h : decode Variant env input = .ok (rest, v)) :
    (enc v).length + 3 * rest.length ≤ 3 * input.length ∧
      (3 * input.length < 2 ^ 32 → v.Plain → RoundTrips env v) := by
  obtain ⟨h1, h2⟩ := yield_decVar env env.stackDepth input rest v h
  have e : v.vsize = (enc v).length := v.vsize_eq
  refine ⟨by omega, fun hs hp => ?_⟩
  exact C14_round_trip_partial env v (h1.survives hp) (by omega) h1.depth

/-- A map written in the wide form, re-encoded in the narrow one. -/
example : RoundTrips debugEnv (Variant.map [(.uint 1, .null)]) :=
  (C45_decoded_variant debugEnv
    [0xd1, 0, 0, 0, 10, 0, 0, 0, 2, 0x70, 0, 0, 0, 1, 0x40, 9] [9] (.map [(.uint 1, .null)]) rfl).2 (by decide)
    (by simp [Variant.Plain, plainMap])

/-! ## C46: ordered maps with repetitions -/

/-- **C46.** A `VecVariantMap` whose keys and values survive comes back with the
same entries in the same order, repeated keys included. -/
theorem C46_vec_map_round_trip (env : Env) (m : VecVariantMap)
    (hv : ∀ e ∈ m.entries, e.2.Survives ∧ e.2.depth ≤ env.stackDepth)
    (hs : (enc m).length < 2 ^ 32) : RoundTrips env m := by
  have e : compoundSize (mapContentSize size size m.entries) = (enc m).length := LawfulEnc.size_eq m
  have hsm : mapContentSize size size m.entries + 4 < 2 ^ 32 :=
    compoundSize_small (by rw [e]; exact hs)
  have hmem : ∀ e ∈ m.entries, size e.1 + size e.2 ≤ mapContentSize size size m.entries :=
    fun e he => mapContentSize_mem _ _ he
  refine LawfulCodec.rt env m ⟨fun e he => ⟨?_, ?_⟩, hsm⟩
  · refine (C02_text_round_trip env).2.1 e.1 ?_
    have h1 := hmem e he
    have h2 : e.1.bytes.length ≤ size e.1 := varSize_ge _
    omega
  · refine C14_round_trip_partial env e.2 (hv e he).1 ?_ (hv e he).2
    have h1 := hmem e he
    have h2 : size e.2 = (enc e.2).length := LawfulEnc.size_eq e.2
    omega

/-- Two values for the same key are both kept. -/
example : RoundTrips debugEnv
    (⟨[(.lit "a", .uint 1), (.lit "b", .null), (.lit "a", .uint 2)]⟩ : VecVariantMap) :=
  C46_vec_map_round_trip _ _ (by simp [Variant.Survives, Variant.depth, debugEnv]) (by decide +kernel)

/-- **C46**: a receiver that reads the same bytes as a `HashMap<Str, Variant>` sees,
for every key, the last of its values. -/
theorem C46_read_as_hash_map (env : Env) (m : VecVariantMap) (rest : Bytes)
    (hv : ∀ e ∈ m.entries, e.2.Survives ∧ e.2.depth ≤ env.stackDepth)
    (hs : (enc m).length < 2 ^ 32) :
    ∃ out : HMap Str Variant, decode (HMap Str Variant) env (enc m ++ rest) = .ok (rest, out) ∧
      ∀ k : Str, valueOf k out.entries = lastValueOf k m.entries := by
  have hw := C46_vec_map_round_trip env m hv hs
  have hmem : ∀ e ∈ m.entries, size e.1 + size e.2 ≤ mapContentSize size size m.entries :=
    fun e he => mapContentSize_mem _ _ he
  have e : compoundSize (mapContentSize size size m.entries) = (enc m).length := LawfulEnc.size_eq m
  have hsm : mapContentSize size size m.entries + 4 < 2 ^ 32 :=
    compoundSize_small (by rw [e]; exact hs)
  obtain ⟨out, h1, _, h2⟩ := C17_last_value_wins (K := Str) (V := Variant) LawfulEnc.size_eq
    LawfulEnc.size_eq env m.entries rest (fun _ _ => rfl)
    (fun e he => ⟨(C02_text_round_trip env).2.1 e.1 (by
      have h1 := hmem e he
      have h2 : e.1.bytes.length ≤ size e.1 := varSize_ge _
      omega), C14_round_trip_partial env e.2 (hv e he).1 (by
      have h1 := hmem e he
      have h2 : size e.2 = (enc e.2).length := LawfulEnc.size_eq e.2
      omega) (hv e he).2⟩) hs
  exact ⟨out, h1, fun k => h2 k rfl⟩

end Amqp
