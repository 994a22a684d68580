import Verif.Proofs.VariantEq
import Verif.Props.Laws
/-!
# What comes out of the variant decoder
-/
set_option autoImplicit false
namespace Amqp
open Dec

/-- Whatever `d` yields satisfies `P input remainder value`. -/
def Dec.Post {α : Type} (d : Dec α) (P : Bytes → Bytes → α → Prop) : Prop :=
  ∀ i r a, d i = .ok (r, a) → P i r a

theorem Dec.Post.ite {α : Type} {c : Prop} [Decidable c] {d e : Dec α}
    {P : Bytes → Bytes → α → Prop} (hd : Post d P) (he : Post e P) :
    Post (if c then d else e) P := by split <;> assumption
theorem Dec.Post.fail {α : Type} {P : Bytes → Bytes → α → Prop} (e : ParseError) :
    Post (Dec.fail e : Dec α) P := fun _ _ _ h => by cases h

theorem plainMap_iff (m : List (Variant × Variant)) :
    plainMap m ↔ ∀ e ∈ m, e.1.Plain ∧ e.2.Plain := by
  induction m with
  | nil => simp [plainMap]
  | cons e t ih => obtain ⟨k, v⟩ := e; simp [plainMap, ih]

/-- What is known of a decoded variant: valid, not nested deeper than the budget,
surviving if it contains no list and no descriptor 0. -/
structure Decoded (d : Nat) (v : Variant) : Prop where
  valid : v.Valid
  depth : v.depth ≤ d
  survives : v.Plain → v.Survives

/-- Decoded, and its encoding is at most three times as long as the input used. -/
def Yield (d : Nat) (extra : Nat) (i r : Bytes) (v : Variant) : Prop :=
  Decoded d v ∧ v.vsize + 3 * r.length ≤ 3 * (i.length + extra)

theorem yield_leaf {α : Type} [Encode α] [DecodeF α] [LawfulEnc α] {env : Env} {d : Nat}
    {fmt : UInt8} (f : α → Variant) (hs : ShortestEncoding α)
    (hsz : ∀ a, (f a).vsize = size a) (hv : ∀ a, (f a).Valid) (hd : ∀ a, (f a).depth = 1)
    (hq : ∀ a, (∃ i r, decF env fmt i = .ok (r, a)) → (f a).Survives) :
    Post (f <$> decF env fmt) (Yield (d + 1) 1) := by
  intro i r v h
  obtain ⟨a, h0, rfl⟩ := map_eq_ok.1 h
  have h1 := hs env (fmt :: i) r a h0
  refine ⟨⟨hv a, by rw [hd]; omega, fun _ => hq a ⟨i, r, h0⟩⟩, ?_⟩
  rw [hsz, LawfulEnc.size_eq]
  simp only [List.length_cons] at h1
  omega

theorem yield_pure {d : Nat} (v : Variant) (hv : v.Valid) (hd : v.depth = 1)
    (hs : v.Plain → v.Survives) (hsz : v.vsize ≤ 3) : Post (pure v : Dec Variant) (Yield (d + 1) 1) := by
  intro i r w h
  injection h with h; injection h with h1 h2
  subst h1 h2
  exact ⟨⟨hv, by omega, hs⟩, by omega⟩

theorem yield_decodeN {d : Nat} {vd : Dec Variant} (hvd : Post vd (Yield d 0)) :
    ∀ n i r l, decodeN vd n i = .ok (r, l) →
      (∀ v ∈ l, Decoded d v) ∧ vsizeList l + 3 * r.length ≤ 3 * i.length
  | 0, i, r, l, h => by
    injection h with h; injection h with h1 h2
    subst h1 h2
    simp [vsizeList]
  | n + 1, i, r, l, h => by
    obtain ⟨r1, v, h1, h⟩ := bind_eq_ok.1 h
    obtain ⟨r2, t, h2, h⟩ := bind_eq_ok.1 h
    injection h with h; injection h with h3 h4
    subst h3 h4
    obtain ⟨g1, g2⟩ := hvd _ _ _ h1
    obtain ⟨g3, g4⟩ := yield_decodeN hvd n _ _ _ h2
    refine ⟨fun w hw => ?_, by simp only [vsizeList]; omega⟩
    rcases List.mem_cons.1 hw with rfl | hw
    · exact g1
    · exact g3 w hw

theorem compound8_ok {env : Env} {i r : Bytes} {h : CompoundHeader}
    (hd : decodeCompound8 env i = .ok (r, h)) : i.length = r.length + 2 := by
  obtain ⟨r1, b, h1, hd1⟩ := bind_eq_ok.1 hd
  obtain ⟨r2, n, h2, hd2⟩ := bind_eq_ok.1 hd1
  obtain ⟨rfl, hl⟩ := takeN_ok h1
  injection hd2 with hd2; injection hd2 with h3 _
  subst h3
  have : r2 = r1 := by
    unfold subChecked at h2
    split at h2
    · injection h2 with h2; injection h2 with h2 _; exact h2.symm
    · split at h2
      · cases h2
      · injection h2 with h2; injection h2 with h2 _; exact h2.symm
  subst this
  simp; omega
theorem compound32_ok {env : Env} {i r : Bytes} {h : CompoundHeader}
    (hd : decodeCompound32 env i = .ok (r, h)) : i.length = r.length + 8 := by
  obtain ⟨r1, b, h1, hd1⟩ := bind_eq_ok.1 hd
  obtain ⟨r2, n, h2, hd2⟩ := bind_eq_ok.1 hd1
  obtain ⟨rfl, hl⟩ := takeN_ok h1
  injection hd2 with hd2; injection hd2 with h3 _
  subst h3
  have : r2 = r1 := by
    unfold subChecked at h2
    split at h2
    · injection h2 with h2; injection h2 with h2 _; exact h2.symm
    · split at h2
      · cases h2
      · injection h2 with h2; injection h2 with h2 _; exact h2.symm
  subst this
  simp; omega

theorem listHeader_ok {env : Env} {fmt : UInt8} {i r : Bytes} {h : CompoundHeader}
    (hd : decodeListHeader env fmt i = .ok (r, h)) :
    r.length + 2 ≤ i.length ∨ (r = i ∧ h.count = 0) := by
  unfold decodeListHeader at hd
  split at hd
  · injection hd with hd; injection hd with h1 h2; subst h1 h2; exact .inr ⟨rfl, rfl⟩
  · split at hd
    · have := compound8_ok hd; left; omega
    · split at hd
      · have := compound32_ok hd; left; omega
      · cases hd
theorem mapHeader_ok {env : Env} {fmt : UInt8} {i r : Bytes} {h : CompoundHeader}
    (hd : decodeMapHeader env fmt i = .ok (r, h)) : r.length + 2 ≤ i.length := by
  unfold decodeMapHeader at hd
  split at hd
  · have := compound8_ok hd; omega
  · split at hd
    · have := compound32_ok hd; omega
    · cases hd

theorem compoundSize_le (n : Nat) : compoundSize n ≤ n + 9 := by
  unfold compoundSize; split <;> omega

theorem depthList_le_of {l : List Variant} {d : Nat} (h : ∀ v ∈ l, v.depth ≤ d) :
    depthList l ≤ d := by
  induction l with
  | nil => simp [depthList]
  | cons e t ih =>
    have h1 := h e (by simp)
    have h2 := ih (fun e he => h e (by simp [he]))
    simp only [depthList]; omega

theorem yield_list {env : Env} {d : Nat} {vd : Dec Variant} {fmt : UInt8}
    (hvd : Post vd (Yield d 0)) :
    Post (Variant.list <$> decodeListWith vd env fmt) (Yield (d + 1) 1) := by
  intro i r v h
  obtain ⟨l, h0, rfl⟩ := map_eq_ok.1 h
  clear h
  obtain ⟨r1, hd, h1, h⟩ := bind_eq_ok.1 h0
  obtain ⟨g1, g2⟩ := yield_decodeN hvd _ _ _ _ h
  refine ⟨⟨?_, ?_, ?_⟩, ?_⟩
  · simp only [Variant.Valid, validList_iff]; exact fun v hv => (g1 v hv).valid
  · simp only [Variant.depth]
    have := depthList_le_of fun v hv => (g1 v hv).depth
    omega
  · simp [Variant.Plain]
  · simp only [Variant.vsize]
    have := compoundSize_le (vsizeList l)
    rcases listHeader_ok h1 with h2 | ⟨rfl, h2⟩
    · omega
    · rw [h2] at h
      injection h with h; injection h with h3 h4
      subst h3 h4
      simp [compoundSize, vsizeList]; omega

theorem insertEntry_mem {K V : Type} (eq : K → K → Bool) (k : K) (v : V) (l : List (K × V))
    {e : K × V} (he : e ∈ insertEntry eq k v l) :
    e ∈ l ∨ e = (k, v) ∨ (e.2 = v ∧ e.1 ∈ l.map Prod.fst) := by
  induction l with
  | nil => simp only [insertEntry, List.mem_singleton] at he; simp [he]
  | cons x t ih =>
    obtain ⟨k', v'⟩ := x
    unfold insertEntry at he
    split at he
    · rcases List.mem_cons.1 he with rfl | he
      · right; right; simp
      · left; simp [he]
    · rcases List.mem_cons.1 he with rfl | he
      · left; simp
      · rcases ih he with h | h | ⟨h1, h2⟩
        · left; simp [h]
        · right; left; exact h
        · right; right; exact ⟨h1, by simp at h2 ⊢; exact .inr h2⟩

theorem nodupKeys_map {K V : Type} [HKey K] (l : List (K × V)) :
    NodupKeys l ↔ (l.map Prod.fst).Pairwise fun a b => HKey.keq b a = false := by
  unfold NodupKeys; rw [List.pairwise_map]

theorem insertEntry_nodup {K V : Type} [HKey K] (k : K) (v : V) {l : List (K × V)}
    (h : NodupKeys l) : NodupKeys (insertEntry HKey.keq k v l) := by
  rcases insertEntry_cases HKey.keq k v l with ⟨e, hf⟩ | ⟨_, e⟩
  · rw [e]
    refine List.pairwise_append.2 ⟨h, List.pairwise_singleton _ _, fun a ha b hb => ?_⟩
    rw [List.mem_singleton] at hb
    subst hb
    exact hf a ha
  · rw [nodupKeys_map, e, ← nodupKeys_map]; exact h

theorem insertEntry_size (k v : Variant) (l : List (Variant × Variant)) :
    vsizeMap (insertEntry HKey.keq k v l) ≤ vsizeMap l + k.vsize + v.vsize := by
  induction l with
  | nil => simp [insertEntry, vsizeMap]
  | cons x t ih =>
    obtain ⟨k', v'⟩ := x
    unfold insertEntry
    split
    · simp only [vsizeMap]; omega
    · simp only [vsizeMap]; omega

/-- The accumulator of the entry loop only ever holds good entries. -/
structure AccOk (d : Nat) (m : List (Variant × Variant)) : Prop where
  ent : ∀ e ∈ m, Decoded d e.1 ∧ Decoded d e.2
  hash : ∀ e ∈ m, e.1.hashOk = true
  nodup : NodupKeys m

theorem yield_mapLoop {d : Nat} {vd : Dec Variant} (hvd : Post vd (Yield d 0)) :
    ∀ n acc i r out, AccOk d acc → mapLoop vd vd n acc i = .ok (r, out) →
      AccOk d out ∧ vsizeMap out + 3 * r.length ≤ vsizeMap acc + 3 * i.length
  | 0, acc, i, r, out, ha, h => by
    injection h with h; injection h with h1 h2
    subst h1 h2
    exact ⟨ha, Nat.le_refl _⟩
  | n + 1, acc, i, r, out, ha, h => by
    obtain ⟨r1, k, r2, v, h1, h2, hh, h⟩ := mapLoop_succ h
    obtain ⟨gk, gk'⟩ := hvd _ _ _ h1
    obtain ⟨gv, gv'⟩ := hvd _ _ _ h2
    have hk : ∀ e ∈ insertEntry HKey.keq k v acc, (e.1 = k ∨ e.1 ∈ acc.map Prod.fst) ∧
        (e.2 = v ∨ e ∈ acc) := by
      intro e he
      rcases insertEntry_mem _ _ _ _ he with h | rfl | ⟨h1, h2⟩
      · exact ⟨.inr (List.mem_map_of_mem h), .inr h⟩
      · exact ⟨.inl rfl, .inl rfl⟩
      · exact ⟨.inr h2, .inl h1⟩
    have ha' : AccOk d (insertEntry HKey.keq k v acc) := by
      refine ⟨fun e he => ⟨?_, ?_⟩, fun e he => ?_, insertEntry_nodup k v ha.nodup⟩
      · rcases (hk e he).1 with h | h
        · rw [h]; exact gk
        · obtain ⟨f, hf, e'⟩ := List.mem_map.1 h; rw [← e']; exact (ha.ent f hf).1
      · rcases (hk e he).2 with h | h
        · rw [h]; exact gv
        · exact (ha.ent e h).2
      · rcases (hk e he).1 with h | h
        · rw [h]; exact hh
        · obtain ⟨f, hf, e'⟩ := List.mem_map.1 h; rw [← e']; exact ha.hash f hf
    obtain ⟨g1, g2⟩ := yield_mapLoop hvd n _ _ _ _ ha' h
    have := insertEntry_size k v acc
    exact ⟨g1, by omega⟩

theorem withSlice_ok {α : Type} {n : Nat} {dd : Dec α} {i r : Bytes} {a : α}
    (h : withSlice n dd i = .ok (r, a)) :
    n ≤ i.length ∧ r = i.drop n ∧ ∃ r', dd (i.take n) = .ok (r', a) := by
  unfold withSlice at h
  split at h
  · cases h
  · cases hd : dd (i.take n) with
    | ok q =>
      rw [hd] at h
      injection h with h; injection h with h1 h2
      subst h1 h2
      exact ⟨by omega, rfl, _, rfl⟩
    | err e => rw [hd] at h; cases h
    | panic p => rw [hd] at h; cases h

theorem yield_map {env : Env} {d : Nat} {vd : Dec Variant} {fmt : UInt8}
    (hvd : Post vd (Yield d 0)) :
    Post (Variant.map <$> decodeMapWith vd vd env fmt) (Yield (d + 1) 1) := by
  intro i r v h
  obtain ⟨m, h0, rfl⟩ := map_eq_ok.1 h
  clear h
  obtain ⟨r1, hd, h1, h2⟩ := bind_eq_ok.1 h0
  obtain ⟨hn, rfl, r', h⟩ := withSlice_ok h2
  obtain ⟨g, gs⟩ := yield_mapLoop hvd _ [] _ _ _
    ⟨by simp, by simp, List.Pairwise.nil⟩ h
  refine ⟨⟨?_, ?_, ?_⟩, ?_⟩
  · simp only [Variant.Valid, validMap_iff]
    exact ⟨fun e he => ⟨(g.ent e he).1.valid, (g.ent e he).2.valid⟩, g.hash, g.nodup⟩
  · simp only [Variant.depth]
    have := depthMap_le_of (m := m) (d := d)
      fun e he => ⟨(g.ent e he).1.depth, (g.ent e he).2.depth⟩
    omega
  · simp only [Variant.Plain, Variant.Survives, plainMap_iff, survivesMap_iff]
    exact fun hp => ⟨fun e he => ⟨(g.ent e he).1.survives (hp e he).1,
      (g.ent e he).2.survives (hp e he).2⟩, g.hash, g.nodup⟩
  · simp only [Variant.vsize]
    have := compoundSize_le (vsizeMap m)
    have := mapHeader_ok h1
    simp only [vsizeMap, List.length_take, List.length_drop] at gs ⊢
    omega

theorem descriptor_post (env : Env) (c : UInt8) :
    Post (decF env c : Dec Descriptor) fun t r ds => size ds + r.length ≤ t.length + 2 := by
  have hu : Post (Descriptor.ulong <$> (decF env c : Dec UInt64))
      fun t r ds => size ds + r.length ≤ t.length + 2 := by
    intro t r ds h
    obtain ⟨u, hu, rfl⟩ := map_eq_ok.1 h
    have := shortest_u64 env (c :: t) r u hu
    rw [← LawfulEnc.size_eq, List.length_cons] at this
    show 1 + size u + _ ≤ _
    omega
  have hy : Post (Descriptor.symbol <$> (decF env c : Dec Symbol))
      fun t r ds => size ds + r.length ≤ t.length + 2 := by
    intro t r ds h
    obtain ⟨u, hu, rfl⟩ := map_eq_ok.1 h
    have := shortest_symbol env (c :: t) r u hu
    rw [← LawfulEnc.size_eq, List.length_cons] at this
    show 1 + size u + _ ≤ _
    omega
  exact Dec.Post.ite hu (Dec.Post.ite hu (Dec.Post.ite hy (Dec.Post.ite hy (Dec.Post.fail _))))

theorem descriptor_size {env : Env} {i r : Bytes} {ds : Descriptor}
    (h : decode Descriptor env i = .ok (r, ds)) : size ds + r.length ≤ i.length + 1 := by
  obtain ⟨c, t, rfl, h'⟩ := decode_ok h
  have := descriptor_post env c t r ds h'
  rw [List.length_cons]; omega

theorem yield_described {env : Env} {d : Nat} {vd : Dec Variant}
    (hvd : Post vd (Yield d 0)) :
    Post (decode Descriptor env >>= fun ds => vd >>= fun v => pure (Variant.described ds v))
      (Yield (d + 1) 1) := by
  intro i r v h
  obtain ⟨r1, ds, h1, h⟩ := bind_eq_ok.1 h
  obtain ⟨r2, w, h2, h⟩ := bind_eq_ok.1 h
  injection h with h; injection h with h3 h4
  subst h3 h4
  obtain ⟨g, gs⟩ := hvd _ _ _ h2
  have := descriptor_size h1
  refine ⟨⟨?_, ?_, ?_⟩, ?_⟩
  · simp only [Variant.Valid]; exact g.valid
  · simp only [Variant.depth]; have := g.depth; omega
  · simp only [Variant.Plain, Variant.Survives]; exact fun h => ⟨h.1, g.survives h.2⟩
  · simp only [Variant.vsize]; omega

theorem decF_datetime_survives {env : Env} {fmt : UInt8} {t : DateTime}
    (h : ∃ i r, decF env fmt i = .ok (r, t)) : t.Survives := by
  obtain ⟨i, r, h⟩ := h
  exact (C12_round_trip_iff env t).1 (decoded_datetime env (fmt :: i) r t h)

theorem yield_variant (env : Env) : ∀ d fmt, Post (decVariant env d fmt) (Yield d 1)
  | 0, _ => fun _ _ _ h => by cases h
  | d + 1, fmt => by
    have hvd : Post (formatCode >>= fun f => decVariant env d f) (Yield d 0) := by
      intro i r v h
      obtain ⟨r1, f, h1, h⟩ := bind_eq_ok.1 h
      have e : i = f :: r1 := readU8_ok h1
      subst e
      obtain ⟨g, gs⟩ := yield_variant env d f _ _ _ h
      exact ⟨g, by simp only [List.length_cons]; omega⟩
    have tr : ∀ {α : Type} [DecodeF α] {env : Env} {fmt : UInt8} {a : α} {f : α → Variant},
        (∀ a, (f a).Survives) → (∃ i r, decF env fmt i = .ok (r, a)) → (f a).Survives :=
      fun h _ => h _
    unfold decVariant
    simp only
    repeat' apply Dec.Post.ite
    all_goals first
      | exact Dec.Post.fail _
      | exact yield_pure _ (by simp [Variant.Valid, validList]) (by simp [Variant.depth, depthList])
          (by simp [Variant.Plain, Variant.Survives]) (by decide)
      | exact yield_list hvd
      | exact yield_map hvd
      | exact yield_described hvd
      | exact yield_leaf Variant.boolean shortest_bool (fun _ => rfl) (by simp [Variant.Valid]) (by simp [Variant.depth]) (fun _ => tr (by simp [Variant.Survives]))
      | exact yield_leaf Variant.ubyte shortest_u8 (fun _ => rfl) (by simp [Variant.Valid]) (by simp [Variant.depth]) (fun _ => tr (by simp [Variant.Survives]))
      | exact yield_leaf Variant.ushort shortest_u16 (fun _ => rfl) (by simp [Variant.Valid]) (by simp [Variant.depth]) (fun _ => tr (by simp [Variant.Survives]))
      | exact yield_leaf Variant.uint shortest_u32 (fun _ => rfl) (by simp [Variant.Valid]) (by simp [Variant.depth]) (fun _ => tr (by simp [Variant.Survives]))
      | exact yield_leaf Variant.ulong shortest_u64 (fun _ => rfl) (by simp [Variant.Valid]) (by simp [Variant.depth]) (fun _ => tr (by simp [Variant.Survives]))
      | exact yield_leaf Variant.byte shortest_i8 (fun _ => rfl) (by simp [Variant.Valid]) (by simp [Variant.depth]) (fun _ => tr (by simp [Variant.Survives]))
      | exact yield_leaf Variant.short shortest_i16 (fun _ => rfl) (by simp [Variant.Valid]) (by simp [Variant.depth]) (fun _ => tr (by simp [Variant.Survives]))
      | exact yield_leaf Variant.int shortest_i32 (fun _ => rfl) (by simp [Variant.Valid]) (by simp [Variant.depth]) (fun _ => tr (by simp [Variant.Survives]))
      | exact yield_leaf Variant.long shortest_i64 (fun _ => rfl) (by simp [Variant.Valid]) (by simp [Variant.depth]) (fun _ => tr (by simp [Variant.Survives]))
      | exact yield_leaf Variant.float shortest_f32 (fun _ => rfl) (by simp [Variant.Valid]) (by simp [Variant.depth]) (fun _ => tr (by simp [Variant.Survives]))
      | exact yield_leaf Variant.double shortest_f64 (fun _ => rfl) (by simp [Variant.Valid]) (by simp [Variant.depth]) (fun _ => tr (by simp [Variant.Survives]))
      | exact yield_leaf Variant.char shortest_char (fun _ => rfl) (by simp [Variant.Valid]) (by simp [Variant.depth]) (fun _ => tr (by simp [Variant.Survives]))
      | exact yield_leaf Variant.uuid shortest_uuid (fun _ => rfl) (by simp [Variant.Valid]) (by simp [Variant.depth]) (fun _ => tr (by simp [Variant.Survives]))
      | exact yield_leaf Variant.binary shortest_binary (fun _ => rfl) (by simp [Variant.Valid]) (by simp [Variant.depth]) (fun _ => tr (by simp [Variant.Survives]))
      | exact yield_leaf Variant.string shortest_str (fun _ => rfl) (by simp [Variant.Valid]) (by simp [Variant.depth]) (fun _ => tr (by simp [Variant.Survives]))
      | exact yield_leaf Variant.symbol shortest_symbol (fun _ => rfl) (by simp [Variant.Valid]) (by simp [Variant.depth]) (fun _ => tr (by simp [Variant.Survives]))
      | exact yield_leaf Variant.timestamp shortest_datetime (fun _ => rfl) (by simp [Variant.Valid]) (by simp [Variant.depth]) (fun _ h => by simp only [Variant.Survives]; exact decF_datetime_survives h)

theorem yield_decVar (env : Env) (d : Nat) : Post (decVar env d) (Yield d 0) := by
  intro i r v h
  obtain ⟨r1, f, h1, h⟩ := bind_eq_ok.1 h
  have e : i = f :: r1 := readU8_ok h1
  subst e
  obtain ⟨g, gs⟩ := yield_variant env d f _ _ _ h
  exact ⟨g, by simp only [List.length_cons]; omega⟩

end Amqp
