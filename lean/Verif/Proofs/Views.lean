import Verif.Spec.Accessors
import Verif.Spec.Kinds
import Verif.Props.Kinds
import Verif.Proofs.MapLaws
import Verif.Proofs.ResourceLaws
/-!
# Lemmas about typed and dynamic views
-/
set_option autoImplicit false
namespace Amqp
open Dec

theorem view_of {α β : Type} [Encode α] [DecodeF α] [Encode β] [DecodeF β] [Into α β]
    (codes : List UInt8)
    (inj : ∀ x y : α, (into x : β) = into y → x = y)
    (hv : ∀ env : Env, 0 < env.stackDepth → ∀ c ∈ codes,
      (decF env c : Dec β) = (fun x : α => into x) <$> decF env c)
    (hb : ∀ env c, c ∉ codes → ∀ i r (x : α), (decF env c : Dec β) i ≠ .ok (r, into x))
    (ha : ∀ env c, c ∉ codes → ∀ i r x, (decF env c : Dec α) i ≠ .ok (r, x))
    (he : ∀ x : α, enc (into x : β) = enc x)
    (hs : ∀ x : α, size (into x : β) = size x) : SameView α β where
  read env input rest x h0 := by
    refine ⟨fun h => ?_, fun h => ?_⟩
    · obtain ⟨c, t, rfl, h1⟩ := decode_ok h
      rw [decode_cons]
      by_cases hc : c ∈ codes
      · rw [hv env h0 c hc]
        exact map_eq_ok.2 ⟨x, h1, rfl⟩
      · exact absurd h1 (ha env c hc _ _ _)
    · obtain ⟨c, t, rfl, h1⟩ := decode_ok h
      rw [decode_cons]
      by_cases hc : c ∈ codes
      · rw [hv env h0 c hc] at h1
        obtain ⟨y, h2, h3⟩ := map_eq_ok.1 h1
        cases inj _ _ h3
        exact h2
      · exact absurd h1 (hb env c hc _ _ _)
  write := he
  size := hs

theorem view_variant {α : Type} [Encode α] [DecodeF α] [Into α Variant]
    (codes : List UInt8) (k : Kind)
    (hk : ∀ c, kindOfCode c = some k → c ∈ codes)
    (hi : ∀ x : α, (into x : Variant).kind = k)
    (inj : ∀ x y : α, (into x : Variant) = into y → x = y)
    (hv : ∀ env d, ∀ c ∈ codes, decVariant env (d + 1) c = (fun x : α => into x) <$> decF env c)
    (ha : ∀ env c, c ∉ codes → ∀ i r x, (decF env c : Dec α) i ≠ .ok (r, x))
    (he : ∀ x : α, enc (into x : Variant) = enc x)
    (hs : ∀ x : α, size (into x : Variant) = size x) : SameView α Variant :=
  view_of codes inj
    (fun env h0 c hc => by
      obtain ⟨d, hd⟩ : ∃ d, env.stackDepth = d + 1 := ⟨env.stackDepth - 1, by omega⟩
      show decVariant env env.stackDepth c = _
      rw [hd]; exact hv env d c hc)
    (fun env c hc i r x h => hc (hk c (by
      have := kind_variant env _ _ _ _ _ h
      rw [← this, hi])))
    ha he hs

theorem reject1 {α : Type} {d : Dec α} {c a : UInt8} (h : c ∉ [a]) : ∀ i r x,
    validateCode c a d i ≠ .ok (r, x) := fun i r x => by
  rw [validateCode, if_pos (by simpa using h)]
  exact fun h => by cases h

theorem reject2 {α : Type} {d1 d2 : Dec α} {e : ParseError} {c a1 a2 : UInt8} (h : c ∉ [a1, a2]) :
    ∀ i r x, (if c = a1 then d1 else if c = a2 then d2 else fail e : Dec α) i ≠ .ok (r, x) := by
  have h' : c ≠ a1 ∧ c ≠ a2 := by simpa using h
  have : (if c = a1 then d1 else if c = a2 then d2 else fail e : Dec α) = fail e := by
    rw [if_neg h'.1, if_neg h'.2]
  intro i r x
  rw [this]
  exact fun h => by cases h

theorem reject3 {α : Type} {d1 d2 d3 : Dec α} {e : ParseError} {c a1 a2 a3 : UInt8}
    (h : c ∉ [a1, a2, a3]) : ∀ i r x, (if c = a1 then d1 else if c = a2 then d2
      else if c = a3 then d3 else fail e : Dec α) i ≠ .ok (r, x) := by
  have h' : c ≠ a1 ∧ c ≠ a2 ∧ c ≠ a3 := by simpa using h
  have : (if c = a1 then d1 else if c = a2 then d2 else if c = a3 then d3 else fail e : Dec α) =
      fail e := by
    rw [if_neg h'.1, if_neg h'.2.1, if_neg h'.2.2]
  intro i r x
  rw [this]
  exact fun h => by cases h

theorem decVariant_depth (oc : Bool) (n m : Nat) : ∀ d fmt,
    decVariant ⟨oc, n⟩ d fmt = decVariant ⟨oc, m⟩ d fmt
  | 0, _ => by unfold decVariant; rfl
  | d + 1, fmt => by
    unfold decVariant
    simp only [decVariant_depth oc n m d]
    rfl

theorem decode_variant_deeper (env : Env) : (do
      let f ← formatCode
      decVariant env.deeper env.stackDepth f : Dec Variant) = decode Variant env := by
  have : ∀ f, decVariant env.deeper env.stackDepth f = decVariant env env.stackDepth f :=
    fun f => decVariant_depth env.overflowChecks _ _ _ f
  simp only [this]
  rfl

theorem insertEntry_map {K L V : Type} {f : K → L} {ek : K → K → Bool} {el : L → L → Bool}
    (h : ∀ a b, el (f a) (f b) = ek a b) (k : K) (v : V) : ∀ l : List (K × V),
    insertEntry el (f k) v (l.map fun e => (f e.1, e.2)) =
      (insertEntry ek k v l).map fun e => (f e.1, e.2)
  | [] => rfl
  | (k', v') :: t => by
    simp only [insertEntry, List.map_cons, h]
    split
    · rfl
    · simp [insertEntry_map h k v t]

theorem mapLoop_keys {K V : Type} [HKey K] {kd : Dec K} {vd : Dec V} :
    ∀ {n : Nat} {acc out : List (K × V)} {i r : Bytes}, mapLoop kd vd n acc i = .ok (r, out) →
      ∀ k ∈ acc.map Prod.fst, k ∈ out.map Prod.fst
  | 0, acc, out, i, r, h => by
    injection h with h; injection h with _ h; subst h
    exact fun _ h => h
  | n + 1, acc, out, i, r, h => by
    obtain ⟨r1, k, r2, v, -, -, -, h⟩ := mapLoop_succ h
    intro k' hk'
    refine mapLoop_keys h k' ?_
    rcases insertEntry_cases HKey.keq k v acc with ⟨e, _⟩ | ⟨_, e⟩
    · rw [e, List.map_append]; exact List.mem_append_left _ hk'
    · rw [e]; exact hk'

/-- What relates keys to the values they are turned into. -/
structure KeyView (K : Type) [HKey K] [Into K Variant] : Prop where
  inj : ∀ a b : K, (into a : Variant) = into b → a = b
  keq : ∀ a b : K, Variant.veq (into a) (into b) = HKey.keq a b
  hash : ∀ a : K, HKey.hashOk a = true
  hashV : ∀ a : K, Variant.hashOk (into a) = true
  back : ∀ (v : Variant) (a : K), Variant.veq v (into a) = true → ∃ b : K, v = into b

theorem mapLoop_insert {K V : Type} [HKey K] {kd : Dec K} {vd : Dec V} {n : Nat}
    {acc : List (K × V)} {i r1 r2 : Bytes} {k : K} {v : V} (h1 : kd i = .ok (r1, k))
    (h2 : vd r1 = .ok (r2, v)) (h3 : HKey.hashOk k = true) :
    mapLoop kd vd (n + 1) acc i = mapLoop kd vd n (insertEntry HKey.keq k v acc) r2 := by
  show (kd >>= fun k => vd >>= fun v => if HKey.hashOk k then
    mapLoop kd vd n (insertEntry HKey.keq k v acc) else Dec.abort .unimplemented) i = _
  rw [bind_ok h1, bind_ok h2, if_pos h3]

theorem mapLoop_view {K : Type} [HKey K] [Into K Variant] (kv : KeyView K)
    {kd : Dec K} {kdv vd : Dec Variant}
    (hk : ∀ i r k, kd i = .ok (r, k) ↔ kdv i = .ok (r, into k)) :
    ∀ (n : Nat) (acc out : List (K × Variant)) (i r : Bytes),
      mapLoop kd vd n acc i = .ok (r, out) ↔
        mapLoop kdv vd n (acc.map fun e => (into e.1, e.2)) i =
          .ok (r, out.map fun e => (into e.1, e.2))
  | 0, acc, out, i, r => by
    refine ⟨fun h => ?_, fun h => ?_⟩
    · injection h with h; injection h with h1 h2; subst h1 h2; rfl
    · injection h with h; injection h with h1 h2; subst h1
      have : acc = out := by
        refine List.map_inj_right (f := fun e : K × Variant => ((into e.1 : Variant), e.2))
          (fun a b h => ?_) |>.1 h2
        obtain ⟨a1, a2⟩ := a
        obtain ⟨b1, b2⟩ := b
        injection h with h1 h2
        simp only at h1 h2
        rw [kv.inj _ _ h1, h2]
      rw [this]; rfl
  | n + 1, acc, out, i, r => by
    have keqV : ∀ a b : K, HKey.keq (into a : Variant) (into b) = HKey.keq a b := kv.keq
    refine ⟨fun h => ?_, fun h => ?_⟩
    · obtain ⟨r1, k, r2, v, h1, h2, h3, h⟩ := mapLoop_succ h
      rw [mapLoop_insert ((hk _ _ _).1 h1) h2 (kv.hashV k), insertEntry_map keqV]
      exact (mapLoop_view kv hk n _ _ _ _).1 h
    · obtain ⟨r1, k, r2, v, h1, h2, h3, h⟩ := mapLoop_succ h
      obtain ⟨k, rfl⟩ : ∃ k' : K, k = into k' := by
        rcases insertEntry_cases HKey.keq k v (acc.map fun e => ((into e.1 : Variant), e.2)) with
          ⟨e, _⟩ | ⟨e1, _⟩
        · have := mapLoop_keys h k (by rw [e]; simp)
          simp only [List.map_map, List.mem_map, Function.comp] at this
          obtain ⟨e, _, he⟩ := this
          exact ⟨e.1, he.symm⟩
        · have : ∃ e ∈ acc, Variant.veq k (into e.1) = true := by
            apply Classical.byContradiction
            intro hn
            have : ∀ e ∈ acc.map fun e => ((into e.1 : Variant), e.2), HKey.keq k e.1 = false := by
              intro e he
              obtain ⟨e', he', rfl⟩ := List.mem_map.1 he
              cases hq : HKey.keq k (into e'.1 : Variant) with
              | false => rfl
              | true => exact absurd ⟨e', he', hq⟩ hn
            rw [insertEntry_fresh _ _ _ _ this] at e1
            simp at e1
          obtain ⟨e, _, he⟩ := this
          exact kv.back _ _ he
      rw [insertEntry_map keqV] at h
      rw [mapLoop_insert ((hk _ _ _).2 h1) h2 (kv.hash k)]
      exact (mapLoop_view kv hk n _ _ _ _).2 h

theorem mapLoop_view0 {K L : Type} [HKey K] [HKey L] {f : K → L} {kd : Dec K} {kdv : Dec L}
    {vd : Dec Variant} (hv : ∀ i r v, vd i ≠ .ok (r, v)) (n : Nat) (out : List (K × Variant))
    (i r : Bytes) : mapLoop kd vd n [] i = .ok (r, out) ↔
        mapLoop kdv vd n [] i = .ok (r, out.map fun e => (f e.1, e.2)) := by
  cases n with
  | zero =>
    refine ⟨fun h => ?_, fun h => ?_⟩
    · injection h with h; injection h with h1 h2; subst h1 h2; rfl
    · injection h with h; injection h with h1 h2; subst h1
      rw [List.map_eq_nil_iff.1 h2.symm]; rfl
  | succ n =>
    refine ⟨fun h => ?_, fun h => ?_⟩ <;>
    · obtain ⟨r1, k, r2, v, h1, h2, h3, h⟩ := mapLoop_succ h
      exact absurd h2 (hv _ _ _)

theorem decVar_deeper (env : Env) : decVar env.deeper env.stackDepth = decode Variant env :=
  decode_variant_deeper env

theorem withSlice_view {α β : Type} {f : α → β} {n : Nat} {d : Dec α} {e : Dec β}
    (h : ∀ i r x, d i = .ok (r, x) ↔ e i = .ok (r, f x)) (i r : Bytes) (x : α) :
    withSlice n d i = .ok (r, x) ↔ withSlice n e i = .ok (r, f x) := by
  have key : ∀ {γ : Type} {q : Dec γ} {y : γ} {r' : Bytes}, n ≤ i.length →
      q (i.take n) = .ok (r', y) → withSlice n q i = .ok (i.drop n, y) := by
    intro γ q y r' h1 h2
    unfold withSlice
    rw [if_neg (Nat.not_lt.2 h1), h2]
  refine ⟨fun g => ?_, fun g => ?_⟩
  · obtain ⟨h1, rfl, r', h2⟩ := withSlice_ok g
    exact key h1 ((h _ _ _).1 h2)
  · obtain ⟨h1, rfl, r', h2⟩ := withSlice_ok g
    exact key h1 ((h _ _ _).2 h2)

theorem bind_view {γ α β : Type} {f : α → β} {p : Dec γ} {d : γ → Dec α} {e : γ → Dec β}
    (h : ∀ c i r x, d c i = .ok (r, x) ↔ e c i = .ok (r, f x)) (i r : Bytes) (x : α) :
    (p >>= d) i = .ok (r, x) ↔ (p >>= e) i = .ok (r, f x) := by
  rw [bind_eq_ok, bind_eq_ok]
  exact ⟨fun ⟨r1, c, h1, h2⟩ => ⟨r1, c, h1, (h _ _ _ _).1 h2⟩,
    fun ⟨r1, c, h1, h2⟩ => ⟨r1, c, h1, (h _ _ _ _).2 h2⟩⟩

/-- Compound values: as `view_variant`. -/
theorem compound_view {α β : Type} [DecodeF α] (mk : β → α) (un : α → β) (cons : β → Variant)
    (codes : List UInt8) (k : Kind)
    (hmk : ∀ x, mk (un x) = x) (hun : ∀ x, un (mk x) = x)
    (inj : ∀ x y, cons x = cons y → x = y) (hk : ∀ c, kindOfCode c = some k → c ∈ codes)
    (hi : ∀ x, (cons x).kind = k)
    (env : Env) (d : UInt8 → Dec β) (hd : ∀ c, (decF env c : Dec α) = mk <$> d c)
    (hv : ∀ c ∈ codes, decVariant env.deeper (env.stackDepth + 1) c = cons <$> d c)
    (ha : ∀ c, c ∉ codes → ∀ i r x, d c i ≠ .ok (r, x)) (input rest : Bytes) (x : α) :
    decode α env input = .ok (rest, x) ↔
      decode Variant env.deeper input = .ok (rest, cons (un x)) := by
  refine ⟨fun h => ?_, fun h => ?_⟩
  · obtain ⟨c, t, rfl, h1⟩ := decode_ok h
    rw [decode_cons]
    rw [hd] at h1
    obtain ⟨y, h2, rfl⟩ := map_eq_ok.1 h1
    by_cases hc : c ∈ codes
    · show decVariant env.deeper (env.stackDepth + 1) c t = _
      rw [hv c hc, hun]
      exact map_eq_ok.2 ⟨y, h2, rfl⟩
    · exact absurd h2 (ha c hc _ _ _)
  · obtain ⟨c, t, rfl, h1⟩ := decode_ok h
    rw [decode_cons, hd]
    have h1 : decVariant env.deeper (env.stackDepth + 1) c t = .ok (rest, cons (un x)) := h1
    have hc : c ∈ codes := hk c (by
      have := kind_variant _ _ _ _ _ _ h1
      rw [← this, hi])
    rw [hv c hc] at h1
    obtain ⟨y, h2, h3⟩ := map_eq_ok.1 h1
    rw [inj _ _ h3] at h2
    exact map_eq_ok.2 ⟨_, h2, hmk x⟩

theorem list_rejects {env : Env} {vd : Dec Variant} {c : UInt8} (h : c ∉ [FC.list0, FC.list8, FC.list32])
    (i r : Bytes) (x : List Variant) : decodeListWith vd env c i ≠ .ok (r, x) := by
  intro g
  obtain ⟨r1, hd, h1, _⟩ := bind_eq_ok.1 g
  exact reject3 h _ _ _ h1

theorem map_rejects {K : Type} [HKey K] {env : Env} {kd : Dec K} {vd : Dec Variant} {c : UInt8}
    (h : c ∉ [FC.map8, FC.map32])
    (i r : Bytes) (x : List (K × Variant)) : decodeMapWith kd vd env c i ≠ .ok (r, x) := by
  intro g
  obtain ⟨r1, hd, h1, _⟩ := bind_eq_ok.1 g
  exact reject2 h _ _ _ h1

theorem mapContent_map {K L : Type} {f : K → L} {ek : K → Bytes} {el : L → Bytes}
    (h : ∀ a, el (f a) = ek a) (ev : Variant → Bytes) : ∀ l : List (K × Variant),
    mapContent el ev (l.map fun e => (f e.1, e.2)) = mapContent ek ev l
  | [] => rfl
  | (k, v) :: t => by simp [mapContent, h, mapContent_map h ev t]

theorem mapContentSize_map {K L : Type} {f : K → L} {ek : K → Nat} {el : L → Nat}
    (h : ∀ a, el (f a) = ek a) (ev : Variant → Nat) : ∀ l : List (K × Variant),
    mapContentSize el ev (l.map fun e => (f e.1, e.2)) = mapContentSize ek ev l
  | [] => rfl
  | (k, v) :: t => by simp [mapContentSize, h, mapContentSize_map h ev t]

theorem vsizeMap_view : ∀ m : List (Variant × Variant), vsizeMap m = mapContentSize size size m
  | [] => rfl
  | (k, v) :: t => by rw [vsizeMap, vsizeMap_view t]; rfl

theorem vencMap_view : ∀ m : List (Variant × Variant), vencMap m = mapContent enc enc m
  | [] => rfl
  | (k, v) :: t => by rw [vencMap, vencMap_view t]; rfl

theorem decodeMap_deeper (env : Env) {c : UInt8} (h : c = FC.map8 ∨ c = FC.map32) :
    decVariant env.deeper (env.stackDepth + 1) c =
      Variant.map <$> decodeMapWith (decode Variant env) (decode Variant env) env c := by
  rw [decVariant_map h, decVar_deeper]; rfl

theorem keyed_view {K : Type} [Encode K] [DecodeF K] [HKey K] [Into K Variant]
    (kv : KeyView K) (view : SameView K Variant) : SameMapView K where
  read env input rest m := by
    have loop : ∀ (h : CompoundHeader) i r (out : List (K × Variant)),
        withSlice h.size (mapLoop (decode K env) (decode Variant env) (h.count / 2) []) i =
          .ok (r, out) ↔
        withSlice h.size (mapLoop (decode Variant env) (decode Variant env) (h.count / 2) []) i =
          .ok (r, out.map fun e => ((into e.1 : Variant), e.2)) := by
      intro h
      refine withSlice_view (f := List.map fun e : K × Variant => ((into e.1 : Variant), e.2)) ?_
      intro i r out
      by_cases h0 : 0 < env.stackDepth
      · exact mapLoop_view kv (fun i r k => view.read env i r k h0) _ [] out i r
      · refine mapLoop_view0 (fun i r v hv => ?_) _ _ _ _
        rw [decode_variant] at hv
        have : env.stackDepth = 0 := by omega
        rw [this] at hv
        obtain ⟨r1, c, _, h2⟩ := bind_eq_ok.1 hv
        cases h2
    have body : ∀ c i r (out : List (K × Variant)),
        decodeMapWith (decode K env) (decode Variant env) env c i = .ok (r, out) ↔
        decodeMapWith (decode Variant env) (decode Variant env) env c i =
          .ok (r, out.map fun e => ((into e.1 : Variant), e.2)) := fun c =>
      bind_view (f := List.map fun e : K × Variant => ((into e.1 : Variant), e.2)) loop
    have hk : ∀ c, kindOfCode c = some .map → c = FC.map8 ∨ c = FC.map32 := by
      intro c; unfold kindOfCode; split <;> simp [FC.map8, FC.map32]
    refine ⟨fun h => ?_, fun h => ?_⟩
    · obtain ⟨c, t, rfl, h1⟩ := decode_ok h
      rw [decode_cons]
      obtain ⟨y, h2, rfl⟩ := map_eq_ok.1 h1
      by_cases hc : c = FC.map8 ∨ c = FC.map32
      · show decVariant env.deeper (env.stackDepth + 1) c t = _
        rw [decodeMap_deeper env hc]
        exact map_eq_ok.2 ⟨_, (body _ _ _ _).1 h2, rfl⟩
      · exact absurd h2 (map_rejects (by simpa using hc) _ _ _)
    · obtain ⟨c, t, rfl, h1⟩ := decode_ok h
      rw [decode_cons]
      have h1 : decVariant env.deeper (env.stackDepth + 1) c t = .ok (rest, m.toVariant) := h1
      have hc := hk c (kind_variant _ _ _ _ _ _ h1).symm
      rw [decodeMap_deeper env hc] at h1
      obtain ⟨y, h2, h3⟩ := map_eq_ok.1 h1
      injection h3 with h3
      subst h3
      exact map_eq_ok.2 ⟨_, (body _ _ _ _).2 h2, rfl⟩
  write m := by
    show Variant.venc (.map _) = _
    rw [Variant.venc, vsizeMap_view, vencMap_view, mapContent_map view.write,
      mapContentSize_map view.size, List.length_map]; rfl
  size m := by
    show Variant.vsize (.map _) = _
    rw [Variant.vsize, vsizeMap_view, mapContentSize_map view.size]; rfl

theorem mapLoop_collect {K V : Type} [HKey K] (hh : ∀ k : K, HKey.hashOk k = true) {kd : Dec K}
    {vd : Dec V} : ∀ (n : Nat) (acc : List (K × V)),
    mapLoop kd vd n acc = insertAll acc <$> decodeN (decodePairs kd vd) n
  | 0, acc => rfl
  | n + 1, acc => by
    funext i
    show (kd >>= fun k => vd >>= fun v => if HKey.hashOk k then
      mapLoop kd vd n (insertEntry HKey.keq k v acc) else Dec.abort .unimplemented) i =
      (insertAll acc <$> ((kd >>= fun k => vd >>= fun v => pure (k, v)) >>= fun x =>
        decodeN (decodePairs kd vd) n >>= fun xs => pure (x :: xs))) i
    simp only [run_bind, run_map]
    cases h1 : kd i with
    | err e => rfl
    | panic e => rfl
    | ok p =>
      obtain ⟨r1, k⟩ := p
      simp only [run_bind, run_map]
      cases h2 : vd r1 with
      | err e => rfl
      | panic e => rfl
      | ok p =>
        obtain ⟨r2, v⟩ := p
        simp only
        rw [if_pos (hh k), mapLoop_collect hh n]
        simp only [run_map]
        have hp : (pure (k, v) : Dec (K × V)) r2 = .ok (r2, (k, v)) := rfl
        rw [hp]
        simp only
        cases decodeN (decodePairs kd vd) n r2 with
        | err e => rfl
        | panic e => rfl
        | ok p => rfl

theorem withSlice_map {α β : Type} (f : α → β) (n : Nat) (d : Dec α) :
    withSlice n (f <$> d) = f <$> withSlice n d := by
  funext i
  simp only [run_map, withSlice]
  by_cases h : i.length < n
  · rw [if_pos h, if_pos h]
  · rw [if_neg h, if_neg h]
    cases d (i.take n) with
    | err e => rfl
    | panic e => rfl
    | ok p => rfl

theorem vecMap_hash (env : Env) (input : Bytes) : decode (HMap Str Variant) env input =
    ((fun m : VecVariantMap => HMap.mk (insertAll [] m.entries)) <$> decode VecVariantMap env) input := by
  cases input with
  | nil => rfl
  | cons c t =>
    have e1 : decode (HMap Str Variant) env (c :: t) = (HMap.mk <$>
        (decodeMapHeader env c >>= fun h => withSlice h.size (mapLoop (decode Str env)
          (decode Variant env) (h.count / 2) []))) t := rfl
    have e2 : ((fun m : VecVariantMap => HMap.mk (insertAll [] m.entries)) <$>
        decode VecVariantMap env) (c :: t) = ((fun m : VecVariantMap => HMap.mk (insertAll [] m.entries)) <$>
        (decodeMapHeader env c >>= fun h => VecVariantMap.mk <$> withSlice h.size
          (decodeN (decodePairs (decode Str env) (decode Variant env)) (h.count / 2)))) t := rfl
    rw [e1, e2]
    simp only [mapLoop_collect (K := Str) (fun _ => rfl), withSlice_map]
    simp only [run_map, run_bind]
    cases decodeMapHeader env c t with
    | err e => rfl
    | panic e => rfl
    | ok p =>
      obtain ⟨r, h⟩ := p
      simp only [run_map]
      cases withSlice h.size (decodeN (decodePairs (decode Str env) (decode Variant env))
        (h.count / 2)) r with
      | err e => rfl
      | panic e => rfl
      | ok p => rfl

theorem iteDec_ne {β : Type} {p : Prop} [Decidable p] {d e : Dec β} {i r : Bytes} {y : β}
    (h1 : p → d i ≠ .ok (r, y)) (h2 : ¬p → e i ≠ .ok (r, y)) :
    (if p then d else e : Dec β) i ≠ .ok (r, y) := by
  by_cases h : p
  · rw [if_pos h]; exact h1 h
  · rw [if_neg h]; exact h2 h

theorem map_ne {α β : Type} {f : α → β} {d : Dec α} {i r : Bytes} {y : β} (h : ∀ x, f x ≠ y) :
    (f <$> d) i ≠ .ok (r, y) := fun g => by
  obtain ⟨x, _, e⟩ := map_eq_ok.1 g
  exact h x e

theorem fail_ne {β : Type} {e : ParseError} {i r : Bytes} {y : β} :
    (fail e : Dec β) i ≠ .ok (r, y) := fun h => by cases h

end Amqp
