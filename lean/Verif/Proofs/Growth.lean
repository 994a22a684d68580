import Verif.Spec.Growth
import Verif.Proofs.ResourceLaws
import Verif.Proofs.ForwardLists
/-!
# What a received value takes when sent on

Support for C88.
-/
set_option autoImplicit false
namespace Amqp
open Dec

theorem GrowsTo.of_shortest {α : Type} [Encode α] [DecodeF α] (h : ShortestEncoding α) :
    GrowsTo 1 0 α := fun env i r v hd => by
  have := h env i r v hd
  omega

theorem decode_length_le {α : Type} [DecodeF α] [LawfulDec α] {env : Env} {i r : Bytes} {v : α}
    (h : decode α env i = .ok (r, v)) : r.length ≤ i.length := (loc_decode env).length_le h

theorem GrowsTo.mono {α : Type} [Encode α] [DecodeF α] [LawfulDec α] {k k' c c' : Nat}
    (h : GrowsTo k c α) (hk : k ≤ k') (hc : c ≤ c') : GrowsTo k' c' α := fun env i r v hd => by
  have h1 := h env i r v hd
  obtain ⟨n, hn⟩ := Nat.exists_eq_add_of_le (decode_length_le hd)
  obtain ⟨m, rfl⟩ := Nat.exists_eq_add_of_le hk
  rw [hn] at h1 ⊢
  rw [Nat.mul_add] at h1 ⊢
  have := Nat.mul_le_mul_right n (Nat.le_add_right k m)
  rw [Nat.add_mul k m r.length] at *
  omega

/-! ## Values of any type -/

/-- `d` yields values covered three times by the input and a credit. -/
def Triple {α : Type} (w : α → Nat) (k : Nat) (d : Dec α) : Prop :=
  Post d fun i r a => w a + 3 * r.length ≤ 3 * i.length + k

theorem triple_decodeN {α : Type} {w : α → Nat} {d : Dec α} (hd : Triple w 0 d) :
    ∀ n, Triple (total w) 0 (decodeN d n)
  | 0, i, r, l, h => by
    injection h with h; injection h with h1 h2
    subst h1 h2
    simp [total]
  | n + 1, i, r, l, h => by
    obtain ⟨r1, v, h1, h⟩ := bind_eq_ok.1 h
    obtain ⟨r2, t, h2, h⟩ := bind_eq_ok.1 h
    injection h with h; injection h with h3 h4
    subst h3 h4
    have g1 := hd _ _ _ h1
    have g2 := triple_decodeN hd n _ _ _ h2
    simp only [total, List.map_cons, List.sum_cons] at g2 ⊢
    omega

theorem triple_slice {α : Type} {w : α → Nat} {d : Dec α} (hd : Triple w 0 d) (n : Nat) :
    Triple w 0 (withSlice n d) := by
  intro i r a h
  obtain ⟨hn, rfl, r', h'⟩ := withSlice_ok h
  have := hd _ _ _ h'
  simp only [List.length_take, List.length_drop] at this ⊢
  omega

theorem triple_mapLoop {K V : Type} [HKey K] {wk : K → Nat} {wv : V → Nat} {kd : Dec K} {vd : Dec V}
    (hk : Triple wk 0 kd) (hv : Triple wv 0 vd) :
    ∀ n acc i r out, mapLoop kd vd n acc i = .ok (r, out) →
      total (fun e => wk e.1 + wv e.2) out + 3 * r.length ≤
        total (fun e => wk e.1 + wv e.2) acc + 3 * i.length
  | 0, acc, i, r, out, h => by
    injection h with h; injection h with h1 h2
    subst h1 h2
    exact Nat.le_refl _
  | n + 1, acc, i, r, out, h => by
    obtain ⟨r1, k, r2, v, h1, h2, _, h⟩ := mapLoop_succ h
    have g1 := hk _ _ _ h1
    have g2 := hv _ _ _ h2
    have g3 := triple_mapLoop hk hv n _ _ _ _ h
    have := total_insertEntry wk wv k v acc
    omega

theorem triple_map {K V : Type} [HKey K] {wk : K → Nat} {wv : V → Nat} {kd : Dec K} {vd : Dec V}
    (hk : Triple wk 0 kd) (hv : Triple wv 0 vd) (env : Env) (fmt : UInt8) :
    Triple (fun m => compoundSize (total (fun e => wk e.1 + wv e.2) m)) 3
      (decodeMapWith kd vd env fmt) := by
  intro i r m h
  obtain ⟨r1, hd, h1, h2⟩ := bind_eq_ok.1 h
  have g1 := mapHeader_ok h1
  have hc : Triple (total fun e : K × V => wk e.1 + wv e.2) 0 (mapLoop kd vd (hd.count / 2) []) := by
    intro i r a h
    have := triple_mapLoop hk hv _ _ _ _ _ h
    simp only [total, List.map_nil, List.sum_nil] at this ⊢
    omega
  have g2 := triple_slice hc hd.size _ _ _ h2
  have := compoundSize_le (total (fun e => wk e.1 + wv e.2) m)
  dsimp only
  omega

theorem vsizeList_total (l : List Variant) : vsizeList l = total Variant.vsize l := by
  induction l with
  | nil => simp [vsizeList, total]
  | cons v t ih => simp only [vsizeList, ih, total, List.map_cons, List.sum_cons]

theorem vsizeMap_total (m : List (Variant × Variant)) :
    vsizeMap m = total (fun e => e.1.vsize + e.2.vsize) m := by
  induction m with
  | nil => simp [vsizeMap, total]
  | cons e t ih =>
    obtain ⟨k, v⟩ := e
    simp only [vsizeMap, ih, total, List.map_cons, List.sum_cons]

theorem mapContentSize_total {K V : Type} (ks : K → Nat) (vs : V → Nat) (m : List (K × V)) :
    mapContentSize ks vs m = total (fun e => ks e.1 + vs e.2) m := by
  induction m with
  | nil => simp [mapContentSize, total]
  | cons e t ih =>
    obtain ⟨k, v⟩ := e
    simp only [mapContentSize, ih, total, List.map_cons, List.sum_cons]

theorem triple_list {vd : Dec Variant} (hv : Triple Variant.vsize 0 vd) (env : Env) (fmt : UInt8) :
    Triple (fun l => compoundSize (vsizeList l)) 3 (decodeListWith vd env fmt) := by
  intro i r l h
  obtain ⟨r1, hd, h1, h2⟩ := bind_eq_ok.1 h
  dsimp only
  rcases listHeader_ok h1 with h3 | ⟨rfl, h3⟩
  · have g := triple_decodeN hv _ _ _ _ h2
    rw [vsizeList_total]
    have := compoundSize_le (total Variant.vsize l)
    omega
  · rw [h3] at h2
    injection h2 with h2; injection h2 with h4 h5
    subst h4 h5
    simp [vsizeList, compoundSize]
    omega

theorem triple_leaf {α : Type} [Encode α] [DecodeF α] [LawfulEnc α] [LawfulDec α] {env : Env}
    {fmt : UInt8} (f : α → Variant) (hs : ShortestEncoding α)
    (hw : ∀ a, (f a).vsize = size a) : Triple Variant.vsize 3 (f <$> decF env fmt) := by
  intro i r v h
  obtain ⟨a, h0, rfl⟩ := map_eq_ok.1 h
  have h1 := hs env (fmt :: i) r a h0
  have h2 := hw a
  have h3 := (LawfulDec.loc env fmt).length_le h0
  rw [LawfulEnc.size_eq] at h2
  simp only [List.length_cons] at h1
  omega

theorem triple_pure (v : Variant) (hv : v.vsize ≤ 3) : Triple Variant.vsize 3 (pure v) := by
  intro i r w h
  injection h with h; injection h with h1 h2
  subst h1 h2
  omega

/-- A descriptor takes two bytes at least. -/
theorem descriptor_takes_two {env : Env} {i r : Bytes} {d : Descriptor}
    (h : decode Descriptor env i = .ok (r, d)) : r.length + 2 ≤ i.length := by
  obtain ⟨c, t, rfl, h'⟩ := decode_ok h
  have hy : ∀ c, Post (Descriptor.symbol <$> (decF env c : Dec Symbol))
      fun i r _ => r.length + 1 ≤ i.length := by
    intro c t r ds h
    obtain ⟨u, hu, rfl⟩ := map_eq_ok.1 h
    have := shortest_symbol env (c :: t) r u hu
    rw [← LawfulEnc.size_eq] at this
    have e : 1 + u.str.bytes.length + 1 ≤ size u := by
      show _ ≤ varSize u.str.bytes.length
      unfold varSize; split <;> omega
    simp only [List.length_cons] at this
    omega
  have key : Post (decF env c : Dec Descriptor) fun i r _ => r.length + 1 ≤ i.length := by
    intro t r d h
    have e : (decF env c : Dec Descriptor) = if c = FC.smallUlong then Descriptor.ulong <$> decF env c
      else if c = FC.ulong then Descriptor.ulong <$> decF env c
      else if c = FC.symbol8 then Descriptor.symbol <$> decF env c
      else if c = FC.symbol32 then Descriptor.symbol <$> decF env c
      else Dec.fail (.invalidFormatCode c) := rfl
    rw [e] at h
    split at h
    · rename_i hc
      subst hc
      obtain ⟨u, hu, rfl⟩ := map_eq_ok.1 h
      obtain ⟨b, hb, rfl⟩ := map_eq_ok.1 (show (UInt8.toUInt64 <$> readU8) t = _ from hu)
      rw [readU8_ok hb]
      simp
    · split at h
      · rename_i hc
        subst hc
        obtain ⟨u, hu, rfl⟩ := map_eq_ok.1 h
        obtain ⟨b, hb, rfl⟩ := map_eq_ok.1 (show (UInt64.ofNat <$> readBE 8) t = _ from hu)
        obtain ⟨x, rfl, hx, -, -⟩ := readBE_ok hb
        rw [List.length_append]; omega
      · exact (Post.ite (hy c) (Post.ite (hy c) (Post.fail _))) _ _ _ h
  have := key _ _ _ h'
  simp only [List.length_cons]; omega

/-- A descriptor is written in no more than it was read from, but for the byte
announcing it. -/
theorem descriptor_enc_le {env : Env} {i r : Bytes} {d : Descriptor}
    (h : decode Descriptor env i = .ok (r, d)) : size d + r.length ≤ i.length + 1 := by
  obtain ⟨c, t, rfl, h'⟩ := decode_ok h
  have hu : Post (Descriptor.ulong <$> (decF env c : Dec UInt64))
      fun i r d => size d + r.length ≤ i.length + 2 := by
    intro t r ds h
    obtain ⟨u, hu, rfl⟩ := map_eq_ok.1 h
    have := shortest_u64 env (c :: t) r u hu
    rw [← LawfulEnc.size_eq] at this
    have e : size (Descriptor.ulong u) = size u + 1 := Nat.add_comm _ _
    simp only [List.length_cons] at this
    omega
  have hy : Post (Descriptor.symbol <$> (decF env c : Dec Symbol))
      fun i r d => size d + r.length ≤ i.length + 2 := by
    intro t r ds h
    obtain ⟨u, hu, rfl⟩ := map_eq_ok.1 h
    have := shortest_symbol env (c :: t) r u hu
    rw [← LawfulEnc.size_eq] at this
    have e : size (Descriptor.symbol u) = size u + 1 := Nat.add_comm _ _
    simp only [List.length_cons] at this
    omega
  have := (Dec.Post.ite hu (Dec.Post.ite hu (Dec.Post.ite hy (Dec.Post.ite hy (Dec.Post.fail _)))) :
    Post (decF env c : Dec Descriptor) fun i r d => size d + r.length ≤ i.length + 2) _ _ _ h'
  rw [List.length_cons]; omega

theorem triple_variant (env : Env) : ∀ d fmt, Triple Variant.vsize 3 (decVariant env d fmt)
  | 0, _ => fun _ _ _ h => by cases h
  | d + 1, fmt => by
    have hvd : Triple Variant.vsize 0 (formatCode >>= fun f => decVariant env d f) := by
      intro i r v h
      obtain ⟨r1, f, h1, h⟩ := bind_eq_ok.1 h
      have e : i = f :: r1 := readU8_ok h1
      subst e
      have := triple_variant env d f _ _ _ h
      simp only [List.length_cons]; omega
    have hl : Triple Variant.vsize 3
        (Variant.list <$> decodeListWith (formatCode >>= fun f => decVariant env d f) env fmt) := by
      intro i r v h
      obtain ⟨l, h0, rfl⟩ := map_eq_ok.1 h
      have := triple_list hvd env fmt _ _ _ h0
      simp only [Variant.vsize]; omega
    have hm : Triple Variant.vsize 3
        (Variant.map <$> decodeMapWith (formatCode >>= fun f => decVariant env d f)
          (formatCode >>= fun f => decVariant env d f) env fmt) := by
      intro i r v h
      obtain ⟨l, h0, rfl⟩ := map_eq_ok.1 h
      have := triple_map hvd hvd env fmt _ _ _ h0
      simp only [Variant.vsize, vsizeMap_total] at this ⊢; omega
    have hd : Triple Variant.vsize 3 (decode Descriptor env >>= fun ds =>
        (formatCode >>= fun f => decVariant env d f) >>= fun v => pure (Variant.described ds v)) := by
      intro i r v h
      obtain ⟨r1, ds, h1, h⟩ := bind_eq_ok.1 h
      obtain ⟨r2, w, h2, h⟩ := bind_eq_ok.1 h
      injection h with h; injection h with h3 h4
      subst h3 h4
      have g1 := descriptor_enc_le h1
      have g3 := decode_length_le h1
      have g2 := hvd _ _ _ h2
      simp only [Variant.vsize]; omega
    unfold decVariant
    simp only
    repeat' apply Dec.Post.ite
    all_goals first
      | exact Dec.Post.fail _
      | exact triple_pure _ (by simp [Variant.vsize, vsizeList, compoundSize, size])
      | exact hl
      | exact hm
      | exact hd
      | exact triple_leaf Variant.boolean shortest_bool (fun a => rfl)
      | exact triple_leaf Variant.ubyte shortest_u8 (fun a => rfl)
      | exact triple_leaf Variant.ushort shortest_u16 (fun a => rfl)
      | exact triple_leaf Variant.uint shortest_u32 (fun a => rfl)
      | exact triple_leaf Variant.ulong shortest_u64 (fun a => rfl)
      | exact triple_leaf Variant.byte shortest_i8 (fun a => rfl)
      | exact triple_leaf Variant.short shortest_i16 (fun a => rfl)
      | exact triple_leaf Variant.int shortest_i32 (fun a => rfl)
      | exact triple_leaf Variant.long shortest_i64 (fun a => rfl)
      | exact triple_leaf Variant.float shortest_f32 (fun a => rfl)
      | exact triple_leaf Variant.double shortest_f64 (fun a => rfl)
      | exact triple_leaf Variant.char shortest_char (fun a => rfl)
      | exact triple_leaf Variant.uuid shortest_uuid (fun a => rfl)
      | exact triple_leaf Variant.timestamp shortest_datetime (fun a => rfl)
      | exact triple_leaf Variant.binary shortest_binary (fun a => rfl)
      | exact triple_leaf Variant.string shortest_str (fun a => rfl)
      | exact triple_leaf Variant.symbol shortest_symbol (fun a => rfl)

theorem growsTo_variant : GrowsTo 3 0 Variant := by
  intro env i r v h
  obtain ⟨c, t, rfl, h1⟩ := decode_ok h
  have := triple_variant env env.stackDepth c _ _ _ h1
  have e : v.vsize = (enc v).length := LawfulEnc.size_eq v
  simp only [List.length_cons]; omega

theorem growsTo_list : GrowsTo 3 0 VList := by
  intro env i r v h
  obtain ⟨c, t, rfl, h1⟩ := decode_ok h
  obtain ⟨l, h2, rfl⟩ := map_eq_ok.1 h1
  have hv : Triple Variant.vsize 0 (decode Variant env) := fun i r v h => by
    have := growsTo_variant env i r v h
    have e : v.vsize = (enc v).length := LawfulEnc.size_eq v
    omega
  have := triple_list hv env c _ _ _ h2
  rw [← LawfulEnc.size_eq]
  have e : size (VList.mk l) = compoundSize (vsizeList l) := rfl
  dsimp only at this
  simp only [List.length_cons]; omega

theorem GrowsTo.triple {α : Type} [Encode α] [DecodeF α] [LawfulEnc α] (h : GrowsTo 3 0 α)
    (env : Env) : Triple (size : α → Nat) 0 (decode α env) := fun i r v hd => by
  have := h env i r v hd
  rw [← LawfulEnc.size_eq] at this
  exact this

theorem growsTo_map {K V : Type} [HKey K] [Encode K] [DecodeF K] [LawfulEnc K] [Encode V]
    [DecodeF V] [LawfulEnc V] (hk : GrowsTo 3 0 K) (hv : GrowsTo 3 0 V) :
    GrowsTo 3 0 (HMap K V) := by
  intro env i r m h
  obtain ⟨c, t, rfl, h1⟩ := decode_ok h
  obtain ⟨l, h2, rfl⟩ := map_eq_ok.1 h1
  have := triple_map (hk.triple env) (hv.triple env) env c _ _ _ h2
  rw [← LawfulEnc.size_eq]
  have e : size (HMap.mk l) = compoundSize (mapContentSize (size : K → Nat) (size : V → Nat) l) := rfl
  rw [mapContentSize_total] at e
  dsimp only at this
  simp only [List.length_cons]; omega

theorem growsTo_option {α : Type} [Encode α] [DecodeF α] [LawfulDec α] {k c : Nat} (hk : 1 ≤ k)
    (h : GrowsTo k c α) : GrowsTo k c (Option α) := by
  intro env i r v hd
  obtain ⟨f, t, rfl, h1⟩ := decode_ok hd
  have e : (decF env f : Dec (Option α)) = if f = FC.null then pure none
    else some <$> decF env f := rfl
  rw [e] at h1
  split at h1
  · injection h1 with h1; injection h1 with h2 h3
    subst h2 h3
    have : (enc (none : Option α)).length = 1 := rfl
    simp only [List.length_cons, Nat.mul_add]
    omega
  · obtain ⟨a, h2, rfl⟩ := map_eq_ok.1 h1
    exact h env (f :: t) r a h2

/-! ## Arrays of symbols -/

/-- `d` yields values covered four times by the input. -/
theorem four_decodeN {α : Type} {w : α → Nat} {d : Dec α}
    (hd : Post d fun i r a => w a + 4 * r.length ≤ 4 * i.length) :
    ∀ n, Post (decodeN d n) fun i r l => total w l + 4 * r.length ≤ 4 * i.length
  | 0, i, r, l, h => by
    injection h with h; injection h with h1 h2
    subst h1 h2
    simp [total]
  | n + 1, i, r, l, h => by
    obtain ⟨r1, v, h1, h⟩ := bind_eq_ok.1 h
    obtain ⟨r2, t, h2, h⟩ := bind_eq_ok.1 h
    injection h with h; injection h with h3 h4
    subst h3 h4
    have g1 := hd _ _ _ h1
    have g2 := four_decodeN hd n _ _ _ h2
    simp only [total, List.map_cons, List.sum_cons] at g2 ⊢
    omega

theorem symbol_item {env : Env} {c : UInt8} {i r : Bytes} {a : Symbol}
    (h : decF env c i = .ok (r, a)) : asize a + 4 * r.length ≤ 4 * i.length := by
  have e : (decF env c : Dec Symbol) = if c = FC.symbol8 then
      Symbol.mk <$> (readBytesU8 >>= fromUtf8) else if c = FC.symbol32 then
      Symbol.mk <$> (readBytesU32 >>= fromUtf8) else Dec.fail (.invalidFormatCode c) := rfl
  rw [e] at h
  have ha : asize a = 4 + a.str.bytes.length := rfl
  split at h
  · obtain ⟨s, h', rfl⟩ := map_eq_ok.1 h
    obtain ⟨_, b, h1, h2⟩ := bind_eq_ok.1 h'
    obtain ⟨_, rfl⟩ := readBytesU8_ok h1
    obtain ⟨rfl, hu⟩ := fromUtf8_ok h2
    subst hu
    simp only [List.length_cons, List.length_append] at *
    omega
  · split at h
    · obtain ⟨s, h', rfl⟩ := map_eq_ok.1 h
      obtain ⟨_, b, h1, h2⟩ := bind_eq_ok.1 h'
      obtain ⟨_, rfl⟩ := readBytesU32_ok h1
      obtain ⟨rfl, hu⟩ := fromUtf8_ok h2
      subst hu
      simp only [List.length_append, beEnc_length] at *
      omega
    · cases h

theorem arrayContentSize_total {α : Type} [ArrayEncode α] (l : List α) :
    arrayContentSize l = total asize l := by
  induction l with
  | nil => simp [arrayContentSize, total]
  | cons v t ih => simp only [arrayContentSize, ih, total, List.map_cons, List.sum_cons]

theorem symbols_size_le (l : List Symbol) :
    size (Multiple.mk l) ≤ 10 + total (asize : Symbol → Nat) l := by
  have hv : ∀ l : List Symbol, size (Vec.mk l) ≤ 10 + total (asize : Symbol → Nat) l := by
    intro l
    rw [← arrayContentSize_total]
    show (if arrayContentSize l + 1 > 255 then 10 else 4) + arrayContentSize l ≤ _
    split <;> omega
  match l with
  | [] => exact hv []
  | [x] =>
    have e : size (Multiple.mk [x]) = varSize x.str.bytes.length := rfl
    have : asize x = 4 + x.str.bytes.length := rfl
    simp only [e, total, List.map_cons, List.map_nil, List.sum_cons, List.sum_nil, this]
    unfold varSize
    split <;> omega
  | x :: y :: t => exact hv (x :: y :: t)

theorem growsTo_symbols : GrowsTo 4 0 Symbols := by
  intro env i r v h
  obtain ⟨c, t, rfl, h1⟩ := decode_ok h
  have e : (decF env c : Dec (Multiple Symbol)) = if c = FC.array8 ∨ c = FC.array32 then
      (fun v : Vec Symbol => ⟨v.items⟩) <$> decF env c else (fun x => ⟨[x]⟩) <$> decF env c := rfl
  rw [e] at h1
  split at h1
  · obtain ⟨w, h2, rfl⟩ := map_eq_ok.1 h1
    obtain ⟨r1, hd, h3, h4⟩ := bind_eq_ok.1 h2
    obtain ⟨r2, f, h5, h6⟩ := bind_eq_ok.1 h4
    obtain ⟨r3, l, h7, h8⟩ := bind_eq_ok.1 h6
    injection h8 with h8; injection h8 with h9 h10
    subst h9 h10
    have g1 := (arrayHeader_count h3).2
    have g2 : r1.length = r2.length + 1 := by
      cases r1 with
      | nil => cases h5
      | cons b r1 => cases h5; rfl
    have g3 := four_decodeN (w := asize) (fun i r a h => symbol_item h) _ _ _ _ h7
    have g4 := symbols_size_le l
    rw [LawfulEnc.size_eq] at g4
    simp only [List.length_cons]
    omega
  · obtain ⟨x, h2, rfl⟩ := map_eq_ok.1 h1
    exact ((GrowsTo.of_shortest shortest_symbol).mono (by omega) (Nat.le_refl _)) env (c :: t) r x h2

/-! ## List types -/

/-- The growth of a type. -/
class Grows (α : Type) [Encode α] [DecodeF α] where
  extra : Nat
  spare : Nat
  grows : ∀ (env : Env) (i r : Bytes) (v : α), decode α env i = .ok (r, v) →
    (enc v).length + spare + 4 * r.length ≤ 4 * i.length + extra

theorem Grows.growsTo (α : Type) [Encode α] [DecodeF α] [Grows α] : GrowsTo 4 (Grows.extra α) α :=
  fun env i r v h => by
    have := Grows.grows env i r v h
    omega

section
variable {α : Type} [Encode α] [DecodeF α] [LawfulDec α]
@[reducible] def Grows.of_shortest (h : ShortestEncoding α) : Grows α :=
  ⟨0, 3, fun env i r v hd => by
    have := h env i r v hd
    have hl : r.length + 1 ≤ i.length := by
      obtain ⟨c, t, rfl, h1⟩ := decode_ok hd
      have := (LawfulDec.loc env c).length_le h1
      simp only [List.length_cons]; omega
    omega⟩
@[reducible] def Grows.of_three (h : GrowsTo 3 0 α) : Grows α := 
  ⟨0, 0, fun env i r v hd => by
    have := h env i r v hd
    have := decode_length_le hd
    omega⟩
end

instance : Grows Bool := .of_shortest shortest_bool
instance : Grows UInt8 := .of_shortest shortest_u8
instance : Grows UInt16 := .of_shortest shortest_u16
instance : Grows UInt32 := .of_shortest shortest_u32
instance : Grows UInt64 := .of_shortest shortest_u64
instance : Grows Binary := .of_shortest shortest_binary
instance : Grows RStr := .of_shortest shortest_str
instance : Grows Symbol := .of_shortest shortest_symbol
instance : Grows DateTime := .of_shortest shortest_datetime
instance : Grows Variant := .of_three growsTo_variant
instance : Grows VList := .of_three growsTo_list
instance : Grows Symbols := ⟨0, 0, growsTo_symbols⟩

theorem three_of_shortest {α : Type} [Encode α] [DecodeF α] [LawfulDec α]
    (h : ShortestEncoding α) : GrowsTo 3 0 α := (GrowsTo.of_shortest h).mono (by omega) (Nat.le_refl _)

instance : Grows (HMap Symbol Variant) :=
  .of_three (growsTo_map (three_of_shortest shortest_symbol) growsTo_variant)
instance : Grows (HMap Str Variant) :=
  .of_three (growsTo_map (three_of_shortest shortest_str) growsTo_variant)
instance : Grows (HMap Variant Variant) := .of_three (growsTo_map growsTo_variant growsTo_variant)
instance : Grows FilterSet := .of_three (growsTo_map (three_of_shortest shortest_symbol)
  (growsTo_option (by omega) (three_of_shortest shortest_str)))

theorem shortest_enum {E β : Type} [Encode E] [DecodeF E] [Encode β] [DecodeF β] [EnumType E β]
    (h : ShortestEncoding β) : ShortestEncoding E := by
  intro env i r e hd
  rw [decode_enum] at hd
  obtain ⟨r1, b, h1, h2⟩ := bind_eq_ok.1 hd
  cases ht : EnumType.tryFrom (E := E) b with
  | ok a =>
    rw [ht] at h2
    injection h2 with h2; injection h2 with h3 h4
    subst h3 h4
    rw [EnumType.enc_eq, ← EnumType.base_of b a ht]
    exact h env i _ b h1
  | err e => rw [ht] at h2; cases h2
  | panic p => rw [ht] at h2; cases h2

instance : Grows Role := .of_shortest (shortest_enum shortest_bool)
instance : Grows SenderSettleMode := .of_shortest (shortest_enum shortest_u8)
instance : Grows ReceiverSettleMode := .of_shortest (shortest_enum shortest_u8)
instance : Grows SaslCode := .of_shortest (shortest_enum shortest_u8)
instance : Grows TerminusDurability := .of_shortest (shortest_enum shortest_u32)
instance : Grows TerminusExpiryPolicy := .of_shortest (shortest_enum shortest_symbol)

instance : Grows ErrorCondition := .of_shortest fun env i r c h => by
  rw [decode_errorCondition] at h
  obtain ⟨s, h', rfl⟩ := map_eq_ok.1 h
  rw [ErrorCondition.enc_eq, ErrorCondition.symbol_ofSymbol]
  exact shortest_symbol env i r s h'
instance : Grows DistributionMode := .of_shortest fun env i r c h => by
  rw [decode_distributionMode] at h
  obtain ⟨s, h', rfl⟩ := map_eq_ok.1 h
  rw [DistributionMode.enc_eq, DistributionMode.symbol_ofSymbol]
  exact shortest_symbol env i r s h'
instance : Grows MessageId := .of_shortest fun env i r m h => by
  obtain ⟨c, t, rfl, h1⟩ := decode_ok h
  have key : Post (decF env c : Dec MessageId)
      fun t r m => (enc m).length + r.length ≤ (c :: t).length := by
    refine Post.ite ?_ (Post.ite ?_ (Post.ite ?_ (Post.ite ?_ (Post.fail _)))) <;>
      intro t r m h <;> obtain ⟨x, h', rfl⟩ := map_eq_ok.1 h
    · exact shortest_u64 env (c :: t) r x h'
    · exact shortest_uuid env (c :: t) r x h'
    · exact shortest_binary env (c :: t) r x h'
    · exact shortest_str env (c :: t) r x h'
  exact key _ _ _ h1

/-- The growth of one field. -/
class FieldGrows (f : Field) where
  extra : Nat
  spare : Nat
  needed : Bool
  given : ∀ env i r a, f.dec env i = .ok (r, a) →
    (f.enc a).length + spare + 4 * r.length ≤ 4 * i.length + extra
  absent : ∀ a, f.missing = .ok a → (f.enc a).length + spare ≤ extra
  needs : needed = true → ∀ a, f.missing ≠ .ok a

section
variable (α : Type) [Encode α] [DecodeF α] [LawfulEnc α] [LawfulDec α] [NonNull α] [Grows α]

instance (name : String) : FieldGrows (.req α name) where
  extra := Grows.extra α
  spare := Grows.spare α
  needed := true
  given := Grows.grows (α := α)
  absent _ h := by cases h
  needs _ _ h := by cases h

instance : FieldGrows (.opt α) where
  extra := max 1 (Grows.extra α)
  spare := 0
  needed := false
  needs h := by cases h
  given env i r a h := by
    have := growsTo_option (by omega) (Grows.growsTo α) env i r a h
    exact Nat.le_trans this (Nat.add_le_add_left (Nat.le_max_right _ _) _)
  absent a h := by
    cases h
    exact Nat.le_max_left _ _

instance (d : α) : FieldGrows (.dflt α d) where
  extra := max (size d) (Grows.extra α)
  spare := 0
  needed := false
  needs h := by cases h
  given env i r a h := by
    obtain ⟨o, h', rfl⟩ := map_eq_ok.1 h
    have := growsTo_option (by omega) (Grows.growsTo α) env i r o h'
    have e : (Field.dflt α d).enc = (enc : α → Bytes) := rfl
    have hl := decode_length_le h'
    cases o with
    | none => simp only [Option.getD_none, e, LawfulEnc.size_eq]; omega
    | some x =>
      have ex : enc (some x) = enc x := rfl
      rw [ex] at this
      simp only [Option.getD_some, e]; omega
  absent a h := by
    cases h
    have e : (Field.dflt α d).enc = (enc : α → Bytes) := rfl
    rw [e, LawfulEnc.size_eq]
    exact Nat.le_max_left _ _
end

/-- The growth of the fields of a list. -/
class FieldsGrow (fs : List Field) where
  extra : Nat
  spare : Nat
  needed : Bool
  grows : ∀ env n w s t, getFields env fs (n, w) = .ok (s, t) →
    sizeFields fs t + spare + 4 * s.2.length ≤ 4 * w.length + extra
  needs : ∀ env n w s t, getFields env fs (n, w) = .ok (s, t) → needed = true → n ≠ 0

instance : FieldsGrow [] where
  extra := 0
  spare := 0
  needed := false
  needs _ _ _ _ _ _ h := by cases h
  grows env n w s t h := by
    injection h with h; injection h with h1 h2
    subst h1 h2
    simp [sizeFields]

instance (f : Field) (fs : List Field) [FieldGrows f] [FieldsGrow fs] : FieldsGrow (f :: fs) where
  extra := FieldGrows.extra f + FieldsGrow.extra fs
  spare := FieldGrows.spare f + FieldsGrow.spare fs
  needed := FieldGrows.needed f
  needs env n w s t h hn hz := by
    subst hz
    simp only [getFields, FieldDec.run_bind, f.get_zero] at h
    cases hm : f.missing with
    | err e => rw [hm] at h; cases h
    | panic p => rw [hm] at h; cases h
    | ok x => exact FieldGrows.needs hn x hm
  grows env n w s t h := by
    obtain ⟨a, t⟩ := t
    simp only [getFields, FieldDec.run_bind] at h
    cases hg : f.get env (n, w) with
    | err e => rw [hg] at h; cases h
    | panic p => rw [hg] at h; cases h
    | ok q =>
      obtain ⟨⟨n1, w1⟩, b⟩ := q
      rw [hg] at h
      simp only at h
      cases hr : getFields env fs (n1, w1) with
      | err e => rw [hr] at h; cases h
      | panic p => rw [hr] at h; cases h
      | ok q =>
        obtain ⟨s', t'⟩ := q
        rw [hr] at h
        injection h with h; injection h with h1 h2; injection h2 with h2 h3
        subst h1 h2 h3
        have g1 := FieldsGrow.grows (fs := fs) env _ _ _ _ hr
        have g2 : (f.enc b).length + FieldGrows.spare f + 4 * w1.length ≤
            4 * w.length + FieldGrows.extra f := by
          cases n with
          | zero =>
            rw [f.get_zero] at hg
            cases hm : f.missing with
            | err e => rw [hm] at hg; cases hg
            | panic p => rw [hm] at hg; cases hg
            | ok x =>
              rw [hm] at hg
              injection hg with hg; injection hg with h1 h2; injection h1 with h1 h3
              subst h1 h2 h3
              have := FieldGrows.absent x hm
              omega
          | succ n =>
            rw [f.get_succ, present] at hg
            cases hd : f.dec env w with
            | err e => rw [hd] at hg; cases hg
            | panic p => rw [hd] at hg; cases hg
            | ok q =>
              obtain ⟨r, x⟩ := q
              rw [hd] at hg
              injection hg with hg; injection hg with h1 h2; injection h1 with h1 h3
              subst h1 h2 h3
              exact FieldGrows.given env _ _ _ hd
        simp only [sizeFields, f.size_eq]
        omega

section
variable {α : Type} [Encode α] [DecodeF α] [ListType α] [FieldsGrow (ListType.fields α)]

variable (α) in
/-- What a list takes beyond four times the bytes received. -/
@[reducible] def listExtra : Nat := FieldsGrow.extra (ListType.fields α) -
  (FieldsGrow.spare (ListType.fields α) + (cond (FieldsGrow.needed (ListType.fields α)) 8 0) + 4)

/-- What a list of fields takes when sent on, with its descriptor. -/
theorem inner_grows {env : Env} {i r : Bytes} {v : α} (h : ListType.inner env i = .ok (r, v)) :
    (enc v).length + 4 * r.length ≤ 4 * i.length + (listExtra α + 12) := by
  rw [ListType.inner_eq] at h
  obtain ⟨r1, fmt, h1, h⟩ := bind_eq_ok.1 h
  obtain ⟨r2, hd, h2, h⟩ := bind_eq_ok.1 h
  obtain ⟨r3, body, h3, h⟩ := bind_eq_ok.1 h
  have e : i.length = r1.length + 1 := by rw [readU8_ok h1]; rfl
  obtain ⟨e2, hl⟩ := takeN_ok h3
  have e3 : r2.length = body.length + r3.length := by rw [e2, List.length_append]
  rw [FieldDec.run_map] at h
  cases hg : getFields env (ListType.fields α) (hd.count, body) with
  | err e => rw [hg] at h; cases h
  | panic p => rw [hg] at h; cases h
  | ok q =>
    obtain ⟨s, t⟩ := q
    rw [hg] at h
    injection h with h; injection h with h4 h5
    subst h4 h5
    have g1 := FieldsGrow.grows env _ _ _ _ hg
    have g2 := listHeader_ok h2
    have g5 := FieldsGrow.needs env _ _ _ _ hg
    have g6 : r2.length + cond (FieldsGrow.needed (ListType.fields α)) 2 0 ≤ r1.length := by
      cases hn : FieldsGrow.needed (ListType.fields α) with
      | true =>
        have := g5 hn
        simp only [cond_true]
        omega
      | false =>
        simp only [cond_false]
        rcases g2 with g2 | ⟨rfl, _⟩ <;> omega
    have g3 := (listLawfulEnc (α := α)).size_eq (ListType.ofT t)
    rw [ListType.size_eq', ListType.toT_ofT] at g3
    have g4 : listSize (sizeFields (ListType.fields α) t) ≤
        12 + sizeFields (ListType.fields α) t := by unfold listSize; split <;> omega
    unfold listExtra
    cases hn : FieldsGrow.needed (ListType.fields α) <;> rw [hn] at g6 <;>
      simp only [cond_true, cond_false] at g6 ⊢ <;> omega

@[reducible] def Grows.of_list : Grows α where
  extra := listExtra α
  spare := 0
  grows env i r v h := by
    obtain ⟨c, t, rfl, h1⟩ := decode_ok h
    rw [ListType.decF_eq, describedAs_eq] at h1
    obtain ⟨_, h1⟩ := validateCode_ok h1
    obtain ⟨r1, d, h2, h3⟩ := bind_eq_ok.1 h1
    have g1 := descriptor_takes_two h2
    split at h3
    · cases h3
    · have := inner_grows h3
      simp only [List.length_cons]
      omega
end

end Amqp
