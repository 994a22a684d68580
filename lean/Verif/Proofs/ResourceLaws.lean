import Verif.Spec.Resources
import Verif.Proofs.VariantDecode
/-!
# Sizes of decoded values and reservations
-/
set_option autoImplicit false
namespace Amqp
open Dec

/-! ## Weights -/

theorem weightList_eq (l : List Variant) : weightList l = total Variant.weight l := by
  induction l with
  | nil => simp [weightList, total]
  | cons v t ih => simp only [weightList, ih, total, List.map_cons, List.sum_cons]
theorem weightMap_eq (m : List (Variant × Variant)) :
    weightMap m = total (fun e => e.1.weight + e.2.weight) m := by
  induction m with
  | nil => simp [weightMap, total]
  | cons e t ih =>
    obtain ⟨k, v⟩ := e
    simp only [weightMap, ih, total, List.map_cons, List.sum_cons]

/-- `d` yields values covered by the input and a credit. -/
def Covers {α : Type} (w : α → Nat) (k : Nat) (d : Dec α) : Prop :=
  Post d fun i r a => w a + r.length ≤ i.length + k

theorem covers_decodeN {α : Type} {w : α → Nat} {d : Dec α} (hd : Covers w 0 d) :
    ∀ n, Covers (total w) 0 (decodeN d n)
  | 0, i, r, l, h => by
    injection h with h; injection h with h1 h2
    subst h1 h2
    simp [total]
  | n + 1, i, r, l, h => by
    obtain ⟨r1, v, h1, h⟩ := bind_eq_ok.1 h
    obtain ⟨r2, t, h2, h⟩ := bind_eq_ok.1 h
    injection h with h; injection h with h3 h4
    subst h3 h4
    have g1 := hd _ _ _ h1
    have g2 := covers_decodeN hd n _ _ _ h2
    simp only [total, List.map_cons, List.sum_cons] at g2 ⊢
    omega

theorem covers_pairs {K V : Type} {wk : K → Nat} {wv : V → Nat} {kd : Dec K} {vd : Dec V}
    (hk : Covers wk 0 kd) (hv : Covers wv 0 vd) :
    Covers (fun e : K × V => wk e.1 + wv e.2) 0 (decodePairs kd vd) := by
  intro i r e h
  obtain ⟨r1, k, h1, h⟩ := bind_eq_ok.1 h
  obtain ⟨r2, v, h2, h⟩ := bind_eq_ok.1 h
  injection h with h; injection h with h3 h4
  subst h3 h4
  have g1 := hk _ _ _ h1
  have g2 := hv _ _ _ h2
  dsimp only
  omega

theorem covers_slice {α : Type} {w : α → Nat} {d : Dec α} (hd : Covers w 0 d) (n : Nat) :
    Covers w 0 (withSlice n d) := by
  intro i r a h
  obtain ⟨hn, rfl, r', h'⟩ := withSlice_ok h
  have := hd _ _ _ h'
  simp only [List.length_take, List.length_drop] at this ⊢
  omega

theorem total_insertEntry {K V : Type} [HKey K] (wk : K → Nat) (wv : V → Nat) (k : K) (v : V)
    (l : List (K × V)) :
    total (fun e => wk e.1 + wv e.2) (insertEntry HKey.keq k v l) ≤
      total (fun e => wk e.1 + wv e.2) l + wk k + wv v := by
  induction l with
  | nil => simp [insertEntry, total]
  | cons x t ih =>
    obtain ⟨k', v'⟩ := x
    unfold insertEntry
    simp only [total] at ih ⊢
    split
    · simp only [List.map_cons, List.sum_cons]; omega
    · simp only [List.map_cons, List.sum_cons]; omega

theorem covers_mapLoop {K V : Type} [HKey K] {wk : K → Nat} {wv : V → Nat} {kd : Dec K} {vd : Dec V}
    (hk : Covers wk 0 kd) (hv : Covers wv 0 vd) :
    ∀ n acc i r out, mapLoop kd vd n acc i = .ok (r, out) →
      total (fun e => wk e.1 + wv e.2) out + r.length ≤
        total (fun e => wk e.1 + wv e.2) acc + i.length
  | 0, acc, i, r, out, h => by
    injection h with h; injection h with h1 h2
    subst h1 h2
    exact Nat.le_refl _
  | n + 1, acc, i, r, out, h => by
    obtain ⟨r1, k, r2, v, h1, h2, _, h⟩ := mapLoop_succ h
    have g1 := hk _ _ _ h1
    have g2 := hv _ _ _ h2
    have g3 := covers_mapLoop hk hv n _ _ _ _ h
    have := total_insertEntry wk wv k v acc
    omega

theorem covers_map {K V : Type} [HKey K] {wk : K → Nat} {wv : V → Nat} {kd : Dec K} {vd : Dec V}
    (hk : Covers wk 0 kd) (hv : Covers wv 0 vd) (env : Env) (fmt : UInt8) :
    Covers (fun m => 2 + total (fun e => wk e.1 + wv e.2) m) 0 (decodeMapWith kd vd env fmt) := by
  intro i r m h
  obtain ⟨r1, hd, h1, h2⟩ := bind_eq_ok.1 h
  have g1 := mapHeader_ok h1
  have hc : Covers (total fun e : K × V => wk e.1 + wv e.2) 0 (mapLoop kd vd (hd.count / 2) []) := by
    intro i r a h
    have := covers_mapLoop hk hv _ _ _ _ _ h
    simp only [total, List.map_nil, List.sum_nil] at this ⊢
    omega
  have g2 := covers_slice hc hd.size _ _ _ h2
  dsimp only
  omega

theorem covers_list {vd : Dec Variant} (hv : Covers Variant.weight 0 vd) (env : Env) (fmt : UInt8) :
    Covers weightList 0 (decodeListWith vd env fmt) := by
  intro i r l h
  obtain ⟨r1, hd, h1, h2⟩ := bind_eq_ok.1 h
  have g := covers_decodeN hv _ _ _ _ h2
  rw [weightList_eq]
  have := (Local.decodeListHeader env fmt).length_le h1
  omega

theorem covers_leaf {α : Type} [Encode α] [DecodeF α] [LawfulEnc α] {env : Env}
    {fmt : UInt8} (f : α → Variant) (hs : ShortestEncoding α)
    (hw : ∀ a, (f a).weight ≤ size a) : Covers Variant.weight 1 (f <$> decF env fmt) := by
  intro i r v h
  obtain ⟨a, h0, rfl⟩ := map_eq_ok.1 h
  have h1 := hs env (fmt :: i) r a h0
  have h2 := hw a
  rw [LawfulEnc.size_eq] at h2
  simp only [List.length_cons] at h1
  omega

theorem covers_pure (v : Variant) (hv : v.weight ≤ 1) : Covers Variant.weight 1 (pure v) := by
  intro i r w h
  injection h with h; injection h with h1 h2
  subst h1 h2
  omega

theorem one_le_size {α : Type} [Encode α] [LawfulEnc α] [NonNull α] (a : α) : 1 ≤ size a := by
  obtain ⟨c, t, e, _⟩ := NonNull.head a
  rw [LawfulEnc.size_eq, e]
  simp

theorem le_varSize (n : Nat) : 1 + n ≤ varSize n := by unfold varSize; split <;> omega

theorem covers_descriptor (env : Env) : Covers Descriptor.weight 0 (decode Descriptor env) := by
  intro i r d h
  obtain ⟨c, t, rfl, h'⟩ := decode_ok h
  have hu : Covers Descriptor.weight 1 (Descriptor.ulong <$> (decF env c : Dec UInt64)) := by
    intro t r ds h
    obtain ⟨u, hu, rfl⟩ := map_eq_ok.1 h
    have := shortest_u64 env (c :: t) r u hu
    have h2 := one_le_size u
    rw [LawfulEnc.size_eq] at h2
    simp only [Descriptor.weight, List.length_cons] at this ⊢
    omega
  have hy : Covers Descriptor.weight 1 (Descriptor.symbol <$> (decF env c : Dec Symbol)) := by
    intro t r ds h
    obtain ⟨u, hu, rfl⟩ := map_eq_ok.1 h
    have := shortest_symbol env (c :: t) r u hu
    have h2 : 1 + u.str.bytes.length ≤ size u := le_varSize _
    rw [LawfulEnc.size_eq] at h2
    simp only [Descriptor.weight, List.length_cons] at this ⊢
    omega
  have := (Dec.Post.ite hu (Dec.Post.ite hu (Dec.Post.ite hy (Dec.Post.ite hy (Dec.Post.fail _)))) :
    Covers Descriptor.weight 1 (decF env c : Dec Descriptor)) _ _ _ h'
  rw [List.length_cons]; omega

theorem covers_variant (env : Env) : ∀ d fmt, Covers Variant.weight 1 (decVariant env d fmt)
  | 0, _ => fun _ _ _ h => by cases h
  | d + 1, fmt => by
    have hvd : Covers Variant.weight 0 (formatCode >>= fun f => decVariant env d f) := by
      intro i r v h
      obtain ⟨r1, f, h1, h⟩ := bind_eq_ok.1 h
      have e : i = f :: r1 := readU8_ok h1
      subst e
      have := covers_variant env d f _ _ _ h
      simp only [List.length_cons]; omega
    have hl : Covers Variant.weight 1
        (Variant.list <$> decodeListWith (formatCode >>= fun f => decVariant env d f) env fmt) := by
      intro i r v h
      obtain ⟨l, h0, rfl⟩ := map_eq_ok.1 h
      have := covers_list hvd env fmt _ _ _ h0
      simp only [Variant.weight]; omega
    have hm : Covers Variant.weight 1
        (Variant.map <$> decodeMapWith (formatCode >>= fun f => decVariant env d f)
          (formatCode >>= fun f => decVariant env d f) env fmt) := by
      intro i r v h
      obtain ⟨l, h0, rfl⟩ := map_eq_ok.1 h
      have := covers_map hvd hvd env fmt _ _ _ h0
      simp only [Variant.weight, weightMap_eq] at this ⊢; omega
    have hd : Covers Variant.weight 1 (decode Descriptor env >>= fun ds =>
        (formatCode >>= fun f => decVariant env d f) >>= fun v => pure (Variant.described ds v)) := by
      intro i r v h
      obtain ⟨r1, ds, h1, h⟩ := bind_eq_ok.1 h
      obtain ⟨r2, w, h2, h⟩ := bind_eq_ok.1 h
      injection h with h; injection h with h3 h4
      subst h3 h4
      have g1 := covers_descriptor env _ _ _ h1
      have g2 := hvd _ _ _ h2
      simp only [Variant.weight]; omega
    unfold decVariant
    simp only
    repeat' apply Dec.Post.ite
    all_goals first
      | exact Dec.Post.fail _
      | exact covers_pure _ (by simp [Variant.weight, weightList])
      | exact hl
      | exact hm
      | exact hd
      | exact covers_leaf Variant.boolean shortest_bool (fun a => one_le_size a)
      | exact covers_leaf Variant.ubyte shortest_u8 (fun a => one_le_size a)
      | exact covers_leaf Variant.ushort shortest_u16 (fun a => one_le_size a)
      | exact covers_leaf Variant.uint shortest_u32 (fun a => one_le_size a)
      | exact covers_leaf Variant.ulong shortest_u64 (fun a => one_le_size a)
      | exact covers_leaf Variant.byte shortest_i8 (fun a => one_le_size a)
      | exact covers_leaf Variant.short shortest_i16 (fun a => one_le_size a)
      | exact covers_leaf Variant.int shortest_i32 (fun a => one_le_size a)
      | exact covers_leaf Variant.long shortest_i64 (fun a => one_le_size a)
      | exact covers_leaf Variant.float shortest_f32 (fun a => one_le_size a)
      | exact covers_leaf Variant.double shortest_f64 (fun a => one_le_size a)
      | exact covers_leaf Variant.char shortest_char (fun a => one_le_size a)
      | exact covers_leaf Variant.uuid shortest_uuid (fun a => one_le_size a)
      | exact covers_leaf Variant.timestamp shortest_datetime (fun a => one_le_size a)
      | exact covers_leaf Variant.binary shortest_binary (fun a => le_varSize _)
      | exact covers_leaf Variant.string shortest_str (fun a => le_varSize _)
      | exact covers_leaf Variant.symbol shortest_symbol (fun a => le_varSize _)

theorem covers_decVar (env : Env) (d : Nat) : Covers Variant.weight 0 (decVar env d) := by
  intro i r v h
  obtain ⟨r1, f, h1, h⟩ := bind_eq_ok.1 h
  have e : i = f :: r1 := readU8_ok h1
  subst e
  have := covers_variant env d f _ _ _ h
  simp only [List.length_cons]; omega

theorem fits_covers {α : Type} [DecodeF α] {w : α → Nat} (h : Fits w) (env : Env) :
    Covers w 0 (decode α env) := h env

theorem fits_of_head {α : Type} [DecodeF α] {w : α → Nat}
    (h : ∀ env fmt, Covers w 1 (decF env fmt : Dec α)) : Fits w := by
  intro env i r a hd
  obtain ⟨c, t, rfl, h'⟩ := decode_ok hd
  have := h env c _ _ _ h'
  simpa using this

/-! ## Reservations: the same result -/

namespace Cost
variable {α β : Type}

/-- The decoder without the count. -/
def erase (c : Cost α) : Dec α := fun i => (c i).1

theorem run_bind (c : Cost α) (f : α → Cost β) (i : Bytes) :
    (c >>= f) i = match c i with
      | (.ok (r, a), n) => ((f a r).1, n + (f a r).2)
      | (.err e, n) => (.err e, n)
      | (.panic p, n) => (.panic p, n) := rfl
theorem bind_of (d : Dec α) (f : α → Cost β) (i : Bytes) :
    (of d >>= f) i = match d i with
      | .ok (r, a) => f a r
      | .err e => (.err e, 0)
      | .panic p => (.panic p, 0) := by
  rw [run_bind]; unfold of
  cases d i with
  | ok p => simp
  | err e => rfl
  | panic p => rfl
theorem bind_reserve (n : Nat) (f : Unit → Cost β) (i : Bytes) :
    (reserve n >>= f) i = ((f () i).1, n + (f () i).2) := rfl

theorem erase_pure (a : α) : erase (pure a : Cost α) = pure a := rfl
theorem erase_of (d : Dec α) : erase (of d) = d := rfl
theorem erase_bind (c : Cost α) (f : α → Cost β) :
    erase (c >>= f) = (erase c >>= fun a => erase (f a)) := by
  funext i
  rw [Dec.run_bind]
  unfold erase
  rw [run_bind]
  rcases c i with ⟨x, n⟩
  cases x <;> rfl
theorem erase_reserve (n : Nat) (f : Unit → Cost β) : erase (reserve n >>= f) = erase (f ()) := rfl
theorem erase_ite {p : Prop} [Decidable p] (c d : Cost α) :
    erase (if p then c else d) = if p then erase c else erase d := by split <;> rfl
end Cost
open Cost

theorem erase_decodeN {α : Type} (c : Cost α) : ∀ n, erase (decodeNC c n) = decodeN (erase c) n
  | 0 => rfl
  | n + 1 => by
    unfold decodeNC decodeN
    rw [erase_bind]
    congr 1; funext x
    rw [erase_bind, erase_decodeN c n]
    rfl

theorem erase_withSlice {α : Type} (n : Nat) (c : Cost α) :
    erase (withSliceC n c) = withSlice n (erase c) := by
  funext i
  unfold withSlice erase withSliceC
  split
  · rfl
  · rcases c (i.take n) with ⟨x, m⟩
    cases x <;> rfl

theorem erase_mapLoop {K V : Type} [HKey K] (kc : Cost K) (vc : Cost V) :
    ∀ n acc, erase (mapLoopC kc vc n acc) = mapLoop (erase kc) (erase vc) n acc
  | 0, _ => rfl
  | n + 1, acc => by
    unfold mapLoopC mapLoop
    rw [erase_bind]; congr 1; funext k
    rw [erase_bind]; congr 1; funext v
    rw [erase_ite, erase_mapLoop kc vc n, erase_of]

theorem erase_decodeMapWith {K V : Type} [HKey K] (kc : Cost K) (vc : Cost V) (env : Env)
    (fmt : UInt8) :
    erase (decodeMapWithC kc vc env fmt) = decodeMapWith (erase kc) (erase vc) env fmt := by
  unfold decodeMapWithC decodeMapWith
  rw [erase_bind]; congr 1; funext h
  rw [erase_withSlice, erase_reserve, erase_mapLoop]

theorem erase_decodeListWith (vc : Cost Variant) (env : Env) (fmt : UInt8) :
    erase (decodeListWithC vc env fmt) = decodeListWith (erase vc) env fmt := by
  unfold decodeListWithC decodeListWith
  rw [erase_bind]; congr 1; funext h
  rw [erase_reserve, erase_decodeN]

theorem decVariant_list {env : Env} {d : Nat} {fmt : UInt8} (h : fmt = FC.list8 ∨ fmt = FC.list32) :
    decVariant env (d + 1) fmt =
      Variant.list <$> decodeListWith (decVar env d) env fmt := by
  rcases h with rfl | rfl <;> rfl
theorem decVariant_map {env : Env} {d : Nat} {fmt : UInt8} (h : fmt = FC.map8 ∨ fmt = FC.map32) :
    decVariant env (d + 1) fmt =
      Variant.map <$> decodeMapWith (decVar env d) (decVar env d) env fmt := by
  rcases h with rfl | rfl <;> rfl
theorem decVariant_described {env : Env} {d : Nat} :
    decVariant env (d + 1) FC.described = (do
      let ds ← decode Descriptor env
      let v ← decVar env d
      pure (.described ds v)) := rfl

theorem erase_variant (env : Env) : ∀ d fmt, erase (decVariantC env d fmt) = decVariant env d fmt
  | 0, _ => rfl
  | d + 1, fmt => by
    have hv : erase (of formatCode >>= fun f => decVariantC env d f) = decVar env d := by
      rw [erase_bind]; congr 1; funext f; exact erase_variant env d f
    unfold decVariantC
    simp only
    by_cases h1 : fmt = FC.list8 ∨ fmt = FC.list32
    · rw [if_pos h1, decVariant_list h1, erase_bind, erase_decodeListWith, hv, map_eq_pure_bind]; rfl
    · rw [if_neg h1]
      by_cases h2 : fmt = FC.map8 ∨ fmt = FC.map32
      · rw [if_pos h2, decVariant_map h2, erase_bind, erase_decodeMapWith, hv, map_eq_pure_bind]; rfl
      · rw [if_neg h2]
        by_cases h3 : fmt = FC.described
        · subst h3
          rw [if_pos rfl, decVariant_described, erase_bind]; congr 1; funext ds
          rw [erase_bind, hv]; rfl
        · rw [if_neg h3, erase_of]

theorem erase_decVar (env : Env) (d : Nat) : erase (decVarC env d) = decVar env d := by
  unfold decVarC decVar
  rw [erase_bind]; congr 1; funext f; exact erase_variant env d f

/-! ## Reservations: limits -/

/-- At most `m` per byte used, plus an allowance. -/
structure Capped {α : Type} (m e : Nat) (c : Cost α) : Prop where
  all : ∀ i, (c i).2 ≤ m * i.length + e
  used : ∀ i r a, (c i).1 = .ok (r, a) → (c i).2 + m * r.length ≤ m * i.length + e

/-- Fewer than bytes used, with an allowance. -/
def Cheap {α : Type} (k e : Nat) (c : Cost α) : Prop :=
  ∀ i r a, (c i).1 = .ok (r, a) → (c i).2 + r.length + k ≤ i.length + e

section
variable {α β : Type}

theorem Capped.mono {m e e' : Nat} {c : Cost α} (h : Capped m e c) (he : e ≤ e') : Capped m e' c :=
  ⟨fun i => Nat.le_trans (h.all i) (by omega), fun i r a hd => by have := h.used i r a hd; omega⟩

theorem Capped.of {m : Nat} {d : Dec α} (h : Local d) : Capped m 0 (Cost.of d) :=
  ⟨fun i => Nat.zero_le _, fun i r a hd => by
    have := Nat.mul_le_mul_left m (h.length_le hd)
    simp only [Cost.of]; omega⟩
theorem Capped.pure {m : Nat} (a : α) : Capped m 0 (Pure.pure a : Cost α) := Capped.of (Local.pure a)
theorem Capped.reserve {m : Nat} (n : Nat) : Capped m n (Cost.reserve n) :=
  ⟨fun i => by simp only [Cost.reserve]; omega, fun i r a hd => by
    injection hd with hd; injection hd with h1 h2
    subst h1
    simp only [Cost.reserve]; omega⟩
theorem Capped.ite {m e : Nat} {p : Prop} [Decidable p] {c d : Cost α} (hc : Capped m e c)
    (hd : Capped m e d) : Capped m e (if p then c else d) := by split <;> assumption

theorem Capped.bind {m e e' : Nat} {c : Cost α} {f : α → Cost β} (hc : Capped m e c)
    (hf : ∀ a, Capped m e' (f a)) : Capped m (e + e') (c >>= f) := by
  constructor
  · intro i
    have h1 := hc.all i
    have h2 := hc.used i
    rw [Cost.run_bind]
    rcases hci : c i with ⟨x, n⟩
    rw [hci] at h1 h2
    cases x with
    | ok q =>
      have := h2 q.1 q.2 rfl
      have := (hf q.2).all q.1
      dsimp only at *
      omega
    | err e => dsimp only at *; omega
    | panic p => dsimp only at *; omega
  · intro i r b hb
    have h2 := hc.used i
    rw [Cost.run_bind] at hb ⊢
    rcases hci : c i with ⟨x, n⟩
    rw [hci] at h2 hb
    cases x with
    | ok q =>
      have := h2 q.1 q.2 rfl
      have := (hf q.2).used q.1 r b hb
      dsimp only at *
      omega
    | err e => cases hb
    | panic p => cases hb

/-- A header pays for a reservation of at most `m`. -/
theorem Capped.header {m : Nat} {d : Dec α} {f : α → Cost β} (hd : Progress d)
    (hf : ∀ i r a, d i = .ok (r, a) → Capped m m (f a)) : Capped m 0 (Cost.of d >>= f) := by
  constructor
  · intro i
    rw [Cost.bind_of]
    cases h : d i with
    | ok q =>
      have h1 : m * (q.1.length + 1) ≤ m * i.length := Nat.mul_le_mul_left m (hd i q.1 q.2 h)
      have h2 := (hf i q.1 q.2 h).all q.1
      dsimp only
      rw [Nat.mul_add] at h1
      omega
    | err e => exact Nat.zero_le _
    | panic p => exact Nat.zero_le _
  · intro i r b hb
    rw [Cost.bind_of] at hb ⊢
    cases h : d i with
    | ok q =>
      rw [h] at hb
      have h1 : m * (q.1.length + 1) ≤ m * i.length := Nat.mul_le_mul_left m (hd i q.1 q.2 h)
      have h2 := (hf i q.1 q.2 h).used q.1 r b hb
      dsimp only
      rw [Nat.mul_add] at h1
      omega
    | err e => rw [h] at hb; cases hb
    | panic p => rw [h] at hb; cases hb

theorem Capped.decodeN {m : Nat} {c : Cost α} (hc : Capped m 0 c) : ∀ n, Capped m 0 (decodeNC c n)
  | 0 => Capped.pure _
  | n + 1 => hc.bind fun _ => (Capped.decodeN hc n).bind fun _ => Capped.pure _

theorem Capped.slice {m e : Nat} {c : Cost α} (hc : Capped m e c) (n : Nat) :
    Capped m e (withSliceC n c) := by
  constructor
  · intro i
    unfold withSliceC
    split
    · exact Nat.zero_le _
    · have h1 := hc.all (i.take n)
      have h3 : m * (i.take n).length ≤ m * i.length :=
        Nat.mul_le_mul_left m (by simp only [List.length_take]; omega)
      rcases hci : c (i.take n) with ⟨x, k⟩
      rw [hci] at h1
      cases x <;> dsimp only at * <;> omega
  · intro i r a h
    unfold withSliceC at h ⊢
    split at h
    · cases h
    · rename_i hn
      rw [if_neg hn]
      have h1 := hc.all (i.take n)
      rcases hci : c (i.take n) with ⟨x, k⟩
      rw [hci] at h h1
      cases x with
      | ok q =>
        injection h with h; injection h with h3 h4
        subst h3
        dsimp only at h1 ⊢
        have : m * i.length = m * (i.take n).length + m * (i.drop n).length := by
          rw [← Nat.mul_add]; congr 1; simp only [List.length_take, List.length_drop]; omega
        omega
      | err e => cases h
      | panic p => cases h

theorem Capped.mapLoop {K V : Type} [HKey K] {m : Nat} {kc : Cost K} {vc : Cost V}
    (hk : Capped m 0 kc) (hv : Capped m 0 vc) : ∀ n acc, Capped m 0 (mapLoopC kc vc n acc)
  | 0, _ => Capped.pure _
  | n + 1, _ => hk.bind fun _ => hv.bind fun _ =>
    Capped.ite (Capped.mapLoop hk hv n _) (Capped.of (Local.abort _))

end

/-! Counts on the wire are below `2^32`. -/

theorem compound8_count {env : Env} {i r : Bytes} {h : CompoundHeader}
    (hd : decodeCompound8 env i = .ok (r, h)) : h.count < 2 ^ 32 := by
  obtain ⟨r1, b, h1, hd1⟩ := bind_eq_ok.1 hd
  obtain ⟨r2, n, h2, hd2⟩ := bind_eq_ok.1 hd1
  injection hd2 with hd2; injection hd2 with h3 h4
  subst h4
  have := (b.getD 1 0).toNat_lt
  dsimp only; omega
theorem compound32_count {env : Env} {i r : Bytes} {h : CompoundHeader}
    (hd : decodeCompound32 env i = .ok (r, h)) : h.count < 2 ^ 32 := by
  obtain ⟨r1, b, h1, hd1⟩ := bind_eq_ok.1 hd
  obtain ⟨r2, n, h2, hd2⟩ := bind_eq_ok.1 hd1
  obtain ⟨rfl, hl⟩ := takeN_ok h1
  injection hd2 with hd2; injection hd2 with h3 h4
  subst h4
  have := beDec_lt (b.drop 4)
  rw [List.length_drop, hl] at this
  exact this

theorem listHeader_count {env : Env} {fmt : UInt8} {i r : Bytes} {h : CompoundHeader}
    (hd : decodeListHeader env fmt i = .ok (r, h)) : h.count < 2 ^ 32 := by
  unfold decodeListHeader at hd
  split at hd
  · injection hd with hd; injection hd with h1 h2; subst h1 h2; decide
  · split at hd
    · exact compound8_count hd
    · split at hd
      · exact compound32_count hd
      · cases hd
theorem mapHeader_count {env : Env} {fmt : UInt8} {i r : Bytes} {h : CompoundHeader}
    (hd : decodeMapHeader env fmt i = .ok (r, h)) : h.count < 2 ^ 32 := by
  unfold decodeMapHeader at hd
  split at hd
  · exact compound8_count hd
  · split at hd
    · exact compound32_count hd
    · cases hd
theorem arrayHeader_count {env : Env} {fmt : UInt8} {i r : Bytes} {h : CompoundHeader}
    (hd : decodeArrayHeader env fmt i = .ok (r, h)) : h.count < 2 ^ 32 ∧ r.length + 2 ≤ i.length := by
  unfold decodeArrayHeader at hd
  split at hd
  · exact ⟨compound8_count hd, by have := compound8_ok hd; omega⟩
  · split at hd
    · exact ⟨compound32_count hd, by have := compound32_ok hd; omega⟩
    · cases hd

/-- The largest count a header can hold. -/
def maxCount : Nat := 2 ^ 32 - 1

theorem capped_list {vc : Cost Variant} (hv : Capped maxCount 0 vc) (env : Env) (fmt : UInt8) :
    Capped maxCount 0 (decodeListWithC vc env fmt) := by
  have hf : ∀ n, n ≤ maxCount → Capped maxCount maxCount
      (Cost.reserve n >>= fun _ => decodeNC vc n) := fun n hn =>
    ((Capped.reserve n).bind fun _ => hv.decodeN n).mono (by omega)
  unfold decodeListWithC
  by_cases h0 : fmt = FC.list0
  · subst h0
    refine ⟨fun i => ?_, fun i r a h => ?_⟩
    · exact Nat.zero_le _
    · injection h with h; injection h with h1 h2
      subst h1
      exact Nat.le_of_eq (Nat.zero_add _)
  · refine Capped.header (fun i r a h => ?_) fun i r a h => hf _ ?_
    · rcases listHeader_ok h with h1 | ⟨rfl, h1⟩
      · omega
      · exfalso
        unfold decodeListHeader at h
        rw [if_neg h0] at h
        split at h
        · have := compound8_ok h; omega
        · split at h
          · have := compound32_ok h; omega
          · cases h
    · have := listHeader_count h
      unfold maxCount; omega

theorem capped_map {K V : Type} [HKey K] {kc : Cost K} {vc : Cost V} (hk : Capped maxCount 0 kc)
    (hv : Capped maxCount 0 vc) (env : Env) (fmt : UInt8) :
    Capped maxCount 0 (decodeMapWithC kc vc env fmt) := by
  refine Capped.header (fun i r a h => ?_) fun i r a h => Capped.slice ?_ _
  · have := mapHeader_ok h; omega
  · have := mapHeader_count h
    exact ((Capped.reserve _).bind fun _ => Capped.mapLoop hk hv _ _).mono
      (by unfold maxCount; omega)

theorem capped_variant (env : Env) : ∀ d fmt, Capped maxCount 0 (decVariantC env d fmt)
  | 0, _ => Capped.of (Local.abort _)
  | d + 1, fmt => by
    have hv : Capped maxCount 0 (Cost.of formatCode >>= fun f => decVariantC env d f) :=
      (Capped.of Local.readU8).bind fun f => capped_variant env d f
    unfold decVariantC
    exact Capped.ite ((capped_list hv _ _).bind fun _ => Capped.pure _)
      (Capped.ite ((capped_map hv hv _ _).bind fun _ => Capped.pure _)
        (Capped.ite ((Capped.of (local_decode fun f => LawfulDec.loc env f)).bind fun _ =>
            hv.bind fun _ => Capped.pure _)
          (Capped.of (local_variant env (d + 1) fmt))))

theorem capped_decVar (env : Env) (d : Nat) : Capped maxCount 0 (decVarC env d) :=
  (Capped.of Local.readU8).bind fun f => capped_variant env d f

/-! ### Successful decodes -/

section
variable {α β : Type}

theorem Cheap.ite {k e : Nat} {p : Prop} [Decidable p] {c d : Cost α} (hc : Cheap k e c)
    (hd : Cheap k e d) : Cheap k e (if p then c else d) := by split <;> assumption
theorem Cheap.mono {k e k' e' : Nat} {c : Cost α} (h : Cheap k e c) (he : e + k' ≤ e' + k) :
    Cheap k' e' c := fun i r a hd => by have := h i r a hd; omega

theorem Cheap.of {k : Nat} {d : Dec α} (h : Post d fun i r _ => r.length + k ≤ i.length) :
    Cheap k 0 (Cost.of d) := fun i r a hd => by
  have := h i r a hd
  simp only [Cost.of]; omega
theorem Cheap.ofLocal {d : Dec α} (h : Local d) : Cheap 0 0 (Cost.of d) :=
  Cheap.of fun _ _ _ hd => h.length_le hd
theorem Cheap.reserve (n : Nat) : Cheap 0 n (Cost.reserve n) := fun i r a hd => by
  injection hd with hd; injection hd with h1 h2
  subst h1
  simp only [Cost.reserve]; omega

theorem bindC_ok {c : Cost α} {f : α → Cost β} {i r : Bytes} {b : β}
    (h : ((c >>= f) i).1 = .ok (r, b)) : ∃ r1 a, (c i).1 = .ok (r1, a) ∧
      (f a r1).1 = .ok (r, b) ∧ ((c >>= f) i).2 = (c i).2 + (f a r1).2 := by
  rw [Cost.run_bind] at h ⊢
  rcases hci : c i with ⟨x, n⟩
  rw [hci] at h
  cases x with
  | ok q => exact ⟨q.1, q.2, rfl, h, rfl⟩
  | err e => cases h
  | panic p => cases h

theorem Cheap.bind {k e k' e' : Nat} {c : Cost α} {f : α → Cost β} (hc : Cheap k e c)
    (hf : ∀ a, Cheap k' e' (f a)) : Cheap (k + k') (e + e') (c >>= f) := by
  intro i r b h
  obtain ⟨r1, a, h1, h2, h3⟩ := bindC_ok h
  have g1 := hc _ _ _ h1
  have g2 := hf _ _ _ _ h2
  omega

theorem Cheap.decodeN {k : Nat} {c : Cost α} (hc : Cheap k 0 c) : ∀ n, Cheap (k * n) 0 (decodeNC c n)
  | 0 => Cheap.ofLocal (Local.pure _)
  | n + 1 => (hc.bind fun _ => (Cheap.decodeN hc n).bind fun _ => Cheap.ofLocal (Local.pure _)).mono
      (by rw [Nat.mul_add]; omega)

theorem Cheap.mapLoop {K V : Type} [HKey K] {kc : Cost K} {vc : Cost V}
    (hk : Cheap 1 0 kc) (hv : Cheap 1 0 vc) : ∀ n acc, Cheap (2 * n) 0 (mapLoopC kc vc n acc)
  | 0, _ => Cheap.ofLocal (Local.pure _)
  | n + 1, _ => (hk.bind fun _ => hv.bind fun _ =>
    Cheap.ite (Cheap.mapLoop hk hv n _) (fun _ _ _ h => by cases h)).mono (by omega)

theorem Cheap.slice {k e : Nat} {c : Cost α} (hc : Cheap k e c) (n : Nat) :
    Cheap k e (withSliceC n c) := by
  intro i r a h
  unfold withSliceC at h ⊢
  split at h
  · cases h
  · rename_i hn
    rw [if_neg hn]
    have h1 := hc (i.take n)
    rcases hci : c (i.take n) with ⟨x, m⟩
    rw [hci] at h h1
    cases x with
    | ok q =>
      injection h with h; injection h with h3 h4
      subst h3
      have := h1 q.1 q.2 rfl
      simp only [List.length_take, List.length_drop] at this ⊢
      omega
    | err e => cases h
    | panic p => cases h
end

theorem cheap_list {vc : Cost Variant} (hv : Cheap 1 0 vc) (env : Env) (fmt : UInt8) :
    Cheap 0 0 (decodeListWithC vc env fmt) :=
  (Cheap.ofLocal (Local.decodeListHeader env fmt)).bind fun h =>
    ((Cheap.reserve h.count).bind fun _ => hv.decodeN h.count).mono (k' := 0) (e' := 0) (by omega)
theorem cheap_map {K V : Type} [HKey K] {kc : Cost K} {vc : Cost V} (hk : Cheap 1 0 kc)
    (hv : Cheap 1 0 vc) (env : Env) (fmt : UInt8) :
    Cheap 0 0 (decodeMapWithC kc vc env fmt) :=
  (Cheap.ofLocal (Local.decodeMapHeader env fmt)).bind fun h =>
    Cheap.slice (((Cheap.reserve (h.count / 2)).bind fun _ =>
      Cheap.mapLoop hk hv (h.count / 2) []).mono (k' := 0) (e' := 0) (by omega)) _

theorem cheap_fmt : Cheap 1 0 (Cost.of formatCode) := Cheap.of fun i r b h => by
  have e : i = b :: r := readU8_ok h
  simp [e]

theorem cheap_variant (env : Env) : ∀ d fmt, Cheap 0 0 (decVariantC env d fmt)
  | 0, _ => fun _ _ _ h => by cases h
  | d + 1, fmt => by
    have hv : Cheap 1 0 (Cost.of formatCode >>= fun f => decVariantC env d f) :=
      cheap_fmt.bind fun f => cheap_variant env d f
    unfold decVariantC
    exact Cheap.ite ((cheap_list hv _ _).bind fun _ => Cheap.ofLocal (Local.pure _))
      (Cheap.ite ((cheap_map hv hv _ _).bind fun _ => Cheap.ofLocal (Local.pure _))
        (Cheap.ite (((Cheap.ofLocal (local_decode fun f => LawfulDec.loc env f)).bind fun _ =>
            hv.bind fun _ => Cheap.ofLocal (Local.pure _)).mono (by omega))
          (Cheap.ofLocal (local_variant env (d + 1) fmt))))

theorem cheap_decVar (env : Env) (d : Nat) : Cheap 1 0 (decVarC env d) :=
  cheap_fmt.bind fun f => cheap_variant env d f

end Amqp
