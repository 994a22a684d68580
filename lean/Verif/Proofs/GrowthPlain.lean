import Verif.Proofs.Growth
/-!
# Values without lists get no longer

Support for C88.
-/
set_option autoImplicit false
namespace Amqp
open Dec

open Classical in
/-- What the value takes when sent on, if there is no list in it. -/
noncomputable def Variant.plainSize (v : Variant) : Nat := if v.Plain then v.vsize else 0

theorem plainSize_le (v : Variant) : v.plainSize ≤ v.vsize := by
  unfold Variant.plainSize; split <;> omega
theorem plainSize_eq {v : Variant} (h : v.Plain) : v.plainSize = v.vsize := if_pos h
theorem plainSize_not {v : Variant} (h : ¬ v.Plain) : v.plainSize = 0 := if_neg h

theorem plainMap_total : ∀ {m : List (Variant × Variant)}, plainMap m →
    total (fun e => e.1.plainSize + e.2.plainSize) m = vsizeMap m
  | [], _ => by simp [total, vsizeMap]
  | (k, v) :: t, h => by
    simp only [plainMap] at h
    have := plainMap_total h.2
    simp only [total, List.map_cons, List.sum_cons, vsizeMap] at this ⊢
    rw [this, plainSize_eq h.1.1, plainSize_eq h.1.2]

theorem compound8_size {env : Env} (hc : env.overflowChecks = true) {i r : Bytes}
    {h : CompoundHeader} (hd : decodeCompound8 env i = .ok (r, h)) : h.size ≤ 254 := by
  obtain ⟨r1, b, h1, hd⟩ := bind_eq_ok.1 hd
  obtain ⟨r2, n, h2, hd⟩ := bind_eq_ok.1 hd
  cases hd
  unfold subChecked at h2
  split at h2
  · cases h2
    have := (b.getD 0 0).toNat_lt
    dsimp only
    omega
  · first
      | cases h2
      | (rw [hc] at h2; cases h2)
      | (split at h2
         · cases h2
         · exact absurd hc ‹_›)

theorem covers_plain_map {K V : Type} [HKey K] {wk : K → Nat} {wv : V → Nat} {kd : Dec K}
    {vd : Dec V} (hk : Covers wk 0 kd) (hv : Covers wv 0 vd) {env : Env}
    (ho : env.overflowChecks = true) (fmt : UInt8) :
    Covers (fun m => compoundSize (total (fun e => wk e.1 + wv e.2) m)) 1
      (decodeMapWith kd vd env fmt) := by
  intro i r m h
  obtain ⟨r1, hd, h1, h2⟩ := bind_eq_ok.1 h
  have hl : Covers (total fun e : K × V => wk e.1 + wv e.2) 0 (mapLoop kd vd (hd.count / 2) []) := by
    intro i r a h
    have := covers_mapLoop hk hv _ _ _ _ _ h
    simp only [total, List.map_nil, List.sum_nil] at this ⊢
    omega
  obtain ⟨hn, rfl, r', h'⟩ := withSlice_ok h2
  have g := hl _ _ _ h'
  simp only [List.length_take] at g
  dsimp only
  rw [List.length_drop]
  unfold decodeMapHeader at h1
  split at h1
  · have g1 := compound8_ok h1
    have g2 := compound8_size ho h1
    unfold compoundSize
    rw [if_neg (by omega)]
    omega
  · split at h1
    · have g1 := compound32_ok h1
      have g2 := compoundSize_le (total (fun e => wk e.1 + wv e.2) m)
      omega
    · cases h1

theorem covers_plain_leaf {α : Type} [Encode α] [DecodeF α] [LawfulEnc α] {env : Env}
    {fmt : UInt8} (f : α → Variant) (hs : ShortestEncoding α)
    (hw : ∀ a, (f a).vsize = size a) : Covers Variant.plainSize 1 (f <$> decF env fmt) := by
  intro i r v h
  obtain ⟨a, h0, rfl⟩ := map_eq_ok.1 h
  have h1 := hs env (fmt :: i) r a h0
  have h2 := hw a
  have h3 := plainSize_le (f a)
  rw [LawfulEnc.size_eq] at h2
  simp only [List.length_cons] at h1
  omega

theorem covers_plain_pure (v : Variant) (hv : v.vsize ≤ 1) : Covers Variant.plainSize 1 (pure v) := by
  intro i r w h
  injection h with h; injection h with h1 h2
  subst h1 h2
  have h3 := plainSize_le v
  omega

theorem covers_plain_list {β : Type} {d : Dec β} (hd : ∀ i r a, d i = .ok (r, a) → r.length ≤ i.length)
    (f : β → List Variant) : Covers Variant.plainSize 1 ((fun l => Variant.list (f l)) <$> d) := by
  intro i r v h
  obtain ⟨l, h0, rfl⟩ := map_eq_ok.1 h
  have := hd _ _ _ h0
  rw [plainSize_not (by simp [Variant.Plain])]
  omega

theorem covers_plain_variant {env : Env} (ho : env.overflowChecks = true) :
    ∀ d fmt, Covers Variant.plainSize 1 (decVariant env d fmt)
  | 0, _ => fun _ _ _ h => by cases h
  | d + 1, fmt => by
    have hvd : Covers Variant.plainSize 0 (formatCode >>= fun f => decVariant env d f) := by
      intro i r v h
      obtain ⟨r1, f, h1, h⟩ := bind_eq_ok.1 h
      have e : i = f :: r1 := readU8_ok h1
      subst e
      have := covers_plain_variant ho d f _ _ _ h
      simp only [List.length_cons]; omega
    have hl : Covers Variant.plainSize 1
        (Variant.list <$> decodeListWith (formatCode >>= fun f => decVariant env d f) env fmt) := by
      refine covers_plain_list (fun i r l h => ?_) id
      obtain ⟨r1, hd, h1, h2⟩ := bind_eq_ok.1 h
      have g1 := (Local.decodeListHeader env fmt).length_le h1
      have g2 := covers_decodeN hvd _ _ _ _ h2
      omega
    have hm : Covers Variant.plainSize 1
        (Variant.map <$> decodeMapWith (formatCode >>= fun f => decVariant env d f)
          (formatCode >>= fun f => decVariant env d f) env fmt) := by
      intro i r v h
      obtain ⟨l, h0, rfl⟩ := map_eq_ok.1 h
      have := covers_plain_map hvd hvd ho fmt _ _ _ h0
      dsimp only at this
      by_cases hp : plainMap l
      · rw [plainMap_total hp] at this
        rw [plainSize_eq (by simpa [Variant.Plain] using hp)]
        simpa only [Variant.vsize] using this
      · rw [plainSize_not (by simpa [Variant.Plain] using hp)]
        have : 0 ≤ compoundSize (total (fun e => e.1.plainSize + e.2.plainSize) l) := Nat.zero_le _
        omega
    have hd : Covers Variant.plainSize 1 (decode Descriptor env >>= fun ds =>
        (formatCode >>= fun f => decVariant env d f) >>= fun v => pure (Variant.described ds v)) := by
      intro i r v h
      obtain ⟨r1, ds, h1, h⟩ := bind_eq_ok.1 h
      obtain ⟨r2, w, h2, h⟩ := bind_eq_ok.1 h
      injection h with h; injection h with h3 h4
      subst h3 h4
      have g1 := descriptor_enc_le h1
      have g3 := decode_length_le h1
      have g2 := hvd _ _ _ h2
      dsimp only at g2
      by_cases hp : (Variant.described ds w).Plain
      · rw [plainSize_eq hp]
        simp only [Variant.Plain] at hp
        rw [plainSize_eq hp.2] at g2
        simp only [Variant.vsize]; omega
      · rw [plainSize_not hp]; omega
    unfold decVariant
    simp only
    repeat' apply Dec.Post.ite
    all_goals first
      | exact Dec.Post.fail _
      | (apply covers_plain_pure; simp [Variant.vsize, size]; done)
      | exact hl
      | exact hm
      | exact hd
      | (intro i r v h
         injection h with h; injection h with h1 h2
         subst h1 h2
         rw [plainSize_not (by simp [Variant.Plain])]
         omega)
      | exact covers_plain_leaf Variant.boolean shortest_bool (fun a => rfl)
      | exact covers_plain_leaf Variant.ubyte shortest_u8 (fun a => rfl)
      | exact covers_plain_leaf Variant.ushort shortest_u16 (fun a => rfl)
      | exact covers_plain_leaf Variant.uint shortest_u32 (fun a => rfl)
      | exact covers_plain_leaf Variant.ulong shortest_u64 (fun a => rfl)
      | exact covers_plain_leaf Variant.byte shortest_i8 (fun a => rfl)
      | exact covers_plain_leaf Variant.short shortest_i16 (fun a => rfl)
      | exact covers_plain_leaf Variant.int shortest_i32 (fun a => rfl)
      | exact covers_plain_leaf Variant.long shortest_i64 (fun a => rfl)
      | exact covers_plain_leaf Variant.float shortest_f32 (fun a => rfl)
      | exact covers_plain_leaf Variant.double shortest_f64 (fun a => rfl)
      | exact covers_plain_leaf Variant.char shortest_char (fun a => rfl)
      | exact covers_plain_leaf Variant.uuid shortest_uuid (fun a => rfl)
      | exact covers_plain_leaf Variant.timestamp shortest_datetime (fun a => rfl)
      | exact covers_plain_leaf Variant.binary shortest_binary (fun a => rfl)
      | exact covers_plain_leaf Variant.string shortest_str (fun a => rfl)
      | exact covers_plain_leaf Variant.symbol shortest_symbol (fun a => rfl)

theorem plain_no_longer {env : Env} (ho : env.overflowChecks = true) {i r : Bytes} {v : Variant}
    (h : decode Variant env i = .ok (r, v)) (hp : v.Plain) :
    (enc v).length + r.length ≤ i.length := by
  obtain ⟨c, t, rfl, h1⟩ := decode_ok h
  have := covers_plain_variant ho env.stackDepth c _ _ _ h1
  dsimp only at this
  rw [plainSize_eq hp] at this
  have e : v.vsize = (enc v).length := LawfulEnc.size_eq v
  simp only [List.length_cons]; omega

/-- Maps with names for keys. -/
theorem plain_map_no_longer {K : Type} [HKey K] [Encode K] [DecodeF K] [LawfulEnc K] [LawfulDec K]
    (hk : ShortestEncoding K) {env : Env} (ho : env.overflowChecks = true) {i r : Bytes}
    {m : HMap K Variant} (h : decode (HMap K Variant) env i = .ok (r, m))
    (hp : ∀ e ∈ m.entries, e.2.Plain) : (enc m).length + r.length ≤ i.length := by
  obtain ⟨c, t, rfl, h1⟩ := decode_ok h
  obtain ⟨l, h2, rfl⟩ := map_eq_ok.1 h1
  have hk' : Covers (size : K → Nat) 0 (decode K env) := fun i r k h => by
    have := hk env i r k h
    rw [← LawfulEnc.size_eq] at this
    exact this
  have hv' : Covers Variant.plainSize 0 (decode Variant env) := by
    intro i r v h
    obtain ⟨c, t, rfl, h1⟩ := decode_ok h
    have := covers_plain_variant ho env.stackDepth c _ _ _ h1
    simp only [List.length_cons]; omega
  have g := covers_plain_map hk' hv' ho c _ _ _ h2
  have e : ∀ l : List (K × Variant), (∀ e ∈ l, e.2.Plain) →
      total (fun e => size e.1 + e.2.plainSize) l = mapContentSize size size l := by
    intro l
    induction l with
    | nil => intro _; rfl
    | cons x t ih =>
      intro hp
      obtain ⟨k, v⟩ := x
      have h1 := ih fun e he => hp e (List.mem_cons_of_mem _ he)
      have h2 := plainSize_eq (hp (k, v) (by simp))
      simp only [total, List.map_cons, List.sum_cons, mapContentSize] at h1 ⊢
      rw [h1, h2]
      rfl
  dsimp only at g
  rw [e l hp] at g
  rw [← LawfulEnc.size_eq]
  have e' : size (HMap.mk l) = compoundSize (mapContentSize (size : K → Nat) (size : Variant → Nat) l) := rfl
  rw [e']
  simp only [List.length_cons]; omega

end Amqp
