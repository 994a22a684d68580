import Verif.Proofs.WireLaws
/-!
# Which variants are written legally
-/
set_option autoImplicit false
namespace Amqp

/-- What is left after the fixed or sized part announced by the upper half of a
format code. -/
def skipBody (k : UInt8) (t : Bytes) : Bytes :=
  if k = 4 then t else if k = 5 then t.drop 1 else if k = 6 then t.drop 2 else
  if k = 7 then t.drop 4 else if k = 8 then t.drop 8 else if k = 9 then t.drop 16 else
  if k = 10 ∨ k = 12 ∨ k = 14 then (t.drop 1).drop (unsigned (t.take 1))
  else (t.drop 4).drop (unsigned (t.take 4))

/-- What is left after one value, legal or not, by its format code alone. -/
def skip : Nat → Bytes → Bytes
  | 0, t => t
  | _ + 1, [] => []
  | n + 1, c :: t => if c = 0 then skip n (skip n t) else skipBody (c >>> 4) t

/-- `b` ends where `skip` says, whatever follows. -/
def Skips (b : Bytes) : Prop := ∃ n0, ∀ n, n0 ≤ n → ∀ r, skip n (b ++ r) = r

theorem skips_of {c : UInt8} {t : Bytes} (hc : c ≠ 0) (h : ∀ r, skipBody (c >>> 4) (t ++ r) = r) :
    Skips (c :: t) := ⟨1, fun n hn r => by
  obtain ⟨k, rfl⟩ : ∃ k, n = k + 1 := ⟨n - 1, by omega⟩
  show (if c = 0 then _ else skipBody (c >>> 4) (t ++ r)) = r
  rw [if_neg hc, h]⟩

theorem skips_described {d b : Bytes} (hd : Skips d) (hb : Skips b) : Skips (0 :: (d ++ b)) := by
  obtain ⟨n1, h1⟩ := hd
  obtain ⟨n2, h2⟩ := hb
  refine ⟨n1 + n2 + 1, fun n hn r => ?_⟩
  obtain ⟨k, rfl⟩ : ∃ k, n = k + 1 := ⟨n - 1, by omega⟩
  show (if (0 : UInt8) = 0 then skip k (skip k (d ++ b ++ r)) else _) = r
  rw [if_pos rfl, List.append_assoc, h1 k (by omega), h2 k (by omega)]

theorem skips_unique {a b r r' : Bytes} (ha : Skips a) (hb : Skips b) (h : a ++ r = b ++ r') :
    a = b ∧ r = r' := by
  obtain ⟨n1, h1⟩ := ha
  obtain ⟨n2, h2⟩ := hb
  have e := h1 (n1 + n2) (by omega) r
  rw [h, h2 (n1 + n2) (by omega) r'] at e
  subst e
  exact ⟨List.append_cancel_right h, rfl⟩

theorem skips_num {c : UInt8} {w n : Nat} {b : Bytes} (hn : Num w b n) (hc : c ≠ 0)
    (h : ∀ t, skipBody (c >>> 4) t = t.drop w) : Skips (c :: b) :=
  skips_of hc fun r => by rw [h, List.drop_left' hn.width]

theorem skips_snum {c : UInt8} {w : Nat} {n : Int} {b : Bytes} (hn : SNum w b n) (hc : c ≠ 0)
    (h : ∀ t, skipBody (c >>> 4) t = t.drop w) : Skips (c :: b) :=
  skips_of hc fun r => by rw [h, List.drop_left' hn.width]

theorem skips_sized {c8 c32 c : UInt8} {w : Nat} {l x : Bytes} (hs : Sized c8 c32 c w)
    (hn : Num w l x.length) (h8 : c8 ≠ 0) (h32 : c32 ≠ 0)
    (e8 : ∀ t, skipBody (c8 >>> 4) t = (t.drop 1).drop (unsigned (t.take 1)))
    (e32 : ∀ t, skipBody (c32 >>> 4) t = (t.drop 4).drop (unsigned (t.take 4))) :
    Skips (c :: (l ++ x)) := by
  cases hs with
  | narrow =>
    refine skips_of h8 fun r => ?_
    rw [e8, List.append_assoc, List.drop_left' hn.width, List.take_left' hn.width, hn.value,
        List.drop_left]
  | wide =>
    refine skips_of h32 fun r => ?_
    rw [e32, List.append_assoc, List.drop_left' hn.width, List.take_left' hn.width, hn.value,
        List.drop_left]

theorem skips_prim {v : Variant} {b : Bytes} (h : Prim v b) : Skips b := by
  cases h with
  | null | true | false | uint0 | ulong0 => exact skips_of (by decide) fun r => rfl
  | boolTrue | boolFalse => exact skips_of (by decide) fun r => rfl
  | ubyte h | ushort h | uint h | smalluint h | ulong h | smallulong h | float h | double h | char h =>
    exact skips_num h (by decide) fun t => rfl
  | byte h | short h | int h | smallint h | long h | smalllong h =>
    exact skips_snum h (by decide) fun t => rfl
  | @uuid u => exact skips_of (by decide) fun r => List.drop_left' u.len
  | binary h1 h2 | string h1 h2 =>
    exact skips_sized h1 h2 (by decide) (by decide) (fun _ => rfl) (fun _ => rfl)
  | symbol h1 h2 _ => exact skips_sized h1 h2 (by decide) (by decide) (fun _ => rfl) (fun _ => rfl)

theorem skips_wire {v : Variant} {b : Bytes} (h : Wire .amqp v b) : Skips b := by
  induction h with
  | prim h => exact skips_prim h
  | timestamp h _ _ => exact skips_snum h (by decide) fun t => rfl
  | list0 => exact skips_of (by decide) fun r => rfl
  | list items hs h1 h2 _ _ =>
    rw [List.append_assoc]
    refine skips_sized hs ?_ (by decide) (by decide) (fun _ => rfl) (fun _ => rfl)
    rw [List.length_append, h2.width]; exact h1
  | map items hs h1 h2 _ _ _ _ _ _ =>
    rw [List.append_assoc]
    refine skips_sized hs ?_ (by decide) (by decide) (fun _ => rfl) (fun _ => rfl)
    rw [List.length_append, h2.width]; exact h1
  | @described d v db b hd _ ih =>
    refine skips_described ?_ ih
    cases d <;> exact skips_prim hd

theorem skips_var {c8 c32 : UInt8} {b : Bytes} (h : b.length < 2 ^ 32) (h8 : c8 ≠ 0) (h32 : c32 ≠ 0)
    (e8 : ∀ t, skipBody (c8 >>> 4) t = (t.drop 1).drop (unsigned (t.take 1)))
    (e32 : ∀ t, skipBody (c32 >>> 4) t = (t.drop 4).drop (unsigned (t.take 4))) :
    Skips (varEnc c8 c32 b) := by
  obtain ⟨c, w, l, h1, h2, h3⟩ := sized_varEnc c8 c32 h
  rw [h3]
  exact skips_sized h1 h2 h8 h32 e8 e32

theorem skips_compound {c8 c32 : UInt8} {n k : Nat} {x : Bytes} (hx : x.length = n)
    (hn : n + 4 < 2 ^ 32) (hk : k ≤ n) (h8 : c8 ≠ 0) (h32 : c32 ≠ 0)
    (e8 : ∀ t, skipBody (c8 >>> 4) t = (t.drop 1).drop (unsigned (t.take 1)))
    (e32 : ∀ t, skipBody (c32 >>> 4) t = (t.drop 4).drop (unsigned (t.take 4))) :
    Skips (compoundHdr c8 c32 n k ++ x) := by
  obtain ⟨c, w, s, m, h1, h2, h3, h4⟩ := sized_compoundHdr c8 c32 hn hk
  rw [h4, List.cons_append, List.append_assoc]
  refine skips_sized h1 ?_ h8 h32 e8 e32
  rw [List.length_append, h3.width, hx]; exact h2

theorem symbol_small {s : RStr} (h : varSize s.len < 2 ^ 32) : s.bytes.length < 2 ^ 32 := by
  unfold varSize RStr.len at h; omega

theorem skips_venc (v : Variant) (hs : v.vsize < 2 ^ 32) : Skips v.venc := by
  induction v using Variant.ind with
  | leaf v hl hm hd =>
    cases v with
    | list l => exact absurd rfl (hl l)
    | map m => exact absurd rfl (hm m)
    | described d w => exact absurd rfl (hd d w)
    | timestamp t =>
      exact skips_num (w := 8) (n := _) (num_beEnc (UInt64.toNat_lt _)) (by decide) fun t => rfl
    | symbol x =>
      simp only [Variant.vsize] at hs
      exact skips_var (symbol_small hs) (by decide) (by decide) (fun _ => rfl) (fun _ => rfl)
    | staticSymbol x =>
      simp only [Variant.vsize] at hs
      exact skips_var (symbol_small hs) (by decide) (by decide) (fun _ => rfl) (fun _ => rfl)
    | _ => exact skips_wire (wire_variant _ (by simp only [Variant.Writable]) hs)
  | list l ih =>
    simp only [Variant.vsize] at hs
    have hsz : vsizeList l + 4 < 2 ^ 32 := compoundSize_small hs
    have hlen := vsizeList_length l fun v _ => v.vsize_eq
    have hk : ∀ l : List Variant, l.length ≤ vsizeList l := fun l => by
      induction l with
      | nil => simp
      | cons v t ih =>
        have : 0 < v.vsize := size_pos v
        simp only [vsizeList, List.length_cons]
        omega
    simp only [Variant.venc]
    exact skips_compound hlen.symm hsz (hk l) (by decide) (by decide) (fun _ => rfl) (fun _ => rfl)
  | map m ih =>
    simp only [Variant.vsize] at hs
    have hsz : vsizeMap m + 4 < 2 ^ 32 := compoundSize_small hs
    rw [vsizeMap_eq] at hsz
    have hlen : (vencMap m).length = mapContentSize Variant.vsize Variant.vsize m := by
      rw [vencMap_eq]
      exact (mapContent_length (ks := Variant.vsize) (vs := Variant.vsize) m
        (fun e _ => e.1.vsize_eq) (fun e _ => e.2.vsize_eq)).symm
    simp only [Variant.venc, vsizeMap_eq]
    exact skips_compound hlen hsz (mapContentSize_ge m (fun e _ => size_pos e.1) (fun e _ => size_pos e.2))
      (by decide) (by decide) (fun _ => rfl) (fun _ => rfl)
  | described d v ih =>
    simp only [Variant.vsize] at hs
    have h1 := ih (by omega)
    simp only [Variant.venc]
    cases d with
    | ulong n =>
      exact skips_described (skips_prim ((decides_u64 debugEnv _ _).1 (LawfulCodec.rt debugEnv n trivial))) h1
    | symbol s =>
      have : 1 + varSize s.str.len + v.vsize < 2 ^ 32 := hs
      exact skips_described (skips_var (symbol_small (s := s.str) (by omega)) (by decide) (by decide)
        (fun _ => rfl) (fun _ => rfl)) h1

/-- The entries of a legal map that is laid out like the written one are laid out
one by one like the written ones. -/
theorem wire_entries {items : List ((Variant × Bytes) × (Variant × Bytes))}
    {m : List (Variant × Variant)}
    (hi : items.map (fun p => (p.1.1, p.2.1)) = canonMap m)
    (hb : items.flatMap (fun p => p.1.2 ++ p.2.2) = vencMap m)
    (hk : ∀ p ∈ items, Wire .amqp p.1.1 p.1.2) (hv : ∀ p ∈ items, Wire .amqp p.2.1 p.2.2)
    (hs : ∀ e ∈ m, e.1.vsize < 2 ^ 32 ∧ e.2.vsize < 2 ^ 32) :
    ∀ e ∈ m, Wire .amqp e.1.canon e.1.venc ∧ Wire .amqp e.2.canon e.2.venc := by
  induction m generalizing items with
  | nil => intro e he; cases he
  | cons e t ih =>
    obtain ⟨k, v⟩ := e
    cases items with
    | nil => simp [canonMap] at hi
    | cons p q =>
      simp only [List.map_cons, canonMap, List.cons.injEq, Prod.mk.injEq] at hi
      simp only [List.flatMap_cons, vencMap, List.append_assoc] at hb
      have hp := hs _ List.mem_cons_self
      obtain ⟨e1, hb⟩ := skips_unique (skips_wire (hk p List.mem_cons_self)) (skips_venc k hp.1) hb
      obtain ⟨e2, hb⟩ := skips_unique (skips_wire (hv p List.mem_cons_self)) (skips_venc v hp.2) hb
      have h1 := hk p List.mem_cons_self
      have h2 := hv p List.mem_cons_self
      rw [e1, hi.1.1] at h1
      rw [e2, hi.1.2] at h2
      intro e he
      rcases List.mem_cons.1 he with rfl | he
      · exact ⟨h1, h2⟩
      · exact ih hi.2 hb (fun p hp => hk p (List.mem_cons_of_mem _ hp))
          (fun p hp => hv p (List.mem_cons_of_mem _ hp)) (fun e he => hs e (List.mem_cons_of_mem _ he)) e he

/-- No legal value starts like a written list. -/
theorem wire_not_list {v : Variant} {b : Bytes} (h : Wire .amqp v b) :
    b.head? ≠ some 0xe0 ∧ b.head? ≠ some 0xf0 := by
  cases h with
  | prim hp =>
    cases hp with
    | binary hs _ | string hs _ => cases hs <;> exact ⟨by simp, by simp⟩
    | symbol hs _ _ => cases hs <;> exact ⟨by simp, by simp⟩
    | _ => exact ⟨by simp, by simp⟩
  | list _ hs => cases hs <;> exact ⟨by simp, by simp⟩
  | map _ hs => cases hs <;> exact ⟨by simp, by simp⟩
  | _ => exact ⟨by simp, by simp⟩

theorem writable_of_wire (v : Variant) (hs : v.vsize < 2 ^ 32) (h : Wire .amqp v.canon v.venc) :
    v.Writable := by
  induction v using Variant.ind with
  | leaf v hl hm hd =>
    cases v with
    | list l => exact absurd rfl (hl l)
    | map m => exact absurd rfl (hm m)
    | described d w => exact absurd rfl (hd d w)
    | timestamp t =>
      simp only [Variant.canon] at h
      simp only [Variant.Writable]
      cases h with
      | prim hp => cases hp
      | timestamp _ e _ => omega
    | symbol x =>
      simp only [Variant.canon] at h
      simp only [Variant.Writable]
      generalize Variant.venc (.symbol x) = b at h
      cases h with
      | prim hp => cases hp with
        | symbol _ _ ha => exact ha
    | staticSymbol x =>
      simp only [Variant.canon] at h
      simp only [Variant.Writable]
      generalize Variant.venc (.staticSymbol x) = b at h
      cases h with
      | prim hp => cases hp with
        | symbol _ _ ha => exact ha
    | _ => simp only [Variant.Writable]
  | list l ih =>
    have := wire_not_list h
    simp only [Variant.venc, compoundHdr] at this
    split at this <;> simp [FC.array8, FC.array32] at this
  | map m ih =>
    simp only [Variant.vsize] at hs
    simp only [Variant.canon] at h
    simp only [Variant.Writable, writableMap_iff]
    have hsz : vsizeMap m + 4 < 2 ^ 32 := compoundSize_small hs
    have hm := hsz
    rw [vsizeMap_eq] at hm
    obtain ⟨c, w, s, k, h1, h2, h3, h4⟩ := sized_compoundHdr 0xc1 0xd1 hm
      (mapContentSize_ge m (fun e _ => size_pos e.1) (fun e _ => size_pos e.2))
    have hmem : ∀ e ∈ m, e.1.vsize < 2 ^ 32 ∧ e.2.vsize < 2 ^ 32 := fun e he => by
      have := mapContentSize_mem Variant.vsize Variant.vsize he
      omega
    have hb : (Variant.map m).venc = c :: (s ++ k ++ vencMap m) := by
      simp only [Variant.venc, vsizeMap_eq]
      exact congrArg (· ++ vencMap m) h4
    generalize hu : canonMap m = u at h
    generalize (Variant.map m).venc = b at h hb
    cases h with
    | prim hp => cases hp
    | @map items c' w' s' n' g1 g2 g3 g4 g5 _ g7 =>
      injection hb with hc hb
      have hw : w' = w := by
        subst hc
        cases g1 <;> cases h1 <;> rfl
      subst hw
      rw [List.append_assoc, List.append_assoc] at hb
      obtain ⟨_, hb⟩ := List.append_inj hb (g2.width.trans h2.width.symm)
      obtain ⟨_, hb⟩ := List.append_inj hb (g3.width.trans h3.width.symm)
      have := wire_entries hu.symm hb g4 g5 hmem
      exact ⟨fun e he => ⟨(ih e he).1 (hmem e he).1 (this e he).1, (ih e he).2 (hmem e he).2 (this e he).2⟩,
        g7⟩
  | described d v ih =>
    simp only [Variant.vsize] at hs
    simp only [Variant.canon, Variant.venc] at h
    simp only [Variant.Writable]
    generalize hb : enc d ++ v.venc = b at h
    cases h with
    | prim hp => cases hp
    | @described _ _ db b hd hw =>
      cases d with
      | ulong n =>
        have hb : 0 :: (enc n ++ v.venc) = 0 :: (db ++ b) := hb
        injection hb with _ hb
        have e := (skips_unique (r := v.venc) (r' := b) (skips_prim ((decides_u64 debugEnv _ _).1
          (LawfulCodec.rt debugEnv n trivial))) (skips_prim hd) hb).2
        exact ⟨trivial, ih (by omega) (e ▸ hw)⟩
      | symbol s =>
        have hb : 0 :: (enc s ++ v.venc) = 0 :: (db ++ b) := hb
        injection hb with _ hb
        have : 1 + varSize s.str.len + v.vsize < 2 ^ 32 := hs
        have e := (skips_unique (r := v.venc) (r' := b) (skips_var (symbol_small (s := s.str) (by omega))
          (by decide) (by decide) (fun _ => rfl) (fun _ => rfl)) (skips_prim hd) hb).2
        exact ⟨(by cases hd with | symbol _ _ ha => exact ha), ih (by omega) (e ▸ hw)⟩

end Amqp
