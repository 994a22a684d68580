import Verif.Spec.Panics
import Verif.Proofs.ListLaws
import Verif.Proofs.Variant
import Verif.Proofs.Inversion
import Verif.Props.Times
/-!
# Panics and their causes
-/
set_option autoImplicit false
namespace Amqp
open Dec

theorem PanicCause.mono {c : Bool} {d : Nat} {x i : Bytes} {p : Panic} (h : PanicCause c d x p)
    (hi : x <:+: i) : PanicCause c d i p := by
  cases p with
  | overflow =>
    refine ⟨h.1, ?_⟩
    rcases h.2 with ⟨c, h1, h2⟩ | ⟨c, n, h1, h2, h3⟩
    · exact .inl ⟨c, h1, h2.trans hi⟩
    · exact .inr ⟨c, n, h1, h2, h3.trans hi⟩
  | sliceIndex => obtain ⟨c, h1, h2⟩ := h; exact ⟨c, h1, hi.subset h2⟩
  | unimplemented => exact Nat.le_trans h (hi.sublist.countP_le)
  | timestampRange => obtain ⟨m, h1, h2⟩ := h; exact ⟨m, h1, h2.trans hi⟩
  | stackOverflow => exact Nat.lt_of_lt_of_le h hi.sublist.length_le
  | bufferFull => exact h

theorem PanicCause.anti {c : Bool} {d d' : Nat} {i : Bytes} {p : Panic} (h : PanicCause c d i p)
    (hd : d' ≤ d) : PanicCause c d' i p := by
  cases p with
  | stackOverflow => exact Nat.lt_of_le_of_lt (by omega) h
  | _ => exact h

/-- One level up: three bytes more. -/
theorem PanicCause.up {c : Bool} {d : Nat} {x a b : Bytes} {p : Panic} (h : PanicCause c d x p)
    (ha : 3 ≤ a.length) : PanicCause c (d + 1) (a ++ x ++ b) p := by
  cases p with
  | stackOverflow =>
    show 3 * (d + 1) < _
    have : 3 * d < x.length := h
    simp only [List.length_append]; omega
  | overflow => exact PanicCause.mono (d := d + 1) (p := .overflow) h ⟨a, b, rfl⟩
  | sliceIndex => exact PanicCause.mono (d := d + 1) (p := .sliceIndex) h ⟨a, b, rfl⟩
  | unimplemented => exact PanicCause.mono (d := d + 1) (p := .unimplemented) h ⟨a, b, rfl⟩
  | timestampRange => exact PanicCause.mono (d := d + 1) (p := .timestampRange) h ⟨a, b, rfl⟩
  | bufferFull => exact PanicCause.mono (d := d + 1) (p := .bufferFull) h ⟨a, b, rfl⟩

/-- Panics of the decoder have a cause in its input. -/
def Blames {α : Type} (c : Bool) (d : Nat) (dec : Dec α) : Prop :=
  ∀ i p, dec i = .panic p → PanicCause c d i p

section
variable {α β : Type} {c : Bool} {d : Nat}

theorem Blames.of_safe {dec : Dec α} (h : Safe dec) : Blames c d dec :=
  fun i p hp => absurd hp (h i p)

theorem bind_eq_panic {x : Dec α} {f : α → Dec β} {i : Bytes} {p : Panic} :
    (x >>= f) i = .panic p ↔ x i = .panic p ∨ ∃ r a, x i = .ok (r, a) ∧ f a r = .panic p := by
  rw [run_bind]
  cases h : x i with
  | ok q =>
    obtain ⟨r, a⟩ := q
    constructor
    · exact fun hf => .inr ⟨r, a, rfl, hf⟩
    · rintro (h | ⟨_, _, hq, hf⟩)
      · cases h
      · injection hq with hq; injection hq with h1 h2; subst h1; subst h2; exact hf
  | err e => simp
  | panic q => simp

theorem map_eq_panic {x : Dec α} {f : α → β} {i : Bytes} {p : Panic} :
    (f <$> x) i = .panic p ↔ x i = .panic p := by
  rw [run_map]
  cases h : x i with
  | ok q => simp
  | err e => simp
  | panic q => simp

theorem Blames.map {dec : Dec α} (f : α → β) (h : Blames c d dec) : Blames c d (f <$> dec) :=
  fun i p hp => h i p (map_eq_panic.1 hp)

theorem Blames.bind {x : Dec α} {f : α → Dec β} (h : Blames c d x) (hl : Local x)
    (hf : ∀ a, Blames c d (f a)) : Blames c d (x >>= f) := by
  intro i p hp
  rcases bind_eq_panic.1 hp with h1 | ⟨r, a, h1, h2⟩
  · exact h i p h1
  · obtain ⟨w, rfl, -⟩ := hl _ _ _ h1
    exact (hf a _ _ h2).mono ⟨w, [], by simp⟩

theorem Blames.fail (e : ParseError) : Blames c d (Dec.fail e : Dec α) := fun _ _ h => by cases h
theorem Blames.pure (a : α) : Blames c d (Pure.pure a : Dec α) := fun _ _ h => by cases h
theorem Blames.ite {P : Prop} [Decidable P] {x y : Dec α} (hx : Blames c d x) (hy : Blames c d y) :
    Blames c d (if P then x else y) := by split <;> assumption

theorem Blames.decodeN {x : Dec α} (h : Blames c d x) (hl : Local x) :
    ∀ n, Blames c d (Amqp.decodeN x n)
  | 0 => Blames.pure _
  | n + 1 => h.bind hl fun _ => (Blames.decodeN h hl n).bind (Local.decodeN hl n) fun _ => Blames.pure _

theorem Blames.anti {x : Dec α} {d' : Nat} (h : Blames c d x) (hd : d' ≤ d) : Blames c d' x :=
  fun i p hp => (h i p hp).anti hd

end

/-- Panics of the type's decoder have a cause in the input, the format code
included. -/
class PanicLaw (α : Type) [DecodeF α] : Prop where
  blame : ∀ (env : Env) (fmt : UInt8) (i : Bytes) (p : Panic), decF (α := α) env fmt i = .panic p →
    PanicCause env.overflowChecks env.stackDepth (fmt :: i) p

theorem blames_decode {α : Type} [DecodeF α] [PanicLaw α] (env : Env) :
    Blames env.overflowChecks env.stackDepth (decode α env) := by
  intro i p h
  cases i with
  | nil => cases h
  | cons fmt r => rw [decode_cons] at h; exact PanicLaw.blame env fmt r p h

theorem panicLaw_of_safe (α : Type) [DecodeF α] [SafeDec α] : PanicLaw α :=
  ⟨fun env fmt i p h => absurd h (SafeDec.safe env fmt i p)⟩

instance : PanicLaw Bool := panicLaw_of_safe _
instance : PanicLaw UInt8 := panicLaw_of_safe _
instance : PanicLaw UInt16 := panicLaw_of_safe _
instance : PanicLaw UInt32 := panicLaw_of_safe _
instance : PanicLaw UInt64 := panicLaw_of_safe _
instance : PanicLaw Int8 := panicLaw_of_safe _
instance : PanicLaw Int16 := panicLaw_of_safe _
instance : PanicLaw Int32 := panicLaw_of_safe _
instance : PanicLaw Int64 := panicLaw_of_safe _
instance : PanicLaw F32 := panicLaw_of_safe _
instance : PanicLaw F64 := panicLaw_of_safe _
instance : PanicLaw Char := panicLaw_of_safe _
instance : PanicLaw Uuid := panicLaw_of_safe _
instance : PanicLaw Binary := panicLaw_of_safe _
instance : PanicLaw RStr := panicLaw_of_safe _
instance : PanicLaw Symbol := panicLaw_of_safe _
instance : PanicLaw Descriptor := panicLaw_of_safe _

instance {α : Type} [DecodeF α] [PanicLaw α] : PanicLaw (Option α) := ⟨fun env fmt i p h => by
  have e : decF (α := Option α) env fmt =
      if fmt = FC.null then pure none else some <$> decF (α := α) env fmt := rfl
  rw [e] at h
  split at h
  · cases h
  · exact PanicLaw.blame env fmt i p (map_eq_panic.1 h)⟩

instance : PanicLaw DateTime := ⟨fun env fmt i p h => by
  by_cases hf : fmt = FC.timestamp
  · subst hf
    by_cases hl : i.length < 8
    · have : decF (α := DateTime) env FC.timestamp i = .err (.incomplete 8) := by
        show (readBE 8 >>= fun n => datetimeFromMillis (UInt64.ofNat n).toInt64.toInt) i = _
        exact bind_err (by
          show (beDec <$> takeN 8) i = _
          rw [run_map]
          simp [takeN, hl])
      rw [this] at h; cases h
    · obtain ⟨w, r, rfl, hw⟩ : ∃ w r, i = w ++ r ∧ w.length = 8 :=
        ⟨i.take 8, i.drop 8, (List.take_append_drop 8 i).symm, by simp; omega⟩
      have e : FC.timestamp :: w = timestampWire (UInt64.ofNat (beDec w)).toInt64 := by
        have hb := beDec_lt w
        rw [hw] at hb
        unfold timestampWire
        have h1 : (UInt64.ofNat (beDec w)).toInt64.toUInt64.toNat = beDec w := by
          simp; omega
        rw [h1, ← hw, beEnc_beDec]; rfl
      have h' : decode DateTime env (timestampWire (UInt64.ofNat (beDec w)).toInt64 ++ r) = .panic p := by
        rw [← e]; exact h
      by_cases ho : OutOfRange (UInt64.ofNat (beDec w)).toInt64
      · rw [C12_violated_out_of_range env _ r ho] at h'
        injection h' with h'
        subst h'
        exact ⟨_, ho, [], r, by rw [← e]; simp⟩
      · exfalso
        unfold OutOfRange at ho
        by_cases hm : (UInt64.ofNat (beDec w)).toInt64.toInt ≤ -1000 ∨
            0 ≤ (UInt64.ofNat (beDec w)).toInt64.toInt
        · obtain ⟨t, ht, -⟩ := C12_timestamp_instant_partial env
            (UInt64.ofNat (beDec w)).toInt64 r (by omega) (by omega) hm
          rw [ht] at h'; cases h'
        · obtain ⟨t, ht, -⟩ := C12_violated_before_epoch env
            (UInt64.ofNat (beDec w)).toInt64 r (by omega) (by omega)
          rw [ht] at h'; cases h'
  · have : decF (α := DateTime) env fmt i = .err (.invalidFormatCode fmt) := by
      show validateCode _ _ _ i = _
      rw [validateCode, if_pos hf]; rfl
    rw [this] at h; cases h⟩

/-! ## Compound headers -/

theorem subChecked_panic {env : Env} {bits a b : Nat} {i : Bytes} {p : Panic}
    (h : subChecked env bits a b i = .panic p) :
    p = .overflow ∧ env.overflowChecks = true ∧ a < b := by
  unfold subChecked at h
  split at h
  · cases h
  · split at h
    · rename_i h1 h2
      injection h with h
      exact ⟨h.symm, h2, by omega⟩
    · cases h

theorem takeN_split {n : Nat} {i r w : Bytes} (h : takeN n i = .ok (r, w)) :
    i = w ++ r ∧ w.length = n := takeN_ok h

theorem compound8_panic {env : Env} {i : Bytes} {p : Panic} (h : decodeCompound8 env i = .panic p) :
    p = .overflow ∧ env.overflowChecks = true ∧ ∃ r, i = 0 :: r := by
  unfold decodeCompound8 at h
  rcases bind_eq_panic.1 h with h1 | ⟨r, w, h1, h2⟩
  · exact absurd h1 (Safe.takeN 2 i p)
  · obtain ⟨rfl, hw⟩ := takeN_ok h1
    rcases bind_eq_panic.1 h2 with h3 | ⟨_, _, _, h4⟩
    · obtain ⟨e1, e2, e3⟩ := subChecked_panic h3
      refine ⟨e1, e2, ?_⟩
      match w, hw with
      | [a, b], _ =>
        have : a = 0 := UInt8.toNat_inj.1 (by
          have : a.toNat < 1 := e3
          show a.toNat = 0
          omega)
        exact ⟨b :: r, by rw [this]; rfl⟩
    · cases h4

theorem compound32_panic {env : Env} {i : Bytes} {p : Panic} (h : decodeCompound32 env i = .panic p) :
    p = .overflow ∧ env.overflowChecks = true ∧ ∃ n r, n < 4 ∧ i = beEnc 4 n ++ r := by
  unfold decodeCompound32 at h
  rcases bind_eq_panic.1 h with h1 | ⟨r, w, h1, h2⟩
  · exact absurd h1 (Safe.takeN 8 i p)
  · obtain ⟨rfl, hw⟩ := takeN_ok h1
    rcases bind_eq_panic.1 h2 with h3 | ⟨_, _, _, h4⟩
    · obtain ⟨e1, e2, e3⟩ := subChecked_panic h3
      refine ⟨e1, e2, beDec (w.take 4), w.drop 4 ++ r, e3, ?_⟩
      have hl : (w.take 4).length = 4 := by simp; omega
      have := beEnc_beDec (w.take 4)
      rw [hl] at this
      rw [this, ← List.append_assoc, List.take_append_drop]
    · cases h4

theorem compound8_shape {env : Env} {i r : Bytes} {h : CompoundHeader}
    (hd : decodeCompound8 env i = .ok (r, h)) : ∃ w, i = w ++ r ∧ 2 ≤ w.length := by
  obtain ⟨r', w, h1, h2⟩ := bind_eq_ok.1 hd
  obtain ⟨rfl, hw⟩ := takeN_ok h1
  obtain ⟨w', rfl, -⟩ := ((Local.subChecked env 8 _ 1).bind fun _ => Local.pure _) _ _ _ h2
  exact ⟨w ++ w', by simp, by simp; omega⟩

theorem compound32_shape {env : Env} {i r : Bytes} {h : CompoundHeader}
    (hd : decodeCompound32 env i = .ok (r, h)) : ∃ w, i = w ++ r ∧ 2 ≤ w.length := by
  obtain ⟨r', w, h1, h2⟩ := bind_eq_ok.1 hd
  obtain ⟨rfl, hw⟩ := takeN_ok h1
  obtain ⟨w', rfl, -⟩ := ((Local.subChecked env 32 _ 4).bind fun _ => Local.pure _) _ _ _ h2
  exact ⟨w ++ w', by simp, by simp; omega⟩

theorem mapHeader_panic {env : Env} {d : Nat} {fmt : UInt8} {i : Bytes} {p : Panic}
    (h : decodeMapHeader env fmt i = .panic p) : PanicCause env.overflowChecks d (fmt :: i) p := by
  unfold decodeMapHeader at h
  split at h
  · rename_i hf; subst hf
    obtain ⟨rfl, hc, r, rfl⟩ := compound8_panic h
    exact ⟨hc, .inl ⟨0xc1, .inr (.inl rfl), [], r, rfl⟩⟩
  · split at h
    · rename_i hf; subst hf
      obtain ⟨rfl, hc, n, r, hn, rfl⟩ := compound32_panic h
      exact ⟨hc, .inr ⟨0xd1, n, .inr (.inl rfl), hn, [], r, rfl⟩⟩
    · cases h

theorem listHeader_panic {env : Env} {d : Nat} {fmt : UInt8} {i : Bytes} {p : Panic}
    (h : decodeListHeader env fmt i = .panic p) : PanicCause env.overflowChecks d (fmt :: i) p := by
  unfold decodeListHeader at h
  split at h
  · cases h
  · split at h
    · rename_i hf; subst hf
      obtain ⟨rfl, hc, r, rfl⟩ := compound8_panic h
      exact ⟨hc, .inl ⟨0xc0, .inl rfl, [], r, rfl⟩⟩
    · split at h
      · rename_i hf; subst hf
        obtain ⟨rfl, hc, n, r, hn, rfl⟩ := compound32_panic h
        exact ⟨hc, .inr ⟨0xd0, n, .inl rfl, hn, [], r, rfl⟩⟩
      · cases h

theorem arrayHeader_panic {env : Env} {d : Nat} {fmt : UInt8} {i : Bytes} {p : Panic}
    (h : decodeArrayHeader env fmt i = .panic p) : PanicCause env.overflowChecks d (fmt :: i) p := by
  unfold decodeArrayHeader at h
  split at h
  · rename_i hf; subst hf
    obtain ⟨rfl, hc, r, rfl⟩ := compound8_panic h
    exact ⟨hc, .inl ⟨0xe0, .inr (.inr rfl), [], r, rfl⟩⟩
  · split at h
    · rename_i hf; subst hf
      obtain ⟨rfl, hc, n, r, hn, rfl⟩ := compound32_panic h
      exact ⟨hc, .inr ⟨0xf0, n, .inr (.inr rfl), hn, [], r, rfl⟩⟩
    · cases h

theorem mapHeader_shape {env : Env} {fmt : UInt8} {i r : Bytes} {h : CompoundHeader}
    (hd : decodeMapHeader env fmt i = .ok (r, h)) :
    (fmt = 0xc1 ∨ fmt = 0xd1) ∧ ∃ w, i = w ++ r ∧ 2 ≤ w.length := by
  unfold decodeMapHeader at hd
  split at hd
  · rename_i hf; exact ⟨.inl hf, compound8_shape hd⟩
  · split at hd
    · rename_i hf; exact ⟨.inr hf, compound32_shape hd⟩
    · cases hd

theorem arrayHeader_ok {env : Env} {fmt : UInt8} {i r : Bytes} {h : CompoundHeader}
    (hd : decodeArrayHeader env fmt i = .ok (r, h)) : fmt = 0xe0 ∨ fmt = 0xf0 := by
  unfold decodeArrayHeader at hd
  split at hd
  · rename_i hf; exact .inl hf
  · split at hd
    · rename_i hf; exact .inr hf
    · cases hd

theorem listHeader_shape {env : Env} {fmt : UInt8} {i r : Bytes} {h : CompoundHeader}
    (hd : decodeListHeader env fmt i = .ok (r, h)) :
    h.count = 0 ∨ ∃ w, i = w ++ r ∧ 2 ≤ w.length := by
  unfold decodeListHeader at hd
  split at hd
  · injection hd with hd; injection hd with h1 h2; exact .inl (by rw [← h2])
  · split at hd
    · exact .inr (compound8_shape hd)
    · split at hd
      · exact .inr (compound32_shape hd)
      · cases hd

/-! ## Maps and lists -/

/-- The input contains a map code. -/
def HasMap (i : Bytes) : Prop := ∃ c ∈ i, isMapCode c = true

theorem HasMap.mono {x i : Bytes} (h : HasMap x) (hi : x <:+: i) : HasMap i :=
  let ⟨c, h1, h2⟩ := h; ⟨c, hi.subset h1, h2⟩

/-- Keys that cannot be hashed contain maps. -/
def KeyBlames {K : Type} [HKey K] (kd : Dec K) : Prop :=
  ∀ i r k, kd i = .ok (r, k) → HKey.hashOk k = false → HasMap i

theorem mapLoop_panic {K V : Type} [HKey K] {kd : Dec K} {vd : Dec V} {c : Bool} {d : Nat}
    (hk : Blames c d kd) (hv : Blames c d vd) (lk : Local kd) (lv : Local vd)
    (hh : KeyBlames kd) : ∀ (n : Nat) (acc : List (K × V)) (i : Bytes) (p : Panic),
    mapLoop kd vd n acc i = .panic p → (p = .unimplemented ∧ HasMap i) ∨ PanicCause c d i p
  | 0, _, _, _, h => by cases h
  | n + 1, acc, i, p, h => by
    rcases bind_eq_panic.1 h with h1 | ⟨r, k, h1, h2⟩
    · exact .inr (hk _ _ h1)
    · obtain ⟨w, rfl, -⟩ := lk _ _ _ h1
      rcases bind_eq_panic.1 h2 with h3 | ⟨r2, v, h3, h4⟩
      · exact .inr ((hv _ _ h3).mono ⟨w, [], by simp⟩)
      · obtain ⟨w2, rfl, -⟩ := lv _ _ _ h3
        have hi : r2 <:+: w ++ (w2 ++ r2) := ⟨w ++ w2, [], by simp⟩
        cases hk' : HKey.hashOk k with
        | true =>
          rw [hk'] at h4
          rcases mapLoop_panic hk hv lk lv hh n _ _ _ h4 with ⟨e, hm⟩ | hc
          · exact .inl ⟨e, hm.mono hi⟩
          · exact .inr (hc.mono hi)
        | false =>
          rw [hk'] at h4
          injection h4 with h4
          exact .inl ⟨h4.symm, hh _ _ _ h1 hk'⟩

theorem withSlice_panic {α : Type} {n : Nat} {x : Dec α} {i : Bytes} {p : Panic}
    (h : withSlice n x i = .panic p) : p = .sliceIndex ∨ x (i.take n) = .panic p := by
  unfold withSlice at h
  split at h
  · injection h with h; exact .inl h.symm
  · cases hx : x (i.take n) with
    | ok q => rw [hx] at h; cases h
    | err e => rw [hx] at h; cases h
    | panic q => rw [hx] at h; exact .inr h

theorem take_split (i : Bytes) (n : Nat) : i = i.take n ++ i.drop n :=
  (List.take_append_drop n i).symm

theorem isMapCode_of {c : UInt8} (h : c = 0xc1 ∨ c = 0xd1) : isMapCode c = true := by
  rcases h with rfl | rfl <;> rfl

theorem count_map {fmt : UInt8} {i x : Bytes} (hf : fmt = 0xc1 ∨ fmt = 0xd1) (hx : HasMap x)
    (hi : x <:+: i) : 2 ≤ (fmt :: i).countP isMapCode := by
  obtain ⟨c, hc, hm⟩ := hx.mono hi
  rw [List.countP_cons_of_pos (isMapCode_of hf)]
  have := List.countP_pos_iff.2 ⟨c, hc, hm⟩
  omega

theorem decodeMapWith_panic {K V : Type} [HKey K] {kd : Dec K} {vd : Dec V} {env : Env} {d : Nat}
    (hk : Blames env.overflowChecks d kd) (hv : Blames env.overflowChecks d vd) (lk : Local kd)
    (lv : Local vd) (hh : KeyBlames kd) {fmt : UInt8} {i : Bytes} {p : Panic}
    (h : decodeMapWith kd vd env fmt i = .panic p) :
    PanicCause env.overflowChecks (d + 1) (fmt :: i) p := by
  rcases bind_eq_panic.1 h with h1 | ⟨r, hdr, h1, h2⟩
  · exact mapHeader_panic h1
  · obtain ⟨hf, w, rfl, hw⟩ := mapHeader_shape h1
    rcases withSlice_panic h2 with rfl | h3
    · exact ⟨fmt, by rcases hf with h | h <;> simp [h], by simp⟩
    · rcases mapLoop_panic hk hv lk lv hh _ _ _ _ h3 with ⟨rfl, hm⟩ | hc
      · exact count_map hf hm ⟨w, r.drop hdr.size, by rw [List.append_assoc, ← take_split]⟩
      · have := hc.up (a := fmt :: w) (b := r.drop hdr.size) (by simp; omega)
        rw [List.append_assoc, ← take_split] at this
        exact this

theorem decodeListWith_panic {vd : Dec Variant} {env : Env} {d : Nat}
    (hv : Blames env.overflowChecks d vd) (lv : Local vd) {fmt : UInt8} {i : Bytes} {p : Panic}
    (h : decodeListWith vd env fmt i = .panic p) :
    PanicCause env.overflowChecks (d + 1) (fmt :: i) p := by
  rcases bind_eq_panic.1 h with h1 | ⟨r, hdr, h1, h2⟩
  · exact listHeader_panic h1
  · rcases listHeader_shape h1 with h0 | ⟨w, rfl, hw⟩
    · rw [h0] at h2; cases h2
    · have := ((Blames.decodeN hv lv _) _ _ h2).up (a := fmt :: w) (b := []) (by simp; omega)
      simpa using this

/-! ## Variants -/

/-- A decoder that reads at least one byte. -/
def Eats {α : Type} (dec : Dec α) : Prop := ∀ i r a, dec i = .ok (r, a) → r.length < i.length

theorem Eats.map {α β : Type} {dec : Dec α} (f : α → β) (h : Eats dec) : Eats (f <$> dec) := by
  intro i r a ha
  obtain ⟨a', h1, -⟩ := map_eq_ok.1 ha
  exact h _ _ _ h1

theorem Eats.bind {α β : Type} {dec : Dec α} {f : α → Dec β} (h : Eats dec)
    (hf : ∀ a, Local (f a)) : Eats (dec >>= f) := by
  intro i r a ha
  obtain ⟨r1, a', h1, h2⟩ := bind_eq_ok.1 ha
  obtain ⟨w, rfl, -⟩ := hf _ _ _ _ h2
  have := h _ _ _ h1
  simp only [List.length_append] at this
  omega

theorem eats_readU8 : Eats readU8 := by
  intro i r a h
  rw [readU8_ok h]; simp

theorem eats_readBE {k : Nat} (hk : 0 < k) : Eats (readBE k) := by
  intro i r a h
  obtain ⟨b, rfl, hb, -⟩ := readBE_ok h
  simp; omega

theorem eats_descriptor (env : Env) (fmt : UInt8) : Eats (decF (α := Descriptor) env fmt) := by
  intro i r x h
  have h' : (if fmt = FC.smallUlong then Descriptor.ulong <$> decF env fmt
    else if fmt = FC.ulong then Descriptor.ulong <$> decF env fmt
    else if fmt = FC.symbol8 then Descriptor.symbol <$> decF env fmt
    else if fmt = FC.symbol32 then Descriptor.symbol <$> decF env fmt
    else Dec.fail (.invalidFormatCode fmt)) i = .ok (r, x) := h
  have hu : ∀ b : Bytes, Local (fromUtf8 b) := fun b => Local.fromUtf8 b
  split at h'
  · rename_i hf; subst hf
    obtain ⟨a, h1, -⟩ := map_eq_ok.1 h'
    exact (eats_readU8.map UInt8.toUInt64) _ _ _ h1
  split at h'
  · rename_i hf; subst hf
    obtain ⟨a, h1, -⟩ := map_eq_ok.1 h'
    exact ((eats_readBE (k := 8) (by decide)).map UInt64.ofNat) _ _ _ h1
  split at h'
  · rename_i hf; subst hf
    obtain ⟨a, h1, -⟩ := map_eq_ok.1 h'
    exact (((eats_readU8.bind fun n => Local.takeN _).bind hu).map Symbol.mk) _ _ _ h1
  split at h'
  · rename_i hf; subst hf
    obtain ⟨a, h1, -⟩ := map_eq_ok.1 h'
    exact ((((eats_readBE (k := 4) (by decide)).bind fun n => Local.takeN _).bind hu).map
      Symbol.mk) _ _ _ h1
  · cases h'

theorem descriptor_two (env : Env) {i r : Bytes} {x : Descriptor}
    (h : decode Descriptor env i = .ok (r, x)) : r.length + 2 ≤ i.length := by
  obtain ⟨f, i', rfl, h1⟩ := decode_ok h
  have := eats_descriptor env f _ _ _ h1
  simp only [List.length_cons]; omega

theorem timestamp_only (env : Env) (fmt : UInt8) (i : Bytes) (p : Panic) (hp : p ≠ .timestampRange) :
    decF (α := DateTime) env fmt i ≠ .panic p := by
  intro h
  have h' : validateCode fmt FC.timestamp (readBE 8 >>= fun n =>
    datetimeFromMillis (UInt64.ofNat n).toInt64.toInt) i = .panic p := h
  unfold validateCode at h'
  split at h'
  · cases h'
  · rcases bind_eq_panic.1 h' with h1 | ⟨r1, n, h1, h2⟩
    · exact absurd h1 (Safe.readBE 8 i p)
    · unfold datetimeFromMillis utcTimestamp at h2
      split at h2 <;> split at h2
      all_goals first
        | cases h2; done
        | injection h2 with h2; exact hp h2.symm

/-- Panics have a cause in the input, the format code included. -/
def FmtBlames {α : Type} (c : Bool) (d : Nat) (fmt : UInt8) (dec : Dec α) : Prop :=
  ∀ i p, dec i = .panic p → PanicCause c d (fmt :: i) p

theorem FmtBlames.ite {α : Type} {c : Bool} {d : Nat} {fmt : UInt8} {P : Prop} [Decidable P]
    {x y : Dec α} (hx : FmtBlames c d fmt x) (hy : FmtBlames c d fmt y) :
    FmtBlames c d fmt (if P then x else y) := by split <;> assumption

theorem FmtBlames.of_blames {α : Type} {c : Bool} {d : Nat} {fmt : UInt8} {x : Dec α}
    (hx : Blames c d x) : FmtBlames c d fmt x :=
  fun i p h => (hx i p h).mono ⟨[fmt], [], by simp⟩

theorem FmtBlames.map {α β : Type} {c : Bool} {d : Nat} {fmt : UInt8} {x : Dec α} (f : α → β)
    (hx : FmtBlames c d fmt x) : FmtBlames c d fmt (f <$> x) :=
  fun i p h => hx i p (map_eq_panic.1 h)

/-- Values that cannot be hashed contain maps. -/
def FmtKey (fmt : UInt8) (dec : Dec Variant) : Prop :=
  ∀ i r v, dec i = .ok (r, v) → v.hashOk = false → HasMap (fmt :: i)

theorem FmtKey.ite {fmt : UInt8} {P : Prop} [Decidable P] {x y : Dec Variant} (hx : FmtKey fmt x)
    (hy : FmtKey fmt y) : FmtKey fmt (if P then x else y) := by split <;> assumption

theorem FmtKey.map {α : Type} {fmt : UInt8} {x : Dec α} (f : α → Variant)
    (hf : ∀ a, (f a).hashOk = true) : FmtKey fmt (f <$> x) := by
  intro i r v h hv
  obtain ⟨a, -, rfl⟩ := map_eq_ok.1 h
  rw [hf a] at hv; cases hv

theorem decodeN_hash {vd : Dec Variant} (lv : Local vd)
    (hv : ∀ i r v, vd i = .ok (r, v) → v.hashOk = false → HasMap i) :
    ∀ n i r l, decodeN vd n i = .ok (r, l) → hashOkList l = false → HasMap i
  | 0, i, r, l, h, hl => by
    injection h with h; injection h with h1 h2
    rw [← h2] at hl; simp [hashOkList] at hl
  | n + 1, i, r, l, h, hl => by
    obtain ⟨r1, x, h1, h2⟩ := bind_eq_ok.1 h
    obtain ⟨r2, xs, h3, h4⟩ := bind_eq_ok.1 h2
    injection h4 with h4; injection h4 with h5 h6
    rw [← h6] at hl
    simp only [hashOkList, Bool.and_eq_false_iff] at hl
    obtain ⟨w, rfl, -⟩ := lv _ _ _ h1
    rcases hl with hl | hl
    · exact hv _ _ _ h1 hl
    · exact (decodeN_hash lv hv n _ _ _ h3 hl).mono ⟨w, [], by simp⟩

theorem variant_key (env : Env) : ∀ (d : Nat) (fmt : UInt8), FmtKey fmt (decVariant env d fmt)
  | 0, fmt => fun _ _ _ h => by cases h
  | d + 1, fmt => by
    have lv : Local (formatCode >>= fun f => decVariant env d f) :=
      Local.readU8.bind fun f => local_variant env d f
    have hv : ∀ i r v, (formatCode >>= fun f => decVariant env d f) i = .ok (r, v) →
        v.hashOk = false → HasMap i := by
      intro i r v h hh
      obtain ⟨r1, f, h1, h2⟩ := bind_eq_ok.1 h
      have := readU8_ok h1
      subst this
      exact variant_key env d f _ _ _ h2 hh
    have hlist : FmtKey fmt (Variant.list <$> decodeListWith
        (formatCode >>= fun f => decVariant env d f) env fmt) := by
      intro i r v h hh
      obtain ⟨l, h1, rfl⟩ := map_eq_ok.1 h
      obtain ⟨r1, hdr, h2, h3⟩ := bind_eq_ok.1 h1
      obtain ⟨w, rfl, -⟩ := Local.decodeListHeader env fmt _ _ _ h2
      have hh' : hashOkList l = false := by simpa [Variant.hashOk] using hh
      exact (decodeN_hash lv hv _ _ _ _ h3 hh').mono ⟨fmt :: w, [], by simp⟩
    have hmap : FmtKey fmt (Variant.map <$> decodeMapWith
        (formatCode >>= fun f => decVariant env d f)
        (formatCode >>= fun f => decVariant env d f) env fmt) := by
      intro i r v h hh
      obtain ⟨l, h1, rfl⟩ := map_eq_ok.1 h
      obtain ⟨r1, hdr, h2, h3⟩ := bind_eq_ok.1 h1
      exact ⟨fmt, by simp, isMapCode_of (mapHeader_shape h2).1⟩
    have hdesc : FmtKey fmt (decode Descriptor env >>= fun x =>
        (formatCode >>= fun f => decVariant env d f) >>= fun v => pure (.described x v)) := by
      intro i r v h hh
      obtain ⟨r1, x, h1, h2⟩ := bind_eq_ok.1 h
      obtain ⟨r2, v', h3, h4⟩ := bind_eq_ok.1 h2
      injection h4 with h4; injection h4 with h5 h6
      obtain ⟨w, rfl, -⟩ := loc_decode env _ _ _ h1
      rw [← h6] at hh
      exact (hv _ _ _ h3 (by simpa [Variant.hashOk] using hh)).mono ⟨fmt :: w, [], by simp⟩
    have hfail : ∀ e, FmtKey fmt (Dec.fail e) := fun e i r v h => by cases h
    have hpure : ∀ v : Variant, v.hashOk = true → FmtKey fmt (pure v) := by
      intro v hv i r v' h hh
      injection h with h; injection h with h1 h2
      rw [← h2, hv] at hh; cases hh
    unfold decVariant
    repeat' apply FmtKey.ite
    all_goals first
      | exact hlist
      | exact hmap
      | exact hdesc
      | exact hfail _
      | exact hpure _ (by simp [Variant.hashOk, hashOkList])
      | exact FmtKey.map _ (fun a => by simp [Variant.hashOk])

theorem variant_blames (env : Env) : ∀ (d : Nat) (fmt : UInt8),
    FmtBlames env.overflowChecks d fmt (decVariant env d fmt)
  | 0, fmt => fun i p h => by
    injection h with h; subst h
    show 3 * 0 < (fmt :: i).length
    simp
  | d + 1, fmt => by
    have lv : Local (formatCode >>= fun f => decVariant env d f) :=
      Local.readU8.bind fun f => local_variant env d f
    have hv : Blames env.overflowChecks d (formatCode >>= fun f => decVariant env d f) := by
      intro i p h
      rcases bind_eq_panic.1 h with h1 | ⟨r1, f, h1, h2⟩
      · exact absurd h1 (Safe.readU8 i p)
      · have := readU8_ok h1
        subst this
        exact variant_blames env d f _ _ h2
    have hk : KeyBlames (formatCode >>= fun f => decVariant env d f) := by
      intro i r v h hh
      obtain ⟨r1, f, h1, h2⟩ := bind_eq_ok.1 h
      have := readU8_ok h1
      subst this
      exact variant_key env d f _ _ _ h2 hh
    have hlist : FmtBlames env.overflowChecks (d + 1) fmt (Variant.list <$> decodeListWith
        (formatCode >>= fun f => decVariant env d f) env fmt) :=
      FmtBlames.map _ fun i p h => decodeListWith_panic hv lv h
    have hmap : FmtBlames env.overflowChecks (d + 1) fmt (Variant.map <$> decodeMapWith
        (formatCode >>= fun f => decVariant env d f)
        (formatCode >>= fun f => decVariant env d f) env fmt) :=
      FmtBlames.map _ fun i p h => decodeMapWith_panic hv hv lv lv hk h
    have hdesc : FmtBlames env.overflowChecks (d + 1) fmt (decode Descriptor env >>= fun x =>
        (formatCode >>= fun f => decVariant env d f) >>= fun v => pure (Variant.described x v)) := by
      intro i p h
      rcases bind_eq_panic.1 h with h1 | ⟨r1, x, h1, h2⟩
      · exact absurd h1 (safe_decode (fun f => SafeDec.safe env f) i p)
      · rcases bind_eq_panic.1 h2 with h3 | ⟨r2, v', h3, h4⟩
        · have hp := descriptor_two env h1
          obtain ⟨w, rfl, -⟩ := loc_decode env _ _ _ h1
          have := (hv _ _ h3).up (a := fmt :: w) (b := []) (by
            simp only [List.length_append] at hp
            simp only [List.length_cons]; omega)
          simpa using this
        · cases h4
    have hdec : ∀ {α : Type} [DecodeF α] [SafeDec α] (f : α → Variant),
        FmtBlames env.overflowChecks (d + 1) fmt (f <$> decF env fmt) :=
      fun f => FmtBlames.map _ fun i p h => absurd h (SafeDec.safe env fmt i p)
    have hts : FmtBlames env.overflowChecks (d + 1) fmt (Variant.timestamp <$> decF env fmt) := by
      refine FmtBlames.map _ fun i p h => ?_
      have := PanicLaw.blame env fmt i p h
      cases p with
      | timestampRange => exact this
      | _ => exact absurd h (timestamp_only env fmt i _ (by simp))
    unfold decVariant
    repeat' apply FmtBlames.ite
    all_goals first
      | exact hlist
      | exact hmap
      | exact hdesc
      | exact hts
      | exact hdec _
      | exact fun i p h => by cases h

instance : PanicLaw Variant := ⟨fun env fmt => variant_blames env _ fmt⟩

end Amqp
