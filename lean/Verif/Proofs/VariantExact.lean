import Verif.Props.Times
import Verif.Proofs.Variant
/-!
# Exactly which variants survive a round trip
-/
set_option autoImplicit false
namespace Amqp
open Dec

theorem survivesMap_iff (m : List (Variant × Variant)) :
    survivesMap m ↔ ∀ e ∈ m, e.1.Survives ∧ e.2.Survives := by
  induction m with
  | nil => simp [survivesMap]
  | cons e t ih => obtain ⟨k, v⟩ := e; simp [survivesMap, ih]

theorem vsizeMap_mem {m : List (Variant × Variant)} {e : Variant × Variant} (h : e ∈ m) :
    e.1.vsize + e.2.vsize ≤ vsizeMap m := by
  induction m with
  | nil => cases h
  | cons x t ih =>
    obtain ⟨k, v⟩ := x
    simp only [vsizeMap]
    rcases List.mem_cons.1 h with rfl | h
    · simp only; omega
    · have := ih h; omega

theorem varSize_ge (n : Nat) : n ≤ varSize n := by unfold varSize; split <;> omega

theorem compoundSize_small {n : Nat} (h : compoundSize n < 2 ^ 32) : n + 4 < 2 ^ 32 := by
  unfold compoundSize at h; split at h <;> omega

/-- A surviving variant that is small enough is well-formed for the codec. -/
theorem Variant.Survives.good (v : Variant) (h : v.Survives) (hs : v.vsize < 2 ^ 32) : v.Good := by
  induction v using Variant.ind with
  | leaf v hl hm hd =>
    cases v with
    | list l => exact absurd rfl (hl l)
    | map m => exact absurd rfl (hm m)
    | described d w => exact absurd rfl (hd d w)
    | timestamp t => simp only [Survives, Good] at h ⊢; exact h
    | staticSymbol s => simp only [Survives] at h
    | binary b =>
      simp only [Good]; have := varSize_ge b.data.length; exact Nat.lt_of_le_of_lt this hs
    | string b =>
      simp only [Good]; have := varSize_ge b.bytes.length; exact Nat.lt_of_le_of_lt this hs
    | symbol b =>
      simp only [Good]; have := varSize_ge b.str.bytes.length; exact Nat.lt_of_le_of_lt this hs
    | _ => simp only [Good]
  | list l ih => simp only [Survives] at h
  | map m ih =>
    simp only [Survives, survivesMap_iff] at h
    simp only [vsize] at hs
    have hc := compoundSize_small hs
    simp only [Good, goodMap_iff]
    refine ⟨fun e he => ?_, h.2.1, h.2.2, hc⟩
    have := vsizeMap_mem he
    exact ⟨(ih e he).1 (h.1 e he).1 (by omega), (ih e he).2 (h.1 e he).2 (by omega)⟩
  | described d v ih =>
    simp only [Survives] at h
    simp only [vsize] at hs
    simp only [Good]
    refine ⟨?_, ih h.2 (by omega)⟩
    cases d with
    | ulong n => exact fun e => h.1 (by rw [e])
    | symbol s =>
      have h1 : size (Descriptor.symbol s) = 1 + varSize s.str.bytes.length := rfl
      have := varSize_ge s.str.bytes.length
      show s.str.bytes.length < 2 ^ 32
      omega

theorem datetime_survives {env : Env} {t : DateTime} {rest rest' : Bytes}
    (h : decode DateTime env (enc t ++ rest) = .ok (rest', t)) : t.Survives := by
  have e : enc t = timestampWire (Int64.ofInt t.millis) := rfl
  rw [e, decode_timestamp, toInt64_ofInt t.millis_bounds.1 t.millis_bounds.2,
    datetimeFromMillis_eq] at h
  have key : ∀ (s : Int) (n : Nat), utcTimestamp s n rest = .ok (rest', t) →
      t.secs = s ∧ t.nanos = n := by
    intro s n hs
    rw [utcTimestamp] at hs
    split at hs
    · injection hs with hs; injection hs with _ hs; subst hs; exact ⟨rfl, rfl⟩
    · cases hs
  have hb := t.bounds
  have hm : t.millis = t.secs * 1000 + ((t.nanos / 1000000 : Nat) : Int) := rfl
  unfold DateTime.Survives
  split at h
  · have := key _ _ h; omega
  · split at h
    · have := key _ _ h; omega
    · have := key _ _ h; omega

/-! ### The entry loop -/

theorem insertEntry_cases {K V : Type} (eq : K → K → Bool) (k : K) (v : V) (l : List (K × V)) :
    (insertEntry eq k v l = l ++ [(k, v)] ∧ ∀ e ∈ l, eq k e.1 = false) ∨
    ((insertEntry eq k v l).length = l.length ∧ (insertEntry eq k v l).map Prod.fst = l.map Prod.fst) := by
  induction l with
  | nil => left; simp [insertEntry]
  | cons e t ih =>
    obtain ⟨k', v'⟩ := e
    unfold insertEntry
    cases hk : eq k k' with
    | true => right; simp
    | false =>
      rcases ih with ⟨h1, h2⟩ | ⟨h1, h2⟩
      · left
        refine ⟨by simp [h1], fun e he => ?_⟩
        rcases List.mem_cons.1 he with rfl | he
        · exact hk
        · exact h2 e he
      · right
        exact ⟨by simp [h1], by simp [h2]⟩

theorem mapLoop_succ {K V : Type} [HKey K] {kd : Dec K} {vd : Dec V} {n : Nat}
    {acc out : List (K × V)} {i r : Bytes} (h : mapLoop kd vd (n + 1) acc i = .ok (r, out)) :
    ∃ r1 k r2 v, kd i = .ok (r1, k) ∧ vd r1 = .ok (r2, v) ∧ HKey.hashOk k = true ∧
      mapLoop kd vd n (insertEntry HKey.keq k v acc) r2 = .ok (r, out) := by
  obtain ⟨r1, k, h1, h⟩ := bind_eq_ok.1 h
  obtain ⟨r2, v, h2, h⟩ := bind_eq_ok.1 h
  cases hh : HKey.hashOk k with
  | true =>
    rw [if_pos hh] at h
    exact ⟨r1, k, r2, v, h1, h2, hh, h⟩
  | false => rw [if_neg (by simp [hh])] at h; cases h

/-- The loop never shrinks its accumulator; if it grows by one entry for each
round, the accumulator is a prefix of the result. -/
theorem mapLoop_shape {K V : Type} [HKey K] {kd : Dec K} {vd : Dec V} :
    ∀ {n : Nat} {acc out : List (K × V)} {i r : Bytes}, mapLoop kd vd n acc i = .ok (r, out) →
      out.length ≤ acc.length + n ∧ (out.length = acc.length + n → ∃ l, out = acc ++ l)
  | 0, acc, out, i, r, h => by
    injection h with h; injection h with _ h; subst h
    exact ⟨Nat.le_refl _, fun _ => ⟨[], by simp⟩⟩
  | n + 1, acc, out, i, r, h => by
    obtain ⟨r1, k, r2, v, -, -, -, h⟩ := mapLoop_succ h
    obtain ⟨h1, h2⟩ := mapLoop_shape h
    rcases insertEntry_cases HKey.keq k v acc with ⟨e, _⟩ | ⟨e, _⟩
    · rw [e] at h1 h2
      simp only [List.length_append, List.length_cons, List.length_nil] at h1 h2
      refine ⟨by omega, fun hl => ?_⟩
      obtain ⟨l, hl⟩ := h2 (by omega)
      exact ⟨(k, v) :: l, by rw [hl]; simp⟩
    · rw [e] at h1
      exact ⟨by omega, fun hl => by omega⟩

/-- What a decoder reads from an encoded variant, if it is that variant. -/
def Faithful (env : Env) (d : Nat) (v : Variant) : Prop :=
  ∀ rest rest', decVar env d (v.venc ++ rest) = .ok (rest', v) →
    v.Survives ∧ v.depth ≤ d ∧ rest' = rest

theorem mapLoop_faithful {env : Env} {d : Nat} : ∀ {l acc : List (Variant × Variant)} {r : Bytes},
    (∀ e ∈ l, Faithful env d e.1 ∧ Faithful env d e.2) → NodupKeys acc →
    mapLoop (decVar env d) (decVar env d) l.length acc (vencMap l) = .ok (r, acc ++ l) →
    (∀ e ∈ l, (e.1.Survives ∧ e.2.Survives) ∧ e.1.hashOk = true ∧ e.1.depth ≤ d ∧ e.2.depth ≤ d) ∧
      NodupKeys (acc ++ l)
  | [], acc, r, _, hn, _ => ⟨by simp, by simpa using hn⟩
  | (k, v) :: t, acc, r, hf, hn, h => by
    obtain ⟨r1, k1, r2, v1, h1, h2, hh, h3⟩ := mapLoop_succ h
    obtain ⟨hle, hpre⟩ := mapLoop_shape h3
    rcases insertEntry_cases HKey.keq k1 v1 acc with ⟨e, hfresh⟩ | ⟨e, _⟩
    · rw [e] at h3 hpre
      obtain ⟨l', hl'⟩ := hpre (by simp; omega)
      have hl2 : (k, v) :: t = (k1, v1) :: l' := by
        rw [List.append_assoc] at hl'
        exact List.append_cancel_left hl'
      injection hl2 with e1 _
      injection e1 with ek ev
      subst ek ev
      simp only [vencMap, List.append_assoc] at h1
      obtain ⟨s1, d1, rfl⟩ := (hf (k, v) (by simp)).1 _ _ h1
      obtain ⟨s2, d2, rfl⟩ := (hf (k, v) (by simp)).2 _ _ h2
      have hn' : NodupKeys (acc ++ [(k, v)]) := by
        refine List.pairwise_append.2 ⟨hn, List.pairwise_singleton _ _, fun a ha b hb => ?_⟩
        rw [List.mem_singleton] at hb
        subst hb
        exact hfresh a ha
      have h3' : mapLoop (decVar env d) (decVar env d) t.length (acc ++ [(k, v)]) (vencMap t) =
          .ok (r, (acc ++ [(k, v)]) ++ t) := by rw [h3]; simp
      obtain ⟨g1, g2⟩ := mapLoop_faithful (fun e he => hf e (by simp [he])) hn' h3'
      refine ⟨fun e he => ?_, by simpa using g2⟩
      rcases List.mem_cons.1 he with rfl | he
      · exact ⟨⟨s1, s2⟩, hh, d1, d2⟩
      · exact g1 e he
    · exfalso
      rw [e] at hle
      simp at hle; omega

theorem depthMap_le_of {m : List (Variant × Variant)} {d : Nat}
    (h : ∀ e ∈ m, e.1.depth ≤ d ∧ e.2.depth ≤ d) : depthMap m ≤ d := by
  induction m with
  | nil => simp [depthMap]
  | cons e t ih =>
    obtain ⟨k, v⟩ := e
    have h1 := h (k, v) (by simp)
    have h2 := ih (fun e he => h e (by simp [he]))
    simp only [depthMap]; simp only at h1; omega

theorem decVar_cons (env : Env) (d : Nat) (c : UInt8) (t : Bytes) :
    decVar env d (c :: t) = decVariant env d c t := rfl

theorem decVar_zero {env : Env} {i r : Bytes} {v : Variant} : decVar env 0 i ≠ .ok (r, v) := by
  cases i with
  | nil => intro h; cases h
  | cons c t => intro h; cases h

theorem faithful (env : Env) (v : Variant) (hs : v.vsize < 2 ^ 32) : ∀ d, Faithful env d v := by
  -- once `Survives` and the depth are known, the remainder follows from the round trip
  suffices H : ∀ d rest rest', decVar env d (v.venc ++ rest) = .ok (rest', v) →
      v.Survives ∧ v.depth ≤ d by
    intro d rest rest' h
    obtain ⟨h1, h2⟩ := H d rest rest' h
    refine ⟨h1, h2, ?_⟩
    have := reads_variant env v (h1.good v hs) d h2 rest
    rw [this] at h
    injection h with h; injection h with h _
    exact h.symm
  induction v using Variant.ind with
  | leaf v hl hm hd =>
    intro d rest rest' h
    cases d with
    | zero => exact absurd h decVar_zero
    | succ d =>
      have hdep : v.depth ≤ d + 1 := by
        cases v <;> simp_all [Variant.depth]
      refine ⟨?_, hdep⟩
      cases v with
      | list l => exact absurd rfl (hl l)
      | map m => exact absurd rfl (hm m)
      | described d w => exact absurd rfl (hd d w)
      | timestamp t =>
        simp only [Variant.Survives]
        have h' : (Variant.timestamp <$> decF env FC.timestamp)
            (beEnc 8 (Int64.ofInt t.millis).toUInt64.toNat ++ rest) =
            .ok (rest', Variant.timestamp t) := h
        obtain ⟨t', h1, h2⟩ := map_eq_ok.1 h'
        injection h2 with h2
        subst h2
        exact datetime_survives (env := env) (rest := rest) (rest' := rest') h1
      | staticSymbol s =>
        exfalso
        have hl : s.bytes.length < 2 ^ 32 :=
          Nat.lt_of_le_of_lt (varSize_ge s.bytes.length) hs
        have := reads_variant env (.symbol ⟨s⟩) (by simp only [Variant.Good]; exact hl) (d + 1)
          (by simp [Variant.depth]) rest
        have e : (Variant.symbol ⟨s⟩).venc = (Variant.staticSymbol s).venc := rfl
        rw [e, h] at this
        cases this
      | _ => simp only [Variant.Survives]
  | list l ih =>
    intro d rest rest' h
    exfalso
    cases d with
    | zero => exact absurd h decVar_zero
    | succ d =>
      obtain ⟨c, t, e, hc⟩ := compoundHdr_head FC.array8 FC.array32 (vsizeList l) l.length
        (vencList l)
      rw [show (Variant.list l).venc = c :: t from e] at h
      rcases hc with rfl | rfl <;> cases h
  | map m ih =>
    intro d rest rest' h
    cases d with
    | zero => exact absurd h decVar_zero
    | succ d =>
      simp only [Variant.vsize] at hs
      have hc4 := compoundSize_small hs
      have hcnt : m.length * 2 ≤ vsizeMap m := by
        rw [vsizeMap_eq]
        exact mapContentSize_ge m (fun e _ => size_pos e.1) (fun e _ => size_pos e.2)
      obtain ⟨c, w, e, hc, hr⟩ := compoundHdr_reads (env := env) (c8 := FC.map8) (c32 := FC.map32)
        (hd := decodeMapHeader env) rfl rfl hc4 hcnt
      have e' : (Variant.map m).venc = c :: (w ++ vencMap m) := by
        simp only [Variant.venc, e]; rfl
      rw [e', List.cons_append, decVar_cons] at h
      have e2 : decVariant env (d + 1) c =
          Variant.map <$> decodeMapWith (decVar env d) (decVar env d) env c := by
        rcases hc with rfl | rfl <;> rfl
      rw [e2] at h
      obtain ⟨m', h1, h2⟩ := map_eq_ok.1 h
      injection h2 with h2
      subst h2
      rw [List.append_assoc] at h1
      have h1' : withSlice (vsizeMap m') (mapLoop (decVar env d) (decVar env d)
          (m'.length * 2 / 2) []) (vencMap m' ++ rest) = .ok (rest', m') := by
        have := bind_ok (f := fun header : CompoundHeader => withSlice header.size
          (mapLoop (decVar env d) (decVar env d) (header.count / 2) []))
          (hr (vencMap m' ++ rest))
        rw [← this]; exact h1
      have hlen : (vencMap m').length = vsizeMap m' := by
        rw [vencMap_eq, vsizeMap_eq]
        exact (mapContent_length m' (fun e _ => e.1.vsize_eq) (fun e _ => e.2.vsize_eq)).symm
      rw [Nat.mul_div_cancel _ (by omega)] at h1'
      unfold withSlice at h1'
      rw [if_neg (by simp; omega), List.take_left' hlen, List.drop_left' hlen] at h1'
      cases hl : mapLoop (decVar env d) (decVar env d) m'.length [] (vencMap m') with
      | err e => rw [hl] at h1'; cases h1'
      | panic p => rw [hl] at h1'; cases h1'
      | ok q =>
        obtain ⟨r, out⟩ := q
        rw [hl] at h1'
        injection h1' with h1'; injection h1' with _ h1'
        subst h1'
        have hF : ∀ e ∈ out, Faithful env d e.1 ∧ Faithful env d e.2 := by
          intro e he
          have hsz := vsizeMap_mem he
          have key : ∀ x : Variant, x.vsize < 2 ^ 32 → (∀ d rest rest',
              decVar env d (x.venc ++ rest) = .ok (rest', x) → x.Survives ∧ x.depth ≤ d) →
              Faithful env d x := by
            intro x hx H rest rest' h
            obtain ⟨h1, h2⟩ := H d rest rest' h
            refine ⟨h1, h2, ?_⟩
            have := reads_variant env x (h1.good x hx) d h2 rest
            rw [this] at h
            injection h with h; injection h with h _
            exact h.symm
          exact ⟨key _ (by omega) ((ih e he).1 (by omega)),
            key _ (by omega) ((ih e he).2 (by omega))⟩
        obtain ⟨g1, g2⟩ := mapLoop_faithful (acc := []) hF List.Pairwise.nil (by simpa using hl)
        constructor
        · simp only [Variant.Survives, survivesMap_iff]
          exact ⟨fun e he => (g1 e he).1, fun e he => (g1 e he).2.1, by simpa using g2⟩
        · simp only [Variant.depth]
          have := depthMap_le_of (m := out) (d := d) (fun e he => (g1 e he).2.2)
          omega
  | described ds v ih =>
    intro d rest rest' h
    cases d with
    | zero => exact absurd h decVar_zero
    | succ d =>
      simp only [Variant.vsize] at hs
      simp only [Variant.venc, Descriptor.enc_eq] at h
      have h' : (decode Descriptor env >>= fun ds => decVar env d >>= fun v =>
          pure (Variant.described ds v)) (ds.body ++ (v.venc ++ rest)) =
          .ok (rest', Variant.described ds v) := by
        rw [← List.append_assoc]; exact h
      obtain ⟨r1, ds1, h1, h2⟩ := bind_eq_ok.1 h'
      obtain ⟨r2, v1, h3, h4⟩ := bind_eq_ok.1 h2
      injection h4 with h4; injection h4 with h5 h6
      injection h6 with h6 h7
      subst h5 h6 h7
      have hne : ds1 ≠ .ulong 0 := by
        rintro rfl
        have e0 : (Descriptor.ulong 0).body = [0x44] := by decide
        rw [e0] at h1
        cases h1
      have hgood : ds1.good := by
        cases ds1 with
        | ulong n => exact fun e => hne (by rw [e])
        | symbol s =>
          have h1 : size (Descriptor.symbol s) = 1 + varSize s.str.bytes.length := rfl
          have := varSize_ge s.str.bytes.length
          show s.str.bytes.length < 2 ^ 32
          omega
      rw [reads_descriptor env ds1 hgood (v1.venc ++ rest)] at h1
      injection h1 with h1; injection h1 with h1 _
      subst h1
      obtain ⟨g1, g2⟩ := ih (by omega) d rest r2 h3
      refine ⟨?_, by simp only [Variant.depth]; omega⟩
      simp only [Variant.Survives]
      exact ⟨hne, g1⟩

end Amqp
