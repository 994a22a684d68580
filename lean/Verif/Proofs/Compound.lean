import Verif.Proofs.Scalar
import Verif.Spec.Variant
/-!
# Codec laws for descriptors, maps and arrays
-/
namespace Amqp
open Dec

/-! ### Descriptors -/

/-- Descriptors that survive a round trip. -/
def Descriptor.good : Descriptor → Prop
  | .ulong v => v ≠ 0
  | .symbol s => s.str.bytes.length < 2 ^ 32

/-- The encoding of a descriptor after the described marker `0x00`. -/
def Descriptor.body : Descriptor → Bytes
  | .ulong v => enc v
  | .symbol s => enc s

theorem Descriptor.enc_eq (d : Descriptor) : enc d = FC.described :: d.body := by
  cases d <;> rfl

theorem reads_descriptor (env : Env) (d : Descriptor) (h : d.good) :
    Reads (decode Descriptor env) d.body d := by
  cases d with
  | ulong v =>
    intro more
    have h1 := LawfulCodec.rt env v trivial more
    have hv : v ≠ 0 := h
    simp only [Descriptor.body, enc, if_neg hv] at h1 ⊢
    split at h1
    · rw [if_pos (by assumption)]
      exact map_ok h1
    · rw [if_neg (by assumption)]
      exact map_ok h1
  | symbol s =>
    intro more
    have h1 := LawfulCodec.rt env s h more
    simp only [Descriptor.body, enc, varEnc] at h1 ⊢
    split at h1
    · rw [if_pos (by assumption)]
      exact map_ok h1
    · rw [if_neg (by assumption)]
      exact map_ok h1

/-! ### Compound headers -/

theorem compoundHdr_length (c8 c32 : UInt8) (n k : Nat) :
    (compoundHdr c8 c32 n k).length + n = compoundSize n := by
  unfold compoundHdr compoundSize; split <;> simp <;> omega

theorem reads_compound8 (env : Env) {n k : Nat} (hn : n + 1 < 256) (hk : k < 256) :
    Reads (decodeCompound8 env) [UInt8.ofNat (n + 1), UInt8.ofNat k] ⟨n, k⟩ := by
  have e1 : (UInt8.ofNat (n + 1)).toNat = n + 1 := by simp [UInt8.toNat_ofNat']; omega
  have e2 : (UInt8.ofNat k).toNat = k := by simp [UInt8.toNat_ofNat']; omega
  have := Reads.bind (Reads.takeN [UInt8.ofNat (n + 1), UInt8.ofNat k] (n := 2) rfl)
    (f := fun hdr => subChecked env 8 (hdr.getD 0 0).toNat 1 >>= fun size =>
      pure (⟨size, (hdr.getD 1 0).toNat⟩ : CompoundHeader)) (w2 := []) (b := ⟨n, k⟩) (by
        intro more
        simp only [List.getD_cons_zero, List.getD_cons_succ, e1, e2]
        simp [subChecked])
  rw [List.append_nil] at this
  exact this

theorem reads_compound32 (env : Env) {n k : Nat} (hn : n + 4 < 2 ^ 32) (hk : k < 2 ^ 32) :
    Reads (decodeCompound32 env) (beEnc 4 (n + 4) ++ beEnc 4 k) ⟨n, k⟩ := by
  have := Reads.bind (Reads.takeN (beEnc 4 (n + 4) ++ beEnc 4 k) (n := 8) (by simp))
    (f := fun hdr => subChecked env 32 (beDec (hdr.take 4)) 4 >>= fun size =>
      pure (⟨size, beDec (hdr.drop 4)⟩ : CompoundHeader)) (w2 := []) (b := ⟨n, k⟩) (by
        intro more
        rw [List.take_left' (by simp), List.drop_left' (by simp), beDec_beEnc, beDec_beEnc,
          Nat.mod_eq_of_lt (by omega), Nat.mod_eq_of_lt (by omega)]
        simp [subChecked])
  rw [List.append_nil] at this
  exact this

/-- A written compound header is read back by a header reader `hd` that
dispatches `c8`/`c32` to the 8/32-bit layouts. -/
theorem compoundHdr_reads {env : Env} {c8 c32 : UInt8} {hd : UInt8 → Dec CompoundHeader} {n k : Nat}
    (h8 : hd c8 = decodeCompound8 env) (h32 : hd c32 = decodeCompound32 env)
    (hn : n + 4 < 2 ^ 32) (hk : k ≤ n) :
    ∃ c w, compoundHdr c8 c32 n k = c :: w ∧ (c = c8 ∨ c = c32) ∧ Reads (hd c) w ⟨n, k⟩ := by
  unfold compoundHdr
  split
  · exact ⟨_, _, rfl, Or.inr rfl, h32 ▸ reads_compound32 env hn (by omega)⟩
  · exact ⟨_, _, rfl, Or.inl rfl, h8 ▸ reads_compound8 env (by omega) (by omega)⟩

/-! ### Maps -/

theorem insertEntry_fresh {K V : Type} (eq : K → K → Bool) (k : K) (v : V) (l : List (K × V))
    (h : ∀ e ∈ l, eq k e.1 = false) : insertEntry eq k v l = l ++ [(k, v)] := by
  induction l with
  | nil => rfl
  | cons e t ih =>
    obtain ⟨k', v'⟩ := e
    have h1 : eq k k' = false := h (k', v') (by simp)
    simp [insertEntry, h1, ih (fun e he => h e (by simp [he]))]

theorem mapLoop_reads {K V : Type} [HKey K] {kd : Dec K} {vd : Dec V} {ke : K → Bytes}
    {ve : V → Bytes} : ∀ (l acc : List (K × V)),
    (∀ e ∈ l, Reads kd (ke e.1) e.1) → (∀ e ∈ l, Reads vd (ve e.2) e.2) →
    (∀ e ∈ l, HKey.hashOk e.1 = true) → NodupKeys (acc ++ l) →
    Reads (mapLoop kd vd l.length acc) (mapContent ke ve l) (acc ++ l)
  | [], acc, _, _, _, _ => by
    intro more; simp [mapLoop, mapContent]
  | (k, v) :: t, acc, hk, hv, hh, hn => by
    have hfresh : insertEntry HKey.keq k v acc = acc ++ [(k, v)] := by
      apply insertEntry_fresh
      intro e he
      exact (List.pairwise_append.1 hn).2.2 e he (k, v) (by simp)
    have ih := mapLoop_reads t (acc ++ [(k, v)]) (fun e he => hk e (by simp [he]))
      (fun e he => hv e (by simp [he])) (fun e he => hh e (by simp [he])) (by simpa using hn)
    rw [List.append_assoc] at ih
    have h1 : Reads (kd >>= fun k => vd >>= fun v => pure (k, v)) (ke k ++ ve v) (k, v) := by
      have := Reads.bind (hk (k, v) (by simp)) (f := fun k => vd >>= fun v => pure (k, v))
        (Reads.bind (hv (k, v) (by simp)) (f := fun v => pure (k, v)) (Reads.pure (k, v)))
      simpa using this
    have h2 : Reads ((fun e : K × V => if HKey.hashOk e.1 then
        mapLoop kd vd t.length (insertEntry HKey.keq e.1 e.2 acc)
        else Dec.abort .unimplemented) (k, v)) (mapContent ke ve t) (acc ++ (k, v) :: t) := by
      have h1 : HKey.hashOk k = true := hh (k, v) (by simp)
      simp only [h1, if_true, hfresh]
      exact ih
    intro more
    have := Reads.bind (f := fun e : K × V => if HKey.hashOk e.1 then
        mapLoop kd vd t.length (insertEntry HKey.keq e.1 e.2 acc)
        else Dec.abort .unimplemented) h1 h2 more
    simp only [bind_assoc, pure_bind] at this
    exact this

theorem mapContent_length {K V : Type} {ks : K → Nat} {vs : V → Nat} {ke : K → Bytes}
    {ve : V → Bytes} : ∀ (l : List (K × V)), (∀ e ∈ l, ks e.1 = (ke e.1).length) →
    (∀ e ∈ l, vs e.2 = (ve e.2).length) → mapContentSize ks vs l = (mapContent ke ve l).length
  | [], _, _ => rfl
  | (k, v) :: t, hk, hv => by
    have h1 := hk (k, v) (by simp)
    have h2 := hv (k, v) (by simp)
    have := mapContent_length t (fun e he => hk e (by simp [he])) (fun e he => hv e (by simp [he]))
    simp only at h1 h2
    simp [mapContentSize, mapContent, h1, h2, this]; omega

theorem mapContentSize_ge {K V : Type} {ks : K → Nat} {vs : V → Nat} :
    ∀ (l : List (K × V)), (∀ e ∈ l, 0 < ks e.1) → (∀ e ∈ l, 0 < vs e.2) →
    l.length * 2 ≤ mapContentSize ks vs l
  | [], _, _ => Nat.le_refl _
  | (k, v) :: t, hk, hv => by
    have h1 := hk (k, v) (by simp)
    have h2 := hv (k, v) (by simp)
    have := mapContentSize_ge t (fun e he => hk e (by simp [he])) (fun e he => hv e (by simp [he]))
    simp only at h1 h2
    simp [mapContentSize]; omega

/-- Everything needed to decode a written map back. -/
structure MapGood {K V : Type} [HKey K] (kd : Dec K) (vd : Dec V) (ks : K → Nat) (vs : V → Nat)
    (ke : K → Bytes) (ve : V → Bytes) (l : List (K × V)) : Prop where
  key : ∀ e ∈ l, Reads kd (ke e.1) e.1 ∧ ks e.1 = (ke e.1).length ∧ 0 < ks e.1 ∧
    HKey.hashOk e.1 = true
  val : ∀ e ∈ l, Reads vd (ve e.2) e.2 ∧ vs e.2 = (ve e.2).length ∧ 0 < vs e.2
  nodup : NodupKeys l
  small : mapContentSize ks vs l + 4 < 2 ^ 32

theorem MapGood.slice {K V : Type} [HKey K] {kd : Dec K} {vd : Dec V} {ks : K → Nat} {vs : V → Nat}
    {ke : K → Bytes} {ve : V → Bytes} {l : List (K × V)} (g : MapGood kd vd ks vs ke ve l) :
    Reads (withSlice (mapContentSize ks vs l) (mapLoop kd vd (l.length * 2 / 2) []))
      (mapContent ke ve l) l := by
  have h1 := mapContent_length l (fun e he => (g.key e he).2.1) (fun e he => (g.val e he).2.1)
  have h2 := mapLoop_reads l [] (fun e he => (g.key e he).1) (fun e he => (g.val e he).1)
    (fun e he => (g.key e he).2.2.2) (by simpa using g.nodup) []
  rw [List.append_nil, List.nil_append] at h2
  rw [Nat.mul_div_cancel _ (by omega)]
  exact Reads.withSlice h1.symm h2

theorem MapGood.count_le {K V : Type} [HKey K] {kd : Dec K} {vd : Dec V} {ks : K → Nat}
    {vs : V → Nat} {ke : K → Bytes} {ve : V → Bytes} {l : List (K × V)}
    (g : MapGood kd vd ks vs ke ve l) : l.length * 2 ≤ mapContentSize ks vs l :=
  mapContentSize_ge l (fun e he => (g.key e he).2.2.1) (fun e he => (g.val e he).2.2)

theorem MapGood.reads {K V : Type} [HKey K] {kd : Dec K} {vd : Dec V} {ks : K → Nat} {vs : V → Nat}
    {ke : K → Bytes} {ve : V → Bytes} {l : List (K × V)} (g : MapGood kd vd ks vs ke ve l)
    (env : Env) : ∃ c w, compoundHdr FC.map8 FC.map32 (mapContentSize ks vs l) (l.length * 2) ++
        mapContent ke ve l = c :: w ∧ (c = FC.map8 ∨ c = FC.map32) ∧
      Reads (decodeMapWith kd vd env c) w l := by
  obtain ⟨c, w, e, hc, hr⟩ := compoundHdr_reads (env := env) (c8 := FC.map8) (c32 := FC.map32)
    (hd := decodeMapHeader env) rfl rfl g.small g.count_le
  refine ⟨c, w ++ mapContent ke ve l, by rw [e]; rfl, hc, ?_⟩
  exact Reads.bind hr g.slice

/-! ### Arrays -/

theorem arrayContent_length {α : Type} [ArrayEncode α] [DecodeF α] [HasWf α] [LawfulArray α] :
    ∀ l : List α, arrayContentSize l = (arrayContent l).length
  | [] => rfl
  | a :: t => by simp [arrayContentSize, arrayContent, LawfulArray.asize_eq, arrayContent_length t]

theorem arrayContentSize_ge {α : Type} [ArrayEncode α] [DecodeF α] [HasWf α] [LawfulArray α] :
    ∀ l : List α, l.length ≤ arrayContentSize l
  | [] => Nat.le_refl _
  | a :: t => by
    have := LawfulArray.asize_pos a
    have := arrayContentSize_ge t
    simp [arrayContentSize]; omega

theorem arrayContent_eq {α : Type} [ArrayEncode α] (l : List α) :
    arrayContent l = l.flatMap aenc := by
  induction l with
  | nil => rfl
  | cons a t ih => simp [arrayContent, ih]

instance {α : Type} [ArrayEncode α] [DecodeF α] [HasWf α] [LawfulArray α] : LawfulEnc (Vec α) :=
  ⟨fun v => by
    simp only [size, enc, arrayContent_length]; split <;> simp <;> omega⟩

/-- Round-trippable arrays: items round-trip, sizes fit in 32 bits, and not the
254-byte case that panics in builds with overflow checks (C18). -/
instance {α : Type} [ArrayEncode α] [DecodeF α] : HasWf (Vec α) :=
  ⟨fun env v => (∀ a ∈ v.items, ItemRoundTrips env a) ∧ arrayContentSize v.items + 5 < 2 ^ 32 ∧
    (env.overflowChecks = true → arrayContentSize v.items ≠ 254)⟩

theorem reads_items {α : Type} [ArrayEncode α] [DecodeF α] (env : Env)
    (l : List α) (h : ∀ a ∈ l, ItemRoundTrips env a) :
    Reads (indexU8 >>= fun f => decodeN (decF env f) l.length >>= fun items => pure (Vec.mk items))
      (ArrayEncode.code α :: arrayContent l) (Vec.mk l) := by
  have h1 := Reads.decodeN (d := decF env (ArrayEncode.code α)) aenc l
    h
  rw [← arrayContent_eq] at h1
  have := Reads.bind (Reads.indexU8 (ArrayEncode.code α))
    (f := fun f => decodeN (decF env f) l.length >>= fun items => pure (Vec.mk items))
    (Reads.bind h1 (f := fun items => pure (Vec.mk items)) (Reads.pure _))
  simpa using this

theorem reads_vec {α : Type} [ArrayEncode α] [DecodeF α] [HasWf α] [LawfulArray α] (env : Env)
    (v : Vec α) (h : wf env v) :
    ∃ c w, enc v = c :: w ∧ (c = FC.array8 ∨ c = FC.array32) ∧ Reads (decF env c) w v := by
  obtain ⟨hi, hs, h254⟩ := h
  have hc := arrayContentSize_ge v.items
  have hitems := reads_items env v.items hi
  simp only [enc]
  split
  · refine ⟨_, _, rfl, Or.inr rfl, ?_⟩
    have := Reads.bind (reads_compound32 env (n := arrayContentSize v.items + 1)
      (k := v.items.length) (by omega) (by omega)) (f := fun header => indexU8 >>= fun f =>
      decodeN (decF env f) header.count >>= fun items => pure (Vec.mk items)) hitems
    exact this
  · refine ⟨_, _, rfl, Or.inl rfl, ?_⟩
    by_cases hb : arrayContentSize v.items = 254
    · -- size byte wraps to 0; without overflow checks `0 - 1` wraps to 255
      have hov : env.overflowChecks = false := by
        cases ho : env.overflowChecks with
        | true => exact absurd hb (h254 ho)
        | false => rfl
      have hcnt : (UInt8.ofNat v.items.length).toNat = v.items.length := by
        simp [UInt8.toNat_ofNat']; omega
      have hcomp : Reads (decodeCompound8 env)
          [UInt8.ofNat (arrayContentSize v.items + 2), UInt8.ofNat v.items.length]
          ⟨255, v.items.length⟩ := by
        have := Reads.bind (Reads.takeN [UInt8.ofNat (arrayContentSize v.items + 2),
            UInt8.ofNat v.items.length] (n := 2) rfl)
          (f := fun hdr => subChecked env 8 (hdr.getD 0 0).toNat 1 >>= fun size =>
            pure (⟨size, (hdr.getD 1 0).toNat⟩ : CompoundHeader)) (w2 := [])
          (b := ⟨255, v.items.length⟩) (by
            intro more
            simp [subChecked, hb, hov, hcnt])
        rw [List.append_nil] at this
        exact this
      exact Reads.bind hcomp (f := fun header => indexU8 >>= fun f =>
        decodeN (decF env f) header.count >>= fun items => pure (Vec.mk items)) hitems
    · exact Reads.bind (reads_compound8 env (n := arrayContentSize v.items + 1)
        (k := v.items.length) (by omega) (by omega)) (f := fun header => indexU8 >>= fun f =>
        decodeN (decF env f) header.count >>= fun items => pure (Vec.mk items)) hitems

instance {α : Type} [ArrayEncode α] [DecodeF α] [HasWf α] [LawfulArray α] : LawfulCodec (Vec α) :=
  ⟨fun env v h => by
    obtain ⟨c, w, e, _, hr⟩ := reads_vec env v h
    rw [e]; exact reads_decode hr⟩

instance {α : Type} [ArrayEncode α] : NonNull (Vec α) := ⟨fun v => by
  simp only [enc]; split <;> exact ⟨_, _, rfl, by decide⟩⟩

theorem Local.vecItems {α : Type} [DecodeF α] [LawfulDec α] (env : Env) (n : Nat) :
    Local (indexU8 >>= fun f => decodeN (decF (α := α) env f) n >>= fun items =>
      pure (Vec.mk items)) :=
  Local.indexU8.bind fun f => (Local.decodeN (LawfulDec.loc env f) n).bind fun _ => Local.pure _

instance {α : Type} [DecodeF α] [LawfulDec α] : LawfulDec (Vec α) := ⟨fun env fmt =>
  (Local.decodeArrayHeader env fmt).bind fun h => Local.vecItems env h.count⟩

/-! ### Multiple -/

instance {α : Type} [Encode α] [ArrayEncode α] [DecodeF α] [HasWf α] [LawfulArray α]
    [LawfulEnc α] : LawfulEnc (Multiple α) := ⟨fun m => by
  obtain ⟨items⟩ := m
  simp only [size, enc]
  split
  · exact LawfulEnc.size_eq _
  · exact LawfulEnc.size_eq (Vec.mk items)⟩

/-- Single items are written bare, so they must not start with an array code. -/
class NonArray (α : Type) [Encode α] : Prop where
  head : ∀ v : α, ∃ c w, enc v = c :: w ∧ c ≠ FC.array8 ∧ c ≠ FC.array32

theorem varEnc_nonArray (c8 c32 : UInt8) (b : Bytes)
    (h : (c8 ≠ FC.array8 ∧ c8 ≠ FC.array32) ∧ (c32 ≠ FC.array8 ∧ c32 ≠ FC.array32)) :
    ∃ c w, varEnc c8 c32 b = c :: w ∧ c ≠ FC.array8 ∧ c ≠ FC.array32 := by
  unfold varEnc; split
  · exact ⟨_, _, rfl, h.2⟩
  · exact ⟨_, _, rfl, h.1⟩

instance : NonArray Symbol := ⟨fun _ => varEnc_nonArray _ _ _ (by decide)⟩
instance : NonArray RStr := ⟨fun _ => varEnc_nonArray _ _ _ (by decide)⟩
instance : NonArray Binary := ⟨fun _ => varEnc_nonArray _ _ _ (by decide)⟩
instance : NonArray Bool := ⟨fun v => by cases v <;> exact ⟨_, _, rfl, by decide⟩⟩
instance : NonArray UInt8 := ⟨fun v => ⟨_, _, rfl, by decide⟩⟩
instance : NonArray UInt16 := ⟨fun v => ⟨_, _, rfl, by decide⟩⟩
instance : NonArray UInt32 := ⟨fun v => by
  simp only [enc]; split
  · exact ⟨_, _, rfl, by decide⟩
  · split <;> exact ⟨_, _, rfl, by decide⟩⟩
instance : NonArray UInt64 := ⟨fun v => by
  simp only [enc]; split
  · exact ⟨_, _, rfl, by decide⟩
  · split <;> exact ⟨_, _, rfl, by decide⟩⟩
instance : NonArray Int8 := ⟨fun v => ⟨_, _, rfl, by decide⟩⟩
instance : NonArray Int16 := ⟨fun v => ⟨_, _, rfl, by decide⟩⟩
instance : NonArray Int32 := ⟨fun v => by
  simp only [enc]; split <;> exact ⟨_, _, rfl, by decide⟩⟩
instance : NonArray Int64 := ⟨fun v => by
  simp only [enc]; split <;> exact ⟨_, _, rfl, by decide⟩⟩
instance : NonArray F32 := ⟨fun v => ⟨_, _, rfl, by decide⟩⟩
instance : NonArray F64 := ⟨fun v => ⟨_, _, rfl, by decide⟩⟩
instance : NonArray Char := ⟨fun v => ⟨_, _, rfl, by decide⟩⟩
instance : NonArray DateTime := ⟨fun v => ⟨_, _, rfl, by decide⟩⟩
instance : NonArray Uuid := ⟨fun v => ⟨_, _, rfl, by decide⟩⟩

/-- Round-trippable multiples: a single round-trippable item, or a
round-trippable array. -/
instance {α : Type} [Encode α] [ArrayEncode α] [DecodeF α] : HasWf (Multiple α) :=
  ⟨fun env m => (m.items.length = 1 → ∀ a ∈ m.items, RoundTrips env a) ∧
    (m.items.length ≠ 1 → (∀ a ∈ m.items, ItemRoundTrips env a) ∧ arrayContentSize m.items + 5 < 2 ^ 32 ∧
      (env.overflowChecks = true → arrayContentSize m.items ≠ 254))⟩

instance {α : Type} [Encode α] [ArrayEncode α] [DecodeF α] [HasWf α] [LawfulArray α]
    [NonArray α] : LawfulCodec (Multiple α) := ⟨fun env m h => by
  obtain ⟨items⟩ := m
  obtain ⟨hi, hs⟩ := h
  simp only [enc]
  split
  · rename_i x
    obtain ⟨c, w, e, h8, h32⟩ := NonArray.head x
    have h1 : Reads _ _ _ := hi rfl x (by simp)
    rw [e] at h1 ⊢
    refine reads_decode ?_
    have e2 : decF (α := Multiple α) env c = (fun x => ⟨[x]⟩) <$> decF env c :=
      if_neg (by simp [h8, h32])
    rw [e2]
    exact Reads.map (d := decF env c) (fun x => Multiple.mk [x]) (fun more => h1 more)
  · rename_i hne
    have hl : items.length ≠ 1 := by
      intro hl
      obtain ⟨x, rfl⟩ := List.length_eq_one_iff.1 hl
      exact hne x rfl
    obtain ⟨c, w, e, hc, hr⟩ := reads_vec env (Vec.mk items) (hs hl)
    have e' := e
    simp only [enc] at e'
    rw [e']
    refine reads_decode ?_
    have e2 : decF (α := Multiple α) env c = (fun v : Vec α => ⟨v.items⟩) <$> decF env c :=
      if_pos hc
    rw [e2]
    exact Reads.map (fun v : Vec α => Multiple.mk v.items) hr⟩

instance {α : Type} [DecodeF α] [LawfulDec α] : LawfulDec (Multiple α) := ⟨fun env fmt =>
  Local.ite ((LawfulDec.loc env fmt).map _) ((LawfulDec.loc env fmt).map _)⟩

instance {α : Type} [Encode α] [ArrayEncode α] [NonNull α] : NonNull (Multiple α) := ⟨fun m => by
  obtain ⟨items⟩ := m
  simp only [enc]
  split
  · exact NonNull.head _
  · exact NonNull.head (Vec.mk items)⟩

/-! ### Typed maps -/

theorem enc_pos {α : Type} [Encode α] [LawfulEnc α] [NonNull α] (v : α) : 0 < size v := by
  obtain ⟨c, w, e, _⟩ := NonNull.head v
  rw [LawfulEnc.size_eq, e]; simp

class NonEmptyEnc (α : Type) [Encode α] : Prop where
  ne : ∀ v : α, enc v ≠ []
instance (priority := low) {α : Type} [Encode α] [NonNull α] : NonEmptyEnc α := ⟨fun v => by
  obtain ⟨c, w, e, _⟩ := NonNull.head v
  rw [e]; simp⟩
instance {α : Type} [Encode α] [NonEmptyEnc α] : NonEmptyEnc (Option α) := ⟨fun o => by
  cases o with
  | none => simp [enc, encNull]
  | some v => exact NonEmptyEnc.ne v⟩

theorem size_pos {α : Type} [Encode α] [LawfulEnc α] [NonEmptyEnc α] (v : α) : 0 < size v := by
  rw [LawfulEnc.size_eq]; exact List.length_pos_iff.2 (NonEmptyEnc.ne v)

/-- Round-trippable maps: distinct hashable keys, round-trippable keys and
values, size below `2^32`. -/
instance {K V : Type} [HKey K] [Encode K] [Encode V] [DecodeF K] [DecodeF V] :
    HasWf (HMap K V) :=
  ⟨fun env m => (∀ e ∈ m.entries, RoundTrips env e.1 ∧ HKey.hashOk e.1 = true ∧
      RoundTrips env e.2) ∧
    NodupKeys m.entries ∧ mapContentSize size size m.entries + 4 < 2 ^ 32⟩

section
variable {K V : Type} [HKey K] [Encode K] [Encode V] [DecodeF K] [DecodeF V] [LawfulEnc K] [LawfulEnc V] [NonEmptyEnc K] [NonEmptyEnc V]

theorem hmap_good (env : Env) (m : HMap K V) (h : wf env m) :
    MapGood (decode K env) (decode V env) size size enc enc m.entries :=
  { key := fun e he => ⟨(h.1 e he).1, LawfulEnc.size_eq _, size_pos _,
      (h.1 e he).2.1⟩
    val := fun e he => ⟨(h.1 e he).2.2, LawfulEnc.size_eq _, size_pos _⟩
    nodup := h.2.1
    small := h.2.2 }

instance : LawfulCodec (HMap K V) := ⟨fun env m h => by
  obtain ⟨c, w, e, _, hr⟩ := (hmap_good env m h).reads env
  have e' : enc m = c :: w := e
  rw [e']
  exact reads_decode (hr.map HMap.mk)⟩

instance : LawfulArray (HMap K V) := ⟨fun m => by
    have := mapContent_length (ks := size) (vs := size) (ke := enc) (ve := enc) m.entries
      (fun e _ => LawfulEnc.size_eq _) (fun e _ => LawfulEnc.size_eq _)
    simp only [asize, aenc]; simp [this]; omega,
  fun m => by simp only [asize]; omega,
  fun env m h => by
    have g := hmap_good env m h
    have hc := g.count_le
    have hs := g.small
    have := Reads.bind (reads_compound32 env (n := mapContentSize size size m.entries)
      (k := m.entries.length * 2) (by omega) (by omega))
      (f := fun header => withSlice header.size
        (mapLoop (decode K env) (decode V env) (header.count / 2) [])) g.slice
    exact this.map HMap.mk⟩
end

instance {K V : Type} [Encode K] [Encode V] [LawfulEnc K] [LawfulEnc V] : LawfulEnc (HMap K V) :=
  ⟨fun m => by
    have := mapContent_length (ks := size) (vs := size) (ke := enc) (ve := enc) m.entries
      (fun e _ => LawfulEnc.size_eq _) (fun e _ => LawfulEnc.size_eq _)
    have h2 := compoundHdr_length FC.map8 FC.map32 (mapContentSize size size m.entries)
      (m.entries.length * 2)
    show compoundSize (mapContentSize size size m.entries) = (_ ++ _ : Bytes).length
    rw [← h2, List.length_append, ← this]⟩

instance {K V : Type} [HKey K] [DecodeF K] [DecodeF V] : LawfulDec (HMap K V) := ⟨fun env fmt =>
  (Local.decodeMapWith _ _ env fmt).map _⟩

theorem compoundHdr_head (c8 c32 : UInt8) (n k : Nat) (w : Bytes) :
    ∃ c t, compoundHdr c8 c32 n k ++ w = c :: t ∧ (c = c8 ∨ c = c32) := by
  unfold compoundHdr; split
  · exact ⟨_, _, rfl, Or.inr rfl⟩
  · exact ⟨_, _, rfl, Or.inl rfl⟩

instance {K V : Type} [Encode K] [Encode V] : NonNull (HMap K V) := ⟨fun m => by
  obtain ⟨c, t, e, hc⟩ := compoundHdr_head FC.map8 FC.map32 (mapContentSize size size m.entries)
    (m.entries.length * 2) (mapContent enc enc m.entries)
  exact ⟨c, t, e, by rcases hc with rfl | rfl <;> decide⟩⟩

end Amqp
