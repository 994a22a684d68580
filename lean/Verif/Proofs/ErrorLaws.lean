import Verif.Spec.Errors
import Verif.Proofs.TextErrors
import Verif.Proofs.PanicLists
/-!
# What errors say, and that they are final

`Tells` is a triple: on a piece of `j`, the decoder leaves a piece of `j`, its value
satisfies `Q`, and its errors are explained by `j`.
-/
set_option autoImplicit false
namespace Amqp
open Dec

abbrev OptionTable := List (String × Options)
abbrev FieldTable := List (String × Nat)

theorem Explains.mono {F F' : FieldTable} {O O' : OptionTable} {j : Bytes} {e : ParseError}
    (hF : F ⊆ F') (hO : O ⊆ O') (h : Explains F O j e) : Explains F' O' j e := by
  cases e with
  | requiredFieldOmitted n => obtain ⟨k, m, h1, h2⟩ := h; exact ⟨k, m, hF h1, h2⟩
  | unknownEnumOption n => obtain ⟨o, h1, h2⟩ := h; exact ⟨o, hO h1, h2⟩
  | _ => exact h

def Tells {α : Type} (F : FieldTable) (O : OptionTable) (j : Bytes) (Q : α → Prop) (d : Dec α) :
    Prop :=
  ∀ i, i <:+: j → match d i with
    | .ok (r, a) => r <:+: j ∧ Q a
    | .err e => Explains F O j e
    | .panic _ => True

namespace Tells
variable {α β : Type} {F F' : FieldTable} {O O' : OptionTable} {j : Bytes} {Q : α → Prop}
  {R : β → Prop}

theorem pure {a : α} (h : Q a) : Tells F O j Q (Pure.pure a : Dec α) := fun _ hi => ⟨hi, h⟩
theorem fail {e : ParseError} (h : Explains F O j e) : Tells F O j Q (Dec.fail e : Dec α) :=
  fun _ _ => h
theorem abort {p : Panic} : Tells F O j Q (Dec.abort p : Dec α) := fun _ _ => trivial

theorem bind {d : Dec α} {f : α → Dec β} (hd : Tells F O j Q d)
    (hf : ∀ a, Q a → Tells F O j R (f a)) : Tells F O j R (d >>= f) := by
  intro i hi
  have h1 := hd i hi
  rw [run_bind]
  cases h : d i with
  | ok p =>
    obtain ⟨r, a⟩ := p
    rw [h] at h1
    exact hf a h1.2 r h1.1
  | err e => rw [h] at h1; exact h1
  | panic p => exact trivial

theorem map {d : Dec α} {f : α → β} (hd : Tells F O j Q d) (hf : ∀ a, Q a → R (f a)) :
    Tells F O j R (f <$> d) := by
  rw [map_eq_pure_bind]; exact hd.bind fun a h => Tells.pure (hf a h)

theorem ite {c : Prop} [Decidable c] {x y : Dec α} (hx : Tells F O j Q x) (hy : Tells F O j Q y) :
    Tells F O j Q (if c then x else y) := by split <;> assumption

theorem mono {d : Dec α} {Q' : α → Prop} (h : Tells F O j Q d) (hF : F ⊆ F') (hO : O ⊆ O')
    (hQ : ∀ a, Q a → Q' a) : Tells F' O' j Q' d := by
  intro i hi
  have h1 := h i hi
  cases hd : d i with
  | ok p => rw [hd] at h1; exact ⟨h1.1, hQ _ h1.2⟩
  | err e => rw [hd] at h1; exact Explains.mono hF hO h1
  | panic p => exact trivial

theorem any {d : Dec α} (h : Tells F O j Q d) : Tells F O j (fun _ => True) d :=
  h.mono (fun _ h => h) (fun _ h => h) fun _ _ => trivial

/-- A fact about results may be established separately. -/
theorem also {d : Dec α} (h : Tells F O j (fun _ => True) d)
    (hq : ∀ i r a, i <:+: j → d i = .ok (r, a) → Q a) : Tells F O j Q d := by
  intro i hi
  have h1 := h i hi
  cases hd : d i with
  | ok p => rw [hd] at h1; exact ⟨h1.1, hq _ _ _ hi hd⟩
  | err e => rw [hd] at h1; exact h1
  | panic p => exact trivial

end Tells

section
variable {α β : Type} {F : FieldTable} {O : OptionTable} {j : Bytes}

theorem infix_of_append {a b j : Bytes} (h : a ++ b <:+: j) : a <:+: j ∧ b <:+: j :=
  ⟨(List.prefix_append a b).isInfix.trans h, (List.suffix_append a b).isInfix.trans h⟩

theorem mem_of_cons {b : UInt8} {t j : Bytes} (h : b :: t <:+: j) : b ∈ j ∧ t <:+: j :=
  ⟨h.subset (List.mem_cons_self ..), (List.suffix_cons b t).isInfix.trans h⟩

theorem tells_takeN {n : Nat} (hn : n < 2 ^ 32) :
    Tells F O j (fun b => b <:+: j ∧ b.length = n) (takeN n) := by
  intro i hi
  unfold takeN
  by_cases h : i.length < n
  · rw [if_pos h]; exact ⟨by omega, hn⟩
  · rw [if_neg h]
    exact ⟨(List.drop_suffix n i).isInfix.trans hi, (List.take_prefix n i).isInfix.trans hi,
      by simp; omega⟩

theorem tells_readU8 : Tells F O j (fun b => b ∈ j) readU8 := by
  intro i hi
  cases i with
  | nil => exact ⟨by decide, by decide⟩
  | cons b t => exact ⟨(mem_of_cons hi).2, (mem_of_cons hi).1⟩

theorem tells_formatCode : Tells F O j (fun b => b ∈ j) formatCode := tells_readU8

theorem tells_indexU8 : Tells F O j (fun b => b ∈ j) indexU8 := by
  intro i hi
  cases i with
  | nil => exact trivial
  | cons b t => exact ⟨(mem_of_cons hi).2, (mem_of_cons hi).1⟩

theorem tells_readBE {k : Nat} (hk : k < 2 ^ 32) :
    Tells F O j (fun n => n < 256 ^ k ∧ beEnc k n <:+: j) (readBE k) :=
  (tells_takeN hk).map fun b h => ⟨h.2 ▸ beDec_lt b, by rw [← h.2, beEnc_beDec]; exact h.1⟩

theorem tells_readBytesU8 : Tells F O j (fun b => Prefixed b j) readBytesU8 :=
  (tells_readU8.bind fun b _ =>
    (tells_takeN (by have := b.toNat_lt; omega)).any).also fun i r a hi h => by
      obtain ⟨h1, rfl⟩ := readBytesU8_ok h
      rw [← List.cons_append] at hi
      exact .inl ⟨h1, (infix_of_append hi).1⟩

theorem tells_readBytesU32 : Tells F O j (fun b => Prefixed b j) readBytesU32 :=
  ((tells_readBE (by decide)).bind fun n h => (tells_takeN (by have := h.1; omega)).any).also
    fun i r a hi h => by
      obtain ⟨h1, rfl⟩ := readBytesU32_ok h
      rw [← List.append_assoc] at hi
      exact .inr ⟨h1, (infix_of_append hi).1⟩

theorem tells_fromUtf8 {b : Bytes} (h : Prefixed b j) :
    Tells F O j (fun s => Prefixed s.bytes j) (fromUtf8 b) := by
  unfold fromUtf8
  split
  · exact Tells.pure h
  · rename_i hv
    exact Tells.fail ⟨b, (utf8Error_iff hv _).1 rfl, h⟩

theorem tells_validateCode {Q : α → Prop} {fmt code : UInt8} (hf : fmt ∈ j) {d : Dec α}
    (hd : Tells F O j Q d) : Tells F O j Q (validateCode fmt code d) :=
  Tells.ite (Tells.fail hf) hd

theorem tells_decodeN {Q : α → Prop} {d : Dec α} (hd : Tells F O j Q d) :
    ∀ n, Tells F O j (fun _ => True) (decodeN d n)
  | 0 => Tells.pure trivial
  | n + 1 => hd.bind fun _ _ => (tells_decodeN hd n).bind fun _ _ => Tells.pure trivial

theorem tells_withSlice {Q : α → Prop} {d : Dec α} (hd : Tells F O j Q d) (n : Nat) :
    Tells F O j Q (withSlice n d) := by
  intro i hi
  unfold withSlice
  by_cases hl : i.length < n
  · rw [if_pos hl]; exact trivial
  · rw [if_neg hl]
    have h1 := hd (i.take n) ((List.take_prefix n i).isInfix.trans hi)
    cases h : d (i.take n) with
    | ok p =>
      rw [h] at h1
      exact ⟨(List.drop_suffix n i).isInfix.trans hi, h1.2⟩
    | err e => rw [h] at h1; exact h1
    | panic p => exact trivial

theorem tells_mapLoop {K V : Type} [HKey K] {kd : Dec K} {vd : Dec V}
    (hk : Tells F O j (fun _ => True) kd) (hv : Tells F O j (fun _ => True) vd) :
    ∀ n acc, Tells F O j (fun _ => True) (mapLoop kd vd n acc)
  | 0, _ => Tells.pure trivial
  | n + 1, _ => hk.bind fun _ _ => hv.bind fun _ _ =>
    Tells.ite (tells_mapLoop hk hv n _) Tells.abort

theorem tells_subChecked {env : Env} {bits a b : Nat} (ha : a < 2 ^ bits) :
    Tells F O j (fun n => n < 2 ^ bits) (subChecked env bits a b) := by
  unfold subChecked
  split
  · exact Tells.pure (by omega)
  · exact Tells.ite Tells.abort (Tells.pure (by omega))

theorem tells_compound8 {env : Env} : Tells F O j (fun h => h.size < 2 ^ 32) (decodeCompound8 env) :=
  (tells_takeN (by decide)).bind fun hdr _ =>
    (tells_subChecked (bits := 8) (UInt8.toNat_lt _)).bind fun n hn => Tells.pure (by
      show n < _
      omega)

theorem tells_compound32 {env : Env} :
    Tells F O j (fun h => h.size < 2 ^ 32) (decodeCompound32 env) :=
  (tells_takeN (by decide)).bind fun hdr hl =>
    (tells_subChecked (bits := 32) (by
      have := beDec_lt (hdr.take 4)
      rw [List.length_take, hl.2] at this
      exact this)).bind fun n hn => Tells.pure hn

theorem tells_arrayHeader {env : Env} {fmt : UInt8} (hf : fmt ∈ j) :
    Tells F O j (fun h => h.size < 2 ^ 32) (decodeArrayHeader env fmt) :=
  Tells.ite tells_compound8 (Tells.ite tells_compound32 (Tells.fail hf))
theorem tells_listHeader {env : Env} {fmt : UInt8} (hf : fmt ∈ j) :
    Tells F O j (fun h => h.size < 2 ^ 32) (decodeListHeader env fmt) :=
  Tells.ite (Tells.pure (by decide))
    (Tells.ite tells_compound8 (Tells.ite tells_compound32 (Tells.fail hf)))
theorem tells_mapHeader {env : Env} {fmt : UInt8} (hf : fmt ∈ j) :
    Tells F O j (fun h => h.size < 2 ^ 32) (decodeMapHeader env fmt) :=
  Tells.ite tells_compound8 (Tells.ite tells_compound32 (Tells.fail hf))

theorem tells_mapWith {K V : Type} [HKey K] {kd : Dec K} {vd : Dec V}
    (hk : Tells F O j (fun _ => True) kd) (hv : Tells F O j (fun _ => True) vd) {env : Env}
    {fmt : UInt8} (hf : fmt ∈ j) : Tells F O j (fun _ => True) (decodeMapWith kd vd env fmt) :=
  (tells_mapHeader hf).bind fun _ _ => tells_withSlice (tells_mapLoop hk hv _ _) _

theorem tells_listWith {vd : Dec Variant} (hv : Tells F O j (fun _ => True) vd) {env : Env}
    {fmt : UInt8} (hf : fmt ∈ j) : Tells F O j (fun _ => True) (decodeListWith vd env fmt) :=
  (tells_listHeader hf).bind fun _ _ => tells_decodeN hv _
end

/-! ## Types -/

class TellsDec (α : Type) [DecodeF α] [Faulty α] : Prop where
  tells : ∀ env fmt j, fmt ∈ j →
    Tells (Faulty.fields α) (Faulty.options α) j (fun _ => True) (decF (α := α) env fmt)

theorem tells_decode {α : Type} [DecodeF α] [Faulty α] [TellsDec α] (env : Env) (j : Bytes) :
    Tells (Faulty.fields α) (Faulty.options α) j (fun _ => True) (decode α env) :=
  tells_formatCode.bind fun fmt h => TellsDec.tells env fmt j h

theorem explains_decode {α : Type} [DecodeF α] [Faulty α] [TellsDec α] {env : Env} {i : Bytes}
    {e : ParseError} (h : decode α env i = .err e) :
    Explains (Faulty.fields α) (Faulty.options α) i e := by
  have := tells_decode (α := α) env i i List.infix_rfl
  rw [h] at this
  exact this

instance : TellsDec Bool := ⟨fun _ _ _ hf =>
  Tells.ite (tells_readU8.map fun _ _ => trivial)
    (Tells.ite (Tells.pure trivial) (Tells.ite (Tells.pure trivial) (Tells.fail hf)))⟩
instance : TellsDec UInt8 := ⟨fun _ _ _ hf => tells_validateCode hf tells_readU8.any⟩
instance : TellsDec UInt16 := ⟨fun _ _ _ hf =>
  tells_validateCode hf ((tells_readBE (by decide)).map fun _ _ => trivial)⟩
/-- What is known of the value when an enumeration of `uint` looks at it. -/
def UintIn (j : Bytes) (x : UInt32) : Prop :=
  x = 0 ∨ (∃ b ∈ j, b.toUInt32 = x) ∨ beEnc 4 x.toNat <:+: j
theorem tells_u32 {F : FieldTable} {O : OptionTable} (env : Env) (fmt : UInt8) (j : Bytes)
    (hf : fmt ∈ j) : Tells F O j (UintIn j) (decF (α := UInt32) env fmt) :=
  Tells.ite ((tells_readBE (by decide)).map fun n h => .inr (.inr (by
      have e : (UInt32.ofNat n).toNat = n := by
        rw [UInt32.toNat_ofNat']; exact Nat.mod_eq_of_lt h.1
      rw [e]; exact h.2)))
    (Tells.ite (tells_readU8.map fun b h => .inr (.inl ⟨b, h, rfl⟩))
      (Tells.ite (Tells.pure (.inl rfl)) (Tells.fail hf)))
instance : TellsDec UInt32 := ⟨fun env fmt j hf => (tells_u32 env fmt j hf).any⟩
instance : TellsDec UInt64 := ⟨fun _ _ _ hf =>
  Tells.ite ((tells_readBE (by decide)).map fun _ _ => trivial)
    (Tells.ite (tells_readU8.map fun _ _ => trivial)
      (Tells.ite (Tells.pure trivial) (Tells.fail hf)))⟩
instance : TellsDec Int8 := ⟨fun _ _ _ hf =>
  tells_validateCode hf (tells_readU8.map fun _ _ => trivial)⟩
instance : TellsDec Int16 := ⟨fun _ _ _ hf =>
  tells_validateCode hf ((tells_readBE (by decide)).map fun _ _ => trivial)⟩
instance : TellsDec Int32 := ⟨fun _ _ _ hf =>
  Tells.ite ((tells_readBE (by decide)).map fun _ _ => trivial)
    (Tells.ite ((tells_readU8.map (R := fun _ => True) fun _ _ => trivial).map fun _ _ => trivial)
      (Tells.fail hf))⟩
instance : TellsDec Int64 := ⟨fun _ _ _ hf =>
  Tells.ite ((tells_readBE (by decide)).map fun _ _ => trivial)
    (Tells.ite ((tells_readU8.map (R := fun _ => True) fun _ _ => trivial).map fun _ _ => trivial)
      (Tells.fail hf))⟩
instance : TellsDec F32 := ⟨fun _ _ _ hf =>
  tells_validateCode hf ((tells_readBE (by decide)).map fun _ _ => trivial)⟩
instance : TellsDec F64 := ⟨fun _ _ _ hf =>
  tells_validateCode hf ((tells_readBE (by decide)).map fun _ _ => trivial)⟩
theorem charFromU32_none {n : Nat} (h : charFromU32 n = none) : ¬ n.isValidChar := by
  unfold charFromU32 at h
  split at h
  · cases h
  · assumption
instance : TellsDec Char := ⟨fun _ _ _ hf =>
  tells_validateCode hf ((tells_readBE (by decide)).bind fun n h => by
    split
    · exact Tells.pure trivial
    · rename_i hn
      have e : (UInt32.ofNat n).toNat = n := by
        rw [UInt32.toNat_ofNat']; exact Nat.mod_eq_of_lt h.1
      refine Tells.fail ⟨?_, ?_⟩
      · rw [e]; exact charFromU32_none hn
      · rw [e]; exact h.2)⟩
theorem tells_utc {F : FieldTable} {O : OptionTable} {j : Bytes} (s : Int) (n : Nat) :
    Tells F O j (fun _ => True) (utcTimestamp s n) := by
  unfold utcTimestamp
  split
  · exact Tells.pure trivial
  · exact Tells.abort
instance : TellsDec DateTime := ⟨fun _ _ _ hf =>
  tells_validateCode hf ((tells_readBE (by decide)).bind fun n h =>
    Tells.ite (tells_utc _ _) (tells_utc _ _))⟩
instance : TellsDec Uuid := ⟨fun _ _ _ hf =>
  tells_validateCode hf ((tells_takeN (by decide)).bind fun b h => by
    unfold uuidOf
    split
    · exact Tells.pure trivial
    · exact Tells.abort)⟩
instance : TellsDec Binary := ⟨fun _ _ _ hf =>
  Tells.ite (tells_readBytesU8.map fun _ _ => trivial)
    (Tells.ite (tells_readBytesU32.map fun _ _ => trivial) (Tells.fail hf))⟩
instance : TellsDec RStr := ⟨fun _ _ _ hf =>
  Tells.ite (tells_readBytesU8.bind fun _ h => (tells_fromUtf8 h).any)
    (Tells.ite (tells_readBytesU32.bind fun _ h => (tells_fromUtf8 h).any) (Tells.fail hf))⟩
theorem tells_symbol {F : FieldTable} {O : OptionTable} (env : Env) (fmt : UInt8) (j : Bytes)
    (hf : fmt ∈ j) : Tells F O j (fun s => Prefixed s.str.bytes j) (decF (α := Symbol) env fmt) :=
  Tells.ite ((tells_readBytesU8.bind fun _ h => tells_fromUtf8 h).map fun _ h => h)
    (Tells.ite ((tells_readBytesU32.bind fun _ h => tells_fromUtf8 h).map fun _ h => h)
      (Tells.fail hf))
instance : TellsDec Symbol := ⟨fun env fmt j hf => (tells_symbol env fmt j hf).any⟩
instance {α : Type} [DecodeF α] [Faulty α] [TellsDec α] : TellsDec (Option α) :=
  ⟨fun env fmt j hf => Tells.ite (Tells.pure trivial)
    ((TellsDec.tells (α := α) env fmt j hf).map fun _ _ => trivial)⟩
instance : TellsDec Descriptor := ⟨fun env fmt j hf =>
  have u := (TellsDec.tells (α := UInt64) env fmt j hf).map (f := Descriptor.ulong)
    (R := fun _ => True) fun _ _ => trivial
  have s := (TellsDec.tells (α := Symbol) env fmt j hf).map (f := Descriptor.symbol)
    (R := fun _ => True) fun _ _ => trivial
  Tells.ite u (Tells.ite u (Tells.ite s (Tells.ite s (Tells.fail hf))))⟩
instance {K V : Type} [HKey K] [DecodeF K] [DecodeF V] [Faulty K] [Faulty V] [TellsDec K]
    [TellsDec V] : TellsDec (HMap K V) := ⟨fun env _ j hf =>
  (tells_mapWith
    ((tells_decode (α := K) env j).mono (fun _ h => List.mem_append_left _ h)
      (fun _ h => List.mem_append_left _ h) fun _ h => h)
    ((tells_decode (α := V) env j).mono (fun _ h => List.mem_append_right _ h)
      (fun _ h => List.mem_append_right _ h) fun _ h => h) hf).map fun _ _ => trivial⟩
instance {α : Type} [DecodeF α] [Faulty α] [TellsDec α] : TellsDec (Vec α) :=
  ⟨fun env _ j hf => (tells_arrayHeader hf).bind fun _ _ => tells_indexU8.bind fun c hc =>
    (tells_decodeN (TellsDec.tells (α := α) env c j hc) _).bind fun _ _ => Tells.pure trivial⟩
instance {α : Type} [DecodeF α] [Faulty α] [TellsDec α] : TellsDec (Multiple α) :=
  ⟨fun env fmt j hf => Tells.ite
    ((TellsDec.tells (α := Vec α) env fmt j hf).map fun _ _ => trivial)
    ((TellsDec.tells (α := α) env fmt j hf).map fun _ _ => trivial)⟩

theorem tells_variant (env : Env) (j : Bytes) : ∀ d fmt, fmt ∈ j →
    Tells [] [] j (fun _ => True) (decVariant env d fmt)
  | 0, _, _ => Tells.abort
  | d + 1, fmt, hf => by
    have hv : Tells [] [] j (fun _ => True) (formatCode >>= fun f => decVariant env d f) :=
      tells_formatCode.bind fun f hf => tells_variant env j d f hf
    unfold decVariant
    repeat' apply Tells.ite
    all_goals first
      | exact Tells.pure trivial
      | exact Tells.fail hf
      | exact (TellsDec.tells (α := Bool) env fmt j hf).map fun _ _ => trivial
      | exact (TellsDec.tells (α := UInt8) env fmt j hf).map fun _ _ => trivial
      | exact (TellsDec.tells (α := UInt16) env fmt j hf).map fun _ _ => trivial
      | exact (TellsDec.tells (α := UInt32) env fmt j hf).map fun _ _ => trivial
      | exact (TellsDec.tells (α := UInt64) env fmt j hf).map fun _ _ => trivial
      | exact (TellsDec.tells (α := Int8) env fmt j hf).map fun _ _ => trivial
      | exact (TellsDec.tells (α := Int16) env fmt j hf).map fun _ _ => trivial
      | exact (TellsDec.tells (α := Int32) env fmt j hf).map fun _ _ => trivial
      | exact (TellsDec.tells (α := Int64) env fmt j hf).map fun _ _ => trivial
      | exact (TellsDec.tells (α := F32) env fmt j hf).map fun _ _ => trivial
      | exact (TellsDec.tells (α := F64) env fmt j hf).map fun _ _ => trivial
      | exact (TellsDec.tells (α := Char) env fmt j hf).map fun _ _ => trivial
      | exact (TellsDec.tells (α := DateTime) env fmt j hf).map fun _ _ => trivial
      | exact (TellsDec.tells (α := Uuid) env fmt j hf).map fun _ _ => trivial
      | exact (TellsDec.tells (α := Binary) env fmt j hf).map fun _ _ => trivial
      | exact (TellsDec.tells (α := RStr) env fmt j hf).map fun _ _ => trivial
      | exact (TellsDec.tells (α := Symbol) env fmt j hf).map fun _ _ => trivial
      | exact (tells_listWith hv hf).map fun _ _ => trivial
      | exact (tells_mapWith hv hv hf).map fun _ _ => trivial
      | exact (tells_decode (α := Descriptor) env j).bind fun _ _ =>
          hv.bind fun _ _ => Tells.pure trivial

instance : TellsDec Variant := ⟨fun env fmt j hf => tells_variant env j _ fmt hf⟩
instance : TellsDec VList := ⟨fun env _ j hf =>
  (tells_listWith (tells_decode (α := Variant) env j) hf).map fun _ _ => trivial⟩
instance : TellsDec VecVariantMap := ⟨fun env _ j hf =>
  (tells_mapHeader hf).bind fun _ _ => (tells_withSlice (tells_decodeN (Q := fun _ => True)
    ((tells_decode (α := Str) env j).bind fun _ _ =>
      (tells_decode (α := Variant) env j).bind fun _ _ => Tells.pure trivial) _) _).map
    fun _ _ => trivial⟩

/-! ## Protocol types -/

/-- A descriptor that was read occurs. -/
theorem tells_descriptor {F : FieldTable} {O : OptionTable} (env : Env) (j : Bytes) :
    Tells F O j (fun d => ∃ w, DescriptorForm d w ∧ w <:+: j) (decode Descriptor env) := by
  refine ((tells_decode (α := Descriptor) env j).mono (List.nil_subset _) (List.nil_subset _)
    fun _ h => h).also fun i r d hi h => ?_
  obtain ⟨c, i, rfl, h⟩ := decode_ok h
  have h' : (if c = FC.smallUlong then Descriptor.ulong <$> decF (α := UInt64) env c
    else if c = FC.ulong then Descriptor.ulong <$> decF (α := UInt64) env c
    else if c = FC.symbol8 then Descriptor.symbol <$> decF (α := Symbol) env c
    else if c = FC.symbol32 then Descriptor.symbol <$> decF (α := Symbol) env c
    else Dec.fail (.invalidFormatCode c) : Dec Descriptor) i = .ok (r, d) := h
  by_cases c1 : c = FC.smallUlong
  · subst c1
    rw [if_pos rfl] at h'
    obtain ⟨n, h1, rfl⟩ := map_eq_ok.1 h'
    have h2 : (UInt8.toUInt64 <$> readU8) i = .ok (r, n) := h1
    obtain ⟨b, h3, rfl⟩ := map_eq_ok.1 h2
    have := readU8_ok h3
    subst this
    refine ⟨[0x53, b], .inl ⟨?_, ?_⟩, (infix_of_append (a := [0x53, b]) hi).1⟩
    · have := b.toNat_lt; simpa using this
    · simp
  rw [if_neg c1] at h'
  by_cases c2 : c = FC.ulong
  · subst c2
    rw [if_pos rfl] at h'
    obtain ⟨n, h1, rfl⟩ := map_eq_ok.1 h'
    have h2 : (UInt64.ofNat <$> readBE 8) i = .ok (r, n) := h1
    obtain ⟨m, h3, rfl⟩ := map_eq_ok.1 h2
    obtain ⟨b, rfl, hl, rfl, hm⟩ := readBE_ok h3
    refine ⟨0x80 :: b, .inr ?_, (infix_of_append (a := 0x80 :: b) hi).1⟩
    have e : (UInt64.ofNat (beDec b)).toNat = beDec b := by
      rw [UInt64.toNat_ofNat']; exact Nat.mod_eq_of_lt hm
    rw [e, ← hl, beEnc_beDec]
  rw [if_neg c2] at h'
  by_cases c3 : c = FC.symbol8
  · subst c3
    rw [if_pos rfl] at h'
    obtain ⟨s, h1, rfl⟩ := map_eq_ok.1 h'
    have h2 : (Symbol.mk <$> (readBytesU8 >>= fromUtf8)) i = .ok (r, s) := h1
    obtain ⟨x, h3, rfl⟩ := map_eq_ok.1 h2
    obtain ⟨r', b, h4, h5⟩ := bind_eq_ok.1 h3
    obtain ⟨rfl, hb⟩ := fromUtf8_ok h5
    obtain ⟨hl, rfl⟩ := readBytesU8_ok h4
    subst hb
    exact ⟨_, .inl ⟨hl, rfl⟩,
      (infix_of_append (a := 0xa3 :: UInt8.ofNat x.bytes.length :: x.bytes) hi).1⟩
  rw [if_neg c3] at h'
  by_cases c4 : c = FC.symbol32
  · subst c4
    rw [if_pos rfl] at h'
    obtain ⟨s, h1, rfl⟩ := map_eq_ok.1 h'
    have h2 : (Symbol.mk <$> (readBytesU32 >>= fromUtf8)) i = .ok (r, s) := h1
    obtain ⟨x, h3, rfl⟩ := map_eq_ok.1 h2
    obtain ⟨r', b, h4, h5⟩ := bind_eq_ok.1 h3
    obtain ⟨rfl, hb⟩ := fromUtf8_ok h5
    obtain ⟨hl, rfl⟩ := readBytesU32_ok h4
    subst hb
    refine ⟨_, .inr ⟨hl, rfl⟩, ?_⟩
    rw [← List.append_assoc] at hi
    exact (infix_of_append (a := 0xb3 :: (beEnc 4 x.bytes.length ++ x.bytes)) hi).1
  rw [if_neg c4] at h'
  cases h'

section
variable {α : Type} {F : FieldTable} {O : OptionTable} {j : Bytes}

/-- Decoders that begin by matching a descriptor. -/
theorem tells_matched {Q : α → Prop} {env : Env} {fmt : UInt8} (hf : fmt ∈ j)
    {f : Descriptor → Dec α}
    (h : ∀ d, (0x00 ∈ j ∧ ∃ w, DescriptorForm d w ∧ w <:+: j) → Tells F O j Q (f d)) :
    Tells F O j Q (validateCode fmt FC.described (decode Descriptor env >>= f)) := by
  by_cases hc : fmt = FC.described
  · subst hc
    exact tells_validateCode hf ((tells_descriptor env j).bind fun d hd => h d ⟨hf, hd⟩)
  · unfold validateCode
    rw [if_pos hc]
    exact Tells.fail hf

theorem tells_describedAs {Q : α → Prop} {env : Env} {fmt : UInt8} (hf : fmt ∈ j) {code : UInt64}
    {name : String} {x : Dec α} (h : Tells F O j Q x) :
    Tells F O j Q (describedAs env fmt code name x) := by
  rw [describedAs_eq]
  exact tells_matched hf fun _ hd => Tells.ite (Tells.fail hd) h

theorem tells_enum {β : Type} [DecodeF β] {tryFrom : β → Res ParseError α} {env : Env}
    {fmt : UInt8} {Q : β → Prop} (hb : Tells F O j Q (decF (α := β) env fmt))
    (h : ∀ b e, Q b → tryFrom b = .err e → Explains F O j e) :
    Tells F O j (fun _ => True) (decodeEnum tryFrom env fmt) :=
  hb.bind fun b hq => by
    cases ht : tryFrom b with
    | ok a => exact Tells.pure trivial
    | err e => exact Tells.fail (h b e hq ht)
    | panic p => exact Tells.abort
end

/-! ## List types -/

class FieldsTell (F : FieldTable) (O : OptionTable) (k : Nat) (fs : List Field) : Prop where
  dec : ∀ env j, ∀ f ∈ fs, Tells F O j (fun _ => True) (f.dec env)
  missing : ∀ i f, fs[i]? = some f → ∀ e, f.missing = .err e →
    ∃ name, (name, k + i) ∈ F ∧ e = .requiredFieldOmitted name

theorem fieldsTell_nil {F : FieldTable} {O : OptionTable} {k : Nat} : FieldsTell F O k [] :=
  ⟨fun _ _ _ h => (by cases h), fun _ _ h => (by cases h)⟩

theorem fieldsTell_cons {F : FieldTable} {O : OptionTable} {k : Nat} {f : Field} {fs : List Field}
    (h1 : ∀ env j, Tells F O j (fun _ => True) (f.dec env))
    (h2 : ∀ e, f.missing = .err e → ∃ name, (name, k) ∈ F ∧ e = .requiredFieldOmitted name)
    (h : FieldsTell F O (k + 1) fs) : FieldsTell F O k (f :: fs) where
  dec env j g hg := by
    rcases List.mem_cons.1 hg with rfl | hg
    · exact h1 env j
    · exact h.dec env j g hg
  missing i g hg e he := by
    cases i with
    | zero => injection hg with hg; subst hg; exact h2 e he
    | succ i =>
      obtain ⟨name, hn, rfl⟩ := h.missing i g hg e he
      exact ⟨name, by rw [show k + (i + 1) = k + 1 + i by omega]; exact hn, rfl⟩

theorem FieldsTell.tail {F : FieldTable} {O : OptionTable} {k : Nat} {f : Field} {fs : List Field}
    (h : FieldsTell F O k (f :: fs)) : FieldsTell F O (k + 1) fs where
  dec env j g hg := h.dec env j g (List.mem_cons_of_mem _ hg)
  missing i g hg e he := by
    obtain ⟨name, hn, rfl⟩ := h.missing (i + 1) g hg e he
    exact ⟨name, by rw [show k + 1 + i = k + (i + 1) by omega]; exact hn, rfl⟩

section
variable {α : Type} [Encode α] [DecodeF α] [LawfulEnc α] [LawfulDec α] [NonNull α] [Faulty α]
  [TellsDec α] {F : FieldTable} {O : OptionTable} {k : Nat} {fs : List Field}

theorem fieldsTell_req {name : String} (hn : (name, k) ∈ F) (hF : Faulty.fields α ⊆ F)
    (hO : Faulty.options α ⊆ O) (h : FieldsTell F O (k + 1) fs) :
    FieldsTell F O k (.req α name :: fs) :=
  fieldsTell_cons (fun env j => (tells_decode (α := α) env j).mono hF hO fun _ h => h)
    (fun e he => by injection he with he; exact ⟨name, hn, he.symm⟩) h

theorem fieldsTell_opt (hF : Faulty.fields α ⊆ F)
    (hO : Faulty.options α ⊆ O) (h : FieldsTell F O (k + 1) fs) :
    FieldsTell F O k (.opt α :: fs) :=
  fieldsTell_cons (fun env j => (tells_decode (α := Option α) env j).mono hF hO fun _ h => h)
    (fun e he => by cases he) h

theorem fieldsTell_dflt {d : α} (hF : Faulty.fields α ⊆ F)
    (hO : Faulty.options α ⊆ O) (h : FieldsTell F O (k + 1) fs) :
    FieldsTell F O k (.dflt α d :: fs) :=
  fieldsTell_cons (fun env j => ((tells_decode (α := Option α) env j).mono hF hO fun _ h => h).map
    fun _ _ => trivial) (fun e he => by cases he) h
end

/-- Fields are read from position `k` of a list of `m` fields. -/
theorem getFields_tells {F : FieldTable} {O : OptionTable} {j : Bytes} {env : Env} {m : Nat}
    (hm : HasListOf m j) : ∀ {fs : List Field} {k : Nat} (_ : FieldsTell F O k fs) {n : Nat}
    {w : Bytes} {e : ParseError}, m ≤ k + n →
    w <:+: j → getFields env fs (n, w) = .err e → Explains F O j e
  | [], _, _, _, _, _, _, _, h => by cases h
  | f :: fs, k, hb, 0, w, e, hk, hw, h => by
    simp only [getFields, FieldDec.run_bind, f.get_zero] at h
    cases hm' : f.missing with
    | err e' =>
      rw [hm'] at h
      injection h with h; subst h
      obtain ⟨name, hn, rfl⟩ := hb.missing 0 f rfl _ hm'
      exact ⟨k, m, hn, hk, hm⟩
    | panic p => exact absurd hm' (f.missing_ne p)
    | ok b =>
      rw [hm'] at h
      simp only at h
      cases hg : getFields env fs (0, w) with
      | err e' =>
        rw [hg] at h; injection h with h; subst h
        exact getFields_tells hm hb.tail (by omega) hw hg
      | ok q => rw [hg] at h; cases h
      | panic q => rw [hg] at h; cases h
  | f :: fs, k, hb, n + 1, w, e, hk, hw, h => by
    have h0 := hb.dec env j f (List.mem_cons_self ..) w hw
    simp only [getFields, FieldDec.run_bind, f.get_succ, present] at h
    cases hd : f.dec env w with
    | err e' =>
      rw [hd] at h h0
      injection h with h; subst h
      exact h0
    | panic q => rw [hd] at h; cases h
    | ok q =>
      obtain ⟨r, b⟩ := q
      rw [hd] at h h0
      simp only at h
      cases hg : getFields env fs (n, r) with
      | err e' =>
        rw [hg] at h; injection h with h; subst h
        exact getFields_tells hm hb.tail (by omega) h0.1 hg
      | ok q => rw [hg] at h; cases h
      | panic q => rw [hg] at h; cases h

theorem take2_eq : ∀ {b : Bytes}, b.length = 2 → b = [b.getD 0 0, b.getD 1 0]
  | [_, _], _ => rfl

theorem has_list {env : Env} {i r j : Bytes} {h : CompoundHeader} (hi : i <:+: j)
    (hd : (formatCode >>= decodeListHeader env) i = .ok (r, h)) : HasListOf h.count j := by
  obtain ⟨i1, c, h1, h2⟩ := bind_eq_ok.1 hd
  have := readU8_ok h1
  subst this
  unfold decodeListHeader at h2
  by_cases c1 : c = FC.list0
  · subst c1
    rw [if_pos rfl] at h2
    injection h2 with h2; injection h2 with _ h2; subst h2
    exact .inl ⟨rfl, hi.subset (List.mem_cons_self ..)⟩
  rw [if_neg c1] at h2
  by_cases c2 : c = FC.list8
  · subst c2
    rw [if_pos rfl] at h2
    obtain ⟨r1, b, h3, h4⟩ := bind_eq_ok.1 h2
    obtain ⟨r2, s, h5, h6⟩ := bind_eq_ok.1 h4
    injection h6 with h6; injection h6 with _ h6; subst h6
    obtain ⟨hb, hl⟩ := takeN_ok h3
    refine .inr (.inl ⟨UInt8.toNat_lt _, b.getD 0 0, ?_⟩)
    rw [UInt8.ofNat_toNat]
    refine List.IsInfix.trans ?_ hi
    rw [hb]
    exact ⟨[], r1, by conv => rhs; rw [take2_eq hl]
                      rfl⟩
  rw [if_neg c2] at h2
  by_cases c3 : c = FC.list32
  · subst c3
    rw [if_pos rfl] at h2
    obtain ⟨r1, b, h3, h4⟩ := bind_eq_ok.1 h2
    obtain ⟨r2, s, h5, h6⟩ := bind_eq_ok.1 h4
    injection h6 with h6; injection h6 with _ h6; subst h6
    obtain ⟨hb, hl⟩ := takeN_ok h3
    have hl' : (b.drop 4).length = 4 := by rw [List.length_drop]; omega
    have hc := beDec_lt (b.drop 4)
    rw [hl'] at hc
    refine .inr (.inr ⟨hc, b.take 4, by rw [List.length_take]; omega, ?_⟩)
    refine List.IsInfix.trans ?_ hi
    have e := beEnc_beDec (b.drop 4)
    rw [hl'] at e
    rw [hb, e, List.take_append_drop]
    exact ⟨[], r1, rfl⟩
  rw [if_neg c3] at h2
  cases h2

theorem tells_listInner {α : Type} {F : FieldTable} {O : OptionTable} {j : Bytes} {env : Env}
    {fields : FieldDec α}
    (hf : ∀ n w e, HasListOf n j → w <:+: j → fields (n, w) = .err e → Explains F O j e) :
    Tells F O j (fun _ => True) (listInner env fields) := by
  have e : listInner env fields = ((formatCode >>= decodeListHeader env) >>= fun header =>
      takeN header.size >>= fun body => match fields (header.count, body) with
      | .ok (_, a) => pure a
      | .err e => Dec.fail e
      | .panic p => Dec.abort p) := by
    funext i
    unfold listInner
    rw [run_bind, run_bind, run_bind]
    cases formatCode i <;> rfl
  rw [e]
  have h1 : Tells F O j (fun h : CompoundHeader => h.size < 2 ^ 32)
    (formatCode >>= decodeListHeader env) := tells_formatCode.bind fun _ h => tells_listHeader h
  have h2 : Tells F O j (fun h : CompoundHeader => h.size < 2 ^ 32 ∧ HasListOf h.count j)
    (formatCode >>= decodeListHeader env) := fun i hi => by
      have := h1 i hi
      cases hd : (formatCode >>= decodeListHeader env) i with
      | ok p => rw [hd] at this; exact ⟨this.1, this.2, has_list hi hd⟩
      | err e => rw [hd] at this; exact this
      | panic p => trivial
  refine h2.bind fun hdr hs => (tells_takeN hs.1).bind fun b hb => ?_
  cases hg : fields (hdr.count, b) with
  | ok q => exact Tells.pure trivial
  | err e => exact Tells.fail (hf _ _ _ hs.2 hb.1 hg)
  | panic p => exact Tells.abort

section
variable {α : Type} [Encode α] [DecodeF α] [ListType α] [Faulty α]

theorem inner_tells (hf : FieldsTell (Faulty.fields α) (Faulty.options α) 0 (ListType.fields α))
    (env : Env) (j : Bytes) :
    Tells (Faulty.fields α) (Faulty.options α) j (fun _ => True) (ListType.inner (α := α) env) := by
  rw [ListType.inner_eq]
  refine tells_listInner fun n w e hn hw h => ?_
  rw [FieldDec.run_map] at h
  cases hg : getFields env (ListType.fields α) (n, w) with
  | err e' =>
    rw [hg] at h; injection h with h; subst h
    exact getFields_tells hn hf (by omega) hw hg
  | ok q => rw [hg] at h; cases h
  | panic q => rw [hg] at h; cases h

theorem listTellsDec (hf : FieldsTell (Faulty.fields α) (Faulty.options α) 0 (ListType.fields α)) :
    TellsDec α := ⟨fun env fmt j hj => by
  rw [ListType.decF_eq]
  exact tells_describedAs hj (inner_tells hf env j)⟩
end

/-! ## Finality -/

namespace Final
variable {α β : Type}

theorem pure (a : α) : Final (Pure.pure a : Dec α) := fun _ _ h => by cases h
theorem fail (e : ParseError) : Final (Dec.fail e : Dec α) := fun _ _ h _ _ => h
theorem abort (p : Panic) : Final (Dec.abort p : Dec α) := fun _ _ h => by cases h

theorem ext_ok {d : Dec α} (h : Local d) {i r : Bytes} {a : α} (hd : d i = .ok (r, a))
    (more : Bytes) : d (i ++ more) = .ok (r ++ more, a) := by
  obtain ⟨w, rfl, k⟩ := h _ _ _ hd
  rw [List.append_assoc, k]

theorem bind {d : Dec α} {f : α → Dec β} (hd : Final d) (hl : Local d) (hf : ∀ a, Final (f a)) :
    Final (d >>= f) := by
  intro i e h he more
  rw [run_bind] at h ⊢
  cases h1 : d i with
  | ok p =>
    obtain ⟨r, a⟩ := p
    rw [h1] at h
    rw [ext_ok hl h1]
    exact hf a r e h he more
  | err e' =>
    rw [h1] at h
    injection h with h
    subst h
    rw [hd i e' h1 he more]
  | panic p => rw [h1] at h; cases h

theorem map {d : Dec α} (f : α → β) (hd : Final d) : Final (f <$> d) := by
  intro i e h he more
  rw [run_map] at h ⊢
  cases h1 : d i with
  | ok p => rw [h1] at h; cases h
  | err e' => rw [h1] at h; injection h with h; subst h; rw [hd i e' h1 he more]
  | panic p => rw [h1] at h; cases h

theorem ite {c : Prop} [Decidable c] {x y : Dec α} (hx : Final x) (hy : Final y) :
    Final (if c then x else y) := by split <;> assumption

/-- A decoder all of whose errors are `Incomplete`. -/
theorem of_incomplete {d : Dec α} (h : ∀ i e, d i = .err e → e.isIncomplete = true) : Final d :=
  fun i e h1 he => by rw [h i e h1] at he; cases he

theorem takeN (n : Nat) : Final (Amqp.takeN n) := of_incomplete fun i e h => by
  unfold Amqp.takeN at h
  split at h
  · injection h with h; subst h; rfl
  · cases h
theorem readU8 : Final Amqp.readU8 := of_incomplete fun i e h => by
  cases i with
  | nil => injection h with h; subst h; rfl
  | cons => cases h
theorem indexU8 : Final Amqp.indexU8 := of_incomplete fun i e h => by cases i <;> cases h
theorem readBE (k : Nat) : Final (Amqp.readBE k) := (Final.takeN k).map _
theorem readBytesU8 : Final Amqp.readBytesU8 :=
  Final.readU8.bind Local.readU8 fun _ => Final.takeN _
theorem readBytesU32 : Final Amqp.readBytesU32 :=
  (Final.readBE 4).bind (Local.readBE 4) fun _ => Final.takeN _
theorem fromUtf8 (b : Bytes) : Final (Amqp.fromUtf8 b) := by
  unfold Amqp.fromUtf8
  split
  · exact Final.pure _
  · exact Final.fail _
theorem validateCode {fmt code : UInt8} {d : Dec α} (h : Final d) :
    Final (Amqp.validateCode fmt code d) := Final.ite (Final.fail _) h
theorem decodeN {d : Dec α} (h : Final d) (hl : Local d) : ∀ n, Final (Amqp.decodeN d n)
  | 0 => Final.pure _
  | n + 1 => h.bind hl fun _ => (Final.decodeN h hl n).bind (Local.decodeN hl n) fun _ => Final.pure _

/-- A slice is looked at only once it is there. -/
theorem withSlice (n : Nat) (d : Dec α) : Final (Amqp.withSlice n d) := by
  intro i e h he more
  unfold Amqp.withSlice at h ⊢
  by_cases hl : i.length < n
  · rw [if_pos hl] at h; cases h
  · rw [if_neg hl] at h
    rw [if_neg (by simp; omega), List.take_append_of_le_length (by omega)]
    cases h1 : d (i.take n) with
    | ok p => rw [h1] at h; cases h
    | err e' => rw [h1] at h; exact h
    | panic p => rw [h1] at h; cases h

theorem subChecked (env : Env) (b x y : Nat) : Final (Amqp.subChecked env b x y) :=
  Final.ite (Final.pure _) (Final.ite (Final.abort _) (Final.pure _))
theorem compound8 (env : Env) : Final (decodeCompound8 env) :=
  (Final.takeN _).bind (Local.takeN _) fun _ =>
    (Final.subChecked _ _ _ _).bind (Local.subChecked _ _ _ _) fun _ => Final.pure _
theorem compound32 (env : Env) : Final (decodeCompound32 env) :=
  (Final.takeN _).bind (Local.takeN _) fun _ =>
    (Final.subChecked _ _ _ _).bind (Local.subChecked _ _ _ _) fun _ => Final.pure _
theorem arrayHeader (env : Env) (fmt : UInt8) : Final (decodeArrayHeader env fmt) :=
  Final.ite (Final.compound8 _) (Final.ite (Final.compound32 _) (Final.fail _))
theorem listHeader (env : Env) (fmt : UInt8) : Final (decodeListHeader env fmt) :=
  Final.ite (Final.pure _)
    (Final.ite (Final.compound8 _) (Final.ite (Final.compound32 _) (Final.fail _)))
theorem mapHeader (env : Env) (fmt : UInt8) : Final (decodeMapHeader env fmt) :=
  Final.ite (Final.compound8 _) (Final.ite (Final.compound32 _) (Final.fail _))
theorem mapWith {K V : Type} [HKey K] (kd : Dec K) (vd : Dec V) (env : Env) (fmt : UInt8) :
    Final (decodeMapWith kd vd env fmt) :=
  (Final.mapHeader _ _).bind (Local.decodeMapHeader _ _) fun _ => Final.withSlice _ _
theorem listWith {vd : Dec Variant} (h : Final vd) (hl : Local vd) (env : Env) (fmt : UInt8) :
    Final (decodeListWith vd env fmt) :=
  (Final.listHeader _ _).bind (Local.decodeListHeader _ _) fun _ => Final.decodeN h hl _
end Final

class FinalDec (α : Type) [DecodeF α] : Prop where
  final : ∀ env fmt, Final (decF (α := α) env fmt)

theorem final_decode {α : Type} [DecodeF α] [FinalDec α] (env : Env) : Final (decode α env) :=
  Final.readU8.bind Local.readU8 fun fmt => FinalDec.final env fmt

instance : FinalDec Bool := ⟨fun _ _ => Final.ite (Final.readU8.map _)
  (Final.ite (Final.pure _) (Final.ite (Final.pure _) (Final.fail _)))⟩
instance : FinalDec UInt8 := ⟨fun _ _ => Final.readU8.validateCode⟩
instance : FinalDec UInt16 := ⟨fun _ _ => ((Final.readBE _).map _).validateCode⟩
instance : FinalDec UInt32 := ⟨fun _ _ => Final.ite ((Final.readBE _).map _)
  (Final.ite (Final.readU8.map _) (Final.ite (Final.pure _) (Final.fail _)))⟩
instance : FinalDec UInt64 := ⟨fun _ _ => Final.ite ((Final.readBE _).map _)
  (Final.ite (Final.readU8.map _) (Final.ite (Final.pure _) (Final.fail _)))⟩
instance : FinalDec Int8 := ⟨fun _ _ => (Final.readU8.map _).validateCode⟩
instance : FinalDec Int16 := ⟨fun _ _ => ((Final.readBE _).map _).validateCode⟩
instance : FinalDec Int32 := ⟨fun _ _ => Final.ite ((Final.readBE _).map _)
  (Final.ite ((Final.readU8.map _).map _) (Final.fail _))⟩
instance : FinalDec Int64 := ⟨fun _ _ => Final.ite ((Final.readBE _).map _)
  (Final.ite ((Final.readU8.map _).map _) (Final.fail _))⟩
instance : FinalDec F32 := ⟨fun _ _ => ((Final.readBE _).map _).validateCode⟩
instance : FinalDec F64 := ⟨fun _ _ => ((Final.readBE _).map _).validateCode⟩
instance : FinalDec Char := ⟨fun _ _ => ((Final.readBE _).bind (Local.readBE _) fun n => by
  split
  · exact Final.pure _
  · exact Final.fail _).validateCode⟩
theorem final_utc (s : Int) (n : Nat) : Final (utcTimestamp s n) := by
  unfold utcTimestamp
  split
  · exact Final.pure _
  · exact Final.abort _
instance : FinalDec DateTime := ⟨fun _ _ => ((Final.readBE _).bind (Local.readBE _) fun _ =>
  Final.ite (final_utc _ _) (final_utc _ _)).validateCode⟩
instance : FinalDec Uuid := ⟨fun _ _ => ((Final.takeN _).bind (Local.takeN _) fun b => by
  unfold uuidOf
  split
  · exact Final.pure _
  · exact Final.abort _).validateCode⟩
instance : FinalDec Binary := ⟨fun _ _ => Final.ite (Final.readBytesU8.map _)
  (Final.ite (Final.readBytesU32.map _) (Final.fail _))⟩
theorem final_text8 : Final (readBytesU8 >>= fromUtf8) :=
  Final.readBytesU8.bind Local.readBytesU8 fun _ => Final.fromUtf8 _
theorem final_text32 : Final (readBytesU32 >>= fromUtf8) :=
  Final.readBytesU32.bind Local.readBytesU32 fun _ => Final.fromUtf8 _
instance : FinalDec RStr := ⟨fun _ _ =>
  Final.ite final_text8 (Final.ite final_text32 (Final.fail _))⟩
instance : FinalDec Symbol := ⟨fun _ _ =>
  Final.ite (final_text8.map _) (Final.ite (final_text32.map _) (Final.fail _))⟩
instance {α : Type} [DecodeF α] [FinalDec α] : FinalDec (Option α) := ⟨fun env fmt =>
  Final.ite (Final.pure _) ((FinalDec.final env fmt).map _)⟩
instance : FinalDec Descriptor := ⟨fun env fmt =>
  have u := (FinalDec.final (α := UInt64) env fmt).map Descriptor.ulong
  have s := (FinalDec.final (α := Symbol) env fmt).map Descriptor.symbol
  Final.ite u (Final.ite u (Final.ite s (Final.ite s (Final.fail _))))⟩
instance {K V : Type} [HKey K] [DecodeF K] [DecodeF V] : FinalDec (HMap K V) := ⟨fun _ _ =>
  (Final.mapWith _ _ _ _).map _⟩
instance {α : Type} [DecodeF α] [FinalDec α] [LawfulDec α] : FinalDec (Vec α) := ⟨fun env _ =>
  (Final.arrayHeader _ _).bind (Local.decodeArrayHeader _ _) fun _ =>
    Final.indexU8.bind Local.indexU8 fun c =>
      (Final.decodeN (FinalDec.final (α := α) env c) (LawfulDec.loc env c) _).bind
        (Local.decodeN (LawfulDec.loc env c) _) fun _ => Final.pure _⟩
instance {α : Type} [DecodeF α] [FinalDec α] [LawfulDec α] : FinalDec (Multiple α) :=
  ⟨fun env fmt => Final.ite ((FinalDec.final (α := Vec α) env fmt).map _)
    ((FinalDec.final (α := α) env fmt).map _)⟩

theorem final_variant (env : Env) : ∀ d fmt, Final (decVariant env d fmt)
  | 0, _ => Final.abort _
  | d + 1, fmt => by
    have hl : Local (formatCode >>= fun f => decVariant env d f) :=
      Local.readU8.bind fun f => local_variant env d f
    have hv : Final (formatCode >>= fun f => decVariant env d f) :=
      Final.readU8.bind Local.readU8 fun f => final_variant env d f
    unfold decVariant
    simp only
    repeat' apply Final.ite
    all_goals first
      | exact Final.pure _
      | exact Final.fail _
      | exact (FinalDec.final env fmt).map _
      | exact (Final.listWith hv hl env fmt).map _
      | exact (Final.mapWith _ _ env fmt).map _
      | exact (final_decode (α := Descriptor) env).bind (loc_decode env) fun _ =>
          hv.bind hl fun _ => Final.pure _

instance : FinalDec Variant := ⟨fun env fmt => final_variant env _ fmt⟩
instance : FinalDec VList := ⟨fun env fmt =>
  (Final.listWith (final_decode (α := Variant) env) (loc_decode env) env fmt).map _⟩
instance : FinalDec VecVariantMap := ⟨fun _ _ =>
  (Final.mapHeader _ _).bind (Local.decodeMapHeader _ _) fun _ => (Final.withSlice _ _).map _⟩

theorem final_describedAs {α : Type} {x : Dec α} (h : Final x) (env : Env) (fmt : UInt8)
    (code : UInt64) (name : String) : Final (describedAs env fmt code name x) := by
  rw [describedAs_eq]
  exact ((final_decode (α := Descriptor) env).bind (loc_decode env) fun _ =>
    Final.ite (Final.fail _) h).validateCode

theorem final_enum {α β : Type} [DecodeF β] [FinalDec β] [LawfulDec β]
    (tryFrom : β → Res ParseError α) (env : Env) (fmt : UInt8) :
    Final (decodeEnum tryFrom env fmt) :=
  (FinalDec.final (α := β) env fmt).bind (LawfulDec.loc env fmt) fun b => by
    cases tryFrom b with
    | ok a => exact Final.pure _
    | err e => exact Final.fail _
    | panic p => exact Final.abort _

theorem final_listInner {α : Type} (env : Env) (fields : FieldDec α) :
    Final (listInner env fields) :=
  Final.readU8.bind Local.readU8 fun _ => (Final.listHeader _ _).bind (Local.decodeListHeader _ _)
    fun hdr => (Final.takeN _).bind (Local.takeN _) fun b => by
      cases fields (hdr.count, b) with
      | ok a => exact Final.pure _
      | err e => exact Final.fail _
      | panic p => exact Final.abort _

theorem inner_final {α : Type} [Encode α] [DecodeF α] [ListType α] (env : Env) :
    Final (ListType.inner (α := α) env) := by
  rw [ListType.inner_eq]
  exact final_listInner _ _

theorem listFinalDec {α : Type} [Encode α] [DecodeF α] [ListType α] : FinalDec α :=
  ⟨fun env fmt => by
    rw [ListType.decF_eq]
    exact final_describedAs (inner_final env) _ _ _ _⟩

end Amqp
