import Verif.Proofs.Inversion
/-!
# Properties of fixed-width types, text and binaries

C01, C02, C04.
-/
namespace Amqp
open Dec

/-! ## C01 -/

/-- **C01.** Every value of every fixed type survives encoding and decoding,
whatever follows it, in every environment (debug or release). -/
theorem C01_fixed_round_trip (env : Env) :
    (∀ v : Bool, RoundTrips env v) ∧
    (∀ v : UInt8, RoundTrips env v) ∧ (∀ v : UInt16, RoundTrips env v) ∧
    (∀ v : UInt32, RoundTrips env v) ∧ (∀ v : UInt64, RoundTrips env v) ∧
    (∀ v : Int8, RoundTrips env v) ∧ (∀ v : Int16, RoundTrips env v) ∧
    (∀ v : Int32, RoundTrips env v) ∧ (∀ v : Int64, RoundTrips env v) ∧
    (∀ v : F32, RoundTrips env v) ∧ (∀ v : F64, RoundTrips env v) ∧
    (∀ v : Char, RoundTrips env v) ∧ (∀ v : Uuid, RoundTrips env v) :=
  ⟨fun v => LawfulCodec.rt env v trivial, fun v => LawfulCodec.rt env v trivial,
   fun v => LawfulCodec.rt env v trivial, fun v => LawfulCodec.rt env v trivial,
   fun v => LawfulCodec.rt env v trivial, fun v => LawfulCodec.rt env v trivial,
   fun v => LawfulCodec.rt env v trivial, fun v => LawfulCodec.rt env v trivial,
   fun v => LawfulCodec.rt env v trivial, fun v => LawfulCodec.rt env v trivial,
   fun v => LawfulCodec.rt env v trivial, fun v => LawfulCodec.rt env v trivial,
   fun v => LawfulCodec.rt env v trivial⟩

/-- The array-item forms survive as well. -/
theorem C01_fixed_items_round_trip (env : Env) :
    (∀ v : Bool, ItemRoundTrips env v) ∧
    (∀ v : UInt8, ItemRoundTrips env v) ∧ (∀ v : UInt16, ItemRoundTrips env v) ∧
    (∀ v : UInt32, ItemRoundTrips env v) ∧ (∀ v : UInt64, ItemRoundTrips env v) ∧
    (∀ v : Int8, ItemRoundTrips env v) ∧ (∀ v : Int16, ItemRoundTrips env v) ∧
    (∀ v : Int32, ItemRoundTrips env v) ∧ (∀ v : Int64, ItemRoundTrips env v) ∧
    (∀ v : F32, ItemRoundTrips env v) ∧ (∀ v : F64, ItemRoundTrips env v) ∧
    (∀ v : Char, ItemRoundTrips env v) ∧ (∀ v : Uuid, ItemRoundTrips env v) :=
  ⟨fun v => LawfulArray.art env v trivial, fun v => LawfulArray.art env v trivial,
   fun v => LawfulArray.art env v trivial, fun v => LawfulArray.art env v trivial,
   fun v => LawfulArray.art env v trivial, fun v => LawfulArray.art env v trivial,
   fun v => LawfulArray.art env v trivial, fun v => LawfulArray.art env v trivial,
   fun v => LawfulArray.art env v trivial, fun v => LawfulArray.art env v trivial,
   fun v => LawfulArray.art env v trivial, fun v => LawfulArray.art env v trivial,
   fun v => LawfulArray.art env v trivial⟩

/-- Non-trivial instances, at the switch between the short and the long form. -/
example : enc (-129 : Int32) = [0x71, 0xff, 0xff, 0xff, 0x7f] ∧
    decode Int32 debugEnv (enc (-129 : Int32) ++ [7]) = .ok ([7], -129) := by decide
example : enc (255 : UInt64) = [0x53, 255] ∧ enc (256 : UInt64) = [0x80, 0, 0, 0, 0, 0, 0, 1, 0] ∧
    decode UInt64 releaseEnv (enc (256 : UInt64) ++ [7]) = .ok ([7], 256) := by decide

/-! ## C02 -/

/-- **C02.** Binaries, strings and symbols shorter than `2^32` bytes survive. -/
theorem C02_text_round_trip (env : Env) :
    (∀ b : Binary, b.data.length < 2 ^ 32 → RoundTrips env b) ∧
    (∀ s : Str, s.bytes.length < 2 ^ 32 → RoundTrips env s) ∧
    (∀ s : Symbol, s.str.bytes.length < 2 ^ 32 → RoundTrips env s) :=
  ⟨fun v h => LawfulCodec.rt env v h, fun v h => LawfulCodec.rt env v h,
   fun v h => LawfulCodec.rt env v h⟩

/-- The array-item forms survive as well. -/
theorem C02_text_items_round_trip (env : Env) :
    (∀ b : Binary, b.data.length < 2 ^ 32 → ItemRoundTrips env b) ∧
    (∀ s : Str, s.bytes.length < 2 ^ 32 → ItemRoundTrips env s) ∧
    (∀ s : Symbol, s.str.bytes.length < 2 ^ 32 → ItemRoundTrips env s) :=
  ⟨fun v h => LawfulArray.art env v h, fun v h => LawfulArray.art env v h,
   fun v h => LawfulArray.art env v h⟩

/-- A static symbol is written like the symbol with the same text. -/
theorem C02_static_symbol (env : Env) (s : RStr) (h : s.bytes.length < 2 ^ 32) (rest : Bytes) :
    decode Symbol env (encStaticSymbol s ++ rest) = .ok (rest, ⟨s⟩) :=
  LawfulCodec.rt env (Symbol.mk s) h rest

example : (⟨List.replicate 300 7⟩ : Binary).data.length < 2 ^ 32 ∧
    (enc (⟨List.replicate 300 7⟩ : Binary)).length = 305 := by decide +kernel
example : decode Symbol debugEnv (enc (Symbol.mk (.lit "amqp")) ++ [9]) =
    .ok ([9], ⟨.lit "amqp"⟩) := by decide

/-! ## C04 -/

/-- Every byte string that decodes to `v` is at least as long (up to its unread
remainder) as what the encoder writes for `v`. -/
def ShortestEncoding (α : Type) [Encode α] [DecodeF α] : Prop :=
  ∀ (env : Env) (input rest : Bytes) (v : α), decode α env input = .ok (rest, v) →
    (enc v).length + rest.length ≤ input.length

theorem shortest_of_fixed {α : Type} [Encode α] [DecodeF α] (k : Nat)
    (he : ∀ v : α, (enc v).length = k + 1)
    (hd : ∀ env c i r (v : α), decF env c i = .ok (r, v) → i.length = k + r.length) :
    ShortestEncoding α := by
  intro env i r v h
  obtain ⟨c, t, rfl, hd⟩ := decode_ok h
  clear h; revert hd; intro h
  have := hd env c t r v h
  simp [he]; omega

theorem shortest_u8 : ShortestEncoding UInt8 := by
  refine shortest_of_fixed 1 (fun _ => rfl) fun env c i r v h => ?_
  obtain ⟨_, h⟩ := validateCode_ok h
  rw [readU8_ok h]; simp; omega

theorem shortest_i8 : ShortestEncoding Int8 := by
  refine shortest_of_fixed 1 (fun _ => rfl) fun env c i r v h => ?_
  obtain ⟨_, h⟩ := validateCode_ok h
  obtain ⟨b, h, _⟩ := map_eq_ok.1 h
  rw [readU8_ok h]; simp; omega

theorem shortest_u16 : ShortestEncoding UInt16 := by
  refine shortest_of_fixed 2 (fun _ => by simp [enc, aenc]) fun env c i r v h => ?_
  obtain ⟨_, h⟩ := validateCode_ok h
  obtain ⟨b, h, _⟩ := map_eq_ok.1 h
  obtain ⟨b, rfl, hl, _⟩ := readBE_ok h
  simp; omega

theorem shortest_i16 : ShortestEncoding Int16 := by
  refine shortest_of_fixed 2 (fun _ => by simp [enc, aenc]) fun env c i r v h => ?_
  obtain ⟨_, h⟩ := validateCode_ok h
  obtain ⟨b, h, _⟩ := map_eq_ok.1 h
  obtain ⟨b, rfl, hl, _⟩ := readBE_ok h
  simp; omega

theorem shortest_bool : ShortestEncoding Bool := by
  intro env i r v h
  have := (progress_decode (α := Bool) (env := env) fun f => LawfulDec.loc env f) i r v h
  have e : (enc v).length = 1 := rfl
  omega

theorem shortest_u32 : ShortestEncoding UInt32 := by
  intro env i r v h
  obtain ⟨c, t, rfl, hd⟩ := decode_ok h
  clear h; revert hd; intro h
  rw [← LawfulEnc.size_eq]
  simp only [decF] at h
  simp only [size]
  split at h
  · obtain ⟨b, h, _⟩ := map_eq_ok.1 h
    obtain ⟨b, rfl, hl, _⟩ := readBE_ok h
    simp; split <;> (try split) <;> omega
  · split at h
    · obtain ⟨b, g, rfl⟩ := map_eq_ok.1 h
      have := b.toNat_lt
      rw [readU8_ok g]
      simp only [UInt8.toNat_toUInt32, List.length_cons]; split <;> (try split) <;> omega
    · split at h
      · injection h with h; injection h with h1 h2; subst h1 h2
        simp; omega
      · cases h

theorem shortest_u64 : ShortestEncoding UInt64 := by
  intro env i r v h
  obtain ⟨c, t, rfl, hd⟩ := decode_ok h
  clear h; revert hd; intro h
  rw [← LawfulEnc.size_eq]
  simp only [decF] at h
  simp only [size]
  split at h
  · obtain ⟨b, h, _⟩ := map_eq_ok.1 h
    obtain ⟨b, rfl, hl, _⟩ := readBE_ok h
    simp; split <;> (try split) <;> omega
  · split at h
    · obtain ⟨b, g, rfl⟩ := map_eq_ok.1 h
      have := b.toNat_lt
      rw [readU8_ok g]
      simp only [UInt8.toNat_toUInt64, List.length_cons]; split <;> (try split) <;> omega
    · split at h
      · injection h with h; injection h with h1 h2; subst h1 h2
        simp; omega
      · cases h

theorem shortest_i32 : ShortestEncoding Int32 := by
  intro env i r v h
  obtain ⟨c, t, rfl, hd⟩ := decode_ok h
  clear h; revert hd; intro h
  rw [← LawfulEnc.size_eq]
  simp only [decF] at h
  simp only [size]
  split at h
  · obtain ⟨b, h, _⟩ := map_eq_ok.1 h
    obtain ⟨b, rfl, hl, _⟩ := readBE_ok h
    simp; split <;> omega
  · split at h
    · obtain ⟨b, g, rfl⟩ := map_eq_ok.1 h
      have h1 := b.toInt_lt
      have h2 := b.le_toInt
      obtain ⟨b', g, _⟩ := map_eq_ok.1 g
      rw [readU8_ok g]
      simp only [Int8.toInt_toInt32, List.length_cons]; split <;> omega
    · cases h

theorem shortest_i64 : ShortestEncoding Int64 := by
  intro env i r v h
  obtain ⟨c, t, rfl, hd⟩ := decode_ok h
  clear h; revert hd; intro h
  rw [← LawfulEnc.size_eq]
  simp only [decF] at h
  simp only [size]
  split at h
  · obtain ⟨b, h, _⟩ := map_eq_ok.1 h
    obtain ⟨b, rfl, hl, _⟩ := readBE_ok h
    simp; split <;> omega
  · split at h
    · obtain ⟨b, g, rfl⟩ := map_eq_ok.1 h
      have h1 := b.toInt_lt
      have h2 := b.le_toInt
      obtain ⟨b', g, _⟩ := map_eq_ok.1 g
      rw [readU8_ok g]
      simp only [Int8.toInt_toInt64, List.length_cons]; split <;> omega
    · cases h

theorem shortest_var8 {c : UInt8} {t r b : Bytes} (h : readBytesU8 t = .ok (r, b)) :
    varSize b.length + r.length ≤ (c :: t).length := by
  obtain ⟨hl, rfl⟩ := readBytesU8_ok h
  simp only [varSize, List.length_cons, List.length_append]; split <;> omega
theorem shortest_var32 {c : UInt8} {t r b : Bytes} (h : readBytesU32 t = .ok (r, b)) :
    varSize b.length + r.length ≤ (c :: t).length := by
  obtain ⟨hl, rfl⟩ := readBytesU32_ok h
  simp only [varSize, List.length_cons, List.length_append, beEnc_length]; split <;> omega

theorem shortest_binary : ShortestEncoding Binary := by
  intro env i r v h
  obtain ⟨c, t, rfl, hd⟩ := decode_ok h
  clear h; revert hd; intro h
  rw [← LawfulEnc.size_eq]
  simp only [decF] at h
  split at h
  · obtain ⟨b, g, rfl⟩ := map_eq_ok.1 h; exact shortest_var8 g
  · split at h
    · obtain ⟨b, g, rfl⟩ := map_eq_ok.1 h; exact shortest_var32 g
    · cases h

theorem shortest_str : ShortestEncoding Str := by
  intro env i r v h
  obtain ⟨c, t, rfl, hd⟩ := decode_ok h
  clear h; revert hd; intro h
  rw [← LawfulEnc.size_eq]
  simp only [decF] at h
  split at h
  · obtain ⟨r', b, h, h2⟩ := bind_eq_ok.1 h
    obtain ⟨rfl, rfl⟩ := fromUtf8_ok h2
    exact shortest_var8 h
  · split at h
    · obtain ⟨r', b, h, h2⟩ := bind_eq_ok.1 h
      obtain ⟨rfl, rfl⟩ := fromUtf8_ok h2
      exact shortest_var32 h
    · cases h

theorem shortest_symbol : ShortestEncoding Symbol := by
  intro env i r v h
  obtain ⟨c, t, rfl, hd⟩ := decode_ok h
  clear h; revert hd; intro h
  rw [← LawfulEnc.size_eq]
  simp only [decF] at h
  split at h
  · obtain ⟨s, g, rfl⟩ := map_eq_ok.1 h
    obtain ⟨r', b, h, h2⟩ := bind_eq_ok.1 g
    obtain ⟨rfl, rfl⟩ := fromUtf8_ok h2
    exact shortest_var8 h
  · split at h
    · obtain ⟨s, g, rfl⟩ := map_eq_ok.1 h
      obtain ⟨r', b, h, h2⟩ := bind_eq_ok.1 g
      obtain ⟨rfl, rfl⟩ := fromUtf8_ok h2
      exact shortest_var32 h
    · cases h

/-- **C04.** The encoder always picks a shortest encoding: no input that decodes
to `v` uses fewer bytes than `encode(v)`. -/
theorem C04_shortest_encoding :
    ShortestEncoding Bool ∧ ShortestEncoding UInt8 ∧ ShortestEncoding UInt16 ∧
    ShortestEncoding UInt32 ∧ ShortestEncoding UInt64 ∧ ShortestEncoding Int8 ∧
    ShortestEncoding Int16 ∧ ShortestEncoding Int32 ∧ ShortestEncoding Int64 ∧
    ShortestEncoding Binary ∧ ShortestEncoding Str ∧ ShortestEncoding Symbol :=
  ⟨shortest_bool, shortest_u8, shortest_u16, shortest_u32, shortest_u64, shortest_i8, shortest_i16,
   shortest_i32, shortest_i64, shortest_binary, shortest_str, shortest_symbol⟩

/-- There are competing, longer encodings: `ulong` 5 in nine bytes. -/
example : decode UInt64 debugEnv [0x80, 0, 0, 0, 0, 0, 0, 0, 5] = .ok ([], 5) ∧
    (enc (5 : UInt64)).length = 2 := by decide

end Amqp
