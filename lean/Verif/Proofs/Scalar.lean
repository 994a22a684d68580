import Verif.Proofs.Laws
import Verif.Spec.Codec
/-!
# Codec laws for scalar and text types
-/
namespace Amqp
open Dec

/-- Values that survive an encode/decode round trip. -/
class HasWf (α : Type) where
  wf : Env → α → Prop
export HasWf (wf)

class LawfulEnc (α : Type) [Encode α] : Prop where
  size_eq : ∀ v : α, size v = (enc v).length
class LawfulDec (α : Type) [DecodeF α] : Prop where
  loc : ∀ env fmt, Local (decF (α := α) env fmt)
class LawfulCodec (α : Type) [Encode α] [DecodeF α] [HasWf α] : Prop where
  rt : ∀ env (v : α), wf env v → Reads (decode α env) (enc v) v
class NonNull (α : Type) [Encode α] : Prop where
  head : ∀ v : α, ∃ c w, enc v = c :: w ∧ c ≠ FC.null
class SafeDec (α : Type) [DecodeF α] : Prop where
  safe : ∀ env fmt, Safe (decF (α := α) env fmt)
class LawfulArray (α : Type) [ArrayEncode α] [DecodeF α] [HasWf α] : Prop where
  asize_eq : ∀ v : α, asize v = (aenc v).length
  asize_pos : ∀ v : α, 0 < asize v
  art : ∀ env (v : α), wf env v → Reads (decF env (ArrayEncode.code α)) (aenc v) v

/-- Every value of the type round-trips. -/
@[reducible] def wfAll (α : Type) : HasWf α := ⟨fun _ _ => True⟩

instance : HasWf Bool := wfAll _
instance : HasWf UInt8 := wfAll _
instance : HasWf UInt16 := wfAll _
instance : HasWf UInt32 := wfAll _
instance : HasWf UInt64 := wfAll _
instance : HasWf Int8 := wfAll _
instance : HasWf Int16 := wfAll _
instance : HasWf Int32 := wfAll _
instance : HasWf Int64 := wfAll _
instance : HasWf F32 := wfAll _
instance : HasWf F64 := wfAll _
instance : HasWf Char := wfAll _
instance : HasWf Uuid := wfAll _
/-- Lengths are written in 32 bits. -/
instance : HasWf Binary := ⟨fun _ b => b.data.length < 2 ^ 32⟩
instance : HasWf RStr := ⟨fun _ s => s.bytes.length < 2 ^ 32⟩
instance : HasWf Symbol := ⟨fun _ s => s.str.bytes.length < 2 ^ 32⟩

/-- Round-trippable timestamps (C12): whole milliseconds, and the nanosecond
field the decoder would choose. -/
def DateTime.canonical (t : DateTime) : Prop :=
  t.nanos % 1000000 = 0 ∧
    ((0 ≤ t.secs ∧ t.nanos < 1000000000) ∨
     (t.secs ≤ -2 ∧ 0 < t.nanos ∧ t.nanos ≤ 1000000000))
instance (t : DateTime) : Decidable t.canonical := by unfold DateTime.canonical; infer_instance
instance : HasWf DateTime := ⟨fun _ t => t.canonical⟩

/-! ### encoded_size -/

theorem varEnc_length (c8 c32 : UInt8) (b : Bytes) :
    (varEnc c8 c32 b).length = varSize b.length := by
  unfold varEnc varSize; split <;> simp <;> omega

instance : LawfulEnc Bool := ⟨fun _ => rfl⟩
instance : LawfulEnc UInt8 := ⟨fun _ => rfl⟩
instance : LawfulEnc UInt16 := ⟨fun _ => by simp [size, enc, aenc, asize]⟩
instance : LawfulEnc UInt32 := ⟨fun v => by
  simp only [size, enc]; split
  · rfl
  · split <;> simp⟩
instance : LawfulEnc UInt64 := ⟨fun v => by
  simp only [size, enc]; split
  · rfl
  · split <;> simp⟩
instance : LawfulEnc Int8 := ⟨fun _ => rfl⟩
instance : LawfulEnc Int16 := ⟨fun _ => by simp [size, enc, aenc, asize]⟩
instance : LawfulEnc Int32 := ⟨fun v => by simp only [size, enc]; split <;> simp⟩
instance : LawfulEnc Int64 := ⟨fun v => by simp only [size, enc]; split <;> simp⟩
instance : LawfulEnc F32 := ⟨fun _ => by simp [size, enc, aenc, asize]⟩
instance : LawfulEnc F64 := ⟨fun _ => by simp [size, enc, aenc, asize]⟩
instance : LawfulEnc Char := ⟨fun _ => by simp [size, enc, aenc, asize]⟩
instance : LawfulEnc DateTime := ⟨fun _ => by simp [size, enc, aenc, asize]⟩
instance : LawfulEnc Uuid := ⟨fun u => by simp [size, enc, aenc, asize, u.len]⟩
instance : LawfulEnc Binary := ⟨fun _ => (varEnc_length _ _ _).symm⟩
instance : LawfulEnc RStr := ⟨fun _ => (varEnc_length _ _ _).symm⟩
instance : LawfulEnc Symbol := ⟨fun _ => (varEnc_length _ _ _).symm⟩
instance : LawfulEnc Descriptor := ⟨fun
  | .ulong v => by
    show 1 + size v = (FC.described :: enc v).length
    rw [LawfulEnc.size_eq]; simp; omega
  | .symbol v => by
    show 1 + size v = (FC.described :: enc v).length
    rw [LawfulEnc.size_eq]; simp; omega⟩
instance {α : Type} [Encode α] [LawfulEnc α] : LawfulEnc (Option α) := ⟨fun
  | some v => LawfulEnc.size_eq v
  | none => rfl⟩

/-! ### Locality -/

theorem Local.validateCode {α : Type} {d : Dec α} (fmt c : UInt8) (h : Local d) :
    Local (validateCode fmt c d) := Local.ite (Local.fail _) h
theorem Local.readI8 : Local readI8 := Local.readU8.map _
theorem Local.utcTimestamp (s : Int) (n : Nat) : Local (utcTimestamp s n) :=
  Local.dite (fun _ => Local.pure _) (fun _ => Local.abort _)
theorem Local.datetimeFromMillis (m : Int) : Local (datetimeFromMillis m) :=
  Local.ite (Local.utcTimestamp _ _) (Local.utcTimestamp _ _)
theorem Local.uuidOf (b : Bytes) : Local (uuidOf b) :=
  Local.dite (fun _ => Local.pure _) (fun _ => Local.abort _)

instance : LawfulDec Bool := ⟨fun _ _ => Local.ite (Local.readU8.map _)
  (Local.ite (Local.pure _) (Local.ite (Local.pure _) (Local.fail _)))⟩
instance : LawfulDec UInt8 := ⟨fun _ _ => Local.validateCode _ _ Local.readU8⟩
instance : LawfulDec UInt16 := ⟨fun _ _ => Local.validateCode _ _ ((Local.readBE _).map _)⟩
instance : LawfulDec UInt32 := ⟨fun _ _ => Local.ite ((Local.readBE _).map _)
  (Local.ite (Local.readU8.map _) (Local.ite (Local.pure _) (Local.fail _)))⟩
instance : LawfulDec UInt64 := ⟨fun _ _ => Local.ite ((Local.readBE _).map _)
  (Local.ite (Local.readU8.map _) (Local.ite (Local.pure _) (Local.fail _)))⟩
instance : LawfulDec Int8 := ⟨fun _ _ => Local.validateCode _ _ Local.readI8⟩
instance : LawfulDec Int16 := ⟨fun _ _ => Local.validateCode _ _ ((Local.readBE _).map _)⟩
instance : LawfulDec Int32 := ⟨fun _ _ => Local.ite ((Local.readBE _).map _)
  (Local.ite (Local.readI8.map _) (Local.fail _))⟩
instance : LawfulDec Int64 := ⟨fun _ _ => Local.ite ((Local.readBE _).map _)
  (Local.ite (Local.readI8.map _) (Local.fail _))⟩
instance : LawfulDec F32 := ⟨fun _ _ => Local.validateCode _ _ ((Local.readBE _).map _)⟩
instance : LawfulDec F64 := ⟨fun _ _ => Local.validateCode _ _ ((Local.readBE _).map _)⟩
instance : LawfulDec Char := ⟨fun _ _ => Local.validateCode _ _ ((Local.readBE _).bind fun o => by
  cases charFromU32 o
  · exact Local.fail _
  · exact Local.pure _)⟩
instance : LawfulDec DateTime := ⟨fun _ _ => Local.validateCode _ _
  ((Local.readBE _).bind fun _ => Local.datetimeFromMillis _)⟩
instance : LawfulDec Uuid := ⟨fun _ _ => Local.validateCode _ _
  ((Local.takeN _).bind fun _ => Local.uuidOf _)⟩
instance : LawfulDec Binary := ⟨fun _ _ => Local.ite (Local.readBytesU8.map _)
  (Local.ite (Local.readBytesU32.map _) (Local.fail _))⟩
instance : LawfulDec RStr := ⟨fun _ _ =>
  Local.ite (Local.readBytesU8.bind fun _ => Local.fromUtf8 _)
  (Local.ite (Local.readBytesU32.bind fun _ => Local.fromUtf8 _) (Local.fail _))⟩
instance : LawfulDec Symbol := ⟨fun _ _ =>
  Local.ite ((Local.readBytesU8.bind fun _ => Local.fromUtf8 _).map _)
  (Local.ite ((Local.readBytesU32.bind fun _ => Local.fromUtf8 _).map _) (Local.fail _))⟩
instance {α : Type} [DecodeF α] [LawfulDec α] : LawfulDec (Option α) := ⟨fun env fmt =>
  Local.ite (Local.pure _) ((LawfulDec.loc env fmt).map _)⟩
instance : LawfulDec Descriptor := ⟨fun env fmt =>
  Local.ite ((LawfulDec.loc env fmt).map _) (Local.ite ((LawfulDec.loc env fmt).map _)
  (Local.ite ((LawfulDec.loc env fmt).map _) (Local.ite ((LawfulDec.loc env fmt).map _)
  (Local.fail _))))⟩

/-! ### Panic freedom -/

theorem Safe.validateCode {α : Type} {d : Dec α} (fmt c : UInt8) (h : Safe d) :
    Safe (validateCode fmt c d) := Safe.ite (Safe.fail _) h
theorem Safe.readI8 : Safe readI8 := Safe.readU8.map _

instance : SafeDec Bool := ⟨fun _ _ => Safe.ite (Safe.readU8.map _)
  (Safe.ite (Safe.pure _) (Safe.ite (Safe.pure _) (Safe.fail _)))⟩
instance : SafeDec UInt8 := ⟨fun _ _ => Safe.validateCode _ _ Safe.readU8⟩
instance : SafeDec UInt16 := ⟨fun _ _ => Safe.validateCode _ _ ((Safe.readBE _).map _)⟩
instance : SafeDec UInt32 := ⟨fun _ _ => Safe.ite ((Safe.readBE _).map _)
  (Safe.ite (Safe.readU8.map _) (Safe.ite (Safe.pure _) (Safe.fail _)))⟩
instance : SafeDec UInt64 := ⟨fun _ _ => Safe.ite ((Safe.readBE _).map _)
  (Safe.ite (Safe.readU8.map _) (Safe.ite (Safe.pure _) (Safe.fail _)))⟩
instance : SafeDec Int8 := ⟨fun _ _ => Safe.validateCode _ _ Safe.readI8⟩
instance : SafeDec Int16 := ⟨fun _ _ => Safe.validateCode _ _ ((Safe.readBE _).map _)⟩
instance : SafeDec Int32 := ⟨fun _ _ => Safe.ite ((Safe.readBE _).map _)
  (Safe.ite (Safe.readI8.map _) (Safe.fail _))⟩
instance : SafeDec Int64 := ⟨fun _ _ => Safe.ite ((Safe.readBE _).map _)
  (Safe.ite (Safe.readI8.map _) (Safe.fail _))⟩
instance : SafeDec F32 := ⟨fun _ _ => Safe.validateCode _ _ ((Safe.readBE _).map _)⟩
instance : SafeDec F64 := ⟨fun _ _ => Safe.validateCode _ _ ((Safe.readBE _).map _)⟩
instance : SafeDec Char := ⟨fun _ _ => Safe.validateCode _ _ ((Safe.readBE _).bind fun o => by
  cases charFromU32 o
  · exact Safe.fail _
  · exact Safe.pure _)⟩
theorem safe_takeUuid : Safe (takeN 16 >>= uuidOf) := by
  intro i
  rw [run_bind]
  by_cases hi : i.length < 16
  · simp [takeN, hi]
  · have h : (i.take 16).length = 16 := by simp; omega
    have e : takeN 16 i = .ok (i.drop 16, i.take 16) := by simp [takeN, hi]
    rw [e]
    simp only [uuidOf, dif_pos h, run_pure, Res.noPanic_ok]
instance : SafeDec Uuid := ⟨fun _ _ => Safe.validateCode _ _ safe_takeUuid⟩
instance : SafeDec Binary := ⟨fun _ _ => Safe.ite (Safe.readBytesU8.map _)
  (Safe.ite (Safe.readBytesU32.map _) (Safe.fail _))⟩
instance : SafeDec RStr := ⟨fun _ _ =>
  Safe.ite (Safe.readBytesU8.bind fun _ => Safe.fromUtf8 _)
  (Safe.ite (Safe.readBytesU32.bind fun _ => Safe.fromUtf8 _) (Safe.fail _))⟩
instance : SafeDec Symbol := ⟨fun _ _ =>
  Safe.ite ((Safe.readBytesU8.bind fun _ => Safe.fromUtf8 _).map _)
  (Safe.ite ((Safe.readBytesU32.bind fun _ => Safe.fromUtf8 _).map _) (Safe.fail _))⟩
instance {α : Type} [DecodeF α] [SafeDec α] : SafeDec (Option α) := ⟨fun env fmt =>
  Safe.ite (Safe.pure _) ((SafeDec.safe env fmt).map _)⟩
instance : SafeDec Descriptor := ⟨fun env fmt =>
  Safe.ite ((SafeDec.safe env fmt).map _) (Safe.ite ((SafeDec.safe env fmt).map _)
  (Safe.ite ((SafeDec.safe env fmt).map _) (Safe.ite ((SafeDec.safe env fmt).map _)
  (Safe.fail _))))⟩

/-! ### Round trips -/

theorem reads_validateCode {α : Type} {d : Dec α} {w : Bytes} {a : α} (c : UInt8)
    (h : Reads d w a) : Reads (validateCode c c d) w a := by
  intro more; simp [validateCode, h more]

instance : LawfulCodec Bool := ⟨fun _ v _ more => by cases v <;> rfl⟩
instance : LawfulArray Bool := ⟨fun _ => rfl, fun _ => Nat.one_pos,
  fun _ v _ more => by cases v <;> rfl⟩

instance : LawfulArray UInt8 := ⟨fun _ => rfl, fun _ => Nat.one_pos,
  fun _ v _ => reads_validateCode _ (Reads.readU8 v)⟩
instance : LawfulCodec UInt8 := ⟨fun env v h => reads_decode (LawfulArray.art env v h)⟩

theorem reads_u16 (v : UInt16) : Reads (UInt16.ofNat <$> readBE 2) (beEnc 2 v.toNat) v := by
  have := (Reads.readBE (k := 2) (n := v.toNat) v.toNat_lt).map UInt16.ofNat
  simpa using this
theorem reads_u32 (v : UInt32) : Reads (UInt32.ofNat <$> readBE 4) (beEnc 4 v.toNat) v := by
  have := (Reads.readBE (k := 4) (n := v.toNat) v.toNat_lt).map UInt32.ofNat
  simpa using this
theorem reads_u64 (v : UInt64) : Reads (UInt64.ofNat <$> readBE 8) (beEnc 8 v.toNat) v := by
  have := (Reads.readBE (k := 8) (n := v.toNat) v.toNat_lt).map UInt64.ofNat
  simpa using this

instance : LawfulArray UInt16 := ⟨fun v => by simp [asize, aenc], fun _ => by simp [asize],
  fun _ v _ => reads_validateCode _ (reads_u16 v)⟩
instance : LawfulCodec UInt16 := ⟨fun env v h => reads_decode (LawfulArray.art env v h)⟩

instance : LawfulArray UInt32 := ⟨fun v => by simp [asize, aenc], fun _ => by simp [asize],
  fun _ v _ => reads_u32 v⟩
instance : LawfulCodec UInt32 := ⟨fun env v _ => by
  simp only [enc]
  split
  · subst_vars; exact fun _ => rfl
  · split
    · exact reads_decode (LawfulArray.art env v trivial)
    · refine reads_decode (fmt := FC.smallUint) ?_
      have := (Reads.readU8 v.toUInt8).map UInt8.toUInt32
      have e : v.toUInt8.toUInt32 = v := by
        apply UInt32.toNat_inj.1; simp; omega
      rw [e] at this
      exact this⟩

instance : LawfulArray UInt64 := ⟨fun v => by simp [asize, aenc], fun _ => by simp [asize],
  fun _ v _ => reads_u64 v⟩
instance : LawfulCodec UInt64 := ⟨fun env v _ => by
  simp only [enc]
  split
  · subst_vars; exact fun _ => rfl
  · split
    · exact reads_decode (LawfulArray.art env v trivial)
    · refine reads_decode (fmt := FC.smallUlong) ?_
      have := (Reads.readU8 v.toUInt8).map UInt8.toUInt64
      have e : v.toUInt8.toUInt64 = v := by
        apply UInt64.toNat_inj.1; simp; omega
      rw [e] at this
      exact this⟩

theorem reads_i8 (v : Int8) : Reads readI8 [v.toUInt8] v := by
  have := (Reads.readU8 v.toUInt8).map UInt8.toInt8
  rw [Int8.toInt8_toUInt8] at this; exact this
instance : LawfulArray Int8 := ⟨fun v => rfl, fun _ => Nat.one_pos,
  fun _ v _ => reads_validateCode _ (reads_i8 v)⟩
instance : LawfulCodec Int8 := ⟨fun env v h => reads_decode (LawfulArray.art env v h)⟩

theorem reads_i16 (v : Int16) :
    Reads ((fun n => (UInt16.ofNat n).toInt16) <$> readBE 2) (beEnc 2 v.toUInt16.toNat) v := by
  have := (Reads.readBE (k := 2) (n := v.toUInt16.toNat) v.toUInt16.toNat_lt).map
    (fun n => (UInt16.ofNat n).toInt16)
  simpa using this
theorem reads_i32 (v : Int32) :
    Reads ((fun n => (UInt32.ofNat n).toInt32) <$> readBE 4) (beEnc 4 v.toUInt32.toNat) v := by
  have := (Reads.readBE (k := 4) (n := v.toUInt32.toNat) v.toUInt32.toNat_lt).map
    (fun n => (UInt32.ofNat n).toInt32)
  simpa using this
theorem reads_i64 (v : Int64) :
    Reads ((fun n => (UInt64.ofNat n).toInt64) <$> readBE 8) (beEnc 8 v.toUInt64.toNat) v := by
  have := (Reads.readBE (k := 8) (n := v.toUInt64.toNat) v.toUInt64.toNat_lt).map
    (fun n => (UInt64.ofNat n).toInt64)
  simpa using this

instance : LawfulArray Int16 := ⟨fun v => by simp [asize, aenc], fun _ => by simp [asize],
  fun _ v _ => reads_validateCode _ (reads_i16 v)⟩
instance : LawfulCodec Int16 := ⟨fun env v h => reads_decode (LawfulArray.art env v h)⟩

theorem i32_toInt8_toInt32 {v : Int32} (h : ¬ (v.toInt > 127 ∨ v.toInt < -128)) :
    v.toInt8.toInt32 = v := by
  apply Int32.toInt_inj.1
  rw [Int8.toInt_toInt32, Int32.toInt_toInt8]
  rw [Int.bmod_def]; omega
theorem i64_toInt8_toInt64 {v : Int64} (h : ¬ (v.toInt > 127 ∨ v.toInt < -128)) :
    v.toInt8.toInt64 = v := by
  apply Int64.toInt_inj.1
  rw [Int8.toInt_toInt64, Int64.toInt_toInt8]
  rw [Int.bmod_def]; omega

instance : LawfulArray Int32 := ⟨fun v => by simp [asize, aenc], fun _ => by simp [asize],
  fun _ v _ => reads_i32 v⟩
instance : LawfulCodec Int32 := ⟨fun env v _ => by
  simp only [enc]
  split
  · exact reads_decode (LawfulArray.art env v trivial)
  · refine reads_decode (fmt := FC.smallInt) ?_
    have := (reads_i8 v.toInt8).map Int8.toInt32
    rw [i32_toInt8_toInt32 (by assumption)] at this
    exact this⟩
instance : LawfulArray Int64 := ⟨fun v => by simp [asize, aenc], fun _ => by simp [asize],
  fun _ v _ => reads_i64 v⟩
instance : LawfulCodec Int64 := ⟨fun env v _ => by
  simp only [enc]
  split
  · exact reads_decode (LawfulArray.art env v trivial)
  · refine reads_decode (fmt := FC.smallLong) ?_
    have := (reads_i8 v.toInt8).map Int8.toInt64
    rw [i64_toInt8_toInt64 (by assumption)] at this
    exact this⟩

instance : LawfulArray F32 := ⟨fun v => by simp [asize, aenc], fun _ => by simp [asize],
  fun _ v _ => reads_validateCode _ (by
    have := (Reads.readBE (k := 4) (n := v.bits.toNat) v.bits.toNat_lt).map
      (fun n => F32.mk (UInt32.ofNat n))
    simp only [UInt32.ofNat_toNat] at this; exact this)⟩
instance : LawfulCodec F32 := ⟨fun env v h => reads_decode (LawfulArray.art env v h)⟩
instance : LawfulArray F64 := ⟨fun v => by simp [asize, aenc], fun _ => by simp [asize],
  fun _ v _ => reads_validateCode _ (by
    have := (Reads.readBE (k := 8) (n := v.bits.toNat) v.bits.toNat_lt).map
      (fun n => F64.mk (UInt64.ofNat n))
    simp only [UInt64.ofNat_toNat] at this; exact this)⟩
instance : LawfulCodec F64 := ⟨fun env v h => reads_decode (LawfulArray.art env v h)⟩

theorem charFromU32_toNat (c : Char) : charFromU32 c.toNat = some c := by
  have h : c.toNat < 0xD800 ∨ (0xDFFF < c.toNat ∧ c.toNat < 0x110000) := c.valid
  unfold charFromU32
  rw [dif_pos h]
  congr 1

theorem charFromU32_eq_some {n : Nat} {c : Char} : charFromU32 n = some c ↔ n = c.toNat := by
  constructor
  · intro h
    unfold charFromU32 at h
    split at h
    · injection h with h; subst h
      rfl
    · cases h
  · rintro rfl; exact charFromU32_toNat c

theorem char_lt (c : Char) : c.toNat < 256 ^ 4 := by
  have h : c.toNat < 0xD800 ∨ (0xDFFF < c.toNat ∧ c.toNat < 0x110000) := c.valid
  omega

instance : LawfulArray Char := ⟨fun v => by simp [asize, aenc], fun _ => by simp [asize],
  fun _ v _ => reads_validateCode _ (by
    have := Reads.bind (Reads.readBE (char_lt v)) (f := fun o => match charFromU32 o with
      | some c => Pure.pure c
      | none => Dec.fail (.invalidChar (UInt32.ofNat o))) (w2 := []) (b := v) (by
        rw [charFromU32_toNat]; exact Reads.pure v)
    rw [List.append_nil] at this; exact this)⟩
instance : LawfulCodec Char := ⟨fun env v h => reads_decode (LawfulArray.art env v h)⟩

instance : LawfulArray Uuid := ⟨fun v => by simp [asize, aenc, v.len], fun _ => by simp [asize],
  fun _ v _ => reads_validateCode _ (by
    have := Reads.bind (Reads.takeN v.bytes v.len) (f := uuidOf) (w2 := []) (b := v) (by
      intro more; simp [uuidOf, v.len])
    rw [List.append_nil] at this; exact this)⟩
instance : LawfulCodec Uuid := ⟨fun env v h => reads_decode (LawfulArray.art env v h)⟩

theorem reads_varEnc {α : Type} [DecodeF α] {env : Env} (c8 c32 : UInt8) (b : Bytes)
    (f : Bytes → Dec α) (a : α) (hb : b.length < 2 ^ 32)
    (h8 : decF (α := α) env c8 = readBytesU8 >>= f)
    (h32 : decF (α := α) env c32 = readBytesU32 >>= f)
    (hf : Reads (f b) [] a) : Reads (decode α env) (varEnc c8 c32 b) a := by
  unfold varEnc
  split
  · refine reads_decode (fmt := c32) (w := beEnc 4 b.length ++ b) ?_
    rw [h32]
    have := Reads.bind (Reads.readBytesU32 b hb) hf
    simpa using this
  · refine reads_decode (fmt := c8) (w := UInt8.ofNat b.length :: b) ?_
    rw [h8]
    have := Reads.bind (Reads.readBytesU8 b (by omega)) hf
    simpa using this

instance : LawfulCodec Binary := ⟨fun env v h =>
  reads_varEnc FC.binary8 FC.binary32 v.data (fun b => pure ⟨b⟩) v h
    (by rw [← map_eq_pure_bind]; rfl) (by rw [← map_eq_pure_bind]; rfl) (Reads.pure _)⟩
instance : LawfulArray Binary := ⟨fun v => by simp [asize, aenc], fun _ => by simp [asize]; omega,
  fun _ v h => (Reads.readBytesU32 v.data h).map Binary.mk⟩
instance : LawfulCodec RStr := ⟨fun env v h =>
  reads_varEnc FC.string8 FC.string32 v.bytes fromUtf8 v h rfl rfl (Reads.fromUtf8 v)⟩
instance : LawfulArray RStr := ⟨fun v => by simp [asize, aenc, RStr.len],
  fun _ => by simp [asize]; omega,
  fun _ v h => by
    have := Reads.bind (Reads.readBytesU32 v.bytes h) (Reads.fromUtf8 v)
    rw [List.append_nil] at this; exact this⟩
instance : LawfulCodec Symbol := ⟨fun env v h =>
  reads_varEnc FC.symbol8 FC.symbol32 v.str.bytes (fun b => Symbol.mk <$> fromUtf8 b) v h
    (map_bind Symbol.mk readBytesU8 fromUtf8) (map_bind Symbol.mk readBytesU32 fromUtf8)
    ((Reads.fromUtf8 v.str).map _)⟩
instance : LawfulArray Symbol := ⟨fun v => by simp [asize, aenc, RStr.len],
  fun _ => by simp [asize]; omega,
  fun _ v h => by
    have := (Reads.bind (Reads.readBytesU32 v.str.bytes h) (Reads.fromUtf8 v.str)).map Symbol.mk
    rw [List.append_nil] at this; exact this⟩

/-! ### First bytes -/

theorem varEnc_head (c8 c32 : UInt8) (b : Bytes) (h8 : c8 ≠ FC.null) (h32 : c32 ≠ FC.null) :
    ∃ c w, varEnc c8 c32 b = c :: w ∧ c ≠ FC.null := by
  unfold varEnc; split
  · exact ⟨_, _, rfl, h32⟩
  · exact ⟨_, _, rfl, h8⟩

instance : NonNull Bool := ⟨fun v => by cases v <;> exact ⟨_, _, rfl, by decide⟩⟩
instance : NonNull UInt8 := ⟨fun v => ⟨_, _, rfl, by decide⟩⟩
instance : NonNull UInt16 := ⟨fun v => ⟨_, _, rfl, by decide⟩⟩
instance : NonNull UInt32 := ⟨fun v => by
  simp only [enc]; split
  · exact ⟨_, _, rfl, by decide⟩
  · split <;> exact ⟨_, _, rfl, by decide⟩⟩
instance : NonNull UInt64 := ⟨fun v => by
  simp only [enc]; split
  · exact ⟨_, _, rfl, by decide⟩
  · split <;> exact ⟨_, _, rfl, by decide⟩⟩
instance : NonNull Int8 := ⟨fun v => ⟨_, _, rfl, by decide⟩⟩
instance : NonNull Int16 := ⟨fun v => ⟨_, _, rfl, by decide⟩⟩
instance : NonNull Int32 := ⟨fun v => by
  simp only [enc]; split <;> exact ⟨_, _, rfl, by decide⟩⟩
instance : NonNull Int64 := ⟨fun v => by
  simp only [enc]; split <;> exact ⟨_, _, rfl, by decide⟩⟩
instance : NonNull F32 := ⟨fun v => ⟨_, _, rfl, by decide⟩⟩
instance : NonNull F64 := ⟨fun v => ⟨_, _, rfl, by decide⟩⟩
instance : NonNull Char := ⟨fun v => ⟨_, _, rfl, by decide⟩⟩
instance : NonNull DateTime := ⟨fun v => ⟨_, _, rfl, by decide⟩⟩
instance : NonNull Uuid := ⟨fun v => ⟨_, _, rfl, by decide⟩⟩
instance : NonNull Binary := ⟨fun _ => varEnc_head _ _ _ (by decide) (by decide)⟩
instance : NonNull RStr := ⟨fun _ => varEnc_head _ _ _ (by decide) (by decide)⟩
instance : NonNull Symbol := ⟨fun _ => varEnc_head _ _ _ (by decide) (by decide)⟩

/-! ### Option -/

instance {α : Type} [Encode α] [DecodeF α] : HasWf (Option α) :=
  ⟨fun env o => ∀ v, o = some v → RoundTrips env v⟩

theorem roundTrips_some {α : Type} [Encode α] [DecodeF α] [NonNull α] {env : Env} {v : α}
    (h : RoundTrips env v) : RoundTrips env (some v) := by
  intro more
  have h1 := h more
  obtain ⟨c, w, e, hc⟩ := NonNull.head v
  show decode (Option α) env (enc v ++ more) = _
  rw [e, List.cons_append, decode_cons] at h1 ⊢
  have e2 : decF (α := Option α) env c = some <$> decF env c := if_neg hc
  rw [e2, map_ok h1]

instance {α : Type} [Encode α] [DecodeF α] [NonNull α] :
    LawfulCodec (Option α) := ⟨fun env o h => by
  cases o with
  | none => exact fun _ => rfl
  | some v => exact roundTrips_some (h v rfl)⟩

/-! ### Timestamps -/

theorem toInt64_ofInt {m : Int} (h1 : -2 ^ 63 ≤ m) (h2 : m < 2 ^ 63) : (Int64.ofInt m).toInt = m := by
  rw [Int64.toInt_ofInt, Int.bmod_def]; simp only [Int64.size]; omega

theorem DateTime.bounds (t : DateTime) :
    minSecs ≤ t.secs ∧ t.secs ≤ maxSecs ∧ t.nanos < 2000000000 := by
  have := t.ok
  simp only [dtOk, Bool.and_eq_true, decide_eq_true_eq] at this
  omega

theorem DateTime.millis_bounds (t : DateTime) : -2 ^ 63 ≤ t.millis ∧ t.millis < 2 ^ 63 := by
  have := t.bounds
  simp only [minSecs, maxSecs] at this
  unfold DateTime.millis
  omega

/-- What the decoder makes of `m` milliseconds, in closed form. -/
theorem datetimeFromMillis_reads {m : Int} {s : Int} {n : Nat} (h : dtOk s n = true)
    (hm : (m ≤ -1000 ∧ s = -((-m) / 1000) - 1 ∧ (n : Int) = (1000 - (-m) % 1000) * 1000000) ∨
      (-1000 < m ∧ m < 0 ∧ s = 0 ∧ (n : Int) = -m * 1000000) ∨
      (0 ≤ m ∧ s = m / 1000 ∧ (n : Int) = m % 1000 * 1000000)) :
    Reads (datetimeFromMillis m) [] ⟨s, n, h⟩ := by
  intro more
  have hd : Int.tdiv m 1000 = if 0 ≤ m then m / 1000 else -((-m) / 1000) := by
    by_cases h0 : 0 ≤ m
    · rw [if_pos h0, Int.tdiv_eq_ediv_of_nonneg h0]
    · rw [if_neg h0]
      have : m = -(-m) := by omega
      rw [this, Int.neg_tdiv, Int.tdiv_eq_ediv_of_nonneg (by omega)]
      simp
  unfold datetimeFromMillis
  simp only [hd]
  by_cases h0 : 0 ≤ m
  · rw [if_pos h0, if_neg (by omega)]
    have e1 : m / 1000 = s := by omega
    have e2 : ((m - m / 1000 * 1000) * 1000000).natAbs = n := by omega
    rw [e2, e1]
    simp [utcTimestamp, h]
  · rw [if_neg h0]
    by_cases h1 : m ≤ -1000
    · rw [if_pos (by omega)]
      have e1 : -(-m / 1000) - 1 = s := by omega
      have e2 : ((1000 + (m - -(-m / 1000) * 1000)) * 1000000).natAbs = n := by omega
      rw [e1, e2]
      simp [utcTimestamp, h]
    · rw [if_neg (by omega)]
      have e1 : -(-m / 1000) = s := by omega
      have e2 : ((m - -(-m / 1000) * 1000) * 1000000).natAbs = n := by omega
      rw [e2, e1]
      simp [utcTimestamp, h]

theorem datetime_rt (t : DateTime) (h : t.canonical) : Reads (datetimeFromMillis t.millis) [] t := by
  obtain ⟨s, n, ok⟩ := t
  refine datetimeFromMillis_reads ok ?_
  obtain ⟨h1, h2⟩ := h
  simp only [DateTime.millis] at *
  have := DateTime.bounds ⟨s, n, ok⟩
  simp only at this
  omega

instance : LawfulArray DateTime := ⟨fun v => by simp [asize, aenc], fun _ => by simp [asize],
  fun _ t h => reads_validateCode _ (by
    have hb := t.millis_bounds
    have := Reads.bind
      (Reads.readBE (k := 8) (n := (Int64.ofInt t.millis).toUInt64.toNat) (UInt64.toNat_lt _))
      (f := fun n => datetimeFromMillis (UInt64.ofNat n).toInt64.toInt) (w2 := []) (b := t) (by
        simp only [UInt64.ofNat_toNat, Int64.toInt64_toUInt64]
        rw [toInt64_ofInt hb.1 hb.2]
        exact datetime_rt t h)
    rw [List.append_nil] at this; exact this)⟩
instance : LawfulCodec DateTime := ⟨fun env v h => reads_decode (LawfulArray.art env v h)⟩

end Amqp
