import Verif.Spec.Wire
import Verif.Proofs.MapLaws
import Verif.Props.Times
/-!
# Reading and writing legal encodings
-/
set_option autoImplicit false
namespace Amqp
open Dec

/-! ### Numbers -/

theorem unsigned_eq (b : Bytes) : unsigned b = beDec b := by
  induction b with
  | nil => rfl
  | cons x t ih => rw [unsigned, beDec_cons, ih]

theorem num_beEnc {k n : Nat} (h : n < 256 ^ k) : Num k (beEnc k n) n :=
  ⟨beEnc_length k n, by rw [unsigned_eq, beDec_beEnc, Nat.mod_eq_of_lt h]⟩

theorem Num.lt {w n : Nat} {b : Bytes} (h : Num w b n) : n < 256 ^ w := by
  rw [← h.value, ← h.width, unsigned_eq]; exact beDec_lt b

theorem Num.eq {w n : Nat} {b : Bytes} (h : Num w b n) : b = beEnc w n := by
  rw [← h.value, ← h.width, unsigned_eq, beEnc_beDec]

theorem Num.reads {w n : Nat} {b : Bytes} (h : Num w b n) : Reads (readBE w) b n := by
  rw [h.eq]; exact Reads.readBE h.lt

theorem Num.one {n : Nat} {b : Bytes} (h : Num 1 b n) : ∃ x : UInt8, b = [x] ∧ x.toNat = n := by
  obtain ⟨hw, hv⟩ := h
  match b, hw with
  | [x], _ => exact ⟨x, rfl, by simpa [unsigned] using hv⟩

theorem num_one (x : UInt8) : Num 1 [x] x.toNat := ⟨rfl, by simp [unsigned]⟩

theorem Num.unique {w n m : Nat} {b : Bytes} (h : Num w b n) (h' : Num w b m) : n = m := by
  rw [← h.value, h'.value]

theorem SNum.num {w : Nat} {b : Bytes} {n : Int} (h : SNum w b n) :
    ∃ k, Num w b k ∧ n = if 2 * k < 256 ^ w then (k : Int) else k - (256 ^ w : Nat) := by
  refine ⟨unsigned b, ⟨h.width, rfl⟩, ?_⟩
  rw [← h.value, signed, h.width]

theorem Num.snum {w : Nat} {b : Bytes} {k : Nat} (h : Num w b k) :
    SNum w b (if 2 * k < 256 ^ w then (k : Int) else k - (256 ^ w : Nat)) :=
  ⟨h.width, by rw [signed, h.width, h.value]⟩


theorem toInt8_cond (u : UInt8) : u.toInt8.toInt =
    if 2 * u.toNat < 256 ^ 1 then (u.toNat : Int) else u.toNat - (256 ^ 1 : Nat) := by
  show u.toBitVec.toInt = _
  rw [BitVec.toInt_eq_toNat_cond]; rfl

theorem Num.snum8 {b : Bytes} {k : Nat} (h : Num 1 b k) :
    SNum 1 b (UInt8.ofNat k).toInt8.toInt := by
  have hk : (UInt8.ofNat k).toNat = k := by
    rw [UInt8.toNat_ofNat']; exact Nat.mod_eq_of_lt h.lt
  rw [toInt8_cond, hk]; exact h.snum

theorem SNum.num8 {b : Bytes} {a : Int8} (h : SNum 1 b a.toInt) :
    ∃ k, Num 1 b k ∧ (UInt8.ofNat k).toInt8 = a := by
  obtain ⟨k, hk, e⟩ := h.num
  refine ⟨k, hk, Int8.toInt_inj.1 ?_⟩
  have hk : (UInt8.ofNat k).toNat = k := by
    rw [UInt8.toNat_ofNat']; exact Nat.mod_eq_of_lt hk.lt
  rw [toInt8_cond, hk, e]

theorem toInt16_cond (u : UInt16) : u.toInt16.toInt =
    if 2 * u.toNat < 256 ^ 2 then (u.toNat : Int) else u.toNat - (256 ^ 2 : Nat) := by
  show u.toBitVec.toInt = _
  rw [BitVec.toInt_eq_toNat_cond]; rfl

theorem Num.snum16 {b : Bytes} {k : Nat} (h : Num 2 b k) :
    SNum 2 b (UInt16.ofNat k).toInt16.toInt := by
  have hk : (UInt16.ofNat k).toNat = k := by
    rw [UInt16.toNat_ofNat']; exact Nat.mod_eq_of_lt h.lt
  rw [toInt16_cond, hk]; exact h.snum

theorem SNum.num16 {b : Bytes} {a : Int16} (h : SNum 2 b a.toInt) :
    ∃ k, Num 2 b k ∧ (UInt16.ofNat k).toInt16 = a := by
  obtain ⟨k, hk, e⟩ := h.num
  refine ⟨k, hk, Int16.toInt_inj.1 ?_⟩
  have hk : (UInt16.ofNat k).toNat = k := by
    rw [UInt16.toNat_ofNat']; exact Nat.mod_eq_of_lt hk.lt
  rw [toInt16_cond, hk, e]

theorem toInt32_cond (u : UInt32) : u.toInt32.toInt =
    if 2 * u.toNat < 256 ^ 4 then (u.toNat : Int) else u.toNat - (256 ^ 4 : Nat) := by
  show u.toBitVec.toInt = _
  rw [BitVec.toInt_eq_toNat_cond]; rfl

theorem Num.snum32 {b : Bytes} {k : Nat} (h : Num 4 b k) :
    SNum 4 b (UInt32.ofNat k).toInt32.toInt := by
  have hk : (UInt32.ofNat k).toNat = k := by
    rw [UInt32.toNat_ofNat']; exact Nat.mod_eq_of_lt h.lt
  rw [toInt32_cond, hk]; exact h.snum

theorem SNum.num32 {b : Bytes} {a : Int32} (h : SNum 4 b a.toInt) :
    ∃ k, Num 4 b k ∧ (UInt32.ofNat k).toInt32 = a := by
  obtain ⟨k, hk, e⟩ := h.num
  refine ⟨k, hk, Int32.toInt_inj.1 ?_⟩
  have hk : (UInt32.ofNat k).toNat = k := by
    rw [UInt32.toNat_ofNat']; exact Nat.mod_eq_of_lt hk.lt
  rw [toInt32_cond, hk, e]

theorem toInt64_cond (u : UInt64) : u.toInt64.toInt =
    if 2 * u.toNat < 256 ^ 8 then (u.toNat : Int) else u.toNat - (256 ^ 8 : Nat) := by
  show u.toBitVec.toInt = _
  rw [BitVec.toInt_eq_toNat_cond]; rfl

theorem Num.snum64 {b : Bytes} {k : Nat} (h : Num 8 b k) :
    SNum 8 b (UInt64.ofNat k).toInt64.toInt := by
  have hk : (UInt64.ofNat k).toNat = k := by
    rw [UInt64.toNat_ofNat']; exact Nat.mod_eq_of_lt h.lt
  rw [toInt64_cond, hk]; exact h.snum

theorem SNum.num64 {b : Bytes} {a : Int64} (h : SNum 8 b a.toInt) :
    ∃ k, Num 8 b k ∧ (UInt64.ofNat k).toInt64 = a := by
  obtain ⟨k, hk, e⟩ := h.num
  refine ⟨k, hk, Int64.toInt_inj.1 ?_⟩
  have hk : (UInt64.ofNat k).toNat = k := by
    rw [UInt64.toNat_ofNat']; exact Nat.mod_eq_of_lt hk.lt
  rw [toInt64_cond, hk, e]

/-! ### The two directions, by kind of format -/

section
variable {α : Type} {d : Dec α}

theorem readBE_num {k n : Nat} {b : Bytes} (h : readBE k b = .ok ([], n)) : Num k b n := by
  obtain ⟨c, rfl, hl, rfl, _⟩ := readBE_ok h
  rw [List.append_nil]
  exact ⟨hl, unsigned_eq c⟩

theorem readU8_num {x : UInt8} {b : Bytes} (h : readU8 b = .ok ([], x)) : Num 1 b x.toNat := by
  rw [readU8_ok h]; exact num_one x

theorem Num.reads_u8 {b : Bytes} {n : Nat} (h : Num 1 b n) :
    ∃ x : UInt8, x.toNat = n ∧ Reads readU8 b x := by
  obtain ⟨x, rfl, hx⟩ := h.one
  exact ⟨x, hx, Reads.readU8 x⟩

theorem reads_sized {c8 c32 c : UInt8} {w : Nat} {l b : Bytes} (hs : Sized c8 c32 c w)
    (hl : Num w l b.length) :
    (c = c8 ∧ Reads readBytesU8 (l ++ b) b) ∨ (c = c32 ∧ Reads readBytesU32 (l ++ b) b) := by
  cases hs with
  | narrow =>
    obtain ⟨x, rfl, hx⟩ := hl.one
    refine .inl ⟨rfl, ?_⟩
    exact Reads.bind (w1 := [x]) (Reads.readU8 x) (Reads.takeN b hx.symm)
  | wide => exact .inr ⟨rfl, Reads.bind hl.reads (Reads.takeN b rfl)⟩

theorem sized_u8 {c8 c32 : UInt8} {t b : Bytes} (h : readBytesU8 t = .ok ([], b)) :
    ∃ w l, Sized c8 c32 c8 w ∧ Num w l b.length ∧ t = l ++ b := by
  obtain ⟨hl, rfl⟩ := readBytesU8_ok h
  refine ⟨1, [UInt8.ofNat b.length], .narrow, ?_, by simp⟩
  have := num_one (UInt8.ofNat b.length)
  rwa [UInt8.toNat_ofNat', Nat.mod_eq_of_lt (by omega)] at this

theorem sized_u32 {c8 c32 : UInt8} {t b : Bytes} (h : readBytesU32 t = .ok ([], b)) :
    ∃ w l, Sized c8 c32 c32 w ∧ Num w l b.length ∧ t = l ++ b := by
  obtain ⟨hl, rfl⟩ := readBytesU32_ok h
  exact ⟨4, beEnc 4 b.length, .wide, num_beEnc (by omega), by simp⟩

end

theorem decides_of {α : Type} [DecodeF α] {L : α → Bytes → Prop}
    (complete : ∀ env a b, L a b → Reads (decode α env) b a)
    (sound : ∀ env a b, decode α env b = .ok ([], a) → L a b) : Decides α L := fun env b a =>
  ⟨fun h => sound env a b (by have := h []; rwa [List.append_nil] at this),
    fun h => complete env a b h⟩

theorem decides_u8 : Decides UInt8 fun n => Prim (.ubyte n) := decides_of
  (fun env a b h => by
    cases h with
    | ubyte h =>
      obtain ⟨x, hx, hr⟩ := h.reads_u8
      obtain rfl := UInt8.toNat_inj.1 hx
      exact reads_decode hr)
  (fun env a b h => by
    obtain ⟨c, t, rfl, g1⟩ := decode_ok h
    obtain ⟨rfl, g2⟩ := validateCode_ok g1
    exact .ubyte (readU8_num g2))

theorem decides_u16 : Decides UInt16 fun n => Prim (.ushort n) := decides_of
  (fun env a b h => by
    cases h with
    | ushort h =>
      have := h.reads.map UInt16.ofNat
      rw [UInt16.ofNat_toNat] at this
      exact reads_decode this)
  (fun env a b h => by
    obtain ⟨c, t, rfl, g1⟩ := decode_ok h
    obtain ⟨rfl, g2⟩ := validateCode_ok g1
    obtain ⟨k, g3, rfl⟩ := map_eq_ok.1 g2
    have hk := readBE_num g3
    refine .ushort ?_
    rwa [UInt16.toNat_ofNat', Nat.mod_eq_of_lt hk.lt])

theorem ite_cases {α : Type} {p : Prop} [Decidable p] {d e : Dec α} {i r : Bytes} {a : α}
    (h : (if p then d else e) i = .ok (r, a)) :
    (p ∧ d i = .ok (r, a)) ∨ (¬ p ∧ e i = .ok (r, a)) := by
  by_cases hp : p
  · rw [if_pos hp] at h; exact .inl ⟨hp, h⟩
  · rw [if_neg hp] at h; exact .inr ⟨hp, h⟩

theorem pure_cases {α : Type} {i r : Bytes} {a b : α} (h : (pure b : Dec α) i = .ok (r, a)) :
    i = r ∧ b = a := by
  injection h with h; injection h with h1 h2; exact ⟨h1, h2⟩


theorem decides_u32 : Decides UInt32 fun n => Prim (.uint n) := decides_of
  (fun env a b h => by
    cases h with
    | uint h =>
      have := h.reads.map UInt32.ofNat
      rw [UInt32.ofNat_toNat] at this
      exact reads_decode this
    | smalluint h =>
      obtain ⟨x, hx, hr⟩ := h.reads_u8
      have := hr.map UInt8.toUInt32
      rw [show x.toUInt32 = a from UInt32.toNat_inj.1 (by rw [← hx]; simp)] at this
      exact reads_decode this
    | uint0 => exact fun more => rfl)
  (fun env a b h => by
    obtain ⟨c, t, rfl, g1⟩ := decode_ok h
    rcases ite_cases g1 with ⟨rfl, g2⟩ | ⟨_, g2⟩
    · obtain ⟨k, g3, rfl⟩ := map_eq_ok.1 g2
      have hk := readBE_num g3
      refine .uint ?_
      rwa [UInt32.toNat_ofNat', Nat.mod_eq_of_lt hk.lt]
    rcases ite_cases g2 with ⟨rfl, g4⟩ | ⟨_, g4⟩
    · obtain ⟨x, g5, rfl⟩ := map_eq_ok.1 g4
      have hk := readU8_num g5
      refine .smalluint ?_
      simpa using hk
    rcases ite_cases g4 with ⟨rfl, g6⟩ | ⟨_, g6⟩
    · obtain ⟨rfl, rfl⟩ := pure_cases g6
      exact .uint0
    · cases g6)

theorem decides_u64 : Decides UInt64 fun n => Prim (.ulong n) := decides_of
  (fun env a b h => by
    cases h with
    | ulong h =>
      have := h.reads.map UInt64.ofNat
      rw [UInt64.ofNat_toNat] at this
      exact reads_decode this
    | smallulong h =>
      obtain ⟨x, hx, hr⟩ := h.reads_u8
      have := hr.map UInt8.toUInt64
      rw [show x.toUInt64 = a from UInt64.toNat_inj.1 (by rw [← hx]; simp)] at this
      exact reads_decode this
    | ulong0 => exact fun more => rfl)
  (fun env a b h => by
    obtain ⟨c, t, rfl, g1⟩ := decode_ok h
    rcases ite_cases g1 with ⟨rfl, g2⟩ | ⟨_, g2⟩
    · obtain ⟨k, g3, rfl⟩ := map_eq_ok.1 g2
      have hk := readBE_num g3
      refine .ulong ?_
      rwa [UInt64.toNat_ofNat', Nat.mod_eq_of_lt hk.lt]
    rcases ite_cases g2 with ⟨rfl, g4⟩ | ⟨_, g4⟩
    · obtain ⟨x, g5, rfl⟩ := map_eq_ok.1 g4
      have hk := readU8_num g5
      refine .smallulong ?_
      simpa using hk
    rcases ite_cases g4 with ⟨rfl, g6⟩ | ⟨_, g6⟩
    · obtain ⟨rfl, rfl⟩ := pure_cases g6
      exact .ulong0
    · cases g6)

theorem decides_i8 : Decides Int8 fun n => Prim (.byte n) := decides_of
  (fun env a b h => by
    cases h with
    | byte h =>
      obtain ⟨k, hk, rfl⟩ := h.num8
      obtain ⟨x, rfl, hr⟩ := hk.reads_u8
      have := hr.map UInt8.toInt8
      rw [UInt8.ofNat_toNat]
      exact reads_decode this)
  (fun env a b h => by
    obtain ⟨c, t, rfl, g1⟩ := decode_ok h
    obtain ⟨rfl, g2⟩ := validateCode_ok g1
    obtain ⟨x, g3, rfl⟩ := map_eq_ok.1 g2
    have := (readU8_num g3).snum8
    rw [UInt8.ofNat_toNat] at this
    exact .byte this)

theorem decides_i16 : Decides Int16 fun n => Prim (.short n) := decides_of
  (fun env a b h => by
    cases h with
    | short h =>
      obtain ⟨k, hk, rfl⟩ := h.num16
      exact reads_decode (hk.reads.map fun n => (UInt16.ofNat n).toInt16))
  (fun env a b h => by
    obtain ⟨c, t, rfl, g1⟩ := decode_ok h
    obtain ⟨rfl, g2⟩ := validateCode_ok g1
    obtain ⟨x, g3, rfl⟩ := map_eq_ok.1 g2
    exact .short (readBE_num g3).snum16)

theorem toInt32_of_i8 (x : Int8) : x.toInt32.toInt = x.toInt := by
  simp

theorem decides_i32 : Decides Int32 fun n => Prim (.int n) := decides_of
  (fun env a b h => by
    cases h with
    | int h =>
      obtain ⟨k, hk, rfl⟩ := h.num32
      exact reads_decode (hk.reads.map fun n => (UInt32.ofNat n).toInt32)
    | smallint h =>
      obtain ⟨k, hk, e⟩ := h.num
      obtain ⟨x, rfl, hr⟩ := hk.reads_u8
      have := (hr.map UInt8.toInt8).map Int8.toInt32
      rw [show x.toInt8.toInt32 = a from Int32.toInt_inj.1 (by
        rw [toInt32_of_i8, toInt8_cond, e])] at this
      exact reads_decode this)
  (fun env a b h => by
    obtain ⟨c, t, rfl, g1⟩ := decode_ok h
    rcases ite_cases g1 with ⟨rfl, g2⟩ | ⟨_, g2⟩
    · obtain ⟨x, g3, rfl⟩ := map_eq_ok.1 g2
      exact .int (readBE_num g3).snum32
    rcases ite_cases g2 with ⟨rfl, g4⟩ | ⟨_, g4⟩
    · obtain ⟨y, g5, rfl⟩ := map_eq_ok.1 g4
      obtain ⟨x, g6, rfl⟩ := map_eq_ok.1 g5
      have := (readU8_num g6).snum8
      rw [UInt8.ofNat_toNat] at this
      refine .smallint ?_
      rwa [toInt32_of_i8]
    · cases g4)

theorem toInt64_of_i8 (x : Int8) : x.toInt64.toInt = x.toInt := by
  simp

theorem decides_i64 : Decides Int64 fun n => Prim (.long n) := decides_of
  (fun env a b h => by
    cases h with
    | long h =>
      obtain ⟨k, hk, rfl⟩ := h.num64
      exact reads_decode (hk.reads.map fun n => (UInt64.ofNat n).toInt64)
    | smalllong h =>
      obtain ⟨k, hk, e⟩ := h.num
      obtain ⟨x, rfl, hr⟩ := hk.reads_u8
      have := (hr.map UInt8.toInt8).map Int8.toInt64
      rw [show x.toInt8.toInt64 = a from Int64.toInt_inj.1 (by
        rw [toInt64_of_i8, toInt8_cond, e])] at this
      exact reads_decode this)
  (fun env a b h => by
    obtain ⟨c, t, rfl, g1⟩ := decode_ok h
    rcases ite_cases g1 with ⟨rfl, g2⟩ | ⟨_, g2⟩
    · obtain ⟨x, g3, rfl⟩ := map_eq_ok.1 g2
      exact .long (readBE_num g3).snum64
    rcases ite_cases g2 with ⟨rfl, g4⟩ | ⟨_, g4⟩
    · obtain ⟨y, g5, rfl⟩ := map_eq_ok.1 g4
      obtain ⟨x, g6, rfl⟩ := map_eq_ok.1 g5
      have := (readU8_num g6).snum8
      rw [UInt8.ofNat_toNat] at this
      refine .smalllong ?_
      rwa [toInt64_of_i8]
    · cases g4)

theorem decides_f32 : Decides F32 fun x => Prim (.float x) := decides_of
  (fun env a b h => by
    cases h with
    | float h =>
      have := h.reads.map fun n => (⟨UInt32.ofNat n⟩ : F32)
      rw [UInt32.ofNat_toNat] at this
      exact reads_decode this)
  (fun env a b h => by
    obtain ⟨c, t, rfl, g1⟩ := decode_ok h
    obtain ⟨rfl, g2⟩ := validateCode_ok g1
    obtain ⟨k, g3, rfl⟩ := map_eq_ok.1 g2
    have hk := readBE_num g3
    refine .float ?_
    show Num _ _ (UInt32.ofNat k).toNat
    rwa [UInt32.toNat_ofNat', Nat.mod_eq_of_lt hk.lt])

theorem decides_f64 : Decides F64 fun x => Prim (.double x) := decides_of
  (fun env a b h => by
    cases h with
    | double h =>
      have := h.reads.map fun n => (⟨UInt64.ofNat n⟩ : F64)
      rw [UInt64.ofNat_toNat] at this
      exact reads_decode this)
  (fun env a b h => by
    obtain ⟨c, t, rfl, g1⟩ := decode_ok h
    obtain ⟨rfl, g2⟩ := validateCode_ok g1
    obtain ⟨k, g3, rfl⟩ := map_eq_ok.1 g2
    have hk := readBE_num g3
    refine .double ?_
    show Num _ _ (UInt64.ofNat k).toNat
    rwa [UInt64.toNat_ofNat', Nat.mod_eq_of_lt hk.lt])

theorem decides_char : Decides Char fun c => Prim (.char c) := decides_of
  (fun env a b h => by
    cases h with
    | char h =>
      have := h.reads.bind (f := fun o => match charFromU32 o with
        | some c => (pure c : Dec Char)
        | none => Dec.fail (.invalidChar (UInt32.ofNat o))) (w2 := []) (b := a) (by
          rw [charFromU32_toNat]; exact Reads.pure a)
      rw [List.append_nil] at this
      exact reads_decode this)
  (fun env a b h => by
    obtain ⟨c, t, rfl, g1⟩ := decode_ok h
    obtain ⟨rfl, g2⟩ := validateCode_ok g1
    obtain ⟨r, k, h1, h2⟩ := bind_eq_ok.1 g2
    cases e : charFromU32 k with
    | none => rw [e] at h2; cases h2
    | some ch =>
      rw [e] at h2
      obtain ⟨rfl, rfl⟩ := pure_cases h2
      have := readBE_num h1
      rw [charFromU32_eq_some.1 e] at this
      exact .char this)

theorem decides_uuid : Decides Uuid fun u => Prim (.uuid u) := decides_of
  (fun env a b h => by
    cases h with
    | uuid =>
      have := (Reads.takeN a.bytes a.len).bind (f := uuidOf) (w2 := []) (b := a) (by
        intro more; rw [uuidOf, dif_pos a.len]; rfl)
      rw [List.append_nil] at this
      exact reads_decode this)
  (fun env a b h => by
    obtain ⟨c, t, rfl, g1⟩ := decode_ok h
    obtain ⟨rfl, g2⟩ := validateCode_ok g1
    obtain ⟨r, k, h1, h2⟩ := bind_eq_ok.1 g2
    obtain ⟨rfl, hl⟩ := takeN_ok h1
    rw [uuidOf, dif_pos hl] at h2
    obtain ⟨rfl, rfl⟩ := pure_cases h2
    rw [List.append_nil]
    exact .uuid (u := ⟨k, hl⟩))

theorem decides_binary : Decides Binary fun x => Prim (.binary x) := decides_of
  (fun env a b h => by
    cases h with
    | binary hs hl =>
      rcases reads_sized hs hl with ⟨rfl, hr⟩ | ⟨rfl, hr⟩
      · exact reads_decode (hr.map Binary.mk)
      · exact reads_decode (hr.map Binary.mk))
  (fun env a b h => by
    obtain ⟨c, t, rfl, g1⟩ := decode_ok h
    rcases ite_cases g1 with ⟨rfl, g2⟩ | ⟨_, g2⟩
    · obtain ⟨x, g3, rfl⟩ := map_eq_ok.1 g2
      obtain ⟨w, l, hs, hl, rfl⟩ := sized_u8 (c8 := 0xa0) (c32 := 0xb0) g3
      exact .binary (x := ⟨x⟩) hs hl
    rcases ite_cases g2 with ⟨rfl, g4⟩ | ⟨_, g4⟩
    · obtain ⟨x, g5, rfl⟩ := map_eq_ok.1 g4
      obtain ⟨w, l, hs, hl, rfl⟩ := sized_u32 (c8 := 0xa0) (c32 := 0xb0) g5
      exact .binary (x := ⟨x⟩) hs hl
    · cases g4)

theorem reads_text {d : Dec Bytes} {u : Bytes} (s : RStr) (h : Reads d u s.bytes) :
    Reads (d >>= fromUtf8) u s := by
  have := h.bind (f := fromUtf8) (Reads.fromUtf8 s)
  rwa [List.append_nil] at this

theorem text_cases {d : Dec Bytes} {i : Bytes} {s : RStr} (h : (d >>= fromUtf8) i = .ok ([], s)) :
    d i = .ok ([], s.bytes) := by
  obtain ⟨r, b, h1, h2⟩ := bind_eq_ok.1 h
  obtain ⟨rfl, rfl⟩ := fromUtf8_ok h2
  exact h1

theorem decides_string : Decides Str fun s => Prim (.string s) := decides_of
  (fun env a b h => by
    cases h with
    | string hs hl =>
      rcases reads_sized hs hl with ⟨rfl, hr⟩ | ⟨rfl, hr⟩
      · exact reads_decode (reads_text a hr)
      · exact reads_decode (reads_text a hr))
  (fun env a b h => by
    obtain ⟨c, t, rfl, g1⟩ := decode_ok h
    rcases ite_cases g1 with ⟨rfl, g2⟩ | ⟨_, g2⟩
    · obtain ⟨w, l, hs, hl, rfl⟩ := sized_u8 (c8 := 0xa1) (c32 := 0xb1) (text_cases g2)
      exact .string hs hl
    rcases ite_cases g2 with ⟨rfl, g3⟩ | ⟨_, g3⟩
    · obtain ⟨w, l, hs, hl, rfl⟩ := sized_u32 (c8 := 0xa1) (c32 := 0xb1) (text_cases g3)
      exact .string hs hl
    · cases g3)

/-- Symbols as the crate reads them: the standard's encodings without the
restriction to ASCII. -/
theorem means_symbol (env : Env) (b : Bytes) (s : Symbol) : Means env b s ↔
    ∃ c w l, Sized 0xa3 0xb3 c w ∧ Num w l s.str.bytes.length ∧ b = c :: (l ++ s.str.bytes) := by
  constructor
  · intro h
    have g1 := h []
    rw [List.append_nil] at g1
    obtain ⟨c, t, rfl, g2⟩ := decode_ok g1
    rcases ite_cases g2 with ⟨rfl, g3⟩ | ⟨_, g3⟩
    · obtain ⟨x, g4, rfl⟩ := map_eq_ok.1 g3
      obtain ⟨w, l, hs, hl, rfl⟩ := sized_u8 (c8 := 0xa3) (c32 := 0xb3) (text_cases g4)
      exact ⟨_, w, l, hs, hl, rfl⟩
    rcases ite_cases g3 with ⟨rfl, g5⟩ | ⟨_, g5⟩
    · obtain ⟨x, g6, rfl⟩ := map_eq_ok.1 g5
      obtain ⟨w, l, hs, hl, rfl⟩ := sized_u32 (c8 := 0xa3) (c32 := 0xb3) (text_cases g6)
      exact ⟨_, w, l, hs, hl, rfl⟩
    · cases g5
  · rintro ⟨c, w, l, hs, hl, rfl⟩
    rcases reads_sized hs hl with ⟨rfl, hr⟩ | ⟨rfl, hr⟩
    · exact reads_decode ((reads_text s.str hr).map Symbol.mk)
    · exact reads_decode ((reads_text s.str hr).map Symbol.mk)

theorem means_bool (env : Env) (b : Bytes) (v : Bool) : Means env b v ↔
    b = [if v then 0x41 else 0x42] ∨ ∃ x : UInt8, b = [0x56, x] ∧ v = (x != 0) := by
  constructor
  · intro h
    have g1 := h []
    rw [List.append_nil] at g1
    obtain ⟨c, t, rfl, g2⟩ := decode_ok g1
    rcases ite_cases g2 with ⟨rfl, g3⟩ | ⟨_, g3⟩
    · obtain ⟨x, g4, rfl⟩ := map_eq_ok.1 g3
      have := readU8_ok g4; subst this
      exact .inr ⟨x, rfl, rfl⟩
    rcases ite_cases g3 with ⟨rfl, g5⟩ | ⟨_, g5⟩
    · obtain ⟨rfl, rfl⟩ := pure_cases g5; exact .inl rfl
    rcases ite_cases g5 with ⟨rfl, g6⟩ | ⟨_, g6⟩
    · obtain ⟨rfl, rfl⟩ := pure_cases g6; exact .inl rfl
    · cases g6
  · rintro (rfl | ⟨x, rfl, rfl⟩)
    · cases v <;> exact fun _ => rfl
    · exact fun _ => rfl

/-! ### Compound values -/

theorem reads_sizedHeader {env : Env} {c8 c32 c : UInt8} {hd : UInt8 → Dec CompoundHeader}
    {w size count : Nat} {s n : Bytes} (h8 : hd c8 = decodeCompound8 env)
    (h32 : hd c32 = decodeCompound32 env) (hc : Sized c8 c32 c w) (hs : Num w s (w + size))
    (hn : Num w n count) : Reads (hd c) (s ++ n) ⟨size, count⟩ := by
  have h1 := hs.lt
  have h2 := hn.lt
  cases hc with
  | narrow =>
    rw [h8, hs.eq, hn.eq, Nat.add_comm 1 size]
    have := reads_compound8 env (n := size) (k := count) (by omega) (by omega)
    simpa [beEnc] using this
  | wide =>
    rw [h32, hs.eq, hn.eq, Nat.add_comm 4 size]
    exact reads_compound32 env (by omega) (by omega)

theorem reads_decodeN {α : Type} {d : Dec α} : ∀ items : List (α × Bytes),
    (∀ p ∈ items, Reads d p.2 p.1) →
    Reads (decodeN d items.length) (items.flatMap Prod.snd) (items.map Prod.fst)
  | [], _ => fun _ => rfl
  | (a, u) :: t, h => by
    intro more
    have h1 : Reads d u a := h (a, u) (by simp)
    have h2 := reads_decodeN t (fun p hp => h p (by simp [hp]))
    have := Reads.bind (f := fun x => decodeN d t.length >>= fun xs => Pure.pure (x :: xs))
      h1 (Reads.bind h2 (Reads.pure (a :: t.map Prod.fst)))
    simpa [decodeN] using this more

theorem reads_mapLoop {K V : Type} [HKey K] {kd : Dec K} {vd : Dec V} :
    ∀ (items : List ((K × Bytes) × (V × Bytes))) (acc : List (K × V)),
    (∀ p ∈ items, Reads kd p.1.2 p.1.1) → (∀ p ∈ items, Reads vd p.2.2 p.2.1) →
    (∀ p ∈ items, HKey.hashOk p.1.1 = true) →
    NodupKeys (acc ++ items.map fun p => (p.1.1, p.2.1)) →
    Reads (mapLoop kd vd items.length acc) (items.flatMap fun p => p.1.2 ++ p.2.2)
      (acc ++ items.map fun p => (p.1.1, p.2.1))
  | [], acc, _, _, _, _ => by intro more; simp [mapLoop]
  | ((k, ku), (v, vu)) :: t, acc, hk, hv, hh, hn => by
    intro more
    have h1 : Reads kd ku k := hk _ (List.mem_cons_self ..)
    have h2 : Reads vd vu v := hv _ (List.mem_cons_self ..)
    have h3 : HKey.hashOk k = true := hh _ (List.mem_cons_self ..)
    have hf : insertEntry HKey.keq k v acc = acc ++ [(k, v)] := insertEntry_fresh _ _ _ _ fun e he =>
      (List.pairwise_append.1 hn).2.2 e he (k, v) (by simp)
    have ih := reads_mapLoop t (acc ++ [(k, v)]) (fun e he => hk e (by simp [he]))
      (fun e he => hv e (by simp [he])) (fun e he => hh e (by simp [he])) (by simpa using hn) more
    show mapLoop kd vd (t.length + 1) acc (((k, ku), (v, vu)) :: t |>.flatMap _ |>.append more) = _
    show mapLoop kd vd (t.length + 1) acc ((ku ++ vu ++ t.flatMap fun p => p.1.2 ++ p.2.2) ++ more) = _
    rw [List.append_assoc, List.append_assoc]
    unfold mapLoop
    rw [bind_ok (h1 _), bind_ok (h2 _), if_pos h3, hf, ih]
    simp

theorem reads_withSlice {α : Type} {d : Dec α} {u : Bytes} {a : α} (h : Reads d u a) :
    Reads (withSlice u.length d) u a :=
  Reads.withSlice (r := []) rfl (by have := h []; rwa [List.append_nil] at this)

theorem reads_mapWith {K V : Type} [HKey K] {kd : Dec K} {vd : Dec V} {env : Env} {c : UInt8}
    {w : Nat} {s n : Bytes} (items : List ((K × Bytes) × (V × Bytes)))
    (hc : Sized 0xc1 0xd1 c w)
    (hs : Num w s (w + (items.flatMap fun p => p.1.2 ++ p.2.2).length))
    (hn : Num w n (2 * items.length))
    (hk : ∀ p ∈ items, Reads kd p.1.2 p.1.1) (hv : ∀ p ∈ items, Reads vd p.2.2 p.2.1)
    (hh : ∀ p ∈ items, HKey.hashOk p.1.1 = true)
    (hd : NodupKeys (items.map fun p => (p.1.1, p.2.1))) :
    Reads (decodeMapWith kd vd env c) (s ++ n ++ items.flatMap fun p => p.1.2 ++ p.2.2)
      (items.map fun p => (p.1.1, p.2.1)) := by
  refine (reads_sizedHeader (hd := decodeMapHeader env) rfl rfl hc hs hn).bind ?_
  have h1 := reads_mapLoop items [] hk hv hh (by simpa using hd)
  have h2 := reads_withSlice h1
  simp only [List.nil_append] at h2
  show Reads (withSlice _ (mapLoop kd vd (2 * items.length / 2) [])) _ _
  rw [Nat.mul_div_cancel_left _ (by decide)]
  exact h2

/-! ### Variants -/

theorem reads_prim (env : Env) (d : Nat) {v : Variant} {b : Bytes} (h : Prim v b) :
    Reads (decVar env (d + 1)) b v := by
  cases h with
  | null => exact fun _ => rfl
  | true => exact fun _ => rfl
  | false => exact fun _ => rfl
  | boolTrue => exact fun _ => rfl
  | boolFalse => exact fun _ => rfl
  | uint0 => exact fun _ => rfl
  | ulong0 => exact fun _ => rfl
  | ubyte h => exact fun more => map_ok (f := Variant.ubyte) ((decides_u8 env _ _).2 (.ubyte h) more)
  | ushort h =>
    exact fun more => map_ok (f := Variant.ushort) ((decides_u16 env _ _).2 (.ushort h) more)
  | uint h => exact fun more => map_ok (f := Variant.uint) ((decides_u32 env _ _).2 (.uint h) more)
  | smalluint h =>
    exact fun more => map_ok (f := Variant.uint) ((decides_u32 env _ _).2 (.smalluint h) more)
  | ulong h => exact fun more => map_ok (f := Variant.ulong) ((decides_u64 env _ _).2 (.ulong h) more)
  | smallulong h =>
    exact fun more => map_ok (f := Variant.ulong) ((decides_u64 env _ _).2 (.smallulong h) more)
  | byte h => exact fun more => map_ok (f := Variant.byte) ((decides_i8 env _ _).2 (.byte h) more)
  | short h => exact fun more => map_ok (f := Variant.short) ((decides_i16 env _ _).2 (.short h) more)
  | int h => exact fun more => map_ok (f := Variant.int) ((decides_i32 env _ _).2 (.int h) more)
  | smallint h =>
    exact fun more => map_ok (f := Variant.int) ((decides_i32 env _ _).2 (.smallint h) more)
  | long h => exact fun more => map_ok (f := Variant.long) ((decides_i64 env _ _).2 (.long h) more)
  | smalllong h =>
    exact fun more => map_ok (f := Variant.long) ((decides_i64 env _ _).2 (.smalllong h) more)
  | float h => exact fun more => map_ok (f := Variant.float) ((decides_f32 env _ _).2 (.float h) more)
  | double h =>
    exact fun more => map_ok (f := Variant.double) ((decides_f64 env _ _).2 (.double h) more)
  | char h => exact fun more => map_ok (f := Variant.char) ((decides_char env _ _).2 (.char h) more)
  | uuid => exact fun more => map_ok (f := Variant.uuid) ((decides_uuid env _ _).2 .uuid more)
  | binary hs hl =>
    have := (decides_binary env _ _).2 (.binary hs hl)
    cases hs <;> exact fun more => map_ok (f := Variant.binary) (this more)
  | string hs hl =>
    have := (decides_string env _ _).2 (.string hs hl)
    cases hs <;> exact fun more => map_ok (f := Variant.string) (this more)
  | symbol hs hl _ =>
    have := (means_symbol env _ _).2 ⟨_, _, _, hs, hl, rfl⟩
    cases hs <;> exact fun more => map_ok (f := Variant.symbol) (this more)

theorem snum_timestamp {b : Bytes} {m : Int} (h : SNum 8 b m) :
    ∃ i : Int64, i.toInt = m ∧ 0x83 :: b = timestampWire i := by
  obtain ⟨k, hk, e⟩ := h.num
  have h1 : (UInt64.ofNat k).toNat = k := by
    rw [UInt64.toNat_ofNat']; exact Nat.mod_eq_of_lt hk.lt
  refine ⟨(UInt64.ofNat k).toInt64, by rw [toInt64_cond, h1, e], ?_⟩
  rw [timestampWire, hk.eq]
  simp only [UInt64.toUInt64_toInt64, h1]

theorem reads_timestamp (env : Env) {t : DateTime} {m : Int} {b : Bytes} (h : SNum 8 b m)
    (hm : t.secs * 1000000000 + t.nanos = m * 1000000) (ht : t.Survives) :
    Means env (0x83 :: b) t := by
  obtain ⟨i, rfl, e⟩ := snum_timestamp h
  rw [e, ← enc_timestamp (t := t) (m := i) (by unfold DateTime.millis; omega)]
  exact LawfulCodec.rt env t ht

theorem means_descriptor (env : Env) {d : Descriptor} {b : Bytes} (h : LegalDesc d b)
    (hb : b ≠ [0x44]) : Means env b d := by
  cases d with
  | ulong n =>
    have := (decides_u64 env b n).2 h
    cases h with
    | ulong0 => exact absurd rfl hb
    | ulong _ => exact fun more => map_ok (f := Descriptor.ulong) (this more)
    | smallulong _ => exact fun more => map_ok (f := Descriptor.ulong) (this more)
  | symbol s =>
    cases h with
    | symbol hs hl _ =>
      have := (means_symbol env _ _).2 ⟨_, _, _, hs, hl, rfl⟩
      cases hs <;> exact fun more => map_ok (f := Descriptor.symbol) (this more)

theorem reads_wire (env : Env) {v : Variant} {b : Bytes} (h : Wire .accepted v b) :
    ∀ d, v.depth ≤ d → Reads (decVar env d) b v := by
  induction h with
  | @prim v b h =>
    intro d hd
    obtain ⟨d, rfl⟩ : ∃ d', d = d' + 1 := ⟨d - 1, by have := v.depth_pos; omega⟩
    exact reads_prim env d h
  | timestamp h hm ht =>
    intro d hd
    obtain ⟨d, rfl⟩ : ∃ d', d = d' + 1 := ⟨d - 1, by simp only [Variant.depth] at hd; omega⟩
    exact fun more => map_ok (f := Variant.timestamp) (reads_timestamp env h hm ht more)
  | list0 =>
    intro d hd
    obtain ⟨d, rfl⟩ : ∃ d', d = d' + 1 := ⟨d - 1, by simp only [Variant.depth] at hd; omega⟩
    exact fun _ => rfl
  | list items hc hs hn _ ih =>
    intro d hd
    simp only [Variant.depth] at hd
    obtain ⟨d, rfl⟩ : ∃ d', d = d' + 1 := ⟨d - 1, by omega⟩
    have hdl := depthList_le (d := d) (by omega : depthList (items.map Prod.fst) ≤ d)
    have h1 := reads_decodeN (d := decVar env d) items fun p hp =>
      ih p hp d (hdl p.1 (List.mem_map_of_mem hp))
    have h2 := (reads_sizedHeader (hd := decodeListHeader env) rfl rfl hc hs hn).bind
      (f := fun h => decodeN (decVar env d) h.count) h1
    cases hc <;> exact fun more => map_ok (f := Variant.list) (h2 more)
  | map items hc hs hn _ _ hk hd' ihk ihv =>
    intro d hd
    simp only [Variant.depth] at hd
    obtain ⟨d, rfl⟩ : ∃ d', d = d' + 1 := ⟨d - 1, by omega⟩
    have hdl := depthMap_le (d := d)
      (by omega : depthMap (items.map fun p => (p.1.1, p.2.1)) ≤ d)
    have h2 := reads_mapWith (env := env) items hc hs hn (kd := decVar env d) (vd := decVar env d)
      (fun p hp => ihk p hp d (hdl _ (List.mem_map_of_mem (f := fun p => (p.1.1, p.2.1)) hp)).1)
      (fun p hp => ihv p hp d (hdl _ (List.mem_map_of_mem (f := fun p => (p.1.1, p.2.1)) hp)).2)
      hk hd'
    cases hc <;> exact fun more => map_ok (f := Variant.map) (h2 more)
  | @described ds v _ _ hdesc _ ih =>
    intro d hd
    simp only [Variant.depth] at hd
    obtain ⟨d, rfl⟩ : ∃ d', d = d' + 1 := ⟨d - 1, by omega⟩
    have h1 := means_descriptor env hdesc.1 hdesc.2
    have h2 := (ih d (by omega)).bind (f := fun v => (pure (Variant.described ds v) : Dec Variant))
      (Reads.pure _)
    have h3 := Reads.bind h1 (f := fun d' => decVar env d >>= fun v => pure (Variant.described d' v)) h2
    rw [List.append_nil] at h3
    exact fun more => h3 more

/-! ### Arrays and typed maps -/

theorem means_vec {α : Type} [DecodeF α] {L : α → Bytes → Prop} {env : Env} {l : List α} {b : Bytes}
    (hL : ∀ a ∈ l, ∀ u, L a u → Means env u a) (h : WireArray L l b) :
    Means env b (⟨l⟩ : Vec α) := by
  cases h with
  | @mk items c k w s n hc hs hn hi =>
    have h1 := reads_decodeN (d := decF (α := α) env k) items fun p hp =>
      hL p.1 (List.mem_map_of_mem hp) (k :: p.2) (hi p hp)
    have h2 := Reads.bind (Reads.indexU8 k) (f := fun f => decodeN (decF (α := α) env f) items.length >>=
      fun items => pure (Vec.mk items)) (h1.bind (f := fun items => pure (Vec.mk items)) (Reads.pure _))
    have h3 := (reads_sizedHeader (hd := decodeArrayHeader env) rfl rfl hc
      (size := 1 + (items.flatMap Prod.snd).length) (by rw [← Nat.add_assoc]; exact hs) hn).bind
      (f := fun h => indexU8 >>= fun f => decodeN (decF (α := α) env f) h.count >>=
        fun items => pure (Vec.mk items)) h2
    rw [List.append_nil] at h3
    exact reads_decode h3

theorem means_hmap {K V : Type} [HKey K] [DecodeF K] [DecodeF V] {LK : K → Bytes → Prop}
    {LV : V → Bytes → Prop} {env : Env} {l : List (K × V)} {b : Bytes}
    (hK : ∀ e ∈ l, ∀ u, LK e.1 u → Means env u e.1) (hV : ∀ e ∈ l, ∀ u, LV e.2 u → Means env u e.2)
    (hh : ∀ e ∈ l, HKey.hashOk e.1 = true) (h : WireMap LK LV l b) :
    Means env b (⟨l⟩ : HMap K V) := by
  cases h with
  | @mk items c w s n hc hs hn hi hd =>
    have hm : ∀ p ∈ items, (p.1.1, p.2.1) ∈ items.map fun p => (p.1.1, p.2.1) :=
      fun p hp => List.mem_map_of_mem (f := fun p => (p.1.1, p.2.1)) hp
    have := reads_mapWith (env := env) (kd := decode K env) (vd := decode V env) items hc hs hn
      (fun p hp => hK _ (hm p hp) _ (hi p hp).1) (fun p hp => hV _ (hm p hp) _ (hi p hp).2)
      (fun p hp => hh _ (hm p hp)) hd
    exact reads_decode (this.map HMap.mk)

/-! ### Encoders -/

theorem num_ofNat {n : Nat} (h : n < 256) : Num 1 [UInt8.ofNat n] n := by
  have := num_one (UInt8.ofNat n)
  rwa [UInt8.toNat_ofNat', Nat.mod_eq_of_lt (by omega)] at this

theorem sized_varEnc (c8 c32 : UInt8) {b : Bytes} (h : b.length < 2 ^ 32) :
    ∃ c w l, Sized c8 c32 c w ∧ Num w l b.length ∧ varEnc c8 c32 b = c :: (l ++ b) := by
  unfold varEnc
  by_cases hb : b.length > 255
  · rw [if_pos hb]
    exact ⟨c32, 4, beEnc 4 b.length, .wide, num_beEnc (by omega), rfl⟩
  · rw [if_neg hb]
    exact ⟨c8, 1, [UInt8.ofNat b.length], .narrow, num_ofNat (by omega), rfl⟩

theorem sized_compoundHdr (c8 c32 : UInt8) {n k : Nat} (hn : n + 4 < 2 ^ 32) (hk : k ≤ n) :
    ∃ c w s m, Sized c8 c32 c w ∧ Num w s (w + n) ∧ Num w m k ∧
      compoundHdr c8 c32 n k = c :: (s ++ m) := by
  unfold compoundHdr
  by_cases h : n + 1 > 255
  · rw [if_pos h]
    exact ⟨c32, 4, beEnc 4 (n + 4), beEnc 4 k, .wide, Nat.add_comm n 4 ▸ num_beEnc (by omega),
      num_beEnc (by omega), rfl⟩
  · rw [if_neg h]
    exact ⟨c8, 1, [UInt8.ofNat (n + 1)], [UInt8.ofNat k], .narrow,
      Nat.add_comm n 1 ▸ num_ofNat (by omega), num_ofNat (by omega), rfl⟩

theorem snum_timestampWire (m : Int64) : SNum 8 (beEnc 8 m.toUInt64.toNat) m.toInt := by
  have := (num_beEnc (k := 8) (n := m.toUInt64.toNat) (UInt64.toNat_lt _)).snum64
  simpa using this

theorem canonMap_eq (m : List (Variant × Variant)) :
    canonMap m = m.map fun e => (e.1.canon, e.2.canon) := by
  induction m with
  | nil => simp [canonMap]
  | cons e t ih => obtain ⟨k, v⟩ := e; simp [canonMap, ih]

theorem writableMap_iff (m : List (Variant × Variant)) :
    writableMap m ↔ ∀ e ∈ m, e.1.Writable ∧ e.2.Writable := by
  induction m with
  | nil => simp [writableMap]
  | cons e t ih => obtain ⟨k, v⟩ := e; simp [writableMap, ih]

theorem legal_descriptor {d : Descriptor} (h : d.Writable) (hs : (enc d).length < 2 ^ 32) :
    LegalDesc d d.body := by
  cases d with
  | ulong n => exact (decides_u64 debugEnv _ _).1 (LawfulCodec.rt debugEnv n trivial)
  | symbol s =>
    have hs : s.str.bytes.length < 2 ^ 32 := by
      have : size (Descriptor.symbol s) = _ := LawfulEnc.size_eq _
      rw [← this] at hs
      have : varSize s.str.len < 2 ^ 32 := Nat.lt_of_le_of_lt (Nat.le_add_left _ 1) hs
      unfold varSize RStr.len at this
      omega
    obtain ⟨c, w, l, h1, h2, h3⟩ := sized_varEnc 0xa3 0xb3 hs
    show Prim (.symbol s) (varEnc 0xa3 0xb3 s.str.bytes)
    rw [h3]
    exact .symbol h1 h2 h

theorem wire_variant (v : Variant) (h : v.Writable) (hs : v.vsize < 2 ^ 32) :
    Wire .amqp v.canon v.venc := by
  induction v using Variant.ind with
  | leaf v hl hm hd =>
    have txt : ∀ s : RStr, varSize s.len < 2 ^ 32 → s.bytes.length < 2 ^ 32 := fun s h => by
      unfold varSize RStr.len at h; omega
    cases v with
    | list l => exact absurd rfl (hl l)
    | map m => exact absurd rfl (hm m)
    | described d w => exact absurd rfl (hd d w)
    | null => exact .prim .null
    | boolean b => cases b <;> first | exact .prim .true | exact .prim .false
    | ubyte n => exact .prim ((decides_u8 debugEnv _ _).1 (LawfulCodec.rt debugEnv n trivial))
    | ushort n => exact .prim ((decides_u16 debugEnv _ _).1 (LawfulCodec.rt debugEnv n trivial))
    | uint n => exact .prim ((decides_u32 debugEnv _ _).1 (LawfulCodec.rt debugEnv n trivial))
    | ulong n => exact .prim ((decides_u64 debugEnv _ _).1 (LawfulCodec.rt debugEnv n trivial))
    | byte n => exact .prim ((decides_i8 debugEnv _ _).1 (LawfulCodec.rt debugEnv n trivial))
    | short n => exact .prim ((decides_i16 debugEnv _ _).1 (LawfulCodec.rt debugEnv n trivial))
    | int n => exact .prim ((decides_i32 debugEnv _ _).1 (LawfulCodec.rt debugEnv n trivial))
    | long n => exact .prim ((decides_i64 debugEnv _ _).1 (LawfulCodec.rt debugEnv n trivial))
    | float x => exact .prim ((decides_f32 debugEnv _ _).1 (LawfulCodec.rt debugEnv x trivial))
    | double x => exact .prim ((decides_f64 debugEnv _ _).1 (LawfulCodec.rt debugEnv x trivial))
    | char x => exact .prim ((decides_char debugEnv _ _).1 (LawfulCodec.rt debugEnv x trivial))
    | uuid x => exact .prim .uuid
    | timestamp t =>
      simp only [Variant.Writable] at h
      obtain ⟨m, e, h1, h2⟩ := C12_encode_floor t
      show Wire .amqp (.timestamp t) (enc t)
      rw [e]
      refine .timestamp (snum_timestampWire m) ?_ trivial
      simp only [DateTime.instant] at h1 h2
      omega
    | binary x =>
      simp only [Variant.vsize] at hs
      obtain ⟨c, w, l, h1, h2, h3⟩ := sized_varEnc 0xa0 0xb0 (b := x.data) (by
        have : varSize x.data.length < 2 ^ 32 := hs
        unfold varSize at this; omega)
      show Wire .amqp (.binary x) (varEnc 0xa0 0xb0 x.data)
      rw [h3]; exact .prim (.binary h1 h2)
    | string x =>
      simp only [Variant.vsize] at hs
      obtain ⟨c, w, l, h1, h2, h3⟩ := sized_varEnc 0xa1 0xb1 (txt x hs)
      show Wire .amqp (.string x) (varEnc 0xa1 0xb1 x.bytes)
      rw [h3]; exact .prim (.string h1 h2)
    | symbol x =>
      simp only [Variant.vsize, Variant.Writable] at hs h
      obtain ⟨c, w, l, h1, h2, h3⟩ := sized_varEnc 0xa3 0xb3 (txt x.str hs)
      show Wire .amqp (.symbol x) (varEnc 0xa3 0xb3 x.str.bytes)
      rw [h3]; exact .prim (.symbol h1 h2 h)
    | staticSymbol x =>
      simp only [Variant.vsize, Variant.Writable] at hs h
      obtain ⟨c, w, l, h1, h2, h3⟩ := sized_varEnc 0xa3 0xb3 (txt x hs)
      show Wire .amqp (.symbol ⟨x⟩) (varEnc 0xa3 0xb3 x.bytes)
      rw [h3]; exact .prim (.symbol (s := ⟨x⟩) h1 h2 h)
  | list l ih => exact (by simpa [Variant.Writable] using h : False).elim
  | map m ih =>
    simp only [Variant.Writable, writableMap_iff] at h
    simp only [Variant.vsize] at hs
    have hsz : vsizeMap m + 4 < 2 ^ 32 := compoundSize_small hs
    have hm := hsz
    rw [vsizeMap_eq] at hm
    have hle : m.length * 2 ≤ mapContentSize Variant.vsize Variant.vsize m :=
      mapContentSize_ge m (fun e _ => size_pos e.1) (fun e _ => size_pos e.2)
    obtain ⟨c, w, s, k, h1, h2, h3, h4⟩ := sized_compoundHdr 0xc1 0xd1 hm hle
    have hmem : ∀ e ∈ m, e.1.vsize < 2 ^ 32 ∧ e.2.vsize < 2 ^ 32 := fun e he => by
      have := mapContentSize_mem Variant.vsize Variant.vsize he
      omega
    let items := m.map fun e => ((e.1.canon, e.1.venc), (e.2.canon, e.2.venc))
    have hcont : vencMap m = items.flatMap fun p => p.1.2 ++ p.2.2 := by
      rw [vencMap_eq, mapContent_flatMap]; simp [items, List.flatMap_map]
    have hent : canonMap m = items.map fun p => (p.1.1, p.2.1) := by
      rw [canonMap_eq]; simp [items]
    have hlen : mapContentSize Variant.vsize Variant.vsize m = (vencMap m).length := by
      rw [vencMap_eq]
      exact (mapContent_length (ks := Variant.vsize) (vs := Variant.vsize) m
        (fun e _ => e.1.vsize_eq) (fun e _ => e.2.vsize_eq))
    have hw := Wire.map (D := .amqp) items h1 (s := s) (n := k)
      (by rw [← hcont, ← hlen]; exact h2)
      (by rw [show items.length = m.length by simp [items], Nat.mul_comm]; exact h3)
      (by
        intro p hp
        obtain ⟨e, he, rfl⟩ := List.mem_map.1 hp
        exact (ih e he).1 (h.1 e he).1 (hmem e he).1)
      (by
        intro p hp
        obtain ⟨e, he, rfl⟩ := List.mem_map.1 hp
        exact (ih e he).2 (h.1 e he).2 (hmem e he).2)
      (fun _ _ => trivial) (by rw [← hent]; exact h.2)
    rw [← hent, ← hcont] at hw
    simp only [Variant.canon, Variant.venc]
    rw [vsizeMap_eq]
    show Wire .amqp _ (compoundHdr 0xc1 0xd1 _ _ ++ _)
    rw [h4]
    exact hw
  | described d v ih =>
    simp only [Variant.Writable] at h
    simp only [Variant.vsize] at hs
    simp only [Variant.canon, Variant.venc]
    rw [Descriptor.enc_eq]
    refine .described (legal_descriptor h.1 ?_) (ih h.2 (by omega))
    rw [← show size d = (enc d).length from LawfulEnc.size_eq d]
    omega

end Amqp
