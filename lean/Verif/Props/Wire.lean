import Verif.Proofs.WireLaws
import Verif.Proofs.WireExact
import Verif.Props.Values
/-!
# Conformance to the type system of AMQP 1.0

C50: the decoders accept every encoding that the AMQP 1.0 type system allows, with
the meaning it gives them, and the encoders write only such encodings.  The
standard's encodings are in `Verif/Spec/Wire.lean`.  The parts of C50 that fail are
at the end.
-/
set_option autoImplicit false
namespace Amqp
open Dec

/-! ## Scalars, strings and binaries -/

/-- **C50.** For these types the decoder accepts exactly the legal encodings. -/
theorem C50_decoders_exact :
    Decides UInt8 (fun n => Prim (.ubyte n)) ∧ Decides UInt16 (fun n => Prim (.ushort n)) ∧
    Decides UInt32 (fun n => Prim (.uint n)) ∧ Decides UInt64 (fun n => Prim (.ulong n)) ∧
    Decides Int8 (fun n => Prim (.byte n)) ∧ Decides Int16 (fun n => Prim (.short n)) ∧
    Decides Int32 (fun n => Prim (.int n)) ∧ Decides Int64 (fun n => Prim (.long n)) ∧
    Decides F32 (fun x => Prim (.float x)) ∧ Decides F64 (fun x => Prim (.double x)) ∧
    Decides Char (fun c => Prim (.char c)) ∧ Decides Uuid (fun u => Prim (.uuid u)) ∧
    Decides Binary (fun x => Prim (.binary x)) ∧ Decides RStr (fun s => Prim (.string s)) :=
  ⟨decides_u8, decides_u16, decides_u32, decides_u64, decides_i8, decides_i16, decides_i32,
    decides_i64, decides_f32, decides_f64, decides_char, decides_uuid, decides_binary,
    decides_string⟩

/-- 258, -2 and 65536 in network byte order; -2 and 7 in one byte. -/
example : Prim (.ushort 258) [0x60, 1, 2] ∧ Prim (.short (-2)) [0x61, 0xff, 0xfe] ∧
    Prim (.uint 65536) [0x70, 0, 1, 0, 0] ∧ Prim (.long (-2)) [0x55, 0xfe] ∧
    Prim (.ulong 7) [0x53, 7] ∧ Prim (.string (.lit "hé")) [0xb1, 0, 0, 0, 3, 0x68, 0xc3, 0xa9] :=
  ⟨.ushort ⟨rfl, by decide⟩, .short ⟨rfl, by decide⟩, .uint ⟨rfl, by decide⟩,
    .smalllong ⟨rfl, by decide⟩, .smallulong ⟨rfl, by decide⟩,
    .string (l := [0, 0, 0, 3]) (w := 4) .wide ⟨rfl, by decide⟩⟩

/-- **C50** for booleans, with exactly what else is accepted: the two-byte form
with a byte other than 0 and 1 counts as `true`. -/
theorem C50_bool (env : Env) (b : Bytes) (v : Bool) : Means env b v ↔
    Prim (.boolean v) b ∨ (v = true ∧ ∃ x : UInt8, 1 < x ∧ b = [0x56, x]) := by
  rw [means_bool]
  constructor
  · rintro (rfl | ⟨x, rfl, rfl⟩)
    · cases v <;> first | exact .inl .true | exact .inl .false
    · by_cases h0 : x = 0
      · subst h0; exact .inl .boolFalse
      · by_cases h1 : x = 1
        · subst h1; exact .inl .boolTrue
        · refine .inr ⟨by simpa using h0, x, ?_, rfl⟩
          have : x.toNat ≠ 0 := fun h => h0 (UInt8.toNat.inj h)
          have : x.toNat ≠ 1 := fun h => h1 (UInt8.toNat.inj h)
          rw [UInt8.lt_iff_toNat_lt]
          show 1 < x.toNat
          omega
  · rintro (h | ⟨rfl, x, hx, rfl⟩)
    · cases h <;> first | exact .inl rfl | exact .inr ⟨_, rfl, rfl⟩
    · refine .inr ⟨x, rfl, ?_⟩
      have : x ≠ 0 := by
        rintro rfl
        exact absurd hx (by decide)
      simpa using this

example : Means debugEnv [0x56, 7] true := (C50_bool _ _ _).2 (.inr ⟨rfl, 7, by decide, rfl⟩)

/-- **C50** for symbols, with exactly what else is accepted: text beyond ASCII. -/
theorem C50_symbol (env : Env) (b : Bytes) (s : Symbol) (ha : s.str.Ascii) :
    Means env b s ↔ Prim (.symbol s) b := by
  rw [means_symbol]
  constructor
  · rintro ⟨c, w, l, h1, h2, rfl⟩
    exact .symbol h1 h2 ha
  · intro h
    cases h with
    | symbol h1 h2 _ => exact ⟨_, _, _, h1, h2, rfl⟩

theorem C50_symbol_lenient (env : Env) (b : Bytes) (s : Symbol) :
    Means env b s ↔
      ∃ c w l, Sized 0xa3 0xb3 c w ∧ Num w l s.str.bytes.length ∧ b = c :: (l ++ s.str.bytes) :=
  means_symbol env b s

example : Prim (.symbol ⟨.lit "ab"⟩) [0xa3, 2, 0x61, 0x62] ∧
    Means debugEnv [0xa3, 2, 0xc3, 0xa9] (⟨.lit "é"⟩ : Symbol) :=
  ⟨.symbol (w := 1) (l := [2]) .narrow ⟨rfl, by decide⟩ (by decide),
    (C50_symbol_lenient _ _ _).2 ⟨0xa3, 1, [2], .narrow, ⟨rfl, by decide⟩, rfl⟩⟩

/-! ## Variants -/

/-- **C50** (full statement, decoding): every legal encoding of a value is decoded
to that value, given enough stack. -/
def C50_decode_statement : Prop := ∀ (env : Env) (v : Variant) (b : Bytes), Wire .amqp v b →
  v.depth ≤ env.stackDepth → Means env b v

/-- **C50**, the part that holds of `C50_decode_statement`.  Missing: descriptors
written in the one-byte form of 0, timestamps outside those of C12, and map keys
that contain maps. -/
theorem C50_decode_partial (env : Env) (v : Variant) (b : Bytes) (h : Wire .accepted v b)
    (hd : v.depth ≤ env.stackDepth) : Means env b v :=
  reads_wire env h _ hd

/-- A 32-bit list of a two-byte boolean, an 8-bit map from a symbol to an empty
list, and a described small int: none of these forms is ever written by the
crate. -/
example : Means debugEnv
    [0xd0, 0, 0, 0, 22, 0, 0, 0, 3, 0x56, 1, 0xc1, 5, 2, 0xa3, 1, 0x61, 0x45,
      0x00, 0xb3, 0, 0, 0, 1, 0x62, 0x54, 0xff]
    (Variant.list [.boolean true, .map [(.symbol ⟨.lit "a"⟩, .list [])],
      .described (.symbol ⟨.lit "b"⟩) (.int (-1))]) := by
  refine C50_decode_partial _ _ _ ?_ (by decide)
  refine .list [(.boolean true, [0x56, 1]), (.map [(.symbol ⟨.lit "a"⟩, .list [])],
    [0xc1, 5, 2, 0xa3, 1, 0x61, 0x45]), (.described (.symbol ⟨.lit "b"⟩) (.int (-1)),
    [0x00, 0xb3, 0, 0, 0, 1, 0x62, 0x54, 0xff])] (s := [0, 0, 0, 22]) (n := [0, 0, 0, 3]) .wide
    ⟨rfl, by decide⟩ ⟨rfl, by decide⟩ ?_
  intro p hp
  simp only [List.mem_cons, List.not_mem_nil, or_false] at hp
  obtain rfl | rfl | rfl := hp
  · exact .prim .boolTrue
  · exact .map [((.symbol ⟨.lit "a"⟩, [0xa3, 1, 0x61]), (.list [], [0x45]))] (s := [5]) (n := [2])
      .narrow ⟨rfl, by decide⟩ ⟨rfl, by decide⟩
      (by
        intro p hp
        simp only [List.mem_cons, List.not_mem_nil, or_false] at hp
        subst hp
        exact .prim (.symbol (w := 1) (l := [1]) .narrow ⟨rfl, by decide⟩ (by decide)))
      (by
        intro p hp
        simp only [List.mem_cons, List.not_mem_nil, or_false] at hp
        subst hp
        exact .list0)
      (by
        intro p hp
        simp only [List.mem_cons, List.not_mem_nil, or_false] at hp
        subst hp
        rfl)
      (List.pairwise_singleton ..)
  · exact .described (db := [0xb3, 0, 0, 0, 1, 0x62])
      ⟨.symbol (s := ⟨.lit "b"⟩) (w := 4) (l := [0, 0, 0, 1]) .wide ⟨rfl, by decide⟩ (by decide),
        by decide⟩ (.prim (.smallint ⟨rfl, by decide⟩))

/-- Legal encodings are unambiguous: no byte string is an encoding of one value
and, up to trailing bytes, of another. -/
theorem C50_unambiguous (v w : Variant) (b more more' : Bytes) (c : Bytes)
    (hv : Wire .accepted v b) (hw : Wire .accepted w c) (h : b ++ more = c ++ more') :
    v = w ∧ b = c := by
  let env : Env := { debugEnv with stackDepth := v.depth + w.depth }
  have h1 := C50_decode_partial env v b hv (Nat.le_add_right ..) more
  have h2 := C50_decode_partial env w c hw (Nat.le_add_left ..) more'
  rw [h, h2] at h1
  cases h1
  exact ⟨rfl, List.append_cancel_right h⟩

/-- **C50**, encoding: what is written for a variant is a legal encoding of it,
provided the variant contains no list, no symbol beyond ASCII, no timestamp with
a fraction of a millisecond and no map in which two keys are equal as AMQP values. -/
theorem C50_encode_partial (v : Variant) (h : v.Writable) (hs : (enc v).length < 2 ^ 32) :
    Wire .amqp v.canon (enc v) :=
  wire_variant v h (by rw [v.vsize_eq]; exact hs)

example : (Variant.map [(.staticSymbol (.lit "a"), .described (.ulong 0) (.timestamp ⟨-1, 0, by decide⟩)),
    (.map [], .uint 300)]).Writable := by
  simp only [Variant.Writable, writableMap, Descriptor.Writable, canonMap, Variant.canon]
  refine ⟨⟨⟨?_, trivial, by decide⟩, ⟨⟨trivial, List.Pairwise.nil⟩, trivial⟩, trivial⟩, ?_⟩
  · show ∀ x ∈ _, x < 0x80
    decide
  · simp [NodupKeys, HKey.keq, Variant.veq]

/-- **C50**, encoding: these are exactly the variants for which what is written is a legal
encoding. -/
theorem C50_encode_exactly_partial (v : Variant) (hs : (enc v).length < 2 ^ 32) :
    Wire .amqp v.canon (enc v) ↔ v.Writable :=
  ⟨writable_of_wire v (by rw [v.vsize_eq]; exact hs), fun h => C50_encode_partial v h hs⟩

/-- A list is never written as the standard says, not even within other values. -/
example : ¬ Wire .amqp (Variant.map [(.uint 1, .list [.null])]).canon
    (enc (Variant.map [(.uint 1, .list [.null])])) := fun h =>
  ((C50_encode_exactly_partial _ (by decide)).1 h).1.1.2
example : Wire .amqp (Variant.described (.ulong 3) (.uint 1)).canon
    (enc (Variant.described (.ulong 3) (.uint 1))) :=
  (C50_encode_exactly_partial _ (by decide)).2 ⟨trivial, trivial⟩

/-! ## Arrays and maps -/

/-- **C50.** Any legal array of items that are themselves accepted is accepted,
also as `Multiple`. -/
theorem C50_array {α : Type} [DecodeF α] (L : α → Bytes → Prop) (env : Env) (l : List α) (b : Bytes)
    (hL : ∀ a ∈ l, ∀ u, L a u → Means env u a) (h : WireArray L l b) :
    Means env b (⟨l⟩ : Vec α) ∧ Means env b (⟨l⟩ : Multiple α) := by
  have h1 := means_vec hL h
  refine ⟨h1, fun more => ?_⟩
  have h2 := h1 more
  cases h with
  | @mk items c k w s n hc _ _ _ =>
    have hc' : c = FC.array8 ∨ c = FC.array32 := by cases hc <;> simp [FC.array8, FC.array32]
    have e : decF (α := Multiple α) env c = (fun v : Vec α => ⟨v.items⟩) <$> decF env c := if_pos hc'
    rw [List.cons_append, decode_cons] at h2 ⊢
    rw [e]
    exact map_ok (f := fun v : Vec α => Multiple.mk v.items) h2

/-- An array of three symbols in the 8-bit form; an array of booleans that takes
no bytes per item. -/
example : Means debugEnv [0xe0, 9, 3, 0xa3, 1, 0x61, 1, 0x62, 2, 0x61, 0x62]
      (⟨[⟨.lit "a"⟩, ⟨.lit "b"⟩, ⟨.lit "ab"⟩]⟩ : Multiple Symbol) ∧
    Means debugEnv [0xf0, 0, 0, 0, 5, 0, 0, 0, 2, 0x41] (⟨[true, true]⟩ : Vec Bool) := by
  constructor
  · refine (C50_array (fun s => Prim (.symbol s)) _ _ _ ?_ (.mk
      [(⟨.lit "a"⟩, [1, 0x61]), (⟨.lit "b"⟩, [1, 0x62]), (⟨.lit "ab"⟩, [2, 0x61, 0x62])]
      (k := 0xa3) (s := [9]) (n := [3]) .narrow ⟨rfl, by decide⟩ ⟨rfl, by decide⟩ ?_)).2
    · intro a _ u h
      cases h with
      | symbol h1 h2 _ => exact (C50_symbol_lenient _ _ _).2 ⟨_, _, _, h1, h2, rfl⟩
    · intro p hp
      simp only [List.mem_cons, List.not_mem_nil, or_false] at hp
      obtain rfl | rfl | rfl := hp
      · exact .symbol (s := ⟨.lit "a"⟩) (w := 1) (l := [1]) .narrow ⟨rfl, by decide⟩ (by decide)
      · exact .symbol (s := ⟨.lit "b"⟩) (w := 1) (l := [1]) .narrow ⟨rfl, by decide⟩ (by decide)
      · exact .symbol (s := ⟨.lit "ab"⟩) (w := 1) (l := [2]) .narrow ⟨rfl, by decide⟩ (by decide)
  · refine (C50_array (fun v => Prim (.boolean v)) _ _ _ ?_ (.mk [(true, []), (true, [])]
      (k := 0x41) (s := [0, 0, 0, 5]) (n := [0, 0, 0, 2]) .wide ⟨rfl, by decide⟩ ⟨rfl, by decide⟩ ?_)).1
    · exact fun a _ u h => (C50_bool _ _ _).2 (.inl h)
    · intro p hp
      simp only [List.mem_cons, List.not_mem_nil, or_false, or_self] at hp
      subst hp
      exact .true

/-- **C50.** Any legal map whose keys and values are accepted, with keys that
contain no map, is accepted. -/
theorem C50_map {K V : Type} [HKey K] [DecodeF K] [DecodeF V] (LK : K → Bytes → Prop)
    (LV : V → Bytes → Prop) (env : Env) (l : List (K × V)) (b : Bytes)
    (hK : ∀ e ∈ l, ∀ u, LK e.1 u → Means env u e.1) (hV : ∀ e ∈ l, ∀ u, LV e.2 u → Means env u e.2)
    (hh : ∀ e ∈ l, HKey.hashOk e.1 = true) (h : WireMap LK LV l b) :
    Means env b (⟨l⟩ : HMap K V) :=
  means_hmap hK hV hh h

example : Means debugEnv [0xd1, 0, 0, 0, 9, 0, 0, 0, 2, 0xa3, 1, 0x61, 0x52, 5]
    (⟨[(⟨.lit "a"⟩, 5)]⟩ : HMap Symbol UInt32) := by
  refine C50_map (fun s => Prim (.symbol s)) (fun n => Prim (.uint n)) _ _ _ ?_ ?_ ?_
    (.mk [(((⟨.lit "a"⟩ : Symbol), [0xa3, 1, 0x61]), ((5 : UInt32), [0x52, 5]))] (s := [0, 0, 0, 9]) (n := [0, 0, 0, 2])
      .wide ⟨rfl, by decide⟩ ⟨rfl, by decide⟩ ?_ ?_)
  · intro e _ u h
    cases h with
    | symbol h1 h2 _ => exact (C50_symbol_lenient _ _ _).2 ⟨_, _, _, h1, h2, rfl⟩
  · exact fun e _ u h => (C50_decoders_exact.2.2.1 _ _ _).2 h
  · intro e he
    simp only [List.map_cons, List.map_nil, List.mem_cons, List.not_mem_nil, or_false] at he
    subst he
    rfl
  · intro p hp
    simp only [List.mem_cons, List.not_mem_nil, or_false] at hp
    subst hp
    exact ⟨.symbol (s := ⟨.lit "a"⟩) (w := 1) (l := [1]) .narrow ⟨rfl, by decide⟩ (by decide),
      .smalluint ⟨rfl, by decide⟩⟩
  · exact List.pairwise_singleton ..

/-- **C50** (full statement, arrays): what is written for an array is legal. -/
def C50_array_statement {α : Type} [ArrayEncode α] (L : α → Bytes → Prop) : Prop :=
  ∀ v : Vec α, (∀ a ∈ v.items, L a (ArrayEncode.code α :: aenc a)) →
    (v.items.flatMap aenc).length + 5 < 2 ^ 32 → WireArray L v.items (enc v)

/-- **C50**, the part that holds of `C50_array_statement`, and exactly that part:
items taking 254 bytes get a wrong size. -/
theorem C50_array_written_partial {α : Type} [ArrayEncode α] (hsz : ItemSizeExact α)
    (L : α → Bytes → Prop) (v : Vec α) (hi : ∀ a ∈ v.items, L a (ArrayEncode.code α :: aenc a))
    (hs : (v.items.flatMap aenc).length + 5 < 2 ^ 32) :
    WireArray L v.items (enc v) ↔ (v.items.flatMap aenc).length ≠ 254 := by
  have hlen : ∀ l : List α, arrayContentSize l = (l.flatMap aenc).length ∧
      l.length ≤ (l.flatMap aenc).length := by
    intro l
    induction l with
    | nil => exact ⟨rfl, Nat.le_refl _⟩
    | cons a t ih =>
      obtain ⟨h1, h2⟩ := hsz a
      simp only [arrayContentSize, List.flatMap_cons, List.length_append, List.length_cons, h1]
      omega
  obtain ⟨hl, hc⟩ := hlen v.items
  have e : enc v = (if (v.items.flatMap aenc).length + 1 > 255 then
      0xf0 :: (beEnc 4 ((v.items.flatMap aenc).length + 5) ++ beEnc 4 v.items.length)
    else [0xe0, UInt8.ofNat ((v.items.flatMap aenc).length + 2), UInt8.ofNat v.items.length]) ++
      ArrayEncode.code α :: v.items.flatMap aenc := by
    rw [← hl, ← arrayContent_eq]; rfl
  rw [e]
  let items := v.items.map fun a => (a, aenc a)
  have h1 : v.items = items.map Prod.fst := by simp [items, Function.comp_def]
  have h2 : v.items.flatMap aenc = items.flatMap Prod.snd := by simp [items, List.flatMap_map]
  have hi' : ∀ p ∈ items, L p.1 (ArrayEncode.code α :: p.2) := by
    intro p hp
    obtain ⟨a, ha, rfl⟩ := List.mem_map.1 hp
    exact hi a ha
  constructor
  · intro h h254
    rw [if_neg (by omega), h254] at h
    revert h
    generalize v.items = l
    intro h
    generalize hb : [0xe0, UInt8.ofNat (254 + 2), UInt8.ofNat l.length] ++
      ArrayEncode.code α :: l.flatMap aenc = b at h
    cases h with
    | @mk its c k w s n hsd hs hn _ =>
      cases hsd with
      | wide => exact absurd (List.cons.inj hb).1 (by decide)
      | narrow =>
        obtain ⟨hw, hv⟩ := hs
        match s, hw with
        | [x], _ =>
          have : x = 0 := (List.cons.inj (List.cons.inj hb).2).1.symm
          subst this
          have : unsigned [0] = 0 := by decide
          omega
  · intro h254
    by_cases hb : (v.items.flatMap aenc).length + 1 > 255
    · rw [if_pos hb]
      have := WireArray.mk (L := L) items (k := ArrayEncode.code α)
        (s := beEnc 4 ((v.items.flatMap aenc).length + 5)) (n := beEnc 4 v.items.length)
        (.wide (code8 := 0xe0) (code32 := 0xf0))
        (by rw [← h2, show 4 + 1 + (v.items.flatMap aenc).length =
              (v.items.flatMap aenc).length + 5 by omega]; exact num_beEnc (by omega))
        (by rw [show items.length = v.items.length by simp [items]]; exact num_beEnc (by omega)) hi'
      rw [← h1, ← h2] at this
      exact this
    · rw [if_neg hb]
      have := WireArray.mk (L := L) items (k := ArrayEncode.code α)
        (s := [UInt8.ofNat ((v.items.flatMap aenc).length + 2)]) (n := [UInt8.ofNat v.items.length])
        (.narrow (code8 := 0xe0) (code32 := 0xf0))
        (by rw [← h2, show 1 + 1 + (v.items.flatMap aenc).length =
              (v.items.flatMap aenc).length + 2 by omega]; exact num_ofNat (by omega))
        (by rw [show items.length = v.items.length by simp [items]]; exact num_ofNat (by omega)) hi'
      rw [← h1, ← h2] at this
      exact this

/-- **C50.** Array items are legal encodings under the array's one format code. -/
theorem C50_items_legal :
    (∀ v : Bool, Prim (.boolean v) (ArrayEncode.code Bool :: aenc v)) ∧
    (∀ n : UInt8, Prim (.ubyte n) (ArrayEncode.code UInt8 :: aenc n)) ∧
    (∀ n : UInt16, Prim (.ushort n) (ArrayEncode.code UInt16 :: aenc n)) ∧
    (∀ n : UInt32, Prim (.uint n) (ArrayEncode.code UInt32 :: aenc n)) ∧
    (∀ n : UInt64, Prim (.ulong n) (ArrayEncode.code UInt64 :: aenc n)) ∧
    (∀ n : Int8, Prim (.byte n) (ArrayEncode.code Int8 :: aenc n)) ∧
    (∀ n : Int16, Prim (.short n) (ArrayEncode.code Int16 :: aenc n)) ∧
    (∀ n : Int32, Prim (.int n) (ArrayEncode.code Int32 :: aenc n)) ∧
    (∀ n : Int64, Prim (.long n) (ArrayEncode.code Int64 :: aenc n)) ∧
    (∀ x : F32, Prim (.float x) (ArrayEncode.code F32 :: aenc x)) ∧
    (∀ x : F64, Prim (.double x) (ArrayEncode.code F64 :: aenc x)) ∧
    (∀ c : Char, Prim (.char c) (ArrayEncode.code Char :: aenc c)) ∧
    (∀ u : Uuid, Prim (.uuid u) (ArrayEncode.code Uuid :: aenc u)) ∧
    (∀ x : Binary, x.data.length < 2 ^ 32 →
      Prim (.binary x) (ArrayEncode.code Binary :: aenc x)) ∧
    (∀ s : RStr, s.bytes.length < 2 ^ 32 → Prim (.string s) (ArrayEncode.code RStr :: aenc s)) ∧
    (∀ s : Symbol, s.str.bytes.length < 2 ^ 32 → s.str.Ascii →
      Prim (.symbol s) (ArrayEncode.code Symbol :: aenc s)) := by
  refine ⟨?_, ?_, ?_, ?_, ?_, ?_, ?_, ?_, ?_, ?_, ?_, ?_, ?_, ?_, ?_, ?_⟩
  · intro v; cases v <;> first | exact .boolTrue | exact .boolFalse
  · exact fun v => (decides_u8 debugEnv _ _).1 (reads_decode (LawfulArray.art _ v trivial))
  · exact fun v => (decides_u16 debugEnv _ _).1 (reads_decode (LawfulArray.art _ v trivial))
  · exact fun v => (decides_u32 debugEnv _ _).1 (reads_decode (LawfulArray.art _ v trivial))
  · exact fun v => (decides_u64 debugEnv _ _).1 (reads_decode (LawfulArray.art _ v trivial))
  · exact fun v => (decides_i8 debugEnv _ _).1 (reads_decode (LawfulArray.art _ v trivial))
  · exact fun v => (decides_i16 debugEnv _ _).1 (reads_decode (LawfulArray.art _ v trivial))
  · exact fun v => (decides_i32 debugEnv _ _).1 (reads_decode (LawfulArray.art _ v trivial))
  · exact fun v => (decides_i64 debugEnv _ _).1 (reads_decode (LawfulArray.art _ v trivial))
  · exact fun v => (decides_f32 debugEnv _ _).1 (reads_decode (LawfulArray.art _ v trivial))
  · exact fun v => (decides_f64 debugEnv _ _).1 (reads_decode (LawfulArray.art _ v trivial))
  · exact fun v => (decides_char debugEnv _ _).1 (reads_decode (LawfulArray.art _ v trivial))
  · exact fun v => .uuid
  · exact fun x h => .binary (w := 4) (l := beEnc 4 x.data.length) .wide (num_beEnc h)
  · exact fun s h => .string (w := 4) (l := beEnc 4 s.bytes.length) .wide (num_beEnc h)
  · exact fun s h ha => .symbol (w := 4) (l := beEnc 4 s.str.bytes.length) .wide (num_beEnc h) ha

example : WireArray (fun n => Prim (.ushort n)) [1, 515] [0xe0, 6, 2, 0x60, 0, 1, 2, 3] :=
  (C50_array_written_partial (α := UInt16) (fun _ => ⟨by simp [asize, aenc], by simp [aenc]⟩)
    (fun n => Prim (.ushort n)) ⟨[1, 515]⟩ (fun n _ => C50_items_legal.2.2.1 n) (by decide)).2
    (by decide)

/-- **C50.** What is written for a map is a legal encoding of it if what is written
for its keys and values is. -/
theorem C50_map_written {K V : Type} [HKey K] [Encode K] [Encode V] (hk : SizeExact K)
    (hv : SizeExact V) (LK : K → Bytes → Prop) (LV : V → Bytes → Prop) (m : HMap K V)
    (h : ∀ e ∈ m.entries, LK e.1 (enc e.1) ∧ LV e.2 (enc e.2))
    (hne : ∀ e ∈ m.entries, enc e.1 ≠ [] ∧ enc e.2 ≠ [])
    (hd : NodupKeys m.entries) (hs : (enc m).length < 2 ^ 32) :
    WireMap LK LV m.entries (enc m) := by
  have hlen : mapContentSize size size m.entries = (mapContent enc enc m.entries).length :=
    mapContent_length m.entries (fun e _ => hk e.1) (fun e _ => hv e.2)
  have hcount : m.entries.length * 2 ≤ mapContentSize size size m.entries :=
    mapContentSize_ge m.entries
      (fun e he => by rw [hk]; exact List.length_pos_iff.2 (hne e he).1)
      (fun e he => by rw [hv]; exact List.length_pos_iff.2 (hne e he).2)
  have hs' : mapContentSize size size m.entries + 4 < 2 ^ 32 := by
    simp only [enc, List.length_append, compoundHdr] at hs
    rw [← hlen] at hs
    split at hs <;> simp at hs <;> omega
  obtain ⟨c, w, s, k, h1, h2, h3, h4⟩ := sized_compoundHdr 0xc1 0xd1 hs' hcount
  let items := m.entries.map fun e => ((e.1, enc e.1), (e.2, enc e.2))
  have hcont : mapContent enc enc m.entries = items.flatMap fun p => p.1.2 ++ p.2.2 := by
    rw [mapContent_flatMap]; simp [items, List.flatMap_map]
  have hent : m.entries = items.map fun p => (p.1.1, p.2.1) := by simp [items, Function.comp_def]
  have hw := WireMap.mk (LK := LK) (LV := LV) items h1 (s := s) (n := k)
    (by rw [← hcont, ← hlen]; exact h2)
    (by rw [show items.length = m.entries.length by simp [items], Nat.mul_comm]; exact h3)
    (by
      intro p hp
      obtain ⟨e, he, rfl⟩ := List.mem_map.1 hp
      exact h e he)
    (by rw [← hent]; exact hd)
  rw [← hent, ← hcont] at hw
  show WireMap LK LV m.entries (compoundHdr 0xc1 0xd1 _ _ ++ _)
  rw [h4]
  exact hw

example : WireMap (fun s => Prim (.symbol s)) (fun n => Prim (.uint n))
    [((⟨.lit "a"⟩ : Symbol), (300 : UInt32))] [0xc1, 9, 2, 0xa3, 1, 0x61, 0x70, 0, 0, 1, 44] := by
  refine C50_map_written (LawfulEnc.size_eq) (LawfulEnc.size_eq) _ _
    (⟨[(⟨.lit "a"⟩, 300)]⟩ : HMap Symbol UInt32) ?_ ?_ (List.pairwise_singleton ..) (by decide)
  · intro e he
    simp only [List.mem_cons, List.not_mem_nil, or_false] at he
    subst he
    exact ⟨.symbol (s := ⟨.lit "a"⟩) (w := 1) (l := [1]) .narrow ⟨rfl, by decide⟩ (by decide),
      .uint (b := [0, 0, 1, 44]) ⟨rfl, by decide⟩⟩
  · intro e he
    simp only [List.mem_cons, List.not_mem_nil, or_false] at he
    subst he
    exact ⟨by decide, by decide⟩

/-! ## What fails -/

/-- **C50 violated**: a described value whose descriptor is `ulong` 0 in its
one-byte form is legal but rejected. -/
theorem C50_violated_descriptor : Wire .amqp (.described (.ulong 0) .null) [0x00, 0x44, 0x40] ∧
    decode Variant debugEnv [0x00, 0x44, 0x40] = .err (.invalidFormatCode 0x44) :=
  ⟨.described (db := [0x44]) (d := .ulong 0) .ulong0 (.prim .null), rfl⟩

/-- **C50 violated**: the millisecond before the epoch is legal but read as another
time. -/
theorem C50_violated_timestamp :
    Wire .amqp (.timestamp ⟨-1, 999000000, by decide⟩) (0x83 :: List.replicate 8 0xff) ∧
    ¬ Means debugEnv (0x83 :: List.replicate 8 0xff)
      (Variant.timestamp ⟨-1, 999000000, by decide⟩) := by
  refine ⟨.timestamp (m := -1) ⟨rfl, by decide⟩ (by decide) trivial, fun h => ?_⟩
  have e : enc (Variant.timestamp ⟨-1, 999000000, by decide⟩) = 0x83 :: List.replicate 8 0xff := by
    decide
  refine C14_violated debugEnv (.timestamp ⟨-1, 999000000, by decide⟩) (by decide)
    (by simp [Variant.Survives, DateTime.Survives]) fun rest => ?_
  rw [e]
  exact h rest

/-- **C50 violated**: a map with a map as key is legal but makes the decoder panic. -/
theorem C50_violated_key :
    Wire .amqp (.map [(.map [], .null)]) [0xc1, 5, 2, 0xc1, 1, 0, 0x40] ∧
    decode Variant debugEnv [0xc1, 5, 2, 0xc1, 1, 0, 0x40] = .panic .unimplemented := by
  refine ⟨?_, rfl⟩
  refine .map [((.map [], [0xc1, 1, 0]), (.null, [0x40]))] (s := [5]) (n := [2]) .narrow
    ⟨rfl, by decide⟩ ⟨rfl, by decide⟩ ?_ ?_ (fun _ _ => trivial) (List.pairwise_singleton ..)
  · intro p hp
    simp only [List.mem_cons, List.not_mem_nil, or_false] at hp
    subst hp
    exact .map [] (s := [1]) (n := [0]) .narrow ⟨rfl, by decide⟩ ⟨rfl, by decide⟩ nofun nofun nofun
      List.Pairwise.nil
  · intro p hp
    simp only [List.mem_cons, List.not_mem_nil, or_false] at hp
    subst hp
    exact .prim .null

theorem C50_violated_decode : ¬ C50_decode_statement := by
  intro h
  have h1 := h debugEnv _ _ C50_violated_descriptor.1 (by decide) []
  rw [List.append_nil, C50_violated_descriptor.2] at h1
  cases h1

/-- **C50 violated**: what is written for a list is not a legal encoding of
anything. -/
theorem C50_violated_list (l : List Variant) (v : Variant) : ¬ Wire .amqp v (enc (Variant.list l)) := by
  intro h
  have e : ∃ c w, enc (Variant.list l) = c :: w ∧ (c = 0xe0 ∨ c = 0xf0) := by
    show ∃ c w, (Variant.list l).venc = _ ∧ _
    simp only [Variant.venc, compoundHdr]
    split
    · exact ⟨_, _, rfl, .inr rfl⟩
    · exact ⟨_, _, rfl, .inl rfl⟩
  obtain ⟨c, w, e, hc⟩ := e
  rw [e] at h
  generalize hb : c :: w = b at h
  cases h with
  | prim hp =>
    cases hp with
    | binary hs _ | string hs _ | symbol hs _ _ =>
      cases hs <;> (cases hb; rcases hc with hc | hc <;> exact absurd hc (by decide))
    | _ => cases hb; rcases hc with hc | hc <;> exact absurd hc (by decide)
  | timestamp => cases hb; rcases hc with hc | hc <;> exact absurd hc (by decide)
  | list0 => cases hb; rcases hc with hc | hc <;> exact absurd hc (by decide)
  | list _ hs => cases hs <;> (cases hb; rcases hc with hc | hc <;> exact absurd hc (by decide))
  | map _ hs => cases hs <;> (cases hb; rcases hc with hc | hc <;> exact absurd hc (by decide))
  | described => cases hb; rcases hc with hc | hc <;> exact absurd hc (by decide)

/-- **C50 violated**: 254 bytes of array items are written with size 0. -/
theorem C50_violated_array : ¬ C50_array_statement (fun n => Prim (.ubyte n)) := by
  intro h
  have e : ∀ n, ((List.replicate n (0 : UInt8)).flatMap aenc).length = n := fun n => by
    induction n with
    | zero => rfl
    | succ n ih =>
      rw [List.replicate_succ, List.flatMap_cons, List.length_append, ih, Nat.add_comm]; rfl
  exact (C50_array_written_partial (α := UInt8) (fun _ => ⟨rfl, Nat.one_pos⟩)
    (fun n => Prim (.ubyte n)) ⟨List.replicate 254 0⟩ (fun n _ => C50_items_legal.2.1 n)
    (by show (List.flatMap _ _).length + 5 < _; rw [e]; decide)).1
    (h ⟨List.replicate 254 0⟩ (fun n _ => C50_items_legal.2.1 n)
      (by show (List.flatMap _ _).length + 5 < _; rw [e]; decide)) (e _)

end Amqp
