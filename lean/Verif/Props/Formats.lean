import Verif.Proofs.Inversion
import Verif.Proofs.TextErrors
/-!
# Properties of format codes and payloads

C10, C11, C47, C48.  The format codes are written out as the bytes assigned by
AMQP 1.0, section 1.6.
-/
namespace Amqp
open Dec

/-! ## C10 -/

/-- The only possible outcomes of reading text of which `n` bytes are announced
when `t` is what is available. -/
inductive TextOutcome {α : Type} (mk : Str → α) (n : Nat) (t : Bytes) :
    Res ParseError (Bytes × α) → Prop
  | short (h : t.length < n) : TextOutcome mk n t (.err (.incomplete n))
  | text (s : Str) (cs : List Char) (h : n ≤ t.length) (hu : t.take n = utf8 cs)
      (hs : s.bytes = t.take n) : TextOutcome mk n t (.ok (t.drop n, mk s))
  | illFormed (u : Utf8Error) (h : n ≤ t.length) (hu : StopsBeing (t.take n) u) :
      TextOutcome mk n t (.err (.utf8Error u))

theorem takeN_short {n : Nat} {t : Bytes} (h : t.length < n) : takeN n t = .err (.incomplete n) :=
  if_pos h
theorem takeN_long {n : Nat} {t : Bytes} (h : n ≤ t.length) :
    takeN n t = .ok (t.drop n, t.take n) := if_neg (by omega)

theorem textOutcome_take {α : Type} (mk : Str → α) (n : Nat) (t : Bytes) :
    TextOutcome mk n t ((mk <$> (takeN n >>= fromUtf8)) t) := by
  rw [run_map, run_bind]
  by_cases hl : t.length < n
  · rw [takeN_short hl]; exact .short hl
  · rw [takeN_long (by omega)]
    by_cases hv : validUtf8 (t.take n) = true
    · obtain ⟨cs, hcs⟩ := (validUtf8_iff _).1 hv
      simp only [fromUtf8, dif_pos hv]
      exact .text ⟨t.take n, hv⟩ cs (by omega) hcs rfl
    · simp only [fromUtf8, dif_neg hv]
      exact .illFormed _ (by omega) ((utf8Error_iff hv _).1 rfl)

theorem readBytesU8_eq (n : UInt8) (t : Bytes) : readBytesU8 (n :: t) = takeN n.toNat t := rfl
theorem readBytesU32_eq (a b c d : UInt8) (t : Bytes) :
    readBytesU32 (a :: b :: c :: d :: t) = takeN (beDec [a, b, c, d]) t := rfl

/-- **C10.** Strings and symbols are accepted exactly if the announced bytes are
present and are the UTF-8 encoding of a sequence of Unicode scalar values; the
decoded text is those bytes. -/
theorem C10_text_is_utf8 (env : Env) (n a b c d : UInt8) (t : Bytes) :
    TextOutcome id n.toNat t (decode Str env (0xa1 :: n :: t)) ∧
    TextOutcome id (beDec [a, b, c, d]) t (decode Str env (0xb1 :: a :: b :: c :: d :: t)) ∧
    TextOutcome Symbol.mk n.toNat t (decode Symbol env (0xa3 :: n :: t)) ∧
    TextOutcome Symbol.mk (beDec [a, b, c, d]) t
      (decode Symbol env (0xb3 :: a :: b :: c :: d :: t)) := by
  refine ⟨?_, ?_, ?_, ?_⟩
  · have := textOutcome_take id n.toNat t
    rw [id_map] at this
    exact this
  · have := textOutcome_take id (beDec [a, b, c, d]) t
    rw [id_map] at this
    exact this
  · exact textOutcome_take Symbol.mk n.toNat t
  · exact textOutcome_take Symbol.mk (beDec [a, b, c, d]) t

/-- All three outcomes occur: a two-byte character, a surrogate, a short input. -/
example : decode Str debugEnv [0xa1, 2, 0xC3, 0xA9, 5] = .ok ([5], .lit "é") := by decide
example : decode Symbol debugEnv [0xa3, 3, 0xED, 0xA0, 0x80] = .err (.utf8Error ⟨0, some 1⟩) := by decide
example : decode Str debugEnv [0xa1, 3, 65] = .err (.incomplete 3) := by decide

/-! ## C11 -/

/-- **C11.** A char is decoded exactly if the code point is a Unicode scalar
value. -/
theorem C11_char_scalar_values (env : Env) (a b c d : UInt8) (rest : Bytes) :
    let n := a.toNat * 2 ^ 24 + b.toNat * 2 ^ 16 + c.toNat * 2 ^ 8 + d.toNat
    ((n < 0xD800 ∨ (0xE000 ≤ n ∧ n < 0x110000)) →
      ∃ ch : Char, ch.toNat = n ∧ decode Char env (0x73 :: a :: b :: c :: d :: rest) =
        .ok (rest, ch)) ∧
    (¬ (n < 0xD800 ∨ (0xE000 ≤ n ∧ n < 0x110000)) →
      decode Char env (0x73 :: a :: b :: c :: d :: rest) =
        .err (.invalidChar (UInt32.ofNat n))) := by
  intro n
  have hn : beDec [a, b, c, d] = n := by
    simp [beDec, n]; omega
  have key : decode Char env (0x73 :: a :: b :: c :: d :: rest) = match charFromU32 n with
      | some ch => .ok (rest, ch)
      | none => .err (.invalidChar (UInt32.ofNat n)) := by
    rw [← hn]
    show (match charFromU32 (beDec [a, b, c, d]) with
      | some c => (pure c : Dec Char)
      | none => Dec.fail (.invalidChar (UInt32.ofNat (beDec [a, b, c, d])))) rest = _
    cases charFromU32 (beDec [a, b, c, d]) <;> rfl
  constructor
  · intro h
    have h' : n < 0xD800 ∨ (0xDFFF < n ∧ n < 0x110000) := by omega
    have e : charFromU32 n = some (Char.ofNatAux n h') := dif_pos h'
    refine ⟨Char.ofNatAux n h', ?_, by rw [key, e]⟩
    have := charFromU32_eq_some.1 e
    exact this.symm
  · intro h
    have h' : ¬ (n < 0xD800 ∨ (0xDFFF < n ∧ n < 0x110000)) := by omega
    have e : charFromU32 n = none := dif_neg h'
    rw [key, e]

example : decode Char debugEnv [0x73, 0, 1, 0xF6, 0x00, 9] = .ok ([9], '😀') := by decide
example : decode Char debugEnv [0x73, 0, 0, 0xD8, 0x00] = .err (.invalidChar 0xD800) := by decide

/-! ## C47 -/

/-- The decoder of `α` accepts exactly the format codes `codes`: any other code
is reported at once, whatever follows; and each of these codes begins some
accepted encoding. -/
def AcceptsExactly (α : Type) [DecodeF α] (codes : List UInt8) : Prop :=
  ∀ (env : Env) (c : UInt8),
    (c ∉ codes → ∀ input, decode α env (c :: input) = .err (.invalidFormatCode c)) ∧
    (c ∈ codes → ∃ input v, decode α env (c :: input) = .ok ([], v))

theorem ite_ne {β : Sort _} {p : Prop} [Decidable p] {x y z : β} (h : ¬ p) (e : y = z) :
    (if p then x else y) = z := (if_neg h).trans e

theorem accepts_of_validate {α : Type} [DecodeF α] {k : UInt8} {d : Env → Dec α}
    (h : ∀ env c, decF env c = validateCode c k (d env)) (i : Bytes)
    (hi : ∀ env, ∃ v, d env i = .ok ([], v)) : AcceptsExactly α [k] := by
  intro env c
  constructor
  · intro hc input
    show decF env c input = _
    rw [h, validateCode, if_pos (by simpa using hc)]; rfl
  · intro hc
    rw [List.mem_singleton.1 hc]
    obtain ⟨v, hv⟩ := hi env
    exact ⟨i, v, by rw [decode_cons, h, validateCode_self']; exact hv⟩
where
  validateCode_self' {α : Type} {c : UInt8} {d : Dec α} : validateCode c c d = d :=
    if_neg (fun h => h rfl)

set_option maxRecDepth 4000 in
/-- **C47.** Format-code classification of every scalar, text and binary type. -/
theorem C47_format_codes :
    AcceptsExactly Bool [0x56, 0x41, 0x42] ∧
    AcceptsExactly UInt8 [0x50] ∧ AcceptsExactly UInt16 [0x60] ∧
    AcceptsExactly UInt32 [0x70, 0x52, 0x43] ∧ AcceptsExactly UInt64 [0x80, 0x53, 0x44] ∧
    AcceptsExactly Int8 [0x51] ∧ AcceptsExactly Int16 [0x61] ∧
    AcceptsExactly Int32 [0x71, 0x54] ∧ AcceptsExactly Int64 [0x81, 0x55] ∧
    AcceptsExactly F32 [0x72] ∧ AcceptsExactly F64 [0x82] ∧ AcceptsExactly Char [0x73] ∧
    AcceptsExactly DateTime [0x83] ∧ AcceptsExactly Uuid [0x98] ∧
    AcceptsExactly Binary [0xa0, 0xb0] ∧ AcceptsExactly Str [0xa1, 0xb1] ∧
    AcceptsExactly Symbol [0xa3, 0xb3] ∧
    AcceptsExactly Descriptor [0x53, 0x80, 0xa3, 0xb3] := by
  refine ⟨?_, ?_, ?_, ?_, ?_, ?_, ?_, ?_, ?_, ?_, ?_, ?_, ?_, ?_, ?_, ?_, ?_, ?_⟩
  case refine_1 =>
    intro env c
    simp only [List.mem_cons, List.not_mem_nil, or_false, not_or]
    constructor
    · rintro ⟨h1, h2, h3⟩ input
      exact congrFun (ite_ne h1 (ite_ne h2 (ite_ne h3 rfl))) input
    · rintro (rfl | rfl | rfl)
      · exact ⟨[0], false, rfl⟩
      · exact ⟨[], true, rfl⟩
      · exact ⟨[], false, rfl⟩
  case refine_2 => exact accepts_of_validate (fun _ _ => rfl) [0] fun _ => ⟨_, rfl⟩
  case refine_3 => exact accepts_of_validate (fun _ _ => rfl) [0, 0] fun _ => ⟨_, rfl⟩
  case refine_4 =>
    intro env c
    simp only [List.mem_cons, List.not_mem_nil, or_false, not_or]
    constructor
    · rintro ⟨h1, h2, h3⟩ input
      exact congrFun (ite_ne h1 (ite_ne h2 (ite_ne h3 rfl))) input
    · rintro (rfl | rfl | rfl)
      · exact ⟨[0, 0, 0, 0], _, rfl⟩
      · exact ⟨[0], _, rfl⟩
      · exact ⟨[], _, rfl⟩
  case refine_5 =>
    intro env c
    simp only [List.mem_cons, List.not_mem_nil, or_false, not_or]
    constructor
    · rintro ⟨h1, h2, h3⟩ input
      exact congrFun (ite_ne h1 (ite_ne h2 (ite_ne h3 rfl))) input
    · rintro (rfl | rfl | rfl)
      · exact ⟨[0, 0, 0, 0, 0, 0, 0, 0], _, rfl⟩
      · exact ⟨[0], _, rfl⟩
      · exact ⟨[], _, rfl⟩
  case refine_6 => exact accepts_of_validate (fun _ _ => rfl) [0] fun _ => ⟨_, rfl⟩
  case refine_7 => exact accepts_of_validate (fun _ _ => rfl) [0, 0] fun _ => ⟨_, rfl⟩
  case refine_8 =>
    intro env c
    simp only [List.mem_cons, List.not_mem_nil, or_false, not_or]
    constructor
    · rintro ⟨h1, h2⟩ input
      exact congrFun (ite_ne h1 (ite_ne h2 rfl)) input
    · rintro (rfl | rfl)
      · exact ⟨[0, 0, 0, 0], _, rfl⟩
      · exact ⟨[0], _, rfl⟩
  case refine_9 =>
    intro env c
    simp only [List.mem_cons, List.not_mem_nil, or_false, not_or]
    constructor
    · rintro ⟨h1, h2⟩ input
      exact congrFun (ite_ne h1 (ite_ne h2 rfl)) input
    · rintro (rfl | rfl)
      · exact ⟨[0, 0, 0, 0, 0, 0, 0, 0], _, rfl⟩
      · exact ⟨[0], _, rfl⟩
  case refine_10 => exact accepts_of_validate (fun _ _ => rfl) [0, 0, 0, 0] fun _ => ⟨_, rfl⟩
  case refine_11 =>
    exact accepts_of_validate (fun _ _ => rfl) [0, 0, 0, 0, 0, 0, 0, 0] fun _ => ⟨_, rfl⟩
  case refine_12 => exact accepts_of_validate (fun _ _ => rfl) [0, 0, 0, 65] fun _ => ⟨'A', rfl⟩
  case refine_13 =>
    exact accepts_of_validate (fun _ _ => rfl) [0, 0, 0, 0, 0, 0, 0, 0]
      fun _ => ⟨⟨0, 0, rfl⟩, rfl⟩
  case refine_14 =>
    exact accepts_of_validate (fun _ _ => rfl) [0, 0, 0, 0, 0, 0, 0, 0, 0, 0, 0, 0, 0, 0, 0, 0]
      fun _ => ⟨⟨[0, 0, 0, 0, 0, 0, 0, 0, 0, 0, 0, 0, 0, 0, 0, 0], rfl⟩, rfl⟩
  case refine_15 =>
    intro env c
    simp only [List.mem_cons, List.not_mem_nil, or_false, not_or]
    constructor
    · rintro ⟨h1, h2⟩ input
      exact congrFun (ite_ne h1 (ite_ne h2 rfl)) input
    · rintro (rfl | rfl)
      · exact ⟨[0], _, rfl⟩
      · exact ⟨[0, 0, 0, 0], _, rfl⟩
  case refine_16 =>
    intro env c
    simp only [List.mem_cons, List.not_mem_nil, or_false, not_or]
    constructor
    · rintro ⟨h1, h2⟩ input
      exact congrFun (ite_ne h1 (ite_ne h2 rfl)) input
    · rintro (rfl | rfl)
      · exact ⟨[0], .lit "", rfl⟩
      · exact ⟨[0, 0, 0, 0], .lit "", rfl⟩
  case refine_17 =>
    intro env c
    simp only [List.mem_cons, List.not_mem_nil, or_false, not_or]
    constructor
    · rintro ⟨h1, h2⟩ input
      exact congrFun (ite_ne h1 (ite_ne h2 rfl)) input
    · rintro (rfl | rfl)
      · exact ⟨[0], ⟨.lit ""⟩, rfl⟩
      · exact ⟨[0, 0, 0, 0], ⟨.lit ""⟩, rfl⟩
  case refine_18 =>
    intro env c
    simp only [List.mem_cons, List.not_mem_nil, or_false, not_or]
    constructor
    · rintro ⟨h1, h2, h3, h4⟩ input
      exact congrFun (ite_ne h1 (ite_ne h2 (ite_ne h3 (ite_ne h4 rfl)))) input
    · rintro (rfl | rfl | rfl | rfl)
      · exact ⟨[0], .ulong 0, rfl⟩
      · exact ⟨[0, 0, 0, 0, 0, 0, 0, 0], .ulong 0, rfl⟩
      · exact ⟨[0], .symbol ⟨.lit ""⟩, rfl⟩
      · exact ⟨[0, 0, 0, 0], .symbol ⟨.lit ""⟩, rfl⟩

/-- An optional value additionally accepts null, and only that means absence. -/
theorem C47_optional {α : Type} [DecodeF α] (env : Env) (input : Bytes) :
    decode (Option α) env (0x40 :: input) = .ok (input, none) ∧
    ∀ c, c ≠ 0x40 → decode (Option α) env (c :: input) =
      match decode α env (c :: input) with
      | .ok (r, v) => .ok (r, some v)
      | .err e => .err e
      | .panic p => .panic p := by
  refine ⟨rfl, fun c hc => ?_⟩
  show (if c = FC.null then _ else _ : Dec (Option α)) input = _
  rw [show (if c = FC.null then pure none else some <$> decF env c : Dec (Option α)) =
    some <$> decF env c from if_neg hc, run_map]; rfl

example : decode Int32 debugEnv [0x70, 0, 0, 0, 1] = .err (.invalidFormatCode 0x70) := by decide

/-! ## C48 -/

/-- After the format code `c`, exactly `k` payload bytes are needed: with fewer
the outcome is `Incomplete(k)`, and with at least `k` a value is decoded from
the first `k` of them. -/
def FixedPayload (α : Type) [DecodeF α] (c : UInt8) (k : Nat) : Prop :=
  ∀ (env : Env) (payload : Bytes),
    (payload.length < k → decode α env (c :: payload) = .err (.incomplete k)) ∧
    (k ≤ payload.length → ∃ v, ∀ more,
      decode α env (c :: (payload.take k ++ more)) = .ok (more, v))

theorem fixed_readBE {α : Type} [DecodeF α] {c : UInt8} {k : Nat} {f : Nat → α}
    (h : ∀ env, decF env c = f <$> readBE k) : FixedPayload α c k := by
  intro env payload
  constructor
  · intro hl
    show decF env c payload = _
    rw [h, run_map, readBE, run_map, takeN_short hl]
  · intro hl
    refine ⟨f (beDec (payload.take k)), fun more => ?_⟩
    show decF env c _ = _
    rw [h]
    exact map_ok (map_ok (Reads.takeN (payload.take k) (by simp; omega) more))

theorem fixed_readU8 {α : Type} [DecodeF α] {c : UInt8} {f : UInt8 → α}
    (h : ∀ env, decF env c = f <$> readU8) : FixedPayload α c 1 := by
  intro env payload
  cases payload with
  | nil =>
    refine ⟨fun _ => ?_, fun hl => absurd hl (by simp)⟩
    show decF env c _ = _
    rw [h]; rfl
  | cons b t =>
    refine ⟨fun hl => absurd hl (by simp), fun _ => ⟨f b, fun more => ?_⟩⟩
    show decF env c _ = _
    rw [h]; rfl

/-- **C48**, fixed-width types: a short payload is `Incomplete(width)`, and
supplying the missing bytes (whatever they are) makes decoding succeed. -/
theorem C48_fixed_width :
    FixedPayload Bool 0x56 1 ∧ FixedPayload UInt8 0x50 1 ∧ FixedPayload UInt16 0x60 2 ∧
    FixedPayload UInt32 0x70 4 ∧ FixedPayload UInt32 0x52 1 ∧
    FixedPayload UInt64 0x80 8 ∧ FixedPayload UInt64 0x53 1 ∧
    FixedPayload Int8 0x51 1 ∧ FixedPayload Int16 0x61 2 ∧
    FixedPayload Int32 0x71 4 ∧ FixedPayload Int32 0x54 1 ∧
    FixedPayload Int64 0x81 8 ∧ FixedPayload Int64 0x55 1 ∧
    FixedPayload F32 0x72 4 ∧ FixedPayload F64 0x82 8 ∧ FixedPayload Uuid 0x98 16 := by
  refine ⟨fixed_readU8 fun _ => rfl, fixed_readU8 (f := id) fun _ => ?_,
    fixed_readBE (f := UInt16.ofNat) fun _ => rfl,
    fixed_readBE (f := UInt32.ofNat) fun _ => rfl, fixed_readU8 (f := UInt8.toUInt32) fun _ => rfl,
    fixed_readBE (f := UInt64.ofNat) fun _ => rfl, fixed_readU8 (f := UInt8.toUInt64) fun _ => rfl,
    fixed_readU8 (f := UInt8.toInt8) fun _ => rfl,
    fixed_readBE (f := fun n => (UInt16.ofNat n).toInt16) fun _ => rfl,
    fixed_readBE (f := fun n => (UInt32.ofNat n).toInt32) fun _ => rfl,
    fixed_readU8 (f := fun b => b.toInt8.toInt32) fun _ => ?_,
    fixed_readBE (f := fun n => (UInt64.ofNat n).toInt64) fun _ => rfl,
    fixed_readU8 (f := fun b => b.toInt8.toInt64) fun _ => ?_,
    fixed_readBE (f := fun n => F32.mk (UInt32.ofNat n)) fun _ => rfl,
    fixed_readBE (f := fun n => F64.mk (UInt64.ofNat n)) fun _ => rfl, ?_⟩
  · rw [id_map]; rfl
  · show Int8.toInt32 <$> (UInt8.toInt8 <$> readU8) = _
    rw [← comp_map]; rfl
  · show Int8.toInt64 <$> (UInt8.toInt8 <$> readU8) = _
    rw [← comp_map]; rfl
  · intro env payload
    constructor
    · intro hl
      show (takeN 16 >>= uuidOf) payload = _
      rw [run_bind, takeN_short hl]
    · intro hl
      have ht : (payload.take 16).length = 16 := by simp; omega
      refine ⟨⟨payload.take 16, ht⟩, fun more => ?_⟩
      show (takeN 16 >>= uuidOf) _ = _
      rw [run_bind, Reads.takeN (payload.take 16) ht more]
      simp only [uuidOf, ht, dif_pos]; rfl

/-- **C48**, char and timestamp: a short payload is `Incomplete(width)` (with a
full payload the value must also be legal, C11 and C12). -/
theorem C48_char_timestamp (env : Env) (payload : Bytes) :
    (payload.length < 4 → decode Char env (0x73 :: payload) = .err (.incomplete 4)) ∧
    (payload.length < 8 → decode DateTime env (0x83 :: payload) = .err (.incomplete 8)) := by
  constructor
  · intro hl
    show (readBE 4 >>= _ : Dec Char) payload = _
    rw [run_bind, readBE, run_map, takeN_short hl]
  · intro hl
    show (readBE 8 >>= _ : Dec DateTime) payload = _
    rw [run_bind, readBE, run_map, takeN_short hl]

/-- After the format code, an 8-bit (`wide = false`) or 32-bit length is read;
short lengths and short contents are `Incomplete` with the number of bytes
needed for that part. -/
def SizedPayload (α : Type) [DecodeF α] (c8 c32 : UInt8) : Prop :=
  ∀ env : Env,
    decode α env [c8] = .err (.incomplete 1) ∧
    (∀ (n : UInt8) (t : Bytes), t.length < n.toNat →
      decode α env (c8 :: n :: t) = .err (.incomplete n.toNat)) ∧
    (∀ t : Bytes, t.length < 4 → decode α env (c32 :: t) = .err (.incomplete 4)) ∧
    (∀ (a b c d : UInt8) (t : Bytes), t.length < beDec [a, b, c, d] →
      decode α env (c32 :: a :: b :: c :: d :: t) = .err (.incomplete (beDec [a, b, c, d])))

theorem sized_of {α : Type} [DecodeF α] {c8 c32 : UInt8} {f : Bytes → Dec α}
    (h8 : ∀ env, decF env c8 = readBytesU8 >>= f) (h32 : ∀ env, decF env c32 = readBytesU32 >>= f) :
    SizedPayload α c8 c32 := by
  intro env
  refine ⟨?_, fun n t hl => ?_, fun t hl => ?_, fun a b c d t hl => ?_⟩
  · rw [decode_cons, h8]; rfl
  · rw [decode_cons, h8, run_bind, readBytesU8_eq, takeN_short hl]
  · rw [decode_cons, h32, run_bind, readBytesU32, run_bind, readBE, run_map, takeN_short hl]
  · rw [decode_cons, h32, run_bind, readBytesU32_eq, takeN_short hl]

/-- **C48**, variable-width types. -/
theorem C48_variable_width :
    SizedPayload Binary 0xa0 0xb0 ∧ SizedPayload Str 0xa1 0xb1 ∧ SizedPayload Symbol 0xa3 0xb3 :=
  ⟨sized_of (f := fun b => pure ⟨b⟩) (fun _ => by rw [← map_eq_pure_bind]; rfl)
    (fun _ => by rw [← map_eq_pure_bind]; rfl),
   sized_of (f := fromUtf8) (fun _ => rfl) (fun _ => rfl),
   sized_of (f := fun b => Symbol.mk <$> fromUtf8 b)
    (fun _ => map_bind Symbol.mk readBytesU8 fromUtf8)
    (fun _ => map_bind Symbol.mk readBytesU32 fromUtf8)⟩

/-- An empty input is `Incomplete(1)` for every type. -/
theorem C48_empty {α : Type} [DecodeF α] (env : Env) : decode α env [] = .err (.incomplete 1) := rfl

example : decode UInt64 debugEnv [0x80, 1, 2] = .err (.incomplete 8) := by decide
example : decode Binary debugEnv [0xb0, 0, 0, 1, 0, 7] = .err (.incomplete 256) := by decide

end Amqp
