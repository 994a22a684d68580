import Verif.Basic
/-!
# UTF-8 validation and text values

`std::str::from_utf8` as used in `src/codec/decode.rs:200-247`.
-/
namespace Amqp

/-- A UTF-8 continuation byte (`10xxxxxx`). -/
def isCont (b : UInt8) : Bool := 0x80 ≤ b.toNat && b.toNat ≤ 0xBF

/-- Legal second bytes for a three-byte lead (core::str::validations):
excludes overlong forms (E0) and surrogates (ED). -/
def second3 (a b : UInt8) : Bool :=
  if a.toNat = 0xE0 then 0xA0 ≤ b.toNat && b.toNat ≤ 0xBF
  else if a.toNat = 0xED then 0x80 ≤ b.toNat && b.toNat ≤ 0x9F
  else isCont b

/-- Legal second bytes for a four-byte lead: excludes overlong forms (F0) and
code points above 10FFFF (F4). -/
def second4 (a b : UInt8) : Bool :=
  if a.toNat = 0xF0 then 0x90 ≤ b.toNat && b.toNat ≤ 0xBF
  else if a.toNat = 0xF4 then 0x80 ≤ b.toNat && b.toNat ≤ 0x8F
  else isCont b

/-- `std::str::from_utf8(bytes).is_ok()`, the table-driven check of
`core::str::validations::run_utf8_validation`.  Used at
`src/codec/decode.rs:201,205,217,221,233,237,247`.  What it says of
other bytes is `utf8Check`. -/
def validUtf8 : Bytes → Bool
  | [] => true
  | a :: t =>
    if a.toNat ≤ 0x7F then validUtf8 t
    else if 0xC2 ≤ a.toNat ∧ a.toNat ≤ 0xDF then
      match t with
      | b :: t => isCont b && validUtf8 t
      | _ => false
    else if 0xE0 ≤ a.toNat ∧ a.toNat ≤ 0xEF then
      match t with
      | b :: c :: t => second3 a b && isCont c && validUtf8 t
      | _ => false
    else if 0xF0 ≤ a.toNat ∧ a.toNat ≤ 0xF4 then
      match t with
      | b :: c :: d :: t => second4 a b && isCont c && isCont d && validUtf8 t
      | _ => false
    else false

/-- The UTF-8 encoding of a sequence of Unicode scalar values (specification
side; `String.utf8EncodeChar` is Lean core's encoder for one scalar value). -/
def utf8 (cs : List Char) : Bytes := cs.flatMap String.utf8EncodeChar

theorem utf8EncodeChar_eq (c : Char) :
    String.utf8EncodeChar c =
      if c.toNat ≤ 0x7f then [UInt8.ofNat c.toNat]
      else if c.toNat ≤ 0x7ff then
        [UInt8.ofNat (c.toNat / 64 % 0x20 + 0xc0), UInt8.ofNat (c.toNat % 0x40 + 0x80)]
      else if c.toNat ≤ 0xffff then
        [UInt8.ofNat (c.toNat / 4096 % 0x10 + 0xe0), UInt8.ofNat (c.toNat / 64 % 0x40 + 0x80),
          UInt8.ofNat (c.toNat % 0x40 + 0x80)]
      else
        [UInt8.ofNat (c.toNat / 262144 % 0x08 + 0xf0), UInt8.ofNat (c.toNat / 4096 % 0x40 + 0x80),
          UInt8.ofNat (c.toNat / 64 % 0x40 + 0x80), UInt8.ofNat (c.toNat % 0x40 + 0x80)] := rfl

theorem char_toNat_valid (c : Char) :
    c.toNat < 0xD800 ∨ (0xDFFF < c.toNat ∧ c.toNat < 0x110000) := c.valid

theorem validUtf8_encodeChar_append (c : Char) (t : Bytes) :
    validUtf8 (String.utf8EncodeChar c ++ t) = validUtf8 t := by
  have hv := char_toNat_valid c
  generalize hn : c.toNat = n at hv
  rw [utf8EncodeChar_eq, hn]
  by_cases h1 : n ≤ 0x7f
  · have e : (UInt8.ofNat n).toNat = n := by simp; omega
    rw [if_pos h1, List.cons_append, List.nil_append, validUtf8.eq_def]
    simp only [e, h1, if_true]
  by_cases h2 : n ≤ 0x7ff
  · have e1 : (UInt8.ofNat (n / 64 % 0x20 + 0xc0)).toNat = n / 64 + 0xc0 := by
      rw [UInt8.toNat_ofNat']; omega
    have e2 : (UInt8.ofNat (n % 0x40 + 0x80)).toNat = n % 0x40 + 0x80 := by
      rw [UInt8.toNat_ofNat']; omega
    rw [if_neg h1, if_pos h2]
    generalize UInt8.ofNat (n / 64 % 0x20 + 0xc0) = x1 at *
    generalize UInt8.ofNat (n % 0x40 + 0x80) = x2 at *
    have c2 : isCont x2 = true := by simp [isCont]; omega
    simp only [List.cons_append, List.nil_append]
    rw [validUtf8, if_neg (by omega), if_pos (by omega), c2, Bool.true_and]
  by_cases h3 : n ≤ 0xffff
  · have e1 : (UInt8.ofNat (n / 4096 % 0x10 + 0xe0)).toNat = n / 4096 + 0xe0 := by
      rw [UInt8.toNat_ofNat']; omega
    have e2 : (UInt8.ofNat (n / 64 % 0x40 + 0x80)).toNat = n / 64 % 0x40 + 0x80 := by
      rw [UInt8.toNat_ofNat']; omega
    have e3 : (UInt8.ofNat (n % 0x40 + 0x80)).toNat = n % 0x40 + 0x80 := by
      rw [UInt8.toNat_ofNat']; omega
    rw [if_neg h1, if_neg h2, if_pos h3]
    generalize UInt8.ofNat (n / 4096 % 0x10 + 0xe0) = x1 at *
    generalize UInt8.ofNat (n / 64 % 0x40 + 0x80) = x2 at *
    generalize UInt8.ofNat (n % 0x40 + 0x80) = x3 at *
    have c2 : second3 x1 x2 = true := by
      unfold second3; (repeat' split) <;> simp [isCont] <;> omega
    have c3 : isCont x3 = true := by simp [isCont]; omega
    simp only [List.cons_append, List.nil_append]
    rw [validUtf8, if_neg (by omega), if_neg (by omega), if_pos (by omega)]
    simp only [c2, c3, Bool.true_and]
  · have e1 : (UInt8.ofNat (n / 262144 % 0x08 + 0xf0)).toNat = n / 262144 + 0xf0 := by
      rw [UInt8.toNat_ofNat']; omega
    have e2 : (UInt8.ofNat (n / 4096 % 0x40 + 0x80)).toNat = n / 4096 % 0x40 + 0x80 := by
      rw [UInt8.toNat_ofNat']; omega
    have e3 : (UInt8.ofNat (n / 64 % 0x40 + 0x80)).toNat = n / 64 % 0x40 + 0x80 := by
      rw [UInt8.toNat_ofNat']; omega
    have e4 : (UInt8.ofNat (n % 0x40 + 0x80)).toNat = n % 0x40 + 0x80 := by
      rw [UInt8.toNat_ofNat']; omega
    rw [if_neg h1, if_neg h2, if_neg h3]
    generalize UInt8.ofNat (n / 262144 % 0x08 + 0xf0) = x1 at *
    generalize UInt8.ofNat (n / 4096 % 0x40 + 0x80) = x2 at *
    generalize UInt8.ofNat (n / 64 % 0x40 + 0x80) = x3 at *
    generalize UInt8.ofNat (n % 0x40 + 0x80) = x4 at *
    have c2 : second4 x1 x2 = true := by
      unfold second4; (repeat' split) <;> simp [isCont] <;> omega
    have c3 : isCont x3 = true := by simp [isCont]; omega
    have c4 : isCont x4 = true := by simp [isCont]; omega
    simp only [List.cons_append, List.nil_append]
    rw [validUtf8, if_neg (by omega), if_neg (by omega), if_neg (by omega), if_pos (by omega)]
    simp only [c2, c3, c4, Bool.true_and]

theorem validUtf8_utf8 (cs : List Char) : validUtf8 (utf8 cs) = true := by
  induction cs with
  | nil => rfl
  | cons c cs ih =>
    rw [utf8, List.flatMap_cons, validUtf8_encodeChar_append]; exact ih

theorem u8_eq_of_toNat {a : UInt8} {n : Nat} (h : a.toNat = n) : a = UInt8.ofNat n := by
  apply UInt8.toNat_inj.1; have := a.toNat_lt; simp; omega

theorem exists_char_of_valid {a : UInt8} {t : Bytes} (h : validUtf8 (a :: t) = true) :
    ∃ (c : Char) (t' : Bytes), a :: t = String.utf8EncodeChar c ++ t' ∧ validUtf8 t' = true := by
  have ha := a.toNat_lt
  rw [validUtf8.eq_def] at h
  simp only at h
  have mk : ∀ n : Nat, (n < 0xD800 ∨ (0xDFFF < n ∧ n < 0x110000)) →
      ∃ c : Char, c.toNat = n := fun n hn =>
    ⟨Char.ofNatAux n hn, by
      show (UInt32.ofNatLT n _).toNat = n
      simp⟩
  split at h
  · obtain ⟨c, hc⟩ := mk a.toNat (by omega)
    refine ⟨c, t, ?_, h⟩
    rw [utf8EncodeChar_eq, hc, if_pos (by assumption)]
    simp
  split at h
  · split at h
    · rename_i b t
      simp only [Bool.and_eq_true, isCont, decide_eq_true_eq] at h
      obtain ⟨c, hc⟩ := mk ((a.toNat - 0xc0) * 64 + (b.toNat - 0x80)) (by omega)
      refine ⟨c, t, ?_, h.2⟩
      rw [utf8EncodeChar_eq, hc, if_neg (by omega), if_pos (by omega)]
      simp only [List.cons_append, List.nil_append, List.cons.injEq, and_true]
      exact ⟨u8_eq_of_toNat (by omega), u8_eq_of_toNat (by omega)⟩
    · cases h
  split at h
  · split at h
    · rename_i b c' t
      simp only [Bool.and_eq_true, isCont, second3, decide_eq_true_eq] at h
      obtain ⟨⟨h1, h2⟩, h3⟩ := h
      have hb : 0x80 ≤ b.toNat ∧ b.toNat ≤ 0xBF ∧ (a.toNat = 0xE0 → 0xA0 ≤ b.toNat) ∧
          (a.toNat = 0xED → b.toNat ≤ 0x9F) := by
        split at h1
        · simp at h1; omega
        · split at h1
          · simp at h1; omega
          · simp at h1; omega
      obtain ⟨c, hc⟩ := mk ((a.toNat - 0xe0) * 4096 + (b.toNat - 0x80) * 64 + (c'.toNat - 0x80))
        (by omega)
      refine ⟨c, t, ?_, h3⟩
      rw [utf8EncodeChar_eq, hc, if_neg (by omega), if_neg (by omega), if_pos (by omega)]
      simp only [List.cons_append, List.nil_append, List.cons.injEq, and_true]
      exact ⟨u8_eq_of_toNat (by omega), u8_eq_of_toNat (by omega), u8_eq_of_toNat (by omega)⟩
    · cases h
  split at h
  · split at h
    · rename_i b c' d t
      simp only [Bool.and_eq_true, isCont, second4, decide_eq_true_eq] at h
      obtain ⟨⟨⟨h1, h2⟩, h3⟩, h4⟩ := h
      have hb : 0x80 ≤ b.toNat ∧ b.toNat ≤ 0xBF ∧ (a.toNat = 0xF0 → 0x90 ≤ b.toNat) ∧
          (a.toNat = 0xF4 → b.toNat ≤ 0x8F) := by
        split at h1
        · simp at h1; omega
        · split at h1
          · simp at h1; omega
          · simp at h1; omega
      obtain ⟨c, hc⟩ := mk ((a.toNat - 0xf0) * 262144 + (b.toNat - 0x80) * 4096 +
        (c'.toNat - 0x80) * 64 + (d.toNat - 0x80)) (by omega)
      refine ⟨c, t, ?_, h4⟩
      rw [utf8EncodeChar_eq, hc, if_neg (by omega), if_neg (by omega), if_neg (by omega)]
      simp only [List.cons_append, List.nil_append, List.cons.injEq, and_true]
      exact ⟨u8_eq_of_toNat (by omega), u8_eq_of_toNat (by omega), u8_eq_of_toNat (by omega),
        u8_eq_of_toNat (by omega)⟩
    · cases h
  · cases h

theorem utf8EncodeChar_ne_nil (c : Char) : String.utf8EncodeChar c ≠ [] := by
  rw [utf8EncodeChar_eq]; (repeat' split) <;> simp

/-- The validator accepts exactly the UTF-8 encodings of sequences of Unicode
scalar values. -/
theorem validUtf8_iff (bs : Bytes) : validUtf8 bs = true ↔ ∃ cs, bs = utf8 cs := by
  constructor
  · intro h
    induction hn : bs.length using Nat.strongRecOn generalizing bs with
    | _ n ih =>
      cases bs with
      | nil => exact ⟨[], rfl⟩
      | cons a t =>
        obtain ⟨c, t', he, ht⟩ := exists_char_of_valid h
        have hl : t'.length < n := by
          have h1 := congrArg List.length he
          have h2 : 0 < (String.utf8EncodeChar c).length :=
            List.length_pos_iff.2 (utf8EncodeChar_ne_nil c)
          rw [List.length_append] at h1
          omega
        obtain ⟨cs, hcs⟩ := ih _ hl _ ht rfl
        exact ⟨c :: cs, by rw [he, hcs]; rfl⟩
  · rintro ⟨cs, rfl⟩; exact validUtf8_utf8 cs

/-- The text held by a Rust `&str`, `String<Bytes>` (`ByteStr`), `Str` or
`Symbol`: bytes known to be UTF-8.  The distinction between the shared and the
static representation of `Str` (`src/types/mod.rs:73-77`) is dropped here (it
does not influence encoding or decoding); it is modelled in `Verif.StrRepr`. -/
structure RStr where
  bytes : Bytes
  valid : validUtf8 bytes = true
deriving DecidableEq

@[ext] theorem RStr.ext {a b : RStr} (h : a.bytes = b.bytes) : a = b := by
  cases a; cases b; simp_all

/-- A Rust string literal. -/
def RStr.lit (s : String) : RStr := ⟨utf8 s.toList, validUtf8_utf8 _⟩

/-- `str::len`: length in bytes. -/
def RStr.len (s : RStr) : Nat := s.bytes.length

/-- Anything of `bytes` that can be typed as a literal in examples. -/
example : (RStr.lit "amqp").bytes = [97, 109, 113, 112] := by decide
example : validUtf8 [0xC3, 0xA9] = true := by decide
example : validUtf8 [0xC0, 0x80] = false := by decide
example : validUtf8 [0xED, 0xA0, 0x80] = false := by decide

end Amqp
