import Verif.Utf8
/-!
# What `std::str::from_utf8` says of bytes that are not UTF-8

`run_utf8_validation` of `core::str::validations`, behind the calls at
`src/codec/decode.rs:201,205,217,221,233,237,247`.
-/
set_option autoImplicit false
namespace Amqp

/-- `std::str::Utf8Error`, carried by `AmqpParseError::Utf8Error`, `src/errors.rs:25`:
`valid_up_to` and `error_len`. -/
structure Utf8Error where
  validUpTo : Nat
  errorLen : Option Nat
deriving DecidableEq

/-- `run_utf8_validation` from index `i` on, with its result turned around: `none` is `Ok(())`.
The fast path over ASCII, which looks at two words at a time, is left out. -/
def utf8Check (i : Nat) : Bytes → Option Utf8Error
  | [] => none
  | a :: t =>
    if a.toNat ≤ 0x7F then utf8Check (i + 1) t
    else if 0xC2 ≤ a.toNat ∧ a.toNat ≤ 0xDF then
      match t with
      | [] => some ⟨i, none⟩
      | b :: t => if isCont b then utf8Check (i + 2) t else some ⟨i, some 1⟩
    else if 0xE0 ≤ a.toNat ∧ a.toNat ≤ 0xEF then
      match t with
      | [] => some ⟨i, none⟩
      | [b] => if second3 a b then some ⟨i, none⟩ else some ⟨i, some 1⟩
      | b :: c :: t =>
        if second3 a b then if isCont c then utf8Check (i + 3) t else some ⟨i, some 2⟩
        else some ⟨i, some 1⟩
    else if 0xF0 ≤ a.toNat ∧ a.toNat ≤ 0xF4 then
      match t with
      | [] => some ⟨i, none⟩
      | [b] => if second4 a b then some ⟨i, none⟩ else some ⟨i, some 1⟩
      | [b, c] =>
        if second4 a b then if isCont c then some ⟨i, none⟩ else some ⟨i, some 2⟩
        else some ⟨i, some 1⟩
      | b :: c :: d :: t =>
        if second4 a b then
          if isCont c then if isCont d then utf8Check (i + 4) t else some ⟨i, some 3⟩
          else some ⟨i, some 2⟩
        else some ⟨i, some 1⟩
    else some ⟨i, some 1⟩

/-- `from_utf8` fails for the bytes that `validUtf8` does not accept. -/
theorem utf8Check_eq_none (i : Nat) (s : Bytes) : utf8Check i s = none ↔ validUtf8 s = true := by
  fun_induction utf8Check i s <;> rw [validUtf8.eq_def] <;> simp [*]

/-- The error of `from_utf8` for bytes that are not UTF-8 (`utf8Check_eq_none`: for others, which
are not asked about, it is arbitrary). -/
def utf8Error (s : Bytes) : Utf8Error := (utf8Check 0 s).getD ⟨0, none⟩

example : utf8Error [0x61, 0xE2, 0x82] = ⟨1, none⟩ := by decide
example : utf8Error [0x61, 0xE2, 0x82, 0x41] = ⟨1, some 2⟩ := by decide
example : utf8Error [0x61, 0xFF] = ⟨1, some 1⟩ := by decide

end Amqp
