import Verif.Utf8Error
/-!
# Vocabulary of C94: where a text stops being text

After the documentation of `std::str::Utf8Error` and the Unicode Standard (D93b, "maximal subpart
of an ill-formed subsequence").  Only the encoding of scalar values is used, not the validator.
-/
set_option autoImplicit false
namespace Amqp

/-- These bytes are the beginning of the encoding of a scalar value (or all of it). -/
def Begins (x : Bytes) : Prop := ∃ c r, x ++ r = String.utf8EncodeChar c

/-- What the error says about `s`: it begins with encodings of scalar values that take `validUpTo`
bytes and goes on with something that begins with none.  Without a length, what is left is the
beginning of one; otherwise it is not, whatever follows, and the length is that of the longest
beginning of one that is found there, or one if there is none. -/
structure StopsBeing (s : Bytes) (u : Utf8Error) : Prop where
  stops : ∃ cs tail, s = utf8 cs ++ tail ∧ (utf8 cs).length = u.validUpTo ∧ tail ≠ [] ∧
    (∀ c r, tail ≠ String.utf8EncodeChar c ++ r) ∧
    match u.errorLen with
    | none => Begins tail
    | some n => ¬ Begins tail ∧ 0 < n ∧ n ≤ tail.length ∧ (n = 1 ∨ Begins (tail.take n)) ∧
        ∀ k, k ≤ tail.length → Begins (tail.take k) → k ≤ n

end Amqp
