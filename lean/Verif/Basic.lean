/-!
# Results, errors, panics and byte-level readers

Model of the plumbing shared by all of `/repo/src/codec`.
-/
namespace Amqp

/-- A Rust `&[u8]` / contents of a `BytesMut`. -/
abbrev Bytes := List UInt8

/-- Ways in which the Rust code can abort.
* `overflow`: arithmetic overflow with overflow checks on (debug builds),
  e.g. `input[0] - 1` in `src/codec/decode.rs:534`.
* `sliceIndex`: slice/index out of range, e.g. `src/codec/decode.rs:256,274`.
* `unimplemented`: `unimplemented!()` in `src/types/variant.rs:140`.
* `timestampRange`: `Utc.timestamp` (chrono 0.4) outside chrono's range.
* `stackOverflow`: recursion deeper than the stack allows.
* `bufferFull`: `BufMut::put_*` on a `BytesMut` without room (bytes 0.4). -/
inductive Panic where
  | overflow | sliceIndex | unimplemented | timestampRange | stackOverflow | bufferFull
deriving DecidableEq, Repr

/-- The compilation/run environment the observable behaviour depends on.
`overflowChecks`: arithmetic overflow panics (debug) or wraps (release).
`stackDepth`: how many nested `Variant` decodes fit on the stack. -/
structure Env where
  overflowChecks : Bool
  stackDepth : Nat
deriving DecidableEq

/-- Outcome of a Rust function returning `Result<_, ε>`: `Ok`, `Err`, or panic. -/
inductive Res (ε : Type) (α : Type) where
  | ok (a : α)
  | err (e : ε)
  | panic (p : Panic)
deriving DecidableEq, Repr

namespace Res
variable {ε α β : Type}

/-- The `?` operator. -/
protected def bind (x : Res ε α) (f : α → Res ε β) : Res ε β :=
  match x with
  | ok a => f a
  | err e => err e
  | panic p => panic p

instance : Monad (Res ε) where
  pure := ok
  bind := Res.bind

@[simp] theorem pure_eq (a : α) : (pure a : Res ε α) = ok a := rfl
@[simp] theorem bind_ok (a : α) (f : α → Res ε β) : (ok a >>= f) = f a := rfl
@[simp] theorem bind_err (e : ε) (f : α → Res ε β) : (err e >>= f) = err e := rfl
@[simp] theorem bind_panic (p : Panic) (f : α → Res ε β) : (panic p >>= f) = panic p := rfl

instance : LawfulMonad (Res ε) := LawfulMonad.mk' _
  (id_map := fun x => by cases x <;> rfl)
  (pure_bind := fun _ _ => rfl)
  (bind_assoc := fun x _ _ => by cases x <;> rfl)

theorem bind_eq_ok {x : Res ε α} {f : α → Res ε β} {b : β} :
    (x >>= f) = ok b ↔ ∃ a, x = ok a ∧ f a = ok b := by
  cases x <;> simp

theorem bind_eq_panic {x : Res ε α} {f : α → Res ε β} {p : Panic} :
    (x >>= f) = panic p ↔ x = panic p ∨ ∃ a, x = ok a ∧ f a = panic p := by
  cases x <;> simp

/-- Neither panics. -/
def NoPanic (x : Res ε α) : Prop := ∀ p, x ≠ panic p

@[simp] theorem noPanic_ok (a : α) : (ok a : Res ε α).NoPanic := fun _ h => by cases h
@[simp] theorem noPanic_err (e : ε) : (err e : Res ε α).NoPanic := fun _ h => by cases h
@[simp] theorem not_noPanic_panic (p : Panic) : ¬ (panic p : Res ε α).NoPanic :=
  fun h => h p rfl

theorem NoPanic.bind {x : Res ε α} {f : α → Res ε β} (hx : x.NoPanic)
    (hf : ∀ a, x = ok a → (f a).NoPanic) : (x >>= f).NoPanic := by
  intro p h
  rcases bind_eq_panic.1 h with h | ⟨a, ha, h⟩
  · exact hx p h
  · exact hf a ha p h

end Res

/-! ## Big-endian integers -/

/-- `put_u8`/`put_u16_be`/`put_u32_be`/`put_u64_be` (bytes 0.4): the low `k`
bytes of `n`, most significant first.  Truncating casts such as
`length as u32` (`src/codec/encode.rs:301`) are the reduction modulo `256^k`
done here. -/
def beEnc : Nat → Nat → Bytes
  | 0, _ => []
  | k + 1, n => UInt8.ofNat (n / 256 ^ k) :: beEnc k n

/-- `BigEndian::read_u16`/`read_u32`/`read_u64` (byteorder) on the selected bytes. -/
def beDec (bs : Bytes) : Nat :=
  bs.foldl (fun acc b => acc * 256 + b.toNat) 0

@[simp] theorem beEnc_length (k n : Nat) : (beEnc k n).length = k := by
  induction k with
  | zero => rfl
  | succ k ih => simp [beEnc, ih]

theorem foldl_be (bs : Bytes) (a : Nat) :
    bs.foldl (fun acc b => acc * 256 + b.toNat) a = a * 256 ^ bs.length + beDec bs := by
  induction bs generalizing a with
  | nil => simp [beDec]
  | cons b bs ih =>
    simp only [List.foldl_cons, beDec, List.length_cons]
    rw [ih, ih (0 * 256 + b.toNat)]
    simp only [Nat.pow_succ, Nat.add_mul, Nat.zero_mul, Nat.zero_add]
    rw [Nat.mul_assoc, Nat.mul_comm 256]
    omega

theorem beDec_cons (b : UInt8) (bs : Bytes) :
    beDec (b :: bs) = b.toNat * 256 ^ bs.length + beDec bs := by
  rw [beDec, List.foldl_cons, foldl_be]; simp

@[simp] theorem beDec_nil : beDec [] = 0 := rfl

theorem beDec_lt (bs : Bytes) : beDec bs < 256 ^ bs.length := by
  induction bs with
  | nil => simp
  | cons b bs ih =>
    rw [beDec_cons, List.length_cons, Nat.pow_succ]
    have : b.toNat < 256 := b.toNat_lt
    have h2 : (b.toNat + 1) * 256 ^ bs.length ≤ 256 * 256 ^ bs.length :=
      Nat.mul_le_mul_right _ this
    rw [Nat.mul_comm _ 256]
    rw [Nat.add_mul, Nat.one_mul] at h2
    omega

theorem beDec_beEnc (k n : Nat) : beDec (beEnc k n) = n % 256 ^ k := by
  induction k with
  | zero => simp [beEnc, Nat.mod_one]
  | succ k ih =>
    rw [beEnc, beDec_cons, ih, beEnc_length, UInt8.toNat_ofNat']
    have h : n % 256 ^ (k + 1) = n % 256 ^ k + 256 ^ k * (n / 256 ^ k % 256) := by
      rw [Nat.pow_succ, Nat.mod_mul]
    rw [h, Nat.mul_comm, Nat.add_comm]

theorem beEnc_beDec (bs : Bytes) : beEnc bs.length (beDec bs) = bs := by
  induction bs with
  | nil => rfl
  | cons b bs ih =>
    have hlt := beDec_lt bs
    have hpos : 0 < 256 ^ bs.length := Nat.pow_pos (by decide)
    have key : ∀ k n m, k ≤ bs.length → beEnc k (m * 256 ^ bs.length + n) = beEnc k n := by
      intro k n m hk
      induction k with
      | zero => rfl
      | succ k ihk =>
        rw [beEnc, beEnc, ihk (by omega)]
        congr 1
        have hs : (256:Nat) ^ bs.length = 256 ^ k * (256 * 256 ^ (bs.length - k - 1)) := by
          rw [← Nat.pow_succ', ← Nat.pow_add]; congr 1; omega
        rw [hs, ← Nat.mul_assoc, Nat.mul_comm m, Nat.mul_assoc,
          Nat.mul_add_div (Nat.pow_pos (by decide))]
        apply UInt8.toNat_inj.1
        simp only [UInt8.toNat_ofNat', Nat.reducePow]
        rw [← Nat.mul_assoc, Nat.mul_comm m, Nat.mul_assoc]
        omega
    rw [List.length_cons, beEnc, beDec_cons, key _ _ _ (Nat.le_refl _), ih]
    congr 1
    rw [Nat.mul_comm, Nat.mul_add_div hpos, Nat.div_eq_of_lt hlt]
    apply UInt8.toNat_inj.1
    simp

theorem beEnc_inj {k n m : Nat} (hn : n < 256 ^ k) (hm : m < 256 ^ k)
    (h : beEnc k n = beEnc k m) : n = m := by
  have := congrArg beDec h
  rwa [beDec_beEnc, beDec_beEnc, Nat.mod_eq_of_lt hn, Nat.mod_eq_of_lt hm] at this

end Amqp
