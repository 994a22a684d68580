import Verif.Props.Flooding
/-!
# C77: keys that do not collide

The keys for which `C77_violated_fx` shows collisions are binary.  Numbers of one type, truth
values and characters never have the same hash, so maps with such keys need no comparisons.
-/
set_option autoImplicit false
namespace Amqp
open StrRepr (HashWrite)

/-- Adding to the hash is injective, since the factor is odd. -/
theorem fxAdd_inj {h a b : UInt64} (e : fxAdd h a = fxAdd h b) : a = b := by
  unfold fxAdd at e
  have e := congrArg (· * (0x2040003d780970bd : UInt64)) e
  simp only [UInt64.mul_assoc, show (0x517cc1b727220a95 : UInt64) * 0x2040003d780970bd = 1 by decide,
    UInt64.mul_one] at e
  exact (UInt64.xor_right_inj _).1 e

theorem ofInt_word_inj {x y : Int} (hx : 0 ≤ x) (hx' : x < 2 ^ 64) (hy : 0 ≤ y) (hy' : y < 2 ^ 64)
    (e : UInt64.ofInt x = UInt64.ofInt y) : x = y := by
  have e := congrArg UInt64.toNat e
  simp only [UInt64.ofInt, UInt64.toNat_ofNat'] at e
  omega

theorem fxInt_inj {h : UInt64} {w : Nat} (hw : w = 1 ∨ w = 2 ∨ w = 4 ∨ w = 8) {x y : Int}
    (e : fxWrite h (.int w x) = fxWrite h (.int w y)) : x % 256 ^ w = y % 256 ^ w := by
  have e := fxAdd_inj e
  rcases hw with rfl | rfl | rfl | rfl <;> exact ofInt_word_inj (by omega) (by omega) (by omega) (by omega) e

/-- The keys made by `f` have different hashes. -/
def Spread {α : Type} (f : α → Variant) : Prop :=
  ∀ a b, fxHash (HashKey.hash (f a)) = fxHash (HashKey.hash (f b)) → a = b

/-- **C77**: in the hash function in use, different numbers of one type have different hashes,
and so have truth values and characters. -/
theorem C77_numbers_partial : Spread Variant.boolean ∧ Spread Variant.ubyte ∧
    Spread Variant.ushort ∧ Spread Variant.uint ∧ Spread Variant.ulong ∧ Spread Variant.byte ∧
    Spread Variant.short ∧ Spread Variant.int ∧ Spread Variant.long ∧ Spread Variant.char := by
  refine ⟨?_, ?_, ?_, ?_, ?_, ?_, ?_, ?_, ?_, ?_⟩
  · intro a b e
    have e := fxAdd_inj e
    revert e; cases a <;> cases b <;> decide
  · intro a b e
    have e := congrArg UInt64.toNat (fxAdd_inj e)
    simp only [UInt8.toNat_toUInt64] at e
    exact UInt8.toNat.inj e
  · intro a b e
    have e := fxInt_inj (w := 2) (by omega) e
    have := a.toNat_lt; have := b.toNat_lt
    exact UInt16.toNat.inj (by omega)
  · intro a b e
    have e := fxInt_inj (w := 4) (by omega) e
    have := a.toNat_lt; have := b.toNat_lt
    exact UInt32.toNat.inj (by omega)
  · intro a b e
    have e := fxInt_inj (w := 8) (by omega) e
    have := a.toNat_lt; have := b.toNat_lt
    exact UInt64.toNat.inj (by omega)
  · intro a b e
    have e := fxInt_inj (w := 1) (by omega) e
    have := a.toInt_lt; have := b.toInt_lt; have := a.le_toInt; have := b.le_toInt
    exact Int8.toInt_inj.1 (by omega)
  · intro a b e
    have e := fxInt_inj (w := 2) (by omega) e
    have := a.toInt_lt; have := b.toInt_lt; have := a.le_toInt; have := b.le_toInt
    exact Int16.toInt_inj.1 (by omega)
  · intro a b e
    have e := fxInt_inj (w := 4) (by omega) e
    have := a.toInt_lt; have := b.toInt_lt; have := a.le_toInt; have := b.le_toInt
    exact Int32.toInt_inj.1 (by omega)
  · intro a b e
    have e := fxInt_inj (w := 8) (by omega) e
    have := a.toInt_lt; have := b.toInt_lt; have := a.le_toInt; have := b.le_toInt
    exact Int64.toInt_inj.1 (by omega)
  · intro a b e
    have e := fxInt_inj (w := 4) (by omega) e
    have ha : a.toNat < 2 ^ 32 := a.val.toNat_lt
    have hb : b.toNat < 2 ^ 32 := b.val.toNat_lt
    exact Char.toNat_inj.1 (by omega)

/-- **C77**: entries whose keys are such, all different, can be stored without comparing any. -/
theorem C77_number_keys_partial {α V : Type} (f : α → Variant) (hf : Spread f) (pairs : List (α × V))
    (h : pairs.Pairwise fun a b => a.1 ≠ b.1) :
    ∃ l, TableWork fxHash [] (pairs.map fun p => (f p.1, p.2)) l 0 :=
  C77_spread_partial _ (List.pairwise_map.2 (h.imp fun hne e => hne (hf _ _ e)))

/-- Three octets as keys. -/
example : ∃ l, TableWork fxHash [] [(Variant.ubyte 1, 'a'), (.ubyte 2, 'b'), (.ubyte 255, 'c')] l 0 :=
  C77_number_keys_partial Variant.ubyte C77_numbers_partial.2.1 [(1, 'a'), (2, 'b'), (255, 'c')]
    (by decide)

end Amqp
