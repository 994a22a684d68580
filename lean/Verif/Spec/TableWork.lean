import Verif.Spec.Tables
/-!
# Comparisons made by hash tables

What every hash table has to do to add a key, whatever its layout: compare the key
with every stored key of the same hash, since any of them might be equal to it.
-/
set_option autoImplicit false
namespace Amqp
open StrRepr (HashWrite)

/-- Has a stored entry the hash of `k`? -/
def Clashes {K V H : Type} [HashKey K] (hasher : Option (List HashWrite) → H) (k : K)
    (e : K × V) : Prop := hasher (HashKey.hash e.1) = hasher (HashKey.hash k)

/-- A possible effect of `insert(k, v)` with the number of keys `k` is compared with.
A new key is compared with at least the stored keys of its hash (`clash` lists the
entries it is compared with, `others` the rest); no stored key is compared twice. -/
inductive TableStep {K V H : Type} [HashKey K] (hasher : Option (List HashWrite) → H)
    (k : K) (v : V) : List (K × V) → List (K × V) → Nat → Prop where
  | replaced (l1 l2 l' : List (K × V)) (e : K × V) (n : Nat) : HKey.keq k e.1 = true →
      l'.Perm (l1 ++ (e.1, v) :: l2) → 1 ≤ n → n ≤ (l1 ++ e :: l2).length →
      TableStep hasher k v (l1 ++ e :: l2) l' n
  | added (l l' compared others : List (K × V)) : l.Perm (compared ++ others) →
      (∀ e ∈ compared, HKey.keq k e.1 = false) → (∀ e ∈ others, ¬ Clashes hasher k e) →
      l'.Perm ((k, v) :: l) → TableStep hasher k v l l' compared.length

/-- A possible table after inserting entries one after the other, with the number of
comparisons of keys made on the way. -/
inductive TableWork {K V H : Type} [HashKey K] (hasher : Option (List HashWrite) → H) :
    List (K × V) → List (K × V) → List (K × V) → Nat → Prop where
  | done (l : List (K × V)) : TableWork hasher l [] l 0
  | step (l m n : List (K × V)) (k : K) (v : V) (t : List (K × V)) (c d : Nat) :
      TableStep hasher k v l m c → TableWork hasher m t n d →
      TableWork hasher l ((k, v) :: t) n (c + d)

end Amqp
