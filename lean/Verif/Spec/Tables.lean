import Verif.Hash
import Verif.Spec.Maps
/-!
# Hash tables

What a hash table guarantees, whatever its hash function, its layout and its
iteration order: a search for a key finds an entry only if its key compares equal,
and finds one if there is one whose key compares equal and has the same hash.
-/
set_option autoImplicit false
namespace Amqp
open StrRepr (HashWrite)

/-- A possible answer of `get(k)` of a table with the given entries. -/
inductive TableGet {K V H : Type} [HashKey K] (hasher : Option (List HashWrite) → H)
    (entries : List (K × V)) (k : K) : Option V → Prop where
  | found (e : K × V) : e ∈ entries → HKey.keq k e.1 = true → TableGet hasher entries k (some e.2)
  | missed : (∀ e ∈ entries, hasher (HashKey.hash e.1) = hasher (HashKey.hash k) →
      HKey.keq k e.1 = false) → TableGet hasher entries k none

/-- A possible effect of `insert(k, v)`: the value of an entry that was found is
replaced, or an entry is added; entries may move. -/
inductive TableInsert {K V H : Type} [HashKey K] (hasher : Option (List HashWrite) → H)
    (k : K) (v : V) : List (K × V) → List (K × V) → Prop where
  | replaced (l1 l2 l' : List (K × V)) (e : K × V) : HKey.keq k e.1 = true →
      l'.Perm (l1 ++ (e.1, v) :: l2) → TableInsert hasher k v (l1 ++ e :: l2) l'
  | added (l l' : List (K × V)) :
      (∀ e ∈ l, hasher (HashKey.hash e.1) = hasher (HashKey.hash k) → HKey.keq k e.1 = false) →
      l'.Perm ((k, v) :: l) → TableInsert hasher k v l l'

/-- A possible table after inserting entries one after the other. -/
inductive TableRun {K V H : Type} [HashKey K] (hasher : Option (List HashWrite) → H) :
    List (K × V) → List (K × V) → List (K × V) → Prop where
  | done (l : List (K × V)) : TableRun hasher l [] l
  | step (l m n : List (K × V)) (k : K) (v : V) (t : List (K × V)) :
      TableInsert hasher k v l m → TableRun hasher m t n → TableRun hasher l ((k, v) :: t) n

end Amqp
