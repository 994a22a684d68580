import Verif.Spec.Variant
/-!
# Maps as associations

Vocabulary for C16, C17: what value a sequence of entries gives a key.
-/
set_option autoImplicit false
namespace Amqp

/-- The value a map holds for `k`: that of the entry whose key equals `k`. -/
def valueOf {K V : Type} [HKey K] (k : K) (entries : List (K × V)) : Option V :=
  (entries.find? fun e => HKey.keq k e.1).map Prod.snd

/-- The value of the last of the entries whose key equals `k`. -/
def lastValueOf {K V : Type} [HKey K] (k : K) (entries : List (K × V)) : Option V :=
  (entries.reverse.find? fun e => HKey.keq k e.1).map Prod.snd

/-- Key equality is an equivalence on hashable keys. -/
class LawfulKey (K : Type) [HKey K] : Prop where
  refl : ∀ {a : K}, HKey.hashOk a = true → HKey.keq a a = true
  symm : ∀ {a b : K}, HKey.hashOk a = true → HKey.hashOk b = true → HKey.keq a b = true →
    HKey.keq b a = true
  trans : ∀ {a b c : K}, HKey.hashOk a = true → HKey.hashOk b = true → HKey.hashOk c = true →
    HKey.keq a b = true → HKey.keq b c = true → HKey.keq a c = true

end Amqp
