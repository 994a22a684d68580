import Verif.Spec.Codec
import Verif.Protocol.Base
/-!
# Described types on the wire

What AMQP 1.0 says about restricted enumerations, described lists (composite
types) and alternatives between described types.  The tables of fields, codes
and names the properties use are generated from `codegen/specification.json`.
-/
set_option autoImplicit false
namespace Amqp

/-- The forms of a list header that announce `size` bytes of content holding
`count` items (AMQP 1.0 part 1, 1.6.22): `list0`, `list8`, `list32`. -/
inductive ListHeader : Bytes → Nat → Nat → Prop
  | list0 : ListHeader [0x45] 0 0
  | list8 {size count : Nat} (hs : size + 1 < 256) (hc : count < 256) :
      ListHeader [0xc0, UInt8.ofNat (size + 1), UInt8.ofNat count] size count
  | list32 {size count : Nat} (hs : size + 4 < 2 ^ 32) (hc : count < 2 ^ 32) :
      ListHeader (0xd0 :: (beEnc 4 (size + 4) ++ beEnc 4 count)) size count

/-- The content size that a decoder built with the given overflow checking takes
from a list header: the announced size without the bytes of the count, which
wraps around in builds without overflow checks. -/
inductive TakenSize (env : Env) : Bytes → Nat → Prop
  | list0 : TakenSize env [0x45] 0
  | list8 (s c : UInt8) (h : 1 ≤ s.toNat) : TakenSize env [0xc0, s, c] (s.toNat - 1)
  | list32 (s c : Bytes) (hs : s.length = 4) (hc : c.length = 4) (h : 4 ≤ beDec s) :
      TakenSize env (0xd0 :: (s ++ c)) (beDec s - 4)
  | list8Wrapped (c : UInt8) (h : env.overflowChecks = false) : TakenSize env [0xc0, 0, c] 255
  | list32Wrapped (s c : Bytes) (hs : s.length = 4) (hc : c.length = 4) (h : beDec s < 4)
      (h' : env.overflowChecks = false) :
      TakenSize env (0xd0 :: (s ++ c)) (2 ^ 32 + beDec s - 4)

/-- A successful decode consumed the described marker, a descriptor, a list
header and exactly the number of bytes that header announces. -/
def ConsumesDeclared (α : Type) [DecodeF α] : Prop :=
  ∀ (env : Env) (input rest : Bytes) (v : α), decode α env input = .ok (rest, v) →
    ∃ desc hdr body, input = 0x00 :: (desc ++ (hdr ++ (body ++ rest))) ∧
      (∃ d : Descriptor, Means env desc d) ∧ TakenSize env hdr body.length

/-- `d` is the descriptor with this code or with this name. -/
def Descriptor.Is (code : UInt64) (name : String) (d : Descriptor) : Prop :=
  d = .ulong code ∨ d = .symbol ⟨.lit name⟩

/-- Values of `α` are selected by the numeric descriptor `code` and, just as
well, by the symbolic descriptor `name`, in whatever form either is written;
any other descriptor and anything that is not described is rejected. -/
structure SelectedBy (α : Type) [DecodeF α] (code : UInt64) (name : String) : Prop where
  agree : ∀ (env : Env) (u u' payload : Bytes) (d d' : Descriptor), Means env u d → Means env u' d' →
    d.Is code name → d'.Is code name →
    decode α env (0x00 :: (u ++ payload)) = decode α env (0x00 :: (u' ++ payload))
  reject : ∀ (env : Env) (u payload : Bytes) (d : Descriptor), Means env u d → ¬ d.Is code name →
    decode α env (0x00 :: (u ++ payload)) = .err (.invalidDescriptor d)
  other : ∀ (env : Env) (c : UInt8) (payload : Bytes), c ≠ 0x00 →
    decode α env (c :: payload) = .err (.invalidFormatCode c)

/-- The decoder `dec` of a union treats input selected by this descriptor as the
member decoder `mem` does, wrapping the result. -/
def Alternative {U α : Type} (dec : Env → Dec U) (mem : Env → Dec α) (mk : α → U)
    (code : UInt64) (name : String) : Prop :=
  ∀ (env : Env) (u payload : Bytes) (d : Descriptor), Means env u d → d.Is code name →
    dec env (0x00 :: (u ++ payload)) = match mem env (0x00 :: (u ++ payload)) with
      | .ok (rest, v) => .ok (rest, mk v)
      | .err e => .err e
      | .panic p => .panic p

/-- The decoder `dec` of a union treats input selected by this descriptor as a
value of the base type with decoder `base`, wrapping the result. -/
def AlternativeOf {U α : Type} (dec : Env → Dec U) (base : Env → Dec α) (mk : α → U)
    (code : UInt64) (name : String) : Prop :=
  ∀ (env : Env) (u payload : Bytes) (d : Descriptor), Means env u d → d.Is code name →
    dec env (0x00 :: (u ++ payload)) = match base env payload with
      | .ok (rest, v) => .ok (rest, mk v)
      | .err e => .err e
      | .panic p => .panic p

/-- Descriptors outside the table, and input that is not described, are rejected. -/
structure NoOther {U : Type} (dec : Env → Dec U) (table : List (UInt64 × String)) : Prop where
  reject : ∀ (env : Env) (u payload : Bytes) (d : Descriptor), Means env u d →
    (∀ e ∈ table, ¬ d.Is e.1 e.2) →
    dec env (0x00 :: (u ++ payload)) = .err (.invalidDescriptor d)
  other : ∀ (env : Env) (c : UInt8) (payload : Bytes), c ≠ 0x00 →
    dec env (c :: payload) = .err (.invalidFormatCode c)

/-- `E` is the enumeration, named `name` in errors, of the given values of the
base type `β`: members are written as their values, decode back to themselves
from any form of their values, and all other values are rejected. -/
structure Enumerates (E β : Type) [Encode E] [DecodeF E] [Encode β] [DecodeF β] (name : String)
    (value : E → β) : Prop where
  written : ∀ e : E, enc e = enc (value e)
  roundTrips : ∀ (env : Env) (e : E), RoundTrips env e
  member : ∀ (env : Env) (u : Bytes) (e : E), Means env u (value e) → Means env u e
  unknown : ∀ (env : Env) (u rest : Bytes) (b : β), Means env u b → (∀ e, value e ≠ b) →
    decode E env (u ++ rest) = .err (.unknownEnumOption name)
  malformed : ∀ (env : Env) (input : Bytes) (e : ParseError), decode β env input = .err e →
    decode E env input = .err e

end Amqp
