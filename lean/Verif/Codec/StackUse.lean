import Verif.Hash
/-!
# Comparing, hashing, cloning and dropping with a stack

The derived implementations for `Variant` (`src/types/variant.rs:12`) call themselves for
the parts of a value.  As in `Codec/Stack`, each is given the number of nested calls that
still fit on the stack.
-/
set_option autoImplicit false
namespace Amqp
open StrRepr (HashWrite)
variable {ε α β : Type}

/-- The parts of a value, one after the other. -/
def eachM (f : α → Res ε (List β)) : List α → Res ε (List β)
  | [] => .ok []
  | a :: t => f a >>= fun x => eachM f t >>= fun y => .ok (x ++ y)

/-- `derive(Hash) for Variant`, `src/types/variant.rs:12`, and for `List`, `src/types/mod.rs:56`;
`Hash for VariantMap` panics, `src/types/variant.rs:138-142`. -/
def Variant.hashIn : Nat → Variant → Res ε (List HashWrite)
  | 0, _ => .panic .stackOverflow
  | d + 1, .list l => eachM (Variant.hashIn d) l >>= fun w => .ok (.tag 19 :: .len l.length :: w)
  | _ + 1, .map _ => .panic .unimplemented
  | d + 1, .described x v => Variant.hashIn d v >>= fun w => .ok (.tag 21 :: (x.hash ++ w))
  | _ + 1, v => match v.hash with
    | some w => .ok w
    | none => .panic .unimplemented

/-- `slice == slice` (std) for items that may overflow the stack: first the lengths, then the
items up to the first that differs. -/
def pairsM (f : α → β → Res ε Bool) : List α → List β → Res ε Bool
  | a :: s, b :: t => f a b >>= fun r => if r then pairsM f s t else .ok false
  | _, _ => .ok true

/-- `Iterator::all` (std). -/
def allM (f : α → Res ε Bool) : List α → Res ε Bool
  | [] => .ok true
  | a :: t => f a >>= fun r => if r then allM f t else .ok false

/-- The search in a table.  Which keys are compared is up to the table; here all of them up to
the one that is equal, so that no search needs more stack. -/
def findM (f : α → Res ε Bool) : List (α × β) → Res ε (Option β)
  | [] => .ok none
  | e :: t => f e.1 >>= fun r => if r then .ok (some e.2) else findM f t

/-- `derive(PartialEq) for Variant`, `src/types/variant.rs:12`; `HashMap ==` looks up each key
of the left map in the right one, for which it is hashed. -/
def Variant.eqIn : Nat → Variant → Variant → Res ε Bool
  | 0, _, _ => .panic .stackOverflow
  | d + 1, .list a, .list b =>
    if a.length = b.length then pairsM (Variant.eqIn d) a b else .ok false
  | d + 1, .map a, .map b =>
    if a.length = b.length then
      allM (fun e => e.1.hashIn d >>= fun _ => findM (Variant.eqIn d e.1) b >>= fun r =>
        match r with
        | some w => Variant.eqIn d e.2 w
        | none => .ok false) a
    else .ok false
  | d + 1, .described x v, .described y w => if x = y then Variant.eqIn d v w else .ok false
  | _ + 1, v, w => .ok (v.veq w)

/-- The items, each made from one. -/
def mapM' (f : α → Res ε β) : List α → Res ε (List β)
  | [] => .ok []
  | a :: t => f a >>= fun x => mapM' f t >>= fun y => .ok (x :: y)

/-- `derive(Clone) for Variant`, `src/types/variant.rs:12`. -/
def Variant.cloneIn : Nat → Variant → Res ε Variant
  | 0, _ => .panic .stackOverflow
  | d + 1, .list l => mapM' (Variant.cloneIn d) l >>= fun l => .ok (.list l)
  | d + 1, .map m =>
    mapM' (fun e => Variant.cloneIn d e.1 >>= fun k => Variant.cloneIn d e.2 >>= fun v => .ok (k, v)) m
      >>= fun m => .ok (.map m)
  | d + 1, .described x v => Variant.cloneIn d v >>= fun v => .ok (.described x v)
  | _ + 1, v => .ok v

/-- Dropping a `Variant` drops its parts. -/
def Variant.dropIn : Nat → Variant → Res ε Unit
  | 0, _ => .panic .stackOverflow
  | d + 1, .list l => mapM' (Variant.dropIn d) l >>= fun _ => .ok ()
  | d + 1, .map m =>
    mapM' (fun e => Variant.dropIn d e.1 >>= fun _ => Variant.dropIn d e.2) m >>= fun _ => .ok ()
  | d + 1, .described _ v => Variant.dropIn d v
  | _ + 1, _ => .ok ()

end Amqp
