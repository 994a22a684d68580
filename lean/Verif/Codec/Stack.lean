import Verif.Codec.Encode
/-!
# Encoding with a stack

`Variant::encoded_size` and `Variant::encode` (`src/codec/encode.rs:628-686`) call
themselves for the parts of a value.  Here they are modelled with the number of nested
calls that still fit on the stack, as `decVariant` models decoding.
-/
set_option autoImplicit false
namespace Amqp

/-- `fold(0, |r, i| r + f(i))`, `src/codec/encode.rs:453-458,596-598`, for a call that may
overflow the stack. -/
def sumM {ε α : Type} (f : α → Res ε Nat) : List α → Res ε Nat
  | [] => .ok 0
  | a :: t => f a >>= fun n => sumM f t >>= fun k => .ok (n + k)

/-- `for i in .. { f(i, buf) }`, `src/codec/encode.rs:480-483,622-624`. -/
def catM {ε α : Type} (f : α → Res ε Bytes) : List α → Res ε Bytes
  | [] => .ok []
  | a :: t => f a >>= fun x => catM f t >>= fun y => .ok (x ++ y)

/-- `Variant::encoded_size`, `src/codec/encode.rs:629-654`, with the calls through
`List` (596-606) and `HashMap` (453-466). -/
def Variant.sizeIn {ε : Type} : Nat → Variant → Res ε Nat
  | 0, _ => .panic .stackOverflow
  | d + 1, .list l => sumM (Variant.sizeIn d) l >>= fun n => .ok (compoundSize n)
  | d + 1, .map m =>
    sumM (fun e => Variant.sizeIn d e.1 >>= fun a => Variant.sizeIn d e.2 >>= fun b => .ok (a + b)) m
      >>= fun n => .ok (compoundSize n)
  | d + 1, .described x v => Variant.sizeIn d v >>= fun n => .ok (size x + n)
  | _ + 1, v => .ok v.vsize

/-- `Variant::encode`, `src/codec/encode.rs:657-686`, with the calls through `List`
(608-626), which first asks for the sizes of the items, and `HashMap` (467-484), likewise. -/
def Variant.encIn {ε : Type} : Nat → Variant → Res ε Bytes
  | 0, _ => .panic .stackOverflow
  | d + 1, .list l =>
    sumM (Variant.sizeIn d) l >>= fun n => catM (Variant.encIn d) l >>= fun x =>
      .ok (compoundHdr FC.array8 FC.array32 n l.length ++ x)
  | d + 1, .map m =>
    sumM (fun e => Variant.sizeIn d e.1 >>= fun a => Variant.sizeIn d e.2 >>= fun b => .ok (a + b)) m
      >>= fun n =>
    catM (fun e => Variant.encIn d e.1 >>= fun a => Variant.encIn d e.2 >>= fun b => .ok (a ++ b)) m
      >>= fun x => .ok (compoundHdr FC.map8 FC.map32 n (m.length * 2) ++ x)
  | d + 1, .described e v => Variant.encIn d v >>= fun x => .ok (enc e ++ x)
  | _ + 1, v => .ok v.venc

end Amqp
