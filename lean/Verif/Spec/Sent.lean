import Verif.Spec.Lenient
import Verif.Spec.Variant
import Verif.Spec.Incomplete
/-!
# What becomes of a value on its way

What the receiver gets of a value that was encoded by this crate and is decoded by it:
the same value, another value, an error, or a panic.  Specification vocabulary for C85;
nothing here models code of the repository, and the wire does not occur.
-/
set_option autoImplicit false
namespace Amqp

/-- What the receiver gets. -/
inductive Fate (α : Type) where
  | arrives (a : α)
  | refused
  | crashes (p : Panic)

namespace Fate
variable {α β : Type}

/-- The next thing is looked at only if the one before has arrived. -/
def andThen (s : Fate α) (f : α → Fate β) : Fate β :=
  match s with
  | .arrives a => f a
  | .refused => .refused
  | .crashes p => .crashes p

/-- The answer of a decoder that stands for this: the value with what follows it, some
error, or this panic. -/
def Answer (s : Fate α) (rest : Bytes) (r : Res ParseError (Bytes × α)) : Prop :=
  match s with
  | .arrives a => r = .ok (rest, a)
  | .refused => ∃ e, r = .err e
  | .crashes p => r = .panic p

end Fate

/-- A point of time, if chrono has it. -/
def pointOfTime (s : Int) (n : Nat) : Fate DateTime :=
  if h : dtOk s n = true then .arrives ⟨s, n, h⟩ else .crashes .timestampRange

/-- What becomes of a time: what is below the millisecond is lost; from the epoch on the
rest is kept; in the last second before the epoch the sign is lost; earlier than that whole
seconds come back as the leap second of the second before. -/
def DateTime.sent (t : DateTime) : Fate DateTime :=
  let m : Int := t.secs * 1000 + (t.nanos / 1000000 : Nat)
  if 0 ≤ m then pointOfTime (m / 1000) ((m % 1000).toNat * 1000000)
  else if m ≤ -1000 then
    pointOfTime (-((-m) / 1000) - 1) ((1000 - (-m) % 1000).toNat * 1000000)
  else pointOfTime 0 ((-m).toNat * 1000000)

mutual
/-- What becomes of a value, where the receiver's stack has room for `d` levels of nesting:
lists and what is described by the number 0 are refused, static symbols arrive as symbols,
times as above, and of map entries whose keys have become equal the last value is kept. -/
def Variant.sent : Nat → Variant → Fate Variant
  | 0, _ => .crashes .stackOverflow
  | _ + 1, .timestamp t => t.sent.andThen fun t => .arrives (.timestamp t)
  | _ + 1, .staticSymbol s => .arrives (.symbol ⟨s⟩)
  | _ + 1, .list _ => .refused
  | d + 1, .map m => (sentMap d m).andThen fun l => .arrives (.map (Lenient.merged l))
  | d + 1, .described s v =>
    if s = .ulong 0 then .refused else (v.sent d).andThen fun w => .arrives (.described s w)
  | _ + 1, .null => .arrives .null
  | _ + 1, .boolean x => .arrives (.boolean x)
  | _ + 1, .ubyte x => .arrives (.ubyte x)
  | _ + 1, .ushort x => .arrives (.ushort x)
  | _ + 1, .uint x => .arrives (.uint x)
  | _ + 1, .ulong x => .arrives (.ulong x)
  | _ + 1, .byte x => .arrives (.byte x)
  | _ + 1, .short x => .arrives (.short x)
  | _ + 1, .int x => .arrives (.int x)
  | _ + 1, .long x => .arrives (.long x)
  | _ + 1, .float x => .arrives (.float x)
  | _ + 1, .double x => .arrives (.double x)
  | _ + 1, .char x => .arrives (.char x)
  | _ + 1, .uuid x => .arrives (.uuid x)
  | _ + 1, .binary x => .arrives (.binary x)
  | _ + 1, .string x => .arrives (.string x)
  | _ + 1, .symbol x => .arrives (.symbol x)
/-- What becomes of the entries of a map, in the order of the wire.  A key that holds a map
makes the receiver panic, once the entry is complete. -/
def sentMap : Nat → List (Variant × Variant) → Fate (List (Variant × Variant))
  | _, [] => .arrives []
  | d, (k, v) :: t =>
    (k.sent d).andThen fun k' => (v.sent d).andThen fun v' =>
      if k'.holdsMap = true then .crashes .unimplemented
      else (sentMap d t).andThen fun l => .arrives ((k', v') :: l)
end

/-- What becomes of the entries of a map whose keys arrive as they are, such as the
properties of a connection and the annotations and application properties of a message. -/
def sentValues {K : Type} (d : Nat) : List (K × Variant) → Fate (List (K × Variant))
  | [] => .arrives []
  | (k, v) :: t => (v.sent d).andThen fun v' =>
    (sentValues d t).andThen fun l => .arrives ((k, v') :: l)

mutual
/-- Values that keep their identity: no static symbol anywhere inside, and only times that
survive (C12). -/
def Variant.Lasting : Variant → Prop
  | .timestamp t => t.Survives
  | .staticSymbol _ => False
  | .list l => lastingList l
  | .map m => lastingMap m
  | .described _ v => v.Lasting
  | _ => True
def lastingList : List Variant → Prop
  | [] => True
  | v :: t => v.Lasting ∧ lastingList t
def lastingMap : List (Variant × Variant) → Prop
  | [] => True
  | (k, v) :: t => (k.Lasting ∧ v.Lasting) ∧ lastingMap t
end

/-- Times that chrono can represent once they have been to the wire and back: all but the
leap second at the very end and the very first instant. -/
def DateTime.Timely (t : DateTime) : Prop :=
  ¬(t.secs = 8210298412799 ∧ 1000000000 ≤ t.nanos) ∧ ¬(t.secs = -8334632851200 ∧ t.nanos < 1000000)

mutual
/-- Values all of whose times are within chrono's range in that sense. -/
def Variant.Timely : Variant → Prop
  | .timestamp t => t.Timely
  | .list l => timelyList l
  | .map m => timelyMap m
  | .described _ v => v.Timely
  | _ => True
def timelyList : List Variant → Prop
  | [] => True
  | v :: t => v.Timely ∧ timelyList t
def timelyMap : List (Variant × Variant) → Prop
  | [] => True
  | (k, v) :: t => (k.Timely ∧ v.Timely) ∧ timelyMap t
end

end Amqp
