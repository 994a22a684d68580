import Verif.Basic
/-!
# The buffer encoders write to: `BytesMut` of bytes 0.4
-/
namespace Amqp

/-- A `BytesMut` used for output (bytes 0.4): what it holds and its capacity. -/
structure Buf where
  data : Bytes
  capacity : Nat
  fits : data.length ≤ capacity

namespace Buf

/-- `BufMut::remaining_mut` of `BytesMut` (bytes 0.4). -/
def remainingMut (b : Buf) : Nat := b.capacity - b.data.length

/-- `BytesMut::reserve` (bytes 0.4): nothing if there is room, otherwise the
buffer grows to hold at least `additional` more bytes; how much more is up to
the allocation policy `slack`. -/
def reserve (slack : Nat) (b : Buf) (additional : Nat) : Buf :=
  if additional ≤ b.remainingMut then b
  else ⟨b.data, b.data.length + additional + slack, by omega⟩

/-- `BufMut::put_slice` of `BytesMut` (bytes 0.4): panics when there is no room.
A run of `put_*` calls is modelled by one `putSlice` of what they put; see
`Buf.putSlice_append`. -/
def putSlice {ε : Type} (b : Buf) (bytes : Bytes) : Res ε Buf :=
  if h : bytes.length ≤ b.remainingMut then
    .ok ⟨b.data ++ bytes, b.capacity, by
      have := b.fits; simp only [remainingMut] at h; simp; omega⟩
  else .panic .bufferFull

/-- `BytesMut::extend_from_slice` (bytes 0.4): reserves, so it never panics. -/
def extendFromSlice (slack : Nat) (b : Buf) (bytes : Bytes) : Buf :=
  ⟨b.data ++ bytes, (b.reserve slack bytes.length).capacity, by
    have := b.fits
    unfold reserve remainingMut
    split <;> simp only [List.length_append] <;> omega⟩

end Buf

/-- How much more than asked for a buffer gets when it grows by at least so many
bytes: the allocation policy of `BytesMut`. -/
abbrev Growth := Buf → Nat → Nat

/-- A call an encoder makes on the buffer: `put_*`, or `extend_from_slice`, which
only `Uuid` uses (`src/codec/encode.rs:286`). -/
inductive Write where
  | put (bytes : Bytes)
  | extend (bytes : Bytes)
deriving DecidableEq

/-- The call is a `put_*`. -/
def Write.isPut : Write → Bool
  | .put _ => true
  | .extend _ => false

/-- The bytes a call appends. -/
def Write.out : Write → Bytes
  | .put b => b
  | .extend b => b

/-- The calls one after the other. -/
def Buf.run {ε : Type} (grow : Growth) (b : Buf) : List Write → Res ε Buf
  | [] => .ok b
  | .put x :: t => b.putSlice x >>= fun b => b.run grow t
  | .extend x :: t => (b.extendFromSlice (grow b x.length) x).run grow t

end Amqp
