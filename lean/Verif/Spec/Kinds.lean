import Verif.StrRepr
/-!
# AMQP types of values

AMQP 1.0 part 1, 1.6: the primitive types, and which format codes belong to which
type.  Nothing here models code of the repository.
-/
set_option autoImplicit false
namespace Amqp

/-- The types of values. -/
inductive Kind where
  | null | boolean | ubyte | ushort | uint | ulong | byte | short | int | long | float | double
  | char | timestamp | uuid | binary | string | symbol | list | map | described
deriving DecidableEq

/-- The type of a value. -/
def Variant.kind : Variant → Kind
  | .null => .null
  | .boolean _ => .boolean
  | .ubyte _ => .ubyte
  | .ushort _ => .ushort
  | .uint _ => .uint
  | .ulong _ => .ulong
  | .byte _ => .byte
  | .short _ => .short
  | .int _ => .int
  | .long _ => .long
  | .float _ => .float
  | .double _ => .double
  | .char _ => .char
  | .timestamp _ => .timestamp
  | .uuid _ => .uuid
  | .binary _ => .binary
  | .string _ => .string
  | .symbol _ => .symbol
  | .staticSymbol _ => .symbol
  | .list _ => .list
  | .map _ => .map
  | .described _ _ => .described

/-- The type a format code stands for (1.6.1 to 1.6.24; codes of decimals and
arrays, which `Variant` does not have, and codes without meaning: none). -/
def kindOfCode (c : UInt8) : Option Kind :=
  match c with
  | 0x00 => some .described
  | 0x40 => some .null
  | 0x41 | 0x42 | 0x56 => some .boolean
  | 0x50 => some .ubyte
  | 0x60 => some .ushort
  | 0x43 | 0x52 | 0x70 => some .uint
  | 0x44 | 0x53 | 0x80 => some .ulong
  | 0x51 => some .byte
  | 0x61 => some .short
  | 0x54 | 0x71 => some .int
  | 0x55 | 0x81 => some .long
  | 0x72 => some .float
  | 0x82 => some .double
  | 0x73 => some .char
  | 0x83 => some .timestamp
  | 0x98 => some .uuid
  | 0xa0 | 0xb0 => some .binary
  | 0xa1 | 0xb1 => some .string
  | 0xa3 | 0xb3 => some .symbol
  | 0x45 | 0xc0 | 0xd0 => some .list
  | 0xc1 | 0xd1 => some .map
  | _ => none

end Amqp
