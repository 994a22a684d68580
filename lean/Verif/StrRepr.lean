import Verif.Codec.Decode
/-!
# The two representations of text

`Str` and `Symbol` hold text either shared (`String<Bytes>`) or static
(`&'static str`).  The rest of the model uses the text alone; this file models the
operations on the representations, and `Props/Text.lean` proves that they depend
on the text alone.
-/
set_option autoImplicit false
namespace Amqp

/-- `Str`, `src/types/mod.rs:73-77`.  `Symbol`, `src/types/symbol.rs:8-9`, is a
wrapper around it with the same operations. -/
inductive StrRepr where
  | ByteStr (s : RStr)
  | Static (s : RStr)
deriving DecidableEq

namespace StrRepr

/-- `Str::from_str`, `src/types/mod.rs:80-82`; `Symbol::from_slice`,
`src/types/symbol.rs:12-14`. -/
def fromStr (s : RStr) : StrRepr := .ByteStr s

/-- `From<&'static str>`, `src/types/mod.rs:113-117`, `src/types/symbol.rs:33-37`. -/
def fromStatic (s : RStr) : StrRepr := .Static s

/-- `From<String<Bytes>>`, `src/types/mod.rs:119-123`, `src/types/symbol.rs:39-43`. -/
def fromByteStr (s : RStr) : StrRepr := .ByteStr s

/-- `Str::as_bytes`, `src/types/mod.rs:84-89`; `Symbol::as_bytes`,
`src/types/symbol.rs:16-18`. -/
def asBytes : StrRepr → Bytes
  | .ByteStr s => s.bytes
  | .Static s => s.bytes

/-- `Str::as_str`, `src/types/mod.rs:91-96`; `Symbol::as_str`,
`src/types/symbol.rs:20-22`; `Borrow<str>`, `src/types/mod.rs:134-138`,
`src/types/symbol.rs:45-49`. -/
def asStr : StrRepr → RStr
  | .ByteStr s => s
  | .Static s => s

/-- `Str::as_bytes_str`, `src/types/mod.rs:98-103`; `Symbol::as_bytes_str`,
`src/types/symbol.rs:24-26`.  The `unwrap` of `String::try_from` panics if the
bytes are not UTF-8. -/
def asBytesStr : StrRepr → Res Empty RStr
  | .ByteStr s => .ok s
  | .Static s => if h : validUtf8 s.bytes = true then .ok ⟨s.bytes, h⟩ else .panic .unimplemented

/-- `Str::len`, `src/types/mod.rs:105-110`; `Symbol::len`,
`src/types/symbol.rs:28-30`. -/
def len : StrRepr → Nat
  | .ByteStr s => s.len
  | .Static s => s.len

/-- `PartialEq<Str> for Str`, `src/types/mod.rs:140-153`; the derived equality of
`Symbol`, `src/types/symbol.rs:8`. -/
def eq : StrRepr → StrRepr → Bool
  | .ByteStr s, .ByteStr o => s.bytes == o.bytes
  | .ByteStr s, .Static o => s.bytes == o.bytes
  | .Static s, .ByteStr o => o.bytes == s.bytes
  | .Static s, .Static o => s.bytes == o.bytes

/-- `PartialEq<str> for Str`, `src/types/mod.rs:155-166`; `PartialEq<str> for
Symbol`, `src/types/symbol.rs:51-55`. -/
def eqStr : StrRepr → RStr → Bool
  | .ByteStr s, o => s.bytes == o.bytes
  | .Static s, o => s.bytes == o.bytes

/-- A write to a hasher: bytes, a byte, a length, an integer of `w` bytes or the
discriminant of an enumeration. -/
inductive HashWrite where
  | bytes (b : Bytes)
  | u8 (v : UInt8)
  | len (n : Nat)
  | int (w : Nat) (v : Int)
  | tag (n : Nat)
deriving DecidableEq

/-- `<str as Hash>::hash`: the bytes, then a byte that cannot occur in UTF-8. -/
def strHash (s : RStr) : List HashWrite := [.bytes s.bytes, .u8 0xff]

/-- `<[u8] as Hash>::hash`, used by `Bytes`: the length, then the bytes. -/
def sliceHash (s : RStr) : List HashWrite := [.len s.bytes.length, .bytes s.bytes]

/-- `Hash for Str`, `src/types/mod.rs:125-132`.  How `String<Bytes>` hashes
depends on the crate `string`: `asText` tells whether it hashes as a `str`
or as its field of type `Bytes`. -/
def hash (asText : Bool) : StrRepr → List HashWrite
  | .ByteStr s => if asText then strHash s else sliceHash s
  | .Static s => strHash s

/-- Lexicographic comparison of bytes: `Ord for str` and for `Bytes`. -/
def cmpBytes : Bytes → Bytes → Ordering
  | [], [] => .eq
  | [], _ :: _ => .lt
  | _ :: _, [] => .gt
  | a :: s, b :: t => if a < b then .lt else if b < a then .gt else cmpBytes s t

/-- The derived `Ord for Str`, `src/types/mod.rs:73`: first the variants in the
order of their declaration, then what they hold. -/
def cmp : StrRepr → StrRepr → Ordering
  | .ByteStr s, .ByteStr o => cmpBytes s.bytes o.bytes
  | .ByteStr _, .Static _ => .lt
  | .Static _, .ByteStr _ => .gt
  | .Static s, .Static o => cmpBytes s.bytes o.bytes

/-- The length prefix and content written by `Str` and `Symbol`,
`src/codec/encode.rs:389-399,409-419`. -/
def encodeWith (code8 code32 : UInt8) (s : StrRepr) : Bytes :=
  (if s.asStr.len > 255 then code32 :: beEnc 4 s.asStr.len
    else [code8, UInt8.ofNat s.asStr.len]) ++ s.asBytes

/-- `Encode for Str`, `src/codec/encode.rs:389-399`. -/
def encode (s : StrRepr) : Bytes := encodeWith FC.string8 FC.string32 s

/-- `Encode for Symbol`, `src/codec/encode.rs:409-419`. -/
def encodeSymbol (s : StrRepr) : Bytes := encodeWith FC.symbol8 FC.symbol32 s

/-- `encoded_size` of `Str` and `Symbol`, `src/codec/encode.rs:383-387,403-407`. -/
def encodedSize (s : StrRepr) : Nat := (if s.len > 255 then 5 else 2) + s.len

/-- `DecodeFormatted for Str`, `src/codec/decode.rs:212-226`: always shared. -/
def decode (env : Env) : Dec StrRepr := fromStr <$> Amqp.decode Str env

/-- `DecodeFormatted for Symbol`, `src/codec/decode.rs:228-242`: always shared. -/
def decodeSymbol (env : Env) : Dec StrRepr := (fun s => fromStr s.str) <$> Amqp.decode Symbol env

end StrRepr

/-- `Variant::as_str`, `src/types/variant.rs:110-116`. -/
def Variant.asStr : Variant → Option RStr
  | .string s => some s
  | .symbol s => some s.str
  | _ => none

/-- `PartialEq<str> for Variant`, `src/types/variant.rs:99-107`. -/
def Variant.eqStr (v : Variant) (other : RStr) : Bool :=
  match v with
  | .string s => s.bytes == other.bytes
  | .symbol s => s.str.bytes == other.bytes
  | _ => false

end Amqp
