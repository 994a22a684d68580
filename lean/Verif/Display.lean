import Verif.Io
import Verif.Accessors
/-!
# Texts of errors

`Display` of the error types, derived by `derive_more` 0.14 from the attributes in
`src/errors.rs`: a variant without attribute shows its only field, or its own name if
it has none.  Texts are their bytes in UTF-8.
-/
set_option autoImplicit false
namespace Amqp

/-- A literal piece of text. -/
def txt (s : String) : Bytes := utf8 s.toList
/-- A number in decimal (`{}` and `{:?}` of integers). -/
def num (n : Nat) : Bytes := txt n.repr
/-- `{:?}` of a `&'static str` (std): in double quotes.  Escapes are left out: the names
passed by the crate consist of letters, digits and underscores. -/
def quoted (s : String) : Bytes := txt "\"" ++ txt s ++ txt "\""

/-- `Debug for Str`, `src/types/mod.rs:168-175`, of text that was received
(`Str::ByteStr`): as it is, without escapes. -/
def RStr.debug (s : RStr) : Bytes := txt "B:\"" ++ s.bytes ++ txt "\""
/-- `derive(Debug) for Symbol`, `src/types/symbol.rs:8`. -/
def Symbol.debug (s : Symbol) : Bytes := txt "Symbol(" ++ s.str.debug ++ txt ")"
/-- `derive(Debug) for Descriptor`, `src/types/mod.rs:13`. -/
def Descriptor.debug : Descriptor → Bytes
  | .ulong v => txt "Ulong(" ++ num v.toNat ++ txt ")"
  | .symbol s => txt "Symbol(" ++ s.debug ++ txt ")"

/-- `Display for Utf8Error` (std). -/
def Utf8Error.text (u : Utf8Error) : Bytes :=
  match u.errorLen with
  | some n => txt "invalid utf-8 sequence of " ++ num n ++ txt " bytes from index " ++ num u.validUpTo
  | none => txt "incomplete utf-8 byte sequence from index " ++ num u.validUpTo

/-- `derive(Display) for AmqpParseError`, `src/errors.rs:6-26`. -/
def ParseError.text : ParseError → Bytes
  | .invalidSize => txt "Loaded item size is invalid"
  | .incomplete n =>
    txt "More data required during frame parsing: '" ++ (txt "Some(" ++ num n ++ txt ")") ++ txt "'"
  | .invalidFormatCode c => txt "Unexpected format code: '" ++ num c.toNat ++ txt "'"
  | .invalidChar c => txt "Invalid value converting to char: " ++ num c.toNat
  | .invalidDescriptor d => txt "Unexpected descriptor: '" ++ d.debug ++ txt "'"
  | .unexpectedFrameType t => txt "Unexpected frame type: '" ++ num t.toNat ++ txt "'"
  | .requiredFieldOmitted n => txt "Required field '" ++ quoted n ++ txt "' was omitted."
  | .unknownEnumOption n => txt "Unknown " ++ quoted n ++ txt " option."
  | .utf8Error u => u.text

/-- `derive(Display) for AmqpCodecError`, `src/errors.rs:28-35`, with `E` for
`std::io::Error` and `io` for its `Debug`. -/
def AmqpCodecError.text {E : Type} (io : E → Bytes) : AmqpCodecError E → Bytes
  | .ParseError e => e.text
  | .UnparsedBytesLeft => txt "bytes left unparsed at the frame trail"
  | .Io none => txt "Io error: None"
  | .Io (some e) => txt "Io error: Some(" ++ io e ++ txt ")"

/-- `derive(Debug) for ProtocolId`, `src/protocol/mod.rs:32-37`. -/
def ProtocolId.debug : ProtocolId → Bytes
  | .Amqp => txt "Amqp"
  | .AmqpTls => txt "AmqpTls"
  | .AmqpSasl => txt "AmqpSasl"

/-- `ProtocolIdError`, `src/errors.rs:53-66`, with `E` for `std::io::Error`. -/
inductive FullProtocolIdError (E : Type) where
  | InvalidHeader | Incompatible | Unknown
  | Unexpected (exp got : ProtocolId)
  | Disconnected
  | Io (e : E)

/-- The errors that the codec produces. -/
def ProtocolIdError.toRust {E : Type} : ProtocolIdError → FullProtocolIdError E
  | .InvalidHeader => .InvalidHeader
  | .Incompatible => .Incompatible
  | .Unknown => .Unknown

/-- `derive(Display) for ProtocolIdError`, `src/errors.rs:53-66`, with `io` for the `Debug` of
`std::io::Error`. -/
def FullProtocolIdError.text {E : Type} (io : E → Bytes) : FullProtocolIdError E → Bytes
  | .InvalidHeader => txt "InvalidHeader"
  | .Incompatible => txt "Incompatible"
  | .Unknown => txt "Unknown"
  | .Unexpected exp got =>
    txt "Expected " ++ exp.debug ++ txt " protocol id, seen " ++ got.debug ++ txt " instead."
  | .Disconnected => txt "Disconnected"
  | .Io e => txt "io error: " ++ io e

end Amqp
