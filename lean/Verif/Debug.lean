import Verif.Display
import Verif.Protocol.Lists
/-!
# The text of an error of the protocol

`Display for Error`, `src/protocol/mod.rs:14-18`, shows its `Debug`, which is derived, as
are those of what it holds; only `Debug for Str`, `src/types/mod.rs:168-175`, is not.
Texts are those of errors that were received: their texts are all `Str::ByteStr`.
-/
set_option autoImplicit false
namespace Amqp

/-- The characters of a text. -/
def RStr.chars (s : RStr) : List Char :=
  ((ByteArray.utf8Decode? ⟨s.bytes.toArray⟩).getD #[]).toList

/-- What the texts depend on besides this crate: which characters std takes for printable,
whether it writes `\0` or, as before Rust 1.53, `\u{0}`, and the `Debug` of `f32`, `f64`,
`char`, `DateTime`, `Uuid` and `Bytes`. -/
structure Texts where
  printable : Char → Bool
  nul : Bool
  f32 : F32 → Bytes
  f64 : F64 → Bytes
  char : Char → Bytes
  time : DateTime → Bytes
  uuid : Uuid → Bytes
  bytes : Binary → Bytes

/-- A digit of a hexadecimal number. -/
def hexDigit (n : Nat) : UInt8 := if n < 10 then UInt8.ofNat (0x30 + n) else UInt8.ofNat (0x57 + n)
/-- `{:x}` (std): a number in hexadecimal. -/
def hex (n : Nat) : Bytes :=
  if n < 16 then [hexDigit n] else hex (n / 16) ++ [hexDigit (n % 16)]

/-- A character within the `Debug` of a `str` (std, `char::escape_debug_ext`). -/
def escapeChar (T : Texts) (c : Char) : Bytes :=
  if c = '"' then txt "\\\"" else
  if c = '\\' then txt "\\\\" else
  if c = '\t' then txt "\\t" else
  if c = '\r' then txt "\\r" else
  if c = '\n' then txt "\\n" else
  if c = '\x00' ∧ T.nul = true then txt "\\0" else
  if T.printable c = true then String.utf8EncodeChar c else
  txt "\\u{" ++ hex c.toNat ++ txt "}"

/-- `Debug for str` (std), and for `string::String<Bytes>`, which shows the `str` it holds. -/
def RStr.escaped (T : Texts) (s : RStr) : Bytes :=
  txt "\"" ++ s.chars.flatMap (escapeChar T) ++ txt "\""

/-- `Debug` of signed integers. -/
def signedText (n : Int) : Bytes :=
  match n with
  | .ofNat k => num k
  | .negSucc k => txt "-" ++ num (k + 1)

mutual
/-- `derive(Debug) for Variant`, `src/types/variant.rs:12-85`, with those of `List`,
`src/types/mod.rs:56`, `VariantMap`, `src/types/variant.rs:126-129`, `StaticSymbol`,
`src/types/symbol.rs:57`, and `OrderedFloat`. -/
def Variant.debug (T : Texts) : Variant → Bytes
  | .null => txt "Null"
  | .boolean b => txt "Boolean(" ++ (if b then txt "true" else txt "false") ++ txt ")"
  | .ubyte n => txt "Ubyte(" ++ num n.toNat ++ txt ")"
  | .ushort n => txt "Ushort(" ++ num n.toNat ++ txt ")"
  | .uint n => txt "Uint(" ++ num n.toNat ++ txt ")"
  | .ulong n => txt "Ulong(" ++ num n.toNat ++ txt ")"
  | .byte n => txt "Byte(" ++ signedText n.toInt ++ txt ")"
  | .short n => txt "Short(" ++ signedText n.toInt ++ txt ")"
  | .int n => txt "Int(" ++ signedText n.toInt ++ txt ")"
  | .long n => txt "Long(" ++ signedText n.toInt ++ txt ")"
  | .float x => txt "Float(OrderedFloat(" ++ T.f32 x ++ txt "))"
  | .double x => txt "Double(OrderedFloat(" ++ T.f64 x ++ txt "))"
  | .char c => txt "Char(" ++ T.char c ++ txt ")"
  | .timestamp t => txt "Timestamp(" ++ T.time t ++ txt ")"
  | .uuid u => txt "Uuid(" ++ T.uuid u ++ txt ")"
  | .binary b => txt "Binary(" ++ T.bytes b ++ txt ")"
  | .string s => txt "String(" ++ s.debug ++ txt ")"
  | .symbol s => txt "Symbol(" ++ s.debug ++ txt ")"
  | .staticSymbol s => txt "StaticSymbol(StaticSymbol(" ++ s.escaped T ++ txt "))"
  | .list l => txt "List(List([" ++ debugItems T true l ++ txt "]))"
  | .map m => txt "Map(VariantMap { map: {" ++ debugPairs T true m ++ txt "} })"
  | .described d v => txt "Described((" ++ d.debug ++ txt ", " ++ v.debug T ++ txt "))"
/-- The items of a list, separated by commas; `first` is for the first one. -/
def debugItems (T : Texts) (first : Bool) : List Variant → Bytes
  | [] => []
  | v :: t => (if first then [] else txt ", ") ++ v.debug T ++ debugItems T false t
/-- The entries of a map. -/
def debugPairs (T : Texts) (first : Bool) : List (Variant × Variant) → Bytes
  | [] => []
  | (k, v) :: t =>
    (if first then [] else txt ", ") ++ k.debug T ++ txt ": " ++ v.debug T ++ debugPairs T false t
end

/-- The entries of `Fields`. -/
def debugFields (T : Texts) (first : Bool) : List (Symbol × Variant) → Bytes
  | [] => []
  | (k, v) :: t =>
    (if first then [] else txt ", ") ++ k.debug ++ txt ": " ++ v.debug T ++ debugFields T false t

/-- `Debug` of an `Option`. -/
def debugOption {α : Type} (f : α → Bytes) : Option α → Bytes
  | none => txt "None"
  | some x => txt "Some(" ++ f x ++ txt ")"

/-- `derive(Debug) for AmqpError`, `src/protocol/definitions.rs:586-601`. -/
def AmqpError.debug : AmqpError → String
  | .InternalError => "InternalError"
  | .NotFound => "NotFound"
  | .UnauthorizedAccess => "UnauthorizedAccess"
  | .DecodeError => "DecodeError"
  | .ResourceLimitExceeded => "ResourceLimitExceeded"
  | .NotAllowed => "NotAllowed"
  | .InvalidField => "InvalidField"
  | .NotImplemented => "NotImplemented"
  | .ResourceLocked => "ResourceLocked"
  | .PreconditionFailed => "PreconditionFailed"
  | .ResourceDeleted => "ResourceDeleted"
  | .IllegalState => "IllegalState"
  | .FrameSizeTooSmall => "FrameSizeTooSmall"
/-- `derive(Debug) for ConnectionError`, `src/protocol/definitions.rs:666-671`. -/
def ConnectionError.debug : ConnectionError → String
  | .ConnectionForced => "ConnectionForced"
  | .FramingError => "FramingError"
  | .Redirect => "Redirect"
/-- `derive(Debug) for SessionError`, `src/protocol/definitions.rs:706-712`. -/
def SessionError.debug : SessionError → String
  | .WindowViolation => "WindowViolation"
  | .ErrantLink => "ErrantLink"
  | .HandleInUse => "HandleInUse"
  | .UnattachedHandle => "UnattachedHandle"
/-- `derive(Debug) for LinkError`, `src/protocol/definitions.rs:752-759`. -/
def LinkError.debug : LinkError → String
  | .DetachForced => "DetachForced"
  | .TransferLimitExceeded => "TransferLimitExceeded"
  | .MessageSizeExceeded => "MessageSizeExceeded"
  | .Redirect => "Redirect"
  | .Stolen => "Stolen"

/-- `derive(Debug) for ErrorCondition`, `src/protocol/mod.rs:99-106`. -/
def ErrorCondition.debug : ErrorCondition → Bytes
  | .AmqpError v => txt ("AmqpError(" ++ v.debug ++ ")")
  | .ConnectionError v => txt ("ConnectionError(" ++ v.debug ++ ")")
  | .SessionError v => txt ("SessionError(" ++ v.debug ++ ")")
  | .LinkError v => txt ("LinkError(" ++ v.debug ++ ")")
  | .Custom s => txt "Custom(" ++ s.debug ++ txt ")"

/-- `Display for Error`, `src/protocol/mod.rs:14-18`: `derive(Debug) for Error`,
`src/protocol/definitions.rs:1066-1071`. -/
def Error.text (T : Texts) (e : Error) : Bytes :=
  txt "Error { condition: " ++ e.condition.debug ++ txt ", description: " ++
    debugOption (RStr.escaped T) e.description ++ txt ", info: " ++
    debugOption (fun m : Fields => txt "{" ++ debugFields T true m.entries ++ txt "}") e.info ++
    txt " }"

/-- `Debug for Str`, `src/types/mod.rs:168-175`. -/
def StrRepr.debug : StrRepr → Bytes
  | .ByteStr s => txt "B:\"" ++ s.bytes ++ txt "\""
  | .Static s => txt "S:\"" ++ s.bytes ++ txt "\""

end Amqp
