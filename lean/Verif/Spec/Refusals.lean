import Verif.Spec.Crashes
import Verif.Spec.Lists
import Verif.Spec.TextErrors
import Verif.Io
/-!
# Which inputs are refused, and with which error

`Verif.Spec.Lenient` is the language that is read, `Verif.Spec.Crashes` what makes a decoder
panic.  These are the inputs for which a decoder returns an error, with the error, written down
in the same way and without reference to the decoders.
-/
set_option autoImplicit false
namespace Amqp
open Standard (Rep Scope)

/-- Inputs, up to their end, that are refused with an error. -/
abbrev Refusal := ParseError → Bytes → Prop

namespace Refuse

/-- Nothing. -/
def never : Refusal := fun _ _ => False

/-! ## Values -/

/-- Less than `n` bytes, which is what the error says. -/
inductive short (n : Nat) : Refusal
  | mk {i : Bytes} : i.length < n → short n (.incomplete n) i

/-- A format code that is followed by something, for each of these codes; no other code. -/
inductive coded (forms : List (UInt8 × Refusal)) : Refusal
  | empty : coded forms (.incomplete 1) []
  | other {c : UInt8} {t : Bytes} : (∀ f ∈ forms, f.1 ≠ c) → coded forms (.invalidFormatCode c) (c :: t)
  | form {c : UInt8} {R : Refusal} {e : ParseError} {t : Bytes} : (c, R) ∈ forms → R e t →
      coded forms e (c :: t)

/-- Bytes after their length, a number of `w` bytes. -/
inductive sized (w : Nat) : Refusal
  | length {i : Bytes} : i.length < w → sized w (.incomplete w) i
  | content {l t : Bytes} {k : Nat} : Num w l k → t.length < k → sized w (.incomplete k) (l ++ t)

/-- Text after its length. -/
inductive text (w : Nat) : Refusal
  | sized {e : ParseError} {i : Bytes} : Refuse.sized w e i → text w e i
  | illFormed {l s : Bytes} {u : Utf8Error} (rest : Bytes) : Num w l s.length → StopsBeing s u →
      text w (.utf8Error u) (l ++ (s ++ rest))

/-- Characters: numbers that stand for none. -/
inductive scalar : Refusal
  | short {e : ParseError} {i : Bytes} : Refuse.short 4 e i → scalar e i
  | invalid {b : Bytes} {n : Nat} (rest : Bytes) : Num 4 b n → 0xd800 ≤ n ∧ n < 0xe000 ∨ 0x110000 ≤ n →
      scalar (.invalidChar (UInt32.ofNat n)) (b ++ rest)

def boolean : Refusal := coded [(0x41, never), (0x42, never), (0x56, short 1)]
def ubyte : Refusal := coded [(0x50, short 1)]
def ushort : Refusal := coded [(0x60, short 2)]
def uint : Refusal := coded [(0x43, never), (0x52, short 1), (0x70, short 4)]
def ulong : Refusal := coded [(0x44, never), (0x53, short 1), (0x80, short 8)]
def byte : Refusal := coded [(0x51, short 1)]
def int16 : Refusal := coded [(0x61, short 2)]
def int32 : Refusal := coded [(0x54, short 1), (0x71, short 4)]
def int64 : Refusal := coded [(0x55, short 1), (0x81, short 8)]
def float : Refusal := coded [(0x72, short 4)]
def double : Refusal := coded [(0x82, short 8)]
def char : Refusal := coded [(0x73, scalar)]
def timestamp : Refusal := coded [(0x83, short 8)]
def uuid : Refusal := coded [(0x98, short 16)]
def binary : Refusal := coded [(0xa0, sized 1), (0xb0, sized 4)]
def string : Refusal := coded [(0xa1, text 1), (0xb1, text 4)]
def symbol : Refusal := coded [(0xa3, text 1), (0xb3, text 4)]
/-- Descriptors; zero in its shortest form is not one. -/
def descriptor : Refusal :=
  coded [(0x53, short 1), (0x80, short 8), (0xa3, text 1), (0xb3, text 4)]
def messageId : Refusal := coded [(0x44, never), (0x53, short 1), (0x80, short 8), (0x98, short 16),
  (0xa0, sized 1), (0xb0, sized 4), (0xa1, text 1), (0xb1, text 4)]

/-- Enumerations: a value of the type on which they are based, of the language `L`, that is no
value of the enumeration, of the language `M`. -/
inductive restricted {E β : Type} (L : Rep β) (R : Refusal) (name : String) (M : Rep E) : Refusal
  | base {e : ParseError} {i : Bytes} : R e i → restricted L R name M e i
  | unknown {b : β} {u : Bytes} (rest : Bytes) : L b u → (∀ x, ¬ M x u) →
      restricted L R name M (.unknownEnumOption name) (u ++ rest)

def role (env : Env) : Refusal :=
  restricted Lenient.boolean boolean "Role" (Standard.role (Scope.lenient env))
def senderSettleMode : Refusal :=
  restricted Standard.ubyte ubyte "SenderSettleMode" Standard.senderSettleMode
def receiverSettleMode : Refusal :=
  restricted Standard.ubyte ubyte "ReceiverSettleMode" Standard.receiverSettleMode
def terminusDurability : Refusal :=
  restricted Standard.uint uint "TerminusDurability" Standard.terminusDurability
def terminusExpiryPolicy (env : Env) : Refusal :=
  restricted Lenient.symbol symbol "TerminusExpiryPolicy" (Standard.terminusExpiryPolicy (Scope.lenient env))
def saslCode : Refusal := restricted Standard.ubyte ubyte "SaslCode" Standard.saslCode
/-- Symbols that are none of the given words. -/
def word {E : Type} (env : Env) (name : String) (words : E → String) : Refusal :=
  restricted Lenient.symbol symbol name fun x => Standard.word (Scope.lenient env) (words x)
def amqpError (env : Env) : Refusal := word env "AmqpError" Standard.amqpError
def connectionError (env : Env) : Refusal := word env "ConnectionError" Standard.connectionError
def sessionError (env : Env) : Refusal := word env "SessionError" Standard.sessionError
def linkError (env : Env) : Refusal := word env "LinkError" Standard.linkError

/-! ## Compound values -/

/-- Sizes and counts of compound values, in one byte or four each. -/
def header (c8 c32 : UInt8) : Refusal := coded [(c8, short 2), (c32, short 8)]
/-- The same for lists, which have a form without. -/
def listHeader : Refusal := coded [(0x45, never), (0xc0, short 2), (0xd0, short 8)]

/-- Of `n` items of the language `L`, one that is refused, after some that are read. -/
inductive items {α : Type} (L : Rep α) (R : Refusal) (n : Nat) : Refusal
  | mk (good : List (α × Bytes)) {e : ParseError} {tail : Bytes} : good.length < n →
      (∀ g ∈ good, L g.1 g.2) → R e tail → items L R n e (good.flatMap Prod.snd ++ tail)

/-- Lists: their header, or one of their items. -/
inductive list {α : Type} (env : Env) (L : Rep α) (R : Refusal) : Refusal
  | header {e : ParseError} {i : Bytes} : listHeader e i → list env L R e i
  | item {e : ParseError} {hdr body : Bytes} {size count : Nat} :
      Lenient.Header env 0xc0 0xd0 hdr size count → items L R count e body →
      list env L R e (hdr ++ body)

/-- Arrays: their header, or one of the items.  (An array without the code of its items makes
the decoder panic.) -/
inductive array {α : Type} (env : Env) (L : Rep α) (R : Refusal) : Refusal
  | header {e : ParseError} {i : Bytes} : Refuse.header 0xe0 0xf0 e i → array env L R e i
  | item (k : UInt8) {e : ParseError} {hdr body : Bytes} {size count : Nat} :
      Lenient.Header env 0xe0 0xf0 hdr size count →
      items (fun a b => L a (k :: b)) (fun e b => R e (k :: b)) count e body →
      array env L R e (hdr ++ k :: body)

/-- The entries of a map, of which `n` are to be read: after some that are read, a key or a
value that is refused.  The keys that are read can be hashed. -/
inductive entries {K V : Type} (LK : Rep K) (RK : Refusal) (LV : Rep V) (RV : Refusal)
    (hashes : K → Prop) (n : Nat) : Refusal
  | key (good : List ((K × Bytes) × (V × Bytes))) {e : ParseError} {tail : Bytes} : good.length < n →
      (∀ g ∈ good, LK g.1.1 g.1.2 ∧ LV g.2.1 g.2.2 ∧ hashes g.1.1) → RK e tail →
      entries LK RK LV RV hashes n e ((good.flatMap fun g => g.1.2 ++ g.2.2) ++ tail)
  | value (good : List ((K × Bytes) × (V × Bytes))) {k : K} {e : ParseError} {u tail : Bytes} :
      good.length < n → (∀ g ∈ good, LK g.1.1 g.1.2 ∧ LV g.2.1 g.2.2 ∧ hashes g.1.1) →
      LK k u → RV e tail →
      entries LK RK LV RV hashes n e ((good.flatMap fun g => g.1.2 ++ g.2.2) ++ (u ++ tail))

/-- Maps: their header, or one of the entries, within the size.  (Less input than the size says
makes the decoder panic.) -/
inductive map {K V : Type} (env : Env) (LK : Rep K) (RK : Refusal) (LV : Rep V) (RV : Refusal)
    (hashes : K → Prop) : Refusal
  | header {e : ParseError} {i : Bytes} : Refuse.header 0xc1 0xd1 e i → map env LK RK LV RV hashes e i
  | entry {e : ParseError} {hdr body : Bytes} {count : Nat} (rest : Bytes) :
      Lenient.Header env 0xc1 0xd1 hdr body.length count →
      entries LK RK LV RV hashes (count / 2) e body →
      map env LK RK LV RV hashes e (hdr ++ (body ++ rest))

/-- Fields declared `multiple`: an array, if it begins like one, or a single value. -/
inductive multiple {α : Type} (env : Env) (L : Rep α) (R : Refusal) : Refusal
  | one {e : ParseError} {i : Bytes} : R e i → i.head? ≠ some 0xe0 → i.head? ≠ some 0xf0 →
      multiple env L R e i
  | array {e : ParseError} {i : Bytes} : Refuse.array env L R e i →
      i.head? = some 0xe0 ∨ i.head? = some 0xf0 → multiple env L R e i

/-- Values that may be null. -/
inductive nullable (R : Refusal) : Refusal
  | some {e : ParseError} {i : Bytes} : R e i → i.head? ≠ some 0x40 → nullable R e i

/-- After the code of described values: the descriptor, or the value. -/
inductive described (R : Refusal) : Refusal
  | descriptor {e : ParseError} {i : Bytes} : Refuse.descriptor e i → described R e i
  | value {d : Descriptor} {e : ParseError} {db tail : Bytes} : Lenient.descriptor d db → R e tail →
      described R e (db ++ tail)

/-- Values whose parts are given by `L` and `R`. -/
def Node (env : Env) (L : Rep Variant) (R : Refusal) : Refusal := coded [
  (0x00, described R), (0x40, never), (0x41, never), (0x42, never), (0x43, never), (0x44, never),
  (0x45, never), (0x50, short 1), (0x51, short 1), (0x52, short 1), (0x53, short 1), (0x54, short 1),
  (0x55, short 1), (0x56, short 1), (0x60, short 2), (0x61, short 2), (0x70, short 4), (0x71, short 4),
  (0x72, short 4), (0x73, scalar), (0x80, short 8), (0x81, short 8), (0x82, short 8), (0x83, short 8),
  (0x98, short 16), (0xa0, sized 1), (0xa1, text 1), (0xa3, text 1), (0xb0, sized 4), (0xb1, text 4),
  (0xb3, text 4),
  (0xc0, fun e t => list env L R e (0xc0 :: t)), (0xd0, fun e t => list env L R e (0xd0 :: t)),
  (0xc1, fun e t => map env L R L R (fun k => k.holdsMap = false) e (0xc1 :: t)),
  (0xd1, fun e t => map env L R L R (fun k => k.holdsMap = false) e (0xd1 :: t))]

/-- Values with `n` levels left on the stack; without one, any value makes the decoder panic. -/
def nested (env : Env) : Nat → Refusal
  | 0 => short 1
  | n + 1 => Node env (Lenient.nested env n) (nested env n)

/-- Values of any type. -/
def any (env : Env) : Refusal := nested env env.stackDepth

/-- Maps from variants, from symbols and from strings. -/
def anyMap (env : Env) : Refusal :=
  map env (Lenient.any env) (any env) (Lenient.any env) (any env) fun k => k.holdsMap = false
def symbolMap (env : Env) : Refusal :=
  map env Lenient.symbol symbol (Lenient.any env) (any env) fun _ => True
def stringMap (env : Env) : Refusal :=
  map env Standard.string string (Lenient.any env) (any env) fun _ => True
def filterSet (env : Env) : Refusal :=
  map env Lenient.symbol symbol (Lenient.nullable Standard.string) (nullable string) fun _ => True
/-- Symbols, one or an array of them. -/
def symbols (env : Env) : Refusal := multiple env Lenient.symbol symbol
/-- Lists of variants. -/
def anyList (env : Env) : Refusal := list env (Lenient.any env) (any env)

/-! ## Composite types -/

/-- A field: its name, if it must be given; its encodings, other than null for one that need
not be given; what is refused in its place. -/
structure Port where
  name : Option String
  legal : Bytes → Prop
  refuse : Refusal

/-- A field that must be given. -/
def must {α : Type} (name : String) (L : Rep α) (R : Refusal) : Port :=
  ⟨some name, fun b => ∃ a, L a b, R⟩
/-- A field that may be null or left out. -/
def may {α : Type} (L : Rep α) (R : Refusal) : Port := ⟨none, fun b => ∃ a, L a b, nullable R⟩

/-- Of the fields of a list, of which `n` are given: one that is refused, or the first that is
not given and must be. -/
inductive Fill : List Port → Nat → Refusal
  | here {s : Port} {ports : List Port} {n : Nat} {e : ParseError} {tail : Bytes} : s.refuse e tail →
      Fill (s :: ports) (n + 1) e tail
  | null {s : Port} {ports : List Port} {n : Nat} {e : ParseError} {b : Bytes} : s.name = none →
      Fill ports n e b → Fill (s :: ports) (n + 1) e (0x40 :: b)
  | given {s : Port} {ports : List Port} {n : Nat} {e : ParseError} {u b : Bytes} : s.legal u →
      Fill ports n e b → Fill (s :: ports) (n + 1) e (u ++ b)
  | missing {s : Port} {ports : List Port} {name : String} {b : Bytes} : s.name = some name →
      Fill (s :: ports) 0 (.requiredFieldOmitted name) b
  | leftOut {s : Port} {ports : List Port} {e : ParseError} {b : Bytes} : s.name = none →
      Fill ports 0 e b → Fill (s :: ports) 0 e b

/-- Lists of fields: their header, less input than the size says, or a field within the size. -/
inductive fieldList (env : Env) (ports : List Port) : Refusal
  | header {e : ParseError} {i : Bytes} : listHeader e i → fieldList env ports e i
  | empty {e : ParseError} (rest : Bytes) : Fill ports 0 e [] → fieldList env ports e (0x45 :: rest)
  | short {hdr body : Bytes} {size count : Nat} : Lenient.Header env 0xc0 0xd0 hdr size count →
      body.length < size → fieldList env ports (.incomplete size) (hdr ++ body)
  | field {e : ParseError} {hdr body : Bytes} {count : Nat} (rest : Bytes) :
      Lenient.Header env 0xc0 0xd0 hdr body.length count → Fill ports count e body →
      fieldList env ports e (hdr ++ (body ++ rest))

/-- A kind of described value: descriptors, and what is refused after them. -/
abbrev Kind := (UInt64 × String) × Refusal

/-- One of several kinds of described values. -/
inductive choice (kinds : List Kind) : Refusal
  | empty : choice kinds (.incomplete 1) []
  | code {c : UInt8} {t : Bytes} : c ≠ 0x00 → choice kinds (.invalidFormatCode c) (c :: t)
  | descriptor {e : ParseError} {t : Bytes} : Refuse.descriptor e t → choice kinds e (0x00 :: t)
  | other {d : Descriptor} {db : Bytes} (t : Bytes) : Lenient.descriptor d db →
      (∀ k ∈ kinds, ¬ d.Is k.1.1 k.1.2) → choice kinds (.invalidDescriptor d) (0x00 :: (db ++ t))
  | kind {d : Descriptor} {db t : Bytes} {k : Kind} {e : ParseError} : Lenient.descriptor d db →
      k ∈ kinds → d.Is k.1.1 k.1.2 → k.2 e t → choice kinds e (0x00 :: (db ++ t))

section
variable (env : Env)

/-- The languages that are read. -/
abbrev own : Scope := Scope.lenient env

/-- A composite type. -/
def composite (code : UInt64) (name : String) (ports : List Port) : Kind :=
  ((code, name), fieldList env ports)
/-- Values of one kind. -/
def one (k : Kind) : Refusal := choice [k]

def mayBoolean : Port := may (own env).boolean boolean
def mayUint : Port := may Standard.uint uint
def mayString : Port := may Standard.string string
def mayBinary : Port := may Standard.binary binary
def maySymbols : Port := may (own env).symbols (symbols env)
def mayFields : Port := may (own env).fields (symbolMap env)
def mustUint (name : String) : Port := must name Standard.uint uint

def error : Kind := composite env 0x1d "amqp:error:list" [
  must "condition" (Standard.errorCondition (own env)) symbol, mayString, mayFields env]
def mayError : Port := may (Standard.error (own env)) (one (error env))

def received : Kind := composite env 0x23 "amqp:received:list" [
  mustUint "section_number", must "section_offset" Standard.ulong ulong]
def accepted : Kind := composite env 0x24 "amqp:accepted:list" []
def rejected : Kind := composite env 0x25 "amqp:rejected:list" [mayError env]
def released : Kind := composite env 0x26 "amqp:released:list" []
def modified : Kind := composite env 0x27 "amqp:modified:list" [
  mayBoolean env, mayBoolean env, mayFields env]

def deliveryState : Refusal :=
  choice [received env, accepted env, rejected env, released env, modified env]
def outcome : Refusal := choice [accepted env, rejected env, released env, modified env]

def source : Kind := composite env 0x28 "amqp:source:list" [
  mayString, may Standard.terminusDurability terminusDurability,
  may (Standard.terminusExpiryPolicy (own env)) (terminusExpiryPolicy env), mayUint, mayBoolean env,
  mayFields env, may (Standard.distributionMode (own env)) symbol,
  may (own env).filterSet (filterSet env), may (Standard.outcome (own env)) (outcome env),
  maySymbols env, maySymbols env]
def target : Kind := composite env 0x29 "amqp:target:list" [
  mayString, may Standard.terminusDurability terminusDurability,
  may (Standard.terminusExpiryPolicy (own env)) (terminusExpiryPolicy env), mayUint, mayBoolean env,
  mayFields env, maySymbols env]

def opening : Kind := composite env 0x10 "amqp:open:list" [
  must "container_id" Standard.string string, mayString, mayUint, may Standard.ushort ushort, mayUint,
  maySymbols env, maySymbols env, maySymbols env, maySymbols env, mayFields env]
def beginning : Kind := composite env 0x11 "amqp:begin:list" [
  may Standard.ushort ushort, mustUint "next_outgoing_id", mustUint "incoming_window",
  mustUint "outgoing_window", mayUint, maySymbols env, maySymbols env, mayFields env]
def attach : Kind := composite env 0x12 "amqp:attach:list" [
  must "name" Standard.string string, mustUint "handle", must "role" (Standard.role (own env)) (role env),
  may Standard.senderSettleMode senderSettleMode, may Standard.receiverSettleMode receiverSettleMode,
  may (Standard.source (own env)) (one (source env)), may (Standard.target (own env)) (one (target env)),
  may (own env).map (anyMap env), mayBoolean env, mayUint, may Standard.ulong ulong,
  maySymbols env, maySymbols env, mayFields env]
def flow : Kind := composite env 0x13 "amqp:flow:list" [
  mayUint, mustUint "incoming_window", mustUint "next_outgoing_id", mustUint "outgoing_window",
  mayUint, mayUint, mayUint, mayUint, mayBoolean env, mayBoolean env, mayFields env]
def transfer : Kind := composite env 0x14 "amqp:transfer:list" [
  mustUint "handle", mayUint, mayBinary, mayUint, mayBoolean env, mayBoolean env,
  may Standard.receiverSettleMode receiverSettleMode,
  may (Standard.deliveryState (own env)) (deliveryState env), mayBoolean env, mayBoolean env,
  mayBoolean env]
def disposition : Kind := composite env 0x15 "amqp:disposition:list" [
  must "role" (Standard.role (own env)) (role env), mustUint "first", mayUint, mayBoolean env,
  may (Standard.deliveryState (own env)) (deliveryState env), mayBoolean env]
def detach : Kind := composite env 0x16 "amqp:detach:list" [
  mustUint "handle", mayBoolean env, mayError env]
def ending : Kind := composite env 0x17 "amqp:end:list" [mayError env]
def close : Kind := composite env 0x18 "amqp:close:list" [mayError env]

/-- The bodies of AMQP frames; there may be none. -/
def frameBody : Refusal := fun e i => i ≠ [] ∧ choice [opening env, beginning env, attach env, flow env,
  transfer env, disposition env, detach env, ending env, close env] e i

def saslMechanisms : Kind := composite env 0x40 "amqp:sasl-mechanisms:list" [
  must "sasl_server_mechanisms" (own env).symbols (symbols env)]
def saslInit : Kind := composite env 0x41 "amqp:sasl-init:list" [
  must "mechanism" (own env).symbol symbol, mayBinary, mayString]
def saslChallenge : Kind := composite env 0x42 "amqp:sasl-challenge:list" [
  must "challenge" Standard.binary binary]
def saslResponse : Kind := composite env 0x43 "amqp:sasl-response:list" [
  must "response" Standard.binary binary]
def saslOutcome : Kind := composite env 0x44 "amqp:sasl-outcome:list" [
  must "code" Standard.saslCode saslCode, mayBinary]

/-- The bodies of SASL frames. -/
def saslBody : Refusal := choice [saslMechanisms env, saslInit env, saslChallenge env, saslResponse env,
  saslOutcome env]

def headerSection : Kind := composite env 0x70 "amqp:header:list" [
  mayBoolean env, may Standard.ubyte ubyte, mayUint, mayBoolean env, mayUint]
def propertiesSection : Kind := composite env 0x73 "amqp:properties:list" [
  may Standard.messageId messageId, mayBinary, mayString, mayString, mayString,
  may Standard.messageId messageId, may (own env).symbol symbol, may (own env).symbol symbol,
  may (own env).timestamp timestamp, may (own env).timestamp timestamp, mayString, mayUint, mayString]

/-- The sections of messages. -/
def messageSection : Refusal := choice [headerSection env,
  ((0x71, "amqp:delivery-annotations:map"), symbolMap env),
  ((0x72, "amqp:message-annotations:map"), symbolMap env),
  propertiesSection env,
  ((0x74, "amqp:application-properties:map"), stringMap env),
  ((0x75, "amqp:data:binary"), binary),
  ((0x76, "amqp:amqp-sequence:list"), anyList env),
  ((0x77, "amqp:amqp-value:*"), any env),
  ((0x78, "amqp:footer:map"), symbolMap env)]

/-- Messages: a section, after some that are read.  There must be one. -/
inductive message : Refusal
  | mk (good : List (Section × Bytes)) {e : ParseError} {tail : Bytes} :
      (∀ g ∈ good, Lenient.messageSection (own env) g.1 g.2) → good = [] ∨ tail ≠ [] →
      messageSection env e tail → message e (good.flatMap Prod.snd ++ tail)

/-- The bodies of frames that know where they end: not a transfer, which takes all there is, and
not the empty body. -/
def endsItself : Frame → Prop
  | .Transfer _ => False
  | .Empty => False
  | _ => True
/-- Such bodies of AMQP frames. -/
def amqpBody (b : Bytes) : Prop := ∃ f, Standard.frameBody (own env) f b ∧ endsItself f
/-- All bodies of SASL frames know where they end. -/
def saslBodyRead (b : Bytes) : Prop := ∃ f, Standard.saslBody (own env) f b

/-- What the codec takes for a frame of the given type: data offset in words of four bytes,
type, two bytes, an extended header to be ignored, the body.  (The size comes before it.) -/
inductive frame (type : UInt8) (R : Refusal) : Refusal
  | short {i : Bytes} : i.length < 4 → frame type R (.incomplete 4) i
  | type {doff t a b : UInt8} (rest : Bytes) : t ≠ type →
      frame type R (.unexpectedFrameType t) (doff :: t :: a :: b :: rest)
  | offset {doff a b : UInt8} (rest : Bytes) : doff.toNat < 2 →
      frame type R .invalidSize (doff :: type :: a :: b :: rest)
  | extended {doff a b : UInt8} {rest : Bytes} : 2 ≤ doff.toNat → 8 + rest.length < doff.toNat * 4 →
      frame type R (.incomplete (doff.toNat * 4 - 4)) (doff :: type :: a :: b :: rest)
  | body {e : ParseError} {ext body : Bytes} {doff : UInt8} (a b : UInt8) :
      doff.toNat * 4 = 8 + ext.length → R e body → frame type R e (doff :: type :: a :: b :: (ext ++ body))

/-- What the codec refuses in place of a frame: what is not one, and one that goes on after what
is read. -/
inductive whole (type : UInt8) (L : Bytes → Prop) (R : Refusal) : CodecError → Bytes → Prop
  | frame {e : ParseError} {f : Bytes} : Refuse.frame type R e f → whole type L R (.parse e) f
  | left {ext body more : Bytes} {doff : UInt8} (a b : UInt8) : doff.toNat * 4 = 8 + ext.length →
      L body → more ≠ [] →
      whole type L R .unparsedBytesLeft (doff :: type :: a :: b :: (ext ++ (body ++ more)))

/-- Streams: a frame all of which has arrived and that is refused.  With less than eight bytes the
codec waits for more. -/
inductive stream (type : UInt8) (L : Bytes → Prop) (R : Refusal) : CodecError → Bytes → Prop
  | mk {e : CodecError} {s f : Bytes} (rest : Bytes) : Num 4 s (4 + f.length) →
      4 ≤ (f ++ rest).length → whole type L R e f → stream type L R e (s ++ (f ++ rest))

end
end Refuse

/-- The decoder returns an error on exactly the inputs `R`, the one given. -/
def RefusesOn (α : Type) [DecodeF α] (env : Env) (R : Refusal) : Prop :=
  ∀ (input : Bytes) (e : ParseError), decode α env input = .err e ↔ R e input

end Amqp
