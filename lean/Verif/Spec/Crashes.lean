import Verif.Spec.Lenient
import Verif.Spec.Incomplete
/-!
# What makes a decoder panic

`Verif.Spec.Lenient` is the language that is read.  This is the set of inputs on which a
decoder panics, with the reason, written down in the same way and without reference to the
decoders: an input that begins like one that is read and then goes wrong in a particular way.
-/
set_option autoImplicit false
namespace Amqp
open Standard (Rep Scope Desc)

/-- Inputs, up to their end, that make a decoder panic for a reason. -/
abbrev Fault := Panic → Bytes → Prop

namespace Crash

/-- Never. -/
def never : Fault := fun _ _ => False

/-! ## Values -/

/-- Times that the clock type cannot hold: `m` milliseconds, before the year -262144 or after
the year 262143. -/
inductive timestamp : Fault
  | mk {m : Int} {b : Bytes} (rest : Bytes) : SNum 8 b m →
      m ≤ -8334632851200000 ∨ 8210298412800000 ≤ m → timestamp .timestampRange (0x83 :: (b ++ rest))

/-- With overflow checks, a size that does not cover the count it includes.  The count must
be there. -/
inductive header (env : Env) (c8 c32 : UInt8) : Fault
  | mk {c : UInt8} {w k : Nat} {s n : Bytes} (rest : Bytes) : env.overflowChecks = true →
      Sized c8 c32 c w → Num w s k → k < w → n.length = w →
      header env c8 c32 .overflow (c :: (s ++ n ++ rest))

/-- Of `n` items of the language `L`, one that makes the decoder panic, after some that are
read. -/
inductive items {α : Type} (L : Rep α) (C : Fault) (n : Nat) : Fault
  | mk (good : List (α × Bytes)) {p : Panic} {tail : Bytes} : good.length < n →
      (∀ g ∈ good, L g.1 g.2) → C p tail → items L C n p (good.flatMap Prod.snd ++ tail)

/-- Lists: their header, or one of their items. -/
inductive list {α : Type} (env : Env) (L : Rep α) (C : Fault) : Fault
  | header {p : Panic} {i : Bytes} : Crash.header env 0xc0 0xd0 p i → list env L C p i
  | item {p : Panic} {hdr body : Bytes} {size count : Nat} :
      Lenient.Header env 0xc0 0xd0 hdr size count → items L C count p body →
      list env L C p (hdr ++ body)

/-- Arrays: their header, the lack of a format code for the items, or one of the items. -/
inductive array {α : Type} (env : Env) (L : Rep α) (C : Fault) : Fault
  | header {p : Panic} {i : Bytes} : Crash.header env 0xe0 0xf0 p i → array env L C p i
  | missing {hdr : Bytes} {size count : Nat} : Lenient.Header env 0xe0 0xf0 hdr size count →
      array env L C .sliceIndex hdr
  | item (k : UInt8) {p : Panic} {hdr body : Bytes} {size count : Nat} :
      Lenient.Header env 0xe0 0xf0 hdr size count →
      items (fun a b => L a (k :: b)) (fun p b => C p (k :: b)) count p body →
      array env L C p (hdr ++ k :: body)

/-- The entries of a map, of which `n` are to be read: after some that are read, a key or a
value that makes the decoder panic, or a key that cannot be hashed, since it contains a map. -/
inductive entries {K V : Type} (LK : Rep K) (CK : Fault) (LV : Rep V) (CV : Fault)
    (hashes : K → Prop) (n : Nat) : Fault
  | key (good : List ((K × Bytes) × (V × Bytes))) {p : Panic} {tail : Bytes} : good.length < n →
      (∀ g ∈ good, LK g.1.1 g.1.2 ∧ LV g.2.1 g.2.2 ∧ hashes g.1.1) → CK p tail →
      entries LK CK LV CV hashes n p ((good.flatMap fun g => g.1.2 ++ g.2.2) ++ tail)
  | value (good : List ((K × Bytes) × (V × Bytes))) {k : K} {p : Panic} {u tail : Bytes} :
      good.length < n → (∀ g ∈ good, LK g.1.1 g.1.2 ∧ LV g.2.1 g.2.2 ∧ hashes g.1.1) →
      LK k u → CV p tail →
      entries LK CK LV CV hashes n p ((good.flatMap fun g => g.1.2 ++ g.2.2) ++ (u ++ tail))
  | hash (good : List ((K × Bytes) × (V × Bytes))) {k : K} {v : V} {u w : Bytes} (tail : Bytes) :
      good.length < n → (∀ g ∈ good, LK g.1.1 g.1.2 ∧ LV g.2.1 g.2.2 ∧ hashes g.1.1) →
      LK k u → LV v w → ¬ hashes k →
      entries LK CK LV CV hashes n .unimplemented
        ((good.flatMap fun g => g.1.2 ++ g.2.2) ++ (u ++ (w ++ tail)))

/-- Maps: their header, less input than the size says, or one of the entries, of which there
are half as many as the count says and which are looked for within the size. -/
inductive map {K V : Type} (env : Env) (LK : Rep K) (CK : Fault) (LV : Rep V) (CV : Fault)
    (hashes : K → Prop) : Fault
  | header {p : Panic} {i : Bytes} : Crash.header env 0xc1 0xd1 p i → map env LK CK LV CV hashes p i
  | short {hdr body : Bytes} {size count : Nat} : Lenient.Header env 0xc1 0xd1 hdr size count →
      body.length < size → map env LK CK LV CV hashes .sliceIndex (hdr ++ body)
  | entry {p : Panic} {hdr body : Bytes} {count : Nat} (rest : Bytes) :
      Lenient.Header env 0xc1 0xd1 hdr body.length count →
      entries LK CK LV CV hashes (count / 2) p body →
      map env LK CK LV CV hashes p (hdr ++ (body ++ rest))

/-- Fields declared `multiple`: an array, or a single value. -/
inductive multiple {α : Type} (env : Env) (L : Rep α) (C : Fault) : Fault
  | one {p : Panic} {i : Bytes} : C p i → i.head? ≠ some 0xe0 → i.head? ≠ some 0xf0 →
      multiple env L C p i
  | array {p : Panic} {i : Bytes} : Crash.array env L C p i → multiple env L C p i

/-- Values that may be null. -/
inductive nullable (C : Fault) : Fault
  | some {p : Panic} {i : Bytes} : C p i → i.head? ≠ some 0x40 → nullable C p i

/-- Values whose parts are given by `L` and `C`. -/
inductive Node (env : Env) (L : Rep Variant) (C : Fault) : Fault
  | timestamp {p : Panic} {i : Bytes} : Crash.timestamp p i → Node env L C p i
  | list {p : Panic} {i : Bytes} : Crash.list env L C p i → Node env L C p i
  | map {p : Panic} {i : Bytes} : Crash.map env L C L C (fun k => k.holdsMap = false) p i →
      Node env L C p i
  | described {d : Descriptor} {p : Panic} {db tail : Bytes} : Lenient.descriptor d db → C p tail →
      Node env L C p (0x00 :: (db ++ tail))

/-- Values with `n` levels left on the stack: without one, any value. -/
def nested (env : Env) : Nat → Fault
  | 0 => fun p i => p = .stackOverflow ∧ i ≠ []
  | n + 1 => Node env (Lenient.nested env n) (nested env n)

/-- Values of any type. -/
def any (env : Env) : Fault := nested env env.stackDepth

/-- Maps from variants, from symbols and from strings; only keys of the first kind may be
impossible to hash. -/
def anyMap (env : Env) : Fault :=
  map env (Lenient.any env) (any env) (Lenient.any env) (any env) fun k => k.holdsMap = false
def symbolMap (env : Env) : Fault :=
  map env Lenient.symbol never (Lenient.any env) (any env) fun _ => True
def stringMap (env : Env) : Fault :=
  map env Standard.string never (Lenient.any env) (any env) fun _ => True
def filterSet (env : Env) : Fault :=
  map env Lenient.symbol never (Lenient.nullable Standard.string) never fun _ => True
/-- Arrays of symbols. -/
def symbols (env : Env) : Fault := array env Lenient.symbol never
/-- Lists of variants. -/
def anyList (env : Env) : Fault := list env (Lenient.any env) (any env)

/-! ## Composite types -/

/-- A field: whether it may be null or left out, its encodings, and what makes its decoder
panic. -/
structure Port where
  absent : Prop
  legal : Bytes → Prop
  crash : Fault

/-- A field that must be given. -/
def must {α : Type} (L : Rep α) (C : Fault) : Port := ⟨False, fun b => ∃ a, L a b, C⟩
/-- A field that may be left out. -/
def may {α : Type} (L : Rep α) (C : Fault) : Port := ⟨True, fun b => ∃ a, L a b, C⟩

/-- Of the fields of a list, of which `n` are announced, one that makes the decoder panic,
after some that are read. -/
inductive Fill : List Port → Nat → Fault
  | here {s : Port} {ports : List Port} {n : Nat} {p : Panic} {tail : Bytes} : s.crash p tail →
      Fill (s :: ports) (n + 1) p tail
  | null {s : Port} {ports : List Port} {n : Nat} {p : Panic} {b : Bytes} : s.absent →
      Fill ports n p b → Fill (s :: ports) (n + 1) p (0x40 :: b)
  | given {s : Port} {ports : List Port} {n : Nat} {p : Panic} {u b : Bytes} : s.legal u →
      Fill ports n p b → Fill (s :: ports) (n + 1) p (u ++ b)

/-- Lists of fields: their header, or a field within the size. -/
inductive fieldList (env : Env) (ports : List Port) : Fault
  | header {p : Panic} {i : Bytes} : Crash.header env 0xc0 0xd0 p i → fieldList env ports p i
  | field {p : Panic} {hdr body : Bytes} {count : Nat} (rest : Bytes) :
      Lenient.Header env 0xc0 0xd0 hdr body.length count → Fill ports count p body →
      fieldList env ports p (hdr ++ (body ++ rest))

/-- A described value: the value after the descriptor. -/
inductive described (code : UInt64) (name : String) (C : Fault) : Fault
  | mk {db i : Bytes} {p : Panic} : Desc code name db → C p i →
      described code name C p (0x00 :: (db ++ i))

section
variable (env : Env)

/-- The languages that are read. -/
abbrev own : Scope := Scope.lenient env

/-- A composite type. -/
def composite (code : UInt64) (name : String) (ports : List Port) : Fault :=
  described code name (fieldList env ports)

open Standard (string binary ubyte ushort uint ulong role errorCondition)


def error : Fault := composite env 0x1d "amqp:error:list" [
  must (Standard.errorCondition (own env)) never, may string never, may (own env).fields (symbolMap env)]
def received : Fault := composite env 0x23 "amqp:received:list" [must uint never, must ulong never]
def accepted : Fault := composite env 0x24 "amqp:accepted:list" []
def rejected : Fault := composite env 0x25 "amqp:rejected:list" [may (Standard.error (own env)) (error env)]
def released : Fault := composite env 0x26 "amqp:released:list" []
def modified : Fault := composite env 0x27 "amqp:modified:list" [
  may (own env).boolean never, may (own env).boolean never, may (own env).fields (symbolMap env)]

def deliveryState : Fault := fun p i => received env p i ∨ accepted env p i ∨ rejected env p i ∨
  released env p i ∨ modified env p i
def outcome : Fault := fun p i => accepted env p i ∨ rejected env p i ∨ released env p i ∨
  modified env p i

def source : Fault := composite env 0x28 "amqp:source:list" [
  may string never, may Standard.terminusDurability never,
  may (Standard.terminusExpiryPolicy (own env)) never, may uint never, may (own env).boolean never,
  may (own env).fields (symbolMap env), may (Standard.distributionMode (own env)) never,
  may (own env).filterSet (filterSet env), may (Standard.outcome (own env)) (outcome env),
  may (own env).symbols (symbols env), may (own env).symbols (symbols env)]
def target : Fault := composite env 0x29 "amqp:target:list" [
  may string never, may Standard.terminusDurability never,
  may (Standard.terminusExpiryPolicy (own env)) never, may uint never, may (own env).boolean never,
  may (own env).fields (symbolMap env), may (own env).symbols (symbols env)]

def opening : Fault := composite env 0x10 "amqp:open:list" [
  must string never, may string never, may uint never, may ushort never, may uint never,
  may (own env).symbols (symbols env), may (own env).symbols (symbols env), may (own env).symbols (symbols env),
  may (own env).symbols (symbols env), may (own env).fields (symbolMap env)]
def beginning : Fault := composite env 0x11 "amqp:begin:list" [
  may ushort never, must uint never, must uint never, must uint never, may uint never,
  may (own env).symbols (symbols env), may (own env).symbols (symbols env), may (own env).fields (symbolMap env)]
def attach : Fault := composite env 0x12 "amqp:attach:list" [
  must string never, must uint never, must (Standard.role (own env)) never,
  may Standard.senderSettleMode never, may Standard.receiverSettleMode never,
  may (Standard.source (own env)) (source env), may (Standard.target (own env)) (target env),
  may (own env).map (anyMap env), may (own env).boolean never, may uint never, may ulong never,
  may (own env).symbols (symbols env), may (own env).symbols (symbols env), may (own env).fields (symbolMap env)]
def flow : Fault := composite env 0x13 "amqp:flow:list" [
  may uint never, must uint never, must uint never, must uint never, may uint never,
  may uint never, may uint never, may uint never, may (own env).boolean never, may (own env).boolean never,
  may (own env).fields (symbolMap env)]
def transfer : Fault := composite env 0x14 "amqp:transfer:list" [
  must uint never, may uint never, may binary never, may uint never, may (own env).boolean never,
  may (own env).boolean never, may Standard.receiverSettleMode never,
  may (Standard.deliveryState (own env)) (deliveryState env), may (own env).boolean never, may (own env).boolean never,
  may (own env).boolean never]
def disposition : Fault := composite env 0x15 "amqp:disposition:list" [
  must (Standard.role (own env)) never, must uint never, may uint never, may (own env).boolean never,
  may (Standard.deliveryState (own env)) (deliveryState env), may (own env).boolean never]
def detach : Fault := composite env 0x16 "amqp:detach:list" [
  must uint never, may (own env).boolean never, may (Standard.error (own env)) (error env)]
def ending : Fault := composite env 0x17 "amqp:end:list" [may (Standard.error (own env)) (error env)]
def close : Fault := composite env 0x18 "amqp:close:list" [may (Standard.error (own env)) (error env)]

/-- The bodies of AMQP frames. -/
def frameBody : Fault := fun p i => opening env p i ∨ beginning env p i ∨ attach env p i ∨
  flow env p i ∨ transfer env p i ∨ disposition env p i ∨ detach env p i ∨ ending env p i ∨
  close env p i

def saslMechanisms : Fault := composite env 0x40 "amqp:sasl-mechanisms:list" [
  must (own env).symbols (symbols env)]
def saslInit : Fault := composite env 0x41 "amqp:sasl-init:list" [
  must (own env).symbol never, may binary never, may string never]
def saslChallenge : Fault := composite env 0x42 "amqp:sasl-challenge:list" [must binary never]
def saslResponse : Fault := composite env 0x43 "amqp:sasl-response:list" [must binary never]
def saslOutcome : Fault := composite env 0x44 "amqp:sasl-outcome:list" [
  must Standard.saslCode never, may binary never]

/-- The bodies of SASL frames. -/
def saslBody : Fault := fun p i => saslMechanisms env p i ∨ saslInit env p i ∨
  saslChallenge env p i ∨ saslResponse env p i ∨ saslOutcome env p i

def headerSection : Fault := composite env 0x70 "amqp:header:list" [
  may (own env).boolean never, may ubyte never, may uint never, may (own env).boolean never, may uint never]
def propertiesSection : Fault := composite env 0x73 "amqp:properties:list" [
  may Standard.messageId never, may binary never, may string never, may string never,
  may string never, may Standard.messageId never, may (own env).symbol never, may (own env).symbol never,
  may (own env).timestamp timestamp, may (own env).timestamp timestamp, may string never, may uint never,
  may string never]

/-- The sections of messages. -/
def messageSection : Fault := fun p i =>
  headerSection env p i ∨
  described 0x71 "amqp:delivery-annotations:map" (symbolMap env) p i ∨
  described 0x72 "amqp:message-annotations:map" (symbolMap env) p i ∨
  propertiesSection env p i ∨
  described 0x74 "amqp:application-properties:map" (stringMap env) p i ∨
  described 0x76 "amqp:amqp-sequence:list" (anyList env) p i ∨
  described 0x77 "amqp:amqp-value:*" (any env) p i ∨
  described 0x78 "amqp:footer:map" (symbolMap env) p i

/-- Messages: a section, after some that are read. -/
inductive message : Fault
  | mk (good : List (Section × Bytes)) {p : Panic} {tail : Bytes} :
      (∀ g ∈ good, Lenient.messageSection (own env) g.1 g.2) → messageSection env p tail →
      message p (good.flatMap Prod.snd ++ tail)

/-- What the codec takes for a frame of the given type: data offset in words of four bytes,
type, two bytes, an extended header to be ignored, the body.  (The size comes before it.) -/
inductive frame (type : UInt8) (C : Fault) : Fault
  | mk {p : Panic} {ext body : Bytes} {doff : UInt8} (a b : UInt8) : doff.toNat * 4 = 8 + ext.length →
      C p body → frame type C p (doff :: type :: a :: b :: (ext ++ body))

/-- Streams: with overflow checks, a size that does not cover itself; or a frame all of which
has arrived. -/
inductive stream (type : UInt8) (C : Fault) : Fault
  | size {s : Bytes} {k : Nat} (rest : Bytes) : env.overflowChecks = true → Num 4 s k → k < 4 →
      4 ≤ rest.length → stream type C .overflow (s ++ rest)
  | frame {p : Panic} {s f : Bytes} (rest : Bytes) : Num 4 s (4 + f.length) →
      Crash.frame type C p f → stream type C p (s ++ (f ++ rest))

end
end Crash

/-- The decoder panics on exactly the inputs `C`, for the reasons given. -/
def PanicsOn (α : Type) [DecodeF α] (env : Env) (C : Fault) : Prop :=
  ∀ (input : Bytes) (p : Panic), decode α env input = .panic p ↔ C p input

end Amqp
