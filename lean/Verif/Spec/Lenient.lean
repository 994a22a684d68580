import Verif.Spec.Standard
import Verif.Spec.Maps
import Verif.Message
/-!
# What is read

The decoders accept more than the standard allows, and take some of what it allows for
something else.  This is the language they do accept, written down in the same way as
that of the standard and without reference to the decoders: `Scope.lenient` is put in
place of `Scope.all` in the layouts of `Verif.Spec.Standard`.
-/
set_option autoImplicit false
namespace Amqp
open Standard (Rep Slot)

namespace Lenient

/-! ## Values -/

/-- Any byte but zero is true. -/
inductive boolean : Rep Bool
  | short (v : Bool) : boolean v [if v then 0x41 else 0x42]
  | byte (x : UInt8) : boolean (x != 0) [0x56, x]

/-- Symbols are any text. -/
inductive symbol : Rep Symbol
  | mk {s : Symbol} {c : UInt8} {w : Nat} {l : Bytes} : Sized 0xa3 0xb3 c w →
      Num w l s.str.bytes.length → symbol s (c :: (l ++ s.str.bytes))

/-- Timestamps: `m` milliseconds.  Those less than a second before the epoch are taken to
be as much after it; for others before it, whole seconds come in the form of leap
seconds.  (Times outside of the range of the type are not read: there is no such `t`.) -/
inductive timestamp : Rep DateTime
  | before {t : DateTime} {m : Int} {b : Bytes} : SNum 8 b m → m ≤ -1000 →
      t.secs * 1000000000 + t.nanos = m * 1000000 → 0 < t.nanos → t.nanos ≤ 1000000000 →
      timestamp t (0x83 :: b)
  | after {t : DateTime} {m : Int} {b : Bytes} : SNum 8 b m → -1000 < m →
      t.secs * 1000000000 + t.nanos = m.natAbs * 1000000 → t.nanos < 1000000000 →
      timestamp t (0x83 :: b)

/-- Descriptors: anything but the one-byte zero. -/
inductive descriptor : Rep Descriptor
  | ulong {n : UInt64} {b : Bytes} : Prim (.ulong n) b → b ≠ [0x44] → descriptor (.ulong n) b
  | symbol {s : Symbol} {b : Bytes} : Lenient.symbol s b → descriptor (.symbol s) b

/-- Values that are not compound. -/
inductive Scalar : Rep Variant
  | prim {v : Variant} {b : Bytes} : Prim v b → Scalar v b
  | boolean {x : Bool} {b : Bytes} : Lenient.boolean x b → Scalar (.boolean x) b
  | symbol {s : Symbol} {b : Bytes} : Lenient.symbol s b → Scalar (.symbol s) b
  | timestamp {t : DateTime} {b : Bytes} : Lenient.timestamp t b → Scalar (.timestamp t) b

/-! ## Compound values -/

/-- What is taken for the size of the content when the size field, of `w` bytes like the
count that is part of what it measures, says `k`.  If it says less than `w`, the
subtraction wraps around unless this is checked. -/
inductive Taken (env : Env) (w : Nat) : Nat → Nat → Prop
  | exact (size : Nat) : Taken env w (w + size) size
  | wrapped {k : Nat} : env.overflowChecks = false → k < w → Taken env w k (256 ^ w + k - w)

/-- Format code, size and count. -/
inductive Header (env : Env) (c8 c32 : UInt8) : Bytes → Nat → Nat → Prop
  | mk {c : UInt8} {w k size count : Nat} {s n : Bytes} : Sized c8 c32 c w → Num w s k →
      Taken env w k size → Num w n count → Header env c8 c32 (c :: (s ++ n)) size count

/-- The keys of these entries, each where it first occurs. -/
def firstKeys {K V : Type} [HKey K] : List (K × V) → List K
  | [] => []
  | e :: t => e.1 :: (firstKeys t).filter fun k => !HKey.keq k e.1

/-- The map given by a sequence of entries: of several with equal keys, the first key and
the last value. -/
def merged {K V : Type} [HKey K] (l : List (K × V)) : List (K × V) :=
  (firstKeys l).filterMap fun k => (lastValueOf k l).map fun v => (k, v)

/-- Maps: the size says where the map ends; half as many entries as the count says are
read, what follows them up to the end is ignored.  Keys must not contain maps. -/
inductive map {K V : Type} [HKey K] (env : Env) (LK : Rep K) (LV : Rep V) : Rep (List (K × V))
  | mk (items : List ((K × Bytes) × (V × Bytes))) (ignored : Bytes) {hdr : Bytes} {count : Nat} :
      Header env 0xc1 0xd1 hdr ((items.flatMap fun p => p.1.2 ++ p.2.2) ++ ignored).length count →
      count / 2 = items.length →
      (∀ p ∈ items, LK p.1.1 p.1.2 ∧ LV p.2.1 p.2.2 ∧ HKey.hashOk p.1.1 = true) →
      map env LK LV (merged (items.map fun p => (p.1.1, p.2.1)))
        (hdr ++ ((items.flatMap fun p => p.1.2 ++ p.2.2) ++ ignored))

/-- Maps read into a vector: nothing is merged. -/
inductive vecMap {K V : Type} (env : Env) (LK : Rep K) (LV : Rep V) : Rep (List (K × V))
  | mk (items : List ((K × Bytes) × (V × Bytes))) (ignored : Bytes) {hdr : Bytes} {count : Nat} :
      Header env 0xc1 0xd1 hdr ((items.flatMap fun p => p.1.2 ++ p.2.2) ++ ignored).length count →
      count / 2 = items.length →
      (∀ p ∈ items, LK p.1.1 p.1.2 ∧ LV p.2.1 p.2.2) →
      vecMap env LK LV (items.map fun p => (p.1.1, p.2.1))
        (hdr ++ ((items.flatMap fun p => p.1.2 ++ p.2.2) ++ ignored))

/-- Lists: the size is read but not used, they end where the last item ends. -/
inductive list {α : Type} (env : Env) (L : Rep α) : Rep (List α)
  | empty : list env L [] [0x45]
  | mk (items : List (α × Bytes)) {hdr : Bytes} {size : Nat} :
      Header env 0xc0 0xd0 hdr size items.length → (∀ p ∈ items, L p.1 p.2) →
      list env L (items.map Prod.fst) (hdr ++ items.flatMap Prod.snd)

/-- Arrays: likewise; `k` is the format code of the items. -/
inductive array {α : Type} (env : Env) (L : Rep α) : Rep (List α)
  | mk (k : UInt8) (items : List (α × Bytes)) {hdr : Bytes} {size : Nat} :
      Header env 0xe0 0xf0 hdr size items.length → (∀ p ∈ items, L p.1 (k :: p.2)) →
      array env L (items.map Prod.fst) (hdr ++ k :: items.flatMap Prod.snd)

/-- Fields declared `multiple`. -/
inductive multiple {α : Type} (env : Env) (L : Rep α) : Rep (Multiple α)
  | one {x : α} {b : Bytes} : L x b → multiple env L ⟨[x]⟩ b
  | array {l : List α} {b : Bytes} : Lenient.array env L l b → multiple env L ⟨l⟩ b

/-- Values whose parts are given by `L`. -/
inductive Node (env : Env) (L : Rep Variant) : Rep Variant
  | scalar {v : Variant} {b : Bytes} : Scalar v b → Node env L v b
  | list {l : List Variant} {b : Bytes} : Lenient.list env L l b → Node env L (.list l) b
  | map {l : List (Variant × Variant)} {b : Bytes} : Lenient.map env L L l b → Node env L (.map l) b
  | described {d : Descriptor} {v : Variant} {db b : Bytes} : Lenient.descriptor d db → L v b →
      Node env L (.described d v) (0x00 :: (db ++ b))

/-- Values nested at most `n` deep (in the bytes: merged entries count). -/
def nested (env : Env) : Nat → Rep Variant
  | 0 => fun _ _ => False
  | n + 1 => Node env (nested env n)

/-- Values of any type, nested as deep as the stack allows. -/
def any (env : Env) : Rep Variant := nested env env.stackDepth

/-! ## Composite types -/

/-- The fields of a list of which `n` are announced, and the bytes they are in.  Fields
and bytes beyond those of the type are ignored. -/
inductive Fill : List Slot → Nat → Bytes → Prop
  | extra (n : Nat) (ignored : Bytes) : Fill [] n ignored
  | done {slots : List Slot} (ignored : Bytes) : (∀ s ∈ slots, s.absent) → Fill slots 0 ignored
  | null {s : Slot} {slots : List Slot} {n : Nat} {b : Bytes} : s.absent → Fill slots n b →
      Fill (s :: slots) (n + 1) (0x40 :: b)
  | given {s : Slot} {slots : List Slot} {n : Nat} {u b : Bytes} : s.legal u → Fill slots n b →
      Fill (s :: slots) (n + 1) (u ++ b)

/-- Lists of fields end where the size says. -/
inductive fieldList (env : Env) (slots : List Slot) : Bytes → Prop
  | empty : Fill slots 0 [] → fieldList env slots [0x45]
  | list {hdr body : Bytes} {count : Nat} : Header env 0xc0 0xd0 hdr body.length count →
      Fill slots count body → fieldList env slots (hdr ++ body)

/-- Values that may be null. -/
inductive nullable {α : Type} (L : Rep α) : Rep (Option α)
  | none : nullable L none [0x40]
  | some {a : α} {b : Bytes} : L a b → b.head? ≠ some 0x40 → nullable L (some a) b

end Lenient

/-- What is read. -/
def Standard.Scope.lenient (env : Env) : Standard.Scope where
  boolean := Lenient.boolean
  symbol := Lenient.symbol
  symbols := Lenient.multiple env Lenient.symbol
  timestamp := Lenient.timestamp
  any := Lenient.any env
  map m := Lenient.map env (Lenient.any env) (Lenient.any env) m.entries
  list l := Lenient.list env (Lenient.any env) l.items
  fields m := Lenient.map env Lenient.symbol (Lenient.any env) m.entries
  annotations m := Lenient.map env Lenient.symbol (Lenient.any env) m.entries
  stringMap m := Lenient.map env Standard.string (Lenient.any env) m.entries
  filterSet m := Lenient.map env Lenient.symbol (Lenient.nullable Standard.string) m.entries
  fieldList := Lenient.fieldList env

/-! ## Messages -/

namespace Lenient
open Standard

/-- The sections of messages. -/
def messageSection (S : Scope) : Rep Section
  | .Header v => Standard.header S v
  | .DeliveryAnnotations v => Standard.deliveryAnnotations S v
  | .MessageAnnotations v => Standard.messageAnnotations S v
  | .Properties v => Standard.properties S v
  | .ApplicationProperties v => Standard.applicationProperties S v
  | .Data v => Standard.data v
  | .AmqpSequence v => Standard.amqpSequence S v
  | .AmqpValue v => Standard.amqpValue S v
  | .Footer v => Standard.footer S v

/-- The message made of these sections: any number of them in any order; of those that
occur at most once in a message the last counts. -/
def gathered {AP : Type} (conv : StringVariantMap → AP) (l : List Section) : Amqp.Message AP where
  header := (l.filterMap fun | .Header v => some v | _ => none).getLast?
  delivery_annotations := (l.filterMap fun | .DeliveryAnnotations v => some v | _ => none).getLast?
  message_annotations := (l.filterMap fun | .MessageAnnotations v => some v | _ => none).getLast?
  properties := (l.filterMap fun | .Properties v => some v | _ => none).getLast?
  application_properties :=
    (l.filterMap fun | .ApplicationProperties v => some (conv v) | _ => none).getLast?
  data := l.filterMap fun | .Data v => some v | _ => none
  sequence := l.filterMap fun | .AmqpSequence v => some v | _ => none
  value := (l.filterMap fun | .AmqpValue v => some v | _ => none).getLast?
  footer := (l.filterMap fun | .Footer v => some v | _ => none).getLast?

/-- Messages: one or more sections. -/
def message {AP : Type} (S : Scope) (conv : StringVariantMap → AP) (m : Amqp.Message AP)
    (b : Bytes) : Prop :=
  ∃ items : List (Section × Bytes), items ≠ [] ∧ (∀ p ∈ items, messageSection S p.1 p.2) ∧
    b = items.flatMap Prod.snd ∧ m = gathered conv (items.map Prod.fst)

end Lenient

/-! ## Reading exactly this -/

/-- The decoder accepts exactly the encodings `L`, wherever they end, and nothing else. -/
def Accepts (α : Type) [DecodeF α] (env : Env) (L : Rep α) : Prop :=
  ∀ (input rest : Bytes) (a : α),
    decode α env input = .ok (rest, a) ↔ ∃ b, input = b ++ rest ∧ L a b

end Amqp
