import Verif.Codegen.Accessors
import Verif.Codegen.Shipped
/-!
# C73: the accessors of the shipped types are those generated from the specification
-/
set_option autoImplicit false
namespace Amqp.Codegen

set_option maxRecDepth 100000 in
/-- **C73.** The list types of `src/protocol/definitions.rs` have the accessors that the
generator makes for the shipped specification: the same names in the same order, optional and
by reference in the same cases, with the same types. -/
theorem C73_accessors : accessors specification = .ok shippedAccessors := by decide +kernel

/-- The types of fields of which the compiler allows copies through a reference: numbers,
flags, identifiers, times, and the enumerations without data
(`codegen/definitions.rs:186`, `#[derive(Clone, Copy, …)]`). -/
def Ty.isCopy : Ty → Bool
  | .u8 | .u16 | .u32 | .u64 | .bool | .uuid | .timestamp | .role | .senderSettleMode
  | .receiverSettleMode | .saslCode | .terminusDurability | .terminusExpiryPolicy => true
  | _ => false

/-- An accessor that compiles and copies nothing but what is cheap to copy. -/
def Definitions.accessorFits (d : Definitions) (a : Accessor) : Bool :=
  match a.gives with
  | .str => false
  | .ref ty => match d.resolve ty with
    | some t => !t.isCopy
    | none => ty == "TransferBody"
  | .copy ty => match d.resolve ty with
    | some t => t.isCopy
    | none => false

set_option maxRecDepth 100000 in
/-- **C73.** The accessors of the shipped types give copies of the fields exactly where their
type can be copied, and references to the others: nothing of a frame is moved or cloned by
looking at it. -/
theorem C73_accessors_fit :
    (match parse specification with
     | .ok d => d.lists.all fun l => l.accessors.all d.accessorFits
     | _ => false) = true := by decide +kernel

/-- **C73.** For every specification that the generator accepts, every field has its accessor,
which is optional as the field is. -/
theorem C73_accessors_all (spec : Json) (d : Definitions) (h : parse spec = .ok d)
    (l : GDescribed) (hl : l ∈ d.lists) (f : GField) (hf : f ∈ l.fields) :
    ∃ all, accessors spec = .ok all ∧ ∃ as, (l.name, as) ∈ all ∧
      ∃ a ∈ as, a.name = f.name ∧ a.optional = f.optional ∧
        (a.gives = .str ∨ a.gives = .ref f.ty ∨ a.gives = .copy f.ty) := by
  refine ⟨d.lists.map fun l => (l.name, l.accessors), ?_, l.accessors,
    List.mem_map.2 ⟨l, hl, rfl⟩, f.accessor, ?_, rfl, rfl, ?_⟩
  · unfold accessors; rw [h]; rfl
  · exact List.mem_append_left _ (List.mem_map.2 ⟨f, hf, rfl⟩)
  · unfold GField.accessor
    by_cases h1 : f.is_str = true
    · simp [h1]
    · by_cases h2 : f.is_ref = true
      · simp [h1, h2]
      · simp [h1, h2]

/-- `Open` has ten accessors, of which `max_frame_size` copies and `hostname` refers. -/
example : ∃ as, ("Open", as) ∈ shippedAccessors ∧ as.length = 10 ∧
    ⟨"max_frame_size", false, .copy "u32"⟩ ∈ as ∧ ⟨"hostname", true, .ref "ByteStr"⟩ ∈ as := by
  refine ⟨_, List.Mem.tail _ (List.Mem.head _), rfl, ?_, ?_⟩ <;> decide

end Amqp.Codegen
