import Verif.Message
/-!
# How often `encode` and `encoded_size` are called

The encoders with a counter of the calls of `encode` and `encoded_size` they
make.  `C64_same_values` and `C64_same_messages` prove that they compute the same.

Calls are counted on variants (values) and on sections and transfer bodies
(messages); what a call does besides making further calls takes a time
proportional to the bytes it writes, or a constant time.
-/
set_option autoImplicit false
namespace Amqp

/-- A result and the number of calls made for it. -/
structure Counted (α : Type) where
  val : α
  calls : Nat

/-! ## Values -/

mutual
/-- `Variant::encoded_size`, `src/codec/encode.rs:629-654`, with
`List::encoded_size`, `src/codec/encode.rs:601-609`, and `HashMap::encoded_size`,
`src/codec/encode.rs:460-465`. -/
def Variant.sizeC : Variant → Counted Nat
  | .list l => let c := sizeListC l; ⟨compoundSize c.val, c.calls + 1⟩
  | .map m => let c := sizeMapC m; ⟨compoundSize c.val, c.calls + 1⟩
  | .described d v => let c := v.sizeC; ⟨size d + c.val, c.calls + 1⟩
  | v => ⟨v.vsize, 1⟩
/-- `list_encoded_size`, `src/codec/encode.rs:596-598`. -/
def sizeListC : List Variant → Counted Nat
  | [] => ⟨0, 0⟩
  | v :: t => let a := v.sizeC; let b := sizeListC t; ⟨a.val + b.val, a.calls + b.calls⟩
/-- `map_encoded_size`, `src/codec/encode.rs:453-458`. -/
def sizeMapC : List (Variant × Variant) → Counted Nat
  | [] => ⟨0, 0⟩
  | (k, v) :: t =>
    let a := k.sizeC; let b := v.sizeC; let c := sizeMapC t
    ⟨a.val + b.val + c.val, a.calls + b.calls + c.calls⟩
end

mutual
/-- `Variant::encode`, `src/codec/encode.rs:657-686`.  `List::encode`
(`src/codec/encode.rs:611-626`) and `HashMap::encode` (`src/codec/encode.rs:467-485`)
compute the size of the content again at every level. -/
def Variant.encC : Variant → Counted Bytes
  | .list l =>
    let s := sizeListC l; let c := encListC l
    ⟨compoundHdr FC.array8 FC.array32 s.val l.length ++ c.val, s.calls + c.calls + 1⟩
  | .map m =>
    let s := sizeMapC m; let c := encMapC m
    ⟨compoundHdr FC.map8 FC.map32 s.val (m.length * 2) ++ c.val, s.calls + c.calls + 1⟩
  | .described d v => let c := v.encC; ⟨enc d ++ c.val, c.calls + 1⟩
  | v => ⟨v.venc, 1⟩
def encListC : List Variant → Counted Bytes
  | [] => ⟨[], 0⟩
  | v :: t => let a := v.encC; let b := encListC t; ⟨a.val ++ b.val, a.calls + b.calls⟩
def encMapC : List (Variant × Variant) → Counted Bytes
  | [] => ⟨[], 0⟩
  | (k, v) :: t =>
    let a := k.encC; let b := v.encC; let c := encMapC t
    ⟨a.val ++ b.val ++ c.val, a.calls + b.calls + c.calls⟩
end

/-! ## Messages -/

/-- One call if the section is there. -/
def optCall {α : Type} (o : Option α) : Nat := if o.isSome then 1 else 0

/-- The sections before and after the body; each is asked for its size once by
`encoded_size` and written once by `encode`:
`src/message/inmessage.rs:218-234,240-258,270-274`. -/
def MsgHead.headCalls {AP : Type} (m : MsgHead AP) : Nat :=
  optCall m.header + optCall m.delivery_annotations + optCall m.message_annotations +
    optCall m.properties + optCall m.application_properties + optCall m.footer

/-- The sections of the body other than messages, `src/message/body.rs:38-45,52-56,60-71`. -/
def MsgHead.bodyCalls {AP : Type} (m : MsgHead AP) : Nat :=
  m.data.length + m.sequence.length + optCall m.value

mutual
/-- `TransferBody::encoded_size`, `src/protocol/mod.rs:235-241`, and
`encoded_size` of messages, `src/message/inmessage.rs:203-237`: nothing further is
called if a size is remembered. -/
def TransferBody.sizeC : TransferBody → Counted Nat
  | .Data b => ⟨b.data.length, 1⟩
  | .MessageIn m ms =>
    if m.cache ≠ 0 then ⟨m.cache, 1⟩
    else
      let c := nestedSizeC ms
      ⟨m.freshSize (bodySizeWith m.data m.sequence m.value c.val), m.headCalls + m.bodyCalls + c.calls + 1⟩
  | .MessageOut m ms =>
    if m.cache ≠ 0 then ⟨m.cache, 1⟩
    else
      let c := nestedSizeC ms
      ⟨m.freshSize (bodySizeWith m.data m.sequence m.value c.val), m.headCalls + m.bodyCalls + c.calls + 1⟩
/-- The fold over `messages`, `src/message/body.rs:46-50`. -/
def nestedSizeC : List TransferBody → Counted Nat
  | [] => ⟨0, 0⟩
  | b :: t =>
    let a := b.sizeC; let c := nestedSizeC t
    ⟨a.val + (if a.val > 255 then 5 else 2) + sectionPrefixLength + c.val, a.calls + c.calls⟩
end

mutual
/-- The number of sections and messages, at any depth. -/
def TransferBody.parts : TransferBody → Nat
  | .Data _ => 1
  | .MessageIn m ms => 1 + m.headCalls + m.bodyCalls + partsAll ms
  | .MessageOut m ms => 1 + m.headCalls + m.bodyCalls + partsAll ms
def partsAll : List TransferBody → Nat
  | [] => 0
  | b :: t => b.parts + partsAll t
end

theorem TransferBody.parts_pos (b : TransferBody) : 0 < b.parts := by
  cases b <;> simp only [TransferBody.parts] <;> omega

mutual
theorem touch_parts : ∀ b : TransferBody, b.touch.parts = b.parts
  | .Data _ => by simp [TransferBody.touch]
  | .MessageIn m ms => by
    simp only [TransferBody.touch]
    split
    · rfl
    · simp only [TransferBody.parts, touchAll_parts ms]; rfl
  | .MessageOut m ms => by
    simp only [TransferBody.touch]
    split
    · rfl
    · simp only [TransferBody.parts, touchAll_parts ms]; rfl
theorem touchAll_parts : ∀ ms : List TransferBody, partsAll (touchAll ms) = partsAll ms
  | [] => by simp [touchAll]
  | b :: t => by simp only [touchAll, partsAll, touch_parts b, touchAll_parts t]
end

mutual
/-- `TransferBody::encode`, `src/protocol/mod.rs:243-249`, and `encode` of messages,
`src/message/inmessage.rs:239-275`.  `self.body.encoded_size()` leaves the sizes
of the nested messages remembered (`touchAll`). -/
def TransferBody.encC : TransferBody → Counted Bytes
  | .Data b => ⟨b.data, 1⟩
  | .MessageIn m ms =>
    let s := nestedSizeC ms
    let c := nestedEncC (touchAll ms)
    let bodySize := bodySizeWith m.data m.sequence m.value s.val
    ⟨m.encPre ++ bodyEncOrEmpty bodySize (bodyEncWith m.data m.sequence m.value c.val) ++ m.encPost,
      m.headCalls + (m.bodyCalls + s.calls) +
        (if bodySize = 0 then 0 else m.bodyCalls + c.calls) + 1⟩
  | .MessageOut m ms =>
    let s := nestedSizeC ms
    let c := nestedEncC (touchAll ms)
    let bodySize := bodySizeWith m.data m.sequence m.value s.val
    ⟨m.encPre ++ bodyEncOrEmpty bodySize (bodyEncWith m.data m.sequence m.value c.val) ++ m.encPost,
      m.headCalls + (m.bodyCalls + s.calls) +
        (if bodySize = 0 then 0 else m.bodyCalls + c.calls) + 1⟩
termination_by b => 2 * b.parts
decreasing_by all_goals simp only [touchAll_parts, TransferBody.parts]; omega
/-- The loop over `messages`, `src/message/body.rs:72-86`: `encoded_size`, then
`encode`, of each. -/
def nestedEncC : List TransferBody → Counted Bytes
  | [] => ⟨[], 0⟩
  | b :: t =>
    let s := b.sizeC
    let e := b.touch.encC
    let r := nestedEncC t
    ⟨enc (Descriptor.ulong 117) ++
      (if s.val > 255 then FC.binary32 :: beEnc 4 s.val else [FC.binary8, UInt8.ofNat s.val]) ++
      e.val ++ r.val, s.calls + e.calls + r.calls⟩
termination_by l => 2 * partsAll l + 1
decreasing_by
  all_goals
    have := b.parts_pos
    simp only [touch_parts, partsAll]
    omega
end

end Amqp
