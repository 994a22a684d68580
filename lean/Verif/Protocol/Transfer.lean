import Verif.Message
/-!
# `Transfer`, `src/protocol/definitions.rs:2189-2459`
-/
namespace Amqp

/-- `Transfer`, `src/protocol/definitions.rs:2189-2202`: the list fields
(`TransferPerf`) and `body`. -/
structure Transfer extends TransferPerf where
  body : Option TransferBody

/-- The end of `decode_transfer_inner`, `src/protocol/definitions.rs:2351-2373`:
everything after the list is the body. -/
def Transfer.withBody (p : TransferPerf) : Dec Transfer := fun remainder =>
  if remainder.isEmpty then .ok (remainder, { p with body := none })
  else .ok ([], { p with body := some (.Data ⟨remainder⟩) })

/-- `decode_transfer_inner`, `src/protocol/definitions.rs:2244-2374`. -/
def Transfer.decInner (env : Env) : Dec Transfer := TransferPerf.decInner env >>= Transfer.withBody

/-- `src/protocol/definitions.rs:2436-2450`. -/
instance : DecodeF Transfer where
  decF env fmt := describedAs env fmt 20 "amqp:transfer:list" (Transfer.decInner env)

/-- `encoded_size_transfer_inner`, `src/protocol/definitions.rs:2375-2396`;
`encode_transfer_inner`, `src/protocol/definitions.rs:2397-2435`. -/
instance : Encode Transfer where
  size t := size t.toTransferPerf + t.body.elim 0 size
  enc t := enc t.toTransferPerf ++ t.body.elim [] enc

end Amqp
