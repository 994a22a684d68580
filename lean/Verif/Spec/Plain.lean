import Verif.Spec.Standard
/-!
# What a relay can pass on

Values without lists and without arrays of symbols of a certain size, for every type of
the protocol.  Nothing here refers to encoders or decoders.
-/
set_option autoImplicit false
namespace Amqp

mutual
/-- There is no list within the value, also not within the keys of maps. -/
def Variant.ListFree : Variant → Prop
  | .list _ => False
  | .map m => listFreeMap m
  | .described _ v => v.ListFree
  | _ => True
def listFreeMap : List (Variant × Variant) → Prop
  | [] => True
  | (k, v) :: t => (k.ListFree ∧ v.ListFree) ∧ listFreeMap t
end

namespace Standard

def plainFields (m : Fields) : Prop := ∀ e ∈ m.entries, e.2.ListFree
def plainAnyMap (m : Map) : Prop := ∀ e ∈ m.entries, e.1.ListFree ∧ e.2.ListFree
def plainStringMap (m : StringVariantMap) : Prop := ∀ e ∈ m.entries, e.2.ListFree
/-- A single symbol, or symbols that do not take exactly 254 bytes, each with four bytes
for its length. -/
def plainSymbols (m : Symbols) : Prop :=
  m.items.length = 1 ∨ (m.items.map fun s => 4 + s.str.bytes.length).sum ≠ 254
def plainError (v : Error) : Prop := IfGiven plainFields v.info
def plainRejected (v : Rejected) : Prop := IfGiven plainError v.error
def plainModified (v : Modified) : Prop := IfGiven plainFields v.message_annotations
def plainState : DeliveryState → Prop
  | .Rejected v => plainRejected v
  | .Modified v => plainModified v
  | _ => True
def plainOutcome : Outcome → Prop
  | .Rejected v => plainRejected v
  | .Modified v => plainModified v
  | _ => True
def plainSource (v : Source) : Prop :=
  IfGiven plainFields v.dynamic_node_properties ∧ IfGiven plainOutcome v.default_outcome ∧
  IfGiven plainSymbols v.outcomes ∧ IfGiven plainSymbols v.capabilities
def plainTarget (v : Target) : Prop :=
  IfGiven plainFields v.dynamic_node_properties ∧ IfGiven plainSymbols v.capabilities
def plainOpen (v : Open) : Prop :=
  IfGiven plainSymbols v.outgoing_locales ∧ IfGiven plainSymbols v.incoming_locales ∧
  IfGiven plainSymbols v.offered_capabilities ∧ IfGiven plainSymbols v.desired_capabilities ∧
  IfGiven plainFields v.properties
def plainBegin (v : Begin) : Prop :=
  IfGiven plainSymbols v.offered_capabilities ∧ IfGiven plainSymbols v.desired_capabilities ∧
  IfGiven plainFields v.properties
def plainAttach (v : Attach) : Prop :=
  IfGiven plainSource v.source ∧ IfGiven plainTarget v.target ∧ IfGiven plainAnyMap v.unsettled ∧
  IfGiven plainSymbols v.offered_capabilities ∧ IfGiven plainSymbols v.desired_capabilities ∧
  IfGiven plainFields v.properties
def plainFlow (v : Flow) : Prop := IfGiven plainFields v.properties
def plainTransfer (v : TransferPerf) : Prop := IfGiven plainState v.state
def plainDisposition (v : Disposition) : Prop := IfGiven plainState v.state
def plainDetach (v : Detach) : Prop := IfGiven plainError v.error
def plainEnd (v : End) : Prop := IfGiven plainError v.error
def plainClose (v : Close) : Prop := IfGiven plainError v.error
/-- The payload of a transfer may be anything. -/
def plainFrame : Frame → Prop
  | .Open v => plainOpen v
  | .Begin v => plainBegin v
  | .Attach v => plainAttach v
  | .Flow v => plainFlow v
  | .Transfer v => plainTransfer v.toTransferPerf
  | .Disposition v => plainDisposition v
  | .Detach v => plainDetach v
  | .End v => plainEnd v
  | .Close v => plainClose v
  | .Empty => True
def plainSasl : SaslFrameBody → Prop
  | .SaslMechanisms v => plainSymbols v.sasl_server_mechanisms
  | _ => True
def plainBody : Body → Prop
  | .data _ => True
  | .sequence _ => False
  | .value v => v.ListFree
def plainMessage (m : Standard.Message) : Prop :=
  IfGiven plainFields m.delivery_annotations ∧ IfGiven plainFields m.message_annotations ∧
  IfGiven plainStringMap m.application_properties ∧ plainBody m.body ∧ IfGiven plainFields m.footer

end Standard
end Amqp
