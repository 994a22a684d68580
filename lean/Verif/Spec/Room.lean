import Verif.Framing
/-!
# Values that hold a UUID

Written from the types alone; nothing here mentions encoders.
-/
set_option autoImplicit false
namespace Amqp.Spec

/-- The value is a UUID, or has one among its items, keys, values or under its
descriptor. -/
inductive HoldsUuid : Variant → Prop where
  | here (u : Uuid) : HoldsUuid (.uuid u)
  | item {l : List Variant} {v : Variant} (h : v ∈ l) (hv : HoldsUuid v) : HoldsUuid (.list l)
  | key {m : List (Variant × Variant)} {k v : Variant} (h : (k, v) ∈ m) (hk : HoldsUuid k) :
      HoldsUuid (.map m)
  | value {m : List (Variant × Variant)} {k v : Variant} (h : (k, v) ∈ m) (hv : HoldsUuid v) :
      HoldsUuid (.map m)
  | described {d : Descriptor} {v : Variant} (hv : HoldsUuid v) : HoldsUuid (.described d v)

/-- A UUID is somewhere among the values of a map. -/
def InFields {K : Type} (m : HMap K Variant) : Prop := ∃ e ∈ m.entries, HoldsUuid e.2

/-- An identifier that is a UUID. -/
def InId (i : MessageId) : Prop := ∃ u, i = .Uuid u

/-- `P` of what is there, if anything is. -/
def Within {α : Type} (P : α → Prop) (o : Option α) : Prop := ∃ a, o = some a ∧ P a

def InError (e : Error) : Prop := Within InFields e.info
def InRejected (r : Rejected) : Prop := Within InError r.error
def InModified (m : Modified) : Prop := Within InFields m.message_annotations

def InState : DeliveryState → Prop
  | .Rejected r => InRejected r
  | .Modified m => InModified m
  | _ => False

def InOutcome : Outcome → Prop
  | .Rejected r => InRejected r
  | .Modified m => InModified m
  | _ => False

def InSource (s : Source) : Prop :=
  Within InFields s.dynamic_node_properties ∨ Within InOutcome s.default_outcome
def InTarget (t : Target) : Prop := Within InFields t.dynamic_node_properties

def InOpen (o : Open) : Prop := Within InFields o.properties
def InBegin (b : Begin) : Prop := Within InFields b.properties
def InAttach (a : Attach) : Prop :=
  Within InSource a.source ∨ Within InTarget a.target ∨
  Within (fun m : Map => ∃ e ∈ m.entries, HoldsUuid e.1 ∨ HoldsUuid e.2) a.unsettled ∨
  Within InFields a.properties
def InFlow (f : Flow) : Prop := Within InFields f.properties
def InDisposition (d : Disposition) : Prop := Within InState d.state
def InDetach (d : Detach) : Prop := Within InError d.error
def InEnd (e : End) : Prop := Within InError e.error
def InClose (c : Close) : Prop := Within InError c.error

def InProperties (p : Properties) : Prop := Within InId p.message_id ∨ Within InId p.correlation_id

/-- In a section. -/
def InSection : Section → Prop
  | .DeliveryAnnotations m => InFields m
  | .MessageAnnotations m => InFields m
  | .Footer m => InFields m
  | .Properties p => InProperties p
  | .ApplicationProperties m => InFields m
  | .AmqpSequence l => ∃ v ∈ l.items, HoldsUuid v
  | .AmqpValue v => HoldsUuid v
  | .Header _ => False
  | .Data _ => False

/-- In one of the sections of a message, those nested aside. -/
def InHead {AP : Type} (values : AP → List Variant) (m : MsgHead AP) : Prop :=
  Within InFields m.delivery_annotations ∨ Within InFields m.message_annotations ∨
  Within InProperties m.properties ∨
  Within (fun a => ∃ v ∈ values a, HoldsUuid v) m.application_properties ∨
  Within InFields m.footer ∨
  (∃ l ∈ m.sequence, ∃ v ∈ l.items, HoldsUuid v) ∨ Within HoldsUuid m.value

/-- In a message, or in one nested in it. -/
inductive InBody : TransferBody → Prop where
  | headIn {m : MsgHead StringVariantMap} {ms : List TransferBody}
      (h : InHead (fun a => a.entries.map (·.2)) m) : InBody (.MessageIn m ms)
  | headOut {m : MsgHead VecVariantMap} {ms : List TransferBody}
      (h : InHead (fun a => a.entries.map (·.2)) m) : InBody (.MessageOut m ms)
  | nestedIn {m : MsgHead StringVariantMap} {ms : List TransferBody} {b : TransferBody}
      (hb : b ∈ ms) (h : InBody b) : InBody (.MessageIn m ms)
  | nestedOut {m : MsgHead VecVariantMap} {ms : List TransferBody} {b : TransferBody}
      (hb : b ∈ ms) (h : InBody b) : InBody (.MessageOut m ms)

def InTransfer (t : Transfer) : Prop := Within InState t.state ∨ Within InBody t.body

/-- Somewhere in a performative. -/
def InFrame : Frame → Prop
  | .Open v => InOpen v
  | .Begin v => InBegin v
  | .Attach v => InAttach v
  | .Flow v => InFlow v
  | .Transfer v => InTransfer v
  | .Disposition v => InDisposition v
  | .Detach v => InDetach v
  | .End v => InEnd v
  | .Close v => InClose v
  | .Empty => False

end Amqp.Spec
