import Verif.FramedWrite
/-!
# Programs that send frames

Specification vocabulary for C83; nothing here models code of the repository.
-/
set_option autoImplicit false
namespace Amqp

/-- What a program does with a sink. -/
inductive SinkOp (T : Type) where
  | send (item : T)
  | flush

/-- A program using a sink, until the writer fails: the sink, the items that were accepted, and
whether the last call was a flush that completed. -/
structure SinkRun (T : Type) where
  sink : Sink
  accepted : List T
  complete : Bool
  failed : Bool

/-- Operations one after the other. -/
def SinkRun.run {T : Type} [Encode T] [EncodeW T] (grow : Growth) :
    List (SinkOp T) → List Take → SinkRun T → Res CodecError (SinkRun T)
  | [], _, r => .ok r
  | .flush :: t, ws, r =>
    match r.sink.flush ws with
    | (s, _, .failed) => .ok ⟨s, r.accepted, false, true⟩
    | (s, ws, f) => SinkRun.run grow t ws ⟨s, r.accepted, f == .ready, false⟩
  | .send item :: t, ws, r =>
    match r.sink.send grow item ws with
    | .ok (s, _, .failed) => .ok ⟨s, r.accepted, false, true⟩
    | .ok (s, ws, .refused) => SinkRun.run grow t ws ⟨s, r.accepted, false, false⟩
    | .ok (s, ws, .accepted) => SinkRun.run grow t ws ⟨s, r.accepted ++ [item], false, false⟩
    | .err e => .err e
    | .panic p => .panic p

/-- The item of an operation. -/
def SinkOp.items {T : Type} : List (SinkOp T) → List T
  | [] => []
  | .send a :: t => a :: items t
  | .flush :: t => items t

/-- A program begins with an empty sink. -/
def SinkRun.start {T : Type} : SinkRun T := ⟨.new, [], true, false⟩

end Amqp
