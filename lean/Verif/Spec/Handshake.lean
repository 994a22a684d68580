import Verif.Spec.Frames
/-!
# Opening a connection

AMQP 1.0 part 2 (2.2) and part 5 (5.3): a peer reads a protocol header, perhaps
SASL frames and another protocol header, and then AMQP frames, all from one
stream of bytes.  It uses one codec after the other on the same buffer.  Nothing
here models code of the repository, except that each call is a call of one of
its codecs.
-/
set_option autoImplicit false
namespace Amqp

/-- The codec in use: `ProtocolIdCodec`, `AmqpCodec<SaslFrame>` or
`AmqpCodec<AmqpFrame>`. -/
inductive Stage where
  | header | sasl | amqp
deriving DecidableEq

/-- What the codecs return. -/
inductive Incoming where
  | header (p : ProtocolId)
  | sasl (f : SaslFrame)
  | amqp (f : AmqpFrame)

/-- The codec an item belongs to. -/
def Incoming.stage : Incoming → Stage
  | .header _ => .header
  | .sasl _ => .sasl
  | .amqp _ => .amqp

/-- The errors of the codecs. -/
inductive ConnError where
  | header (e : ProtocolIdError)
  | frame (e : CodecError)
deriving DecidableEq

/-- An answer in other types. -/
def Answer.map {ε ε' T T' : Type} (f : ε → ε') (g : T → T') : Answer ε T → Answer ε' T'
  | .none => .none
  | .some a => .some (g a)
  | .err e => .err (f e)
  | .panic p => .panic p

/-- One call of `decode` of the codec in use.  `ProtocolIdCodec` has no state. -/
def Stage.call (env : Env) (stage : Stage) (st : DecodeState) (src : Bytes) :
    Call ConnError Incoming :=
  match stage with
  | .header => let r := protocolIdDecode src; ⟨st, r.1, r.2.map .header .header⟩
  | .sasl => let r := codecDecode env (SaslFrame.decode env) st src
    ⟨r.state, r.src, r.answer.map .frame .sasl⟩
  | .amqp => let r := codecDecode env (AmqpFrame.decode env) st src
    ⟨r.state, r.src, r.answer.map .frame .amqp⟩

/-- A connection: the items received, the state of the codec in use, the buffer
that all codecs share, and the last answer. -/
structure Conn where
  items : List Incoming
  call : Call ConnError Incoming

/-- Nothing has arrived. -/
def Conn.start : Conn := ⟨[], ⟨.frameHeader, [], .none⟩⟩

/-- Has a codec failed? -/
def Conn.failed (c : Conn) : Prop :=
  match c.call.answer with
  | .err _ => True
  | .panic _ => True
  | _ => False

/-- One event.  Which codec is used depends, by `plan`, on the items received so
far; when it changes, a new codec takes over the buffer. -/
def Conn.step (env : Env) (plan : List Incoming → Stage) (c : Conn) : Event → Conn
  | .arrive b => ⟨c.items, ⟨c.call.state, c.call.src ++ b, c.call.answer⟩⟩
  | .poll =>
    match c.call.answer with
    | .err _ => c
    | .panic _ => c
    | _ =>
      let r := (plan c.items).call env c.call.state c.call.src
      match r.answer with
      | .some a =>
        let items := c.items ++ [a]
        ⟨items, ⟨if plan items = plan c.items then r.state else .frameHeader, r.src, r.answer⟩⟩
      | _ => ⟨c.items, r⟩

/-- Any sequence of events. -/
def Conn.run (env : Env) (plan : List Incoming → Stage) (c : Conn) (es : List Event) : Conn :=
  es.foldl (Conn.step env plan) c

/-- What the other side does: write the items one after the other, each with its
codec, into one buffer. -/
def writeAll (slack : Growth) : List Incoming → Buf → Res ConnError Buf
  | [], dst => .ok dst
  | .header p :: t, dst =>
    match protocolIdEncode slack p dst with
    | .ok d => writeAll slack t d
    | .err e => .err (.header e)
    | .panic e => .panic e
  | .sasl f :: t, dst =>
    match codecEncode slack f dst with
    | .ok d => writeAll slack t d
    | .err e => .err (.frame e)
    | .panic e => .panic e
  | .amqp f :: t, dst =>
    match codecEncode slack f dst with
    | .ok d => writeAll slack t d
    | .err e => .err (.frame e)
    | .panic e => .panic e

/-- Items that arrive as they were sent (see C29): frames shorter than 2^32 bytes
of round-tripping content, whose payload, if any, is not empty. -/
def Incoming.Faithful (env : Env) : Incoming → Prop
  | .header _ => True
  | .sasl f => RoundTrips env f.body ∧ (enc f).length < 2 ^ 32
  | .amqp f => f.performative.ContentRoundTrips env ∧ f.performative.PlainPayload ∧
      (enc f).length < 2 ^ 32

/-- The items are sent when the receiver, by its plan, expects their kind. -/
def FollowsPlan (plan : List Incoming → Stage) (sent : List Incoming) : Prop :=
  ∀ before a after, sent = before ++ a :: after → plan before = a.stage

/-- Is it the outcome of SASL authentication? -/
def Incoming.isOutcome : Incoming → Bool
  | .sasl f => (match f.body with | .SaslOutcome _ => true | _ => false)
  | _ => false

/-- After the first header: SASL frames up to the outcome, a header, AMQP frames. -/
def saslPlanRest : List Incoming → Stage
  | [] => .sasl
  | a :: rest =>
    if a.isOutcome then (if rest.isEmpty then .header else .amqp) else saslPlanRest rest

/-- The plan of a peer that uses SASL as AMQP 1.0 says. -/
def saslPlan : List Incoming → Stage
  | [] => .header
  | _ :: rest => saslPlanRest rest

end Amqp
