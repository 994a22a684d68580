import Verif.Protocol.Transfer
/-! Generated by `tools/gen_protocol.py`: `Frame` of
`src/protocol/definitions.rs`. -/
namespace Amqp

/-- `Frame`, `src/protocol/definitions.rs:10-21`. -/
inductive Frame where
  | Open (v : Open)
  | Begin (v : Begin)
  | Attach (v : Attach)
  | Flow (v : Flow)
  | Transfer (v : Transfer)
  | Disposition (v : Disposition)
  | Detach (v : Detach)
  | End (v : End)
  | Close (v : Close)
  | Empty

/-- The descriptor dispatch of `Frame`, `src/protocol/definitions.rs:38-99`. -/
def Frame.dispatch (env : Env) (d : Descriptor) : Dec Frame :=
  if d = .ulong 16 then Frame.Open <$> Open.decInner env else
  if d = .ulong 17 then Frame.Begin <$> Begin.decInner env else
  if d = .ulong 18 then Frame.Attach <$> Attach.decInner env else
  if d = .ulong 19 then Frame.Flow <$> Flow.decInner env else
  if d = .ulong 20 then Frame.Transfer <$> Transfer.decInner env else
  if d = .ulong 21 then Frame.Disposition <$> Disposition.decInner env else
  if d = .ulong 22 then Frame.Detach <$> Detach.decInner env else
  if d = .ulong 23 then Frame.End <$> End.decInner env else
  if d = .ulong 24 then Frame.Close <$> Close.decInner env else
  if d = .sym "amqp:open:list" then Frame.Open <$> Open.decInner env else
  if d = .sym "amqp:begin:list" then Frame.Begin <$> Begin.decInner env else
  if d = .sym "amqp:attach:list" then Frame.Attach <$> Attach.decInner env else
  if d = .sym "amqp:flow:list" then Frame.Flow <$> Flow.decInner env else
  if d = .sym "amqp:transfer:list" then Frame.Transfer <$> Transfer.decInner env else
  if d = .sym "amqp:disposition:list" then Frame.Disposition <$> Disposition.decInner env else
  if d = .sym "amqp:detach:list" then Frame.Detach <$> Detach.decInner env else
  if d = .sym "amqp:end:list" then Frame.End <$> End.decInner env else
  if d = .sym "amqp:close:list" then Frame.Close <$> Close.decInner env else
  Dec.fail (.invalidDescriptor d)

/-- `Frame::decode`, `src/protocol/definitions.rs:38-99`.  (`Frame` implements `Decode` itself.) -/
def Frame.decode (env : Env) : Dec Frame := fun input =>
  if input.isEmpty then .ok (input, .Empty)
  else (do
    let fmt ← formatCode
    validateCode fmt FC.described (Amqp.decode Descriptor env >>= Frame.dispatch env) : Dec Frame) input

/-- `src/protocol/definitions.rs:100-129`. -/
instance : Encode Frame where
  size
    | .Open v => size v
    | .Begin v => size v
    | .Attach v => size v
    | .Flow v => size v
    | .Transfer v => size v
    | .Disposition v => size v
    | .Detach v => size v
    | .End v => size v
    | .Close v => size v
    | .Empty => 0
  enc
    | .Open v => enc v
    | .Begin v => enc v
    | .Attach v => enc v
    | .Flow v => enc v
    | .Transfer v => enc v
    | .Disposition v => enc v
    | .Detach v => enc v
    | .End v => enc v
    | .Close v => enc v
    | .Empty => []

end Amqp
