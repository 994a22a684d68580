import Verif.Protocol.WorkMessages
/-! The encoders of transfers and frames with a counter of calls; see
`Verif.Protocol.WorkBase`. -/
set_option autoImplicit false
namespace Amqp

/-- `encoded_size_transfer_inner`, `src/protocol/definitions.rs:2375-2396`;
`encode_transfer_inner`, `src/protocol/definitions.rs:2397-2435`.  (`len` of the body,
`src/protocol/mod.rs:219-223`, is its `encoded_size`, and counted as one with it.) -/
instance : EncodeC Transfer where
  measureC t := match t.body with
    | none => measureC t.toTransferPerf
    | some b => ⟨(measureC t.toTransferPerf).val + (measureC b).val,
        (measureC t.toTransferPerf).calls + (measureC b).calls⟩
  writeC t := match t.body with
    | none => writeC t.toTransferPerf
    | some b => ⟨(writeC t.toTransferPerf).val ++ (writeC b).val,
        (writeC t.toTransferPerf).calls + (writeC b).calls⟩

/-- `src/protocol/definitions.rs:100-129`. -/
instance : EncodeC Frame where
  measureC
    | .Open v => measureC v
    | .Begin v => measureC v
    | .Attach v => measureC v
    | .Flow v => measureC v
    | .Transfer v => measureC v
    | .Disposition v => measureC v
    | .Detach v => measureC v
    | .End v => measureC v
    | .Close v => measureC v
    | .Empty => ⟨0, 1⟩
  writeC
    | .Open v => writeC v
    | .Begin v => writeC v
    | .Attach v => writeC v
    | .Flow v => writeC v
    | .Transfer v => writeC v
    | .Disposition v => writeC v
    | .Detach v => writeC v
    | .End v => writeC v
    | .Close v => writeC v
    | .Empty => ⟨[], 1⟩

/-- What `encoded_size` leaves remembered: the sizes of the messages of a transfer,
`src/message/inmessage.rs:203-237`. -/
def Frame.touch : Frame → Frame
  | .Transfer t => .Transfer { t with body := t.body.map TransferBody.touch }
  | f => f

def AmqpFrame.touch (f : AmqpFrame) : AmqpFrame := { f with performative := f.performative.touch }

/-- `src/codec/encode.rs:720-733`. -/
instance : EncodeC AmqpFrame where
  measureC f := ⟨headerLen + (measureC f.performative).val, 1 + (measureC f.performative).calls⟩
  writeC f :=
    ⟨frameHeader (headerLen + (measureC f.performative).val) frameTypeAmqp f.channel_id ++
        (writeC f.performative.touch).val,
      1 + (1 + (measureC f.performative).calls) + (writeC f.performative.touch).calls⟩

/-- `src/codec/encode.rs:735-748`. -/
instance : EncodeC SaslFrame where
  measureC f := ⟨headerLen + (measureC f.body).val, 1 + (measureC f.body).calls⟩
  writeC f :=
    ⟨frameHeader (headerLen + (measureC f.body).val) frameTypeSasl 0 ++ (writeC f.body).val,
      1 + (1 + (measureC f.body).calls) + (writeC f.body).calls⟩

/-- The calls made by `AmqpCodec::encode`, `src/io.rs:83-98`, and the bytes appended. -/
def AmqpFrame.sendC (f : AmqpFrame) : Counted Bytes :=
  ⟨(writeC f.touch).val, (measureC f).calls + (writeC f.touch).calls⟩
def SaslFrame.sendC (f : SaslFrame) : Counted Bytes :=
  ⟨(writeC f).val, (measureC f).calls + (writeC f).calls⟩

end Amqp
