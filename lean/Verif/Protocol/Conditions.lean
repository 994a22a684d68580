import Verif.Protocol.Enums
/-!
# `ErrorCondition` and `DistributionMode`, `src/protocol/mod.rs:99-185`
-/
namespace Amqp

/-- `ErrorCondition`, `src/protocol/mod.rs:99-106`. -/
inductive ErrorCondition where
  | AmqpError (v : AmqpError)
  | ConnectionError (v : ConnectionError)
  | SessionError (v : SessionError)
  | LinkError (v : LinkError)
  | Custom (v : Symbol)
deriving DecidableEq

/-- The classification of a decoded symbol, `src/protocol/mod.rs:112-124`. -/
def ErrorCondition.ofSymbol (result : Symbol) : ErrorCondition :=
  match AmqpError.tryFrom result with
  | .ok r => .AmqpError r
  | _ => match ConnectionError.tryFrom result with
    | .ok r => .ConnectionError r
    | _ => match SessionError.tryFrom result with
      | .ok r => .SessionError r
      | _ => match LinkError.tryFrom result with
        | .ok r => .LinkError r
        | _ => .Custom result

/-- `src/protocol/mod.rs:108-126`. -/
instance : DecodeF ErrorCondition where
  decF env fmt := do
    let result ← decF env fmt
    pure (ErrorCondition.ofSymbol result)

/-- `src/protocol/mod.rs:128-148`. -/
instance : Encode ErrorCondition where
  size
    | .AmqpError v => size v
    | .ConnectionError v => size v
    | .SessionError v => size v
    | .LinkError v => size v
    | .Custom v => size v
  enc
    | .AmqpError v => enc v
    | .ConnectionError v => enc v
    | .SessionError v => enc v
    | .LinkError v => enc v
    | .Custom v => enc v

/-- `DistributionMode`, `src/protocol/mod.rs:150-155`. -/
inductive DistributionMode where
  | Move
  | Copy
  | Custom (v : Symbol)
deriving DecidableEq

/-- The classification in `src/protocol/mod.rs:160-164`. -/
def DistributionMode.ofSymbol (result : Symbol) : DistributionMode :=
  if result.str = .lit "move" then .Move
  else if result.str = .lit "copy" then .Copy
  else .Custom result

/-- `src/protocol/mod.rs:157-167`. -/
instance : DecodeF DistributionMode where
  decF env fmt := do
    let result ← decF env fmt
    pure (DistributionMode.ofSymbol result)

/-- `src/protocol/mod.rs:169-185`. -/
instance : Encode DistributionMode where
  size
    | .Move => 6
    | .Copy => 6
    | .Custom v => size v
  enc
    | .Move => enc (Symbol.mk (.lit "move"))
    | .Copy => enc (Symbol.mk (.lit "copy"))
    | .Custom v => enc v

end Amqp
