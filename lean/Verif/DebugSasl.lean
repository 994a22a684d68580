import Verif.Debug
import Verif.StrRepr
import Verif.Framing
/-!
# The `Debug` of SASL frames

Derived throughout; what it is of `Bytes` is up to the crate `bytes` (0.4, `src/debug.rs`).
-/
set_option autoImplicit false
namespace Amqp

/-- A byte within the `Debug` of `Bytes` (`bytes` 0.4, `BsDebug`): as in a byte string literal. -/
def escapeByte (c : UInt8) : Bytes :=
  if c = 0x0a then txt "\\n" else
  if c = 0x0d then txt "\\r" else
  if c = 0x09 then txt "\\t" else
  if c = 0x5c ∨ c = 0x22 then txt "\\" ++ [c] else
  if c = 0x00 then txt "\\0" else
  if 0x20 ≤ c.toNat ∧ c.toNat < 0x7f then [c] else
  txt "\\x" ++ [hexDigit (c.toNat / 16), hexDigit (c.toNat % 16)]

/-- `Debug for Bytes` (`bytes` 0.4, `BsDebug`). -/
def Binary.debug (b : Binary) : Bytes := txt "b\"" ++ b.data.flatMap escapeByte ++ txt "\""

/-- `derive(Debug) for Symbol`, `src/types/symbol.rs:8`, of a symbol the program may have made
itself: `static s` says that the text is `Str::Static`. -/
def Symbol.debugAs (static : RStr → Bool) (s : Symbol) : Bytes :=
  txt "Symbol(" ++ (if static s.str then StrRepr.Static s.str else StrRepr.ByteStr s.str).debug ++ txt ")"

/-- The items of an array, separated by commas. -/
def debugSymbols (static : RStr → Bool) : List Symbol → Bytes
  | [] => []
  | [s] => s.debugAs static
  | s :: t => s.debugAs static ++ txt ", " ++ debugSymbols static t

/-- `derive(Debug) for SaslMechanisms`, `src/protocol/definitions.rs:2900-2903`, and for
`Multiple`, `src/types/mod.rs:19`. -/
def SaslMechanisms.debug (static : RStr → Bool) (v : SaslMechanisms) : Bytes :=
  txt "SaslMechanisms { sasl_server_mechanisms: Multiple([" ++
    debugSymbols static v.sasl_server_mechanisms.items ++ txt "]) }"

/-- `derive(Debug) for SaslInit`, `src/protocol/definitions.rs:2985-2990`. -/
def SaslInit.debug (T : Texts) (static : RStr → Bool) (v : SaslInit) : Bytes :=
  txt "SaslInit { mechanism: " ++ v.mechanism.debugAs static ++ txt ", initial_response: " ++
    debugOption Binary.debug v.initial_response ++ txt ", hostname: " ++
    debugOption (RStr.escaped T) v.hostname ++ txt " }"

/-- `derive(Debug) for SaslChallenge`, `src/protocol/definitions.rs:3104-3107`. -/
def SaslChallenge.debug (v : SaslChallenge) : Bytes :=
  txt "SaslChallenge { challenge: " ++ v.challenge.debug ++ txt " }"

/-- `derive(Debug) for SaslResponse`, `src/protocol/definitions.rs:3182-3185`. -/
def SaslResponse.debug (v : SaslResponse) : Bytes :=
  txt "SaslResponse { response: " ++ v.response.debug ++ txt " }"

/-- `derive(Debug) for SaslCode`, `src/protocol/definitions.rs:802-809`. -/
def SaslCode.debug : SaslCode → Bytes
  | .Ok => txt "Ok"
  | .Auth => txt "Auth"
  | .Sys => txt "Sys"
  | .SysPerm => txt "SysPerm"
  | .SysTemp => txt "SysTemp"

/-- `derive(Debug) for SaslOutcome`, `src/protocol/definitions.rs:3260-3264`. -/
def SaslOutcome.debug (v : SaslOutcome) : Bytes :=
  txt "SaslOutcome { code: " ++ v.code.debug ++ txt ", additional_data: " ++
    debugOption Binary.debug v.additional_data ++ txt " }"

/-- `derive(Debug) for SaslFrameBody`, `src/protocol/definitions.rs:197-204`. -/
def SaslFrameBody.debug (T : Texts) (static : RStr → Bool) : SaslFrameBody → Bytes
  | .SaslMechanisms v => txt "SaslMechanisms(" ++ v.debug static ++ txt ")"
  | .SaslInit v => txt "SaslInit(" ++ v.debug T static ++ txt ")"
  | .SaslChallenge v => txt "SaslChallenge(" ++ v.debug ++ txt ")"
  | .SaslResponse v => txt "SaslResponse(" ++ v.debug ++ txt ")"
  | .SaslOutcome v => txt "SaslOutcome(" ++ v.debug ++ txt ")"

/-- `derive(Debug) for SaslFrame`, `src/framing.rs:41-44`. -/
def SaslFrame.debug (T : Texts) (static : RStr → Bool) (f : SaslFrame) : Bytes :=
  txt "SaslFrame { body: " ++ f.body.debug T static ++ txt " }"

end Amqp
