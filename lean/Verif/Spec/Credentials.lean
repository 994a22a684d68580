import Verif.Framing
/-!
# What is secret in SASL frames

For C90.
-/
set_option autoImplicit false
namespace Amqp

/-- The credentials in a SASL frame: what the client answers to the server. -/
def SaslFrameBody.secret : SaslFrameBody → Option Bytes
  | .SaslInit v => v.initial_response.map Binary.data
  | .SaslResponse v => some v.response.data
  | _ => none

/-- The same frame with other credentials. -/
def SaslFrameBody.withSecret (other : Bytes) : SaslFrameBody → SaslFrameBody
  | .SaslInit v => .SaslInit { v with initial_response := v.initial_response.map fun _ => ⟨other⟩ }
  | .SaslResponse _ => .SaslResponse ⟨⟨other⟩⟩
  | b => b

/-- Passwords as they are typed: visible characters of ASCII and spaces, except quotes and backslashes. -/
def Typed (s : RStr) : Prop := ∀ c ∈ s.bytes, 0x20 ≤ c.toNat ∧ c.toNat < 0x7f ∧ c ≠ 0x22 ∧ c ≠ 0x5c

/-- The text of the mechanism has no double quotes. -/
def SaslFrameBody.Named : SaslFrameBody → Prop
  | .SaslInit v => 0x22 ∉ v.mechanism.str.bytes
  | _ => True

end Amqp
