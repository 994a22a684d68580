import Verif.Message
import Verif.Framing
import Verif.Equality
import Verif.Protocol.FrameEquality
import Verif.Protocol.Getters
/-!
# The repository's own unit tests, run on the model

Not proofs of properties: a check that the model is the program.  Each `#[test]` of the
repository is transcribed as a Boolean, true if none of its assertions fails on the
model, and evaluated by the kernel.  Floats are given by their bit patterns
(`1.234` is `0x3f9df3b6` and `0x3ff3be76c8b43958`), times by seconds and nanoseconds.
-/
set_option autoImplicit false
namespace Amqp.RepoTests
open Amqp

/-- `unwrap_value`, `src/codec/decode.rs:665-669`, followed by an assertion about the
value: the decode succeeded and the assertion holds. -/
def given {α : Type} (r : Res ParseError (Bytes × α)) (p : α → Bool) : Bool :=
  match r with
  | .ok (_, a) => p a
  | _ => false

/-- `assert_eq!($expected, unwrap_value($kind::decode(b1)))` after encoding `$test`,
`src/codec/decode.rs:574-585`. -/
def roundTrips {α : Type} [Encode α] [DecodeF α] [DecidableEq α] (test expected : α) : Bool :=
  given (decode α debugEnv (enc test)) fun v => decide (expected = v)

/-- The same for `Variant`, whose `==` is not identity. -/
def roundTripsV (test expected : Variant) : Bool :=
  given (decode Variant debugEnv (enc test)) fun v => expected.veq v

/-- `src/codec/lorem.txt`. -/
def lorem : RStr := .lit "Lorem ipsum dolor sit amet, consectetur adipiscing elit. Donec accumsan iaculis ipsum sed convallis. Phasellus consectetur justo et odio maximus, vel vehicula sapien venenatis. Nunc ac viverra risus. Pellentesque elementum, mauris et viverra ultricies, lacus erat varius nulla, eget maximus nisl sed."

/-- `Uuid::from_slice(&[4, 54, ..])`, `src/codec/decode.rs:614`; `Uuid::parse_str` of
`0436430c2b02624c2032570501212b57` is the same sixteen bytes. -/
def someUuid : Uuid := ⟨[4, 54, 67, 12, 43, 2, 98, 76, 32, 50, 87, 5, 1, 33, 43, 87], rfl⟩
def parsedUuid : Uuid := ⟨[0x04, 0x36, 0x43, 0x0c, 0x2b, 0x02, 0x62, 0x4c, 0x20, 0x32, 0x57, 0x05,
  0x01, 0x21, 0x2b, 0x57], rfl⟩

/-! ## `src/codec/decode.rs:587-663` -/

example : roundTrips (255 : UInt8) 255 := by decide +kernel
example : roundTrips (350 : UInt16) 350 := by decide +kernel
example : roundTrips (0 : UInt32) 0 := by decide +kernel
example : roundTrips (128 : UInt32) 128 := by decide +kernel
example : roundTrips (2147483647 : UInt32) 2147483647 := by decide +kernel
example : roundTrips (0 : UInt64) 0 := by decide +kernel
example : roundTrips (128 : UInt64) 128 := by decide +kernel
example : roundTrips (2147483649 : UInt64) 2147483649 := by decide +kernel
example : roundTrips (-128 : Int8) (-128) := by decide +kernel
example : roundTrips (-255 : Int16) (-255) := by decide +kernel
example : roundTrips (0 : Int32) 0 := by decide +kernel
example : roundTrips (-50000 : Int32) (-50000) := by decide +kernel
example : roundTrips (-128 : Int32) (-128) := by decide +kernel
example : roundTrips (0 : Int64) 0 := by decide +kernel
example : roundTrips (-2147483647 : Int64) (-2147483647) := by decide +kernel
example : roundTrips (-128 : Int64) (-128) := by decide +kernel
example : roundTrips (⟨0x3f9df3b6⟩ : F32) ⟨0x3f9df3b6⟩ := by decide +kernel
example : roundTrips (⟨0x3ff3be76c8b43958⟩ : F64) ⟨0x3ff3be76c8b43958⟩ := by decide +kernel
example : roundTrips '💯' '💯' := by decide +kernel
example : roundTrips someUuid parsedUuid := by decide +kernel
example : roundTrips (⟨[4, 5]⟩ : Binary) ⟨[4, 5]⟩ := by decide +kernel
example : roundTrips (⟨List.replicate 500 4⟩ : Binary) ⟨List.replicate 500 4⟩ := by decide +kernel
example : roundTrips (RStr.lit "Hello there") (.lit "Hello there") := by decide +kernel
example : roundTrips lorem lorem := by decide +kernel

example : roundTripsV (.ubyte 255) (.ubyte 255) := by decide +kernel
example : roundTripsV (.ushort 350) (.ushort 350) := by decide +kernel
example : roundTripsV (.uint 0) (.uint 0) := by decide +kernel
example : roundTripsV (.uint 128) (.uint 128) := by decide +kernel
example : roundTripsV (.uint 2147483647) (.uint 2147483647) := by decide +kernel
example : roundTripsV (.ulong 0) (.ulong 0) := by decide +kernel
example : roundTripsV (.ulong 128) (.ulong 128) := by decide +kernel
example : roundTripsV (.ulong 2147483649) (.ulong 2147483649) := by decide +kernel
example : roundTripsV (.byte (-128)) (.byte (-128)) := by decide +kernel
example : roundTripsV (.short (-255)) (.short (-255)) := by decide +kernel
example : roundTripsV (.int 0) (.int 0) := by decide +kernel
example : roundTripsV (.int (-50000)) (.int (-50000)) := by decide +kernel
example : roundTripsV (.int (-128)) (.int (-128)) := by decide +kernel
example : roundTripsV (.long 0) (.long 0) := by decide +kernel
example : roundTripsV (.long (-2147483647)) (.long (-2147483647)) := by decide +kernel
example : roundTripsV (.long (-128)) (.long (-128)) := by decide +kernel
example : roundTripsV (.float ⟨0x3f9df3b6⟩) (.float ⟨0x3f9df3b6⟩) := by decide +kernel
example : roundTripsV (.double ⟨0x3ff3be76c8b43958⟩) (.double ⟨0x3ff3be76c8b43958⟩) := by
  decide +kernel
example : roundTripsV (.char '💯') (.char '💯') := by decide +kernel
example : roundTripsV (.uuid someUuid) (.uuid parsedUuid) := by decide +kernel
example : roundTripsV (.binary ⟨[4, 5]⟩) (.binary ⟨[4, 5]⟩) := by decide +kernel
example : roundTripsV (.binary ⟨List.replicate 500 4⟩) (.binary ⟨List.replicate 500 4⟩) := by
  decide +kernel
example : roundTripsV (.string (.lit "Hello there")) (.string (.lit "Hello there")) := by
  decide +kernel
example : roundTripsV (.string lorem) (.string lorem) := by decide +kernel

/-- `test_bool_true`, `test_bool_false`: `src/codec/decode.rs:671-693`. -/
example : given (decode Bool debugEnv [0x41]) (· = true) ∧
    given (decode Bool debugEnv [0x56, 0x01]) (· = true) := by decide +kernel
example : given (decode Bool debugEnv [0x42]) (· = false) ∧
    given (decode Bool debugEnv [0x56, 0x00]) (· = false) := by decide +kernel

/-- `Utc.ymd(2011, 7, 26).and_hms_milli(18, 21, 3, 521)`, which the comment at
`src/codec/decode.rs:695-696` gives as 1311704463521 milliseconds. -/
def date2011 : DateTime := ⟨1311704463, 521000000, by decide⟩
/-- `Utc.ymd(1968, 7, 26).and_hms_milli(18, 21, 3, 521)`. -/
def date1968 : DateTime := ⟨-45207537, 521000000, by decide⟩

example : date2011.millis = 1311704463521 := by decide +kernel
/-- `test_timestamp`, `test_timestamp_pre_unix`: `src/codec/decode.rs:697-716`. -/
example : roundTrips date2011 date2011 := by decide +kernel
example : roundTrips date1968 date1968 := by decide +kernel

/-- `variant_null`, `variant_bool_true`, `variant_bool_false`:
`src/codec/decode.rs:718-748`. -/
example : roundTripsV .null .null := by decide +kernel
example : given (decode Variant debugEnv [0x41]) (Variant.veq (.boolean true)) ∧
    given (decode Variant debugEnv [0x56, 0x01]) (Variant.veq (.boolean true)) := by decide +kernel
example : given (decode Variant debugEnv [0x42]) (Variant.veq (.boolean false)) ∧
    given (decode Variant debugEnv [0x56, 0x00]) (Variant.veq (.boolean false)) := by
  decide +kernel

/-- `variant_timestamp`, `variant_timestamp_pre_unix`: `src/codec/decode.rs:750-777`. -/
example : roundTripsV (.timestamp date2011) (.timestamp date2011) := by decide +kernel
example : roundTripsV (.timestamp date1968) (.timestamp date1968) := by decide +kernel

/-- `option_i8`, `option_string`: `src/codec/decode.rs:779-808`. -/
example : roundTrips (some (42 : Int8)) (some 42) ∧ roundTrips (none : Option Int8) none := by
  decide +kernel
example : roundTrips (some (RStr.lit "hello")) (some (.lit "hello")) ∧
    roundTrips (none : Option RStr) none := by decide +kernel

/-! ## `src/codec/mod.rs:105-150` -/

/-- The bytes of `test_sasl_mechanisms`, `src/codec/mod.rs:116`. -/
def mechanisms : Bytes := [2, 1, 0, 0, 0, 83, 64, 192, 50, 1, 224, 47, 4, 179,
  0, 0, 0, 7, 77, 83, 83, 66, 67, 66, 83, 0, 0, 0, 5, 80, 76, 65, 73, 78,
  0, 0, 0, 9, 65, 78, 79, 78, 89, 77, 79, 85, 83, 0, 0, 0, 8, 69, 88, 84, 69, 82, 78, 65, 76]

/-- `test_sasl_mechanisms`, `src/codec/mod.rs:114-133`. -/
example : (match SaslFrame.decode debugEnv mechanisms with
    | .ok (rest, frame) =>
      rest.isEmpty && (match frame.body with | .SaslMechanisms _ => true | _ => false) &&
        ((enc frame).drop 4 == mechanisms)
    | _ => false) = true := by decide +kernel

/-- The bytes of `test_disposition`, `src/codec/mod.rs:137`. -/
def disposition : Bytes :=
  [2, 0, 0, 0, 0, 83, 21, 192, 12, 6, 65, 67, 64, 65, 0, 83, 36, 192, 1, 0, 66]

/-- `test_disposition`, `src/codec/mod.rs:135-149`. -/
example : (match AmqpFrame.decode debugEnv disposition with
    | .ok (rest, frame) =>
      rest.isEmpty && (frame.performative.name == "Disposition") &&
        ((enc frame).drop 4 == disposition)
    | _ => false) = true := by decide +kernel

/-! ## `src/message/inmessage.rs:278-377` and `src/message/outmessage.rs:272-370`

The messages are encoded after `encoded_size` has been called on them, which the tests do
to reserve the buffer. -/

/-- `props.message_id = Some(n.into())`. -/
def withId (n : UInt64) : Properties → Properties := fun p => { p with message_id := some (.Ulong n) }
/-- The header of `test_header`. -/
def hdr : Header :=
  { durable := false, priority := 1, ttl := none, first_acquirer := false, delivery_count := 1 }
/-- `b"test data"`. -/
def testData : Binary := ⟨[116, 101, 115, 116, 32, 100, 97, 116, 97]⟩

section
variable {AP : Type} [Encode AP] (dec : Dec (Message AP))

/-- `msg.encode(&mut buf)` after `msg.encoded_size()`, then `decode(&buf)?.1`. -/
def resent (m : Message AP) (p : Message AP → Bool) : Bool := given (dec (enc m.touch)) p

/-- `src/message/inmessage.rs:288-299`, `src/message/outmessage.rs:282-293`. -/
def test_properties : Bool :=
  resent dec (Message.empty.setProperties (withId 1)) fun m =>
    m.properties.any fun props => req props.message_id (some (.Ulong 1))

/-- `src/message/inmessage.rs:314-331`, `src/message/outmessage.rs:309-326`. -/
def test_header : Bool :=
  resent dec (Message.empty.setHeader hdr) fun m => m.header.any fun h => req h hdr

/-- `src/message/inmessage.rs:333-344`, `src/message/outmessage.rs:328-339`. -/
def test_data : Bool :=
  resent dec (Message.empty.setBody fun body => body.setData testData) fun m =>
    m.body.first.any fun d => req d testData

/-- `src/message/inmessage.rs:346-355`, `src/message/outmessage.rs:341-350`. -/
def test_data_empty : Bool :=
  resent dec Message.empty fun m => m.body.first.any fun d => req d ⟨[]⟩

/-- `src/message/inmessage.rs:357-376`, `src/message/outmessage.rs:352-371`. -/
def test_messages (wrap : Message AP → TransferBody) : Bool :=
  let msg1 : Message AP := Message.empty.setProperties (withId 1)
  let msg2 : Message AP := Message.empty.setProperties (withId 2)
  resent dec (Message.empty.setBody fun body =>
      { body with messages := body.messages ++ [wrap msg1] ++ [wrap msg2] }) fun msg3 =>
    (msg3.body.first.any fun d => given (dec d.data) fun msg4 =>
      req msg1.properties msg4.properties) &&
    (msg3.body.data[1]?.any fun d => given (dec d.data) fun msg5 =>
      req msg2.properties msg5.properties)
end

example : test_properties (InMessage.decode debugEnv) := by decide +kernel
example : test_header (InMessage.decode debugEnv) := by decide +kernel
example : test_data (InMessage.decode debugEnv) := by decide +kernel
example : test_data_empty (InMessage.decode debugEnv) := by decide +kernel
example : test_messages (InMessage.decode debugEnv) Message.toIn := by decide +kernel

example : test_properties (OutMessage.decode debugEnv HMap.entries) := by decide +kernel
example : test_header (OutMessage.decode debugEnv HMap.entries) := by decide +kernel
example : test_data (OutMessage.decode debugEnv HMap.entries) := by decide +kernel
example : test_data_empty (OutMessage.decode debugEnv HMap.entries) := by decide +kernel
example : test_messages (OutMessage.decode debugEnv HMap.entries) Message.toOut := by
  decide +kernel

/-- `test_app_properties`, `src/message/inmessage.rs:301-312`; `1` is an `i32`. -/
example : resent (InMessage.decode debugEnv)
    (Message.empty.setAppPropertyIn (.lit "test") (.int 1)) fun m =>
      (m.appProperty (.lit "test")).any (Variant.veq · (.int 1)) := by decide +kernel
/-- `test_app_properties`, `src/message/outmessage.rs:295-307`. -/
example : resent (OutMessage.decode debugEnv HMap.entries)
    (Message.empty.setAppPropertyOut (.lit "test") (.int 1)) fun m =>
      m.application_properties.any fun props => props.entries[0]?.any fun e =>
        (e.1 == .lit "test") && e.2.veq (.int 1) := by decide +kernel

/-! ## `src/types/variant.rs:167-199` -/

/-- `b"hello"`, `b"world"`. -/
def hello : Binary := ⟨[104, 101, 108, 108, 111]⟩
def world : Binary := ⟨[119, 111, 114, 108, 100]⟩

/-- `bytes_eq`, `src/types/variant.rs:171-179`. -/
example : (Variant.binary hello).veq (.binary hello) ∧
    !(Variant.binary hello).veq (.binary world) := by decide +kernel
/-- `string_eq`, `src/types/variant.rs:181-188`. -/
example : (Variant.string (.lit "hello")).veq (.string (.lit "hello")) ∧
    !(Variant.string (.lit "hello")).veq (.string (.lit "world!")) := by decide +kernel
/-- `symbol_eq`, `src/types/variant.rs:190-197`. -/
example : (Variant.symbol ⟨.lit "hello"⟩).veq (.symbol ⟨.lit "hello"⟩) ∧
    !(Variant.symbol ⟨.lit "hello"⟩).veq (.symbol ⟨.lit "world!"⟩) := by decide +kernel

end Amqp.RepoTests
