{"id": "C01", "title": "Fixed-type round trip", "statement": "Encoding a bool, u8, u16, u32, u64, i8, i16, i32, i64, f32, f64, char or Uuid and decoding the produced bytes followed by any further bytes yields exactly the value that was encoded (bit-for-bit for floats) and returns exactly those further bytes as the unread remainder, in debug and in release builds.", "quantifier": "every value of each fixed type, every trailing byte string, both build modes", "why_tests_cant": "u64/i64/f64/Uuid have 2^64..2^128 values and the width switches (0, 255/256, -128/127) interact with sign extension; tests sample a handful of values.", "anchors": ["src/codec/encode.rs: impl Encode/ArrayEncode for bool,u8,u16,u32,u64,i8,i16,i32,i64,f32,f64,char,Uuid", "src/codec/decode.rs: impl DecodeFormatted for the same types"]}
{"id": "C02", "title": "Binary, string and symbol round trip", "statement": "Encoding a Bytes, ByteStr/Str or Symbol shorter than 2^32 bytes and decoding the produced bytes followed by any further bytes yields the same content and leaves exactly the further bytes.", "quantifier": "every byte string / UTF-8 string with fewer than 2^32 bytes, every trailing byte string", "why_tests_cant": "Unboundedly many contents and lengths; the 8-bit/32-bit length switch is at 255/256.", "anchors": ["src/codec/encode.rs: impl Encode for Bytes, ByteStr, Str, Symbol, StaticSymbol", "src/codec/decode.rs: read_bytes_u8, read_bytes_u32, impl DecodeFormatted for Bytes, ByteStr, Str, Symbol"]}
{"id": "C03", "title": "encoded_size is exactly the number of bytes encode writes", "statement": "For every value of every Encode type other than InMessage/OutMessage (and what contains them), encoded_size() equals the number of bytes encode() appends. AmqpCodec relies on this to size the frame header and the output buffer.", "quantifier": "every value of every scalar, string, collection, variant, described list, performative and frame type", "why_tests_cant": "Quantifies over all values and all nesting depths; each compound header switches width at a size threshold.", "anchors": ["src/codec/encode.rs: every encoded_size/encode pair", "src/protocol/definitions.rs: encoded_size_*_inner / encode_*_inner"]}
{"id": "C04", "title": "Integers, booleans, binaries and strings use a shortest encoding", "statement": "No byte string shorter than encode(v) decodes to v, for v of type bool, u8, u16, u32, u64, i8, i16, i32, i64, Bytes, ByteStr or Symbol.", "quantifier": "every value v and every byte string", "why_tests_cant": "Ranges over all competing encodings of every value.", "anchors": ["src/codec/encode.rs: impl Encode for u32,u64,i32,i64,Bytes,ByteStr,Symbol", "src/codec/decode.rs: impl DecodeFormatted for the same types"]}
{"id": "C05", "title": "Decoding reads a prefix and ignores what follows it", "statement": "Whenever T::decode(input) succeeds, for T any scalar, string, collection, Variant, Descriptor or described list type except Transfer, the returned remainder is a suffix of input, at least one byte was consumed, and decoding the consumed bytes followed by any other continuation yields the same value and exactly that continuation.", "quantifier": "every input on which decode succeeds and every continuation, every nesting depth", "why_tests_cant": "All inputs and all continuations; needs induction on nesting.", "anchors": ["src/codec/mod.rs: Decode", "src/codec/decode.rs: all DecodeFormatted impls", "src/protocol/definitions.rs: decode_*_inner"]}
{"id": "C06", "title": "A truncated encoding is never accepted", "statement": "No proper prefix of the encoding of a value decodes successfully as that type: a receiver that has only part of a value never mistakes it for a whole one. What does not say where it ends is excepted, and there exactly this is accepted: a transfer that has lost bytes of its payload and nothing else; a frame of which only the header is left, as an empty frame; a message cut between sections, as the message of the sections left.", "quantifier": "every encodable value and every proper prefix of its encoding", "why_tests_cant": "Every cut point of every value.", "anchors": ["src/codec/mod.rs: decode_check_len", "src/codec/decode.rs: all DecodeFormatted impls"]}
{"id": "C07", "title": "Encodings are unambiguous", "statement": "If the encodings of two round-trippable values of the same type, each followed by arbitrary bytes, are the same byte string, then the values are equal and so are the following bytes (encodings are injective and prefix-free), so a concatenation of encodings decodes back to exactly the sequence of values.", "quantifier": "every pair of values and continuations; every sequence of values", "why_tests_cant": "Ranges over all pairs/sequences of values.", "anchors": ["src/codec/encode.rs", "src/codec/decode.rs"]}
{"id": "C08", "title": "Fixed-type, string and binary decoders never panic", "statement": "Decoding bool, integers, floats, char, Uuid, Bytes, ByteStr, Str, Symbol, Descriptor and all enumeration types returns Ok or Err, never panics, on every input and for every format code, in debug and release builds.", "quantifier": "every byte string, every format code, both build modes", "why_tests_cant": "All inputs; panics hide in slice indexing and arithmetic on malformed input.", "anchors": ["src/codec/decode.rs: read_u8, read_bytes_u8, read_bytes_u32, be_read!, impl DecodeFormatted for scalars"]}
{"id": "C09", "title": "Decoding untrusted input never panics", "statement": "Decoding a Variant, map, array, described list, frame or message returns Ok or Err on every input and never panics or overflows the stack. (The code violates this: the violations are proved with witnesses, and panic-freedom is proved for an explicit class of inputs.)", "quantifier": "every byte string, both build modes", "why_tests_cant": "All inputs, including adversarial ones with inconsistent compound sizes.", "anchors": ["src/codec/decode.rs: decode_compound8, decode_compound32, impl DecodeFormatted for HashMap, Vec, DateTime<Utc>", "src/types/variant.rs: impl Hash for VariantMap"]}
{"id": "C10", "title": "Text decoders accept exactly well-formed UTF-8", "statement": "A string or symbol is decoded successfully iff its length prefix is satisfied by the input and the selected bytes are the UTF-8 encoding of some sequence of Unicode scalar values; the decoded text is those bytes; ill-formed bytes give a Utf8Error.", "quantifier": "every input", "why_tests_cant": "All byte strings, including overlong forms, surrogates and truncated sequences.", "anchors": ["src/codec/decode.rs: impl DecodeFormatted for ByteStr, Str, Symbol; ArrayDecode for Symbol"]}
{"id": "C11", "title": "char decoding accepts exactly Unicode scalar values", "statement": "Decoding a char succeeds exactly for the 4-byte big-endian code points in 0..=D7FF and E000..=10FFFF, yields that code point, and reports InvalidChar(code) otherwise.", "quantifier": "every 4-byte payload and remainder", "why_tests_cant": "2^32 payloads.", "anchors": ["src/codec/decode.rs: impl DecodeFormatted for char"]}
{"id": "C12", "title": "Timestamps keep their instant", "statement": "Decoding a timestamp of m milliseconds yields the DateTime that denotes the instant m milliseconds after the Unix epoch, and encoding it again yields m. (Violated for -1000 < m < 0; for negative multiples of 1000 the DateTime is a leap-second representation not equal to the original; out-of-range m panics.)", "quantifier": "every i64 millisecond value; every DateTime value", "why_tests_cant": "2^64 values; pre-1970 values use sign-dependent rounding.", "anchors": ["src/codec/decode.rs: datetime_from_millis, impl DecodeFormatted for DateTime<Utc>", "src/codec/encode.rs: impl ArrayEncode for DateTime<Utc>"]}
{"id": "C13", "title": "Descriptors round-trip", "statement": "A Descriptor written after the described-format marker decodes back to itself. (Violated for Ulong(0), which is written with a code the descriptor decoder rejects.)", "quantifier": "every u64 and every symbol shorter than 2^32 bytes", "why_tests_cant": "Unbounded domain.", "anchors": ["src/codec/encode.rs: impl Encode for Descriptor", "src/codec/decode.rs: impl DecodeFormatted for Descriptor"]}
{"id": "C14", "title": "Variants round-trip", "statement": "Encoding any Variant and decoding the bytes followed by anything yields an equal Variant and exactly what followed. (Violated for values containing List, StaticSymbol, Ulong(0) descriptors, sub-millisecond or some pre-1970 timestamps; proved for all others, at every nesting depth.)", "quantifier": "every Variant value of any nesting depth and size, every continuation, both build modes", "why_tests_cant": "Recursive values of unbounded depth and width.", "anchors": ["src/codec/encode.rs: impl Encode for Variant", "src/codec/decode.rs: impl DecodeFormatted for Variant"]}
{"id": "C15", "title": "Lists are written in a form the decoder accepts", "statement": "A Variant::List (or an amqp-sequence body section) that was encoded can be decoded again. (Violated: every list is written with an array format code, so decoding fails with InvalidFormatCode for every list.)", "quantifier": "every list of variants, every continuation", "why_tests_cant": "All lists.", "anchors": ["src/codec/encode.rs: impl Encode for List", "src/codec/decode.rs: impl DecodeFormatted for List, Variant"]}
{"id": "C16", "title": "Maps round-trip as maps whatever the iteration order", "statement": "Encoding a HashMap (any keys and values that round-trip, less than 2^32 bytes in all) in any iteration order and decoding the result yields a map with exactly the same key to value association; encoded_size does not depend on iteration order.", "quantifier": "every finite map, every iteration order of its entries, every continuation", "why_tests_cant": "All maps and all hash-order permutations.", "anchors": ["src/codec/encode.rs: impl Encode for HashMap, map_encoded_size", "src/codec/decode.rs: impl DecodeFormatted for HashMap"]}
{"id": "C17", "title": "Duplicate map keys: last value wins, keys stay unique", "statement": "Decoding a map whose entries repeat a key keeps one entry for that key with the value of its last occurrence; a decoded map never holds two equal keys.", "quantifier": "every sequence of encoded entries", "why_tests_cant": "All entry sequences.", "anchors": ["src/codec/decode.rs: impl DecodeFormatted for HashMap"]}
{"id": "C18", "title": "Arrays and multiple-valued fields round-trip", "statement": "A Vec<T> / Multiple<T> of array-encodable items encodes so that decoding yields the same items in the same order (single items without array framing). (Violated in builds with overflow checks when the item bytes total exactly 254: the size byte wraps to 0 and the decoder panics.)", "quantifier": "every sequence of items, every continuation, both build modes", "why_tests_cant": "All sequences; the failure is at one exact size.", "anchors": ["src/codec/encode.rs: impl Encode for Vec<T>, Multiple<T>, array_encoded_size", "src/codec/decode.rs: impl DecodeFormatted for Vec<T>, Multiple<T>, decode_array_header"]}
{"id": "C19", "title": "Enumerations round-trip and reject unknown values", "statement": "Role, SenderSettleMode, ReceiverSettleMode, SaslCode, TerminusDurability, TerminusExpiryPolicy, AmqpError, ConnectionError, SessionError and LinkError decode back to the encoded member; any other underlying value is rejected with UnknownEnumOption, never mapped to a member.", "quantifier": "every member; every underlying u8/u32/symbol value", "why_tests_cant": "All u32 values and all symbols.", "anchors": ["src/protocol/definitions.rs: enum impls try_from/decode_with_format/encode"]}
{"id": "C20", "title": "Error conditions and distribution modes decode canonically", "statement": "An ErrorCondition or DistributionMode decodes to the standard member exactly when the symbol is a standard one and to Custom(symbol) otherwise; standard members and Custom symbols (shorter than 2^32 bytes) that are not standard names round-trip.", "quantifier": "every symbol", "why_tests_cant": "All symbols.", "anchors": ["src/protocol/mod.rs: impl DecodeFormatted/Encode for ErrorCondition, DistributionMode"]}
{"id": "C21", "title": "Performatives round-trip", "statement": "Open, Begin, Attach, Flow, Disposition, Detach, End, Close, the SASL bodies, Error, Source, Target, the delivery states, Header and Properties decode to the value that was encoded, whatever combination of optional fields is present, provided contained dynamic values, maps, arrays, timestamps and conditions round-trip and sizes fit in 32 bits.", "quantifier": "every value of each type, every continuation, both build modes", "why_tests_cant": "2^k presence combinations times unbounded field contents.", "anchors": ["src/protocol/definitions.rs: decode_*_inner, encode_*_inner, Frame, SaslFrameBody, DeliveryState, Outcome, Section"]}
{"id": "C22", "title": "Omitted trailing fields take their defaults; mandatory ones are required", "statement": "A described list that carries only its first k fields decodes with None / the specified default for every later optional/default field, and fails with RequiredFieldOmitted(first missing mandatory field) iff some mandatory field is missing; an explicit null in an optional or defaulted position behaves like omission.", "quantifier": "every list type, every k, every field content", "why_tests_cant": "Every truncation of every list value.", "anchors": ["src/protocol/definitions.rs: decode_*_inner"]}
{"id": "C23", "title": "A described list consumes exactly its declared size", "statement": "Decoding a described list with declared size s consumes the descriptor, the list header and exactly s bytes, whatever extra fields or padding those bytes hold, and never looks at bytes after them (except Transfer, which takes all of them as its body).", "quantifier": "every input on which decoding succeeds", "why_tests_cant": "All inputs, including extra unknown fields.", "anchors": ["src/protocol/definitions.rs: decode_*_inner", "src/codec/decode.rs: decode_list_header, decode_compound8, decode_compound32"]}
{"id": "C24", "title": "Symbolic and numeric descriptors are interchangeable", "statement": "For every described type, input whose descriptor is the type's symbolic name decodes exactly like the same input with the numeric descriptor, and any other descriptor is rejected with InvalidDescriptor.", "quantifier": "every type, every payload, every descriptor", "why_tests_cant": "All descriptors and payloads.", "anchors": ["src/protocol/definitions.rs: impl Decode for Frame, impl DecodeFormatted for DeliveryState, Outcome, SaslFrameBody, Section and each list type"]}
{"id": "C25", "title": "Frame headers", "statement": "A frame is accepted only if its type byte is the expected one and its data offset is at least 2; the channel number is the 16-bit big-endian header field; the (doff-2)*4 extended header bytes are skipped and have no effect on the result.", "quantifier": "every frame byte string", "why_tests_cant": "All header bytes and extended headers.", "anchors": ["src/codec/decode.rs: decode_frame_header, impl Decode for AmqpFrame, SaslFrame", "src/framing.rs"]}
{"id": "C26", "title": "Frames round-trip", "statement": "An AmqpFrame (any channel, any round-trippable performative or an empty heartbeat) or SaslFrame written by encode decodes, after its 4-byte length, to the same frame with nothing left over.", "quantifier": "every channel id and performative", "why_tests_cant": "65536 channels times all performatives.", "anchors": ["src/codec/encode.rs: impl Encode for AmqpFrame, SaslFrame", "src/codec/decode.rs: impl Decode for AmqpFrame, SaslFrame"]}
{"id": "C27", "title": "Transfer payload is carried verbatim", "statement": "The bytes following the transfer performative in its frame are returned unchanged as the body, and encode writes a Data body unchanged after the performative; no body is reported iff there are no such bytes. (So Some(empty Data) comes back as None, and MessageIn/MessageOut bodies come back as Data of their encoding.)", "quantifier": "every transfer and every payload", "why_tests_cant": "All payload contents and lengths.", "anchors": ["src/protocol/definitions.rs: decode_transfer_inner, encode_transfer_inner", "src/protocol/mod.rs: TransferBody"]}
{"id": "C28", "title": "Frame decoding does not depend on how the bytes arrive", "statement": "Feeding a byte stream to AmqpCodec in any split into chunks yields the same sequence of frames, the same error if any, and the same decoder state and unread bytes as feeding it at once.", "quantifier": "every byte stream, every split into chunks, every item type and decoder, both build modes", "why_tests_cant": "Exponentially many chunkings of every stream.", "anchors": ["src/io.rs: impl Decoder for AmqpCodec"]}
{"id": "C29", "title": "Streams of frames are reproduced exactly", "statement": "Any sequence of round-trippable frames written by AmqpCodec::encode, delivered in any chunking, is decoded by a fresh AmqpCodec to exactly that sequence, ending with no unread bytes and the codec waiting for a new frame header.", "quantifier": "every sequence of frames, every chunking", "why_tests_cant": "All sequences and chunkings.", "anchors": ["src/io.rs: impl Decoder/Encoder for AmqpCodec"]}
{"id": "C30", "title": "The frame decoder makes progress and loses no bytes", "statement": "AmqpCodec::decode answers None only if the buffered bytes do not yet hold a complete frame (frames that announce a length below 4 are C32); every Some consumes exactly one length-prefixed frame; bytes are only removed from the front of the buffer; a None answer leaves the payload bytes in place.", "quantifier": "every codec state and buffer", "why_tests_cant": "All states and buffers.", "anchors": ["src/io.rs: impl Decoder for AmqpCodec"]}
{"id": "C31", "title": "A malformed frame does not affect later frames", "statement": "After AmqpCodec::decode reports an error for a frame, the frame's bytes have been consumed and the next call decodes the next frame. (Violated: the codec keeps expecting the failed frame's size instead of reading a new length header.)", "quantifier": "every malformed frame and every following stream", "why_tests_cant": "All malformed frames.", "anchors": ["src/io.rs: impl Decoder for AmqpCodec"]}
{"id": "C32", "title": "Impossible frame lengths are rejected", "statement": "A frame header announcing fewer bytes than the header itself makes the codec report an error. (Violated: lengths below 4 panic in builds with overflow checks and otherwise make the codec wait forever.)", "quantifier": "every announced length and every following stream", "why_tests_cant": "All following streams of any length.", "anchors": ["src/io.rs: impl Decoder for AmqpCodec"]}
{"id": "C33", "title": "Protocol headers", "statement": "ProtocolIdCodec decodes the 8 bytes it encodes to the same ProtocolId; it waits while fewer than 8 bytes are available; it accepts exactly the three valid AMQP 1.0.0 headers and classifies every other 8-byte header as InvalidHeader, Incompatible or Unknown; it consumes exactly 8 bytes; it never panics.", "quantifier": "every ProtocolId and every buffer", "why_tests_cant": "2^64 headers.", "anchors": ["src/io.rs: impl Decoder/Encoder for ProtocolIdCodec", "src/protocol/mod.rs: ProtocolId"]}
{"id": "C34", "title": "Encoding through the codec never overruns the output buffer", "statement": "AmqpCodec::encode reserves enough capacity for every item whose encoded_size is at least the number of bytes it writes, so encoding never panics on a full buffer, only appends to what the buffer already holds, and appends exactly the item's encoding.", "quantifier": "every item, every buffer content and capacity, every allocator growth policy", "why_tests_cant": "All buffer states and items.", "anchors": ["src/io.rs: impl Encoder for AmqpCodec"]}
{"id": "C35", "title": "Message encoded_size matches what is written", "statement": "InMessage/OutMessage encoded_size() equals the number of bytes encode() writes. (Violated when a header section is set: the result is exactly 3 too large, which corrupts the length of an enclosing frame or data section.)", "quantifier": "every message, every nesting depth", "why_tests_cant": "All messages and nestings.", "anchors": ["src/message/inmessage.rs: impl Encode for InMessage", "src/message/outmessage.rs: impl Encode for OutMessage", "src/message/body.rs: impl Encode for MessageBody"]}
{"id": "C36", "title": "Cached message size never goes stale", "statement": "After any sequence of builder calls and encoded_size calls, encoded_size() equals the size computed afresh for the current content. (Violated by set_value after encoded_size.)", "quantifier": "every history of builder and size calls", "why_tests_cant": "All histories.", "anchors": ["src/message/inmessage.rs: set_header,set_properties,set_app_property,update,if_some,set_value,set_body,encoded_size", "src/message/outmessage.rs: same"]}
{"id": "C37", "title": "Messages round-trip", "statement": "Encoding a message and decoding the bytes yields a message with the same header, delivery annotations, message annotations, properties, application properties, footer, data sections and value; an empty body becomes a single empty data section; nested messages become data sections holding their encoding. (Sequence sections are excluded: C15.)", "quantifier": "every message with round-trippable contents", "why_tests_cant": "All section combinations and contents.", "anchors": ["src/message/inmessage.rs: impl Decode/Encode for InMessage", "src/message/outmessage.rs: impl Decode/Encode for OutMessage"]}
{"id": "C38", "title": "Message decoding reports what it left unread", "statement": "InMessage/OutMessage::decode returns as remainder the bytes it did not interpret, so decoding a whole message returns an empty remainder. (Violated: it returns the bytes of the last section, never the empty remainder.)", "quantifier": "every input on which message decoding succeeds", "why_tests_cant": "All inputs.", "anchors": ["src/message/inmessage.rs: impl Decode for InMessage", "src/message/outmessage.rs: impl Decode for OutMessage"]}
{"id": "C39", "title": "Message sections are accumulated", "statement": "Decoding a concatenation of section encodings applies them in order: data sections are collected in order, and for every other kind the last occurrence wins; the order of sections of different kinds is irrelevant.", "quantifier": "every non-empty sequence of sections", "why_tests_cant": "All section sequences.", "anchors": ["src/message/inmessage.rs: impl Decode for InMessage", "src/protocol/definitions.rs: impl DecodeFormatted for Section"]}
{"id": "C40", "title": "Replies are correlated", "statement": "reply_message() of a message produces a message whose only content is correlation_id = the original's message_id (and no properties if the original has none).", "quantifier": "every message", "why_tests_cant": "All messages.", "anchors": ["src/message/inmessage.rs: reply_message", "src/message/outmessage.rs: reply_message"]}
{"id": "C41", "title": "SASL PLAIN response layout", "statement": "SaslInit::prepare_response(authz, authn, password) is authz NUL authn NUL password; when none of the three contains NUL the three are uniquely recoverable from the bytes.", "quantifier": "every triple of strings", "why_tests_cant": "All strings.", "anchors": ["src/protocol/mod.rs: SaslInit::prepare_response"]}
{"id": "C42", "title": "String equality ignores representation", "statement": "Str/Symbol equality, hashing input, length, bytes and encoding depend only on the text, not on whether it is static or shared; equality is an equivalence relation. (Ordering does not: a static and a shared Str with equal text are equal but not Ordering::Equal.)", "quantifier": "every pair/triple of Str values", "why_tests_cant": "All strings.", "anchors": ["src/types/mod.rs: impl PartialEq/Hash/Borrow for Str, derive(Ord)", "src/types/symbol.rs"]}
{"id": "C43", "title": "Variant equality is an equivalence", "statement": "Variant == is reflexive, symmetric and transitive on all hashable-keyed values, treats NaN as equal to itself and 0.0 as equal to -0.0, and does not depend on map iteration order.", "quantifier": "every pair/triple of Variant values of any depth", "why_tests_cant": "Recursive values.", "anchors": ["src/types/variant.rs: derive(PartialEq) for Variant, VariantMap"]}
{"id": "C44", "title": "Nesting depth of decoded values is bounded", "statement": "Decoding bounded-size input uses bounded stack: there is a nesting limit independent of the input. (Violated: for every stack budget there is an input proportional to it that exhausts it.) On the positive side, a stack budget of a third of the input length always suffices.", "quantifier": "every stack budget and every input", "why_tests_cant": "All depths.", "anchors": ["src/codec/decode.rs: impl DecodeFormatted for Variant, List, HashMap"]}
{"id": "C45", "title": "Re-encoding a decoded value is stable", "statement": "If a byte string decodes to a scalar, text, message id, condition or dynamic value that the encoder can represent (for dynamic values: no list and no descriptor 0 inside, input below 2^32/3 bytes), encoding that value again and decoding it yields the same value (decode-encode-decode is decode), and the re-encoding is never longer than the bytes consumed for scalar and text types.", "quantifier": "every input on which decode succeeds", "why_tests_cant": "All accepted inputs, including non-canonical encodings.", "anchors": ["src/codec/encode.rs", "src/codec/decode.rs"]}
{"id": "C46", "title": "VecVariantMap keeps order and duplicates", "statement": "Encoding OutMessage application properties (a VecVariantMap) and decoding them as VecVariantMap yields the same entries in the same order including repeated keys, if the values round-trip and there are less than 2^32 bytes.", "quantifier": "every entry list", "why_tests_cant": "All entry lists.", "anchors": ["src/codec/encode.rs: impl Encode for VecVariantMap", "src/codec/decode.rs: impl DecodeFormatted for VecVariantMap"]}
{"id": "C47", "title": "Format-code classification", "statement": "Each scalar/text decoder accepts exactly the format codes AMQP 1.0 assigns to its type and reports InvalidFormatCode(code) for every other one, without consuming further input.", "quantifier": "every type, every format code, every input", "why_tests_cant": "All code/input combinations.", "anchors": ["src/codec/mod.rs: FORMATCODE_*", "src/codec/decode.rs: decode_with_format impls"]}
{"id": "C48", "title": "Insufficient input is reported as Incomplete", "statement": "If a scalar or text decoder is given a valid format code but fewer payload bytes than the format needs, it reports Incomplete(Some(needed)), and giving it the missing bytes makes it succeed for fixed-width types.", "quantifier": "every type, format code and short input", "why_tests_cant": "All short inputs.", "anchors": ["src/codec/mod.rs: decode_check_len", "src/codec/decode.rs"]}
{"id": "C49", "title": "Message-id round trip", "statement": "MessageId (ulong, uuid, binary, string) decodes to the variant and content that was encoded; other format codes are rejected.", "quantifier": "every MessageId with content shorter than 2^32 bytes", "why_tests_cant": "Unbounded domain.", "anchors": ["src/protocol/mod.rs: impl DecodeFormatted/Encode for MessageId"]}
{"id": "C50", "title": "Conformance to the AMQP 1.0 type system", "statement": "The decoders accept every encoding the AMQP 1.0 type system (part 1, section 1.6) allows, with the meaning the standard gives it (network byte order, two's complement, 8- and 32-bit forms of variable-width and compound types, shared array constructors), and what the encoders write is always such an encoding of the value.", "quantifier": "every value, every legal encoding of it, every nesting depth", "why_tests_cant": "All legal encodings, most of which the crate never writes itself; a round-trip test cannot notice an encoder and a decoder that agree on a wrong format.", "anchors": ["src/codec/encode.rs", "src/codec/decode.rs", "src/codec/mod.rs: FORMATCODE_*"]}
{"id": "C51", "title": "Message builders say what was set", "statement": "After any history of builder calls, encodings and size queries, message_format, header, properties, value and application properties of a message are what the calls passed (the last header, the composition of the properties closures, the last value per application property of an InMessage, all of them in order for an OutMessage), nothing else changes, and a receiver of an OutMessage with repeated keys sees the last value of each key.", "quantifier": "every message and every history of calls", "why_tests_cant": "All histories.", "anchors": ["src/message/inmessage.rs: set_*, app_property, update, if_some", "src/message/outmessage.rs: set_*, app_property"]}
{"id": "C52", "title": "Decoded values are no larger than their input", "statement": "A successfully decoded value has no more nodes plus text bytes than input bytes were consumed. (Violated by arrays of items without bytes: ten bytes decode to up to 2^32-1 items.)", "quantifier": "every input of any length", "why_tests_cant": "All inputs, including hostile headers.", "anchors": ["src/codec/decode.rs: impl DecodeFormatted for Variant, List, HashMap, VecVariantMap, Vec"]}
{"id": "C53", "title": "Memory reserved while decoding is bounded by the input", "statement": "Decoding reserves room (with_capacity, reserve) for no more elements than the input has bytes. (Violated: nine bytes reserve 2^32-1 elements, per nesting level.) If decoding succeeds the reservations are covered by the bytes consumed, except for arrays of items without bytes.", "quantifier": "every input of any length", "why_tests_cant": "All inputs, including hostile headers.", "anchors": ["src/codec/decode.rs: Vec::with_capacity, HashMap::with_capacity in decode_with_format"]}
{"id": "C54", "title": "Equal map keys hash alike, so maps work as maps", "statement": "Keys that compare equal (including 0.0 and -0.0, any two NaNs, and strings in different representations) feed the same bytes to the hasher, so whatever the hash function and table layout, looking up a key in a decoded or built map finds the value last inserted under an equal key. Hashing panics exactly for keys that contain a map.", "quantifier": "every key, every hash function, every sequence of insertions", "why_tests_cant": "All hash functions, all collisions and table layouts.", "anchors": ["src/types/variant.rs: derive(PartialEq, Hash) for Variant, impl Hash for VariantMap", "src/types/mod.rs: impl Hash/PartialEq/Borrow for Str", "src/types/symbol.rs", "src/codec/decode.rs: impl DecodeFormatted for HashMap"]}
{"id": "C55", "title": "Values too large for a length field are not corrupted", "statement": "A value that was encoded is decoded to itself or refused with an error, whatever its size. (Violated: lengths are cast to 32 bits; a binary of 4 GiB or more loses all but its first len mod 2^32 bytes, and the end of an oversized transfer payload is read as further frames.) Exactly the values whose lengths and counts fit survive; in builds without overflow checks that includes maps of 2^32-4 to 2^32-1 bytes.", "quantifier": "every value of any size, both build modes", "why_tests_cant": "Values of more than 4 GiB, and the exact limits.", "anchors": ["src/codec/encode.rs: as u32 in encode", "src/codec/decode.rs: decode_compound32, read_bytes_u32", "src/io.rs: AmqpCodec"]}
{"id": "C56", "title": "A value that has arrived only in part is reported as Incomplete", "statement": "If a decoder accepts an input, then on every beginning of that input which ends inside the value it answers Incomplete(Some(n)) with n no larger than the whole input: no other error, no panic, no other value. (Violated by maps and arrays, whose decoders panic on a missing body, by messages cut between sections, which are taken for complete, and by transfers cut in the payload. Conversely Incomplete is also reported for inputs that no continuation completes.)", "quantifier": "every type, every accepted input, every cut", "why_tests_cant": "All inputs and all cuts.", "anchors": ["src/codec/mod.rs: decode_check_len", "src/codec/decode.rs", "src/protocol/definitions.rs: decode_*_inner", "src/message/inmessage.rs: decode", "src/framing.rs"]}
{"id": "C57", "title": "Messages arrive intact and in order", "statement": "Messages sent on a link, each in one transfer or split over several and mixed with any other frames, written by the codec and read back in chunks of any sizes, reassemble to the same messages in the same order. (Violated when a message with a header section is itself given as transfer body: the frame's length is three too large per header, and the receiver takes that many bytes of the next frame into the payload.)", "quantifier": "every batch of messages, every split over transfers, every interleaving with other frames, every chunking", "why_tests_cant": "All splits, interleavings and chunkings.", "anchors": ["src/io.rs: AmqpCodec", "src/framing.rs: AmqpFrame", "src/message/outmessage.rs: Encode for OutMessage", "src/message/inmessage.rs: decode", "src/message/body.rs", "codec/encode.rs, decode.rs: Transfer"]}
{"id": "C58", "title": "A connection's handshake is read by the right codecs", "statement": "When a connection starts with a protocol header and codecs replace one another on the same buffer by any plan that depends on the items received so far (header, SASL frames up to the outcome, header, AMQP frames; or header and AMQP frames), the items written are the items read, each by the codec meant for it, however the bytes arrive and whenever decode is called, with bytes of later stages already in the buffer when the codecs are exchanged; no byte is lost or read by two codecs. For arbitrary bytes the items, the error and the unread rest depend on the bytes only, not on the schedule.", "quantifier": "every plan, every sequence of headers and frames, every byte stream, every schedule of arrivals and calls", "why_tests_cant": "All schedules and all plans.", "anchors": ["src/io.rs: ProtocolIdCodec, AmqpCodec", "src/framing.rs", "src/protocol/mod.rs: ProtocolId"]}
{"id": "C59", "title": "The receive buffer does not grow without need", "statement": "Reading with AmqpCodec, the memory of the buffer is at any time at most the bytes received and not yet consumed plus 32 KiB plus what the allocator adds, whatever frame length the peer announces; how the buffer grows has no effect on what is decoded; and after a header the buffer is extended to fit the whole frame. (The last is violated, against the comment in the code: only 32 KiB are reserved for larger frames.)", "quantifier": "every byte stream, every schedule of arrivals and calls, every allocator", "why_tests_cant": "All schedules and announced lengths.", "anchors": ["src/io.rs: impl Decoder for AmqpCodec"]}
{"id": "C60", "title": "Types and text of values are the same on both sides", "statement": "The first byte of a value's encoding determines the type of the Variant it decodes to, and it is the type of the value encoded, even where the value itself does not survive. What as_str and comparison with text say about a value they say about the value received. (The last is violated by StaticSymbol, whose text as_str does not return before sending and does return after.)", "quantifier": "every value and every input", "why_tests_cant": "All values and inputs.", "anchors": ["src/types/variant.rs: as_str, PartialEq<str>", "src/codec/encode.rs: impl Encode for Variant", "src/codec/decode.rs: impl DecodeFormatted for Variant"]}
{"id": "C61", "title": "Debug and release builds, small and large stacks agree", "statement": "Whatever a build with overflow checks decodes or refuses without panicking, a build without them decodes or refuses in the same way, with the same remainder, state and unread bytes; and a larger stack changes nothing but stack overflows. This holds for every decoder, every codec call and every whole connection; panics other than arithmetic overflow and stack overflow are the same too.", "quantifier": "every input, every schedule of arrivals and calls, every pair of builds and stack sizes", "why_tests_cant": "Two builds on all inputs.", "anchors": ["src/codec/decode.rs: decode_compound8, decode_compound32, impl DecodeFormatted for Variant", "src/io.rs: size - 4 in AmqpCodec::decode", "src/protocol/definitions.rs", "src/message/inmessage.rs"]}
{"id": "C62", "title": "What was received can be passed on", "statement": "An intermediary that decodes a frame or message and encodes it again sends something the next receiver decodes to the same value, whatever encoding choices the first sender made (wide or narrow forms, symbolic descriptors, extended headers, omitted fields). (Violated by values that hold a list or a descriptor 0, by arrays of symbols whose content is 254 bytes long, and by messages without a body, which gain an empty data section.) Everything else below 4 GiB can be passed on, and a received variant can be passed on exactly if it holds no list and no descriptor 0.", "quantifier": "every accepted input, every type, every connection and chunking on both sides", "why_tests_cant": "All inputs, not only those this encoder produces.", "anchors": ["src/codec/encode.rs", "src/codec/decode.rs", "src/protocol/definitions.rs", "src/framing.rs", "src/message/inmessage.rs", "src/io.rs: AmqpCodec"]}
{"id": "C63", "title": "Equality is an equivalence that goes by content", "statement": "On everything a program can hold and everything the decoders yield, == is reflexive, symmetric and transitive, equal values announce the same encoded size, maps compare as sets of entries, and two values are equal exactly if their contents are. (Violated by messages: == also compares the size remembered by encoded_size, so a message differs from its own clone once one of the two has been measured or encoded, and a transfer carrying a structured message differs from every transfer that can be received.)", "quantifier": "every pair and triple of values, performatives, sections, frames and messages", "why_tests_cant": "All pairs and triples of values, nested to any depth.", "anchors": ["derive(PartialEq) in codegen/definitions.rs, src/framing.rs, src/message/*.rs, src/protocol/mod.rs, src/types/*.rs", "src/message/inmessage.rs: size: Cell<usize>", "src/message/outmessage.rs: size: Cell<usize>"]}
{"id": "C64", "title": "Encoding takes time proportional to the bytes written", "statement": "The number of calls of encode and encoded_size that encoding a value or a transfer body makes, or sending a frame through the codec, is at most a constant times the bytes written. It holds of messages, however deeply they are nested, because each remembers its size, of SASL frames, and of frames without lists or maps in fields of any type. (It is violated by values, and by the frames that have them as properties: every enclosing list or map measures its contents again, so the calls grow with the square of the nesting; at most one call per byte and level for values, and 24 calls per byte and three more per level for frames.)", "quantifier": "every value, every message, with any sizes remembered, and every frame", "why_tests_cant": "A bound for all values, nested to any depth.", "anchors": ["src/codec/encode.rs: map_encoded_size, list_encoded_size, impl Encode for Variant", "src/message/inmessage.rs: encoded_size, encode", "src/message/outmessage.rs: encoded_size, encode", "src/message/body.rs", "src/protocol/definitions.rs: encoded_size_*_inner, encode_*_inner", "src/io.rs: impl Encoder for AmqpCodec"]}
{"id": "C65", "title": "Accessors give what was received and what was set", "statement": "Every accessor of a performative, section, frame, message or collection returns the field of the same name in the protocol: for received values the field at its position in the list as the specification orders them, for built values what the constructor or setter was given. Constructors and From conversions put a value where the accessor finds it, Frame::name names the performative its descriptor selects, data() is the first data section received and value(), header() and properties() the last.", "quantifier": "every type, every field, every accepted input", "why_tests_cant": "All fields of all types in all inputs.", "anchors": ["src/protocol/definitions.rs: accessors, Frame::name, From for Frame", "src/framing.rs: AmqpFrame, SaslFrame", "src/types/mod.rs: Multiple, List", "src/types/variant.rs: VecVariantMap, as_bytes_str", "src/message/inmessage.rs", "src/message/outmessage.rs", "src/message/body.rs", "src/protocol/mod.rs: TransferBody"]}
{"id": "C66", "title": "A value reads the same with its type and as a Variant", "statement": "A program may decode a value with a typed decoder (u32, Str, HashMap<Symbol, Variant>, Option<T>, MessageId) or as a Variant and look at it later: both accept the same bytes for it, consume the same number, and Variant::from of the typed value is the Variant decoded. Variant::from of a value is also encoded as the value is. VecVariantMap reads what HashMap<Str, Variant> reads and keeps every entry, of which the hash map has the last for each key.", "quantifier": "every input, every scalar type, lists, maps, optional values and message identifiers", "why_tests_cant": "Two decoders on all inputs.", "anchors": ["src/codec/decode.rs: impl DecodeFormatted", "src/codec/encode.rs: impl Encode", "src/types/variant.rs: derive(From) for Variant", "src/protocol/mod.rs: MessageId"]}
{"id": "C67", "title": "An error can be copied", "statement": "The clone of an AmqpCodecError is the same error. (Violated by I/O errors: the clone of Io(Some(e)) is Io(None).) It holds of every error decoding or encoding returns.", "quantifier": "every error", "why_tests_cant": "All errors.", "anchors": ["src/errors.rs: impl Clone for AmqpCodecError"]}
{"id": "C68", "title": "Decoding takes work proportional to the input", "statement": "Whatever bytes arrive, decoding a value, performative, message or frame makes at most three calls of decode_with_format per byte of input, whether it succeeds, fails or panics; so does a connection for the bytes that have arrived, however they are cut and however often the codec is asked before a frame is complete. A call is made for every node of what is decoded. Bytes of texts, binaries and payloads are gone through, to check that they are UTF-8 or to copy them, at most twice for every byte that has arrived: binaries and payloads once, texts once to check them and once more to copy them if they are UTF-8. (Vec<T> keeps this limit only if the items take bytes: ten bytes of a Vec<bool> make up to 2^32 calls. No protocol type holds such an array.)", "quantifier": "every input of every length, every type, every schedule of arrivals and calls", "why_tests_cant": "A bound on the work for all inputs, including hostile ones.", "anchors": ["src/codec/decode.rs: impl DecodeFormatted", "src/protocol/definitions.rs: decode_*_inner", "src/message/inmessage.rs: decode", "src/message/outmessage.rs: decode", "src/io.rs: AmqpCodec::decode"]}
{"id": "C69", "title": "An error tells the truth about the input", "statement": "Every error of every decoder says something true of the bytes it was given: an invalid format code is a byte of the input; an invalid descriptor stands in the input after 0x00; an invalid char is a 32-bit number in it that is no Unicode scalar value; a UTF-8 error is about a length-prefixed text in it that is not UTF-8; an omitted field is a mandatory field, by its name in the specification, of a list in the input too short to have it; an unknown enumeration option names an enumeration that occurs in the decoded type, and the input holds a value that is none of its choices; an unexpected frame type is the second byte of the frame and an invalid size means a data offset below 2; Incomplete asks for at least one byte and fewer than 2^32. No other error is returned, and Role never is unknown.", "quantifier": "every input, every type, every frame and message", "why_tests_cant": "All malformed inputs.", "anchors": ["src/codec/decode.rs", "src/protocol/definitions.rs", "src/message/inmessage.rs", "src/errors.rs: AmqpParseError", "src/io.rs"]}
{"id": "C70", "title": "Only Incomplete can change when more bytes arrive", "statement": "Any error other than Incomplete is final: the same bytes followed by anything give the same error, so a reader may give up at once. While the answer is Incomplete there is a continuation to which the answer is another one, so a reader may wait. (The second half is violated by list types and maps: a field or entry that does not fit the announced size of its list or map is answered with Incomplete for ever. It holds of fixed-width values, text, binaries, descriptors, arrays of them and enumerations.)", "quantifier": "every input and every continuation, every type, frames and messages", "why_tests_cant": "All inputs and all continuations.", "anchors": ["src/codec/decode.rs", "src/protocol/definitions.rs", "src/message/inmessage.rs", "src/message/outmessage.rs"]}
{"id": "C71", "title": "Layouts conform to AMQP 1.0, in both directions", "statement": "For every type of the protocol \u2014 the nine performatives and their frames, SASL frames, delivery states, sources, targets, errors, message sections and messages \u2014 every encoding the standard allows (descriptors by number or name, the short, long and empty forms of lists, every form of every field, absent fields as null or left out at the end, single values or arrays for multiple ones, extended frame headers) is read as the value it encodes, alone and in a stream cut anywhere; and what is written for a value is an encoding the standard allows of that value, with the standard's codes, names, field order, types, defaults and choices. (Violated: sources with filters as the standard has them are rejected, filters with text and messages with sequences or with two kinds of body are written illegally, coordinator targets are rejected. Values of type Variant: as in C50.)", "quantifier": "every value of every protocol type and every legal encoding of it, every segmentation of a stream", "why_tests_cant": "The legal encodings of one value are many and most are never written by this crate; all of them for all values must be read.", "anchors": ["src/protocol/definitions.rs", "src/framing.rs: AmqpFrame, SaslFrame", "src/message/inmessage.rs", "src/message/outmessage.rs", "src/message/body.rs", "src/protocol/mod.rs", "src/codec/decode.rs", "src/codec/encode.rs"]}
{"id": "C72", "title": "Exactly which inputs are accepted, and as what", "statement": "For every type a set of byte strings is written down per value, without reference to the decoders, and decoding input succeeds with a value and a remainder iff input is one of these strings followed by the remainder. It is the language of the standard with these tolerances and no others: any non-zero byte is true; symbols may be any UTF-8; times are those the clock type can hold; a zero descriptor cannot be written in one byte; sizes of arrays and of lists of variants are ignored, sizes of maps and field lists bound their content but may exceed it; an odd count of a map is rounded down, repeated keys count once with the last value, keys holding maps are not accepted; without overflow checks a size that does not cover the count wraps around; fields beyond the known ones are skipped with the rest of the list; a message is one or more sections in any order, repeated ones replacing earlier ones or adding to the body. Off a stream, however cut, exactly the maximal sequence of such frames at its start is delivered. No string is in the language of two values, nor is one a proper beginning of another.", "quantifier": "every byte string, every type of the crate, every segmentation of a stream", "why_tests_cant": "Acceptance is a set of infinitely many inputs; tests sample it.", "anchors": ["src/codec/decode.rs: impl DecodeFormatted", "src/protocol/definitions.rs: impl Decode, decode_*_inner", "src/framing.rs", "src/io.rs: AmqpCodec::decode", "src/message/inmessage.rs: decode", "src/message/outmessage.rs: decode"]}
{"id": "C73", "title": "definitions.rs is what the generator makes of the specification", "statement": "Fed with codegen/specification.json, the generator produces exactly the list types, restricted types, enumerations and unions of src/protocol/definitions.rs: for each of them there is a one-to-one correspondence of values under which decoding any input with any format code (same value, same remainder, same error), announced sizes and written bytes agree, and there are no others. This includes Transfer with its body, and Frame. The accessors of the list types are the generated ones too, and give copies exactly of the fields whose types can be copied.", "quantifier": "every value of every generated type and every input", "why_tests_cant": "Two programs are compared on all inputs; that the checked-in file is up to date is otherwise only checked by eye.", "anchors": ["codegen/mod.rs", "codegen/definitions.rs", "codegen/specification.json", "src/protocol/definitions.rs", "build.rs"]}
{"id": "C74", "title": "Types generated from any specification read back what they write", "statement": "For every specification the generator accepts: each generated list type reads back what it writes and leaves what follows (Transfer takes it as its body), announces as its size the number of bytes it writes, and refuses what is written for list types with other codes; each generated enumeration reads back its items and refuses all other values; each generated union reads back what it writes as the same option. This requires fields whose values their types can carry, and distinct values of an enumeration. (Violated for the code 0, which cannot be read, for codes above 255, for which the size is 7 too small, and for equal codes in different domains.)", "quantifier": "every specification, every value of every type generated from it, every continuation", "why_tests_cant": "The specification is itself an input; tests run one.", "anchors": ["codegen/mod.rs: Definitions, Described, Descriptor, Field", "codegen/definitions.rs: the template"]}
{"id": "C75", "title": "Generated identifiers are valid and distinct", "statement": "For names of hyphenated lower-case words, as in the specification, the generated type name is the words with capital initials run together and the generated field name the words joined by underscores, with one more for type and return; both are identifiers of Rust. Different names give different types, different fields and different decode and encode functions. (Violated: x-link and xlink give the same functions; a field may be a keyword of Rust other than type and return.)", "quantifier": "every name and every pair of names, every specification", "why_tests_cant": "All names.", "anchors": ["codegen/mod.rs: camel_case, snake_case", "codegen/definitions.rs: snake helper"]}
{"id": "C76", "title": "The generator neither drops nor invents anything", "statement": "A specification that lists given types is read as these types. The generator stops exactly if the code of a described type is not a pair of 32-bit hexadecimal numbers, which it reads as the numbers they stand for. Otherwise the list types, described restricted types and enumerations generated are those of the specification, in its order, with its descriptors, with all fields and items in order, each of the type the specification gives it through any chain of aliases, and optional, mandatory or defaulted as the specification says; and the unions are those that at least two types provide, one of them described, with exactly these types as options, in order.", "quantifier": "every specification", "why_tests_cant": "All specifications, including those with long chains of aliases and repeated names.", "anchors": ["codegen/mod.rs: parse, Definitions::from, Alias, Enum, Described, Descriptor, Field, get_type_name, parse_provides"]}
{"id": "C77", "title": "Decoding maps takes work proportional to the input", "statement": "While the entries of a map are inserted into the hash table, the number of comparisons of keys is at most proportional to the length of the input, whatever keys the peer chooses. (Violated: the hash function has no secret key. For every fixed hash function of 64 bits, hence for the one in use, there are properties of n entries in at most 17 n + 9 bytes, also inside the open frame that begins a connection, that take n(n-1)/2 comparisons; for the one in use such keys of 16 bytes are given explicitly. Never are there more than an eighth of the square of the length, and none are needed if hashes differ, as those of different numbers of one type do.)", "quantifier": "every input, every hash function, every hash table, every number of entries", "why_tests_cant": "Quantifies over hash functions and over adversarial choices of keys; random keys do not show it.", "anchors": ["src/codec/decode.rs: impl DecodeFormatted for HashMap", "src/types/variant.rs: VariantMap", "src/protocol/mod.rs: Fields, Map, FilterSet", "Cargo.toml: hashbrown"]}
{"id": "C78", "title": "The text of an error tells which error it is, on one line", "statement": "Different errors, or errors with different details, have different texts, for parse errors, codec errors and errors of the protocol header. Texts are single lines without control characters. (Violated: a descriptor that was received as a symbol is quoted as it is, so a peer can place any text, line breaks included, into the text of the error. All other texts are single lines; exact condition given.)", "quantifier": "every error with every payload, every descriptor a peer can send", "why_tests_cant": "All pairs of errors; adversarial text.", "anchors": ["src/errors.rs", "src/types/mod.rs: impl Debug for Str, Descriptor", "src/types/symbol.rs: Symbol", "src/protocol/definitions.rs: impl Decode for Frame"]}
{"id": "C79", "title": "Encoding writes within the room it is given, or panics", "statement": "Encoding into a buffer with room for the encoding succeeds, appends exactly the encoding and does not reallocate; for every type whose encoded_size is exact (all but messages, see C36), a new buffer of encoded_size bytes is full afterwards. With less room, encoding panics: it neither truncates nor reallocates. (Violated: UUIDs are written with a call that grows the buffer. For values of any type the panic is certain exactly if no UUID is among their parts; SASL frames and all frames without UUIDs panic; nothing is ever truncated.)", "quantifier": "every value, frame and message, every buffer, every allocation policy", "why_tests_cant": "All values at all sizes of buffers; the buffers of tests have room.", "anchors": ["src/codec/encode.rs: every impl Encode", "src/codec/encode.rs: impl ArrayEncode for Uuid", "src/io.rs: AmqpCodec::encode"]}
{"id": "C80", "title": "What was decoded can be used on the same stack", "statement": "encoded_size and encode of a value nest exactly as many calls as the value has levels; with fewer they overflow the stack. So do cloning, dropping, comparing with a copy, and hashing where the value can be hashed; comparing with any other value nests no more. Hence whatever value was decoded on a stack that held n nested calls can be encoded, with the right bytes and size, compared with anything, hashed, cloned and dropped on a stack that holds n.", "quantifier": "every value, every stack, every input", "why_tests_cant": "Depth is unbounded, and overflow of the stack aborts the test.", "anchors": ["src/codec/encode.rs: impl Encode for Variant, List, HashMap", "src/codec/decode.rs: impl DecodeFormatted for Variant", "src/types/variant.rs: Variant (derived PartialEq, Hash, Clone)"]}
{"id": "C81", "title": "Looking at a message does not change what is written", "statement": "encoded_size and encode take a message by shared reference, but remember sizes in it. However often and in whatever order they are called, on a message or on messages nested in it at any depth, and whatever sizes were remembered before, the message announces the same size, makes the same calls on the buffer and has the same content afterwards; a frame that carries it leaves the codec as the same bytes.", "quantifier": "every message and transfer body in every state, every sequence of calls at every depth", "why_tests_cant": "Sequences of calls and depth of nesting are unbounded, and states with remembered sizes arise from histories.", "anchors": ["src/message/inmessage.rs: InMessage::encoded_size, encode", "src/message/outmessage.rs: OutMessage::encoded_size, encode", "src/message/body.rs: MessageBody::encode", "src/protocol/mod.rs: TransferBody"]}
{"id": "C82", "title": "A stream that was cut is not taken for one that ended", "statement": "A FramedRead over these codecs, fed with any bytes in any pieces and pauses until the reader reports the end of the stream, yields the frames at the beginning of the stream, in order and each as soon as it has arrived, and then one verdict on what follows them: the end without an error iff nothing follows, an error about remaining bytes iff a frame begins there but is not finished (or, without overflow checks, announces a length below four), otherwise the error or panic for that frame. So when frames are sent and the connection is lost anywhere, the receiver gets exactly those that arrived whole, and sees a regular end only if none was cut. Likewise for protocol headers. The number of polls needed is given. (Until the first error; a reader that is polled again after an error may miss a cut.)", "quantifier": "every byte stream, every segmentation and schedule of polls, every list of frames sent, every position of the cut", "why_tests_cant": "All cuts of all streams at all segmentations.", "anchors": ["src/io.rs: impl Decoder for AmqpCodec, ProtocolIdCodec (inherited decode_eof)", "Cargo.toml: tokio-io"]}
{"id": "C83", "title": "Frames given to a sink reach the other side, in order", "statement": "A program sends frames through a FramedWrite over AmqpCodec, with sends and flushes in any order, to a writer that takes the bytes in pieces of any size, is at times not ready, and may fail. At any time the bytes taken, followed by those in the buffer, are the encodings of the accepted frames in the order in which they were sent; after a flush that completes all of them have been taken; no call panics; the buffer never holds more than 8 KiB and one frame; a frame is refused only while the buffer holds 8 KiB; a flush completes if the writer takes something each time. A FramedRead at the other end of the connection, which delivers in any pieces what was taken and may be lost anywhere, yields the first of the accepted frames, unchanged and none twice, and all of them if the last flush completed and nothing was lost.", "quantifier": "every sequence of sends and flushes of every frames, every behaviour of writer, connection and reader", "why_tests_cant": "Schedules of partial writes, partial reads and losses are unbounded and combine with all frames.", "anchors": ["src/io.rs: impl Encoder for AmqpCodec, impl Decoder for AmqpCodec", "Cargo.toml: tokio-io"]}
{"id": "C84", "title": "Exactly which inputs make a decoder panic, and why", "statement": "For every type the inputs that make its decoder panic are written down together with the reason, without reference to the decoders, and it panics on these and no others: input that is read up to some point and there has a time the clock type cannot hold; a list, map or array whose size does not cover its count (with overflow checks); a map that announces more bytes than there are; an array that ends before the code of its items; a map key that contains a map; or a value nested too deep for the stack. Scalars and enumerations never panic. A frame panics iff its body does; a codec call also panics on a size below four (with overflow checks), once eight bytes are there, and otherwise only on a frame that has arrived whole; a stream delivers the frames before that point first, however it is cut. A message panics iff a section does after sections that are read. No input panics for two reasons. Every input that neither begins with an encoding (C72) nor is in this set gives an error.", "quantifier": "every byte string, every type of the crate, both build modes, every depth of the stack, every segmentation of a stream", "why_tests_cant": "The set is infinite, and so is the set of inputs that must be shown not to be in it.", "anchors": ["src/codec/decode.rs: impl DecodeFormatted", "src/protocol/definitions.rs: impl Decode, decode_*_inner", "src/framing.rs", "src/io.rs: AmqpCodec::decode", "src/message/inmessage.rs: decode", "src/message/outmessage.rs: decode", "src/types/variant.rs: impl Hash for VariantMap"]}
{"id": "C85", "title": "What is sent arrives as it was, altered in a known way, or not at all", "statement": "What the receiver gets of a value that this crate encodes and decodes is a function of the value, written down without reference to the wire: scalars, texts and binaries arrive as they are; static symbols as symbols; times without what is below the millisecond, in the last second before the epoch without their sign, and earlier whole seconds as the leap second before; maps entry by entry, where of entries whose keys have become equal the last value is kept; described values with their description. Lists, and what is described by the number 0, are refused with all that is around them; the two times at the edges of the clock's range, and values nested too deep, make the receiver panic. A value that holds neither static symbols nor such times arrives as it is, if it arrives. What has arrived is settled: sent on, it arrives as it is.", "quantifier": "every value whose encoding is shorter than 4 GiB, every receiver", "why_tests_cant": "All values at all depths of nesting; a test shows that some value arrives, not that no value is altered.", "anchors": ["src/codec/encode.rs: impl Encode for Variant", "src/codec/decode.rs: impl DecodeFormatted for Variant", "src/codec/decode.rs: fn datetime_from_millis", "src/types/variant.rs: Variant"]}
{"id": "C86", "title": "What becomes of every frame and every message on its way", "statement": "What the receiver gets of a frame, or of a message, that this crate encodes and decodes is a function of it, written down field by field without reference to the wire: values inside as in C85; symbolic maps entry by entry; a custom error condition or distribution mode that has a standard name as the standard one; capabilities, locales and mechanisms as they are, except that other than one whose names and lengths take 254 bytes make a receiver that checks overflow panic; a payload as its bytes, an empty one as none; of a message the application properties merged into a map, nested messages as data sections, a missing body as one empty data section; a message with sequences is refused. The first field that does not arrive decides whether the frame is refused or makes the receiver panic. For a list of frames, encoded one after the other and received in any pieces, the receiver yields what becomes of each, in order, up to the first that does not arrive, and there reports an error or panics accordingly. SASL frames arrive unaltered but for the mechanisms just named. What has arrived is settled: sent on, it arrives as it is.", "quantifier": "every frame and message whose encoding is shorter than 4 GiB and whose payload announces its size correctly (see C36), every list of frames, every segmentation, every receiver", "why_tests_cant": "All frames with all values in all their fields; a test shows that some frame arrives, not that none is altered.", "anchors": ["src/protocol/definitions.rs: every impl Encode, Decode", "src/framing.rs", "src/io.rs: AmqpCodec", "src/message/inmessage.rs", "src/message/outmessage.rs", "src/protocol/mod.rs: TransferBody"]}
{"id": "C87", "title": "What was received and is sent on arrives unaltered or not at all", "statement": "A program receives a frame, from any peer, and sends it on with this crate to another program that uses it: if the codec of that program yields a frame at all, it is the same frame, and it has taken exactly its bytes. Whether it does can be read off the frame: it does iff the frame holds no list, no descriptor 0 and, for receivers that check overflow, no array of other than one symbol that takes 254 bytes (given as much room on the stack as the first receiver had). The same holds of SASL frames and of every value, performative and section; and of messages, except that one without a body is given an empty data section. On a connection the next receiver gets the frames up to the first that cannot be passed on, and there reports an error or panics. Through any chain of such programs, built and run in any way, those that come out are the first of those that came in, unaltered and in order.", "quantifier": "every input of the first receiver, in any pieces, every frame and message it yields whose encoding is shorter than 4 GiB, any two receivers, every chain of them, every segmentation", "why_tests_cant": "All frames a peer can send, in all forms the decoders accept, through all pairs of receivers.", "anchors": ["src/protocol/definitions.rs: every impl Encode, Decode", "src/codec/decode.rs: impl DecodeFormatted", "src/codec/encode.rs: impl Encode", "src/framing.rs", "src/io.rs: AmqpCodec", "src/message/inmessage.rs"]}
{"id": "C88", "title": "What was received takes at most four times the bytes when it is sent on", "statement": "What a decoder accepts need not be written as the encoder writes it: lists without a size, names in an array with a length of one byte, fields left out. A value that was received takes at most three times as many bytes when it is encoded again; a frame, an AMQP or a SASL frame, at most four times the bytes it had on the wire; a message at most four times and 16. None of these factors can be smaller for values and frames: there are frames as long as one likes that come within 100 bytes of it, and a frame within the 512 bytes that every peer must accept may be longer than that when it is sent on. A value that can be passed on (C62) does not get longer at all, if overflow is checked (otherwise it can). A program that sends on every frame it receives can write them all and sends at most four times the bytes it received, and in a chain of such programs this is so at every step, not fourfold at each; if less than 1 GiB was received no frame sent on reaches 4 GiB, so that C62, C86 and C87 apply to all of them.", "quantifier": "every byte string, every type of the specification, every connection and segmentation, every chain of programs", "why_tests_cant": "A bound on all inputs; the inputs that grow most are not those one thinks of.", "anchors": ["src/codec/encode.rs: impl Encode", "src/codec/decode.rs: impl DecodeFormatted", "src/protocol/definitions.rs: every impl Encode, Decode", "src/framing.rs", "src/io.rs: AmqpCodec", "src/message/inmessage.rs"]}
{"id": "C89", "title": "The text of an error a peer sent tells which error it is, on one line", "statement": "The text of an Error that closes a link, session or connection (its Display, which is its Debug) tells its condition, its description and its further information, and is a single line; and the texts of equal strings are equal. So two errors of a peer are told apart in a log, and a log entry cannot be forged. (False of the code: the description is escaped, but the symbol of a custom condition and the symbols and strings in the further information are quoted as they are. A peer can write one error so that it reads like another, and put line breaks into either. What holds: the text of an error without further information tells all of it; any text tells condition and description if the symbol of the condition has no double quotes; any text tells the whole error if no symbol or string in it has double quotes and no number is NaN; a text is one line iff the quoted symbols and strings are. Strings show whether they are held as bytes or statically.)", "quantifier": "every error, every way in which floating point numbers, times, identifiers and binaries are shown", "why_tests_cant": "Whether two of infinitely many texts coincide is not seen on samples; those that do are built from quotes.", "anchors": ["src/protocol/mod.rs: impl Display for Error", "src/protocol/definitions.rs: Error, ErrorCondition (derived Debug)", "src/types/mod.rs: impl Debug for Str", "src/types/symbol.rs", "src/types/variant.rs: Variant (derived Debug)"]}
{"id": "C90", "title": "What a program logs does not reveal credentials", "statement": "The Debug text of a SASL frame does not depend on the credentials in it: the initial response and the responses of the client. (False of the code: Debug is derived for all of these types. From the text of a frame the credentials in it can be told, whatever bytes they are, if the name of the mechanism has no double quotes; and a password of visible characters other than quotes and backslashes stands in the text of the frame that logs in with it, just as it was typed, for every mechanism, host and user. What holds: the error for a frame of which a part is missing tells only a number.)", "quantifier": "every SASL frame, every password, every input cut anywhere", "why_tests_cant": "That a text is free of a secret concerns all secrets and all frames, not samples.", "anchors": ["src/protocol/definitions.rs: SaslInit, SaslResponse, SaslFrameBody (derived Debug)", "src/framing.rs: SaslFrame", "src/protocol/mod.rs: SaslInit::prepare_response", "src/errors.rs: AmqpParseError"]}
{"id": "C91", "title": "Peers with types from different versions of a specification understand each other", "statement": "Two programs use types generated from two versions of a specification, of which the newer appends fields to a list type, items to an enumeration or options to a union. What the newer program writes, the older one reads: it gets the fields it knows, ignores the others and leaves exactly what follows (for a transfer, its body). What the older program writes, the newer one reads with the fields that were added absent or as their defaults; if one of them is mandatory, it refuses with the name of the first such field. Items of an enumeration and options of a union that both know are read as the same item and option in either direction, added ones are refused by the older program as an unknown item and by their descriptor. (List types and options with a code other than 0, see C74; values their types can carry; distinct values of an enumeration, distinct codes of the options.)", "quantifier": "every specification the generator accepts, every version of a list type, enumeration or union that appends to it, every value", "why_tests_cant": "It concerns all specifications and types that do not exist yet; tests know those of one file.", "anchors": ["codegen/definitions.rs: decode_*_inner, encode_*_inner, try_from, unions", "codegen/mod.rs"]}
{"id": "C92", "title": "Equal values are written alike", "statement": "Frames, messages and values that are equal (==) announce the same size and are encoded by the same calls to the same bytes, so that what was sent can be compared, signed or recognised by its bytes. (False of the code: zeros of either sign and all NaNs are equal, and equal maps are written in whatever order their entries happen to have. What holds: it is so for everything without such numbers and without maps of several entries inside, in particular for all frames of the SASL handshake. Among the variants that survive encoding these are the only ones all of whose equals are written like them.)", "quantifier": "every pair of equal frames, messages and values that a program can hold", "why_tests_cant": "Equality is checked on pairs; whether all equals of a value have its bytes is a question about all of them at once, at all depths of nesting.", "anchors": ["src/codec/encode.rs: impl Encode for HashMap, Variant, f32, f64", "src/types/variant.rs: Variant, VariantMap (derived PartialEq)", "src/protocol/definitions.rs: derived PartialEq, every impl Encode", "src/framing.rs"]}
{"id": "C93", "title": "Exactly which inputs are refused, and with which error", "statement": "For every input the error a decoder returns can be told from the bytes, without running it. A value that stops short of what its format code, length or size announces is `Incomplete` with the number of bytes asked for at that point; a format code that the type does not have is `InvalidFormatCode` with it; text that is not UTF-8 is `Utf8Error` with the place where it stops being text; a number that is no scalar value is `InvalidChar` with it; a value outside an enumeration is `UnknownEnumOption` with the enumeration's name; a descriptor that selects nothing is `InvalidDescriptor` with it; a mandatory field beyond the count is `RequiredFieldOmitted` with its name. In lists, maps, arrays and messages it is the first item, entry, field or section that is wrong, after others that are read. A frame of another type is `UnexpectedFrameType`, a data offset below two `InvalidSize`, an extended header beyond the frame `Incomplete`, bytes after a performative other than a transfer `UnparsedBytesLeft`. Together with what is read (C72) and what panics (C84) this covers every input of every decoder: each is in exactly one of the three sets. The codec returns an error for exactly the streams that begin with frames that are read and go on with such a frame, in whatever pieces they arrive.", "quantifier": "all inputs of all lengths, all types the library decodes, all environments (overflow checks on or off, any stack depth), all divisions of a stream into pieces; streams shorter than 2^63 bytes", "why_tests_cant": "An error test tries the few malformed inputs its author thought of and checks that some error comes out. That no other input is refused, and that the error is always the one that describes the first defect, is a statement about all byte strings.", "anchors": ["src/codec/decode.rs: the macros be_read and validate_code, read_u8 .. read_bytes_u32, every impl DecodeFormatted, decode_frame_header .. decode_compound32", "src/protocol/definitions.rs: every decode_with_format and decode_*_inner", "src/protocol/mod.rs: impl DecodeFormatted for Error, MessageId", "src/message/inmessage.rs: impl Decode for InMessage", "src/message/outmessage.rs: impl Decode for OutMessage", "src/io.rs: impl Decoder for AmqpCodec", "src/errors.rs"]}
{"id": "C94", "title": "The error for ill-formed text says where it stops being text", "statement": "`Utf8Error` is returned with `valid_up_to` and `error_len` that are true of the text that was sent, counted from its first byte: the bytes before `valid_up_to` are text and no longer beginning is; `error_len` is `None` exactly if bytes could follow that make it text, that is if the length ends inside a character, and then at most three bytes are missing; otherwise it is the length, one to three, of the longest beginning of a character found there, or one, and nothing that follows makes it text. For strings and symbols the error is returned exactly if the bytes announced are there and this is what can be said of them; in values, frames and messages it is about a text that is there after its length.", "quantifier": "all byte strings, all decoders, frames and messages", "why_tests_cant": "There are more kinds of ill-formed sequences, at every position of texts of every length, than tests can try; that no longer beginning is text is a statement about all of them.", "anchors": ["src/codec/decode.rs: impl DecodeFormatted for ByteStr, Str, Symbol (str::from_utf8)", "src/errors.rs: AmqpParseError::Utf8Error"]}
{"id": "C95", "title": "What conforming peers send through a relay conforms exactly if it holds no list", "statement": "A program reads frames, values or messages with this library and writes them again. If what it read was as the standard says, then what it writes is a legal encoding of the same value exactly if there is no list within any value of it (in properties, annotations, outcomes, map keys, message bodies), no body of sequences and no array of several symbols that takes 254 bytes. Everything else that the library writes illegally (C71) cannot come from a legal encoding. So a relay that refuses exactly these is a conforming one, whatever its peers send and however it is cut.", "quantifier": "every legal encoding below 1 GiB of every value, AMQP and SASL frame and message that the decoders accept (C50, C71), every segmentation of a stream", "why_tests_cant": "The legal encodings are infinitely many and most are never written by this library; that none of those without lists is sent on illegally, and all of those with lists are, is a statement about all of them.", "anchors": ["src/codec/decode.rs", "src/codec/encode.rs", "src/protocol/definitions.rs", "src/framing.rs: AmqpFrame, SaslFrame", "src/message/inmessage.rs", "src/io.rs"]}
