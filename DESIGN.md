# Formal model of amqp-codec in Lean 4

* Source: `/repo` (Rust), read as text only, never built or changed.
* Model, specifications and proofs: `lean/Verif`.
* Properties: `properties.jsonl` (written by `tools/gen_properties.py`).
* Claims and exact theorem names: `MANIFEST.json` (written by
  `tools/gen_manifest.py` from the theorem names in `lean/Verif/Props`).
* Mutation tests: `seeded/LOG.jsonl`.

## Trusted base

1. **Lean 4.33.0's kernel.**  No axioms of our own, no `sorry`, no `native_decide`,
   no `bv_decide`.  Every theorem named in the manifest depends on no axiom other
   than `propext`, `Classical.choice` and `Quot.sound`; `Verif/Audit.lean`
   (generated) makes the build fail otherwise.
2. **The model says what the Rust says.**  Every definition of the model cites
   file and lines and states its simplifications.  `tools/citations.py` lists the
   source lines that no definition cites.  `Protocol/Lists.lean`, the described
   lists, is generated from `src/protocol/definitions.rs` by
   `tools/gen_protocol.py`; the generator refuses text it does not recognise.
   `tools/check_definitions.py` renders the template of the crate from its specification
   and finds the result equal, token by token, to `definitions.rs`, so that no type in it
   departs from the template (a check of the text, outside the proofs; C73 is the proof).
3. **The specifications say what the properties say.**  They are in `Spec/*` and in
   the theorem statements, and do not use the helpers of the proofs.  For described
   lists, the expected fields, types, defaults and descriptors come from
   `/repo/codegen/specification.json` (`tools/gen_props.py`), not from
   `definitions.rs`.
4. **Third-party behaviour**, as far as the code depends on it:
   * `bytes` 0.4: `BytesMut` holds bytes and has a capacity; `put_*` panics when
     there is no room; `reserve(n)` makes room for at least `n` (how much more is a
     parameter, `slack`); `split_to` removes a prefix.
   * `chrono` 0.4: `Utc.timestamp(secs, nanos)` panics outside chrono's range and
     otherwise yields that instant; `timestamp()` and `timestamp_subsec_millis()`
     as in `Types.lean`; a `nanos` of 10^9 and more is a leap second.
   * `hashbrown` 0.1.8: a search in a `HashMap` finds only entries whose key compares
     equal, and finds one if there is one that also has the same hash
     (`Spec/Tables.lean`; that this makes it a finite map is C54); every insertion
     and lookup hashes its key; a key that is added has been compared with all stored
     keys of its hash (`Spec/TableWork.lean`, C77 only); the default hash function is
     `FxHasher` (`FxHash.lean`, `C77_violated_fx`, `C77_violated_keys`, `C77_numbers_partial`
     and `C77_number_keys_partial` only).
   * `tokio-io` 0.1: the default `Decoder::decode_eof` and `FramedRead::poll`
     (`FramedRead.lean`, C82 and C83 only), `FramedWrite` (`FramedWrite.lean`, C83 only).
   * `std`: `str::from_utf8` is `run_utf8_validation`
     (the validator and its errors are modelled, and proved equal to the Unicode
     definitions, C10, C94).
   * `string` 0.1.3: `String<Bytes>` compares by content.  How it hashes is a
     parameter (`asText`) of C42.
   * `ordered-float` 1.0: equality as in `F32.feq`, `F64.feq` (all NaNs equal, zeros
     equal).
   * `usize` has 64 bits.

## Modelling decisions

* Bytes are `List UInt8`; integers are Lean's fixed-width types; `f32`/`f64` are
  their bit patterns; `char` is Lean's `Char`.
* A decoder is `Bytes → Res ParseError (Bytes × α)` with `Res = ok | err | panic`.
  Panics are values, so "never panics" is a statement and panics can be blamed on
  features of the input.  All functions are total; loops are structural.
* `Env` carries the build mode (`overflowChecks`: panic or wrap) and a stack budget
  (`stackDepth`), which counts nested decodes of `Variant`, the only recursion of
  the decoders.  Exceeding it is `panic stackOverflow`.  `Codec/Stack` does the same for
  encoding, and `Codec/StackUse` for equality, hashing, cloning and dropping (C80); elsewhere
  these are taken to have stack enough.
* An encoder yields the bytes it appends (`enc`), and the calls on the buffer that append
  them (`writes`, with the law `EncodeW.output` that they do): `put_*`, which panics without
  room, or `extend_from_slice`, which grows the buffer.  A run of `put_*` calls is one
  `putSlice` of their bytes, which by `Buf.putSlice_append` panics and appends alike; what a
  panic leaves in the buffer is not modelled.
* Text is modelled by content in the codec (`RStr`: bytes with a proof of
  well-formedness).  The two representations of `Str` are modelled in
  `StrRepr.lean` for everything that could tell them apart (C42).
* A `HashMap` is an association list in iteration order; inserting replaces the
  value of an equal key or appends.  That a hash table, whatever its hash function,
  holds these entries in some order is proved (C54).  That results do not depend on the order is
  proved (C16, C37), not assumed.
* Reservations of memory are counted by a second set of decoders
  (`Codec/Reserve.lean`), proved to compute the same results (`C53_same_result`).
* Calls of `decode_with_format` and bytes checked and copied are counted by a third set (`Codec/Counted.lean`,
  `Protocol/CountedBase.lean`, `Protocol/Counted.lean`, `Counted.lean`), proved to compute
  the same results (the field `same` of `Thrifty`).  Inserting into a `HashMap` (see C77)
  is not counted, nor is moving bytes inside the receive buffer.
  Allocation itself is not modelled.
* Calls of `encoded_size` and `encode` are counted by another set of encoders (`Work`,
  `Protocol/Work*`), proved to compute the same (`C64_same*`).
* Lifetimes, sharing of `Bytes` and drop order have no observable effect here and
  are not modelled.

## What is modelled

| file of `/repo/src` | model | not modelled |
|---|---|---|
| `codec/mod.rs` | `Basic`, `Codec/Decode`; unit tests in `Tests/Repo` | traits as such (Lean classes) |
| `codec/encode.rs`, `codec/decode.rs` | `Codec/Encode`, `Codec/Writes`, `Codec/Decode`, `Utf8`, `Utf8Error`; unit tests in `Tests/Repo` | |
| `types/*.rs` | `Types`, `StrRepr`, `Hash`, `FxHash`, `Accessors`, `Display`, `Debug` | `Debug` of `ByteStr`, `Array` and `List` as such; how numbers that are not integers, times, uuids, characters and binaries are shown (a parameter) |
| `protocol/mod.rs` | `Protocol/*`, `Debug` (`Display for Error`), `DebugSasl` | `Debug` of other types |
| `protocol/definitions.rs` | `Protocol/{Enums,Conditions,Lists,Transfer,Frame,Getters}` | nothing |
| `framing.rs` | `Framing`, `Accessors` | |
| `io.rs` | `Io`; `IoBuf` (growth of the receive buffer); `FramedRead`, `FramedWrite` (the callers) | |
| `message/*.rs` | `Message`, `Accessors` | |
| `errors.rs` | `Types`, `Io`, `Accessors`, `Display` | `Debug` |
| `codegen/mod.rs` | `Codegen/Names`, `Codegen/Definitions` | parsing of JSON text (the model starts from the JSON value); for a specification with both a missing entry and a bad truth value in one object, which of the two is reported first; the order in which a `HashMap` yields unions |
| `codegen/definitions.rs` | `Codegen/Template` (what the rendered functions do, for any list, enumeration and union), `Codegen/Compile` (what the names in the rendered file stand for) | rendering to text; getters (see C65) |
| `codegen/specification.json` | `Codegen/Specification`, generated | |
| `build.rs` | `generate` | files and the call of `rustfmt` |

## Modules

* `Basic`, `Utf8`, `Utf8Error`, `Types`, `StrRepr`, `Codec/*`, `Protocol/*`, `Framing`, `Io`,
  `IoBuf`, `Buf`, `FramedRead`, `FramedWrite`, `Message`, `Accessors`, `Work`: the model.
* `Spec/*`: vocabulary of the statements.  `Spec/Wire` is a transcription of the
  AMQP 1.0 type system; `Spec/Panics` lists the features panics are blamed on.
* `Proofs/*`: helper lemmas.
* `Props/*`: the property theorems with examples that meet their hypotheses.
* `Axioms`, `Audit`: the axiom check.
* `Tests/Repo`: every unit test of the repository, transcribed and evaluated on the
  model.  Tests, not proofs: they check that the model behaves as the program does.

When a property is false of the code, the full statement is kept as
`Cxx_statement`, refuted by `Cxx_violated*`, and the largest true part is proved as
`Cxx_*_partial`; where possible as an equivalence, so that nothing more holds.

## Per property

| id | modelled | how proved | status |
|---|---|---|---|
| C01 | scalar codecs | case analysis per width; big-endian inverse by induction | proved |
| C02 | text and binary codecs | length prefix lemma | proved |
| C03 | every `Encode` type | structural induction; field by field for lists | proved |
| C04 | scalar and text decoders | inversion of the decoder | proved |
| C05 | every decoder | locality predicate closed under bind and loops; induction on the stack budget | proved |
| C06, C07 | round trip and locality; the languages of C72 for transfers, frames and messages, which do not say where they end (`Props/CutShort.lean`) | generic consequences; exactly which truncated transfers, frames and messages are accepted | proved |
| C08 | scalar, text, enumeration decoders | no-panic predicate closed under bind | proved |
| C09 | every decoder | blame predicate: each panic has a cause in the input | false; causes proved |
| C10, C11 | UTF-8 validator, `char` | equivalence with the Unicode definition | proved |
| C12 | timestamps | integer arithmetic; exact set of survivors | false; partial |
| C13 | descriptors | case analysis | false for 0; partial |
| C14 | `Variant` | induction on values; equivalence | false; partial |
| C15 | lists | every list fails | false |
| C16, C17 | maps | permutation invariance; insertion lemmas | proved |
| C18 | `Vec`, `Multiple` | loop induction; equivalence | false for 254 bytes; partial |
| C19, C20 | enumerations | symbol comparison over all symbols | proved |
| C21 | described lists | field monad lemmas, per type | proved |
| C22 | described lists against `specification.json` | per type, every prefix of the fields | proved |
| C23, C24 | described lists, unions | generic lemmas, per type | proved |
| C25-C27 | frames, transfer | composition | proved |
| C28-C30 | `AmqpCodec::decode` | state machine; well-founded drain; induction on chunks and schedules | proved |
| C31, C32 | `AmqpCodec::decode` | witnesses; what holds after errors | false; partial |
| C33 | `ProtocolIdCodec` | case analysis | proved |
| C34 | `AmqpCodec::encode` with capacity | capacity invariant | proved |
| C35 | message sizes | induction on nested messages; exact excess | false; partial |
| C36 | size cache | induction on histories of calls | false; partial |
| C37-C39 | message codecs | fold over sections | C38 false |
| C40 | replies | direct | proved |
| C41 | SASL PLAIN | splitting at NUL | proved |
| C42 | `Str`, `Symbol` | both representations | proved under `asText` |
| C43 | `Variant` equality | induction; permutations | proved |
| C44 | stack use | witness for every budget; sufficient budget | false; partial |
| C45 | decode after encode after decode | inversion and C14 | proved |
| C46 | `VecVariantMap` | loop induction | proved |
| C47, C48 | scalar and text decoders | case analysis over all codes | proved |
| C49 | `MessageId` | case analysis | proved |
| C50 | all codecs against `Spec/Wire` | inversion of decoders; induction on legal encodings; that the conditions for writing and for reading are exact: a legal encoding is self-delimiting (`Skips`), so that it and what is written, or what is accepted (`Spec/Lenient`), can be compared part by part | false in listed cases; partial |
| C51 | message builders and accessors | induction on histories of calls | proved |
| C52 | every collection decoder | weight covered by bytes read; closed under loops; induction on the stack budget | false for items without bytes; partial |
| C53 | collection decoders with their reservations (`Codec/Reserve`) | the counting decoders erase to the others; two potential arguments | false; partial |
| C54 | `Hash` and `==` of keys (`Hash`), hash tables by their guarantees (`Spec/Tables`) | equal keys have one normal form; induction on insertions | proved |
| C55 | every length and count field | inversion of headers; induction on values; equivalence | false; partial |
| C56 | every decoder | a predicate on decoders closed under sequencing; induction on the stack budget and on sections | false for maps, arrays, messages; partial |
| C57 | codec, frames, transfers, message encoder and decoder | C30 and C37 composed through a small reassembly specification; induction on the frames sent | false for message bodies with headers (they swallow bytes of the next frame); partial |
| C58 | all codecs of `io.rs` exchanged on one buffer | `Spec/Handshake`: a plan chooses the codec from the items so far; invariant relating the state to a chain of single-item decodes of the whole stream | proved |
| C59 | `AmqpCodec::decode` with the capacity of its buffer (`IoBuf`) | equal to the model of C28-C32 on bytes; invariant on free room | false that the whole frame is reserved for; partial |
| C60 | `Variant` decoder and encoder, `as_str`, comparison with text | table of types by format code; postcondition of the decoder, first byte of the encoder | false for StaticSymbol; partial |
| C61 | every decoder and codec, in two environments | `Spec/Modes`; a relation between decoders closed under sequencing, induction on both stack budgets, sections and events | proved |
| C62 | decoders followed by encoders, for every type | `Spec/Forward*`; what a decoder yields meets the side conditions of the round trip (C14–C18), field by field from the specification's tables; messages through C39 and C53 | partial: false for lists, descriptor 0, symbol arrays with 254 bytes of content and bodyless messages, with witnesses |
| C63 | derived `PartialEq` of every type (`Equality`, `Protocol/Equality`, `Protocol/FrameEquality`) | `Spec/Equality*`; equivalence laws by structural induction, instance by instance, from C43; what decoders yield meets the side condition; messages by induction over nesting with the remembered sizes set to 0 | partial: false for messages once measured, with the general failure proved |
| C64 | encoders that also count calls (`Work`, `Protocol/WorkBase`, `Protocol/Work`, `Protocol/WorkMessages`, `Protocol/WorkFrames`), proved to compute the same | `Spec/Work`, `Spec/WorkBase`, `Spec/WorkLists`, `Spec/WorkMessages`, `Spec/WorkFrames`; values by structural induction; messages by an amortised bound: what measuring costs is paid once, since the size is remembered | partial: false for nested lists and maps, with the exact count for maps in maps; frames at most 24 calls per byte and three per byte and level |
| C65 | accessors, constructors, `From` conversions (`Accessors`, `Protocol/Getters`, the latter generated from `definitions.rs`) | field names and positions from the AMQP specification's tables (`Props/Getters`, generated from `codegen/specification.json`), composed with C20, C24, C25, C26 and C39 | proved |
| C66 | `From` for `Variant`, `MessageId` | `Spec/Accessors` (`SameView`): format code by format code; maps by induction on the entry loop | proved |
| C67 | `Clone for AmqpCodecError` | case analysis | partial: false for I/O errors |
| C68 | every decoder once more, counting calls, requested room and bytes gone through (UTF-8 checks, copies) at given prices (`Codec/Counted`, `Protocol/Counted*`, `Counted`) | erasure to the modelled decoders; potentials of three calls and two looks per byte, carried through fields, lists, slices, the message loop and the codec; lower bound by the nodes and texts of the value, exact counts for scalars, texts, binaries and payloads | proved; arrays of items without bytes excepted (`C68_array_exception`) |
| C69 | every decoder's errors | `Spec/Errors` says what each error claims, `Spec/ErrorTables` (generated from `codegen/specification.json`) which fields and enumerations a type has; a triple "run on a part of the input, a result has Q, an error explains itself" closed under sequencing, slices and loops | proved |
| C70 | every decoder, twice on inputs one of which begins with the other | `Final` closed under sequencing because successful decoders are local (C07); messages by induction on sections. `Hopeful` closed under sequencing of local decoders | partial: the second half is false inside lists and maps, with witnesses |
| C71 | the standard's layouts of every protocol type transcribed from its text (`Spec/Standard.lean`), none of it referring to encoders or decoders; all codecs, frames, messages and streams | reading: every form of a slot is read (C50 for values, `Fill` by cases on given, null and left out), lists by their `ListType` description, frames and streams by C27/C38; writing: fields one by one, sizes below 2^32; that the conditions `can…` are exact: an encoding that is legal and agrees with what is written is compared with it field by field (`Sharp`), and for reading a legal encoding with one that is accepted, C72 (`Aligns`), for messages section by section: where a section ends does not depend on what it is read as (`EndsAlike`) | partial: in full for types without variants, symbols or times; restrictions listed in the file, with five witnesses that they are needed |
| C72 | the accepted language of every type (`Spec/Lenient.lean`), as the standard's layouts over a laxer record of part encodings plus laxer containers; all decoders, the codec, streams, messages | both inclusions per decoder, by induction on nesting for variants, on counts for maps, lists and arrays, on slots for field lists; frames by C25, streams by splitting off one frame at a time | proved |
| C73 | the generator (`Codegen/*`), the specification (`Codegen/Specification`, from `codegen/specification.json` by `tools/gen_specification.py`) | the generator is evaluated on the specification by the kernel; each type it yields is related to the type of the model by a bijection under which decoding, sizes and bytes agree, field by field; the accessors are compared with those read from the text of `definitions.rs` (`Codegen/Accessors`) | proved |
| C74 | templates of lists, enumerations, unions (`Codegen/Template`) over any field types | induction on fields and on options, for any type whose values round-trip | partial: false for the code 0, codes above 255, and equal codes in different domains |
| C75 | `camel_case`, `snake_case` (`Codegen/Names`) | induction on words; left inverses | partial: false for functions of names with one-letter words, and for keywords |
| C76 | reading the specification (`Codegen/Definitions`) | the document of given types (`Spec/Specification`) is read back; the fold over types is equal to filters and maps of the specification | proved |
| C77 | insertion into any hash table with its comparisons (`Spec/TableWork`), the default hash function of `hashbrown` 0.1.8 (`FxHash`) | pigeonhole over numbered keys for any hash function, explicit keys for the one in use, which is injective on numbers (an odd factor); induction on insertions | partial, violated (quadratic) |
| C78 | `Display` of the errors (`Display`) | the texts begin differently; decimal numbers and UTF-8 are injective | partial, violated (line breaks) |
| C79 | the calls of every encoder on `BytesMut` (`Buf`, `Codec/Writes`, `Protocol/Writes`) | induction on the calls; values without UUIDs (`Spec/Room`) by induction on the type | partial, violated (UUIDs grow the buffer) |
| C80 | `encoded_size` and `encode` of `Variant` with a stack budget (`Codec/Stack`); derived equality, hash, clone and drop likewise (`Codec/StackUse`) | induction on the budget; depth of decoded values (C44) | proved |
| C81 | the effect of `encoded_size` and `encode` on remembered sizes, at any depth (`Message`, `Spec/Looks`) | induction on nesting, paths and histories | proved |
| C82 | the `decode_eof` that the codecs inherit and the `FramedRead` that calls it (`FramedRead`) | laws of a codec that make it independent of segmentation; induction on reads and polls; the calls of both codecs case by case | proved |
| C83 | the `FramedWrite` that calls `AmqpCodec::encode` (`FramedWrite`), joined to a `FramedRead` | invariant of the buffer under every call; C82 for the other end | proved |
| C84 | the inputs that make each decoder panic (`Spec/Crashes.lean`), with the reason, over the accepted language of C72; all decoders, the codec, streams, messages | both inclusions per decoder, by induction on nesting for variants, on counts for maps, lists and arrays, on slots for field lists; choices by C24, frames by C25, streams and messages by splitting off what is read | proved |
| C85 | what becomes of each value between encoder and decoder (`Spec/Sent.lean`), as a function on values | induction on the value, the entry loop with the map built so far; the consequences by induction on that function | proved |
| C86 | what becomes of each field, performative, frame and message (`Spec/Travel*.lean`; the part for the list types is generated from the list of their fields by `tools/gen_travel.py`), as functions on them | one law per type, composed over the fields in the order in which they are read; frames by the codec's framing lemma, streams by induction on the list of frames, messages section by section | proved |
| C87 | nothing new: decoders (C72), what becomes of what is sent (C86), which values can be passed on (`Spec/Forward*.lean`, C62) | what a decoder yields arrives as it is if it arrives, and arrives iff it can be passed on: per type, field by field from the origin of each field (generated by `tools/gen_travel.py`); frames and messages from their performatives and sections; connections and chains by induction on frames and hops | proved |
| C88 | nothing new: decoders and encoders; the two lengths are related in `Spec/Growth.lean` | per decoder a bound on the encoding of what it yields, by induction on nesting, items and entries; list types field by field with the bytes for fields left out; messages section by section; connections by induction on frames, chains from C87; families of frames that attain the factor | proved |
| C89 | derived `Debug` of `Error` and all it holds (`Debug`); texts of leaves that other crates write are parameters | escaping and hexadecimal numbers are prefix-free, so that fields can be peeled off one by one; where a line break can come from, by induction on nesting | partial, violated (unescaped symbols) |
| C90 | derived `Debug` of the SASL frames (`DebugSasl`), with the `Debug` of `Bytes` from bytes 0.4; which symbols are static is a parameter | an escaped byte can be read back, so that binaries are peeled off the text; passwords without escapes are an infix; C56 for the errors | partial, violated (derived Debug) |
| C91 | the template of C74, for two lists of fields, items or options of which one extends the other (`Spec/Extended`) | decoding fields is a sequence, so the decoder of an extended list is that of the list followed by that of the added fields; with no fields left these give what the specification demands; the size of the list cuts off unknown fields | proved |
| C92 | `==` (C63) and the encoders; steady values (`Spec/Steady`): no zero or NaN in floating point, no map of several entries | equal steady values are the same value, by induction; a variant that is not steady has an equal twin (sign or payload of a float changed, two entries exchanged) that also survives encoding, hence has other bytes (C07); concrete frames refute the full statement | partial: violated by floats and the order of maps |
| C93 | the inputs each decoder refuses (`Spec/Refusals.lean`), with the error, over the accepted language of C72; all decoders, the codec, streams, messages | both inclusions per decoder: by format code for values, by induction on nesting for variants, on counts for maps, lists and arrays, on slots for field lists; enumerations by C19, choices by C24, frames by C25, streams and messages by splitting off what is read; with C72 and C84, three disjoint sets that cover all inputs (`C93_total`) | proved |
| C94 | `run_utf8_validation` (`Utf8Error`) | functional induction on the check; each of its answers against the encodings of scalar values (`Spec/TextErrors`); the answer is unique | proved |
| C95 | nothing new: decoders and encoders against `Spec/Standard`; values without lists in `Spec/Plain` | a legal encoding meets each condition for writing but two: induction on legal encodings of values, then slot by slot (`GivesAll`); with the exactness of the conditions (C50, C71), reading (C71) and the bound on what is sent on (C88) | proved |

Nothing in the list is inexpressible in the model.
