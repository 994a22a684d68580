#!/usr/bin/env python3
"""Writes MANIFEST.json from the property theorems found in lean/Verif/Props.

A theorem belongs to property Cxx if its name is Cxx_...  A property is
"partial" if one of its theorems is marked `_partial` or `_violated`."""
import json, re, pathlib
root = pathlib.Path(__file__).resolve().parent.parent
NOTES = {
    "C09": "False of the code as stated: panic and stack-overflow witnesses are proved, and every panic of every decoder is proved to be due to a listed feature of the input (so inputs without them never panic).",
    "C12": "False of the code for timestamps before the epoch and outside chrono's range; the exact set of surviving values is proved.",
    "C13": "False of the code for the descriptor Ulong(0); proved for all others.",
    "C14": "False of the code for some variants; proved as an equivalence: exactly the variants described by Variant.Survives round-trip.",
    "C15": "False of the code: proved that no list at all can be read back.",
    "C18": "False of the code in builds with overflow checks for 254 item bytes; proved as an equivalence.",
    "C31": "False of the code: a decoding error leaves the codec waiting for the rest of a frame it has consumed. What holds after errors is proved.",
    "C32": "False of the code: a frame size below 4 makes the codec panic (overflow checks) or wait for 2^64 bytes (no checks). Proved that all smaller violations are reported.",
    "C35": "False of the code for messages with a header section: the excess is proved to be exactly 3 bytes per header section; equality is proved for all others.",
    "C36": "False of the code for set_value after encoded_size; proved for all other histories.",
    "C38": "False of the code: the remainder of a decoded message is never empty; it is proved to be the bytes of the last section.",
    "C42": "Hashing is proved to depend on the text only if the external crate string hashes String<Bytes> as a str (parameter asText; C42_hash_needs shows the assumption is needed). Ordering is proved to be inconsistent with equality, as the statement says.",
    "C44": "False of the code: proved that no stack budget suffices for all inputs; proved that a budget of a third of the input length suffices for every decoder.",
    "C50": "False of the code for descriptors in the one-byte form of 0, timestamps excluded by C12, keys containing maps (decoding), and for lists and arrays of 254 item bytes (encoding); proved otherwise, exactly for scalar and text types. What is written for a variant is legal exactly if it is Writable (C50_encode_exactly_partial). A legal encoding is read as its value exactly if it is within Dialect.accepted and nested within the stack (C50_decode_exactly_partial). The standard is transcribed in Verif/Spec/Wire.lean.",
    "C52": "False of the code for arrays of items that take no bytes (C52_violated_array: ten bytes, any count); proved for all other types.",
    "C53": "False of the code: a count is trusted before the input is looked at (C53_violated_nested). Proved for successful decodes other than arrays of items without bytes, and with a factor of 2^32-1 for all; both also for every message and frame (C53_covered_partial, C53_limit_partial), where C53_violated_frame needs 20 bytes of a SASL frame.",
    "C54": "Strings are keyed by their text; that the two representations of Str hash alike is C42, under the same assumption on the external crate string.",
    "C55": "False of the code: C55_violated_binary, C55_violated_frame. Proved as an equivalence for variants, binaries, strings and symbols; counts of arrays, lists and maps proved to be bounded for every decoded value.",
    "C56": "False of the code: C56_violated_map, C56_violated_array, C56_violated_message, C56_violated_waiting. Proved without exception for scalars, text, enumerations, described lists and their unions; for values without maps; for frames up to the payload; maps, arrays and messages up to the stated outcomes.",
    "C57": "Proved for payloads given as bytes and for messages without header sections given directly (C57_payloads, C57_messages, C57_whole_message, C57_sendable_partial). False of the code for messages with header sections given directly: C57_violated, exactly described by C57_violated_header.",
    "C59": "Memory bound and independence of capacity proved. That the buffer is extended to fit the whole frame is false of the code beyond 32 KiB: C59_violated; proved up to that: C59_fit_partial.",
    "C60": "Types proved without exception (C60_code, C60_kind). Text proved for all but StaticSymbol, for which it is false of the code: C60_violated_static_symbol.",
    "C62": "False of the code as stated (C62_statement): C62_violated and the witnesses C62_violated_list, C62_violated_descriptor, C62_violated_array, C62_violated_body. Proved for everything that holds none of these (Forwardable), for values, performatives, sections, frames, messages and whole connections; for variants as an equivalence (C62_exactly_partial), for everything else as an equivalence in C87.",
    "C92": "False of the code: C92_violated_float, C92_violated_order, C92_violated. Proved for everything without zeros and NaNs in floating point and without maps of several entries (C92_steady_partial), for SASL frames in full (C92_sasl), and as an equivalence for variants (C92_variant_iff).",
    "C95": "Legal encodings as in C50 and C71 (Spec/Wire, Spec/Standard), of these the ones that are accepted; what holds no list: Spec/Plain.",
    "C94": "run_utf8_validation of the standard library is transcribed (Utf8Error.lean), without its fast path over ASCII.",
    "C63": "False of the code as stated (C63_violated: messages whose size was remembered, and C63_violated_transfer). Proved: == is an equivalence everywhere (C63_equivalence, C63_performatives) and equal values have equal sizes; == goes by content for messages none or both of which have been measured (C63_content_partial, C63_sized_both_partial).",
    "C64": "False of the code as stated (C64_violated: maps in maps cost quadratically many calls). Proved: at most one call per byte and level of nesting for values (C64_values_partial), and exactly which values are looked at how often (C64_values_exact); linear for messages, whatever is cached (C64_messages, C64_messages_linear); for performatives and sections (C64_fields_partial), whole messages (C64_sections_partial) and frames handed to the codec (C64_frames_partial, C64_frames_flat) at most a constant per byte and level, and linear for SASL frames (C64_sasl).",
    "C67": "False of the code as stated (C67_violated_io: Clone drops the inner I/O error). Proved: an error's clone is the error unless it is Io(Some(_)), and in particular for every error the codec itself returns (C67_codec_partial).",
    "C70": "Second half false of the code (C70_violated_list, C70_violated_map: a field or entry that does not fit its list or map is answered with Incomplete whatever follows). Proved: the first half for every type, frame and message; the second half for scalars, text, binaries, descriptors, arrays and restricted types.",
    "C71": "False of the code as stated (C71_violated_filter, C71_violated_filter_written, C71_violated_coordinator, C71_violated_sequence, C71_violated_two_bodies). Proved in full for the types without values of any type, symbols or times; for the others reading within Scope.accepted (values as in C50, nesting within the stack) and writing under the conditions Standard.can… (no lists within values, ASCII symbols, whole milliseconds, distinct keys, no text filters, no custom names that are the standard's, no arrays of 254 bytes). These conditions are exact (C71_written_…_exactly_partial): below 4 GiB nothing else is written as the standard says, for every type, frames and messages with one kind of body. So is the restriction on reading (C71_read_exactly_partial, C71_read_amqp_frame_exactly_partial, C71_read_stream_exactly_partial, C71_read_message_exactly_partial): a legal encoding of a performative, delivery state, terminus, error or properties, a legal frame, stream of frames or message is read as what it is exactly if it is within Scope.accepted.",
    "C74": "False of the code as stated: a list with the code 0 cannot be read back (C74_violated_zero), one with a code above 255 announces 7 bytes too few (C74_violated_size), and the domain of a code is dropped (C74_violated_domain). Proved for all other codes; sizes as an equivalence.",
    "C79": "That there is a panic without room is false of values that hold UUIDs (C79_violated_uuid; C79_variant_iff gives the exact condition for values of any type). Everything else is proved for all types.",
    "C78": "That texts identify errors is proved without exception. That they are single lines is false of the code: a symbolic descriptor is quoted unescaped (C78_violated, C78_violated_quoted); the exact condition is C78_one_line_iff_partial; for errors of frames and messages C78_received_partial.",
    "C89": "False of the code in each of its parts (C89_violated; C89_violated_forged, C89_violated_quoted, C89_violated_representation): symbols and strings are quoted unescaped. Proved: errors without further information are identified by their texts (C89_identifies_partial), condition and description if the symbol of the condition has no quotes (C89_condition_partial), the whole error if nothing in it has quotes or is NaN (C89_whole_partial), and exactly when a text is one line (C89_one_line_iff_partial). How floating point numbers, times, uuids, characters and binaries are shown is a parameter.",
    "C90": "False of the code (C90_violated): the text of a frame determines its credentials (C90_violated_tells), and passwords stand in it as typed (C90_violated_password). Proved: the error for an incomplete frame shows only a number (C90_errors_partial). The Debug of Bytes is modelled after bytes 0.4.",
    "C77": "False of the code as stated: for every fixed hash function of 64 bits there are inputs whose decoding takes a quadratic number of comparisons (C77_violated, C77_violated_any), also as an open frame (C77_violated_open), and explicitly for the hash function in use (C77_violated_fx). Proved: the quadratic bound, that keys of different hashes need no comparisons, and that in the hash function in use numbers of one type, truth values and characters have different hashes (C77_numbers_partial, C77_number_keys_partial).",
    "C75": "False of the code as stated: x-link and xlink give the same function names (C75_violated_functions), and of the keywords of Rust only type and return are provided for (C75_violated_keyword). Types and fields proved without exception, functions for names whose words other than the last have two letters or more.",
}
props = [json.loads(l) for l in open(root / "properties.jsonl") if l.strip()]
found = {}
for f in sorted((root / "lean/Verif/Props").glob("*.lean")):
    ns = re.search(r"^namespace (\S+)", f.read_text(), re.M).group(1)
    for name in re.findall(r"^theorem (C\d\d_\w+)", f.read_text(), re.M):
        found.setdefault(name[:3], []).append(ns + "." + name)
claims = []
for p in props:
    names = found.get(p["id"], [])
    if not names:
        status = "not_applicable"
        note = "No theorem yet."
    else:
        partial = any(("_partial" in n) or ("violated" in n) for n in names)
        status = "partial" if partial else "proved"
        note = NOTES.get(p["id"], "")
        if partial and not note:
            note = "See the theorems marked violated and partial."
    claims.append({"property": p["id"], "status": status, "theorems": names, "note": note})
ids = {p["id"] for p in props}
assert set(found) <= ids, set(found) - ids
allNames = [n for c in claims for n in c["theorems"]]
audit = """import Lean
import Verif.Axioms
import %s
/-! Generated by `tools/gen_manifest.py`: the build fails if a theorem of the
manifest depends on an axiom other than `propext`, `Classical.choice` and
`Quot.sound`. -/

%s
""" % ("\nimport ".join("Verif.Props." + f.stem for f in sorted((root / "lean/Verif/Props").glob("*.lean"))),
       "\n".join("#audit " + n for n in allNames))
(root / "lean/Verif/Audit.lean").write_text(audit)
json.dump({"claims": claims}, open(root / "MANIFEST.json", "w"), indent=1)
open(root / "MANIFEST.json", "a").write("\n")
for s in ("proved", "partial", "not_applicable"):
    print(s, [c["property"] for c in claims if c["status"] == s])
