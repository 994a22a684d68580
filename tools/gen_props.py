#!/usr/bin/env python3
"""State the properties of enumerations (C19), lists (C21, C22, C23), descriptors
(C24) and accessors (C65) for every type of /repo/codegen/specification.json.

Names, codes, field order, mandatory flags and defaults come from the
specification only, never from /repo/src.  Usage: gen_props.py [spec] [out dir]
"""
import json, re, sys, os

SPEC = sys.argv[1] if len(sys.argv) > 1 else "/repo/codegen/specification.json"
OUT = sys.argv[2] if len(sys.argv) > 2 else "/verif/lean/Verif/Props"
spec = json.load(open(SPEC))
text = open(SPEC).read().split("\n")

def camel(n):
    return "".join(w[0].upper() + w[1:] for w in re.split(r"[-_ ]", n))

def snake(n):
    return n.replace("-", "_")

def low(n):
    return n.replace("-", "_")

def cite(name):
    a = next(i for i, l in enumerate(text) if re.match(r'^    "name": "%s",' % re.escape(name), l))
    depth, b = 1, a
    while True:
        b += 1
        depth += text[b].count("{") + text[b].count("[") - text[b].count("}") - text[b].count("]")
        if depth == 0:
            return f"`codegen/specification.json:{a}-{b + 1}`"

PRIM = {"binary": "Binary", "string": "ByteStr", "ubyte": "UInt8", "ushort": "UInt16", "uint": "UInt32",
        "ulong": "UInt64", "boolean": "Bool", "symbol": "Symbol", "timestamp": "Timestamp", "map": "Map"}
PLURAL = {"symbol": "Symbols", "ietf-language-tag": "IetfLanguageTags"}
enums = [t for t in spec if t.get("choice")]
ENUM = {t["name"]: t for t in enums}
lists = [t for t in spec if t["class"] == "composite"]
aliases = {t["name"]: t["source"] for t in spec if t["class"] == "restricted" and not t.get("choice") and "descriptor" not in t}

def fty(f):
    if f.get("requires"):
        return camel(f["requires"])
    if f.get("multiple") == "true":
        return PLURAL[f["type"]]
    return PRIM.get(f["type"], camel(f["type"]))

def atom(t):
    return f"({t})" if " " in t else t

def lean(n):
    return {"end": "«end»", "from": "«from»"}.get(n, n)

def kind(f):
    if f.get("mandatory") == "true":
        return "req"
    return "dflt" if "default" in f else "opt"

def default(f):
    d = f["default"]
    if f["type"] in ENUM:
        return f"{camel(f['type'])}.{camel(d)}"
    return d

def code(t):
    hi, lo = t["descriptor"]["code"].split(":")
    assert int(hi, 16) == 0
    return int(lo, 16)

# Fields of these types round-trip whenever they are small enough.
ALWAYS = {"Binary", "ByteStr", "UInt8", "UInt16", "UInt32", "UInt64", "Bool", "Symbol", "MessageId", "Address",
          "Handle", "Seconds", "Milliseconds", "DeliveryTag", "SequenceNo", "DeliveryNumber", "TransferNumber",
          "MessageFormat", "Role", "SenderSettleMode", "ReceiverSettleMode", "SaslCode", "TerminusDurability",
          "TerminusExpiryPolicy"}

# A value of each type, its encoding, and why it round-trips.
def b(s):
    return ", ".join(f"0x{c:02x}" for c in s.encode())
SMALL = "SmallRT.rt debugEnv ({v} : {t}) (by decide)"
SAMPLE = {"Binary": ("⟨[1, 2, 3]⟩", "0xa0, 3, 1, 2, 3"), "ByteStr": ('.lit "héllo"', "0xa1, 6, " + b("héllo")),
          "UInt8": ("7", "0x50, 7"), "UInt16": ("500", "0x60, 1, 244"), "UInt32": ("70000", "0x70, 0, 1, 0x11, 0x70"),
          "UInt64": ("9", "0x53, 9"), "Bool": ("true", "0x41"), "Symbol": ('⟨.lit "sym"⟩', "0xa3, 3, " + b("sym")),
          "MessageId": ('.String (.lit "id")', "0xa1, 2, " + b("id")),
          "Role": (".Receiver", "0x41"), "SenderSettleMode": (".Settled", "0x50, 1"),
          "ReceiverSettleMode": (".Second", "0x50, 1"), "SaslCode": (".SysPerm", "0x50, 3"),
          "TerminusDurability": (".UnsettledState", "0x52, 2"),
          "TerminusExpiryPolicy": (".Never", "0xa3, 5, " + b("never"))}
for a, s in [("Handle", "UInt32"), ("Seconds", "UInt32"), ("Milliseconds", "UInt32"), ("SequenceNo", "UInt32"),
             ("DeliveryNumber", "UInt32"), ("TransferNumber", "UInt32"), ("MessageFormat", "UInt32"),
             ("DeliveryTag", "Binary"), ("Address", "ByteStr")]:
    SAMPLE[a] = SAMPLE[s]
SPECIAL = {"ErrorCondition": (".AmqpError .NotFound", "0xa3, 14, " + b("amqp:not-found"),
                              "LawfulCodec.rt debugEnv (ErrorCondition.AmqpError .NotFound) ⟨show _ < _ by decide, fun _ h => by cases h⟩"),
           "Symbols": ('⟨[⟨.lit "PLAIN"⟩]⟩', "0xa3, 5, " + b("PLAIN"),
                       'LawfulCodec.rt debugEnv (⟨[⟨.lit "PLAIN"⟩]⟩ : Symbols) ⟨fun _ _ h => by cases List.mem_singleton.1 h; exact SmallRT.rt debugEnv (⟨.lit "PLAIN"⟩ : Symbol) (by decide), fun h => absurd rfl h⟩')}

def sample(f):
    """value, wire, proof of Means for a present field, or null."""
    ty, kd = fty(f), kind(f)
    if ty in SAMPLE:
        v, w = SAMPLE[ty]
        if kd == "req":
            return v, w, SMALL.format(v=v, t=ty), SMALL.format(v=v, t=ty)
        v2 = f"some {atom(v)}" if " " in v else f"some {v}"
        opt = SMALL.format(v=v2, t=f"Option {ty}")
        return v2, w, opt, (opt if kd == "opt" else SMALL.format(v=v, t=ty))
    if kd == "req":
        v, w, p = SPECIAL[ty]
        return v, w, p, p
    return "none", "0x40", "fun _ => rfl", "fun _ => rfl"

def tname(t):
    return "TransferPerf" if t["name"] == "transfer" else camel(t["name"])

# ------------------------------------------------------------------ C19
def gen_enums():
    o = ["import Verif.Proofs.ListPrefix",
         "/-!",
         "# C19: enumerations",
         "",
         "Generated by `tools/gen_props.py` from `codegen/specification.json`: the members",
         "and their wire values are those of the specification.",
         "-/",
         "set_option autoImplicit false",
         "namespace Amqp", ""]
    for t in enums:
        E, b = camel(t["name"]), PRIM[t["source"]]
        sym = t["source"] == "symbol"
        o.append(f"/-- The values of `{t['name']}`, {cite(t['name'])}. -/")
        o.append(f"def {E}.specValue : {E} → {b}")
        for c in t["choice"]:
            v = f'⟨.lit "{c["value"]}"⟩' if sym else c["value"]
            o.append(f"  | .{camel(c['name'])} => {v}")
        o.append("")
        o.append(f"/-- **C19** for `{E}`. -/")
        o.append(f"theorem C19_{low(t['name'])} : Enumerates {E} {b} \"{E}\" {E}.specValue :=")
        o.append(f"  enumerates (fun env e => LawfulCodec.rt env e trivial) (fun e => by cases e <;> rfl) (fun b h => by")
        o.append(f"    show {E}.tryFrom b = _")
        o.append(f"    have h' : ∀ e, {E}.tryFrom b ≠ .ok e := h")
        o.append(f"    clear h; revert h'")
        o.append(f"    unfold {E}.tryFrom")
        o.append(f"    intro h")
        o.append(f"    repeat (refine ite_ok_or h ?_; clear h; intro h)")
        o.append(f"    rfl)")
        o.append("")
        c = t["choice"][-1]
        if sym:
            o.append(f"example : decode {E} debugEnv (0xa3 :: 3 :: [0x66, 0x6f, 0x6f]) = .err (.unknownEnumOption \"{E}\") :=")
            o.append(f"  C19_{low(t['name'])}.unknown debugEnv [0xa3, 3, 0x66, 0x6f, 0x6f] [] ⟨.lit \"foo\"⟩")
            o.append(f"    (LawfulCodec.rt debugEnv (⟨.lit \"foo\"⟩ : Symbol)\n      (show (RStr.lit \"foo\").bytes.length < 2 ^ 32 by decide)) (fun e => by cases e <;> decide)")
        elif b != "Bool":
            w = "[0x50, 200]" if b == "UInt8" else "[0x52, 200]"
            o.append(f"example : decode {E} debugEnv {w} = .err (.unknownEnumOption \"{E}\") :=")
            o.append(f"  C19_{low(t['name'])}.unknown debugEnv {w} [] 200 (LawfulCodec.rt debugEnv (200 : {b}) trivial)")
            o.append(f"    (fun e => by cases e <;> decide)")
        else:
            o.append(f"example : decode {E} debugEnv [0x56, 1] = .ok ([], .{camel(c['name'])}) :=")
            o.append(f"  C19_{low(t['name'])}.member debugEnv [0x56, 1] .{camel(c['name'])} (fun _ => rfl) []")
        o.append("")
    o.append("end Amqp")
    return "\n".join(o) + "\n"

# ------------------------------------------------------------ C21, C22
def gen_lists():
    o = ["import Verif.Proofs.ListPrefix",
         "/-!",
         "# C21, C22: described lists",
         "",
         "Generated by `tools/gen_props.py` from `codegen/specification.json`: the codes,",
         "the order of the fields, which are mandatory and the defaults of the others are",
         "those of the specification.  In C21 a hypothesis is left out for fields whose",
         "type round-trips always (C01, C02, C19, C49).  In C22 the bytes `u0`, `u1`, ...",
         "stand for the fields in any form the field's decoder accepts, with `Option` for",
         "fields that may be null; `k` of them are present, and `extra` is whatever else",
         "the list holds.",
         "-/",
         "set_option autoImplicit false",
         "set_option linter.unusedVariables false",
         "namespace Amqp",
         "open Dec", ""]
    for t in lists:
        T, n, fs = tname(t), low(t["name"]), t.get("field", [])
        names = [snake(f["name"]) for f in fs]
        tys = [fty(f) for f in fs]
        kinds = [kind(f) for f in fs]
        c = code(t)
        hexc = f"0x{c:02x}"
        # ---- C21
        o.append(f"/-- **C21** for `{t['name']}`, {cite(t['name'])}. -/")
        hyps = [(i, nm) for i, (nm, ty) in enumerate(zip(names, tys)) if ty not in ALWAYS]
        sig = "".join(f"\n    (h{i} : RoundTrips env v.{lean(nm)})" for i, nm in hyps)
        o.append(f"theorem C21_{n} (env : Env) (v : {T}) (hs : (enc v).length < 2 ^ 32){sig} :")
        o.append(f"    RoundTrips env v := by")
        if fs:
            o.append(f"  have hs' : (listHdr {c} _ {len(fs)} ++ ({' ++ '.join(f'enc v.{lean(x)}' for x in names)})).length <")
            o.append(f"    2 ^ 32 := hs")
            o.append(f"  simp only [List.length_append] at hs'")
            prf = [f"h{i}" if any(j == i for j, _ in hyps) else f"SmallRT.rt env v.{lean(names[i])} (by omega)" for i in range(len(fs))]
            o.append(f"  exact LawfulCodec.rt env v ⟨small_of_list v hs, {', '.join(prf)}, trivial⟩")
        else:
            o.append(f"  exact LawfulCodec.rt env v ⟨small_of_list v hs, trivial⟩")
        o.append("")
        sm = [sample(f) for f in fs]
        vs = [x[0][5:].strip() if kd == "dflt" else x[0] for x, kd in zip(sm, kinds)]
        vs = [v[1:-1] if v.startswith("(") else v for v in vs]
        o.append(f"/-- A `{t['name']}` with values in all fields of simple types. -/")
        o.append(f"def {T}.sample : {T} :=")
        o.append("  { " + ",\n    ".join(f"{lean(nm)} := {v}" for nm, v in zip(names, vs)) + " }")
        args = "".join(f" ({sm[i][3]})" for i, _ in hyps)
        o.append(f"example : RoundTrips debugEnv {T}.sample := C21_{n} _ _ (by decide){args}")
        o.append("")
        # ---- C22
        o.append(f"/-- **C22** for `{t['name']}`, {cite(t['name'])}. -/")
        us = " ".join(f"u{i}" for i in range(len(fs)))
        o.append(f"theorem C22_{n} (env : Env) (k : Nat) ({us + ' ' if us else ''}extra hdr rest : Bytes)")
        for i, (nm, ty, kd) in enumerate(zip(names, tys, kinds)):
            o.append(f"    ({lean(nm)} : {ty if kd == 'req' else 'Option ' + ty}) (h{i} : Means env u{i} {lean(nm)})")
        lst = "[" + ", ".join(f"u{i}" for i in range(len(fs))) + "]"
        if not fs:
            lst = "([] : List Bytes)"
        o.append(f"    (hh : ListHeader hdr (({lst}.take k).flatten ++ extra).length k) :")
        o.append(f"    decode {T} env ([0x00, 0x53, {hexc}] ++ hdr ++ ({lst}.take k).flatten ++ extra ++ rest) =")
        req = [i for i, kd in enumerate(kinds) if kd == "req"]
        for i in req:
            o.append(f"      if k ≤ {i} then .err (.requiredFieldOmitted \"{names[i]}\") else")
        o.append(f"      .ok (rest, {{")
        for i, (nm, ty, kd, f) in enumerate(zip(names, tys, kinds, fs)):
            sep = "," if i + 1 < len(fs) else ""
            if kd == "req":
                e = lean(nm)
            elif kd == "opt":
                e = f"if {i} < k then {lean(nm)} else none"
            else:
                e = f"if {i} < k then {lean(nm)}.getD {default(f)} else {default(f)}"
            o.append(f"        {lean(nm)} := {e}{sep}")
        o[-1] += " }) := by"
        o.append(f"  have h := decode_fields (α := {T}) (k := k) (us := {lst}) (extra := extra) (hdr := hdr) (rest := rest)")
        vals = []
        prfs = []
        for i, (nm, ty, kd, f) in enumerate(zip(names, tys, kinds, fs)):
            if kd == "dflt":
                vals.append(f"{lean(nm)}.getD {default(f)}")
                prfs.append(f"Reads.map (fun o : Option {ty} => o.getD {default(f)}) h{i}")
            else:
                vals.append(lean(nm)); prfs.append(f"h{i}")
        tv = "(" + ", ".join(vals + ["()"]) + ")" if vals else "()"
        pv = "⟨" + ", ".join(prfs + ["trivial"]) + "⟩" if prfs else "trivial"
        o.append(f"    (t := {tv})")
        o.append(f"    (reads_small_descriptor env (c := {c}) (by decide)) (.inl rfl) {pv} hh")
        o.append(f"  simp only [List.append_assoc, List.cons_append, List.nil_append] at h ⊢")
        o.append(f"  refine h.trans ?_")
        o.append(f"  clear h hh")
        if fs:
            pats = "_ | " * len(fs) + "k"
            o.append(f"  rcases k with {pats}")
            o.append(f"  all_goals first | rfl | (simp; rfl)")
        else:
            o.append(f"  rfl")
        o.append("")
        kk = min(len(fs), (req[-1] + 2) if req else 1)
        ws = ["[" + x[1] + "]" for x in sm]
        body = [x[1] for x in sm[:kk]]
        ln = sum(len(x.split(",")) for x in body)
        wire = ", ".join(["0x00", "0x53", hexc, "0xc0", str(ln + 1), str(kk)] + body + ["0xff"])
        fsx = []
        for i, (nm, kd, f, v) in enumerate(zip(names, kinds, fs, vs)):
            if i < kk:
                fsx.append(f"{lean(nm)} := {v}")
            else:
                fsx.append(f"{lean(nm)} := " + ("none" if kd == "opt" else default(f)))
        o.append(f"example : decode {T} debugEnv [{wire}] =")
        o.append("    .ok ([0xff], { " + ", ".join(fsx) + " }) :=")
        o.append(f"  C22_{n} debugEnv {kk} " + " ".join(ws) + f" [] [0xc0, {ln + 1}, {kk}] [0xff]" +
                 "".join(f"\n    ({x[0]}) ({x[2]})" for x in sm) + " (.list8 (by decide) (by decide))")
        if req:
            i0 = req[-1]
            ln0 = sum(len(x[1].split(",")) for x in sm[:i0])
            wire = ", ".join(["0x00", "0x53", hexc, "0xc0", str(ln0 + 1), str(i0)] + [x[1] for x in sm[:i0]])
            o.append(f"example : decode {T} debugEnv [{wire}] =")
            o.append(f"    .err (.requiredFieldOmitted \"{names[i0]}\") :=")
            o.append(f"  C22_{n} debugEnv {i0} " + " ".join(ws) + f" [] [0xc0, {ln0 + 1}, {i0}] []" +
                     "".join(f"\n    ({x[0]}) ({x[2]})" for x in sm) + " (.list8 (by decide) (by decide))")
        o.append("")
    o.append("end Amqp")
    return "\n".join(o) + "\n"

# ------------------------------------------------------------ C23, C24
def gen_desc():
    o = ["import Verif.Proofs.ListPrefix",
         "import Verif.Protocol.Frame",
         "/-!",
         "# C23, C24: sizes and descriptors of described types",
         "",
         "Generated by `tools/gen_props.py` from `codegen/specification.json`: the codes and",
         "names of the descriptors and the members of the unions are those of the",
         "specification.",
         "-/",
         "set_option autoImplicit false",
         "namespace Amqp",
         "open Dec", ""]
    o.append("/-- **C23.** Every list type consumes exactly the size its header announces. -/")
    ls = [t for t in lists]
    o.append("theorem C23_lists : " + " ∧\n    ".join(f"ConsumesDeclared {tname(t)}" for t in ls) + " :=")
    o.append("  ⟨" + ", ".join("listConsumes" for _ in ls) + "⟩")
    o.append("")
    for t in lists:
        T, n = tname(t), low(t["name"])
        o.append(f"/-- **C24** for `{t['name']}`, {cite(t['name'])}. -/")
        o.append(f"theorem C24_{n} : SelectedBy {T} 0x{code(t):02x} \"{t['descriptor']['name']}\" := listSelected")
        o.append("")
    provides = {}
    for t in spec:
        for p in (t.get("provides") or "").split(","):
            p = p.strip()
            if p and "descriptor" in t:
                provides.setdefault(p, []).append(t)
    for p, ms in provides.items():
        if len(ms) < 2 or p == "frame":
            continue
        U, n = camel(p), low(p)
        o.append(f"/-- **C24** for the union `{p}`: every type that provides it is an alternative. -/")
        parts = []
        for t in ms:
            M = camel(t["name"])
            rel = "Alternative" if t["class"] == "composite" else "AlternativeOf"
            parts.append(f"{rel} (decode {U}) (decode {M}) {U}.{M} 0x{code(t):02x} \"{t['descriptor']['name']}\"")
        o.append(f"theorem C24_{n}_members :\n    " + " ∧\n    ".join(parts) + " := by")
        o.append(f"  have hd : ∀ env u p d, Means env u d → decode {U} env (0x00 :: (u ++ p)) = {U}.dispatch env d p :=")
        o.append(f"    fun env u p d h => union_decode (U := {U}) (fun _ _ => rfl) h")
        alts = []
        for t in ms:
            M = camel(t["name"])
            if t["class"] == "composite":
                alts.append(f"union_alternative hd {U}.{M} (fun _ => rfl) (fun _ => rfl)")
            else:
                alts.append(f"union_restricted hd {U}.{M} (fun _ => rfl) (fun _ => rfl)")
        o.append("  exact ⟨" + ",\n    ".join(alts) + "⟩")
        o.append("")
        o.append(f"/-- **C21** for the union `{p}`: a value round-trips if its content does. -/")
        o.append(f"theorem C21_{n} (env : Env) (v : {U})")
        o.append(f"    (h : match v with")
        for i, t in enumerate(ms):
            o.append(f"      | .{camel(t['name'])} x => RoundTrips env x" + (") :" if i + 1 == len(ms) else ""))
        o.append(f"    RoundTrips env v := by")
        pats = ", ".join(f"m{i}" for i in range(len(ms)))
        o.append(f"  obtain ⟨{pats}⟩ := C24_{n}_members")
        o.append(f"  cases v with")
        for i, t in enumerate(ms):
            lem = "roundTrips_member" if t["class"] == "composite" else "roundTrips_restricted"
            o.append(f"  | {camel(t['name'])} x => exact {lem} m{i} (by decide) x h rfl")
        o.append("")
        o.append(f"/-- **C24** for the union `{p}`: nothing else is. -/")
        tab = ", ".join(f"(0x{code(t):02x}, \"{t['descriptor']['name']}\")" for t in ms)
        o.append(f"theorem C24_{n}_others : NoOther (decode {U})\n    [{tab}] :=")
        o.append(f"  noOther (disp := {U}.dispatch) (fun _ _ => rfl) (fun env d h => by")
        o.append(f"    simp only [List.forall_mem_cons, Descriptor.is_sym, not_or] at h")
        o.append(f"    unfold {U}.dispatch")
        o.append(f"    simp only [h, if_false])")
        o.append("")
    # Frame
    ms = provides["frame"]
    o.append("/-- **C24** for frames: every type that provides `frame` is an alternative. -/")
    parts = []
    for t in ms:
        M = camel(t["name"])
        parts.append(f"Alternative Frame.decode (decode {M}) Frame.{M} 0x{code(t):02x} \"{t['descriptor']['name']}\"")
    o.append("theorem C24_frame_members :\n    " + " ∧\n    ".join(parts) + " := by")
    alts = []
    for t in ms:
        M = camel(t["name"])
        if t["name"] == "transfer":
            alts.append("frame_transfer")
        else:
            alts.append(f"union_alternative frame_described Frame.{M} (fun _ => rfl) (fun _ => rfl)")
    o.append("  exact ⟨" + ",\n    ".join(alts) + "⟩")
    o.append("")
    o.append("/-- **C24** for frames: nothing else is. -/")
    tab = ", ".join(f"(0x{code(t):02x}, \"{t['descriptor']['name']}\")" for t in ms)
    o.append(f"theorem C24_frame_others : NoOther Frame.decode\n    [{tab}] where")
    o.append("  reject env u p d hu h := by")
    o.append("    rw [frame_described env u p d hu]")
    o.append("    simp only [List.forall_mem_cons, Descriptor.is_sym, not_or] at h")
    o.append("    unfold Frame.dispatch")
    o.append("    simp only [h, if_false]; rfl")
    o.append("  other env c p hc := frame_other env c p hc")
    o.append("")
    o.append("end Amqp")
    return "\n".join(o) + "\n"

# ------------------------------------------------------------------ C65
def gen_getters():
    o = ["import Verif.Spec.Accessors",
         "import Verif.Proofs.Accessors",
         "import Verif.Props.Frames",
         "/-!",
         "# C65: accessors of performatives and other list types",
         "",
         "Generated by `tools/gen_props.py` from `codegen/specification.json`: the accessor",
         "named like a field of the specification returns what is on the wire at the",
         "position of that field, in any form, and the specification's default if the field",
         "is null or absent.  Notation as in C22.",
         "-/",
         "set_option autoImplicit false",
         "set_option linter.unusedVariables false",
         "namespace Amqp",
         "open Dec", ""]
    for t in lists:
        T, n, fs = tname(t), low(t["name"]), t.get("field", [])
        if not fs:
            continue
        tr = t["name"] == "transfer"
        names = [snake(f["name"]) for f in fs]
        tys = [fty(f) for f in fs]
        kinds = [kind(f) for f in fs]
        c = code(t)
        us = " ".join(f"u{i}" for i in range(len(fs)))
        last = "payload" if tr else "rest"
        req = [i for i, kd in enumerate(kinds) if kd == "req"]
        o.append(f"/-- **C65** for `{t['name']}`, {cite(t['name'])}. -/")
        o.append(f"theorem C65_{n} (env : Env) (k : Nat) ({us} extra hdr {last} : Bytes)")
        for i, (nm, ty, kd) in enumerate(zip(names, tys, kinds)):
            o.append(f"    ({lean(nm)} : {ty if kd == 'req' else 'Option ' + ty}) (h{i} : Means env u{i} {lean(nm)})")
        lst = "[" + ", ".join(f"u{i}" for i in range(len(fs))) + "]"
        o.append(f"    (hh : ListHeader hdr (({lst}.take k).flatten ++ extra).length k)" +
                 (f" (hk : {req[-1]} < k) :" if req else " :"))
        U = "Transfer" if tr else T
        o.append(f"    ∃ v, decode {U} env ([0x00, 0x53, 0x{c:02x}] ++ hdr ++ ({lst}.take k).flatten ++ extra ++ {last}) =")
        o.append(f"        .ok ({'[]' if tr else 'rest'}, v) ∧")
        cl = []
        for i, (nm, kd, f) in enumerate(zip(names, kinds, fs)):
            if kd == "req":
                e = lean(nm)
            elif kd == "opt":
                e = f"if {i} < k then {lean(nm)} else none"
            else:
                e = f"if {i} < k then {lean(nm)}.getD {default(f)} else {default(f)}"
            cl.append(f"v.get_{nm} = " + (f"({e})" if " " in e else e))
        if tr:
            cl.append("v.get_body = (if payload = [] then none else some (.Data ⟨payload⟩))")
        o.append("      " + " ∧\n      ".join(cl) + " := by")
        args = " ".join(f"{lean(nm)} h{i}" for i, nm in enumerate(names))
        if tr:
            o.append(f"  have h : ∀ rest, _ := fun rest => C22_{n} env k {us} extra hdr rest {args} hh")
        else:
            o.append(f"  have h := C22_{n} env k {us} extra hdr rest {args} hh")
        if req:
            o.append("  " + ("simp only [" if tr else "rw [") + ", ".join(f"if_neg (show ¬ k ≤ {i} by omega)" for i in req) + "] at h")
        if tr:
            o.append(f"  exact ⟨_, C27_decode env _ payload _ h, " + ", ".join("rfl" for _ in cl) + "⟩")
        else:
            o.append(f"  exact ⟨_, h, " + ", ".join("rfl" for _ in cl) + "⟩")
        o.append("")
        sm = [sample(f) for f in fs]
        kk = min(len(fs), (req[-1] + 2) if req else 1)
        ws = ["[" + x[1] + "]" for x in sm]
        ln = sum(len(x[1].split(",")) for x in sm[:kk])
        wire = ", ".join(["0x00", "0x53", f"0x{c:02x}", "0xc0", str(ln + 1), str(kk)] + [x[1] for x in sm[:kk]] + ["0xff"])
        o.append(f"example : ∃ v, decode {U} debugEnv [{wire}] = .ok ({'[]' if tr else '[0xff]'}, v) ∧")
        v0 = sm[kk - 1][0]
        if kinds[kk - 1] == "dflt":
            v0 = v0[5:].strip()
        o.append(f"    v.get_{names[kk - 1]} = {v0} :=")
        o.append(f"  let ⟨v, h, hs⟩ := C65_{n} debugEnv {kk} " + " ".join(ws) + f" [] [0xc0, {ln + 1}, {kk}] [0xff]" +
                 "".join(f"\n    ({x[0]}) ({x[2]})" for x in sm) + " (.list8 (by decide) (by decide))" + (" (by decide)" if req else ""))
        tail = "".join(".2" for _ in range(kk - 1))
        only = kk == len(cl)
        o.append(f"  ⟨v, h, hs{tail}{'' if only else '.1'}⟩")
        o.append("")
    # names and conversions
    provides = [t for t in spec if "frame" in [p.strip() for p in (t.get("provides") or "").split(",")] and "descriptor" in t]
    o.append("/-- **C65** for frames: the name is that of the type in the specification; a frame")
    o.append("received is what the conversion from the performative yields. -/")
    o.append("theorem C65_frame_names :")
    o.append("    " + " ∧\n    ".join(f"Named (decode {camel(t['name'])}) Frame.of{camel(t['name'])} \"{camel(t['name'])}\" 0x{code(t):02x} \"{t['descriptor']['name']}\"" for t in provides) + " ∧")
    o.append("    Frame.Empty.name = \"Empty\" := by")
    ps = ", ".join(f"m{i}" for i in range(len(provides)))
    o.append(f"  obtain ⟨{ps}⟩ := C24_frame_members")
    o.append("  exact ⟨" + ", ".join(f"named m{i} (fun _ => rfl)" for i in range(len(provides))) + ", rfl⟩")
    o.append("")
    o.append("end Amqp")
    return "\n".join(o) + "\n"

def write(name, s):
    p = os.path.join(OUT, name)
    open(p, "w").write(s)
    print("wrote", p)

write("Enumerations.lean", gen_enums())
write("Performatives.lean", gen_lists())
write("Descriptors.lean", gen_desc())
write("Getters.lean", gen_getters())
