#!/usr/bin/env python3
"""Translate /repo/src/protocol/definitions.rs into Lean.

Every list type's struct, decode, size, encode and DecodeFormatted functions
are parsed separately, so that the generated definitions follow each of them.
Usage: gen_protocol.py [definitions.rs] [output dir]
"""
import re, sys, os

SRC = sys.argv[1] if len(sys.argv) > 1 else "/repo/src/protocol/definitions.rs"
OUT = sys.argv[2] if len(sys.argv) > 2 else "/verif/lean/Verif/Protocol"
REL = "src/protocol/definitions.rs"
text = open(SRC).read()
lines = text.split("\n")

PRIM = {"Bytes": "Binary", "bool": "Bool", "u8": "UInt8", "u16": "UInt16", "u32": "UInt32", "u64": "UInt64"}

def ty(t):
    t = t.strip()
    m = re.match(r"^Option<(.*)>$", t)
    if m:
        return "Option " + atom(ty(m.group(1)))
    return PRIM.get(t, t)

def atom(t):
    return "(" + t + ")" if " " in t else t

def block(start):
    """Lines of the brace block opening at or after line index start."""
    depth, i, opened = 0, start, False
    while True:
        for ch in lines[i]:
            if ch == "{":
                depth += 1; opened = True
            elif ch == "}":
                depth -= 1
        if opened and depth == 0:
            return i
        if lines[i].rstrip().endswith(";") and not opened:
            return i
        i += 1

def find(pat, after=0):
    for i in range(after, len(lines)):
        if re.search(pat, lines[i]):
            return i
    raise KeyError(pat)

def cite(a, b):
    return f"`{REL}:{a+1}-{b+1}`"

def body(pat):
    a = find(pat)
    b = block(a)
    return a, b, "\n".join(lines[a:b + 1])

def snake(n):
    return re.sub(r"(?<!^)([A-Z])", r"_\1", n).lower()

def low(n):
    return n[0].lower() + n[1:]

# ---------------------------------------------------------------- enums
enums = []
for m in re.finditer(r"^pub enum (\w+) \{\n((?:    \w+,\n)+)\}", text, re.M):
    name = m.group(1)
    variants = re.findall(r"^    (\w+),", m.group(2), re.M)
    a = text[:m.start()].count("\n")
    b = a + m.group(0).count("\n")
    enums.append((name, variants, a, b))

def gen_enums():
    o = []
    o.append("import Verif.Protocol.Base")
    o.append("/-! Generated by `tools/gen_protocol.py`: restricted enumerations of")
    o.append(f"`{REL}`. -/")
    o.append("namespace Amqp\n")
    for name, variants, a, b in enums:
        ia, ib, impl = body(rf"^impl {name} \{{")
        base = re.search(r"try_from\(v: &?(\w+)\)", impl).group(1)
        arms = re.findall(r"^\s*(\S+|\"[^\"]*\") => Ok\(" + name + r"::(\w+)\)", impl, re.M)
        err = re.search(r"_ => Err\(AmqpParseError::UnknownEnumOption\(\"(\w+)\"\)\)", impl).group(1)
        da, db, dec = body(rf"^impl DecodeFormatted for {name} \{{")
        dbase = re.search(r"= (\w+)::decode_with_format", dec).group(1)
        assert dbase == base
        ea, eb, encs = body(rf"^impl Encode for {name} \{{")
        szpart, encpart = encs.split("fn encode(")
        lb = PRIM.get(base, base)
        o.append(f"/-- `{name}`, {cite(a, b)}. -/")
        o.append(f"inductive {name} where")
        for v in variants:
            o.append(f"  | {v}")
        o.append("deriving DecidableEq\n")
        o.append(f"/-- `{name}::try_from`, {cite(ia, ib)}. -/")
        o.append(f"def {name}.tryFrom (v : {lb}) : Res ParseError {name} :=")
        for lit, v in arms:
            if base == "Symbol":
                assert lit.startswith('"')
                cond = f"v.str = .lit {lit}"
            else:
                cond = f"v = {lit}"
            o.append(f"  if {cond} then .ok .{v} else")
        o.append(f"  .err (.unknownEnumOption \"{err}\")\n")
        o.append(f"/-- {cite(da, db)}. -/")
        o.append(f"instance : DecodeF {name} := ⟨decodeEnum {name}.tryFrom⟩\n")
        o.append(f"/-- {cite(ea, eb)}. -/")
        o.append(f"instance : Encode {name} where")
        o.append("  size")
        if base == "Symbol":
            szs = re.findall(name + r"::(\w+) => (\d+ \+ \d+)", szpart)
            es = re.findall(name + r"::(\w+) => \{?\s*StaticSymbol\((\"[^\"]*\")\)\.encode", encpart)
            assert [x for x, _ in szs] == variants == [x for x, _ in es], name
            for v, s in szs:
                o.append(f"    | .{v} => {s}")
            o.append("  enc")
            for v, s in es:
                o.append(f"    | .{v} => encStaticSymbol (.lit {s})")
        else:
            szs = re.findall(name + r"::(\w+) => \{\s*let v: \w+ = (\w+);\s*v\.encoded_size\(\)", szpart)
            es = re.findall(name + r"::(\w+) => \{\s*let v: \w+ = (\w+);\s*v\.encode\(buf\)", encpart)
            assert [x for x, _ in szs] == variants == [x for x, _ in es], name
            for v, s in szs:
                o.append(f"    | .{v} => size ({s} : {lb})")
            o.append("  enc")
            for v, s in es:
                o.append(f"    | .{v} => enc ({s} : {lb})")
        o.append("")
    o.append("end Amqp")
    return "\n".join(o) + "\n"

def gen_enum_laws():
    o = []
    o.append("import Verif.Proofs.ListLaws")
    o.append("import Verif.Protocol.Conditions")
    o.append("/-! Generated by `tools/gen_protocol.py`: laws of the restricted enumerations. -/")
    o.append("namespace Amqp\n")
    for name, variants, a, b in enums:
        _, _, impl = body(rf"^impl {name} \{{")
        base = re.search(r"try_from\(v: &?(\w+)\)", impl).group(1)
        lb = PRIM.get(base, base)
        _, _, encs = body(rf"^impl Encode for {name} \{{")
        _, encpart = encs.split("fn encode(")
        if base == "Symbol":
            es = re.findall(name + r"::(\w+) => \{?\s*StaticSymbol\((\"[^\"]*\")\)\.encode", encpart)
        else:
            es = re.findall(name + r"::(\w+) => \{\s*let v: \w+ = (\w+);\s*v\.encode\(buf\)", encpart)
        o.append(f"/-- The wire value of each `{name}`. -/")
        o.append(f"def {name}.base : {name} → {lb}")
        for v, s in es:
            o.append(f"  | .{v} => " + (f"⟨.lit {s}⟩" if base == "Symbol" else s))
        o.append("")
        o.append(f"instance : EnumType {name} {lb} where")
        o.append(f"  base := {name}.base")
        o.append(f"  tryFrom := {name}.tryFrom")
        o.append("  decF_eq _ _ := rfl")
        o.append("  tryFrom_base e := by cases e <;> decide")
        o.append("  base_of b e h := by")
        o.append(f"    unfold {name}.tryFrom at h")
        hs = "(Symbol.eq_of_str hs)" if base == "Symbol" else "hs"
        o.append(f"    repeat refine ite_ok_elim (fun hs h => by cases h; exact {hs}) ?_ h; clear h; intro h")
        o.append("    cases h")
        o.append("  no_panic b := by")
        o.append(f"    unfold {name}.tryFrom")
        o.append("    repeat refine noPanic_ite (Res.noPanic_ok _) ?_")
        o.append("    exact Res.noPanic_err _")
        o.append("  enc_eq e := by cases e <;> rfl")
        o.append("  size_eq e := by cases e <;> " + ("decide" if base == "Symbol" else "rfl"))
        o.append(f"instance : HasWf {name} := wfAll _")
        o.append(f"instance : LawfulEnc {name} := enumLawfulEnc")
        o.append(f"instance : LawfulDec {name} := enumLawfulDec")
        o.append(f"instance : SafeDec {name} := enumSafeDec")
        o.append(f"instance : NonNull {name} := enumNonNull")
        wfp = f"by show ({name}.base e).str.bytes.length < 2 ^ 32; cases e <;> decide" if base == "Symbol" else "trivial"
        o.append(f"instance : LawfulCodec {name} := ⟨fun env e _ => enumReads env e ({wfp})⟩")
        o.append("")
    o.append("end Amqp")
    return "\n".join(o) + "\n"

# ---------------------------------------------------------------- lists
class L:
    pass

lists = {}
for m in re.finditer(r"^pub struct (\w+) \{", text, re.M):
    l = L()
    l.name = n = m.group(1)
    a = text[:m.start()].count("\n")
    b = block(a)
    l.sa, l.sb = a, b
    l.fields = re.findall(r"^    pub (\w+): (.*),$", "\n".join(lines[a:b + 1]), re.M)
    s = snake(n)
    l.da, l.db, dec = body(rf"^fn decode_{s}_inner\(")
    l.za, l.zb, siz = body(rf"^fn encoded_size_{s}_inner\(")
    l.ea, l.eb, en = body(rf"^fn encode_{s}_inner\(")
    l.fa, l.fb, fmt = body(rf"^impl DecodeFormatted for {n} \{{")
    l.ia, l.ib, impl = body(rf"^impl {n} \{{")
    # accessors; whatever else the block holds must be the field count
    l.getters = []
    rest = impl
    for g in re.finditer(r"    pub fn (\w+)\(&self\) -> ([^{]+?) \{\n        (&?)self\.(\w+)(\.as_ref\(\))?\n    \}\n", impl):
        nm, rt, ref, f, asref = g.groups()
        ft = dict(l.fields)[f]
        if asref:
            assert "Option<" + rt[len("Option<&"):] == ft and not ref, (n, nm)
        else:
            assert rt == ref + ft, (n, nm)
        ga = l.ia + impl[:g.start()].count("\n")
        l.getters.append((nm, f, ft, ga, ga + 2))
        rest = rest.replace(g.group(0), "")
    assert re.match(rf"^impl {n} \{{\n    #\[allow\(clippy::identity_op\)\]\n    const FIELD_COUNT: usize = [0-9 +]+;\n\}}$", rest), (n, rest)
    fc = re.search(r"const FIELD_COUNT: usize = ([0-9 +]+);", impl).group(1)
    l.count = eval(fc)
    l.code = int(re.search(r"Descriptor::Ulong\((\d+)\)\.encode", en).group(1))
    l.fcode = int(re.search(r"Descriptor::Ulong\(val\) => val == (\d+)", fmt).group(1))
    l.sym = re.search(r"sym\.as_bytes\(\) == b(\"[^\"]*\")", fmt).group(1)
    l.sizes = re.findall(r"list\s*\.(\w+)\s*\.encoded_size\(\)", siz)
    contents = re.findall(r"list\s*\.(\w+)\s*\.encoded_size\(\)", en)
    l.contents = contents
    l.encs = re.findall(r"^    list\.(\w+)\.encode\(buf\);", en, re.M)
    l.body = "list.body" in en
    # decode fields, in order
    l.dec = []
    for d in re.finditer(r"    let (\w+): ([^;]+);\n    if count > 0 \{\n(.*?)\n    \} else \{\n(.*?)\n    \}", dec, re.S):
        fname, fty, then, els = d.groups()
        if "RequiredFieldOmitted" in els:
            t = re.search(r"let \(in1, decoded\) = (.*?)::decode\(input\)\?;", then, re.S).group(1)
            assert t.strip() == fty.strip() and f"{fname} = decoded;" in then
            nm = re.search(r"RequiredFieldOmitted\(\s*(\"\w+\")", els).group(1)
            l.dec.append((fname, "req", ty(t), nm))
        elif "unwrap_or" in then:
            t = re.search(r"let \(in1, decoded\) = Option::<(.*?)>::decode\(input\)\?;", then, re.S).group(1)
            dv = re.search(r"decoded\.unwrap_or\((.*?)\);", then, re.S).group(1).strip()
            dv2 = re.search(rf"{fname} = (.*?);", els, re.S).group(1).strip()
            assert dv == dv2 and t == fty
            l.dec.append((fname, "def", ty(t), dv))
        else:
            t = re.search(r"let decoded = Option::<(.*?)>::decode\(input\)\?;", then, re.S).group(1)
            assert f"{fname} = decoded.1" in then and f"{fname} = None" in els
            assert fty == f"Option<{t}>"
            l.dec.append((fname, "opt", ty(t), None))
    built = [f for f, _ in l.fields]
    want = [f for f in built if f != "body"] if l.body else built
    assert [x[0] for x in l.dec] == want, (n, l.dec, want)
    flat = re.sub(r"\s+", " ", dec)
    ret = re.search(rf"Ok\(\( ?remainder, {n} \{{ ?(.*?) ?\}},? ?\)\)", flat)
    assert "let size = header.size as usize; decode_check_len!(input, size);" in flat
    if built:
        assert "let (mut input, mut remainder) = input.split_at(size); let mut count = header.count;" in flat
    else:
        assert "let mut remainder = &input[size..];" in flat
    zflat = re.sub(r"\s+", " ", siz)
    eflat = re.sub(r"\s+", " ", re.sub(r"//.*", "", en))
    assert "(if content_size + 1 > u8::MAX as usize { 12 } else { 6 }) + content_size" in zflat, (n, zflat)
    assert ("if content_size + 1 > u8::MAX as usize { buf.put_u8(codec::FORMATCODE_LIST32); "
            f"buf.put_u32_be((content_size + 4) as u32); buf.put_u32_be({n}::FIELD_COUNT as u32); }} else {{ "
            "buf.put_u8(codec::FORMATCODE_LIST8); buf.put_u8((content_size + 1) as u8); "
            f"buf.put_u8({n}::FIELD_COUNT as u8); }}") in eflat, (n, eflat)
    if built:
        got = [x.strip() for x in ret.group(1).split(",") if x.strip()]
        assert got == built, (n, got, built)
    lists[n] = l

def defval(t, v):
    m = re.match(r"^(\w+)::(\w+)$", v)
    if m:
        return f"{m.group(1)}.{m.group(2)}"
    if v in ("true", "false") or re.match(r"^\d+$", v):
        return v
    raise ValueError(v)

def plus(xs, f):
    return " + ".join(f(x) for x in xs) if xs else "0"

def app(xs, f):
    return " ++ ".join(f(x) for x in xs) if xs else "[]"

def gen_list(l, o):
    n = l.name
    fields = l.fields
    if l.body:
        o.append("/-- The list fields of `Transfer` (all but `body`), " + cite(l.sa, l.sb) + ". -/")
        fields = [x for x in fields if x[0] != "body"]
        n = "TransferPerf"
    else:
        o.append(f"/-- `{n}`, {cite(l.sa, l.sb)}. -/")
    o.append(f"structure {n} where")
    for f, t in fields:
        o.append(f"  {f} : {ty(t)}")
    o.append("")
    o.append(f"/-- The fields part of `decode_{snake(n)}_inner`, {cite(l.da, l.db)}. -/")
    o.append(f"def {n}.decFields (env : Env) : FieldDec {n} := do")
    for f, k, t, x in l.dec:
        if k == "req":
            o.append(f"  let {f} ← fReq {atom(t)} env {x}")
        elif k == "opt":
            o.append(f"  let {f} ← fOpt {atom(t)} env")
        else:
            o.append(f"  let {f} ← fDef {atom(t)} env {defval(t, x)}")
    o.append("  pure { " + ", ".join(f for f, _ in fields) + " }" if fields else f"  pure {{}}")
    o.append("")
    o.append(f"/-- `decode_{snake(n)}_inner`, {cite(l.da, l.db)}. -/")
    o.append(f"def {n}.decInner (env : Env) : Dec {n} := listInner env ({n}.decFields env)\n")
    o.append(f"/-- {cite(l.fa, l.fb)}. -/")
    o.append(f"instance : DecodeF {n} where")
    o.append(f"  decF env fmt := describedAs env fmt {l.fcode} {l.sym} ({n}.decInner env)\n")
    o.append(f"/-- `encoded_size_{snake(n)}_inner`, {cite(l.za, l.zb)};")
    o.append(f"`encode_{snake(n)}_inner`, {cite(l.ea, l.eb)}. -/")
    o.append(f"instance : Encode {n} where")
    v = "v" if fields else "_"
    o.append(f"  size {v} := listSize ({plus(l.sizes, lambda f: f'size v.{f}')})")
    o.append(f"  enc {v} := listHdr {l.code} ({plus(l.contents, lambda f: f'size v.{f}')}) {l.count} ++")
    o.append(f"    ({app(l.encs, lambda f: f'enc v.{f}')})")
    o.append("")

# ------------------------------------------------------- described unions
unions = {}
for un in ["DeliveryState", "SaslFrameBody", "Outcome", "Section", "Frame"]:
    u = L()
    u.name = un
    a = find(rf"^pub enum {un} \{{")
    b = block(a)
    u.a, u.b = a, b
    u.vars = re.findall(r"^    (\w+)\((\w+)\),", "\n".join(lines[a:b + 1]), re.M)
    try:
        u.da, u.db, dec = body(rf"^impl DecodeFormatted for {un} \{{")
    except KeyError:
        u.da, u.db, dec = body(rf"^impl Decode for {un} \{{")
    dec1 = re.sub(r"\s+", " ", dec)
    u.ul = re.findall(r"Descriptor::Ulong\((\d+)\) => \{? ?decode_(\w+)_inner\(input\) ?\.map\(\|\(i, r\)\| \(i, " + un + r"::(\w+)\(r\)\)\)", dec1)
    u.sy = re.findall(r"a\.as_str\(\) == (\"[^\"]*\") => \{? ?decode_(\w+)_inner\(input\) ?\.map\(\|\(i, r\)\| \(i, " + un + r"::(\w+)\(r\)\)\)", dec1)
    u.ea, u.eb, en = body(rf"^impl Encode for {un} \{{")
    s1, e1 = re.sub(r"\s+", " ", en).split("fn encode(")
    u.sizes = re.findall(un + r"::(\w+)\(ref v\) => encoded_size_(\w+)_inner\(v\)", s1)
    u.encs = re.findall(un + r"::(\w+)\(ref v\) => encode_(\w+)_inner\(v, buf\)", e1)
    vs = [v for v, _ in u.vars]
    assert [x for x, _ in u.sizes] == vs == [x for x, _ in u.encs], un
    assert sorted(x[2] for x in u.ul) == sorted(vs) == sorted(x[2] for x in u.sy), (un, u.ul, u.sy)
    unions[un] = u

# restricted described types
restricted = {}
for m in re.finditer(r"^type (\w+) = (\w+);$", text, re.M):
    r = L()
    r.name, r.base = m.group(1), m.group(2)
    s = snake(r.name)
    r.a = text[:m.start()].count("\n")
    _, _, dec = body(rf"^fn decode_{s}_inner\(")
    assert f"{r.name}::decode(input)" in dec
    _, _, siz = body(rf"^fn encoded_size_{s}_inner\(")
    r.extra = int(re.search(r"(\d+) \+ dr\.encoded_size\(\)", siz).group(1))
    r.b, _, _ = body(rf"^fn encode_{s}_inner\(")
    r.b = block(r.b)
    _, _, en = body(rf"^fn encode_{s}_inner\(")
    r.code = int(re.search(r"Descriptor::Ulong\((\d+)\)\.encode", en).group(1))
    restricted[s] = r

by_snake = {snake(n): l for n, l in lists.items()}
RB = {"Bytes": "Binary", "List": "VList"}

def gen_restricted(r, o):
    n, base = r.name, RB.get(r.base, r.base)
    o.append(f"/-- `{n}`, {cite(r.a, r.b)}. -/")
    o.append(f"abbrev {n} := {base}")
    o.append(f"/-- `decode_{snake(n)}_inner`, {cite(r.a, r.b)}. -/")
    o.append(f"def {n}.decInner (env : Env) : Dec {n} := decode {n} env")
    o.append(f"/-- `encoded_size_{snake(n)}_inner`, {cite(r.a, r.b)}. -/")
    o.append(f"def {n}.innerSize (v : {n}) : Nat := {r.extra} + size v")
    o.append(f"/-- `encode_{snake(n)}_inner`, {cite(r.a, r.b)}. -/")
    o.append(f"def {n}.innerEnc (v : {n}) : Bytes := enc (Descriptor.ulong {r.code}) ++ enc v")
    o.append("")

def gen_union(u, o):
    n = u.name
    o.append(f"/-- `{n}`, {cite(u.a, u.b)}. -/")
    o.append(f"inductive {n} where")
    for v, t in u.vars:
        o.append(f"  | {v} (v : {t})")
    if n == "Frame":
        o.append("  | Empty")
    o.append("")
    def lname(s):
        return by_snake[s].name if s in by_snake else restricted[s].name
    o.append(f"/-- The descriptor dispatch of `{n}`, {cite(u.da, u.db)}. -/")
    o.append(f"def {n}.dispatch (env : Env) (d : Descriptor) : Dec {n} :=")
    for c, s, v in u.ul:
        o.append(f"  if d = .ulong {c} then {n}.{v} <$> {lname(s)}.decInner env else")
    for c, s, v in u.sy:
        o.append(f"  if d = .sym {c} then {n}.{v} <$> {lname(s)}.decInner env else")
    o.append("  Dec.fail (.invalidDescriptor d)\n")
    if n == "Frame":
        o.append(f"/-- `Frame::decode`, {cite(u.da, u.db)}.  (`Frame` implements `Decode` itself.) -/")
        o.append("def Frame.decode (env : Env) : Dec Frame := fun input =>")
        o.append("  if input.isEmpty then .ok (input, .Empty)")
        o.append("  else (do")
        o.append("    let fmt ← formatCode")
        o.append("    validateCode fmt FC.described (Amqp.decode Descriptor env >>= Frame.dispatch env) : Dec Frame) input\n")
    else:
        o.append(f"/-- {cite(u.da, u.db)}. -/")
        o.append(f"instance : DecodeF {n} where")
        o.append(f"  decF env fmt := validateCode fmt FC.described (decode Descriptor env >>= {n}.dispatch env)\n")
    o.append(f"/-- {cite(u.ea, u.eb)}. -/")
    o.append(f"instance : Encode {n} where")
    o.append("  size")
    for v, s in u.sizes:
        o.append(f"    | .{v} v => " + ("size v" if s in by_snake else f"{lname(s)}.innerSize v"))
    if n == "Frame":
        o.append("    | .Empty => 0")
    o.append("  enc")
    for v, s in u.encs:
        o.append(f"    | .{v} v => " + ("enc v" if s in by_snake else f"{lname(s)}.innerEnc v"))
    if n == "Frame":
        o.append("    | .Empty => []")
    o.append("")

ORDER = ["Error", "Received", "Accepted", "Rejected", "Released", "Modified", "DeliveryState",
         "Outcome", "Source", "Target", "Open", "Begin", "Attach", "Flow", "Disposition", "Detach",
         "End", "Close", "Transfer", "SaslMechanisms", "SaslInit", "SaslChallenge", "SaslResponse",
         "SaslOutcome", "SaslFrameBody", "Header", "Properties"]

def gen_lists():
    o = []
    o.append("import Verif.Protocol.Conditions")
    o.append("/-! Generated by `tools/gen_protocol.py`: list types and described unions of")
    o.append(f"`{REL}`, except `Transfer` and `Frame` (see `Verif.Protocol.Transfer`). -/")
    o.append("namespace Amqp\n")
    for n in ORDER:
        if n in lists:
            gen_list(lists[n], o)
        else:
            gen_union(unions[n], o)
    for r in restricted.values():
        gen_restricted(r, o)
    gen_union(unions["Section"], o)
    o.append("end Amqp")
    return "\n".join(o) + "\n"

def gen_frame():
    o = []
    o.append("import Verif.Protocol.Transfer")
    o.append("/-! Generated by `tools/gen_protocol.py`: `Frame` of")
    o.append(f"`{REL}`. -/")
    o.append("namespace Amqp\n")
    gen_union(unions["Frame"], o)
    o.append("end Amqp")
    return "\n".join(o) + "\n"

# ---------------------------------------------------------------- laws
def field_expr(k, t, x):
    if k == "req":
        return f".req {atom(t)} {x}"
    if k == "opt":
        return f".opt {atom(t)}"
    return f".dflt {atom(t)} {defval(t, x)}"

def pat(xs):
    return "(" + ", ".join(xs + ["_"]) + ")" if xs else "_"

def gen_laws():
    o = []
    o.append("import Verif.Proofs.ListLaws")
    o.append("import Verif.Proofs.ConditionLaws")
    o.append("import Verif.Protocol.Lists")
    o.append("/-! Generated by `tools/gen_protocol.py`: every list type and described union")
    o.append("satisfies the generic list laws. -/")
    o.append("set_option linter.unusedSimpArgs false")
    o.append("set_option linter.unusedVariables false")
    o.append("namespace Amqp")
    o.append("open Dec\n")
    for n in ORDER:
        if n in lists:
            l = lists[n]
            fs = [f for f, _ in l.fields if f != "body"]
            n = "TransferPerf" if l.body else n
            o.append(f"instance : ListType {n} where")
            o.append(f"  code := {l.code}")
            o.append(f"  name := {l.sym}")
            o.append(f"  fields := [" + ",\n    ".join(field_expr(k, t, x) for _, k, t, x in l.dec) + "]")
            if fs:
                o.append("  toT v := (" + ", ".join(f"v.{f}" for f in fs) + ", ())")
                acc = []
                p = "t"
                for f in fs:
                    acc.append(f"{f} := {p}.1")
                    p += ".2"
                o.append("  ofT t := { " + ", ".join(acc) + " }")
            else:
                o.append("  toT _ := ()")
                o.append("  ofT _ := {}")
            o.append("  ofT_toT _ := rfl")
            o.append("  toT_ofT _ := rfl")
            o.append("  code_pos := by decide")
            o.append("  code_lt := by decide")
            o.append(f"  inner := {n}.decInner")
            o.append("  inner_eq env := by")
            o.append(f"    simp only [{n}.decInner, {n}.decFields, getFields, map_bind, map_pure, bind_assoc, pure_bind]")
            o.append("    rfl")
            o.append("  decF_eq _ _ := rfl")
            o.append(f"  size_eq' v := by")
            o.append(f"    show listSize _ = _")
            o.append("    simp only [sizeFields, Field.req, Field.opt, Field.dflt, Nat.add_assoc, Nat.add_zero]")
            o.append(f"  enc_eq' v := by")
            o.append(f"    show listHdr _ _ _ ++ _ = _")
            o.append("    simp only [sizeFields, encFields, Field.req, Field.opt, Field.dflt, Nat.add_assoc, Nat.add_zero,")
            o.append("      List.append_assoc, List.append_nil, List.length]")
            o.append("")
            o.append(f"instance : HasWf {n} := listWf {n}")
            o.append(f"instance : LawfulEnc {n} := listLawfulEnc")
            o.append(f"instance : LawfulDec {n} := listLawfulDec")
            o.append(f"instance : LawfulCodec {n} := listLawfulCodec rfl")
            o.append(f"instance : NonNull {n} := listNonNull")
            o.append("")
        else:
            gen_union_laws(unions[n], o)
    gen_union_laws(unions["Section"], o)
    o.append("end Amqp")
    return "\n".join(o) + "\n"

def gen_union_laws(u, o):
    n = u.name
    isr = {v: (s not in by_snake) for v, s in u.encs}
    codes = {v: c for c, s, v in u.ul}
    o.append(f"instance : LawfulEnc {n} := ⟨fun")
    for v, s in u.encs:
        o.append(f"  | .{v} v => " + ("restricted_size _ (by decide) v" if isr[v] else "LawfulEnc.size_eq v"))
    o[-1] += "⟩"
    o.append(f"instance : HasWf {n} := ⟨fun env u => match u with")
    for v, s in u.encs:
        o.append(f"  | .{v} v => wf env v")
    o[-1] += "⟩"
    o.append(f"theorem {n}.local_dispatch (env : Env) (d : Descriptor) : Local ({n}.dispatch env d) := by")
    o.append(f"  unfold {n}.dispatch")
    o.append("  repeat' apply Local.ite")
    o.append("  all_goals first")
    o.append("    | exact Local.fail _")
    o.append("    | exact (local_listInner _ _).map _")
    o.append("    | exact (loc_decode _).map _")
    o.append(f"instance : LawfulDec {n} := ⟨fun env fmt => local_validateCode _ _")
    o.append(f"  ((loc_decode _).bind fun d => {n}.local_dispatch env d)⟩")
    o.append(f"instance : LawfulCodec {n} := ⟨fun env u h => by")
    o.append("  cases u with")
    for v, s in u.encs:
        o.append(f"  | {v} v =>")
        if isr[v]:
            o.append(f"    exact reads_union_restricted {n}.{v} ({n}.dispatch env) {codes[v]} (by decide) v h rfl rfl")
        else:
            o.append(f"    exact reads_union_list {n}.{v} ({n}.dispatch env) v h rfl rfl")
    o[-1] += "⟩"
    o.append(f"instance : NonNull {n} := ⟨fun")
    for v, s in u.encs:
        o.append(f"  | .{v} v => " + (f"⟨FC.described, _, rfl, by decide⟩" if isr[v] else "NonNull.head v"))
    o[-1] += "⟩"
    o.append("")

def gen_panics():
    o = ["import Verif.Proofs.PanicLists",
         "/-! Generated by `tools/gen_protocol.py`: every panic of the decoders of list",
         "types and described unions has a cause. -/",
         "set_option autoImplicit false",
         "namespace Amqp",
         "open Dec",
         ""]
    for n in ORDER:
        if n not in lists:
            gen_union_panics(n, o)
        else:
            n = "TransferPerf" if lists[n].body else n
            o.append(f"instance : FieldsBlame (ListType.fields {n}) := by")
            o.append(f"  unfold ListType.fields instListType{n}; dsimp only; infer_instance")
            o.append(f"instance : PanicLaw {n} := listPanicLaw")
            o.append("")
    gen_union_panics("Section", o)
    o.append("end Amqp")
    return "\n".join(o) + "\n"

def gen_union_panics(n, o):
    o.append(f"theorem {n}.blames_dispatch (env : Env) (d : Descriptor) :")
    o.append(f"    Blames env.overflowChecks env.stackDepth ({n}.dispatch env d) := by")
    o.append(f"  unfold {n}.dispatch")
    o.append("  repeat' apply Blames.ite")
    o.append("  all_goals first")
    o.append("    | exact Blames.fail _")
    o.append("    | exact (blames_decode _).map _")
    for v, s in unions[n].encs:
        if s in by_snake:
            o.append(f"    | exact (inner_blames (α := Amqp.{v}) env).map _")
    o.append(f"instance : PanicLaw {n} := ⟨fun env fmt => validateCode_fmtBlames (FmtBlames.of_blames")
    o.append(f"  ((blames_decode _).bind (loc_decode _) fun d => {n}.blames_dispatch env d))⟩")
    o.append("")

def gen_getters():
    o = ["import Verif.Protocol.Frame",
         "/-!",
         "# Accessors of the list types, `src/protocol/definitions.rs`",
         "",
         "Generated by `tools/gen_protocol.py`.  Accessors that return references are",
         "modelled as returning the value referred to, and `as_ref` on an option as the",
         "identity.",
         "-/",
         "set_option autoImplicit false",
         "namespace Amqp", ""]
    for l in lists.values():
        for nm, f, ft, a, b in l.getters:
            o.append(f"/-- `{l.name}::{nm}`, {cite(a, b)}. -/")
            o.append(f"def {l.name}.get_{nm} (v : {l.name}) : {ty(ft)} := v.{f}")
        o.append("")
    a, b, t = body(r"^    pub fn name\(&self\) -> &'static str \{")
    o.append(f"/-- `Frame::name`, {cite(a, b)}. -/")
    o.append("def Frame.name : Frame → String")
    arms = re.findall(r"^            Frame::(\w+)(\(_\))? => (\"\w+\"),$", t, re.M)
    assert len(arms) == b - a - 3
    for v, arg, nm in arms:
        o.append(f"  | .{v}{' _' if arg else ''} => {nm}")
    o.append("")
    u = unions["Frame"]
    o.append("/-! `From`, derived for every variant of `Frame` with a field,")
    o.append(f"`src/protocol/definitions.rs:{u.a}`, {cite(u.a, u.b)}. -/")
    assert "From" in lines[u.a - 1]
    for v, t in u.vars:
        o.append(f"/-- `From<{t}> for Frame`, {cite(u.a - 1, u.a)}. -/")
        o.append(f"def Frame.of{t} (v : Amqp.{t}) : Frame := .{v} v")
    o.append("")
    o.append("end Amqp")
    return "\n".join(o) + "\n"

# ---------------------------------------------------------------- counting decoders
def lname(s):
    return by_snake[s].name if s in by_snake else restricted[s].name

def gen_list_counted(l, o):
    n = "TransferPerf" if l.body else l.name
    o.append(f"/-- The fields part of `decode_{snake(l.name)}_inner`, {cite(l.da, l.db)}. -/")
    o.append(f"def {n}.decFieldsC (p : Price) (env : Env) : FieldCost {n} := do")
    for f, k, t, x in l.dec:
        if k == "req":
            o.append(f"  let {f} ← fReqC {atom(t)} p env {x}")
        elif k == "opt":
            o.append(f"  let {f} ← fOptC {atom(t)} p env")
        else:
            o.append(f"  let {f} ← fDefC {atom(t)} p env {defval(t, x)}")
    fields = [f for f, _ in l.fields if f != "body"]
    o.append("  pure { " + ", ".join(fields) + " }" if fields else "  pure {}")
    o.append("")
    o.append(f"/-- `decode_{snake(l.name)}_inner`, {cite(l.da, l.db)}. -/")
    o.append(f"def {n}.decInnerC (p : Price) (env : Env) : Cost {n} :=")
    o.append(f"  listInnerC env ({n}.decFieldsC p env)\n")
    o.append(f"/-- {cite(l.fa, l.fb)}. -/")
    o.append(f"instance : DecodeC {n} where")
    o.append(f"  decFC p env fmt := describedAsC p env fmt {l.fcode} {l.sym} ({n}.decInnerC p env)\n")

def gen_union_counted(u, o):
    n = u.name
    o.append(f"/-- The descriptor dispatch of `{n}`, {cite(u.da, u.db)}. -/")
    o.append(f"def {n}.dispatchC (p : Price) (env : Env) (d : Descriptor) : Cost {n} :=")
    for c, s, v in u.ul:
        o.append(f"  if d = .ulong {c} then {lname(s)}.decInnerC p env >>= fun v => pure ({n}.{v} v) else")
    for c, s, v in u.sy:
        o.append(f"  if d = .sym {c} then {lname(s)}.decInnerC p env >>= fun v => pure ({n}.{v} v) else")
    o.append("  Cost.of (Dec.fail (.invalidDescriptor d))\n")
    if n == "Frame":
        o.append(f"/-- `Frame::decode`, {cite(u.da, u.db)}. -/")
        o.append("def Frame.decodeC (p : Price) (env : Env) : Cost Frame := fun input =>")
        o.append("  if input.isEmpty then (.ok (input, .Empty), 0)")
        o.append("  else (do")
        o.append("    let fmt ← Cost.of formatCode")
        o.append("    validateCodeC fmt FC.described (Amqp.decodeC Descriptor p env >>= Frame.dispatchC p env) :")
        o.append("      Cost Frame) input\n")
    else:
        o.append(f"/-- {cite(u.da, u.db)}. -/")
        o.append(f"instance : DecodeC {n} where")
        o.append(f"  decFC p env fmt := unionC p env fmt ({n}.dispatchC p env)\n")

def gen_counted():
    o = ["import Verif.Protocol.CountedBase",
         "import Verif.Protocol.Frame",
         "/-! Generated by `tools/gen_protocol.py`: counting decoders of the protocol types of",
         f"`{REL}`. -/",
         "set_option autoImplicit false",
         "namespace Amqp", ""]
    for name, variants, a, b in enums:
        da, db, _ = body(rf"^impl DecodeFormatted for {name} \{{")
        o.append(f"/-- {cite(da, db)}. -/")
        o.append(f"instance : DecodeC {name} := ⟨decodeEnumC {name}.tryFrom⟩")
    o.append("")
    for n in ORDER:
        if n in lists:
            gen_list_counted(lists[n], o)
        else:
            gen_union_counted(unions[n], o)
    for r in restricted.values():
        o.append(f"/-- `decode_{snake(r.name)}_inner`, {cite(r.a, r.b)}. -/")
        o.append(f"def {r.name}.decInnerC (p : Price) (env : Env) : Cost {r.name} := decodeC {r.name} p env")
    o.append("")
    gen_union_counted(unions["Section"], o)
    l = lists["Transfer"]
    o.append("/-- The end of `decode_transfer_inner`, see `Transfer.withBody`: what follows the list is copied. -/")
    o.append("def Transfer.withBodyC (p : Price) (t : TransferPerf) : Cost Transfer := fun remainder =>")
    o.append("  (Transfer.withBody t remainder, remainder.length * p.byte)\n")
    o.append(f"/-- `decode_transfer_inner`, {cite(l.da, l.db)}. -/")
    o.append("def Transfer.decInnerC (p : Price) (env : Env) : Cost Transfer := do")
    o.append("  let t ← TransferPerf.decInnerC p env")
    o.append("  Transfer.withBodyC p t\n")
    o.append(f"/-- {cite(l.fa, l.fb)}. -/")
    o.append("instance : DecodeC Transfer where")
    o.append(f"  decFC p env fmt := describedAsC p env fmt {l.fcode} {l.sym} (Transfer.decInnerC p env)\n")
    gen_union_counted(unions["Frame"], o)
    o.append("end Amqp")
    return "\n".join(o) + "\n"

def gen_counted_laws():
    o = ["import Verif.Protocol.Counted",
         "import Verif.Proofs.CountedLaws",
         "/-! Generated by `tools/gen_protocol.py`: the counting decoders of the protocol types",
         "keep the limits. -/",
         "set_option autoImplicit false",
         "namespace Amqp",
         "open Dec", ""]
    for name, variants, a, b in enums:
        o.append(f"instance : Metered {name} :=")
        o.append(f"  metered_enum {name}.tryFrom (fun _ _ => rfl) fun _ _ _ => rfl")
    o.append("")
    def li(l):
        n = "TransferPerf" if l.body else l.name
        o.append(f"theorem {n}.met_fields (env : Env) :")
        o.append(f"    MetF ({n}.decFields env) fun p => {n}.decFieldsC p env :=")
        e = ""
        for f, k, t, x in l.dec:
            fn = {"req": "metF_req env _", "opt": "metF_opt env", "def": "metF_def env _"}[k]
            e += f"({fn}).bind fun _ =>\n    "
        o.append("  " + e + "MetF.pure _")
        o.append(f"theorem {n}.met_inner (env : Env) :")
        o.append(f"    Met 0 1 ({n}.decInner env) fun p => {n}.decInnerC p env :=")
        o.append(f"  met_listInner ({n}.met_fields env) env")
        o.append(f"instance : Metered {n} := ⟨fun env fmt =>")
        o.append(f"  (met_describedAs ({n}.met_inner env) env fmt _ _).mono (by omega) (by omega)⟩")
        o.append("")
    def un(u):
        n = u.name
        o.append(f"theorem {n}.met_dispatch (env : Env) (d : Descriptor) :")
        o.append(f"    Met 0 0 ({n}.dispatch env d) fun p => {n}.dispatchC p env d :=")
        for c, s, v in u.ul + u.sy:
            pf = f"{lname(s)}.met_inner env" if s in by_snake else f"(MeteredD.met (α := Amqp.{lname(s)}) env)"
            o.append(f"  ((({pf}).map _).mono (by omega) (by omega)).ite <|")
        o.append("  Met.fail _")
        if n != "Frame":
            o.append(f"instance : Metered {n} := ⟨fun env fmt =>")
            o.append(f"  (met_union env fmt fun d => {n}.met_dispatch env d).mono (by omega) (by omega)⟩")
        o.append("")
    for n in ORDER:
        if n in lists:
            li(lists[n])
        else:
            un(unions[n])
    un(unions["Section"])
    o += """theorem met_withBody (t : TransferPerf) :
    Met 0 0 (Transfer.withBody t) fun p => Transfer.withBodyC p t := by
  have h : ∀ i r a, Transfer.withBody t i = .ok (r, a) → r = [] := by
    intro i r a h
    unfold Transfer.withBody at h
    split at h
    · rename_i hi
      injection h with h; injection h with h1 _; subst h1
      exact List.isEmpty_iff.1 hi
    · injection h with h; injection h with h1 _; exact h1.symm
  have hc : ∀ m p, p.byte ≤ m → Capped m 0 (Transfer.withBodyC p t) := fun m p hm =>
    ⟨fun i => by
      have := Nat.mul_le_mul_left i.length hm
      simp only [Transfer.withBodyC, Nat.mul_comm m]; omega, fun i r a hd => by
      have := Nat.mul_le_mul_left i.length hm
      simp only [h i r a hd, Transfer.withBodyC, Nat.mul_comm m, List.length_nil]; omega⟩
  refine ⟨fun _ => rfl, hc 3 _ (by decide), fun i r a hd => ?_, hc maxCount _ (by decide),
    hc 2 _ (by decide)⟩
  simp only [h i r a hd, Transfer.withBodyC, Price.rooms, List.length_nil]; omega
""".split("\n")
    o.append("theorem Transfer.met_inner (env : Env) :")
    o.append("    Met 0 1 (Transfer.decInner env) fun p => Transfer.decInnerC p env :=")
    o.append("  (TransferPerf.met_inner env).bind fun t => met_withBody t")
    o.append("instance : Metered Transfer := ⟨fun env fmt =>")
    o.append("  (met_describedAs (Transfer.met_inner env) env fmt _ _).mono (by omega) (by omega)⟩")
    o.append("")
    un(unions["Frame"])
    o.append("end Amqp")
    return "\n".join(o) + "\n"

def write(name, s):
    p = os.path.join(OUT, name)
    open(p, "w").write(s)
    print("wrote", p)

write("Enums.lean", gen_enums())
write("Lists.lean", gen_lists())
write("Frame.lean", gen_frame())
write("Getters.lean", gen_getters())
write("../Proofs/EnumLaws.lean", gen_enum_laws())
write("../Proofs/ListInstances.lean", gen_laws())
write("../Proofs/PanicInstances.lean", gen_panics())
write("Counted.lean", gen_counted())
write("../Proofs/CountedInstances.lean", gen_counted_laws())
