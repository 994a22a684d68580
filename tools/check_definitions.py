#!/usr/bin/env python3
"""Render codegen/definitions.rs from codegen/specification.json, as build.rs does, and
compare the result, token by token, with src/protocol/definitions.rs.

What rustfmt changes (layout, trailing commas, braces around the body of a match arm, a
semicolon after return) is undone on both sides.  The order of the unions, which a HashMap decides, is
taken from the file.  A check on the inputs of the model, not part of the proofs.
"""
import json, re, sys
REPO = sys.argv[1] if len(sys.argv) > 1 else "/repo"
template = open(REPO + "/codegen/definitions.rs").read()
spec = json.load(open(REPO + "/codegen/specification.json"))
target = open(REPO + "/src/protocol/definitions.rs").read()

PRIM = {"*": "Variant", "binary": "Bytes", "string": "ByteStr", "ubyte": "u8", "ushort": "u16",
        "uint": "u32", "ulong": "u64", "boolean": "bool"}
REF = {"Bytes", "ByteStr", "Symbol", "Fields", "Map", "MessageId", "Address", "NodeProperties", "Outcome",
       "DeliveryState", "FilterSet", "DeliveryTag", "Symbols", "IetfLanguageTags", "ErrorCondition",
       "DistributionMode"}
ENUM = set()

def camel(s):
    out, new = "", True
    for ch in s:
        if ch in "-_ ": new = True
        else:
            out += ch.upper() if new else ch
            new = False
    return out
def snake(s):
    if s in ("type", "return"): return s + "_"
    out, new, last = "", False, False
    for ch in s:
        if ch in "-_ ": new = True
        else:
            up = ch.isupper()
            if new or (not last and out and up):
                out += "_"; new = False
            last = up
            out += ch.lower() if up else ch
    return out
def tyname(t, req=None): return camel(req) if req is not None else PRIM.get(t, camel(t))
def provides(p): return [camel(s.strip()) for s in (p or "").split(",") if s.strip()]
def descr(d):
    a, b = [int(p[2:], 16) for p in d["code"].split(":")]
    return {"name": d["name"], "domain": a, "code": b}
def field(f):
    ty = tyname(f["type"], f.get("requires"))
    multiple = f.get("multiple", "false") == "true"
    if multiple: ty += "s"
    default = f.get("default")
    default = "" if default is None else (ty + "::" + camel(default) if ty in ENUM else default)
    mandatory = f.get("mandatory", "false") == "true"
    return {"name": snake(f["name"]), "ty": ty, "is_ref": ty in REF,
            "is_str": ty in ("string", "symbol") and not multiple,
            "optional": not mandatory and default == "", "multiple": multiple, "default": default}

for t in spec:
    if "choice" in t: ENUM.add(camel(t["name"]))
    elif "descriptor" in t and t["source"] == "list": REF.add(camel(t["name"]))
aliases, enums, lists, restricted, pm = [], [], [], [], {}
def reg(name, d, ps):
    for p in ps: pm.setdefault(p, []).append({"ty": name, "descriptor": d or {"name": "", "domain": 0, "code": 0}})
for t in spec:
    ps = provides(t.get("provides"))
    if "choice" in t:
        ty = tyname(t["source"])
        e = {"name": camel(t["name"]), "ty": ty, "is_symbol": ty == "Symbol",
             "items": [{"name": camel(c["name"]), "value": c["value"], "value_len": len(c["value"].encode())}
                       for c in t["choice"]]}
        reg(e["name"], None, ps); enums.append(e)
    elif "descriptor" in t:
        d = {"name": camel(t["name"]), "descriptor": descr(t["descriptor"]), "ty": tyname(t["source"]),
             "fields": [field(f) for f in t.get("field", [])], "transfer": t["name"] == "transfer"}
        if t["source"] == "list" and t["class"] != "restricted": reg(d["name"], d["descriptor"], ps); lists.append(d)
        elif t["class"] == "restricted": reg(d["name"], d["descriptor"], ps); restricted.append(d)
    elif t["source"] != "map":
        a = {"name": camel(t["name"]), "source": tyname(t["source"])}
        reg(a["name"], None, ps); aliases.append(a)
unions = [{"name": k, "options": v, "described": k != "Frame" and any(o["descriptor"]["code"] for o in v)}
          for k, v in pm.items() if len(v) != 1]
order = {n: i for i, n in enumerate(re.findall(r"^pub enum (\w+)", target, re.M))}
unions.sort(key=lambda u: order.get(u["name"], -1))
defs = {"aliases": aliases, "enums": enums, "lists": lists, "described_restricted": restricted, "provides": unions}

# the part of Handlebars that the template uses
toks = re.split(r"(\{\{\{.*?\}\}\}|\{\{.*?\}\})", template)
def parse(i, stop):
    out = []
    while i < len(toks):
        t = toks[i]
        m = re.match(r"\{\{\{?\s*(.*?)\s*\}?\}\}$", t) if t.startswith("{{") else None
        if not m: out.append(("text", t)); i += 1; continue
        c = m.group(1)
        if c in stop: return out, i, c
        if c.startswith("#each"):
            path, var = re.match(r"#each (\S+) as \|(\w+)\|", c).groups()
            b, i, _ = parse(i + 1, ["/each"]); out.append(("each", path, var, b)); i += 1
        elif c.startswith("#if"):
            b, i, s = parse(i + 1, ["else", "/if"]); e = []
            if s == "else": e, i, _ = parse(i + 1, ["/if"])
            out.append(("if", c[4:].strip(), b, e)); i += 1
        elif c.startswith("snake "): out.append(("snake", c[6:].strip())); i += 1
        else:
            assert re.fullmatch(r"[\w.]+", c), c
            out.append(("var", c)); i += 1
    return out, i, None
def get(env, path):
    v = env
    for p in path.split("."): v = v[p]
    return v
def render(ns, env):
    out = []
    for n in ns:
        if n[0] == "text": out.append(n[1])
        elif n[0] == "var": out.append(str(get(env, n[1])))
        elif n[0] == "snake": out.append(snake(get(env, n[1])))
        elif n[0] == "each":
            for x in get(env, n[1]): out.append(render(n[3], dict(env, **{n[2]: x})))
        else: out.append(render(n[2] if get(env, n[1]) else n[3], env))
    return "".join(out)
tree, _, _ = parse(0, [])
rendered = render(tree, {"defs": defs})

def tokens(s):
    s = re.sub(r"//[^\n]*", "", s)
    ts = re.findall(r'b?"[^"]*"|\w+|=>|->|::|==|[^\s\w]', s)
    # match arms: drop braces around a single expression and all commas before a closing bracket
    changed = True
    while changed:
        changed = False
        for i, t in enumerate(ts[:-1]):
            if t == "=>" and ts[i + 1] == "{":
                d, j = 0, i + 1
                while True:
                    if ts[j] == "{": d += 1
                    if ts[j] == "}": d -= 1
                    if d == 0: break
                    j += 1
                inner = ts[i + 2:j]
                if ";" not in inner and "{" not in inner:
                    ts[i + 1:j + 1] = inner + [","]; changed = True; break
                if j + 1 < len(ts) and ts[j + 1] == ",":
                    del ts[j + 1]; changed = True; break
    return ts
def pieces(s):
    """Items of the file, to keep the loop above short."""
    return [p for p in re.split(r"\n(?=\S)", re.sub(r"//[^\n]*", "", s)) if p.strip()]
def alltokens(s):
    out = []
    for p in pieces(s):
        for t in tokens(p):
            if out and out[-1] == "," and t in ("}", ")", "]", ","): out.pop()
            if t == "}" and out and out[-1] == ";":
                k = len(out) - 2
                while out[k] not in (";", "{", "}"): k -= 1
                if out[k + 1] == "return": out.pop()
            out.append(t)
    return out
def uses(ts):
    """rustfmt sorts use declarations."""
    i = next(k for k, t in enumerate(ts) if t == "derive" and ts[k + 1] == "(") - 2
    return ts[i:], "; ".join(sorted(x.strip() for x in re.sub(r"^(# ! \[.*? \) \])", r"\1 ;", " ".join(ts[:i])).split(";")))
a, ua = uses(alltokens(rendered)); b, ub = uses(alltokens(target))
n = next((i for i, (x, y) in enumerate(zip(a, b)) if x != y), min(len(a), len(b)))
if n < max(len(a), len(b)):
    print("first difference at token", n)
    print("rendered:", " ".join(a[max(0, n - 25):n + 15])); print("file:    ", " ".join(b[max(0, n - 25):n + 15])); sys.exit(1)
print("same", len(a), "tokens;", "same head" if ua == ub else "head differs:\n" + ua + "\n" + ub)
