#!/usr/bin/env python3
"""Calls made by the encoders of the types of /repo/codegen/specification.json
(Protocol/Work.lean), how deep they nest (Spec/WorkLists.lean), and the bounds
(Proofs/WorkLists.lean).  Usage: gen_work.py [spec] [lean dir]
"""
import json, re, sys

SPEC = sys.argv[1] if len(sys.argv) > 1 else "/repo/codegen/specification.json"
OUT = sys.argv[2] if len(sys.argv) > 2 else "/verif/lean/Verif"
spec = json.load(open(SPEC))
model = open(OUT + "/Protocol/Lists.lean").read() + open(OUT + "/Protocol/Enums.lean").read()

def camel(n):
    return "".join(w[0].upper() + w[1:] for w in re.split(r"[-_ ]", n))

PRIM = {"binary": "Binary", "string": "ByteStr", "ubyte": "UInt8", "ushort": "UInt16", "uint": "UInt32",
        "ulong": "UInt64", "boolean": "Bool", "symbol": "Symbol", "timestamp": "Timestamp", "map": "Map"}
PLURAL = {"symbol": "Symbols", "ietf-language-tag": "IetfLanguageTags"}
lists = [t for t in spec if t["class"] == "composite"]
# calls of encoded_size and encode, the type's own included
ENUMS = {"Role": (2, 2), "SenderSettleMode": (2, 2), "ReceiverSettleMode": (2, 2), "SaslCode": (2, 2),
         "TerminusDurability": (2, 2), "TerminusExpiryPolicy": (1, 2)}

def fty(f):
    if f.get("requires"):
        return camel(f["requires"])
    if f.get("multiple") == "true":
        return PLURAL[f["type"]]
    return PRIM.get(f["type"], camel(f["type"]))

def fullty(f):
    t = fty(f)
    return t if f.get("mandatory") == "true" or "default" in f else f"Option {t}"

def tname(t):
    return "TransferPerf" if t["name"] == "transfer" else camel(t["name"])

def lean(n):
    n = n.replace("-", "_")
    return {"end": "«end»", "from": "«from»"}.get(n, n)

def code(t):
    a, b = t["descriptor"]["code"].split(":")
    return int(a, 16) << 32 | int(b, 16)

def doc(n):
    m = re.search(r"/--((?:(?!/--).)*?)-/\ninstance : Encode %s where" % n, model, re.S)
    return m.group(1).strip()

provides = {}
for t in spec:
    for p in (t.get("provides") or "").split(","):
        p = p.strip()
        if p and "descriptor" in t:
            provides.setdefault(p, []).append(t)
unions = {camel(p): ms for p, ms in provides.items() if len(ms) >= 2 and p != "frame"}
items = {tname(t): ("list", t) for t in lists}
items.update({u: ("union", ms) for u, ms in unions.items()})
order, seen = [], set()
def visit(n):
    if n in seen or n not in items:
        return
    seen.add(n)
    k, x = items[n]
    for d in ([fty(f) for f in x.get("field", [])] if k == "list" else [tname(m) for m in x]):
        visit(d)
    order.append(n)
for n in items:
    visit(n)

def fields(x):
    return [lean(f["name"]) for f in x.get("field", [])]

def plus(l):
    return " + ".join(l) if l else "0"

def gen_model():
    o = ["import Verif.Protocol.WorkBase", "/-! Generated by `tools/gen_work.py`: the encoders of",
         "`src/protocol/definitions.rs` with a counter of calls. -/", "set_option autoImplicit false",
         "namespace Amqp", ""]
    for e, (m, w) in ENUMS.items():
        o.append(f"/-- {doc(e)} -/")
        o.append(f"instance : EncodeC {e} := .over _ {m} {w}")
    o.append("")
    for n in order:
        k, x = items[n]
        o.append(f"/-- {doc(n)} -/")
        o.append(f"instance : EncodeC {n} where")
        if k == "list":
            fs = fields(x)
            mv = plus([f"(measureC v.{f}).val" for f in fs])
            mc = f" + ({plus([f'(measureC v.{f}).calls' for f in fs])})" if fs else ""
            wc = f" + ({plus([f'(writeC v.{f}).calls' for f in fs])})" if fs else ""
            wv = " ++ ".join(f"(writeC v.{f}).val" for f in fs) or "[]"
            v = "v" if fs else "_"
            o.append(f"  measureC {v} := ⟨listSize ({mv}), 1{mc}⟩")
            o.append(f"  writeC {v} := ⟨listHdr {code(x)} ({mv}) {len(fs)} ++\n    ({wv}),\n    3{mc}{wc}⟩")
        else:
            o.append("  measureC")
            for m in x:
                M = camel(m["name"])
                o.append(f"    | .{M} v => " + ("measureC v" if m["class"] == "composite" else
                         "⟨3 + (measureC v).val, 1 + (measureC v).calls⟩"))
            o.append("  writeC")
            for m in x:
                M = camel(m["name"])
                o.append(f"    | .{M} v => " + ("writeC v" if m["class"] == "composite" else
                         f"⟨enc (Descriptor.ulong {code(m)}) ++ (writeC v).val, 3 + (writeC v).calls⟩"))
        o.append("")
    o.append("end Amqp")
    return "\n".join(o) + "\n"

def mx(l):
    return l[0] if len(l) == 1 else f"max ({mx(l[:-1])}) ({l[-1]})" if l else "0"

def gen_spec():
    o = ["import Verif.Protocol.Lists", "import Verif.Spec.WorkBase", "/-!",
         "# How deep performatives and sections nest", "",
         "Generated by `tools/gen_work.py` from `codegen/specification.json`.", "-/",
         "set_option autoImplicit false", "namespace Amqp", ""]
    for e in ENUMS:
        o.append(f"instance : Nesting {e} := .flat _")
    o.append("")
    for n in order:
        k, x = items[n]
        o.append(f"/-- {'`' + x['name'] + '`' if k == 'list' else 'one of ' + ', '.join('`' + m['name'] + '`' for m in x)} -/")
        if k == "list":
            fs = x.get("field", [])
            o.append(f"instance : Nesting {n} where")
            o.append(f"  fixed := 1 + {mx(['fixed (' + fullty(f) + ')' for f in fs]) if len(fs) != 1 else 'fixed (' + fullty(fs[0]) + ')'}" if fs else "  fixed := 1")
            o.append(f"  nest v := {mx(['nest v.' + f for f in fields(x)])}" if fs else "  nest _ := 0")
        else:
            o.append(f"instance : Nesting {n} where")
            o.append(f"  fixed := {mx(['fixed ' + camel(m['name']) for m in x])}")
            o.append("  nest")
            for m in x:
                o.append(f"    | .{camel(m['name'])} v => nest v")
        o.append("")
    o.append("end Amqp")
    return "\n".join(o) + "\n"

def gen_proofs():
    o = ["import Verif.Protocol.Work", "import Verif.Spec.WorkLists", "import Verif.Proofs.WorkBase",
         "/-!", "# Bounds on the calls made for performatives and sections", "",
         "Generated by `tools/gen_work.py`.", "-/", "set_option autoImplicit false", "namespace Amqp", ""]
    for e in ENUMS:
        o.append(f"instance : Keen {e} := keenOver _ _ _ (by decide) (fun v => by cases v <;> decide)")
    o.append("")
    for n in order:
        k, x = items[n]
        o.append(f"instance : Keen {n} where")
        if k == "list":
            fs = fields(x)
            N = len(fs)
            if not fs:
                o.append("  same_size _ := rfl\n  same_enc _ := rfl")
                o.append("  bound _ := (show Under 1 1 3 6 from ⟨by decide, by decide⟩)")
                o.append("")
                continue
            o.append(f"  same_size v := by")
            o.append(f"    show listSize ({plus([f'(measureC v.{f}).val' for f in fs])}) = listSize ({plus([f'size v.{f}' for f in fs])})")
            o.append(f"    simp only [Diligent.same_size]")
            o.append(f"  same_enc v := by")
            o.append(f"    show listHdr {code(x)} ({plus([f'(measureC v.{f}).val' for f in fs])}) {N} ++ ({' ++ '.join(f'(writeC v.{f}).val' for f in fs)}) =")
            o.append(f"      listHdr {code(x)} ({plus([f'size v.{f}' for f in fs])}) {N} ++ ({' ++ '.join(f'enc v.{f}' for f in fs)})")
            o.append(f"    simp only [Diligent.same_size, Diligent.same_enc]")
            acc = f"(Diligent.bound v.{fs[0]})"
            for f in fs[1:]:
                acc = f"({acc}.pair\n      (Diligent.bound v.{f}))"
            o.append(f"  bound v := {acc}.list")
        else:
            def cs(what, comp, other):
                o.append(f"  {what} v := by")
                if what == "bound":
                    o.append("    have hF : fixed %s = %s := rfl" % (n, mx(["fixed " + camel(m["name"]) for m in x])))
                o.append(f"    cases v with")
                for m in x:
                    o.append(f"    | {camel(m['name'])} v => " + (comp if m["class"] == "composite" else other))
            cs("same_size", "exact Keen.same_size v", "exact congrArg (3 + ·) (Keen.same_size v)")
            cs("same_enc", "exact Keen.same_enc v", "exact congrArg (_ ++ ·) (Keen.same_enc v)")
            cs("bound", f"exact (Keen.bound v).mono (by show _ ≤ fixed {n} + nest v; omega)",
               f"exact (Keen.bound v).section.mono (by show _ ≤ fixed {n} + nest v; omega)")
        o.append("")
    o.append("end Amqp")
    return "\n".join(o) + "\n"

open(OUT + "/Protocol/Work.lean", "w").write(gen_model())
open(OUT + "/Spec/WorkLists.lean", "w").write(gen_spec())
open(OUT + "/Proofs/WorkLists.lean", "w").write(gen_proofs())
