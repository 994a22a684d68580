#!/usr/bin/env python3
"""Which values of the types of /repo/codegen/specification.json can be passed on
by an intermediary (Spec/ForwardLists.lean), and the proofs that they can
(Proofs/ForwardLists.lean).  Usage: gen_forward.py [spec] [lean dir]
"""
import json, re, sys, os

SPEC = sys.argv[1] if len(sys.argv) > 1 else "/repo/codegen/specification.json"
OUT = sys.argv[2] if len(sys.argv) > 2 else "/verif/lean/Verif"
spec = json.load(open(SPEC))

def camel(n):
    return "".join(w[0].upper() + w[1:] for w in re.split(r"[-_ ]", n))

PRIM = {"binary": "Binary", "string": "ByteStr", "ubyte": "UInt8", "ushort": "UInt16", "uint": "UInt32",
        "ulong": "UInt64", "boolean": "Bool", "symbol": "Symbol", "timestamp": "Timestamp", "map": "Map"}
PLURAL = {"symbol": "Symbols", "ietf-language-tag": "IetfLanguageTags"}
lists = [t for t in spec if t["class"] == "composite"]
ALWAYS = {"Binary", "ByteStr", "UInt8", "UInt16", "UInt32", "UInt64", "Bool", "Symbol", "MessageId", "Address",
          "Handle", "Seconds", "Milliseconds", "DeliveryTag", "SequenceNo", "DeliveryNumber", "TransferNumber",
          "MessageFormat", "Role", "SenderSettleMode", "ReceiverSettleMode", "SaslCode", "TerminusDurability",
          "TerminusExpiryPolicy"}

def fty(f):
    if f.get("requires"):
        return camel(f["requires"])
    if f.get("multiple") == "true":
        return PLURAL[f["type"]]
    return PRIM.get(f["type"], camel(f["type"]))

def tname(t):
    return "TransferPerf" if t["name"] == "transfer" else camel(t["name"])

def lean(n):
    n = n.replace("-", "_")
    return {"end": "«end»", "from": "«from»"}.get(n, n)

provides = {}
for t in spec:
    for p in (t.get("provides") or "").split(","):
        p = p.strip()
        if p and "descriptor" in t:
            provides.setdefault(p, []).append(t)
unions = {camel(p): ms for p, ms in provides.items() if len(ms) >= 2 and p != "frame"}

# order: a type after the types of its fields
items = {tname(t): ("list", t) for t in lists}
items.update({u: ("union", ms) for u, ms in unions.items()})
order, seen = [], set()
def visit(n):
    if n in seen or n not in items:
        return
    seen.add(n)
    k, x = items[n]
    deps = [fty(f) for f in x.get("field", [])] if k == "list" else [tname(m) for m in x]
    for d in deps:
        visit(d)
    order.append(n)
for n in items:
    visit(n)

LAW = {"Symbols": "forwards_symbols", "IetfLanguageTags": "forwards_symbols", "Fields": "forwards_fields",
       "Map": "forwards_map forwards_variant forwards_variant",
       "FilterSet": "forwards_map forwards_small (forwards_option forwards_small)",
       "NodeProperties": "forwards_fields", "Timestamp": "forwards_of_decoded decoded_datetime",
       "ErrorCondition": "forwards_of_decoded decoded_errorCondition",
       "DistributionMode": "forwards_of_decoded decoded_distributionMode"}
REST = {"DeliveryAnnotations": "forwards_fields", "MessageAnnotations": "forwards_fields",
        "ApplicationProperties": "forwards_map forwards_small forwards_variant", "Data": "forwards_small",
        "AmqpSequence": None, "AmqpValue": "forwards_variant", "Footer": "forwards_fields"}

def law(ty):
    return LAW.get(ty, f"{ty}.forwards")

def gen_spec():
    o = ["import Verif.Spec.Forward",
         "/-!", "# Passing on performatives and sections", "",
         "Generated by `tools/gen_forward.py` from `codegen/specification.json`: a value can",
         "be passed on if its fields can.  Fields of types whose values can always be passed",
         "on are left out.", "-/",
         "set_option autoImplicit false", "namespace Amqp", "open Forwardable", ""]
    for n in order:
        k, x = items[n]
        if k == "list":
            o.append(f"/-- `{x['name']}` -/")
            fs = [lean(f["name"]) for f in x.get("field", []) if fty(f) not in ALWAYS]
            if fs:
                o.append(f"instance : Forwardable {n} := ⟨fun env v =>\n  " + " ∧\n  ".join(f"fwd env v.{f}" for f in fs) + "⟩")
            else:
                o.append(f"instance : Forwardable {n} := alwaysForwardable _")
        else:
            o.append(f"/-- one of {', '.join('`' + m['name'] + '`' for m in x)} -/")
            o.append(f"instance : Forwardable {n} := ⟨fun env v => match v with")
            for m in x:
                M = camel(m["name"])
                o.append(f"  | .{M} x => fwd env x")
            o[-1] += "⟩"
        o.append("")
    o.append("end Amqp")
    return "\n".join(o) + "\n"

def gen_proofs():
    o = ["import Verif.Spec.ForwardLists", "import Verif.Proofs.ForwardLaws", "import Verif.Props.Performatives",
         "import Verif.Props.Descriptors",
         "/-!", "# Performatives and sections that come out of the decoders go back in", "",
         "Generated by `tools/gen_forward.py`.", "-/",
         "set_option autoImplicit false", "namespace Amqp", "open Dec Forwardable", ""]
    for n in order:
        k, x = items[n]
        if k == "list":
            fs = x.get("field", [])
            low = x["name"].replace("-", "_")
            hy = [(i, f) for i, f in enumerate(fs) if fty(f) not in ALWAYS]
            o.append(f"theorem {n}.forwardsInner : ForwardsInner {n} := by")
            if not hy:
                o.append(f"  exact fun env _ _ v _ _ hs => C21_{low} env v hs")
            else:
                o.append(f"  intro env i r v h hc hs")
                pat = ", ".join(f"o{i}" if fty(f) not in ALWAYS else "-" for i, f in enumerate(fs))
                o.append(f"  obtain ⟨{pat}, -⟩ := inner_origin h")
                if len(hy) == 1:
                    o.append(f"  have c{hy[0][0]} : fwd env v.{lean(hy[0][1]['name'])} := hc")
                else:
                    o.append("  obtain ⟨" + ", ".join(f"c{i}" for i, _ in hy) + "⟩ := hc")
                code = int(x["descriptor"]["code"].split(":")[1], 16)
                o.append(f"  have hs' : (listHdr {code} _ {len(fs)} ++ ({' ++ '.join('enc v.' + lean(f['name']) for f in fs)})).length <")
                o.append(f"    2 ^ 32 := hs")
                o.append(f"  simp only [List.length_append] at hs'")
                args = []
                for i, f in hy:
                    w = "forward_req" if f.get("mandatory") == "true" else "forward_opt"
                    assert "default" not in f
                    args.append(f"({w} ({law(fty(f))}) o{i} c{i} (by omega))")
                o.append(f"  exact C21_{low} env v hs " + " ".join(args))
            o.append(f"theorem {n}.forwards : Forwards {n} := forwards_list {n}.forwardsInner")
        else:
            o.append(f"/-- What the alternatives of `{n}` yield was decoded as the alternative. -/")
            o.append(f"def {n}.Origin (env : Env) : {n} → Prop")
            for m in x:
                M = camel(m["name"])
                if m["class"] == "composite":
                    o.append(f"  | .{M} x => ∃ i r, ListType.inner env i = .ok (r, x)")
                else:
                    o.append(f"  | .{M} x => ∃ i r, decode Amqp.{M} env i = .ok (r, x)")
            o.append(f"theorem {n}.dispatch_origin (env : Env) (d : Descriptor) :")
            o.append(f"    Post ({n}.dispatch env d) fun _ _ v => v.Origin env := by")
            o.append(f"  unfold {n}.dispatch")
            o.append(f"  repeat' apply Post.ite")
            o.append(f"  all_goals first")
            o.append(f"    | exact Post.fail _")
            o.append(f"    | (intro i r v h; obtain ⟨x, h1, rfl⟩ := map_eq_ok.1 h; exact ⟨i, r, h1⟩)")
            o.append(f"theorem {n}.forwards : Forwards {n} := by")
            o.append(f"  intro env i r v h hc hs")
            o.append(f"  have ho : v.Origin env := by")
            o.append(f"    obtain ⟨c, t, rfl, h1⟩ := decode_ok h")
            o.append(f"    obtain ⟨_, h1⟩ := validateCode_ok h1")
            o.append(f"    obtain ⟨_, d, _, h1⟩ := bind_eq_ok.1 h1")
            o.append(f"    exact {n}.dispatch_origin env d _ _ _ h1")
            low = re.sub(r"(?<!^)([A-Z])", r"_\1", n).lower()
            o.append(f"  refine C21_{low} env v ?_")
            o.append(f"  cases v with")
            for m in x:
                M = camel(m["name"])
                if m["class"] == "composite":
                    o.append(f"  | {M} x => obtain ⟨i, r, ho⟩ := ho; exact {M}.forwardsInner env i r x ho hc hs")
                else:
                    o.append(f"  | {M} x =>")
                    o.append(f"    obtain ⟨i, r, ho⟩ := ho")
                    o.append(f"    refine {REST[M] or 'forwards_sequence'} env i r x ho hc (Nat.lt_of_le_of_lt ?_ hs)")
                    o.append(f"    exact section_content_le _ _")
        o.append("")
    o.append("end Amqp")
    return "\n".join(o) + "\n"

open(os.path.join(OUT, "Spec/ForwardLists.lean"), "w").write(gen_spec())
open(os.path.join(OUT, "Proofs/ForwardLists.lean"), "w").write(gen_proofs())
