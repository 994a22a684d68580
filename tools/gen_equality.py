#!/usr/bin/env python3
"""`==` of the types of /repo/codegen/specification.json (Protocol/Equality.lean),
the values of them a program can hold (Spec/EqualityLists.lean), the laws of `==`
(Proofs/EqualityLists.lean), and that decoders yield values a program can hold
(Proofs/EqualityReceivedLists.lean); the values whose bytes are settled by `==`
(Spec/SteadyLists.lean, Proofs/SteadyLists.lean).  Usage: gen_equality.py [spec] [lean dir]
"""
import json, re, sys

SPEC = sys.argv[1] if len(sys.argv) > 1 else "/repo/codegen/specification.json"
OUT = sys.argv[2] if len(sys.argv) > 2 else "/verif/lean/Verif"
DEFS = "/repo/src/protocol/definitions.rs"
spec = json.load(open(SPEC))
src = open(DEFS).read().split("\n")

def camel(n):
    return "".join(w[0].upper() + w[1:] for w in re.split(r"[-_ ]", n))

PRIM = {"binary": "Binary", "string": "ByteStr", "ubyte": "UInt8", "ushort": "UInt16", "uint": "UInt32",
        "ulong": "UInt64", "boolean": "Bool", "symbol": "Symbol", "timestamp": "Timestamp", "map": "Map"}
PLURAL = {"symbol": "Symbols", "ietf-language-tag": "IetfLanguageTags"}
lists = [t for t in spec if t["class"] == "composite"]
ENUMS = ["Role", "SenderSettleMode", "ReceiverSettleMode", "SaslCode", "TerminusDurability", "TerminusExpiryPolicy"]

def fty(f):
    if f.get("requires"):
        return camel(f["requires"])
    if f.get("multiple") == "true":
        return PLURAL[f["type"]]
    return PRIM.get(f["type"], camel(f["type"]))

def tname(t):
    return "TransferPerf" if t["name"] == "transfer" else camel(t["name"])

def lean(n):
    n = n.replace("-", "_")
    return {"end": "«end»", "from": "«from»"}.get(n, n)

def derive_line(rust):
    for i, l in enumerate(src):
        if re.match(r"pub (struct|enum) %s\b" % rust, l):
            assert "PartialEq" in src[i - 1], rust
            return i
    raise Exception(rust)

provides = {}
for t in spec:
    for p in (t.get("provides") or "").split(","):
        p = p.strip()
        if p and "descriptor" in t:
            provides.setdefault(p, []).append(t)
unions = {camel(p): ms for p, ms in provides.items() if len(ms) >= 2 and p != "frame"}

items = {tname(t): ("list", t) for t in lists}
items.update({u: ("union", ms) for u, ms in unions.items()})
order, seen = [], set()
def visit(n):
    if n in seen or n not in items:
        return
    seen.add(n)
    k, x = items[n]
    deps = [fty(f) for f in x.get("field", [])] if k == "list" else [tname(m) for m in x]
    for d in deps:
        visit(d)
    order.append(n)
for n in items:
    visit(n)

def rust(n):
    return "Transfer" if n == "TransferPerf" else n

def fields(x):
    return [lean(f["name"]) for f in x.get("field", [])]

def gen_model():
    o = ["import Verif.Equality", "/-! Generated by `tools/gen_equality.py`: `==` of the types of",
         "`src/protocol/definitions.rs`. -/", "set_option autoImplicit false", "namespace Amqp", ""]
    for e in ENUMS:
        o.append(f"/-- `src/protocol/definitions.rs:{derive_line(e)}`. -/")
        o.append(f"instance : REq {e} := .ofDec _")
    o.append("")
    for n in order:
        k, x = items[n]
        extra = "; `body` is compared in `Verif.Protocol.FrameEquality`" if n == "TransferPerf" else ""
        o.append(f"/-- `{rust(n)}`, `src/protocol/definitions.rs:{derive_line(rust(n))}`{extra}. -/")
        if k == "list":
            fs = fields(x)
            if fs:
                o.append(f"instance : REq {n} := ⟨fun a b =>\n  " +
                         " &&\n  ".join(f"req a.{f} b.{f}" for f in fs) + "⟩")
            else:
                o.append(f"instance : REq {n} := ⟨fun _ _ => true⟩")
        else:
            o.append(f"instance : REq {n} where")
            o.append("  req")
            for m in x:
                M = camel(m["name"])
                o.append(f"    | .{M} a, .{M} b => req a b")
            o.append("    | _, _ => false")
        o.append("")
    o.append("end Amqp")
    return "\n".join(o) + "\n"

def gen_spec():
    o = ["import Verif.Spec.Equality", "/-!", "# Performatives and sections a program can hold", "",
         "Generated by `tools/gen_equality.py` from `codegen/specification.json`: those all",
         "of whose fields it can hold.", "-/", "set_option autoImplicit false", "namespace Amqp", ""]
    for e in ENUMS:
        o.append(f"instance : Holdable {e} := .any _")
    o.append("")
    for n in order:
        k, x = items[n]
        if k == "list":
            fs = fields(x)
            o.append(f"/-- `{x['name']}` -/")
            if fs:
                o.append(f"instance : Holdable {n} := ⟨fun v =>\n  " + " ∧\n  ".join(f"held v.{f}" for f in fs) + "⟩")
            else:
                o.append(f"instance : Holdable {n} := .any _")
        else:
            o.append(f"/-- one of {', '.join('`' + m['name'] + '`' for m in x)} -/")
            o.append(f"instance : Holdable {n} := ⟨fun v => match v with")
            for m in x:
                o.append(f"  | .{camel(m['name'])} x => held x")
            o[-1] += "⟩"
        o.append("")
    o.append("end Amqp")
    return "\n".join(o) + "\n"

def proj(h, i, n):
    return h + ".2" * i + (".1" if i < n - 1 else "")

def gen_proofs():
    o = ["import Verif.Protocol.Equality", "import Verif.Spec.EqualityLists", "import Verif.Proofs.EqualityLaws",
         "/-!", "# Laws of `==` of performatives and sections", "", "Generated by `tools/gen_equality.py`.", "-/",
         "set_option autoImplicit false", "namespace Amqp", ""]
    for e in ENUMS:
        o.append(f"instance : LawfulREq {e} := lawfulDec _")
        o.append(f"instance : SizeREq {e} := sizeDec _")
    o.append("")
    for n in order:
        k, x = items[n]
        if k == "list":
            fs = fields(x)
            N = len(fs)
            if not fs:
                o.append(f"instance : LawfulREq {n} := ⟨fun _ _ => rfl, fun _ _ _ _ _ => rfl, fun _ _ _ _ _ _ _ _ => rfl⟩")
                o.append(f"instance : SizeREq {n} := ⟨fun _ _ _ _ _ => rfl⟩")
                o.append("")
                continue
            o.append(f"theorem {n}.req_iff (a b : {n}) : req a b = true ↔\n    " +
                     " ∧ ".join(f"req a.{f} b.{f} = true" for f in fs) + " := by")
            o.append(f"  show (" + " && ".join(f"req a.{f} b.{f}" for f in fs) + ") = true ↔ _")
            o.append(f"  simp only [Bool.and_eq_true, and_assoc]")
            o.append(f"instance : LawfulREq {n} where")
            def tup(l): return l[0] if N == 1 else "⟨" + ",\n    ".join(l) + "⟩"
            o.append(f"  refl a h := ({n}.req_iff _ _).2 (" + tup([f"LawfulREq.refl _ {proj('h', i, N)}" for i in range(N)]) + ")")
            o.append(f"  symm a b ha hb h := by")
            o.append(f"    rw [{n}.req_iff] at h ⊢")
            o.append(f"    exact " + tup([f"LawfulREq.symm _ _ {proj('ha', i, N)} {proj('hb', i, N)} {proj('h', i, N)}" for i in range(N)]))
            o.append(f"  trans a b c ha hb hc h h' := by")
            o.append(f"    rw [{n}.req_iff] at h h' ⊢")
            o.append(f"    exact " + tup([f"LawfulREq.trans _ _ _ {proj('ha', i, N)} {proj('hb', i, N)} {proj('hc', i, N)} {proj('h', i, N)} {proj(chr(104)+chr(39), i, N)}" for i in range(N)]))
            o.append(f"instance : SizeREq {n} where")
            o.append(f"  size_eq a b ha hb h := by")
            o.append(f"    rw [{n}.req_iff] at h")
            o.append(f"    show listSize (" + " + ".join(f"size a.{f}" for f in fs) + ") = listSize (" + " + ".join(f"size b.{f}" for f in fs) + ")")
            o.append(f"    rw [" + ",\n      ".join(f"SizeREq.size_eq a.{f} b.{f} {proj('ha', i, N)} {proj('hb', i, N)} {proj('h', i, N)}" for i, f in enumerate(fs)) + "]")
        else:
            o.append(f"instance : LawfulREq {n} where")
            Ms = [camel(m["name"]) for m in x]
            o.append(f"  refl a h := by")
            o.append(f"    cases a with")
            for M in Ms:
                o.append(f"    | {M} a => exact LawfulREq.refl a h")
            o.append(f"  symm a b ha hb h := by")
            o.append(f"    cases a with")
            for M in Ms:
                o.append(f"    | {M} a => cases b with")
                o.append(f"      | {M} b => exact LawfulREq.symm a b ha hb h")
                o.append(f"      | _ => exact Bool.noConfusion h")
            o.append(f"  trans a b c ha hb hc h h' := by")
            o.append(f"    cases a with")
            for M in Ms:
                o.append(f"    | {M} a => cases b with")
                o.append(f"      | {M} b => cases c with")
                o.append(f"        | {M} c => exact LawfulREq.trans a b c ha hb hc h h'")
                o.append(f"        | _ => exact Bool.noConfusion h'")
                o.append(f"      | _ => exact Bool.noConfusion h")
            o.append(f"instance : SizeREq {n} where")
            o.append(f"  size_eq a b ha hb h := by")
            o.append(f"    cases a with")
            for m, M in zip(x, Ms):
                o.append(f"    | {M} a => cases b with")
                o.append(f"      | {M} b => {SIZE(m)}")
                o.append(f"      | _ => exact Bool.noConfusion h")
        o.append("")
    o.append("end Amqp")
    return "\n".join(o) + "\n"

def SIZE(m):
    return "exact SizeREq.size_eq a b ha hb h" if m["class"] == "composite" else \
        "exact congrArg (3 + ·) (SizeREq.size_eq a b ha hb h)"

def gen_received():
    o = ["import Verif.Proofs.EqualityReceived", "import Verif.Spec.EqualityLists", "import Verif.Proofs.ForwardLists",
         "/-!", "# Performatives and sections that the decoders yield", "", "Generated by `tools/gen_equality.py`.", "-/",
         "set_option autoImplicit false", "namespace Amqp", "open Dec", ""]
    for e in ENUMS:
        o.append(f"instance : ReceivedHeld {e} := receivedAny _")
    o.append("")
    for n in order:
        k, x = items[n]
        if k == "list":
            fs = x.get("field", [])
            N = len(fs)
            o.append(f"theorem {n}.receivedInner : ReceivedInner {n} := by")
            if N == 0:
                o.append(f"  exact fun _ _ _ _ _ => trivial")
            else:
                o.append(f"  intro env i r v h")
                def pat(i, f): return "-" if "default" in f else f"o{i}"
                o.append(f"  obtain ⟨" + ", ".join(pat(i, f) for i, f in enumerate(fs)) + ", -⟩ := inner_origin h")
                def term(i, f):
                    if "default" in f: return "trivial"
                    return f"received_req o{i}" if f.get("mandatory") == "true" else f"received_opt o{i}"
                l = [term(i, f) for i, f in enumerate(fs)]
                if N == 1:
                    o.append(f"  show held v.{lean(fs[0]['name'])}")
                o.append("  exact " + (l[0] if N == 1 else "⟨" + ", ".join(l) + "⟩"))
            o.append(f"instance : ReceivedHeld {n} := received_list {n}.receivedInner")
        else:
            o.append(f"theorem {n}.held_of_origin {{env : Env}} {{v : {n}}} (ho : v.Origin env) : held v := by")
            o.append(f"  cases v with")
            for m in x:
                M = camel(m["name"])
                if m["class"] == "composite":
                    o.append(f"  | {M} x => obtain ⟨i, r, ho⟩ := ho; exact {M}.receivedInner env i r x ho")
                else:
                    o.append(f"  | {M} x => obtain ⟨i, r, ho⟩ := ho; exact ReceivedHeld.held_of env i r x ho")
            o.append(f"instance : ReceivedHeld {n} := ⟨by")
            o.append(f"  intro env i r v h")
            o.append(f"  obtain ⟨c, t, rfl, h1⟩ := decode_ok h")
            o.append(f"  obtain ⟨_, h1⟩ := validateCode_ok h1")
            o.append(f"  obtain ⟨_, d, _, h1⟩ := bind_eq_ok.1 h1")
            o.append(f"  exact {n}.held_of_origin ({n}.dispatch_origin env d _ _ _ h1)⟩")
        o.append("")
    o.append("end Amqp")
    return "\n".join(o) + "\n"

def gen_steady_spec():
    o = ["import Verif.Protocol.Lists", "import Verif.Spec.Steady", "/-!", "# Steady performatives and sections", "",
         "Generated by `tools/gen_equality.py` from `codegen/specification.json`: those all",
         "of whose fields are steady.", "-/", "set_option autoImplicit false", "namespace Amqp", ""]
    for e in ENUMS:
        o.append(f"instance : Steadiness {e} := .any _")
    o.append("")
    for n in order:
        k, x = items[n]
        if k == "list":
            fs = fields(x)
            o.append(f"/-- `{x['name']}` -/")
            if fs:
                o.append(f"instance : Steadiness {n} := ⟨fun v =>\n  " + " ∧\n  ".join(f"steady v.{f}" for f in fs) + "⟩")
            else:
                o.append(f"instance : Steadiness {n} := .any _")
        else:
            o.append(f"/-- one of {', '.join('`' + m['name'] + '`' for m in x)} -/")
            o.append(f"instance : Steadiness {n} := ⟨fun v => match v with")
            for m in x:
                o.append(f"  | .{camel(m['name'])} x => steady x")
            o[-1] += "⟩"
        o.append("")
    o.append("end Amqp")
    return "\n".join(o) + "\n"

def gen_steady_proofs():
    o = ["import Verif.Spec.SteadyLists", "import Verif.Proofs.EqualityLists", "import Verif.Proofs.Steady",
         "/-!", "# Steady performatives and sections that are equal are the same", "",
         "Generated by `tools/gen_equality.py`.", "-/", "set_option autoImplicit false", "namespace Amqp", ""]
    for e in ENUMS:
        o.append(f"instance : SteadyREq {e} := steadyDec _")
    o.append("")
    for n in order:
        k, x = items[n]
        o.append(f"instance : SteadyREq {n} where")
        if k == "list":
            fs = fields(x)
            N = len(fs)
            if not fs:
                o[-1] = f"instance : SteadyREq {n} := ⟨fun a b _ _ _ _ => by cases a; cases b; rfl⟩"
                o.append("")
                continue
            o.append(f"  same a b ha hb hs h := by")
            o.append(f"    rw [{n}.req_iff] at h")
            for i, f in enumerate(fs):
                o.append(f"    have e{i} := SteadyREq.same a.{f} b.{f} {proj('ha', i, N)} {proj('hb', i, N)} {proj('hs', i, N)} {proj('h', i, N)}")
            o.append("    cases a; cases b")
            o.append("    dsimp only at " + " ".join(f"e{i}" for i in range(N)))
            o.append("    rw [" + ", ".join(f"e{i}" for i in range(N)) + "]")
        else:
            Ms = [camel(m["name"]) for m in x]
            o.append(f"  same a b ha hb hs h := by")
            o.append(f"    cases a with")
            for M in Ms:
                o.append(f"    | {M} a => cases b with")
                o.append(f"      | {M} b => exact congrArg _ (SteadyREq.same a b ha hb hs h)")
                o.append(f"      | _ => exact Bool.noConfusion h")
        o.append("")
    o.append("end Amqp")
    return "\n".join(o) + "\n"

open(OUT + "/Protocol/Equality.lean", "w").write(gen_model())
open(OUT + "/Spec/EqualityLists.lean", "w").write(gen_spec())
open(OUT + "/Proofs/EqualityLists.lean", "w").write(gen_proofs())
open(OUT + "/Proofs/EqualityReceivedLists.lean", "w").write(gen_received())
open(OUT + "/Spec/SteadyLists.lean", "w").write(gen_steady_spec())
open(OUT + "/Proofs/SteadyLists.lean", "w").write(gen_steady_proofs())
