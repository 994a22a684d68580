#!/usr/bin/env python3
"""State what decoders of every type of /repo/codegen/specification.json can complain
of (`Spec/ErrorTables.lean`, C69) and prove it (`Proofs/ErrorInstances.lean`).

Usage: gen_errors.py [spec] [lean dir]
"""
import json, re, sys, textwrap

SPEC = sys.argv[1] if len(sys.argv) > 1 else "/repo/codegen/specification.json"
OUT = sys.argv[2] if len(sys.argv) > 2 else "/verif/lean/Verif"
spec = json.load(open(SPEC))

def camel(n):
    return "".join(w[0].upper() + w[1:] for w in re.split(r"[-_ ]", n))

BY = {t["name"]: t for t in spec}
enums = [t for t in spec if t.get("choice")]
lists = [t for t in spec if t["class"] == "composite"]
provides = {}
for t in spec:
    for u in (t.get("provides") or "").split(", "):
        if u:
            provides.setdefault(u, []).append(t)
# These accept any symbol.
OPEN = {"error-condition", "distribution-mode"}

def options(t):
    vs = [c["value"] for c in t["choice"]]
    k = t["source"]
    if k == "boolean":
        return ".boolean"
    if k == "symbol":
        return ".symbol [" + ", ".join(f'"{v}"' for v in vs) + "]"
    return f".{k} [" + ", ".join(vs) + "]"

def merge(xs):
    r = []
    for x in xs:
        if x not in r:
            r.append(x)
    return r

def of_name(n):
    """Fields and options of a named type, with those of the types in it."""
    t = BY[n]
    if t.get("choice"):
        return [], [(camel(n), options(t))]
    if t["class"] != "composite":
        return [], []
    fs = [(f["name"].replace("-", "_"), k) for k, f in enumerate(t.get("field", []))
          if f.get("mandatory") == "true"]
    os = []
    for f in t.get("field", []):
        a, b = of_field(f)
        fs += a
        os += b
    return merge(fs), merge(os)

def of_field(f):
    r = f.get("requires")
    if r in OPEN:
        return [], []
    if r:
        return of_union(r)
    return of_name(f["type"]) if f["type"] in BY else ([], [])

def of_union(u):
    fs, os = [], []
    for t in provides[u]:
        a, b = of_name(t["name"])
        fs += a
        os += b
    return merge(fs), merge(os)

def wrap(s, ind):
    return ("\n" + " " * ind).join(textwrap.wrap(s, 100 - ind, break_long_words=False,
                                                  break_on_hyphens=False))

def show(p):
    fs, os = p
    return (wrap("⟨[" + ", ".join(f'("{n}", {k})' for n, k in fs) + "],", 4) + "\n  ["
            + ",\n   ".join(wrap(f'("{n}", {o})', 5) for n, o in os) + "]⟩") if fs or os else "⟨[], []⟩"

def lname(t):
    return camel(t["name"])

def gen_tables():
    o = ["import Verif.Spec.Errors", "import Verif.Protocol.Frame",
         "/-!",
         "# Mandatory fields and enumerations of the protocol types",
         "",
         "Generated by `tools/gen_errors.py` from `codegen/specification.json`.",
         "-/",
         "set_option autoImplicit false", "namespace Amqp", "",
         "instance : Faulty MessageId := ⟨[], []⟩",
         "instance : Faulty ErrorCondition := ⟨[], []⟩",
         "instance : Faulty DistributionMode := ⟨[], []⟩"]
    for t in enums:
        o.append(f"instance : Faulty {lname(t)} := {show(of_name(t['name']))}")
    for t in lists:
        n = lname(t)
        o.append(f"instance : Faulty {n} := {show(of_name(t['name']))}")
        if n == "Transfer":
            o.append(f"instance : Faulty TransferPerf := {show(of_name(t['name']))}")
    for u in ["delivery-state", "outcome", "sasl-frame-body", "section", "frame"]:
        o.append(f"instance : Faulty {camel(u)} := {show(of_union(u))}")
    o += ["", "end Amqp", ""]
    return "\n".join(o)

KIND = {"boolean": "tells_bool", "ubyte": "tells_ubyte", "uint": "tells_u32", "symbol": "tells_symbol"}

def emit_enum(t, o):
    n, k = lname(t), t["source"]
    o.append(f"instance : TellsDec {n} := ⟨fun env fmt j hf =>")
    o.append(f"  tells_enum ({KIND[k]} env fmt j hf) fun v e hv h => by")
    o.append(f"    unfold {n}.tryFrom at h")
    names = [f"h{i}" for i in range(len(t["choice"]))]
    for x in names:
        o.append(f"    obtain ⟨{x}, h⟩ := ite_ok_err h")
    o.append("    injection h with h; subst h")
    if k == "boolean":
        o.append("    cases v <;> contradiction⟩")
    elif k == "symbol":
        ne = "".join(f"ne_cons {x} <| " for x in names) + "ne_nil"
        o.append(f"    exact ⟨_, List.mem_singleton.2 rfl, _, {ne}, hv⟩⟩")
    else:
        o.append(f"    exact ⟨_, List.mem_singleton.2 rfl, unknown_{k} hv (by simp [{', '.join(names)}])⟩⟩")
    o.append(f"instance : FinalDec {n} := ⟨fun env fmt => final_enum _ env fmt⟩")

PRIM = {"binary": "Binary", "string": "ByteStr", "ubyte": "UInt8", "ushort": "UInt16", "uint": "UInt32",
        "ulong": "UInt64", "boolean": "Bool", "symbol": "Symbol", "timestamp": "Timestamp", "map": "Map"}

def emit_list(t, o):
    n = lname(t)
    n = "TransferPerf" if n == "Transfer" else n
    o.append(f"theorem {n}.fieldsTell : FieldsTell (Faulty.fields {n}) (Faulty.options {n}) 0")
    o.append(f"    (ListType.fields {n}) := by")
    o.append(f"  unfold ListType.fields instListType{n}")
    ks = []
    for f in t.get("field", []):
        if f.get("mandatory") == "true":
            ks.append("fieldsTell_req (by in_table) (by sub_table) (by sub_table) <|")
        elif "default" in f:
            ks.append("fieldsTell_dflt (by sub_table) (by sub_table) <|")
        else:
            ks.append("fieldsTell_opt (by sub_table) (by sub_table) <|")
    o.append("  exact " + "\n    ".join(ks + ["fieldsTell_nil"]))
    o.append(f"instance : TellsDec {n} := listTellsDec {n}.fieldsTell")
    o.append(f"instance : FinalDec {n} := listFinalDec")
    o.append("")

def emit_union(u, o):
    n = camel(u)
    o.append(f"theorem {n}.tells_dispatch (env : Env) (j : Bytes) (d : Descriptor)")
    o.append("    (hd : 0x00 ∈ j ∧ ∃ w, DescriptorForm d w ∧ w <:+: j) :")
    o.append(f"    Tells (Faulty.fields {n}) (Faulty.options {n}) j (fun _ => True) ({n}.dispatch env d) := by")
    o.append(f"  unfold {n}.dispatch")
    o.append("  repeat' apply Tells.ite")
    o.append("  all_goals first")
    o.append("    | exact Tells.fail hd")
    for t in provides[u]:
        m = lname(t)
        if t["class"] == "composite":
            if m == "Transfer":
                o.append("    | exact Tells.map (Q := fun _ => True) ((Transfer.tells_inner env j).mono (by sub_table) (by sub_table) fun _ h => h) fun _ _ => trivial")
            else:
                o.append(f"    | exact Tells.map (Q := fun _ => True) ((inner_tells {m}.fieldsTell env j).mono (by sub_table) (by sub_table) fun _ h => h) fun _ _ => trivial")
        else:
            o.append(f"    | exact Tells.map (Q := fun _ => True) ((tells_decode (α := Amqp.{m}) env j).mono (by sub_table) (by sub_table) fun _ h => h) fun _ _ => trivial")
    o.append(f"theorem {n}.final_dispatch (env : Env) (d : Descriptor) : Final ({n}.dispatch env d) := by")
    o.append(f"  unfold {n}.dispatch")
    o.append("  repeat' apply Final.ite")
    o.append("  all_goals first")
    o.append("    | exact Final.fail _")
    if u == "frame":
        o.append("    | exact (Transfer.final_inner env).map _")
    o.append("    | exact (final_decode _).map _")
    for t in provides[u]:
        m = lname(t)
        if t["class"] == "composite" and m != "Transfer":
            o.append(f"    | exact (inner_final (α := Amqp.{m}) env).map _")
    if u != "frame":
        o.append(f"instance : TellsDec {n} := ⟨fun env _ j hf =>")
        o.append(f"  tells_matched hf fun d hd => {n}.tells_dispatch env j d hd⟩")
        o.append(f"instance : FinalDec {n} := ⟨fun env _ =>")
        o.append(f"  ((final_decode _).bind (loc_decode _) fun d => {n}.final_dispatch env d).validateCode⟩")
    o.append("")

def gen_instances():
    o = ["import Verif.Proofs.ErrorLaws", "import Verif.Spec.ErrorTables", "import Verif.Proofs.PanicFrames",
         "/-! Generated by `tools/gen_errors.py`: the errors of the decoders of the protocol",
         "types tell the truth and are final. -/",
         "set_option autoImplicit false", "namespace Amqp", "open Dec", "",
         "theorem tells_bool {F : FieldTable} {O : OptionTable} (env : Env) (fmt : UInt8) (j : Bytes)",
         "    (hf : fmt ∈ j) : Tells F O j (fun _ => True) (decF (α := Bool) env fmt) :=",
         "  (TellsDec.tells (α := Bool) env fmt j hf).mono (List.nil_subset _) (List.nil_subset _) fun _ h => h",
         "theorem tells_ubyte {F : FieldTable} {O : OptionTable} (env : Env) (fmt : UInt8) (j : Bytes)",
         "    (hf : fmt ∈ j) : Tells F O j (fun b => b ∈ j) (decF (α := UInt8) env fmt) :=",
         "  tells_validateCode hf tells_readU8",
         "",
         "theorem ite_ok_err {α : Type} {c : Prop} [Decidable c] {a : α} {x : Res ParseError α} {e : ParseError}",
         "    (h : (if c then .ok a else x) = .err e) : ¬ c ∧ x = .err e := by",
         "  split at h",
         "  · cases h",
         "  · exact ⟨‹_›, h⟩",
         "theorem ne_nil {v : RStr} : ∀ o ∈ ([] : List String), v.bytes ≠ utf8 o.toList :=",
         "  fun _ h => by cases h",
         "theorem ne_cons {v : RStr} {s : String} {l : List String} (h : ¬ v = .lit s)",
         "    (hl : ∀ o ∈ l, v.bytes ≠ utf8 o.toList) : ∀ o ∈ s :: l, v.bytes ≠ utf8 o.toList := by",
         "  intro o ho",
         "  rcases List.mem_cons.1 ho with rfl | ho",
         "  · exact fun e => h (RStr.ext e)",
         "  · exact hl o ho",
         "theorem unknown_ubyte {j : Bytes} {v : UInt8} {l : List UInt8} (hv : v ∈ j) (h : v ∉ l) :",
         "    (Options.ubyte l).Unknown j := ⟨v, hv, h⟩",
         "theorem unknown_uint {j : Bytes} {v : UInt32} {l : List UInt32} (hv : UintIn j v)",
         "    (h : v ∉ 0 :: l) : (Options.uint (0 :: l)).Unknown j :=",
         "  ⟨v, h, hv.resolve_left fun e => h (e ▸ List.mem_cons_self ..)⟩",
         "",
         'macro "in_table" : tactic => `(tactic| simp [Faulty.fields])',
         'macro "sub_table" : tactic => `(tactic| simp [Faulty.fields, Faulty.options])',
         ""]
    for t in enums:
        emit_enum(t, o)
    o.append("")
    o += ["instance : TellsDec ErrorCondition := ⟨fun env fmt j hf =>",
          "  (tells_symbol env fmt j hf).bind fun _ _ => Tells.pure trivial⟩",
          "instance : FinalDec ErrorCondition := ⟨fun env fmt =>",
          "  (FinalDec.final (α := Symbol) env fmt).bind (LawfulDec.loc env fmt) fun _ => Final.pure _⟩",
          "instance : TellsDec DistributionMode := ⟨fun env fmt j hf =>",
          "  (tells_symbol env fmt j hf).bind fun _ _ => Tells.pure trivial⟩",
          "instance : FinalDec DistributionMode := ⟨fun env fmt =>",
          "  (FinalDec.final (α := Symbol) env fmt).bind (LawfulDec.loc env fmt) fun _ => Final.pure _⟩",
          "instance : TellsDec MessageId := ⟨fun env fmt j hf =>",
          "  have u := (TellsDec.tells (α := UInt64) env fmt j hf).map (f := MessageId.Ulong)",
          "    (R := fun _ => True) fun _ _ => trivial",
          "  have v := (TellsDec.tells (α := Uuid) env fmt j hf).map (f := MessageId.Uuid)",
          "    (R := fun _ => True) fun _ _ => trivial",
          "  have b := (TellsDec.tells (α := Binary) env fmt j hf).map (f := MessageId.Binary)",
          "    (R := fun _ => True) fun _ _ => trivial",
          "  have s := (TellsDec.tells (α := RStr) env fmt j hf).map (f := MessageId.String)",
          "    (R := fun _ => True) fun _ _ => trivial",
          "  Tells.ite u (Tells.ite v (Tells.ite b (Tells.ite s (Tells.fail hf))))⟩",
          "instance : FinalDec MessageId := ⟨fun env fmt =>",
          "  Final.ite ((FinalDec.final env fmt).map _) (Final.ite ((FinalDec.final env fmt).map _)",
          "    (Final.ite ((FinalDec.final env fmt).map _) (Final.ite ((FinalDec.final env fmt).map _)",
          "      (Final.fail _))))⟩",
          ""]
    done = set()
    def put(t):
        if t["name"] in done:
            return
        done.add(t["name"])
        for f in t.get("field", []):
            r = f.get("requires")
            if r in ("delivery-state", "outcome"):
                union(r)
            elif r in BY and BY[r]["class"] == "composite":
                put(BY[r])
            elif f["type"] in BY and BY[f["type"]]["class"] == "composite":
                put(BY[f["type"]])
        emit_list(t, o)
        if t["name"] == "transfer":
            o.extend(["theorem Transfer.tells_inner (env : Env) (j : Bytes) :",
                      "    Tells (Faulty.fields Transfer) (Faulty.options Transfer) j (fun _ => True) (Transfer.decInner env) :=",
                      "  (inner_tells TransferPerf.fieldsTell env j).bind fun t _ i hi => by",
                      "    unfold Transfer.withBody",
                      "    by_cases he : i.isEmpty = true",
                      "    · rw [if_pos he]; exact ⟨hi, trivial⟩",
                      "    · rw [if_neg he]; exact ⟨List.nil_infix, trivial⟩",
                      "theorem Transfer.final_inner (env : Env) : Final (Transfer.decInner env) :=",
                      "  (inner_final (α := TransferPerf) env).bind (local_inner (α := TransferPerf) env) fun t i e h => by",
                      "    unfold Transfer.withBody at h",
                      "    split at h <;> cases h",
                      "instance : TellsDec Transfer := ⟨fun env _ j hf => tells_describedAs hf (Transfer.tells_inner env j)⟩",
                      "instance : FinalDec Transfer := ⟨fun env _ => final_describedAs (Transfer.final_inner env) _ _ _ _⟩",
                      ""])
    def union(u):
        if u in done:
            return
        done.add(u)
        for t in provides[u]:
            if t["class"] == "composite":
                put(t)
        emit_union(u, o)
    for t in lists:
        put(t)
    for u in ["delivery-state", "outcome", "sasl-frame-body", "section", "frame"]:
        union(u)
    o += ["end Amqp", ""]
    return "\n".join(o)

open(f"{OUT}/Spec/ErrorTables.lean", "w").write(gen_tables())
open(f"{OUT}/Proofs/ErrorInstances.lean", "w").write(gen_instances())
