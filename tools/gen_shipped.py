#!/usr/bin/env python3
"""Writes lean/Verif/Codegen/Shipped.lean and lean/Verif/Proofs/CodegenTypes.lean.

The tables are what the model of the generator makes of the shipped specification; they are
printed by Lean from `generate specification` and proved equal to it in the generated files.
"""
import os, re, subprocess, textwrap

ROOT = os.path.join(os.path.dirname(os.path.abspath(__file__)), "..", "lean")
PRINT = """import Verif.Codegen.Specification
import Verif.Codegen.Compile
open Amqp.Codegen
#eval match generate specification with | .ok d => d | _ => none
"""

tmp = "/tmp/print_shipped.lean"
with open(tmp, "w") as f:
    f.write(PRINT)
text = subprocess.run(["lake", "env", "lean", tmp], cwd=ROOT, capture_output=True, text=True).stdout
text = text.replace("Amqp.Codegen.", "")

def parse(t):
    toks = re.findall(r'"[^"]*"|\{|\}|\[|\]|\(|\)|:=|,|[^\s{}\[\](),:="]+', t)
    pos = 0
    def value():
        nonlocal pos
        k = toks[pos]
        if k == "{":
            pos += 1
            d = {}
            while True:
                name = toks[pos]; assert toks[pos + 1] == ":="; pos += 2
                d[name] = value()
                k = toks[pos]; pos += 1
                if k == "}":
                    return d
        if k == "[" or k == "(":
            pos += 1
            l = []
            if toks[pos] == "]":
                pos += 1
                return l
            while True:
                l.append(value())
                k = toks[pos]; pos += 1
                if k in "])":
                    return l
        if k.startswith('"'):
            pos += 1
            return k[1:-1]
        if k == "some":
            pos += 1
            return value()
        if k == "Kind.default":
            pos += 2
            return ("default", toks[pos - 1][1:-1])
        pos += 1
        if k.isdigit():
            return int(k)
        return k.split(".")[-1]
    return value()

c = parse(text)
q = lambda s: '"' + s + '"'

def kind(k):
    return ".default " + q(k[1]) if isinstance(k, tuple) else "." + k

out = ["""import Verif.Codegen.Specification
import Verif.Codegen.Compile
/-! Generated by `tools/gen_shipped.py`: the code generated from the shipped specification. -/
set_option autoImplicit false
namespace Amqp.Codegen
"""]
for l in c["lists"]:
    fs = ",\n     ".join(f"⟨{q(f['name'])}, .{f['ty']}, {kind(f['kind'])}⟩" for f in l["fields"])
    out.append(f"""/-- `{l['rust']}`. -/
def compiled{l['rust']} : CList :=
  {{ rust := {q(l['rust'])}, code := {l['code']}, name := {q(l['name'])}, transfer := {l['transfer']}
    fields := [{fs}] }}
""")
for r in c["restricted"]:
    out.append(f"""/-- `{r['rust']}`. -/
def compiled{r['rust']} : CRestricted :=
  {{ rust := {q(r['rust'])}, code := {r['code']}, name := {q(r['name'])}, ty := .{r['ty']} }}
""")
for e in c["enums"]:
    its = ",\n     ".join(f"({q(i[0])}, {q(i[1])}, {i[2]})" for i in e["items"])
    out.append(f"""/-- `{e['rust']}`. -/
def compiled{e['rust']} : CEnum :=
  {{ rust := {q(e['rust'])}, ty := .{e['ty']}, is_symbol := {e['is_symbol']}
    items := [{its}] }}
""")
def table(items, width=96):
    return textwrap.fill(", ".join(items), width, initial_indent="    ", subsequent_indent="    ").strip()
us = ",\n    ".join(f"({q(u[0])},\n      [" + ",\n       ".join(f"({q(o[0])}, {o[1]}, {q(o[2])})" for o in u[1]) + "])" for u in c["unions"])
fr = ",\n    ".join(f"({q(o[0])}, {o[1]}, {q(o[2])})" for o in c["frame"])
out.append(f"""/-- Everything generated. -/
def shipped : Compiled where
  lists := [{table(['compiled' + l['rust'] for l in c['lists']])}]
  restricted := [{table(['compiled' + l['rust'] for l in c['restricted']])}]
  enums := [{table(['compiled' + l['rust'] for l in c['enums']])}]
  unions := [{us}]
  frame := [{fr}]

set_option maxRecDepth 100000 in
/-- The generator makes this of the shipped specification. -/
theorem generate_specification : generate specification = .ok (some shipped) := by decide +kernel

end Amqp.Codegen
""")
with open(os.path.join(ROOT, "Verif/Codegen/Shipped.lean"), "w") as f:
    f.write("\n".join(out))

def model(rust):
    return "TransferPerf" if rust == "Transfer" else rust

def const(ty, lit):
    return "." + lit.split("::")[1] if "::" in lit else lit

carrier = {"u8": "UInt8", "u16": "UInt16", "u32": "UInt32", "bool": "Bool", "terminusDurability": "TerminusDurability", "terminusExpiryPolicy": "TerminusExpiryPolicy", "senderSettleMode": "SenderSettleMode", "receiverSettleMode": "ReceiverSettleMode"}
KEY = {"return", "end", "from", "match", "type"}
proofs = ["""import Verif.Codegen.Shipped
import Verif.Proofs.CodegenShipped
/-! Generated by `tools/gen_shipped.py`: the types of the model are those generated from the
shipped specification. -/
set_option autoImplicit false
namespace Amqp.Codegen
open Dec
"""]
for l in c["lists"]:
    r, m = l["rust"], model(l["rust"])
    fs = []
    for f in l["fields"]:
        k = f["kind"]
        if isinstance(k, tuple):
            fs.append(f".default (Ty.rust .{f['ty']}) ({const(f['ty'], k[1])} : {carrier[f['ty']]})")
        elif k == "optional":
            fs.append(f".optional (Ty.rust .{f['ty']})")
        else:
            fs.append(f".mandatory {q(f['name'])} (Ty.rust .{f['ty']})")
    flds = ",\n    ".join(fs)
    def proj(n):
        return n
    tup = table(["v." + proj(f["name"]) for f in l["fields"]] + ["()"]) if l["fields"] else "()"
    if l["fields"]:
        tup = "(" + tup + ")"
    arg = "v" if l["fields"] else "_"
    proofs.append(f"""/-- The functions generated for `{r}`. -/
def template{r} : TList := ⟨{l['code']}, {q(l['name'])},
   [{flds}]⟩

/-- The fields of `{r}` in order. -/
def struct{r} ({arg} : {m}) : Struct template{r}.fields :=
  {tup}

theorem compiled{r}_template : compiled{r}.template = some template{r} := rfl

theorem generates{r} : Generates template{r} struct{r} :=
  generates (α := {m}) (fun s => ListType.ofT (α := {m}) s) (fun _ => rfl) (fun _ => rfl)
    rfl rfl (fun _ => map_map_id struct{r} (fun s => ListType.ofT (α := {m}) s) (fun _ => rfl) _)
    (fun _ => rfl) rfl (fun _ => rfl)

theorem generates{r}_inner (env : Env) :
    template{r}.decInner env = struct{r} <$> {m}.decInner env :=
  generates_inner (α := {m})
    (fun _ => map_map_id struct{r} (fun s => ListType.ofT (α := {m}) s) (fun _ => rfl) _) env
""")
base = {"bool": "Bool", "u8": "UInt8", "u32": "UInt32", "symbol": "Symbol"}
for e in c["enums"]:
    r = e["rust"]; n = len(e["items"])
    b = base[e["ty"]]
    arms = "\n".join(f"  | .{i[0]} => ⟨{k}, by decide⟩" for k, i in enumerate(e["items"]))
    back = ", ".join(f"(.{i[0]} : {r})" for i in e["items"])
    if e["is_symbol"] == "true":
        defn = f"""/-- The functions generated for `{r}`. -/
def template{r} : TEnum Symbol := compiled{r}.symbols
"""
        size, enc = f"template{r}.symbolSize", f"template{r}.symbolEnc"
        fact = ""
    else:
        vals = ", ".join(i[1] for i in e["items"])
        lens = ", ".join(str(i[2]) for i in e["items"])
        defn = f"""/-- The functions generated for `{r}`. -/
def template{r} : TEnum {b} := ⟨{q(r)}, [{vals}], [{lens}]⟩
"""
        size, enc = f"template{r}.size", f"template{r}.enc"
        fact = f"""
theorem compiled{r}_template : compiled{r}.template = some template{r} := rfl
"""
    proofs.append(defn + f"""
/-- The items of `{r}` in order. -/
def item{r} : {r} → Fin template{r}.values.length
{arms}
{fact}
theorem item{r}_nodup : template{r}.values.Nodup := by decide +kernel

theorem generates{r} : GeneratesEnum template{r} {size} {enc} item{r} where
  bijective := ⟨fun i => [{back}].get i, fun v => by cases v <;> rfl, by decide⟩
  decode := enum_agrees (fun i => [{back}].get i) (by decide) item{r}_nodup
    (fun v => by cases v <;> rfl) (by
      intro b h
      change (∀ e, {r}.tryFrom b ≠ .ok e) at h
      show {r}.tryFrom b = _
      unfold {r}.tryFrom at h ⊢
      repeat (refine ite_ok_or h ?_; clear h; intro h)
      rfl)
  size v := by cases v <;> rfl
  enc v := by cases v <;> rfl
""")
lists = {l["rust"] for l in c["lists"]}
for u in c["unions"]:
    r = u[0]
    opts, arms, backs, cases, names = [], [], [], [], []
    pre = ""
    restr = {x["rust"]: x for x in c["restricted"]}
    for k, o in enumerate(u[1]):
        inj = ".inr (" * k + f".inl {{}}" + ")" * k
        injf = "fun a => " + inj.format("a")
        if o[0] in lists:
            opts.append(f"template{o[0]}.option")
            val = f"(struct{o[0]} v)"
            inner = f"generates{o[0]}_inner env"
            f = f"struct{o[0]}"
        else:
            x = restr[o[0]]
            opts.append(f"option{o[0]}")
            val = "v"
            inner = "(id_map _).symm"
            f = "id"
        arms.append(f"  | .{o[0]} v => " + inj.format(val))
        cases.append((o, inj, inner, f))
    proofs.append(("UNION", u, opts, arms, cases))

final = []
done = set()
for p in proofs:
    if isinstance(p, str):
        final.append(p); continue
    _, u, opts, arms, cases = p
    r = u[0]
    for o in u[1]:
        if o[0] not in lists and o[0] not in done:
            done.add(o[0])
            x = {y["rust"]: y for y in c["restricted"]}[o[0]]
            final.append(f"""/-- The functions generated for `{o[0]}`. -/
def option{o[0]} : TOption := .restricted (Ty.rust .{x['ty']}) (.ofNat {x['code']}) {q(x['name'])}
""")
    conds = []
    steps = []
    for fam, by in (("ulong", "byCode"), ("sym", "byName")):
        for k, (o, inj, inner, f) in enumerate(cases):
            lit = f".ulong {o[1]}" if fam == "ulong" else f".sym {q(o[2])}"
            h = f"h{len(conds)}"
            conds.append(h)
            chain = f"({by}_there (by decide) " * k + f"({by}_here rfl)" + ")" * k
            steps.append(f"""  by_cases {h} : d = {lit}
  · subst {h}
    exact (dispatch_{'code' if fam == 'ulong' else 'name'} (os := options{r}) {chain}).trans
      (option_agrees (to := case{r}) (mk := {r}.{o[0]}) {inner if inner.startswith('(') else '(' + inner + ')'} fun _ => rfl)""")
    backarms = "\n".join(f"  | {inj.format('s')} => .{o[0]} " + (f"(ListType.ofT (α := {model(o[0])}) s)" if o[0] in lists else "s") for o, inj, inner, f in cases)
    negs = ", ".join(f"if_neg {h}" for h in conds)
    final.append(f"""/-- The options of `{r}`. -/
def options{r} : List TOption := [{table(opts)}]

/-- The cases of `{r}` in order. -/
def case{r} : {r} → Union options{r}
{chr(10).join(arms)}

/-- The other way round. -/
def uncase{r} : Union options{r} → {r}
{backarms}

theorem dispatch{r} (env : Env) (d : Descriptor) :
    dispatch options{r} env d = case{r} <$> {r}.dispatch env d := by
{chr(10).join(steps)}
  have e1 : byCode env d options{r} = none := {"".join(f"(byCode_cons_ne {h} " for h in conds[:len(cases)])}rfl{")" * len(cases)}
  have e2 : byName env d options{r} = none := {"".join(f"(byName_cons_ne {h} " for h in conds[len(cases):])}rfl{")" * len(cases)}
  unfold dispatch {r}.dispatch
  rw [e1, e2, {negs}]
  rfl

theorem shipped{r}_options : shipped.union {q(r)} = some options{r} := rfl

theorem generates{r} : GeneratesUnion options{r} case{r} where
  bijective := ⟨uncase{r}, fun v => by cases v <;> rfl, fun s => by
    {" <;> ".join(["rcases s with " + " | ".join(["s"] * len(cases)) + " | s"]) } <;> first | rfl | exact s.elim⟩
  decode env fmt := union_agrees dispatch{r} env fmt
  size v := by
    cases v with
{chr(10).join(f"    | {o[0]} v => exact " + (f"generates{o[0]}.size v" if o[0] in lists else "rfl") for o in u[1])}
  enc v := by
    cases v with
{chr(10).join(f"    | {o[0]} v => exact " + (f"generates{o[0]}.enc v" if o[0] in lists else "rfl") for o in u[1])}
""")
fo = [o[0] for o in c["frame"]]
injs = [".inr (" * k + ".inl {}" + ")" * k for k in range(len(fo))]
st = lambda n, v: f"(structTransfer {v}.toTransferPerf, {v}.body)" if n == "Transfer" else f"(struct{n} {v})"
steps, conds = [], []
for fam, by in (("ulong", "byCode"), ("sym", "byName")):
    for k, o in enumerate(c["frame"]):
        lit = f".ulong {o[1]}" if fam == "ulong" else f".sym {q(o[2])}"
        h = f"h{len(conds)}"
        conds.append(h)
        chain = f"({by}_there (by decide) " * k + f"({by}_here rfl)" + ")" * k
        inner = "generatesTransferBody_inner env" if o[0] == "Transfer" else f"generates{o[0]}_inner env"
        steps.append(f"""  by_cases {h} : d = {lit}
  · subst {h}
    exact ((congrArg (uncaseFrame <$> ·) (dispatch_{'code' if fam == 'ulong' else 'name'} (os := optionsFrame) {chain})).trans
      (option_agrees' (back := uncaseFrame) (mk := Frame.{o[0]}) ({inner}) fun _ => rfl)).symm""")
NL = chr(10)
final.append(f"""/-- A transfer as its fields and its body. -/
def bodyTransfer (t : Transfer) : WithBody templateTransfer :=
  (structTransfer t.toTransferPerf, t.body)

/-- The other way round. -/
def unbodyTransfer (s : WithBody templateTransfer) : Transfer :=
  {{ ListType.ofT (α := TransferPerf) s.1 with body := s.2 }}

theorem generatesTransferBody_inner (env : Env) :
    templateTransfer.decBodyInner env = bodyTransfer <$> Transfer.decInner env := by
  funext i
  have h := congrFun (generatesTransfer_inner env) i
  rw [run_map] at h
  unfold TList.decBodyInner Transfer.decInner
  rw [run_bind, run_map, run_bind, h]
  cases TransferPerf.decInner env i with
  | err e => rfl
  | panic p => rfl
  | ok q =>
    obtain ⟨r, p⟩ := q
    cases r <;> rfl

theorem generatesTransferBody : GeneratesBody templateTransfer bodyTransfer where
  bijective := ⟨unbodyTransfer, fun _ => rfl, fun _ => rfl⟩
  decode env fmt := by
    show describedAs env fmt _ _ _ = bodyTransfer <$> describedAs env fmt 20 _ _
    rw [map_describedAs, ← generatesTransferBody_inner]
    rfl
  size v := congrArg (· + _) (generatesTransfer.size v.toTransferPerf)
  enc v := congrArg (· ++ _) (generatesTransfer.enc v.toTransferPerf)

/-- The frame bodies. -/
def optionsFrame : List TOption := [{table([f"template{n}.bodyOption" if n == "Transfer" else f"template{n}.option" for n in fo])}]

theorem shippedFrame_options : shipped.frame.mapM shipped.option = some optionsFrame := rfl

/-- The cases of `Frame` in order. -/
def caseFrame : Frame → Option (Union optionsFrame)
{NL.join(f"  | .{n} v => some ({i.format('(bodyTransfer v)' if n == 'Transfer' else f'(struct{n} v)')})" for n, i in zip(fo, injs))}
  | .Empty => none

/-- The other way round. -/
def uncaseFrame : Union optionsFrame → Frame
{NL.join(f"  | {i.format('s')} => .{n} " + ("(unbodyTransfer s)" if n == "Transfer" else f"(ListType.ofT (α := {n}) s)") for n, i in zip(fo, injs))}

theorem dispatchFrame (env : Env) (d : Descriptor) :
    Frame.dispatch env d = uncaseFrame <$> dispatch optionsFrame env d := by
{NL.join(steps)}
  have e1 : byCode env d optionsFrame = none := {"".join(f"(byCode_cons_ne {h} " for h in conds[:len(fo)])}rfl{")" * len(fo)}
  have e2 : byName env d optionsFrame = none := {"".join(f"(byName_cons_ne {h} " for h in conds[len(fo):])}rfl{")" * len(fo)}
  unfold dispatch Frame.dispatch
  rw [e1, e2, {", ".join(f"if_neg {h}" for h in conds)}]
  rfl

theorem generatesFrame : GeneratesFrame optionsFrame caseFrame uncaseFrame where
  empty := rfl
  left v h := by cases v <;> first | rfl | exact absurd rfl h
  right s := by rcases s with {" | ".join(["s"] * len(fo))} | s <;> first | rfl | exact s.elim
  decode := dispatchFrame
  size s := by
    rcases s with {" | ".join(["s"] * len(fo))} | s
{NL.join("    · exact generatesTransferBody.size (unbodyTransfer s)" if n == "Transfer" else f"    · exact generates{n}.size (ListType.ofT (α := {n}) s)" for n in fo)}
    · exact s.elim
  enc s := by
    rcases s with {" | ".join(["s"] * len(fo))} | s
{NL.join("    · exact generatesTransferBody.enc (unbodyTransfer s)" if n == "Transfer" else f"    · exact generates{n}.enc (ListType.ofT (α := {n}) s)" for n in fo)}
    · exact s.elim
""")
final.append("end Amqp.Codegen\n")
with open(os.path.join(ROOT, "Verif/Proofs/CodegenTypes.lean"), "w") as f:
    f.write("\n".join(final))

props = ["""import Verif.Proofs.CodegenTypes
/-!
# C73: the shipped protocol types are those generated from the shipped specification

Generated by `tools/gen_shipped.py`.  `specification` is `codegen/specification.json`,
`generate` runs the generator on it; `shipped` is the table of what comes out.  The types of
the model, which follow `src/protocol/definitions.rs`, agree with the generated functions in
what they read, in the sizes they announce and in what they write.
-/
set_option autoImplicit false
namespace Amqp.Codegen

/-- **C73.** The generator accepts the shipped specification, and this is what it makes of
it. -/
theorem C73_generate : generate specification = .ok (some shipped) := generate_specification
"""]
def names(xs):
    return table([q(x) for x in xs])
plain = [l["rust"] for l in c["lists"] if l["transfer"] == "false"]
conj = " ∧\n    ".join(f"(shipped.HasList {q(r)} template{r} ∧ Generates template{r} struct{r})" for r in plain)
prf = ",\n   ".join(f"⟨⟨compiled{r}, by simp [shipped], rfl, compiled{r}_template⟩, generates{r}⟩" for r in plain)
props.append(f"""/-- **C73.** The list types. -/
theorem C73_lists : shipped.lists.map (·.rust) = [{names([l['rust'] for l in c['lists']])}] ∧
    {conj} :=
  ⟨rfl,
   {prf}⟩

/-- **C73.** The transfer, which has a body. -/
theorem C73_transfer : shipped.HasBody "Transfer" templateTransfer ∧
    GeneratesBody templateTransfer bodyTransfer :=
  ⟨⟨compiledTransfer, by simp [shipped], rfl, rfl, compiledTransfer_template⟩,
   generatesTransferBody⟩
""")
conj, prf = [], []
for e in c["enums"]:
    r = e["rust"]
    if e["is_symbol"] == "true":
        conj.append(f"(shipped.HasSymbols {q(r)} template{r} ∧\n      GeneratesEnum template{r} template{r}.symbolSize template{r}.symbolEnc item{r})")
        prf.append(f"⟨⟨compiled{r}, by simp [shipped], rfl, rfl, rfl⟩, generates{r}⟩")
    else:
        conj.append(f"(shipped.HasEnum {q(r)} .{e['ty']} template{r} ∧\n      GeneratesEnum template{r} template{r}.size template{r}.enc item{r})")
        prf.append(f"⟨⟨compiled{r}, by simp [shipped], rfl, rfl, rfl, rfl, compiled{r}_template⟩, generates{r}⟩")
j = " ∧\n    ".join(conj); k = ",\n   ".join(prf)
props.append(f"""/-- **C73.** The enumerations. -/
theorem C73_enums : shipped.enums.map (·.rust) = [{names([e['rust'] for e in c['enums']])}] ∧
    {j} :=
  ⟨rfl,
   {k}⟩
""")
conj = " ∧\n    ".join(f"(shipped.union {q(u[0])} = some options{u[0]} ∧ GeneratesUnion options{u[0]} case{u[0]})" for u in c["unions"])
prf = ",\n   ".join(f"⟨shipped{u[0]}_options, generates{u[0]}⟩" for u in c["unions"])
props.append(f"""/-- **C73.** The unions; the described types with an underlying type are the options of
`Section` that are not lists. -/
theorem C73_unions : shipped.unions.map Prod.fst = [{names([u[0] for u in c['unions']])}] ∧
    shipped.restricted.map (·.rust) = [{names([r['rust'] for r in c['restricted']])}] ∧
    {conj} :=
  ⟨rfl, rfl,
   {prf}⟩

/-- **C73.** The frame type, which the template spells out, has the options that the
specification declares as frames. -/
theorem C73_frame : shipped.frame.mapM shipped.option = some optionsFrame ∧
    GeneratesFrame optionsFrame caseFrame uncaseFrame :=
  ⟨shippedFrame_options, generatesFrame⟩

/-- A value of a generated type: an `open` with some fields, as the tuple of its fields. -/
example : structOpen ⟨.lit "c", none, 512, 7, some 30, none, none, none, none, none⟩ =
    (RStr.lit "c", none, (512 : UInt32), (7 : UInt16), some (30 : UInt32), none, none, none, none,
      none, ()) := rfl

end Amqp.Codegen
""")
with open(os.path.join(ROOT, "Verif/Props/CodegenShipped.lean"), "w") as f:
    f.write("\n".join(props))
