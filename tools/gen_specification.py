#!/usr/bin/env python3
"""Writes lean/Verif/Codegen/Specification.lean from codegen/specification.json of the repository."""
import json, sys
REPO = sys.argv[1] if len(sys.argv) > 1 else "/repo"
text = open(REPO + "/codegen/specification.json").read()
doc = json.loads(text, object_pairs_hook=lambda p: p if len({k for k, _ in p}) == len(p) else 1 / 0)
def q(s):
    assert s.isascii() and '"' not in s and "\\" not in s
    return f'"{s}"'
def lean(j):
    if isinstance(j, str): return f".str {q(j)}"
    if isinstance(j, list) and j and isinstance(j[0], tuple):
        return ".obj [" + ", ".join(f"({q(k)}, {lean(v)})" for k, v in j) + "]"
    if isinstance(j, list): return ".arr [" + ", ".join(lean(x) for x in j) + "]"
    raise SystemExit(f"unexpected {j!r}")
def wrap(s, indent):
    out, line = [], indent
    for word in s.split(" "):
        if len(line) + len(word) > 98: out.append(line.rstrip()); line = indent + "  "
        line += word + " "
    out.append(line.rstrip())
    return "\n".join(out)
lines = text.split("\n")
o = """import Verif.Codegen.Definitions
/-! Generated by `tools/gen_specification.py`: the document `codegen/specification.json`. -/
set_option autoImplicit false
namespace Amqp.Codegen

/-- `codegen/specification.json:1-%d`. -/
def specification : Json := .arr [
""" % len([l for l in lines if l])
o += ",\n".join(wrap(lean(t), "  ") for t in doc)
o += "]\n\nend Amqp.Codegen\n"
open("/verif/lean/Verif/Codegen/Specification.lean", "w").write(o)
