#!/usr/bin/env python3
"""Generates the EncodeW instances of the list types and unions of
lean/Verif/Protocol/Lists.lean into lean/Verif/Protocol/Writes.lean (between the
markers)."""
import re, pathlib
ROOT = pathlib.Path(__file__).resolve().parent.parent / "lean/Verif/Protocol"
text = (ROOT / "Lists.lean").read_text()
out = []
for m in re.finditer(r"(/-- (?:(?!-/).)*-/)\ninstance : Encode (\w+) where\n(.*?)(?=\n\n)", text, re.S):
    doc, name, body = m.groups()
    cite = re.findall(r"`src/[^`]*`", doc)[-1]
    enc = re.search(r"^  enc(.*)", body, re.S | re.M).group(1)
    if enc.lstrip().startswith("v :=") or enc.lstrip().startswith("_ :=") :
        var = enc.split()[0]
        rhs = enc.split(":=", 1)[1]
        hdr, fields = re.match(r"\s*(listHdr .*? \d+)(?:\s*\+\+\s*(.*))?$", rhs, re.S).groups()
        fs = re.findall(r"enc (v\.\w+)", fields or "")
        w = " ++ ".join(f"writes {f}" for f in fs)
        out.append(f"/-- {cite}. -/\ninstance : EncodeW {name} where\n  writes {var} := .put ({hdr}) :: {'(' + w + ')' if fs else '[]'}\n  output v := by simp [enc]\n")
    else:
        arms = re.findall(r"\| \.(\w+) v => (.*)", enc)
        ws, ps = [], []
        for a, r in arms:
            if r == "enc v": ws.append(f"    | .{a} v => writes v")
            else:
                f = r.split()[0]
                code = re.search(r"def " + re.escape(f) + r" .*Descriptor\.ulong (\d+)", text).group(1)
                ws.append(f"    | .{a} v => sectionWrites {code} v")
            ps.append(f"    | .{a} v => by simp [enc{', sectionWrites, ' + f if r != 'enc v' else ''}]")
        out.append(f"/-- {cite}. -/\ninstance : EncodeW {name} where\n  writes\n" + "\n".join(ws) + "\n  output\n" + "\n".join(ps) + "\n")
f = ROOT / "Writes.lean"
t = f.read_text()
a, b = "-- generated from Protocol/Lists.lean by tools/gen_writes.py\n", "-- end of the generated part\n"
i, j = t.index(a) + len(a), t.index(b)
sec = [o for o in out if "EncodeW Section " in o]
rest = [o for o in out if "EncodeW Section " not in o]
f.write_text(t[:i] + "\n" + "\n".join(rest) + "\n" + "\n".join(sec) + "\n" + t[j:])
