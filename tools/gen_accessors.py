#!/usr/bin/env python3
"""Writes lean/Verif/Codegen/Accessors.lean: the accessors the template generates for the
specification, and the accessors that src/protocol/definitions.rs has, read from its text."""
import os, re

ROOT = os.path.join(os.path.dirname(os.path.abspath(__file__)), "..", "lean")
lines = open("/repo/src/protocol/definitions.rs").read().split("\n")

lists, cur = [], None
for i, l in enumerate(lines):
    m = re.match(r"pub struct (\w+) \{", l)
    if m:
        cur = (m.group(1), [])
        lists.append(cur)
    if re.match(r"impl (\w+) \{$", l):
        name = l.split()[1]
        cur = next((x for x in lists if x[0] == name), None)
    m = re.match(r"    pub fn (\w+)\(&self\) -> (.*) \{$", l)
    if m and cur:
        name, ret = m.groups()
        body = lines[i + 1].strip()
        opt = ret.startswith("Option<")
        inner = ret[7:-1] if opt else ret
        if inner == "&str":
            raise SystemExit("unexpected")
        if inner.startswith("&"):
            assert body == (f"self.{name}.as_ref()" if opt else f"&self.{name}"), body
            kind = f'.ref "{inner[1:]}"'
        else:
            assert body == f"self.{name}", body
            kind = f'.copy "{inner}"'
        cur[1].append((name, opt, kind, i + 1))

out = '''import Verif.Codegen.Specification
import Verif.Codegen.Compile
/-!
# The accessors of the generated list types

Generated by `tools/gen_accessors.py`: `shippedAccessors` is read from
`src/protocol/definitions.rs`, the rest follows the template.
-/
set_option autoImplicit false
namespace Amqp.Codegen

/-- What an accessor gives, `codegen/definitions.rs:297-326`: the text of the field, a
reference to the field, or a copy of it. -/
inductive Gives where
  | str
  | ref (ty : String)
  | copy (ty : String)
deriving DecidableEq, Repr

/-- An accessor `fn name(&self)`.  The field that is looked at has the name of the accessor. -/
structure Accessor where
  name : String
  optional : Bool
  gives : Gives
deriving DecidableEq, Repr

/-- `codegen/definitions.rs:298-325`. -/
def GField.accessor (f : GField) : Accessor :=
  { name := f.name, optional := f.optional
    gives := if f.is_str then .str else if f.is_ref then .ref f.ty else .copy f.ty }

/-- The accessors of a list, `codegen/definitions.rs:296-332`. -/
def GDescribed.accessors (l : GDescribed) : List Accessor :=
  l.fields.map GField.accessor ++
    if l.transfer then [{ name := "body", optional := true, gives := .ref "TransferBody" }] else []

/-- The accessors of the list types of the generated file. -/
def accessors (spec : Json) : Gen (List (String × List Accessor)) := do
  let d ← parse spec
  pure (d.lists.map fun l => (l.name, l.accessors))

/-- The accessors of the list types in `src/protocol/definitions.rs`. -/
def shippedAccessors : List (String × List Accessor) := [
'''
rows = []
for name, accs in lists:
    items = [f'    ⟨"{a}", {"true" if o else "false"}, {k}⟩' for a, o, k, _ in accs]
    where = f"  -- `src/protocol/definitions.rs:{accs[0][3]}-{accs[-1][3] + 2}`\n" if accs else ""
    rows.append(where + f'  ("{name}", [' + ("\n" + ",\n".join(items) if items else "") + "])")
out += ",\n".join(rows) + "]\n\nend Amqp.Codegen\n"
with open(os.path.join(ROOT, "Verif/Codegen/Accessors.lean"), "w") as f:
    f.write(out)
