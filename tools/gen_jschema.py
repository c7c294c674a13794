#!/usr/bin/env python3
"""Generates lean/Verif/Spec/JsonSchema.lean from the JSON schemas in /repo/schema (see jschema.py)."""
import os, sys
sys.path.insert(0, os.path.dirname(__file__))
from jschema import places, DEFS

def sch(s, atom=False):
    if s[0] in ('str', 'num', 'int', 'bool'): return '.' + s[0]
    if s[0] == 'place': r = f'.place .{s[1]}'
    elif s[0] == 'list': r = f'.list {sch(s[1], True)}'
    elif s[0] == 'since': r = f'.since SpecVersion1_{s[1]} {sch(s[2], True)}'
    elif s[0] == 'alt':
        assert len(s[1]) == 2
        r = f'.alt {sch(s[1][0], True)} {sch(s[1][1], True)}'
    return f'({r})' if atom else r

def main():
    o = []; w = o.append
    w('''import Verif.Model.Version
import Verif.Json.Value

/-!
# What the JSON schemas of CycloneDX declare

GENERATED by `tools/gen_jschema.py` from the schemas that the repository ships for its own tests,
`/repo/schema/bom-1.2-strict.schema.json`, `bom-1.3-strict.schema.json`, `bom-1.4.schema.json` …
`bom-1.7.schema.json` and `jsf-0.82.schemax.json` (signatures); do not edit by hand.

Every object schema is a *place*.  `Place.members p` lists the members that the schema declares for the
objects at place `p`, and what is declared for their values; `since v s` marks what the schemas before
version `v` do not declare.  The six schemas are merged into this one table; the generator checks that for
each of the six versions the table restricted to that version declares exactly the members and kinds of
values that the schema of that version declares, at every place reachable from the root.

`Conforms v s j` says that all of `j`, at any depth, is declared: every member of every object is one
that the schema of version `v` declares for objects at its place, and every value is of a kind (string,
number, integer, boolean, array, object) declared for it.  It is weaker than validity: required members, enumerations,
patterns, formats and lengths are not looked at, and where the schema offers alternatives for an object
(`oneOf`, `anyOf`, `allOf`, `if`/`then`) a member that one of them declares is declared.  Objects that a
schema leaves open (`additionalProperties`) declare the members they list.
-/

namespace Verif

/-- The places for objects.  A place is named after the definition of the schema (`#/definitions/…`) or, if
it has none, after the path that leads there. -/
inductive Place where''')
    for p in places: w(f'  | {p}')
    w('''
/-- What is declared for a value. -/
inductive Sch where
  | str
  | num
  | int
  | bool
  /-- an array of such values -/
  | list (s : Sch)
  /-- an object -/
  | place (p : Place)
  /-- either of two kinds of values -/
  | alt (s t : Sch)
  /-- declared from version `v` on -/
  | since (v : Int) (s : Sch)

/-- The declared members of the objects at a place. -/
def Place.members : Place → List (String × Sch)''')
    for p, ms in places.items():
        w(f'  | .{p} => [')
        w(',\n'.join(f'      ("{k}", {sch(s)})' for k, s in ms) + ']')
    w('''
/-- At version `v` the schema declares everything in the value, where `s` is declared for the value itself.
(`σ` gives for every member of the object what is declared for its value.) -/
inductive Conforms (v : Int) : Sch → Json → Prop
  | str (t : String) : Conforms v .str (.str t)
  | num (l : NumLit) : Conforms v .num (.num l)
  | int (i : Int) : Conforms v .int (.num (.ofInt i))
  | bool (b : Bool) : Conforms v .bool (.bool b)
  | list {s : Sch} {js : List Json} (h : ∀ j ∈ js, Conforms v s j) : Conforms v (.list s) (.arr js)
  | place {p : Place} {ms : List (String × Json)} (σ : String → Sch)
      (declared : ∀ m ∈ ms, p.members.lookup m.1 = some (σ m.1))
      (h : ∀ m ∈ ms, Conforms v (σ m.1) m.2) : Conforms v (.place p) (.obj ms)
  | left {s t : Sch} {j : Json} (h : Conforms v s j) : Conforms v (.alt s t) j
  | right {s t : Sch} {j : Json} (h : Conforms v t j) : Conforms v (.alt s t) j
  | since {n : Int} {s : Sch} {j : Json} (hn : n ≤ v) (h : Conforms v s j) : Conforms v (.since n s) j

/-- A document uses only what the schema of version `v` declares. -/
def Json.Declared (v : Int) (j : Json) : Prop := Conforms v (.place .bom) j

end Verif''')
    open('/verif/lean/Verif/Spec/JsonSchema.lean', 'w').write('\n'.join(o) + '\n')
if __name__ == '__main__': main()
