#!/usr/bin/env python3
"""Generates lean/Verif/Spec/XmlSchema.lean: what the XML schemas of CycloneDX declare."""
import os, sys
sys.path.insert(0, os.path.dirname(os.path.abspath(__file__)))
from xschema import places, VERSIONS, ROOT, XS, read, bomNode, tag, TEXT

V = lambda n: f'SpecVersion1_{n}'
# Lean keywords and the like
def pl(p): return '.' + {'input': 'input', 'data': 'data'}.get(p, p)
def lean(p, atom=False):
    k = p[0]
    if k == 'empty': return '.empty'
    if k == 'el': r = f'.el "{p[1]}" {pl(p[2])}'
    elif k == 'seq': r = '.seqs [' + ', '.join(lean(q) for q in p[1]) + ']'
    elif k == 'choice':
        r = lean(p[1][-1], True)
        for q in reversed(p[1][:-1]): r = f'(.choice {lean(q, True)} {r})'
        r = r[1:-1]
    elif k == 'from':
        r = f'.since {V(p[1])} {lean(p[3], True)}' if p[2] == ('empty',) else f'.switch {V(p[1])} {lean(p[2], True)} {lean(p[3], True)}'
    else: r = f'.{k} {lean(p[1], True)}'
    return f'({r})' if atom else r

# --- the table restricted to a version is the schema of that version -------------------------------------------
def flat(p):
    """content without 'from', empty items and needless nesting; `node` in place of place names is kept by the caller"""
    if p[0] in ('seq', 'choice'):
        qs = []
        for q in p[1]:
            q = flat(q)
            if q == ('empty',): continue
            qs += q[1] if q[0] == p[0] else [q]
        return ('empty',) if not qs else qs[0] if len(qs) == 1 else (p[0], qs)
    if p[0] in ('opt', 'many', 'some'):
        q = flat(p[1]); return q if q == ('empty',) else (p[0], q)
    return p
def at(p, v):
    if p[0] == 'from': return at(p[3] if v >= p[1] else p[2], v)
    if p[0] in ('seq', 'choice'): return (p[0], [at(q, v) for q in p[1]])
    if p[0] in ('opt', 'many', 'some'): return (p[0], at(p[1], v))
    return p
def same(p, q, pairs):
    if p[0] != q[0]: return False
    if p[0] == 'el': pairs.append((p[2], q[2][0])); return p[1] == q[1]
    if p[0] in ('seq', 'choice'): return len(p[1]) == len(q[1]) and all(same(a, b, pairs) for a, b in zip(p[1], q[1]))
    if p[0] in ('opt', 'many', 'some'): return same(p[1], q[1], pairs)
    return True
def check():
    n = 0
    for v in VERSIONS:
        todo = [('bom', bomNode[v][0])]; seen = set()
        while todo:
            p, nd = todo.pop()
            if (p, id(nd)) in seen: continue
            seen.add((p, id(nd))); n += 1
            a, m, b = read(nd, v)
            if p == 'text': assert nd is TEXT; continue
            A, M, B = places[p]
            A = {x: r for x, s, r in A if s is None or s <= v}
            if nd is TEXT:
                assert M and at_empty(B, v) and not A, p; continue
            assert A == a and M == m, (p, v, A, a)
            pairs = []
            assert same(flat(at(B, v)), flat(b), pairs), (p, v, at(B, v), b)
            todo += pairs
    return n
def at_empty(B, v): return flat(at(B, v)) == ('empty',)

def main():
    n = check()
    print(len(places), 'places; checked', n)
    o = []; w = o.append
    w('''import Verif.Model.Version
import Verif.Xml.Value

/-!
# What the XML schemas of CycloneDX declare

GENERATED by `tools/gen_xschema.py` from the schemas that the repository ships for its own tests,
`/repo/schema/bom-1.0.xsd` … `bom-1.7.xsd`; do not edit by hand.

Every complex type is a *place*.  `XPlace.attrs p` lists the attributes that the schema declares for the elements
at place `p`, `XPlace.content p` the elements that may be in them, in which order and how often, and
`XPlace.mixed p` whether text may be in them.  The eight schemas are merged into this one table; the generator
checks that for each of the eight versions the table restricted to that version is the schema of that version, at
every place reachable from the root.

`XValid v p x` says that the element `x` and everything in it, at any depth, is as the schema of version `v`
declares it for place `p`.  It is weaker than validity in that simple types are not looked at (enumerations,
patterns, dates, numbers), nor are keys (`xs:unique`).  Wildcards (`xs:any`, `xs:anyAttribute`) are left out:
only what is listed is declared.
-/

namespace Verif

/-- The places for elements.  A place is named after the complex type of the schema or, if it has none, after the
path that leads there; `text` is the place of all simple types. -/
inductive XPlace where''')
    w('  | text')
    for p in places: w(f'  | {p}')
    w('''  deriving DecidableEq, Repr

/-- A content model. -/
inductive Content where
  /-- Nothing. -/
  | empty
  /-- One element with this name, at this place. -/
  | el (name : String) (p : XPlace)
  /-- One after the other. -/
  | seq (a b : Content)
  /-- One or the other. -/
  | choice (a b : Content)
  /-- `minOccurs="0"` -/
  | opt (a : Content)
  /-- `minOccurs="0" maxOccurs="unbounded"` -/
  | many (a : Content)
  /-- `maxOccurs="unbounded"` -/
  | some (a : Content)
  /-- One thing in the schemas before version `w`, another from then on. -/
  | switch (w : Int) (old new : Content)
  deriving DecidableEq, Repr

/-- One after the other. -/
@[reducible] def Content.seqs : List Content → Content
  | [] => .empty
  | a :: as => .seq a (seqs as)

/-- Declared from version `w` on. -/
@[reducible] def Content.since (w : Int) (a : Content) : Content := .switch w .empty a

/-- An attribute of an element, declared from version `since` on or in all versions. -/
structure XAttr where
  name : String
  since : Option Int := none
  required : Bool := false
  deriving DecidableEq, Repr

/-- Whether the schema of a version declares it. -/
def XAttr.In (d : XAttr) (v : Int) : Prop := ∀ w ∈ d.since, w ≤ v

/-- The attributes that are declared for the elements at a place.  (The declaration of the namespace in the root
is not an attribute to a schema; it is listed here because `Xml` does not tell it apart.) -/
def XPlace.attrs : XPlace → List XAttr''')
    for p, (a, m, b) in places.items():
        a = list(a)
        if p == 'bom': a = [('xmlns', None, False)] + a
        if not a: continue
        items = []
        for x, s, r in a:
            t = f'name := "{x}"'
            if s is not None: t += f', since := some {V(s)}'
            if r: t += ', required := true'
            items.append('{ ' + t + ' }')
        w(f'  | .{p} => [{", ".join(items)}]')
    w('  | _ => []\n')
    w('/-- Whether text may be in the elements at a place. -/\ndef XPlace.mixed : XPlace → Bool')
    w('  | .text => true')
    for p, (a, m, b) in places.items():
        if m: w(f'  | .{p} => true')
    w('  | _ => false\n')
    w('/-- The elements that may be in the elements at a place. -/\ndef XPlace.content : XPlace → Content')
    w('  | .text => .empty')
    for p, (a, m, b) in places.items(): w(f'  | .{p} => {lean(b)}')
    w('''
/-- The elements in the content `xs` are as the content model says; `ok p x` says that `x` is as declared for
place `p`. -/
inductive Content.Matches (v : Int) (ok : XPlace → Xml → Prop) : Content → List Xml → Prop
  | empty : Matches v ok .empty []
  | el {n : String} {p : XPlace} {x : Xml} : x.isElem n = true → ok p x → Matches v ok (.el n p) [x]
  | seq {a b : Content} {l m : List Xml} : Matches v ok a l → Matches v ok b m → Matches v ok (.seq a b) (l ++ m)
  | left {a b : Content} {l : List Xml} : Matches v ok a l → Matches v ok (.choice a b) l
  | right {a b : Content} {l : List Xml} : Matches v ok b l → Matches v ok (.choice a b) l
  | optNone {a : Content} : Matches v ok (.opt a) []
  | optSome {a : Content} {l : List Xml} : Matches v ok a l → Matches v ok (.opt a) l
  | manyNil {a : Content} : Matches v ok (.many a) []
  | manyCons {a : Content} {l m : List Xml} :
    Matches v ok a l → Matches v ok (.many a) m → Matches v ok (.many a) (l ++ m)
  | some {a : Content} {l m : List Xml} :
    Matches v ok a l → Matches v ok (.many a) m → Matches v ok (.some a) (l ++ m)
  | old {w : Int} {a b : Content} {l : List Xml} : v < w → Matches v ok a l → Matches v ok (.switch w a b) l
  | new {w : Int} {a b : Content} {l : List Xml} : w ≤ v → Matches v ok b l → Matches v ok (.switch w a b) l

/-- The elements in a content. -/
def Xml.elements (ks : List Xml) : List Xml := ks.filter fun
  | .elem _ _ _ => true
  | .text _ => false

/-- Every attribute is declared, and every required one is there. -/
def AttrsValid (v : Int) (ds : List XAttr) (as : List (String × String)) : Prop :=
  (∀ a ∈ as, ∃ d ∈ ds, d.name = a.1 ∧ d.In v) ∧
    ∀ d ∈ ds, d.required = true → d.In v → ∃ a ∈ as, a.1 = d.name

/-- Where text may not be there is none but white space. -/
def TextValid (mixed : Bool) (ks : List Xml) : Prop :=
  mixed = true ∨ ∀ s, Xml.text s ∈ ks → ∀ c ∈ s.toList, c = ' ' ∨ c = '\\t' ∨ c = '\\n' ∨ c = '\\r'

/-- The element is as the schema of version `v` declares it for this place, at any depth. -/
inductive XValid (v : Int) : XPlace → Xml → Prop
  | mk {p : XPlace} {name : String} {as : List (String × String)} {ks : List Xml} :
    AttrsValid v p.attrs as → TextValid p.mixed ks →
      Content.Matches v (XValid v) p.content (Xml.elements ks) → XValid v p (.elem name as ks)

/-- The namespace of the schema of a version (`targetNamespace`). -/
def schemaNamespace (v : Int) : Option String :=''')
    for v in VERSIONS:
        w(f'  {"if" if v == 0 else "else if"} v = {V(v)} then some "{ROOT[v].get("targetNamespace")}"')
    w('''  else none

/-- The document is as the schema of version `v` declares it: the root element `bom` in the namespace of the
schema, with everything in it. -/
def XmlDoc.Valid (v : Int) (doc : XmlDoc) : Prop :=
  some doc.space = schemaNamespace v ∧ doc.root.isElem "bom" = true ∧ XValid v .bom doc.root

end Verif''')
    open('/verif/lean/Verif/Spec/XmlSchema.lean', 'w').write('\n'.join(o) + '\n')
if __name__ == '__main__': main()
